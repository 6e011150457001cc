import re
B='/repo/include/arg_router/utility/utf8/'
def cls(f):
    s=open(B+f+'.hpp').read()
    return s
def gen(f,name,mod,classes):
    s=open(B+f+'.hpp').read()
    lines=s.split('\n')
    i=[k for k,l in enumerate(lines) if 'std::array<code_point::range' in l][0]
    body='\n'.join(lines[i:])
    j=[k for k,l in enumerate(lines) if k>i and l.startswith('}}')][0]
    n=int(re.search(r'range, (\d+)>',lines[i]).group(1))
    ents=re.findall(r'\{\s*0x([0-9A-Fa-f]+),\s*0x([0-9A-Fa-f]+)(?:,\s*([^}]*?))?\}',body)
    print(f,n,len(ents),i+1,j+1,ents[:2])
    assert len(ents)==n
    out=[]
    for a,b,m in ents:
        if m.strip()=='' : mm=0
        else:
            m=m.strip()
            mm=int(m,0) if re.match(r'^(0x)?[0-9A-Fa-f]+$',m) else classes[m.split('::')[-1].rstrip(')').strip()]
        out.append((int(a,16),int(b,16),mm))
    txt='import Verif.Utf8.Range\n\n/-! # Generated from include/arg_router/utility/utf8/%s.hpp:%d-%d (do not edit) -/\n\nnamespace ArgRouter.Utf8\n\n'%(f,i+1,j+1)
    CH=250
    chunks=[out[k:k+CH] for k in range(0,len(out),CH)]
    for ci,c in enumerate(chunks):
        txt+='/-- Part %d of `%s`, %s.hpp:%d-%d. -/\ndef %s%d : List Range := [\n'%(ci,name,f,i+1,j+1,name,ci)
        row=['⟨0x%X, 0x%X, %d⟩'%e for e in c]
        txt+=',\n'.join('  '+', '.join(row[k:k+4]) for k in range(0,len(row),4))+']\n\n'
    txt+='/-- The table of %s.hpp:%d-%d, %d entries. -/\ndef %s : List Range :=\n  %s\n\nend ArgRouter.Utf8\n'%(f,i+1,j+1,n,name,' ++ '.join('%s%d'%(name,k) for k in range(len(chunks))))
    open('/verif/lean/Verif/Utf8/%s.lean'%mod,'w').write(txt)
def enum(f):
    s=open(B+f+'.hpp').read()
    m=re.search(r'enum class \w+[^{]*\{(.*?)\}',s,re.S)
    names=[re.sub(r'//.*','',l).strip().rstrip(',').split('=')[0].strip() for l in m.group(1).split('\n')]
    names=[x for x in names if x and not x.startswith('*') and not x.startswith('/')]
    print(f,names)
    return {x:k for k,x in enumerate(names)}
gen('whitespace','whitespaceTable','TableWhitespace',{})
gen('double_width','doubleWidthTable','TableDoubleWidth',{})
gen('zero_width','zeroWidthTable','TableZeroWidth',{})
gen('grapheme_cluster_break','graphemeTable','TableGrapheme',enum('grapheme_cluster_break'))
gen('line_break','lineTable','TableLine',enum('line_break'))
