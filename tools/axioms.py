#!/usr/bin/env python3
"""Writes AXIOMS.md: the axioms each claim theorem depends on, as reported by Lean. Needs a build."""
import json, os, re, subprocess, tempfile
R = os.path.dirname(os.path.dirname(os.path.abspath(__file__)))
names = [t for c in json.load(open(R + '/MANIFEST.json'))['claims'] for t in c['theorems']]
with tempfile.NamedTemporaryFile('w', suffix='.lean', delete=False) as f:
    f.write('import Verif\n' + ''.join('#print axioms %s\n' % n for n in names))
o = subprocess.run(['lake', 'env', 'lean', f.name], cwd=R + '/lean', capture_output=True, text=True).stdout
os.unlink(f.name)
ax = {}
for m in re.finditer(r"'([^']+(?:'[^' ]*)?)' (does not depend on any axioms|depends on axioms: \[([^\]]*)\])", o):
    ax[m.group(1)] = ' '.join((m.group(3) or 'none').split())
out = ['# Axioms of the claim theorems', '', '| Theorem | Axioms |', '|---|---|']
for n in names: out.append('| `%s` | %s |' % (n.split('.')[-1], ax[n]))
open(R + '/AXIOMS.md', 'w').write('\n'.join(out) + '\n')
bad = {a for v in ax.values() for a in v.split(', ')} - {'none', 'propext', 'Classical.choice', 'Quot.sound'}
print(len(names), 'theorems;', 'other axioms: %s' % bad if bad else 'no other axioms')
