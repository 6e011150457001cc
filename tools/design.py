#!/usr/bin/env python3
"""Writes the results section of DESIGN.md from properties.jsonl and MANIFEST.json."""
import json, os
R = os.path.dirname(os.path.dirname(os.path.abspath(__file__)))
M = '<!-- results: written by tools/design.py -->'
claims = {c['property']: c for c in json.load(open(R + '/MANIFEST.json'))['claims']}
out = [M, '', '## Results', '',
       'Status per property; "partial" means that the statement in `properties.jsonl` is not proved in full,',
       'in nearly all cases because it is false of the code in a corner that a `_false` theorem exhibits.', '']
for l in open(R + '/properties.jsonl'):
    p = json.loads(l)
    c = claims.get(p['id'])
    if c is None: continue
    names = ', '.join('`%s`' % t.split('.')[-1] for t in c['theorems'])
    out.append('* %s %s – %s. %s%s' % (p['id'], p['title'], c['status'], names, '. ' + c['note'] if c['note'] else '.'))
s = open(R + '/DESIGN.md').read()
s = s[:s.index(M)] + '\n'.join(out) + '\n'
open(R + '/DESIGN.md', 'w').write(s)
