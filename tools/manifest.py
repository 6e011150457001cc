#!/usr/bin/env python3
"""Collects theorems named Cnn_* from lean/Verif/Props and writes MANIFEST.json.

Status: `notes.json` next to this file may give {"C01": {"status": "...", "note": "..."}}.
"""
import json, re, glob, os
R = os.path.dirname(os.path.dirname(os.path.abspath(__file__)))
thms = {}
for f in sorted(glob.glob(R + '/lean/Verif/Props/*.lean')):
    ns = 'ArgRouter.Props'
    for m in re.finditer(r'^theorem (C(\d\d\d?)_\w+)', open(f).read(), re.M):
        thms.setdefault('C' + m.group(2), []).append(ns + '.' + m.group(1))
notes = json.load(open(R + '/tools/notes.json'))
claims = []
for l in open(R + '/properties.jsonl'):
    i = json.loads(l)['id']
    t = thms.get(i, [])
    n = notes.get(i, {})
    if not t:
        if 'status' in n:
            claims.append({'property': i, 'status': n['status'], 'theorems': [], 'note': n.get('note', '')})
        continue
    st = n.get('status') or ('partial' if any(x.endswith('_false') or x.endswith('_partial') for x in t) else 'proved')
    claims.append({'property': i, 'status': st, 'theorems': t, 'note': n.get('note', '')})
json.dump({'claims': claims}, open(R + '/MANIFEST.json', 'w'), indent=1)
print(len(claims), 'claims', sum(c['status'] == 'proved' for c in claims), 'proved')
