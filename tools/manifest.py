#!/usr/bin/env python3
"""Rebuild MANIFEST.json from the theorem names in lean/Verif/Props and the notes below."""
import json, re, glob, os
here = os.path.dirname(os.path.abspath(__file__))
root = os.path.dirname(here)
notes = json.load(open(os.path.join(here, 'notes.json')))
props = [json.loads(l) for l in open(os.path.join(root, 'properties.jsonl'))]
th = {}
for f in sorted(glob.glob(os.path.join(root, 'lean/Verif/Props/*.lean'))):
    ns = []
    for line in open(f):
        m = re.match(r'namespace (\S+)', line)
        if m: ns.append(m.group(1))
        m = re.match(r'end (\S+)', line)
        if m and ns and ns[-1] == m.group(1): ns.pop()
        m = re.match(r'theorem (C\d+)_(\S+)', line)
        if m:
            th.setdefault(m.group(1), []).append('.'.join(ns + [m.group(1) + '_' + m.group(2)]))
claims = []
for p in props:
    i = p['id']
    n = notes.get(i, {})
    t = th.get(i, [])
    st = n.get('status', 'proved') if t else n.get('status', 'not_applicable')
    note = n.get('note', '')
    if not t and not note: note = 'not modelled yet'
    claims.append(dict(property=i, status=st, theorems=t, note=note))
json.dump({'claims': claims}, open(os.path.join(root, 'MANIFEST.json'), 'w'), indent=1)
unknown = set(th) - {p['id'] for p in props}
print('theorems', sum(map(len, th.values())), 'unknown', unknown, 'missing', [c['property'] for c in claims if not c['theorems']])
