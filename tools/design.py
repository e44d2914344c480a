#!/usr/bin/env python3
"""Rebuild DESIGN.md from design_head.md, the properties, the manifest and coverage.md."""
import json, os
here = os.path.dirname(os.path.abspath(__file__))
root = os.path.dirname(here)
P = [json.loads(l) for l in open(os.path.join(root, 'properties.jsonl'))]
M = {c['property']: c for c in json.load(open(os.path.join(root, 'MANIFEST.json')))['claims']}
out = open(os.path.join(here, 'design_head.md')).read()
out += open(os.path.join(here, 'coverage.md')).read()
out += '\n## Properties\n\n'
for p in P:
    c = M[p['id']]
    out += f"* **{p['id']} {p['title']}** ({c['status']}). {p['statement']}"
    if c['note']:
        out += f" *{c['note']}*"
    short = [t.split('.')[-1] for t in c['theorems']]
    out += f"\n  Theorems: {', '.join('`%s`' % t for t in short)}.\n" if short else '\n'
open(os.path.join(root, 'DESIGN.md'), 'w').write(out)
