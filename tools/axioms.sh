#!/bin/sh
# Rebuild AXIOMS.md: the axioms of every theorem in MANIFEST.json (needs a finished `lake build`).
cd "$(dirname "$0")/.." || exit 1
f=$(mktemp --suffix=.lean)
{ echo "import Verif"; python3 -c "
import json
for c in json.load(open('MANIFEST.json'))['claims']:
    for t in c['theorems']: print('#print axioms', t)"; } > "$f"
(cd lean && lake env lean "$f") > "$f.out" 2>&1
python3 - "$f.out" <<'P' > AXIOMS.md
import re, sys
t = open(sys.argv[1]).read()
print('# Axioms\n\nOutput of `#print axioms` for every theorem in MANIFEST.json.\n')
g = {}
for m in re.finditer(r"'(\S+)' (does not depend on any axioms|depends on axioms:\s*\[([^\]]*)\])", t):
    ax = ', '.join(x.strip() for x in (m.group(3) or 'none').split(','))
    g.setdefault(ax, []).append(m.group(1))
for ax in sorted(g):
    print(f'## {ax}\n\n{len(g[ax])} theorems\n')
    for n in g[ax]: print(f'* `{n}`')
    print()
P
