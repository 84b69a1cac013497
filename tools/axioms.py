#!/usr/bin/env python3
"""Writes /verif/AXIOMS.md: the axioms every theorem named in MANIFEST.json depends on (`#print axioms`)."""
import json, subprocess, re, collections
m = json.load(open('/verif/MANIFEST.json'))
names = [(c['property'], t) for c in m['claims'] for t in c['theorems']]
src = 'import Verif\n' + ''.join(f'#print axioms {t}\n' for _, t in names)
open('/tmp/axioms.lean', 'w').write(src)
out = subprocess.run(['lake', 'env', 'lean', '/tmp/axioms.lean'], cwd='/verif/lean', capture_output=True, text=True).stdout
out = re.sub(r'\n\s+', ' ', out)
dep = {}
for l in out.splitlines():
    a = re.match(r"'(\S+)' depends on axioms: \[(.*)\]", l)
    b = re.match(r"'(\S+)' does not depend on any axioms", l)
    if a: dep[a.group(1)] = ', '.join(sorted(x.strip() for x in a.group(2).split(',')))
    elif b: dep[b.group(1)] = 'none'
g = collections.defaultdict(list)
for p, t in names:
    g[dep.get(t, '?? ' )].append(t)
with open('/verif/AXIOMS.md', 'w') as f:
    f.write('# Axioms per theorem\n\nGenerated by `tools/axioms.py` from the output of `#print axioms` for every theorem of MANIFEST.json.\n')
    for k in sorted(g, key=lambda k: (k.count(','), k)):
        f.write(f'\n## {k}\n\n' + ''.join(f'* `{t}`\n' for t in g[k]))
print({k: len(v) for k, v in g.items()})
