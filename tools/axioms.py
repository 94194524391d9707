#!/usr/bin/env python3
"""Write /verif/AXIOMS.md: the axioms each property theorem depends on (needs a finished `lake build`)."""
import json, os, re, subprocess, tempfile
man = json.load(open('/verif/MANIFEST.json'))
names = [(c['property'], t) for c in man['claims'] for t in c['theorems']]
with tempfile.NamedTemporaryFile('w', suffix='.lean', delete=False) as f:
    f.write('import Verif\n' + ''.join(f'#print axioms {t}\n' for _, t in names))
out = subprocess.run(['lake', 'env', 'lean', f.name], cwd='/verif/lean', capture_output=True, text=True).stdout
os.unlink(f.name)
ax = {}
for m in re.finditer(r"'([^']+(?:'+)?)' (?:depends on axioms: \[([^\]]*)\]|does not depend on any axioms)", out):
    ax[m.group(1)] = re.sub(r'\s+', ' ', m.group(2) or 'none')
with open('/verif/AXIOMS.md', 'w') as g:
    g.write('# Axioms of the property theorems\n\nPrinted by `#print axioms`, collected by tools/axioms.py.\n\n')
    g.write('| property | theorem | axioms |\n|---|---|---|\n')
    for p, t in names:
        g.write(f'| {p} | `{t}` | {ax.get(t, "MISSING")} |\n')
print(len(names), 'theorems;', sorted(set(ax.values())), 'missing', [t for _, t in names if t not in ax])
