#!/usr/bin/env python3
"""Which functions of /repo are cited by the model, and which citations fall outside their file."""
import ast, glob, os, re
REPO = '/repo'
cites = {}
for f in glob.glob('/verif/lean/Verif/**/*.lean', recursive=True):
    t = open(f).read()
    for m in re.finditer(r'([A-Za-z_/0-9]+\.py):(\d+(?:-\d+)?(?:(?:, | and |,)\d+(?:-\d+)?)*)', t):
        base = os.path.basename(m.group(1))
        for r in re.findall(r'\d+(?:-\d+)?', m.group(2)):
            a, _, b = r.partition('-')
            cites.setdefault(base, []).append((int(a), int(b or a), f))
SKIP = ('tests', 'scripts', 'runs', 'analysis', 'data_generation')
tot = cov = 0
for p in sorted(glob.glob(REPO + '/**/*.py', recursive=True)):
    rel = os.path.relpath(p, REPO)
    src = open(p).read()
    n = src.count('\n') + 1
    base = os.path.basename(p)
    for a, b, f in cites.get(base, []):
        if b > n or a > b:
            print('BAD CITATION', base, a, b, f)
    if base in ('HC_dialect.py', 'minimal_dialect.py', '__init__.py'):
        continue
    top = rel.split('/')[0] in SKIP
    for node in ast.walk(ast.parse(src)):
        if isinstance(node, (ast.FunctionDef,)):
            hit = any(not (b < node.lineno or a > node.end_lineno) for a, b, _ in cites.get(base, []))
            if top and not cites.get(base):
                continue
            tot += 1
            cov += hit
            if not hit:
                print('not cited:', rel, node.name, node.lineno, node.end_lineno)
print(cov, 'of', tot, 'functions cited')
