"""Writes lean/Verif/Model/CommandTables.lean: the options and the recorded command of every run script in /repo.

The scripts are parsed, not run. Anything the generator does not understand is an error.
"""
import ast, glob, re, sys
from fractions import Fraction

REPO = '/repo/'
FILES = sorted(glob.glob(REPO + 'runs/*/*.py') + glob.glob(REPO + 'scripts/*.py'))


def options(tree):
    out = []
    for n in ast.walk(tree):
        if isinstance(n, ast.Call) and isinstance(n.func, ast.Attribute) and n.func.attr == 'add_argument':
            assert len(n.args) == 1 and n.args[0].value.startswith('--')
            kw = {k.arg: k.value for k in n.keywords}
            assert set(kw) <= {'default', 'help', 'type'}, ast.dump(n)
            out.append((n.lineno, n.args[0].value[2:], kw['type'].id, kw['default']))
    return sorted(out, key=lambda x: x[0])


def default(ty, e):
    v = eval(compile(ast.Expression(e), '', 'eval'))
    if ty == 'str':
        assert isinstance(v, str)
        return f'.str "{v}"'
    if isinstance(v, int):
        return f'.int {v}' if v >= 0 else f'.int ({v})'
    assert ty == 'float'

    def q(e):
        if isinstance(e, ast.BinOp) and isinstance(e.op, ast.Mult):
            return q(e.left) * q(e.right)
        return Fraction(repr(e.value))
    f = q(e)
    return f'.float ({f.numerator} / {f.denominator})'


def flat(e):
    if isinstance(e, ast.BinOp):
        assert isinstance(e.op, ast.Add)
        return flat(e.left) + flat(e.right)
    if isinstance(e, ast.Constant):
        return e.value
    if isinstance(e, ast.Call):
        assert e.func.id == 'str'
        return '{' + ast.unparse(e).replace(' ', '') + '}'
    assert isinstance(e, ast.JoinedStr), ast.dump(e)
    return ''.join(v.value if isinstance(v, ast.Constant) else '{' + ast.unparse(v.value).replace(' ', '') + '}' for v in e.values)


class Commands(ast.NodeVisitor):
    """The assignments to cmd with the conditions they stand under, and all other assignments of names."""
    def __init__(self):
        self.conds, self.cmds, self.names = [], [], {}

    def visit_FunctionDef(self, n):
        pass

    def visit_If(self, n):
        t = ast.unparse(n.test)
        for b in n.body:
            self.conds.append(t); self.visit(b); self.conds.pop()
        for b in n.orelse:
            self.conds.append(f'not ({t})'); self.visit(b); self.conds.pop()

    def visit_Assign(self, n):
        if len(n.targets) == 1 and isinstance(n.targets[0], ast.Name):
            if n.targets[0].id == 'cmd':
                assert not self.cmds
                self.cmds.append((n.lineno, list(self.conds), flat(n.value)))
            else:
                self.names.setdefault(n.targets[0].id, []).append(ast.unparse(n.value))

    def visit_AugAssign(self, n):
        if isinstance(n.target, ast.Name) and n.target.id == 'cmd':
            self.cmds.append((n.lineno, list(self.conds), flat(n.value)))


CONDS = {(): '.always', ('args.N > 0',): '.nPos', ('window_len is not None',): '.win', ('not (window_len is not None)',): '.noWin',
         ('processes is not None',): '.procs', ('args.N > 0', 'processes is not None'): '.nPosProcs',
         ('args.multiply_data > 0',): '.mulPos'}


def source(hole, names, script):
    if hole == '0':
        return '.zero'
    m = re.fullmatch(r'\{(?:str\()?([A-Za-z_.]+)\)?\}', hole)
    x = m.group(1)
    if x.startswith('args.'):
        return f'.arg "{x[5:]}"'
    vals = names[x]
    if x == 'n':
        assert vals[-1] == 'len(encoded)', vals
        return '.count'
    assert len(vals) == 1, (x, vals)
    v = vals[0]
    if x == 'window_len':
        assert v == 'args.window_len if args.window_len > 0 else None'
        return '.window'
    if x == 'processes':
        assert v == 'args.processes if args.processes > 0 else None'
        return '.procs'
    m = re.fullmatch(r'args\.(\w+)', v)
    if m:
        return f'.arg "{m.group(1)}"'
    m = re.fullmatch(r'bool\(args\.(\w+)\)', v)
    assert m, v
    return f'.truth "{m.group(1)}"'


def main():
    out = ['import Verif.Model.Command', '/-', 'Generated by tools/gen_commands.py from the run scripts. Do not edit.', '-/',
           'namespace NR.Command', '']
    defs = []
    for f in FILES:
        tree = ast.parse(open(f).read())
        opts = options(tree)
        v = Commands(); v.visit(tree)
        if not v.cmds:
            continue
        path = f[len(REPO):]
        pieces = []
        for l, conds, text in v.cmds:
            conds = tuple(c for c in conds if c != "__name__ == '__main__'")
            ws = text.split()
            if l == v.cmds[0][0]:
                assert ws[:2] == ['python', '{__file__}'] and not conds
                ws = ws[2:]
            else:
                assert text.startswith(' ')
            assert len(ws) % 2 == 0
            for a, b in zip(ws[::2], ws[1::2]):
                assert a.startswith('--')
                pieces.append(f'⟨{CONDS[conds]}, "{a[2:]}", {source(b, v.names, path)}⟩')
        name = 's%02d' % len(defs)
        defs.append(name)
        last = v.cmds[-1][0]
        out.append(f'/-- {path}:{opts[0][0]}-{opts[-1][0]} (options), {v.cmds[0][0]}-{last} (command). -/')
        out.append(f'def {name} : Script where')
        out.append(f'  file := "{path}"')
        out.append('  opts := [' + ',\n    '.join(f'⟨"{n}", .{t}, {default(t, d)}⟩' for _, n, t, d in opts) + ']')
        out.append('  pieces := [' + ',\n    '.join(pieces) + ']')
        out.append('')
    out.append('/-- All scripts that record their command. -/')
    out.append('def scripts : List Script := [' + ', '.join(defs) + ']')
    out += ['', 'end NR.Command', '']
    open(sys.argv[1] if len(sys.argv) > 1 else '/verif/lean/Verif/Model/CommandTables.lean', 'w').write('\n'.join(out))


main()
