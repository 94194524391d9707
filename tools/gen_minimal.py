#!/usr/bin/env python3
"""Print lean/Verif/Model/MinimalTable.lean from the text of /repo/mavlink_utils/minimal_dialect.py (read as text, parsed with `ast`)."""
import ast
src = open('/repo/mavlink_utils/minimal_dialect.py').read()
tree = ast.parse(src)
ids = {'heartbeat': 0, 'global_position_int': 33, 'scaled_svs': 212, 'chamber_status': 218, 'system_status_2': 225, 'pinger_data': 234}
def lst(l): return '[' + ', '.join(f'"{x}"' for x in l) + ']'
def pairs(l): return '[' + ', '.join(f'("{a}", {b})' for a, b in l) + ']'
def params(f):
    a = f.args
    assert not (a.vararg or a.kwarg or a.kwonlyargs or a.posonlyargs or f.decorator_list) and a.args[0].arg == 'self'
    names = [x.arg for x in a.args[1:]]
    vals = [d.value for d in a.defaults]
    assert all(v is False or type(v) is int for v in vals)
    return names, list(zip(names[len(names) - len(vals):], [int(v) for v in vals]))
def body(f): return [s for s in f.body if not (isinstance(s, ast.Expr) and isinstance(s.value, ast.Constant))]
out, names = [], {'init': [], 'enc': [], 'send': []}
classes = {c.name: c for c in tree.body if isinstance(c, ast.ClassDef)}
order = []
for c in tree.body:
    if isinstance(c, ast.ClassDef) and c.name.startswith('MAVLink_') and c.name[8:-8] in ids:
        msg = c.name[8:-8]
        order.append(msg)
        fs = [x for x in c.body if isinstance(x, ast.FunctionDef) and x.name == '__init__']
        assert len(fs) == 1
        f = fs[0]
        ps, ds = params(f)
        assert not ds
        st = body(f)
        assert ast.unparse(st[0]) == f'MAVLink_message.__init__(self, {c.name}.id, {c.name}.name)', ast.unparse(st[0])
        for s, n in zip(st[1:4], ['fieldnames', 'instance_field', 'instance_offset']):
            assert ast.unparse(s) == f'self._{n} = {c.name}.{n}'
        asg = []
        for s in st[4:]:
            assert len(s.targets) == 1 and s.targets[0].value.id == 'self'
            asg.append((s.targets[0].attr, f'"{s.value.id}"'))
        out.append(f'/-- minimal_dialect.py:{f.lineno}-{f.end_lineno} `{c.name}.__init__` -/\ndef init{ids[msg]} : InitDef where\n  cls := "{c.name}"\n  msg := min{ids[msg]}\n  params := {lst(ps)}\n  assigns := {pairs(asg)}\n')
mav = [n for n in ast.walk(tree) if isinstance(n, ast.ClassDef) and n.name == 'MAVLink']
assert len(mav) == 1
seen = set()
for f in mav[0].body:
    if not isinstance(f, ast.FunctionDef): continue
    assert f.name not in seen; seen.add(f.name)
    if f.name.endswith('_encode'):
        ps, ds = params(f)
        (r,) = body(f)
        call = r.value
        assert not call.keywords
        out.append(f'/-- minimal_dialect.py:{f.lineno}-{f.end_lineno} -/\ndef encode{ids[f.name[:-7]]} : EncodeDef where\n  name := "{f.name}"\n  params := {lst(ps)}\n  defaults := {pairs(ds)}\n  callee := "{call.func.id}"\n  args := {lst(a.id for a in call.args)}\n')
    elif f.name.endswith('_send'):
        ps, ds = params(f)
        (r,) = body(f)
        call = r.value
        assert ast.unparse(call.func) == 'self.send' and ast.unparse(call.keywords[0]) == 'force_mavlink1=force_mavlink1' and len(call.keywords) == 1
        (inner,) = call.args
        assert not inner.keywords and inner.func.value.id == 'self'
        out.append(f'/-- minimal_dialect.py:{f.lineno}-{f.end_lineno} -/\ndef send{ids[f.name[:-5]]} : SendDef where\n  name := "{f.name}"\n  params := {lst(ps)}\n  defaults := {pairs(ds)}\n  encode := "{inner.func.attr}"\n  args := {lst(a.id for a in inner.args)}\n')
print('''import Verif.Model.Wrappers
import Verif.Model.Minimal
/-
GENERATED by tools/gen_minimal.py from the text of /repo/mavlink_utils/minimal_dialect.py: the constructors of the message classes and the
`*_encode` and `*_send` methods of `class MAVLink`, with the checks listed in WrapperTable.lean.
-/
namespace NR.Minimal
''')
print('\n'.join(out))
print('/-- All constructors. -/\ndef inits : List InitDef := [' + ', '.join(f'init{ids[m]}' for m in order) + ']\n')
print('/-- All `*_encode` methods. -/\ndef encodeDefs : List EncodeDef := [' + ', '.join(f'encode{ids[m]}' for m in order) + ']\n')
print('/-- All `*_send` methods. -/\ndef sendDefs : List SendDef := [' + ', '.join(f'send{ids[m]}' for m in order) + ']\n')
print('end NR.Minimal')
assert len([n for n in seen if n.endswith('_encode')]) == 6 and len([n for n in seen if n.endswith('_send')]) == 6
