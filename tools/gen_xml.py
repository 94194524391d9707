#!/usr/bin/env python3
"""Writes lean/Verif/Model/XmlTables.lean: the messages and enumerations of the XML definitions of the two dialects, and the
enumerations and their constants as they stand in the generated Python files."""
import re, sys
import xml.etree.ElementTree as ET
U = '/repo/mavlink_utils/'
T = {'uint64_t': 'u64', 'int64_t': 'i64', 'uint32_t': 'u32', 'int32_t': 'i32', 'float': 'f32', 'uint16_t': 'u16', 'int16_t': 'i16',
     'uint8_t': 'u8', 'int8_t': 'i8', 'char': 'char', 'uint8_t_mavlink_version': 'u8'}
out = ['''import Verif.Model.Dialect
/-
GENERATED by tools/gen_xml.py from the text of /repo/mavlink_utils/HC_dialect.xml, minimal_dialect.xml, HC_dialect.py and
minimal_dialect.py. Descriptions, units, print formats and the parameters of commands are left out. The type
`uint8_t_mavlink_version` is a `uint8_t`. A value that an entry of an enumeration does not give is `none`.
-/
namespace NR

/-- A `<field type="…" name="…">`, e.g. HC_dialect.xml:1828; `count` is the number in brackets of the type, 0 without. -/
structure XmlField where
  name : String
  type : CType
  count : Nat
  deriving DecidableEq, Repr

/-- A `<message id="…" name="…">`, e.g. HC_dialect.xml:1826-1834. -/
structure XmlMsg where
  id : Nat
  name : String
  fields : List XmlField
  deriving DecidableEq, Repr

/-- An `<enum name="…">` with its entries, e.g. HC_dialect.xml:5-69. -/
structure XmlEnum where
  name : String
  entries : List (Option Nat × String)
  deriving DecidableEq, Repr

/-- A dictionary of Python's `enums`: `enums['…'] = {}` followed by `enums['…'][value] = EnumEntry('…', …)` for each entry, e.g.
HC_dialect.py:268-271. -/
structure PyEnum where
  name : String
  entries : List (Nat × String)
  deriving DecidableEq, Repr
''']
def lines(path):
    return open(path).read().split('\n')
def wrap(items, pre, ind):
    s, cur = [], pre
    for k, i in enumerate(items):
        i = i + (', ' if k + 1 < len(items) else '')
        if len(cur) + len(i.rstrip()) > 118:
            s.append(cur.rstrip()); cur = ' ' * ind
        cur += i
    s.append(cur)
    return '\n'.join(s)
for d, ns in (('HC', 'HcXml'), ('minimal', 'MinimalXml')):
    path = U + d + '_dialect.xml'
    L = lines(path)
    root = ET.parse(path).getroot()
    def at(tag, name):
        g = [i + 1 for i, l in enumerate(L) if re.search(r'<%s [^>]*name="%s"' % (tag, name), l)]
        assert len(g) == 1, (tag, name, g)
        e = next(i + 1 for i in range(g[0] - 1, len(L)) if '</%s>' % tag in L[i])
        return g[0], e
    out.append('namespace %s\nopen CType\n' % ns)
    names = []
    assert not root.findall('include')
    for m in root.find('messages'):
        assert m.tag == 'message' and not m.findall('extensions')
        a, b = at('message', m.get('name'))
        fs = []
        for f in m.findall('field'):
            g = re.fullmatch(r'(\w+?)(?:\[(\d+)\])?', f.get('type'))
            fs.append('⟨"%s", %s, %s⟩' % (f.get('name'), T[g.group(1)], g.group(2) or 0))
        n = 'msg%s' % m.get('id')
        out.append('/-- %s_dialect.xml:%d-%d -/\ndef %s : XmlMsg := ⟨%s, "%s",\n%s]⟩\n' % (d, a, b, n, m.get('id'), m.get('name'), wrap(fs, '  [', 4)))
        names.append(n)
    out.append('/-- The messages of %s_dialect.xml. -/\ndef messages : List XmlMsg :=\n%s]\n' % (d, wrap(names, '  [', 4)))
    names = []
    for e in root.find('enums'):
        assert e.tag == 'enum'
        a, b = at('enum', e.get('name'))
        es = ['(%s, "%s")' % ('none' if x.get('value') is None else 'some %d' % int(x.get('value'), 0), x.get('name')) for x in e.findall('entry')]
        n = 'enum%d' % len(names)
        out.append('/-- %s_dialect.xml:%d-%d -/\ndef %s : XmlEnum := ⟨"%s",\n%s]⟩\n' % (d, a, b, n, e.get('name'), wrap(es, '  [', 4)))
        names.append(n)
    out.append('/-- The enumerations of %s_dialect.xml. -/\ndef enums : List XmlEnum :=\n%s]\n' % (d, wrap(names, '  [', 4)))
    # the Python side
    P = lines(U + d + '_dialect.py')
    py, consts, order, start, end = {}, [], [], {}, {}
    prev = None
    for i, l in enumerate(P):
        g = re.match(r"enums\['(\w+)'\] = \{\}", l)
        if g:
            assert g.group(1) not in py
            py[g.group(1)] = []; order.append(g.group(1)); start[g.group(1)] = end[g.group(1)] = i + 1
        g = re.match(r"enums\['(\w+)'\]\[(-?\d+)\] = EnumEntry\('(\w+)', '''", l)
        if g:
            py[g.group(1)].append((int(g.group(2)), g.group(3))); end[g.group(1)] = i + 1
        elif re.match(r"enums\['\w+'\]\[", l):
            assert '.param[' in l, l
        g = re.match(r'([A-Z][A-Z0-9_]*) = (\d+)( #.*)?$', l)
        if g and any(P[k].startswith("enums['") and ("EnumEntry('%s'" % g.group(1)) in P[k] for k in range(i + 1, min(i + 40, len(P)))):
            consts.append((g.group(1), int(g.group(2))))
    for k, n in enumerate(order):
        out.append('/-- %s_dialect.py:%d-%d -/\ndef py%d : PyEnum := ⟨"%s",\n%s]⟩\n' % (d, start[n], end[n], k, n, wrap(['(%d, "%s")' % x for x in py[n]], '  [', 4)))
    out.append('/-- `enums` of %s_dialect.py, lines %d-%d. -/\ndef pyEnums : List PyEnum :=\n%s]\n' % (d, min(start.values()), max(end.values()), wrap(['py%d' % k for k in range(len(order))], '  [', 4)))
    assert len(consts) == sum(map(len, py.values())), (len(consts), sum(map(len, py.values())))
    out.append('/-- The assignments `NAME = value` that precede the entries of `enums`, %s_dialect.py:%d-%d. -/\ndef constants : List (String × Nat) :=\n%s]\n' % (d, min(start.values()), max(end.values()), wrap(['("%s", %d)' % c for c in consts], '  [', 4)))
    out.append('end %s\n' % ns)
out.append('end NR')
open('/verif/lean/Verif/Model/XmlTables.lean' if len(sys.argv) < 2 else sys.argv[1], 'w').write('\n'.join(out) + '\n')
