"""Writes lean/Verif/Conformance/Index.lean: the queries and expected results written in x4i3/tests/test_exfor_manager.py, as `#guard` commands
about the model, with the table `theworks` of the index x4i3/tests/data/index.tbl. The test file is read as text (its syntax tree) and the index
byte by byte according to the description of SQLite's file format; nothing of the project is run and no database is opened. Rows that differ
only in columns not used are written once."""
import ast, sys
sys.path.insert(0, __file__.rsplit('/', 1)[0])
from conformance import REPO, HERE, lean

DATA = open(REPO + 'tests/data/index.tbl', 'rb').read()
PAGE = int.from_bytes(DATA[16:18], 'big')
USABLE = PAGE - DATA[20]


def varint(p):
    n = 0
    for i in range(9):
        b = DATA[p + i]
        if i == 8:
            return (n << 8) | b, p + 9
        n = (n << 7) | (b & 127)
        if b < 128:
            return n, p + i + 1


def record(b):
    """the values of a record"""
    global DATA
    keep, DATA = DATA, b
    hl, p = varint(0)
    types = []
    while p < hl:
        t, p = varint(p)
        types.append(t)
    out, p = [], hl
    for t in types:
        if t == 0:
            out.append(None)
        elif t <= 6:
            n = [0, 1, 2, 3, 4, 6, 8][t]
            out.append(int.from_bytes(b[p:p + n], 'big', signed=True))
            p += n
        elif t in (8, 9):
            out.append(t - 8)
        elif t >= 13 and t % 2:
            n = (t - 13) // 2
            out.append(b[p:p + n].decode('utf-8'))
            p += n
        else:
            raise ValueError('unexpected type %d' % t)
    DATA = keep
    return out


def rows(page):
    """the records of the table with this root page"""
    base = (page - 1) * PAGE
    h = base + (100 if page == 1 else 0)
    kind, n = DATA[h], int.from_bytes(DATA[h + 3:h + 5], 'big')
    ptr = h + (12 if kind == 5 else 8)
    for i in range(n):
        c = base + int.from_bytes(DATA[ptr + 2 * i:ptr + 2 * i + 2], 'big')
        if kind == 5:
            yield from rows(int.from_bytes(DATA[c:c + 4], 'big'))
        else:
            assert kind == 13
            size, c = varint(c)
            _, c = varint(c)
            assert size <= USABLE - 35
            yield record(DATA[c:c + size])
    if kind == 5:
        yield from rows(int.from_bytes(DATA[h + 8:h + 12], 'big'))


SCHEMA = {r[1]: r for r in rows(1)}
assert SCHEMA['theworks'][4].split('(')[1].split(' text')[0] == 'entry'
COLS = 'entry subent pointer author reaction projectile target quantity'.split()
assert [x.split()[0] for x in SCHEMA['theworks'][4].split('(')[1].split(',')][:8] == COLS
TABLE = []
for r in rows(SCHEMA['theworks'][3]):
    r = tuple(r[:8])
    assert all(isinstance(x, str) and '|' not in x and '\n' not in x for x in r), r
    if r not in TABLE[-40:]:
        TABLE.append(r)

TREE = ast.parse(open(REPO + 'tests/test_exfor_manager.py').read())


def guards():
    for c in TREE.body:
        if not isinstance(c, ast.ClassDef):
            continue
        for f in c.body:
            if not isinstance(f, ast.FunctionDef):
                continue
            for s in ast.walk(f):
                if not (isinstance(s, ast.Call) and ast.unparse(s.func) == 'self.assertEqual'):
                    continue
                a, b = s.args[:2]
                if not (isinstance(a, ast.Call) and ast.unparse(a.func) == 'self.dbMgr.query'):
                    continue
                kw = {k.arg: ast.literal_eval(k.value) for k in a.keywords}
                want = ast.literal_eval(b)
                crit = []
                for k, v in kw.items():
                    if k in ('ENTRY', 'SUBENT'):
                        v = '(.int %d)' % v if isinstance(v, int) else '(.str %s)' % lean(v)
                    else:
                        v = lean(v)
                    crit.append('%s := some %s' % (k, v))
                w = ';'.join(' '.join([k] + want[k]) for k in sorted(want))
                yield '/-! `%s`, test_exfor_manager.py:%d -/\n#guard result { %s } = expected "%s"\n' % (f.name, a.lineno, ', '.join(crit), w)


HEAD = '''import Verif.Model.Manager
import Verif.Py.Chars
/-! Generated by `tools/conformance_index.py`: the queries of `x4i3/tests/test_exfor_manager.py` with their expected results, on the index
`x4i3/tests/data/index.tbl`. These are tests of the model (evaluated, not proved). The results are compared as dictionaries, that is up to the
order of their keys. -/
namespace X4.RecordedIndex

/-- a row of `theworks` -/
def rowOf (l : Str) : List Row :=
  match splitChar '|' l with
  | [a, b, c, d, e, f, g, h] => [⟨some a, some b, some c, some d, some e, some f, some g, some h⟩]
  | _ => []

/-- what a test expects -/
def expected (s : String) : Option (Dict Str (List Str)) :=
  some ((splitChar ';' s.toList).flatMap fun x => match splitChar ' ' x with | [] => [] | k :: l => [(k, l)])

'''


def main():
    text = HEAD
    n = 400
    for i in range(0, len(TABLE), n):
        text += '/-- rows of x4i3/tests/data/index.tbl -/\ndef rows%d : String := "%s"\n' % (i // n, '\n'.join('|'.join(r) for r in TABLE[i:i + n]))
    text += '''
/-- the table `theworks`: %d rows -/
def index : List Row := (splitChar '\\n' (String.intercalate "\\n" [%s]).toList).flatMap rowOf

#guard index.length = %d

/-- the result of a query -/
def result (c : Criteria) : Option (Dict Str (List Str)) := (query index c).2.toOption

''' % (len(TABLE), ', '.join('rows%d' % (i // n) for i in range(0, len(TABLE), n)), len(TABLE))
    lost = [r for r in TABLE if r[3] != r[3][:1].upper() + r[3][1:].lower()]
    text += '''/-! rows whose author no search finds (C123) -/
#guard (index.filter fun r => r.author ≠ r.author.map capitalize).length = %d
#guard (index.filter fun r => r.author = some chars!"Le Brun").length ≠ 0 ∧ result { author := some chars!"Le Brun" } = some []

''' % len(lost)
    text += '\n'.join(guards()) + '\nend X4.RecordedIndex\n'
    open(HERE + '/lean/Verif/Conformance/Index.lean', 'w').write(text)


if __name__ == '__main__':
    main()
