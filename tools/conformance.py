"""Writes lean/Verif/Conformance/Recorded.lean: the inputs and expected texts written in the project's own tests
(x4i3/tests/test_exfor_reaction.py and test_exfor_fields.py) as `example`s about the model. The test files are read as text
(syntax trees) and nothing of the project is run. The dictionaries are cut down to the keys made of words that occur in the inputs."""
import ast, os, re, sys

REPO = '/repo/x4i3/'
HERE = os.path.dirname(os.path.dirname(os.path.abspath(__file__)))


def value(e, env):
    """a text, or (class, text) for an object made from a text, or None"""
    if isinstance(e, ast.Constant) and isinstance(e.value, str):
        return e.value
    if isinstance(e, (ast.Name, ast.Attribute)):
        return env.get(ast.unparse(e))
    if isinstance(e, ast.Call) and len(e.args) == 1:
        f = e.func
        if isinstance(f, ast.Attribute) and f.attr == 'split' and ast.unparse(e.args[0]) == "'\\n'":
            return value(f.value, env)
        if isinstance(f, ast.Attribute) and f.attr.startswith('X4'):
            t = value(e.args[0], env)
            return (f.attr, t) if isinstance(t, str) else None
    return None


def cases(path):
    out = []
    for cl in ast.parse(open(path).read()).body:
        if not isinstance(cl, ast.ClassDef):
            continue
        fs = {f.name: f for f in cl.body if isinstance(f, ast.FunctionDef)}
        base = {}
        for s in fs['setUp'].body if 'setUp' in fs else []:
            if isinstance(s, ast.Assign):
                base[ast.unparse(s.targets[0])] = value(s.value, base)
        for n, f in fs.items():
            if not n.startswith('test'):
                continue
            env = dict(base)
            for s in f.body:
                if isinstance(s, ast.Assign):
                    env[ast.unparse(s.targets[0])] = value(s.value, env)
                elif isinstance(s, ast.Expr) and isinstance(s.value, ast.Call) and ast.unparse(s.value.func) == 'self.assertEqual':
                    a, b = s.value.args[:2]
                    exp = value(b, env)
                    if isinstance(a, ast.Call) and ast.unparse(a.func) in ('str', 'repr') and isinstance(exp, str):
                        o = value(a.args[0], env)
                        if isinstance(o, tuple):
                            out.append((cl.name + '.' + n, s.lineno, ast.unparse(a.func), o[0], o[1], exp))
                            continue
                    print('not used: line', s.lineno, ast.unparse(s)[:100].replace('\n', ' '), file=sys.stderr)
    return out


def lean(s):
    return 'chars!"' + s.replace('\\', '\\\\').replace('"', '\\"').replace('\n', '\\n') + '"'


def dictionary(n):
    with open(REPO + 'dicts/dict%02d.txt' % n, encoding='latin1') as f:
        f.readline()
        num = int(f.readline().split('=')[-1])
        br = [0] + [int(c) for c in re.findall(r'\d+', f.readline().split('=')[-1])]
        d = {}
        for line in f:
            line = line.strip()
            if line:
                b = br + [len(line)]
                fl = [line[b[i]:b[i + 1]].strip() for i in range(num)]
                d[fl[0]] = fl[1:]
    return d


def words(s):
    return set(re.findall(r'[A-Z0-9]+', s.upper()))


def cut(n, texts):
    ws = set().union(*[words(t) for t in texts])
    ws |= {w[4:] for w in ws if n == 3 and len(w) == 7}  # an institute code such as 1USAANL has the key ANL
    if n == 3:
        ws = {w for w in ws if len(w) <= 3 and any(re.search(r'\(\w\w\w[\w ]' + w + r'\)', t) for t in texts)}
    return {k: v for k, v in dictionary(n).items() if words(k) <= ws}


def table(name, doc, d):
    return '/-- %s -/\ndef %s : Dict Str (List Str) := [\n' % (doc, name) + \
        ',\n'.join('  (%s, [%s])' % (lean(k), ', '.join(lean(x) for x in v)) for k, v in d.items()) + ']\n'


TAG = {'X4PlainField': 'XX', 'X4ReactionField': 'REACTION', 'X4MonitorField': 'MONITOR', 'X4TitleField': 'TITLE', 'X4AuthorField': 'AUTHOR',
       'X4InstituteField': 'INSTITUTE', 'X4ReferenceField': 'REFERENCE'}
HEAD = '''import Verif.Model.FieldText
/-! The inputs and expected texts of the project's own tests (`x4i3/tests/test_exfor_reaction.py`, `x4i3/tests/test_exfor_fields.py`),
compared with the model. These are tests of the model, not proofs of properties. Written by `tools/conformance.py`; the dictionaries are cut
down to the codes that occur in the inputs. -/
namespace X4.Recorded
'''

DEFS = '''/-- the dictionaries of the grammars, exfor_dicts.py:58-110 -/
def dicts : TextDicts :=
  ⟨[(chars!"ReferenceTypes", types), (chars!"Journals", journals), (chars!"ConferencesAndBooks", books)], institutes, compounds⟩
/-- the dictionaries of the reactions, exfor_reactions.py:217-263 -/
def rxDicts : RxDicts := ⟨compounds, quantities, modifiers⟩

/-- `str` or `repr` of an object made from a text, exfor_reactions.py and exfor_particle.py -/
def rxText (how cls text : Str) : Except PyErr Str :=
  if cls = chars!"X4Process" then match processOfStr compounds text with
    | .error e => .error e
    | .ok p => if how = chars!"repr" then p.repr else p.str compounds
  else if cls = chars!"X4Reaction" then match reactionOfStr compounds text with
    | .error e => .error e
    | .ok r => if how = chars!"repr" then r.repr else r.str rxDicts
  else if cls = chars!"X4ReactionCombination" then match parseExpression text with
    | .error e => .error e
    | .ok ts => match combination compounds maxDepth ts with
      | .error e => .error e
      | .ok d => if how = chars!"repr" then (Measurement.comb d).repr else (Measurement.comb d).str rxDicts
  else match (if cls = chars!"X4Particle" then particleOfStr text else if cls = chars!"X4Nucleus" then nucleusOfStr text
      else if cls = chars!"X4Isomer" then isomerOfStr text else compoundOfStr text) with
    | .error e => .error e
    | .ok p => if how = chars!"repr" then p.exfor else p.pretty compounds

/-- `str` or `repr` of a field made from its lines, exfor_field.py -/
def fieldText (how tag : Str) (lines : List Str) : Except PyErr Str :=
  match buildField (x4Parsers dicts) (some tag) lines with
  | .error e => .error e
  | .ok b => if how = chars!"repr" then b.repr else b.str rxDicts
'''


def main():
    rx, fl = cases(REPO + 'tests/test_exfor_reaction.py'), cases(REPO + 'tests/test_exfor_fields.py')
    texts = [c[4] for c in rx + fl]
    o = [HEAD]
    for name, n in (('compounds', 9), ('quantities', 36), ('modifiers', 34), ('institutes', 3), ('types', 4), ('journals', 5), ('books', 7)):
        o.append(table(name, '`x4i3/dicts/dict%02d.txt`, cut down' % n, cut(n, texts)))
    o.append(DEFS)
    def emit(c, call):
        o.append('/-- %s, line %d -/\nexample : %s = .ok %s := by decide +kernel\n' % (c[0], c[1], call, lean(c[5])))
    for c in rx:
        emit(c, 'rxText chars!"%s" chars!"%s" %s' % (c[2], c[3], lean(c[4])))
    for c in fl:
        emit(c, 'fieldText chars!"%s" %s [%s]' % (c[2], lean(TAG[c[3]]), ', '.join(lean(l) for l in c[4].split('\n'))))
    o.append('end X4.Recorded')
    os.makedirs(HERE + '/lean/Verif/Conformance', exist_ok=True)
    open(HERE + '/lean/Verif/Conformance/Recorded.lean', 'w').write('\n'.join(o) + '\n')
    print(len(rx), 'reaction texts,', len(fl), 'field texts')


if __name__ == '__main__':
    main()
