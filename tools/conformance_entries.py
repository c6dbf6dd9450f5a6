"""Writes lean/Verif/Conformance/Entries.lean: the inputs and expected results written in x4i3/tests/test_exfor_entry.py, with the entry files
E0783.x4 and 12898.x4, in test_exfor_dataset.py, test_exfor_full_integration.py and (partly) in test_exfor_manager.py, with files in x4i3/tests/data/db, as `#guard` commands
about the model. The test files are read as text (their syntax trees) and nothing of the project is run. The dictionaries are cut down to the
keys made of words that occur in the entry files. The index (a binary file) is not read: instead of it there are rows for the subentries which
the tests of the manager expect to be found."""
import ast, re, sys
sys.path.insert(0, __file__.rsplit('/', 1)[0])
from conformance import REPO, HERE, lean, table, cut

TREE = ast.parse(open(REPO + 'tests/test_exfor_entry.py').read())
TOP = {s.targets[0].id: s.value.value for s in TREE.body if isinstance(s, ast.Assign) and isinstance(s.value, ast.Constant)}


def test(cl, name):
    for c in TREE.body:
        if isinstance(c, ast.ClassDef) and c.name == cl:
            for f in c.body:
                if isinstance(f, ast.FunctionDef) and f.name == name:
                    return f


def asserted(cl, name):
    """the asserted equations as (line, left side as text, right side as a value)"""
    env, out = dict(TOP), []
    for s in test(cl, name).body:
        if isinstance(s, ast.Assign):
            try:
                env[ast.unparse(s.targets[0])] = ast.literal_eval(s.value)
            except ValueError:
                pass
        elif isinstance(s, ast.Expr) and isinstance(s.value, ast.Call) and ast.unparse(s.value.func) == 'self.assertEqual':
            a, b = s.value.args[:2]
            v = env.get(b.id) if isinstance(b, ast.Name) else None
            if v is None:
                try:
                    v = ast.literal_eval(b)
                except ValueError:
                    continue
            out.append((s.lineno, ast.unparse(a), v))
    return out, env


def subents(f):
    """as in setUp"""
    out, cur = [], ''
    for line in open(REPO + 'tests/' + f).read().replace('\r', '').split('\n'):
        if line.startswith('ENTRY') or line.startswith('ENDENTRY'):
            continue
        cur += line + '\n'
        if line.startswith('ENDSUBENT'):
            out.append(cur)
            cur = ''
    return out


HEAD = '''import Verif.Model.FieldText
import Verif.Model.EntryText
import Verif.Model.DatasetText
import Verif.Model.Manager
import Mathlib.Data.Nat.Sqrt
/-! The inputs and expected results of the project's own tests of entries (`x4i3/tests/test_exfor_entry.py`, with the files `E0783.x4` and
`12898.x4`), of datasets (`test_exfor_dataset.py`), of both (`test_exfor_full_integration.py`) and some of those of the manager (`test_exfor_manager.py`, with files in `data/db`), compared with the model, from the lines of the files to the printed datasets. These are tests of the model (evaluated, not proved). Written by `tools/conformance_entries.py`; the dictionaries are cut down to the codes that occur in the files. Numbers are exact
decimals here, which is what `float` and `repr` amount to for the few digits that occur. -/
namespace X4.RecordedEntries

/-- decimal numbers `m·10^e`; `m` has no last digit 0 -/
structure Dec where
  m : Int
  e : Int
  deriving DecidableEq, Repr

/-- without last digits 0 -/
def normAux : Nat → Int → Int → Dec
  | 0, m, e => ⟨m, e⟩
  | n + 1, m, e => if m = 0 then ⟨0, 0⟩ else if m % 10 = 0 then normAux n (m / 10) (e + 1) else ⟨m, e⟩
def norm (m e : Int) : Dec := normAux 60 m e

def decAdd (x y : Dec) : Dec :=
  if x.e ≤ y.e then norm (x.m + y.m * 10 ^ (y.e - x.e).toNat) x.e else norm (x.m * 10 ^ (x.e - y.e).toNat + y.m) y.e

/-- one unit of the numbers with 30 digits after the point that `acos` is computed with -/
def unit : Int := 10 ^ 30
def fixMul (x y : Int) : Int := x * y / unit
def fixDiv (x y : Int) : Int := x * unit / y
def fixSqrt (x : Int) : Int := Nat.sqrt (x * unit).toNat
/-- `arctan t = 2 arctan (t / (1 + √(1 + t²)))`, used four times, and then the series -/
def fixAtan (t : Int) : Int :=
  let half (t : Int) : Int := fixDiv t (unit + fixSqrt (unit + fixMul t t))
  let t := half (half (half (half t)))
  16 * ((List.range 40).foldl (fun (st : Int × Int) k => (st.1 + (if k % 2 = 0 then 1 else -1) * st.2 / (2 * k + 1 : Nat), fixMul (fixMul st.2 t) t)) (0, t)).1
/-- `arccos x = 2 arctan (√(1 - x²) / (1 + x))` -/
def fixAcos (x : Int) : Int :=
  if x = -unit then 3141592653589793238462643383279 else 2 * fixAtan (fixDiv (fixSqrt (unit - fixMul x x)) (unit + x))

/-- Quotients, square roots and angles are taken to 20 digits or more. -/
instance : PyNum Dec where
  ofLit
    | .fin neg m e => norm (if neg then -(m : Int) else m) e
    | _ => ⟨0, 0⟩
  dec := norm
  degPerRad := ⟨57295779513082320876798154814105170, -33⟩
  add := decAdd
  sub x y := decAdd x ⟨-y.m, y.e⟩
  mul x y := norm (x.m * y.m) (x.e + y.e)
  div x y := if y.m = 0 then .error .zeroDivisionError else .ok (norm (x.m * 10 ^ 30 / y.m) (x.e - y.e - 30))
  pct x := norm x.m (x.e - 2)
  abs x := ⟨x.m.natAbs, x.e⟩
  sqrt x := if x.m < 0 then .error .valueError
    else if x.e % 2 = 0 then .ok (norm (Nat.sqrt (x.m.toNat * 10 ^ 40)) (x.e / 2 - 20))
    else .ok (norm (Nat.sqrt (x.m.toNat * 10 ^ 41)) ((x.e - 1) / 2 - 20))
  acos x :=
    let y := if x.e ≥ -30 then x.m * 10 ^ (x.e + 30).toNat else x.m / 10 ^ (-30 - x.e).toNat
    if y < -unit ∨ unit < y then .error .valueError else .ok (norm (fixAcos y) (-30))

/-- `repr` of a `float` (a Python built-in) -/
def Dec.text (x : Dec) : Str :=
  let ds := natStr x.m.natAbs
  let p : Int := ds.length + x.e
  (if x.m < 0 then ['-'] else []) ++
  if x.m = 0 then chars!"0.0"
  else if p ≤ -4 ∨ 16 < p then
    ds.take 1 ++ (if ds.length = 1 then [] else ['.'] ++ ds.drop 1) ++ (if p < 1 then chars!"e-" else chars!"e+") ++
      (if (p - 1).natAbs < 10 then ['0'] else []) ++ natStr (p - 1).natAbs
  else if p ≤ 0 then chars!"0." ++ List.replicate p.natAbs '0' ++ ds
  else if ds.length ≤ p.toNat then ds ++ List.replicate (p.toNat - ds.length) '0' ++ chars!".0"
  else ds.take p.toNat ++ ['.'] ++ ds.drop p.toNat

/-- rounded to 12 digits, as `format(j, '.12g')` does -/
def Dec.round12 (x : Dec) : Dec :=
  let k := (natStr x.m.natAbs).length - 12
  let q := x.m.natAbs / 10 ^ k
  let r := 2 * (x.m.natAbs % 10 ^ k)
  let q' := if r < 10 ^ k ∨ (r = 10 ^ k ∧ q % 2 = 0) then q else q + 1
  if k = 0 then x else norm (if x.m < 0 then -(q' : Int) else q') (x.e + k)

/-- `repr` of a `float` read from a text (a Python built-in) -/
def litText (x : FloatLit) : Str := (PyNum.ofLit x : Dec).text
'''

DEFS = '''/-- the dictionaries of the grammars, exfor_dicts.py:58-110 -/
def dicts : TextDicts :=
  ⟨[(chars!"ReferenceTypes", types), (chars!"Journals", journals), (chars!"ConferencesAndBooks", books)], institutes, compounds⟩
/-- the dictionaries of the reactions, exfor_reactions.py:217-263 -/
def rxDicts : RxDicts := ⟨compounds, quantities, modifiers⟩

/-- how reactions, monitors and numbers are printed -/
def texts : DsTexts Measurement Dec where
  rx m := match m.str rxDicts with
    | .ok s => s
    | .error _ => chars!"?"
  mon m := match m.tupleRepr with
    | .ok s => s
    | .error _ => chars!"?"
  num x := x.round12.text

/-- `X4Entry(…)` -/
def entryOf (raw : List Str) : Except PyErr (Entry Measurement) := Entry.build (x4Parsers dicts) raw

/-- the sections of the first subentry -/
def section1 (raw : List Str) (k : Str) : Except PyErr (Sec Measurement) :=
  (entryOf raw).bind fun e => (e.getItem (.int 1)).bind fun s => s.sections.get k

/-- the datasets -/
def datasets (raw : List Str) : Except PyErr (Dict DsKey (DataSet Measurement Dec)) :=
  (entryOf raw).bind fun e => (e.getDataSets (x4RxOps rxDicts) []).map fun st => st.datasets
/-- the simplified datasets -/
def simplified (raw : List Str) : Except PyErr (Dict DsKey (DataSet Measurement Dec)) :=
  (entryOf raw).bind fun e => (e.getSimplifiedDataSets (x4RxOps rxDicts) [] false).map fun st => st.datasets

/-- the legends -/
def legends (r : Except PyErr (Dict DsKey (DataSet Measurement Dec))) : Except PyErr (List (DsKey × Str)) :=
  r.map fun ds => ds.map fun kd => (kd.1, kd.2.info.record.legend)
/-- the same keys and values (dictionaries are compared without regard to the order) -/
def sameDict {κ : Type} [DecidableEq κ] (r : Except PyErr (List (κ × Str))) (l : List (κ × Str)) : Bool :=
  match r with
  | .ok d => d.length == l.length && l.all fun x => decide (x ∈ d)
  | .error _ => false

/-- `str` of one of the datasets -/
def strOf (r : Except PyErr (Dict DsKey (DataSet Measurement Dec))) (k : DsKey) : Except PyErr Str :=
  r.bind fun ds => (ds.get k).bind fun d => d.str texts
/-- the CSV file of one of the datasets -/
def csvOf (r : Except PyErr (Dict DsKey (DataSet Measurement Dec))) (k : DsKey) : Except PyErr Str :=
  r.bind fun ds => (ds.get k).map fun d => d.csv texts
'''

DB = '''/-- order of the rows in `sort()` -/
def cellLt : Option Dec → Option Dec → Bool
  | some x, some y => decide ((decAdd x ⟨-y.m, y.e⟩).m < 0)
  | none, some _ => true
  | _, none => false
def rowLe : List (Option Dec) → List (Option Dec) → Bool
  | [], _ => true
  | _ :: _, [] => false
  | x :: xs, y :: ys => if cellLt x y then true else if cellLt y x then false else rowLe xs ys

/-- rows of the index for the subentries that the queries of the tests find -/
def index : List Row :=
  [chars!"13787002", chars!"14129002", chars!"21971003", chars!"20795014", chars!"20795015", chars!"13883002"].map (fun s =>
    ⟨some (s.take 5), some s, some [' '], some [], some chars!"N,2N", some ['N'], some chars!"PU-239", some chars!"SIG"⟩) ++
  [⟨some chars!"E0783", some chars!"E0783002", some [' '], some [], some chars!"D,EL", some ['D'], some chars!"H-1", some chars!"POL/DA"⟩] ++
  [chars!"11321004", chars!"11314002", chars!"12326006", chars!"20576003"].map (fun s => ⟨some (s.take 5), some s, some [' '], some [], some [], some [], some [], some []⟩)

/-- `str` of a dataset of an entry that is found, simplified in either way or not -/
def foundStr (c : Criteria) (k : DsKey) (simplify : Bool) (one : Bool) : Except PyErr Str :=
  (retrieveRaw index db c).bind fun l => (l.get k.1).bind fun raw =>
    strOf ((if simplify then simplified raw else datasets raw).bind fun ds =>
      if one then (ds.get k).bind fun d => (d.getSimplified false false).map fun d' => [(k, d')] else .ok ds) k

/-- with the texts of reactions instead of the reactions, which is what `append` compares -/
def plain (d : DataSet Measurement Dec) : DataSet Str Dec :=
  { kind := d.kind, info := { }, reaction := d.reaction.map fun r => (texts.rx r.1, r.2), monitor := none, coupled := d.coupled, labels := d.labels,
    units := d.units, data := d.data, simplified := d.simplified, frame := d.frame }

/-- `setUp` and `test_append` of the tests of datasets -/
def appended : Except PyErr Str :=
  match retrieveRaw index db { quantity := some chars!"SIG", target := some chars!"PU-239", reaction := some chars!"N,2N" } with
  | .error e => .error e
  | .ok l =>
    match foldE (fun (acc : Dict DsKey (DataSet Measurement Dec)) kv => if kv.1 = chars!"13787" then .ok acc else
        (entryOf kv.2).bind fun e => (e.getSimplifiedDataSets (x4RxOps rxDicts) [] true).map fun st => st.datasets.foldl (fun a kd => a.set kd.1 kd.2) acc) [] l with
    | .error e => .error e
    | .ok ds =>
      let keyLe (a b : DsKey × DataSet Measurement Dec) : Bool := decide ((a.1.2.1.getD []) ≤ (b.1.2.1.getD []))
      match foldE (fun (d : DataSet Str Dec) kd => d.append ⟨fun _ => none, fun _ => [], .ok⟩ (plain kd.2))
          { kind := .generic, info := { }, reaction := none, monitor := none, coupled := false } (ds.mergeSort keyLe) with
      | .error e => .error e
      | .ok d => ({ d with data := d.data.mergeSort rowLe }).str ⟨id, fun _ => [], texts.num⟩

/-- what follows the header -/
def afterHeader : Except PyErr Str → List Str
  | .ok s => (splitChar '\\n' (strip s)).filter (fun l => !(chars!"#  ".isPrefixOf l && !chars!"#    ".isPrefixOf l))
  | .error _ => []
'''


def key(k):
    return '(%s, some %s, %s)' % (lean(k[0]), lean(k[1]), "'%s'" % k[2])


def lines(t):
    return '[' + ',\n   '.join(lean(l) for l in t.split('\n')) + ']'


def main():
    raw = {'entry': subents('E0783.x4'), 'entry_2': subents('12898.x4')}
    files = {f: open(REPO + 'tests/data/db/%s/%s.x4' % (f[:3], f)).read() for f in ('13787', '14129', '21971', '20795', '13883', 'E0783', '11321', '11314', '12326', '20576')}
    texts = [s for r in raw.values() for s in r] + list(TOP.values()) + list(files.values())
    o = [HEAD]
    for name, n in (('compounds', 9), ('quantities', 36), ('modifiers', 34), ('institutes', 3), ('types', 4), ('journals', 5), ('books', 7)):
        o.append(table(name, '`x4i3/dicts/dict%02d.txt`, cut down' % n, cut(n, texts)))
    o.append(DEFS)
    for n, f in (('entry', 'E0783.x4'), ('entry_2', '12898.x4')):
        o.append('/-- the subentries of `x4i3/tests/%s` -/\ndef %s : List Str :=\n  [%s]\n' % (f, n, ',\n   '.join(
            'joinWith [\'\\n\'] ' + lines(s) for s in raw[n])))
    for n in ('test_bib', 'test_common', 'test_data'):
        o.append('/-- `%s` of the tests -/\ndef %s : List Str :=\n  %s\n' % (n, n, lines(TOP[n])))
    count = [0]

    def emit(where, line, prop):
        count[0] += 1
        o.append('-- %s, line %d\n#guard %s\n' % (where, line, prop))

    E = 'TestX4Entry'
    (_, a, v), = asserted(E, 'test_getitem_getbib')[0]
    assert a == "repr(exfor_entry.X4Entry(self.entry)[1]['BIB'])" and v == TOP['test_bib']
    emit(E + '.test_getitem_getbib', _, '(section1 entry chars!"BIB").bind Sec.repr = .ok (joinWith [\'\\n\'] test_bib)')
    (_, a, v), = asserted(E, 'test_getitem_getcommon')[0]
    assert a == 'repr(common)' and v == TOP['test_common']
    emit(E + '.test_getitem_getcommon', _, '(section1 entry chars!"COMMON").bind Sec.repr = .ok (joinWith [\'\\n\'] test_common)')
    h, l1, l2, c = asserted(E, 'test_meta')[0]
    assert [re.sub(r'.*\.', '', x[1]) for x in (h, l1, l2, c)] == ['xmgraceHeader()', 'legend()', 'legend()', 'citation()']
    emit(E + '.test_meta', h[0], '((entryOf entry).bind Entry.meta).map EntryMeta.xmgraceHeader = .ok %s' % lean(h[2]))
    emit(E + '.test_meta', l1[0], '((entryOf entry).bind Entry.meta).map EntryMeta.legend = .ok %s' % lean(l1[2]))
    emit(E + '.test_meta', l2[0], '(section1 entry chars!"BIB").bind (fun s => match s with\n    | .bib b => (b.meta chars!"E0783001").map fun m => m.1.record.legend\n    | .data _ => .error .keyError) = .ok %s' % lean(l2[2]))
    emit(E + '.test_meta', c[0], '((entryOf entry).bind Entry.meta).bind EntryMeta.citation = .ok %s' % lean(c[2]))
    for t, src, fn in (('test_getDataSets', 'entry', 'datasets'), ('test_getDataSets_2', 'entry_2', 'datasets'),
                       ('test_getDataSets_2_cross_section_translation', 'entry_2', 'simplified')):
        eqs, env = asserted(E, t)
        ds = '(%s %s)' % (fn, src)
        csvkey = None
        for s in test(E, t).body:
            m = re.match(r"ds\[(.*)\]\.csv\(", ast.unparse(s))
            if m:
                csvkey, csvline = ast.literal_eval(m.group(1)), s.lineno
        for line, a, v in eqs:
            m = re.match(r"str\(ds\[(.*)\]\)$", a)
            if a.startswith('dict('):
                emit(E + '.' + t, line, 'sameDict (legends %s) [%s] = true' % (ds, ', '.join('(%s, %s)' % (key(k), lean(x)) for k, x in v.items())))
            elif m:
                emit(E + '.' + t, line, 'strOf %s %s = .ok (joinWith [\'\\n\'] %s)' % (ds, key(ast.literal_eval(m.group(1))), lines(v)))
            elif 'readlines' in a:
                emit(E + '.' + t, line, 'csvOf %s %s = .ok (joinWith [\'\\n\'] %s)' % (ds, key(csvkey), lines(''.join(v))))
            else:
                print('not used:', line, a, file=sys.stderr)
        if 'right' in env:
            emit(E + '.' + t, csvline, 'csvOf %s %s = .ok (joinWith [\'\\n\'] %s)' % (ds, key(csvkey), lines(''.join(env['right']))))
    B = 'TestX4BibSection'
    (_, a, v), = asserted(B, 'test_repr')[0]
    emit(B + '.test_repr', _, '(BibSection.build (x4Parsers dicts) test_bib).bind BibSection.repr = .ok (joinWith [\'\\n\'] %s)' % lines(v))
    (_, a, v), = asserted(B, 'test_total_len')[0]
    emit(B + '.test_total_len', _, '(BibSection.build (x4Parsers dicts) test_bib).bind BibSection.totalLen = .ok %d' % v)
    D = 'TestX4DataSection'
    for t, n, tag in (('test_simple_common', 'test_common', 'COMMON'), ('test_complicated_data', 'test_data', 'DATA')):
        x = 'DataSection.build chars!"%s" %s' % (tag, n)
        for line, a, v in asserted(D, t)[0]:
            w = D + '.' + t
            m = re.match(r"x4ds\['(LABELS|UNITS)', (\d+)\]$", a)
            m2 = re.match(r"x4ds\[(\d+), (\d+)\]$", a)
            if a == 'str(x4ds)':
                emit(w, line, '(%s).map (DataSection.str litText) = .ok (joinWith [\'\\n\'] %s)' % (x, lines(v)))
            elif a == 'repr(x4ds)':
                emit(w, line, '(%s).map DataSection.repr = .ok (joinWith [\'\\n\'] %s)' % (x, lines(v)))
            elif a == 'len(x4ds)':
                emit(w, line, '(%s).map DataSection.numrows = .ok %d' % (x, v))
            elif a == 'x4ds.pointers':
                emit(w, line, '(%s).map DataSection.pointers = .ok [%s]' % (x, ', '.join("('%s', [%s])" % (k, ', '.join(map(str, l))) for k, l in v.items())))
            elif 'readlines' in a:
                emit(w, line, '(%s).map (DataSection.csv litText) = .ok (joinWith [\'\\n\'] %s)' % (x, lines(''.join(v))))
            elif m:
                emit(w, line, '(%s).map (fun d => d.%s[%s]?) = .ok (some %s)' % (x, m.group(1).lower(), m.group(2), lean(v)))
            elif m2:
                emit(w, line, '(%s).map (fun d => ((d.data[%s]?.bind (·[%s]?)).map fun c => c.map litText)) = .ok (some (some %s))' % (x, m2.group(1), m2.group(2), lean(repr(v))))
            else:
                print('not used:', line, a, file=sys.stderr)
    o.append('/-- the lines of a file, with their line ends -/\ndef linesOf (s : String) : List Str := ((splitChar \'\\n\' s.toList).dropLast).map (· ++ [\'\\n\'])\n')
    for f, t in files.items():
        assert t.endswith('\n') and '\r' not in t
        o.append('/-- the lines of `x4i3/tests/data/db/%s/%s.x4` -/\ndef file%s : List Str := linesOf "%s"\n' % (f[:3], f, f, t.replace('\\', '\\\\').replace('"', '\\"')))
    o.append('/-- the files -/\ndef db : DB := ⟨fun p =>\n  %s\n  else .error .ioError⟩\n' % '\n  else '.join(
        'if p = %s then .ok file%s' % (lean('%s/%s.x4' % (f[:3], f)), f) for f in files))
    o.append(DB)
    tree = ast.parse(open(REPO + 'tests/test_exfor_dataset.py').read())
    ans, = [s for s in ast.walk(tree) if isinstance(s, ast.Assign) and ast.unparse(s.targets[0]) == 'answer']
    txt = ans.value.func.value.value.strip().split("#        Energy")[-1]
    emit('TestX4DataSet.test_append', ans.lineno, 'afterHeader appended =\n  %s' % lines("#        Energy" + txt))
    tree = ast.parse(open(REPO + 'tests/test_exfor_full_integration.py').read())

    def const(e, env):
        if isinstance(e, ast.Constant):
            return e.value
        if isinstance(e, ast.Name):
            return env.get(e.id)
        if isinstance(e, ast.Call) and ast.unparse(e).endswith('.strip()'):
            v = const(e.func.value, env)
            return v and v.strip()
    for f in ast.walk(tree):
        if not (isinstance(f, ast.FunctionDef) and f.name.startswith('test_')):
            continue
        env, crit, simp, one = {}, None, None, None
        for s in f.body:
            if isinstance(s, ast.Return):
                break
            t = ast.unparse(s)
            if isinstance(s, ast.Assign):
                n = ast.unparse(s.targets[0])
                if '.retrieve(' in t:
                    ks = {k.arg: k.value.value for k in s.value.keywords if k.arg != 'rawEntry'}
                    crit = '{ ' + ', '.join('%s := some %s' % (k, '(.str %s)' % lean(v) if k == 'SUBENT' else lean(v)) for k, v in ks.items()) + ' }'
                elif 'X4Entry(' in t:
                    simp = 'true' if 'Simplified' in t else 'false'
                elif '.getSimplified()' in t:
                    one = ast.literal_eval(re.match(r'simple = ds\[(.*)\]\.', t).group(1))
                else:
                    env[n] = const(s.value, env)
            elif t.startswith('self.assertEqual('):
                a, v = ast.unparse(s.value.args[0]), const(s.value.args[1], env)
                m = re.match(r'str\((ds\[(.*)\]|simple)\)(\.strip\(\))?$', a)
                if m is None or v is None:
                    print('not used:', s.lineno, a, file=sys.stderr)
                    continue
                k = key(ast.literal_eval(m.group(2))) if m.group(2) else key(one)
                emit('TestTheWorks.' + f.name, s.lineno, '(foundStr %s %s %s %s)%s = .ok "%s".toList' % (
                    crit, k, simp, 'false' if m.group(2) else 'true', '.map strip' if m.group(3) else '', v.replace('\\', '\\\\').replace('"', '\\"')))
    tree = ast.parse(open(REPO + 'tests/test_exfor_manager.py').read())
    M = 'TestX4DBManager'
    new = [ast.literal_eval(s.value) for s in tree.body if isinstance(s, ast.Assign) and ast.unparse(s.targets[0]) == 'NEWENTRYANSWER'][0]
    for n in ('test_entry_retrieve', 'test_subent_retrieve'):
        f, = [x for x in ast.walk(tree) if isinstance(x, ast.FunctionDef) and x.name == n]
        c = '{ ENTRY := some (.str chars!"E0783") }' if 'entry' in n else '{ SUBENT := some (.str chars!"E0783002") }'
        emit(M + '.' + n, f.lineno, 'retrieveRaw index db %s = .ok [%s]' % (c, ', '.join(
            '(%s, [%s])' % (lean(k), ',\n  '.join("joinWith ['\\n'] " + lines(x) for x in v)) for k, v in new.items())))
    f, = [x for x in ast.walk(tree) if isinstance(x, ast.FunctionDef) and x.name == 'test_targ_reaction_cs_quant_query']
    v = ast.literal_eval(f.body[0].value.args[1])
    emit(M + '.' + f.name, f.lineno, '(query index { target := some chars!"PU-239", reaction := some chars!"N,2N", quantity := some chars!"CS" }).2.toOption.map (fun m => m.length == %d && [%s].all (fun x => decide (x ∈ m))) = some true' % (
        len(v), ', '.join('(%s, [%s])' % (lean(k), ', '.join(map(lean, x))) for k, x in v.items())))
    f, = [x for x in ast.walk(tree) if isinstance(x, ast.FunctionDef) and x.name == 'test_fixkey']
    for s in f.body:
        a = s.value.args
        if ast.unparse(s.value.func) == 'self.assertEqual':
            i, r = a[0].args[0].value, '.ok ' + lean(a[1].value)
        else:
            i, r = a[2].value, '.error .keyError'
        emit(M + '.test_fixkey', s.lineno, 'fixKey (%s) = %s' % ('.int %d' % i if isinstance(i, int) else '.str ' + lean(i), r))
    o.append('end X4.RecordedEntries')
    open(HERE + '/lean/Verif/Conformance/Entries.lean', 'w').write('\n'.join(o) + '\n')
    print(count[0], 'tests')


if __name__ == '__main__':
    main()
