#!/usr/bin/env python3
"""Generates lean/Verif/Model/EndlZ.lean and the tables of lean/Verif/{Model/AbundanceData,Spec/Abundance}.lean from the text of /repo (run from /verif)."""
import re
R = '/repo/x4i3/'
s = open(R + 'endl_Z.py').read()
m = re.findall(r'\(\s*(\d+),\s*"(\w+)",\s*"(\w+)"\)', s)
rows = ',\n  '.join('(%s, "%s".toList, "%s".toList)' % t for t in m)
open('lean/Verif/Model/EndlZ.lean', 'w').write('''import Verif.Py.Str
/-! Model of `x4i3/endl_Z.py`. The table is generated by tools/tables.py. -/
namespace X4

/-- `endl_ZLabels`, endl_Z.py:29-148. -/
def endlZLabels : List (Int × Str × Str) := [
  ''' + rows + ''']

/-- the loop of `endl_ZSymbol` -/
def zSymbolIn (Z : Int) : List (Int × Str × Str) → Option Str
  | [] => none
  | i :: r => if i.1 = Z then some i.2.1 else zSymbolIn Z r
/-- `endl_ZSymbol`, endl_Z.py:158-163. -/
def endlZSymbol (Z : Int) : Option Str := zSymbolIn Z endlZLabels

/-- the loop of `endl_SymbolZ` -/
def symbolZIn (sym : Str) : List (Int × Str × Str) → Option Int
  | [] => none
  | i :: r => if i.2.1 = sym then some i.1 else symbolZIn sym r
/-- `endl_SymbolZ`, endl_Z.py:168-173. -/
def endlSymbolZ (sym : Str) : Option Int := symbolZIn sym endlZLabels

/-- the loop of `endl_ZLabel` -/
def zLabelIn (Z : Int) : List (Int × Str × Str) → Option Str
  | [] => none
  | i :: r => if i.1 = Z then some i.2.2 else zLabelIn Z r
/-- `endl_ZLabel`, endl_Z.py:178-183. -/
def endlZLabel (Z : Int) : Option Str := zLabelIn Z endlZLabels

end X4
''')
s = open(R + 'abundance.py').read()
d = s.split("__data = '''")[1].split("'''")[0].split('\n')
rows = ',\n  '.join('chars!"%s"' % l for l in d)
open('lean/Verif/Model/AbundanceData.lean', 'w').write('''import Verif.Py.Chars
/-! The table of `x4i3/abundance.py`, generated by tools/tables.py. -/
namespace X4

/-- The lines of `__data`, abundance.py:39-332, i.e. `__data.split('\\n')`. -/
def abundanceData : List Str := [
  ''' + rows + ''']

end X4
''')

rows = []
for l in d[5:-1]:
    f = l.split()
    rows.append('(%d, %d, %d, %d)' % (int(f[0]), int(f[1]), int(f[3].replace('.', '')), int(f[4].replace('.', ''))))
open('lean/Verif/Spec/Abundance.lean', 'w').write('''/-! The natural abundances, generated by tools/tables.py from the text of
abundance.py; that the code reads its text as this table is proved in
`Verif.Props.Tables`. -/
namespace X4

/-- `(Z, A, abundance, uncertainty)` in millionths of a percent -/
def abundanceTable : List (Int × Int × Nat × Nat) := [
  ''' + ',\n  '.join(rows) + ''']

end X4
''')


def lines(fn):
    """readlines() of a dictionary file, without the newline characters"""
    return open(R + 'dicts/' + fn).read().split('\n')


def keys(fn):
    L = lines(fn)
    br = int(L[2].split('=')[-1].strip().replace('[', '').replace(']', '').split(',')[0])
    out = []
    for l in L[3:]:
        l = l.strip()
        if l and l[:br].strip() not in out:
            out.append(l[:br].strip())
    return out


def lean(s):
    return 'chars!"%s"' % s.replace('\\', '\\\\').replace('"', '\\"')


out = '''import Verif.Py.Chars
/-! The dictionary files which the grammars of x4i3 are built from, generated by
tools/tables.py: the lines of the files (without line ends) and the list of keys.
That the keys are the ones the code reads is proved in `Verif.Props.Dicts`. -/
namespace X4
'''
for fn, name in (('dict33.txt', 'particle'), ('dict09.txt', 'compound'), ('dict04.txt', 'refType')):
    L = lines(fn)
    if L[-1] == '':
        L = L[:-1]
    out += '\n/-- x4i3/dicts/%s -/\ndef %sFile : List Str := [\n  ' % (fn, name) + ',\n  '.join(map(lean, L)) + ']\n'
    out += '\n/-- the keys of x4i3/dicts/%s -/\ndef %sKeys : List Str := [\n  ' % (fn, name) + ',\n  '.join(map(lean, keys(fn))) + ']\n'
out += '\nend X4\n'
open('lean/Verif/Model/DictTexts.lean', 'w').write(out)
