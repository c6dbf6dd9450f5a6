import Verif.Py.Num
import Verif.Py.Dict
import Verif.Py.Loop
/-! Model of `x4i3/exfor_column_parsing.py`. -/
namespace X4

/-- a unit conversion factor: a decimal constant, or `180/pi`, exfor_column_parsing.py:28-42 -/
inductive Factor where
  | dec (m e : Int)
  | degPerRad
  deriving DecidableEq, Repr
/-- the number, exfor_column_parsing.py:28-42 -/
def Factor.val {N} [PyNum N] : Factor → N
  | .dec m e => PyNum.dec m e
  | .degPerRad => PyNum.degPerRad

/-- the type of the tables of exfor_column_parsing.py:28-42 -/
abbrev UnitMap := Dict Str Factor

/-- exfor_column_parsing.py:28-29 -/
def energyUnitFactors : UnitMap :=
  [("GEV".toList, .dec 1 3), ("MEV".toList, .dec 1 0), ("KEV".toList, .dec 1 (-3)), ("EV".toList, .dec 1 (-6)),
   ("MILLI-EV".toList, .dec 1 (-9)), ("MeV".toList, .dec 1 0), ("K".toList, .dec 8621738 (-17))]
/-- exfor_column_parsing.py:30-31 -/
def crossSectionUnitFactors : UnitMap :=
  [("B".toList, .dec 1 0), ("MB".toList, .dec 1 (-3)), ("MICRO-B".toList, .dec 1 (-6)), ("barns".toList, .dec 1 0)]
/-- exfor_column_parsing.py:32-33 -/
def angularDistUnitFactors : UnitMap :=
  [("B/SR".toList, .dec 1 0), ("MB/SR".toList, .dec 1 (-3)), ("MICRO-B/SR".toList, .dec 1 (-6)),
   ("barns/SR".toList, .dec 1 0)]
/-- exfor_column_parsing.py:34 -/
def sqrtEnCrossSectUnitFactors : UnitMap := [("B*RT-EV".toList, .dec 1 0), ("MB*RT-EV".toList, .dec 1 (-3))]
/-- exfor_column_parsing.py:35 -/
def momUnitFactors : UnitMap := [("GEV/C".toList, .dec 1 0), ("MEV/C".toList, .dec 1 (-3))]
/-- exfor_column_parsing.py:36-37 -/
def angleUnitFactors : UnitMap := [("ADEG".toList, .dec 1 0), ("SR".toList, .degPerRad), ("RAD".toList, .degPerRad)]
/-- exfor_column_parsing.py:38-39 -/
def noUnitFactors : UnitMap := [("NO-DIM".toList, .dec 1 0), ("ARB-UNITS".toList, .dec 1 0), ("no-dim".toList, .dec 1 0)]
/-- exfor_column_parsing.py:40 -/
def nubarUnitFactors : UnitMap := [("PRT/FIS".toList, .dec 1 0)]
/-- exfor_column_parsing.py:41-42 -/
def energyDistUnitFactors : UnitMap :=
  [("1/GEV".toList, .dec 1 (-3)), ("1/MEV".toList, .dec 1 0), ("1/KEV".toList, .dec 1 3), ("1/EV".toList, .dec 1 6),
   ("1/MILLI-EV".toList, .dec 1 9), ("1/MeV".toList, .dec 1 0)]

/-- `unit_map_of_maps`, exfor_column_parsing.py:164-174 -/
def unitMaps : List (Str × UnitMap) :=
  [("MeV".toList, energyUnitFactors), ("1/MeV".toList, energyDistUnitFactors),
   ("barns".toList, crossSectionUnitFactors), ("degrees".toList, angleUnitFactors),
   ("B*RT-EV".toList, sqrtEnCrossSectUnitFactors), ("barns/ster".toList, angularDistUnitFactors),
   ("GeV/c".toList, momUnitFactors), ("ptcls/fis".toList, nubarUnitFactors), ("no-dim".toList, noUnitFactors)]

/-- the loop of `getConversion`, exfor_column_parsing.py:177-180 -/
def convLoop (units : Str) : List (Str × UnitMap) → Factor × Str
  | [] => (.dec 1 0, units)
  | (name, m) :: r =>
    match m.get? units with
    | some f => (f, name)
    | none => convLoop units r
/-- `getConversion`, exfor_column_parsing.py:156-180, for a string argument -/
def getConversion (units : Str) : Factor × Str := convLoop units unitMaps

/-! ### columns -/

/-- A column as the parsers return it: `[label, unit, value, value, …]`, every
entry possibly `None`. exfor_column_parsing.py:99-122, 176-195 -/
structure Column (N : Type) where
  label : Option Str
  unit : Option Str
  vals : List (Option N)
  deriving DecidableEq, Repr

/-- what the parsers see of a dataset: `labels`, `units`, `data`, exfor_dataset.py:62-64 -/
structure Table (N : Type) where
  labels : List Str
  units : List (Option Str)
  data : List (List (Option N))
  deriving DecidableEq, Repr

variable {N : Type} [PyNum N]
open PyNum

/-- `getDummyColumn`, exfor_column_parsing.py:236-237 -/
def dummy (d : Table N) : Column N := { label := none, unit := none, vals := List.replicate d.data.length none }

/-- `x[i] if x[i] is not None else y[i]` in a loop over `range(max(len(x), len(y)))`,
exfor_column_parsing.py:115-122; reading past the end is an `IndexError`. (The second column is only
read where the first has `None`.) -/
def condenseVals : List (Option N) → List (Option N) → Except PyErr (List (Option N))
  | [], [] => .ok []
  | [], _ :: _ => .error .indexError
  | some a :: x, y => match condenseVals x y.tail with
    | .error e => .error e
    | .ok r => .ok (some a :: r)
  | none :: _, [] => .error .indexError
  | none :: x, b :: y => match condenseVals x y with
    | .error e => .error e
    | .ok r => .ok (b :: r)
/-- `condenseColumn`, exfor_column_parsing.py:115-122 -/
def condense (x y : Column N) : Except PyErr (Column N) :=
  match condenseVals x.vals y.vals with
  | .error e => .error e
  | .ok v => .ok { label := x.label.or y.label, unit := x.unit.or y.unit, vals := v }

/-- `reduce(condenseColumn, l)`; without elements it is a `TypeError`, exfor_dataset.py:210-213 -/
def reduceE {α} (f : α → α → Except PyErr α) : List α → Except PyErr α
  | [] => .error .typeError
  | x :: l => foldE f x l

/-- an element of the loop of `averageColumns` that holds values, exfor_column_parsing.py:102-111 -/
def averageVal : Option N → Option N → Option N
  | some x, some y => some (mul half (add x y))
  | some x, none => some x
  | none, y => y
/-- an element that holds texts, exfor_column_parsing.py:102-111: `0.5 * (x[i] + y[i])` is a `TypeError` for them -/
def averageText : Option Str → Option Str → Except PyErr (Option Str)
  | some _, some _ => .error .typeError
  | some x, none => .ok (some x)
  | none, y => .ok y
/-- the loop over `range(max(len(x), len(y)))`, exfor_column_parsing.py:101-111; reading past the end is an `IndexError`. (`y[i]` is always
read.) -/
def averageVals : List (Option N) → List (Option N) → Except PyErr (List (Option N))
  | [], [] => .ok []
  | [], _ :: _ => .error .indexError
  | _ :: _, [] => .error .indexError
  | a :: x, b :: y => match averageVals x y with
    | .error e => .error e
    | .ok r => .ok (averageVal a b :: r)
/-- `averageColumns`, exfor_column_parsing.py:99-112 (not used elsewhere) -/
def averageColumns (x y : Column N) : Except PyErr (Column N) :=
  match averageText x.label y.label with
  | .error e => .error e
  | .ok l => match averageText x.unit y.unit with
    | .error e => .error e
    | .ok u => match averageVals x.vals y.vals with
      | .error e => .error e
      | .ok v => .ok { label := l, unit := u, vals := v }

/-- `X4ColumnParser` (and, with `angle`, `X4AngleColumnParser`), exfor_column_parsing.py:125-209; `off_set` is
never given and therefore 0.0 -/
structure ColParser where
  labels : List Str
  units : List Str
  scale : Factor := .dec 1 0
  angle : Bool := false
  deriving DecidableEq, Repr

/-- `isMatch(i, data)`, exfor_column_parsing.py:133-141. All parsers in the lists have labels and units. `labels` and
`units` of a dataset have the same length (`setData` extends them together), so that a missing
unit entry is not modelled as an `IndexError`. -/
def ColParser.isMatch (p : ColParser) (d : Table N) (i : Nat) : Bool :=
  match d.labels[i]?, d.units[i]? with
  | some l, some (some u) => decide (l ∈ p.labels) && decide (u ∈ p.units)
  | _, _ => false

/-- `firstMatch`, exfor_column_parsing.py:143-147; `none` is -1 -/
def ColParser.firstMatch (p : ColParser) (d : Table N) : Option Nat :=
  (List.range d.labels.length).find? (p.isMatch d)

/-- one value of a column: `x * factor * scale_factor + off_set`, exfor_column_parsing.py:190 -/
def scaleVal (f s : Factor) (x : N) : N := add (mul (mul x f.val) s.val) zero

/-- `data.data[irow][icol]`, exfor_column_parsing.py:190, 206 -/
def cellAt (row : List (Option N)) (icol : Nat) : Except PyErr (Option N) := pyIdx row icol

/-- `math.acos(x * scale_factor + off_set) * factor`, exfor_column_parsing.py:206-208 -/
def acosVal (s : Factor) (x : N) : Except PyErr N :=
  match acos (add (mul x s.val) zero) with
  | .error e => .error e
  | .ok a => .ok (mul a (Factor.val .degPerRad))

/-- one cell of the column, exfor_column_parsing.py:182-195, 198-209 -/
def convCell (p : ColParser) (cosine : Bool) (f : Factor) (icol : Nat) (row : List (Option N)) : Except PyErr (Option N) :=
  match cellAt row icol with
  | .error e => .error e
  | .ok none => .ok none
  | .ok (some x) =>
    if cosine then
      match acosVal p.scale x with
      | .error e => .error e
      | .ok a => .ok (some a)
    else .ok (some (scaleVal f p.scale x))

/-- `getColumn` for a matching column with label `l` and unit `u`, exfor_column_parsing.py:185-191, 194-209 -/
def ColParser.readColumn (p : ColParser) (d : Table N) (i : Nat) (l u : Str) : Except PyErr (Column N) :=
  let cosine := p.angle && hasSub "COS".toList l
  let c := getConversion (if cosine then "RAD".toList else u)
  match mapE (convCell p cosine c.1 i) d.data with
  | .error e => .error e
  | .ok vs => .ok { label := some l, unit := some c.2, vals := vs }

/-- `getColumn`, exfor_column_parsing.py:182-191, 194-209. The angle parser is only used where both columns
of the pair match, so that its access `data.labels[-1]` never happens. -/
def ColParser.getColumn (p : ColParser) (d : Table N) (icol : Option Nat) : Except PyErr (Column N) :=
  match icol with
  | none => .ok (dummy d)
  | some i =>
    match d.labels[i]?, d.units[i]? with
    | some l, some (some u) => if p.isMatch d i then p.readColumn d i l u else .ok (dummy d)
    | _, _ => .ok (dummy d)

/-- the column a parser finds, exfor_column_parsing.py:176-209 -/
def ColParser.find (p : ColParser) (d : Table N) : Except PyErr (Column N) := p.getColumn d (p.firstMatch d)

/-! ### pairs of columns -/

/-- the column pair parsers, exfor_column_parsing.py:212-617 -/
inductive Pair where
  /-- `X4MissingErrorColumnPair` -/
  | missing (c1 : ColParser)
  /-- `X4IndependentColumnPair` -/
  | indep (c1 c2 : ColParser)
  /-- `X4ConstantPercentColumnPair` with `percentError = 10` (exfor_column_parsing.py:305) -/
  | constPct (c1 : ColParser)
  /-- `X4HighLowColumnPair`: minimum, maximum -/
  | highLow (c1 c2 : ColParser)
  /-- `X4HighMidLowColumnPair`: middle, -err, +err -/
  | highMidLow (c1 c2 c3 : ColParser)
  /-- `X4AddErrorBarsColumnPair`: value, systematic, statistical -/
  | addErr (c1 c2 c3 : ColParser)
  /-- `X4BarnsSqrtEColumnPair`: cross section, uncertainty -/
  | barnsSqrtE (c2 c3 : ColParser)
  deriving DecidableEq, Repr

/-- `isMatch`, exfor_column_parsing.py:254, 277, 319, 410, 565 -/
def Pair.isMatch (d : Table N) : Pair → Bool
  | .missing c1 | .constPct c1 => (c1.firstMatch d).isSome
  | .indep c1 c2 => (c1.firstMatch d).isSome && (c2.firstMatch d).isSome
  | .highLow c1 c2 => (c1.firstMatch d).isSome || (c2.firstMatch d).isSome
  | .highMidLow c1 c2 c3 | .addErr c1 c2 c3 =>
    (c1.firstMatch d).isSome && ((c2.firstMatch d).isSome || (c3.firstMatch d).isSome)
  | .barnsSqrtE c2 _ => (c2.firstMatch d).isSome

/-- `absOrNone`, exfor_column_parsing.py:89-96, on a value -/
def absCol (c : Column N) : Column N := { c with vals := c.vals.map (Option.map PyNum.abs) }

/-- the last non-`None` of two headings, exfor_column_parsing.py:336-339 -/
def lastSome (a b : Option Str) : Option Str := b.or a

/-- exfor_column_parsing.py:349-356; the columns always have `numrows + 2` entries, so that the `except` branches
of exfor_column_parsing.py:341-348 are not reached -/
def highLowVal : Option N → Option N → Option N
  | none, none => none
  | none, some x2 => some (mul half x2)
  | some _, none => none
  | some x1, some x2 => some (mul half (add x1 x2))
/-- exfor_column_parsing.py:385-392 -/
def highLowErr : Option N → Option N → Option N
  | some x1, some x2 => some (mul half (PyNum.abs (sub x1 x2)))
  | _, _ => none
/-- exfor_column_parsing.py:448-451 -/
def midVal : Option N → Option N → Option N → Option N
  | some x1, some x2, some x3 => some (mul half (add (sub x1 x2) (add x1 x3)))
  | _, _, _ => none
/-- exfor_column_parsing.py:488-491 -/
def midErr : Option N → Option N → Option N → Option N
  | some x1, some x2, some x3 => some (PyNum.abs (mul half (sub (sub x1 x2) (add x1 x3))))
  | _, _, _ => none

/-- percent of a value, exfor_column_parsing.py:290-293, 524-531 -/
def percentOf : Option N → Option N → Option N
  | some v, some p => some (pct (mul v p))
  | _, _ => none

/-- quadratic sum, exfor_column_parsing.py:539-546 -/
def quadSum : Option N → Option N → Except PyErr (Option N)
  | none, none => .ok none
  | x2, x3 =>
    match PyNum.sqrt (add (mul (x2.getD zero) (x2.getD zero)) (mul (x3.getD zero) (x3.getD zero))) with
    | .error e => .error e
    | .ok r => .ok (some r)

/-- `getValue` of the column pairs that do not involve the energy column, exfor_column_parsing.py:258-262, 323-357,
414-452, 496-504 -/
def Pair.value0 (d : Table N) : Pair → Except PyErr (Column N)
  | .missing c1 => c1.find d
  | .constPct c1 => c1.find d
  | .indep c1 c2 => if (Pair.indep c1 c2).isMatch d then c1.find d else .ok (dummy d)
  | .highLow c1 c2 =>
    if (Pair.highLow c1 c2).isMatch d then
      match c1.find d with
      | .error e => .error e
      | .ok k1 => match c2.find d with
        | .error e => .error e
        | .ok k2 => .ok { label := lastSome k1.label k2.label, unit := lastSome k1.unit k2.unit,
                          vals := List.zipWith highLowVal k1.vals k2.vals }
    else .ok (dummy d)
  | .highMidLow c1 c2 c3 =>
    if (Pair.highMidLow c1 c2 c3).isMatch d then
      match c1.find d with
      | .error e => .error e
      | .ok k1 => match c2.find d with
        | .error e => .error e
        | .ok k2 => match c3.find d with
          | .error e => .error e
          | .ok k3 => .ok { label := lastSome (lastSome k1.label k2.label) k3.label,
                            unit := lastSome (lastSome k1.unit k2.unit) k3.unit,
                            vals := List.zipWith (fun f x => f x) (List.zipWith midVal k1.vals k2.vals) k3.vals }
    else .ok (dummy d)
  | .addErr c1 c2 c3 => if (Pair.addErr c1 c2 c3).isMatch d then c1.find d else .ok (dummy d)
  | .barnsSqrtE _ _ => .ok (dummy d)

/-- `energyParserList`, exfor_column_parsing.py:82: declared empty and never filled -/
def energyParserList : List Pair := []

/-- `energyColumn`, exfor_column_parsing.py:557-559 -/
def energyColumn (d : Table N) : Except PyErr (Column N) :=
  match mapE (Pair.value0 d) energyParserList with
  | .error e => .error e
  | .ok cs => reduceE condense cs

/-- `x / math.sqrt(E * 1e6)`, exfor_column_parsing.py:588-591, 613-616 -/
def overSqrtE : Option N → Option N → Except PyErr (Option N)
  | some en, some x =>
    match PyNum.sqrt (mul en (dec 1 6)) with
    | .error e => .error e
    | .ok r => match PyNum.div x r with
      | .error e => .error e
      | .ok q => .ok (some q)
  | _, _ => .ok none

/-- the column of `X4BarnsSqrtEColumnPair` computed from parser `c`, exfor_column_parsing.py:573-592, 598-616 -/
def sqrtEColumn (d : Table N) (c : ColParser) : Except PyErr (Column N) :=
  match energyColumn d with
  | .error e => .error e
  | .ok en => match c.find d with
    | .error e => .error e
    | .ok k => match mapE (fun x => overSqrtE x.1 x.2) (en.vals.zip k.vals) with
      | .error e => .error e
      | .ok vs => .ok { label := k.label, unit := some "barns".toList, vals := vs }

/-- `getValue` of any pair; for `X4BarnsSqrtEColumnPair` exfor_column_parsing.py:569-592 -/
def Pair.getValue (d : Table N) (p : Pair) : Except PyErr (Column N) :=
  match p with
  | .barnsSqrtE c2 _ => if p.isMatch d then sqrtEColumn d c2 else .ok (dummy d)
  | _ => p.value0 d

/-- error of `X4IndependentColumnPair`, exfor_column_parsing.py:286-293 -/
def indepErr (k1 k2 : Column N) : Column N :=
  if k2.unit = some "PER-CENT".toList then
    { k2 with unit := k1.unit, vals := List.zipWith percentOf k1.vals k2.vals }
  else k2

/-- the two error columns of `X4AddErrorBarsColumnPair` as they are added, exfor_column_parsing.py:519-535:
both are treated as percentages if one of them is -/
def addErrCols (k1 k2 k3 : Column N) : Option Str × List (Option N) × List (Option N) :=
  if k2.unit = some "PER-CENT".toList ∨ k3.unit = some "PER-CENT".toList then
    (k1.unit, List.zipWith percentOf k1.vals k2.vals, List.zipWith percentOf k1.vals k3.vals)
  else (lastSome k2.unit k3.unit, k2.vals, k3.vals)

/-- the error column of `X4AddErrorBarsColumnPair`, exfor_column_parsing.py:519-546 -/
def addErrColumn (k1 k2 k3 : Column N) : Except PyErr (Column N) :=
  match mapE (fun x => quadSum x.1 x.2) ((addErrCols k1 k2 k3).2.1.zip (addErrCols k1 k2 k3).2.2) with
  | .error e => .error e
  | .ok vs => .ok { label := some "ERR".toList, unit := (addErrCols k1 k2 k3).1, vals := vs }

/-- `getError` of a matching pair before `map(absOrNone, …)`, exfor_column_parsing.py:264-265, 281-293, 310-314, 362-392,
457-491, 510-546, 597-616 -/
def Pair.error0 (d : Table N) (p : Pair) : Except PyErr (Column N) :=
  match p with
  | .missing _ => .ok (dummy d)
  | .constPct c1 =>
    match c1.find d with
    | .error e => .error e
    | .ok k1 => .ok { k1 with vals := k1.vals.map (Option.map fun x => pct (mul x (dec 10 0))) }
  | .indep c1 c2 =>
    match c2.find d with
    | .error e => .error e
    | .ok k2 =>
      if k2.unit = some "PER-CENT".toList then
        match c1.find d with
        | .error e => .error e
        | .ok k1 => .ok (indepErr k1 k2)
      else .ok k2
  | .highLow c1 c2 =>
    match c1.find d with
    | .error e => .error e
    | .ok k1 => match c2.find d with
      | .error e => .error e
      | .ok k2 => .ok { label := lastSome k1.label k2.label, unit := lastSome k1.unit k2.unit,
                        vals := List.zipWith highLowErr k1.vals k2.vals }
  | .highMidLow c1 c2 c3 =>
    match c1.find d with
    | .error e => .error e
    | .ok k1 => match c2.find d with
      | .error e => .error e
      | .ok k2 => match c3.find d with
        | .error e => .error e
        | .ok k3 => .ok { label := lastSome (lastSome k1.label k2.label) k3.label,
                          unit := lastSome (lastSome k1.unit k2.unit) k3.unit,
                          vals := List.zipWith (fun f x => f x) (List.zipWith midErr k1.vals k2.vals) k3.vals }
  | .addErr c1 c2 c3 =>
    match c2.find d with
    | .error e => .error e
    | .ok k2 => match c3.find d with
      | .error e => .error e
      | .ok k3 =>
        if k2.unit = some "PER-CENT".toList ∨ k3.unit = some "PER-CENT".toList then
          match c1.find d with
          | .error e => .error e
          | .ok k1 => addErrColumn k1 k2 k3
        else addErrColumn (dummy d) k2 k3
  | .barnsSqrtE _ c3 => sqrtEColumn d c3

/-- `getError`, same lines, exfor_column_parsing.py:286-592 -/
def Pair.getError (d : Table N) (p : Pair) : Except PyErr (Column N) :=
  if p.isMatch d then
    match p.error0 d with
    | .error e => .error e
    | .ok k => .ok (absCol k)
  else .ok (dummy d)

/-! ### the parser lists -/

/-- `b + s for b in bases for s in suffixes`, exfor_column_parsing.py:631-829 -/
def labelsOf (bases suffixes : List String) : List Str :=
  bases.flatMap fun b => suffixes.map fun s => (b ++ s).toList

/-- exfor_column_parsing.py:56-79 -/
def variableSuffix : List String := ["", "-DUMMY", "-ASSUM", "-MEAN", "-APRX"]
/-- exfor_column_parsing.py:56-79 -/
def frameSuffix : List String := ["-CM"]
/-- exfor_column_parsing.py:56-79 -/
def errorSuffix : List String := ["-ERR"]
/-- exfor_column_parsing.py:56-79 -/
def resolutionFWSuffix : List String := ["-RES", "-RSL", "-RSL-FW"]
/-- exfor_column_parsing.py:56-79 -/
def resolutionHWSuffix : List String := ["-RSL-HW"]
/-- exfor_column_parsing.py:56-79 -/
def baseDataKeys : List String := ["DATA", "RATIO"]
/-- exfor_column_parsing.py:56-79 -/
def baseMomKeys : List Str := ["MOM".toList]
/-- exfor_column_parsing.py:56-79 -/
def baseAngleKeys : List String := ["COS", "ANG"]

/-- exfor_column_parsing.py:44-54 -/
def energyUnits : List Str := energyUnitFactors.keys
/-- exfor_column_parsing.py:44-54 -/
def tempUnits : List Str := energyUnitFactors.keys
/-- exfor_column_parsing.py:44-54 -/
def crossSectionUnits : List Str := crossSectionUnitFactors.keys
/-- exfor_column_parsing.py:44-54 -/
def momUnits : List Str := momUnitFactors.keys
/-- exfor_column_parsing.py:44-54 -/
def percentUnits : List Str := ["PER-CENT".toList]
/-- exfor_column_parsing.py:44-54 -/
def sqrtEnCrossSectUnits : List Str := sqrtEnCrossSectUnitFactors.keys
/-- exfor_column_parsing.py:44-54 -/
def noUnits : List Str := noUnitFactors.keys
/-- exfor_column_parsing.py:44-54 -/
def angUnits : List Str := angleUnitFactors.keys
/-- exfor_column_parsing.py:44-54 -/
def angDistUnits : List Str := angularDistUnitFactors.keys
/-- exfor_column_parsing.py:44-54 -/
def nubarUnits : List Str := nubarUnitFactors.keys
/-- exfor_column_parsing.py:44-54 -/
def energyDistUnits : List Str := energyDistUnitFactors.keys

/-- the six parsers shared by incoming (exfor_column_parsing.py:631-665) and outgoing (exfor_column_parsing.py:674-708) energies -/
def energyParsers (b : String) : List Pair :=
  [.indep ⟨labelsOf [b] variableSuffix, energyUnits, .dec 1 0, false⟩
     ⟨labelsOf [b] errorSuffix, energyUnits ++ percentUnits, .dec 1 0, false⟩,
   .indep ⟨labelsOf [b] variableSuffix, energyUnits, .dec 1 0, false⟩
     ⟨labelsOf [b] resolutionFWSuffix, energyUnits ++ percentUnits, .dec 5 (-1), false⟩,
   .indep ⟨labelsOf [b] variableSuffix, energyUnits, .dec 1 0, false⟩
     ⟨labelsOf [b] resolutionHWSuffix, energyUnits ++ percentUnits, .dec 1 0, false⟩,
   .highLow ⟨[(b ++ "-MIN").toList], energyUnits, .dec 1 0, false⟩ ⟨[(b ++ "-MAX").toList], energyUnits, .dec 1 0, false⟩,
   .highMidLow ⟨b.toList :: baseMomKeys, energyUnits, .dec 1 0, false⟩
     ⟨[("-" ++ b ++ "-ERR").toList], energyUnits, .dec 1 0, false⟩
     ⟨[("+" ++ b ++ "-ERR").toList], energyUnits, .dec 1 0, false⟩,
   .missing ⟨labelsOf [b] variableSuffix ++ baseMomKeys, energyUnits ++ momUnits, .dec 1 0, false⟩]
/-- exfor_column_parsing.py:631-665 -/
def incidentEnergyParserList : List Pair := energyParsers "EN"
/-- exfor_column_parsing.py:674-708 -/
def outgoingEnergyParserList : List Pair := energyParsers "E"

/-- exfor_column_parsing.py:667-672; not used by any dataset class -/
def incidentMomentumParserList : List Pair :=
  [.highLow ⟨["MOM-MIN".toList], momUnits, .dec 1 0, false⟩ ⟨["MOM-MAX".toList], momUnits, .dec 1 0, false⟩]

/-- exfor_column_parsing.py:710-749 -/
def tempParserList : List Pair :=
  let eu := energyUnits ++ tempUnits
  [.indep ⟨labelsOf ["KT"] (variableSuffix ++ ["-K"]), eu, .dec 1 0, false⟩ ⟨labelsOf ["KT"] errorSuffix, eu ++ percentUnits, .dec 1 0, false⟩,
   .indep ⟨labelsOf ["KT"] variableSuffix, eu, .dec 1 0, false⟩ ⟨labelsOf ["KT"] resolutionFWSuffix, eu ++ percentUnits, .dec 5 (-1), false⟩,
   .indep ⟨labelsOf ["KT"] variableSuffix, eu, .dec 1 0, false⟩ ⟨labelsOf ["KT"] resolutionHWSuffix, eu ++ percentUnits, .dec 1 0, false⟩,
   .highLow ⟨["KT-MIN".toList], eu, .dec 1 0, false⟩ ⟨["KT-MAX".toList], eu, .dec 1 0, false⟩,
   .highMidLow ⟨["KT".toList], eu, .dec 1 0, false⟩ ⟨["-KT-ERR".toList], eu, .dec 1 0, false⟩ ⟨["+KT-ERR".toList], eu, .dec 1 0, false⟩,
   .missing ⟨labelsOf ["TEMP"] (variableSuffix ++ ["-K"]) ++ labelsOf ["KT"] variableSuffix, eu, .dec 1 0, false⟩]
/-- exfor_column_parsing.py:751 -/
def spectrumArgumentParserList : List Pair := tempParserList ++ incidentEnergyParserList

/-- the parsers shared by cross sections (exfor_column_parsing.py:753-794), nubar, angular and energy distributions -/
def dataIndep (suffixes : List String) (u : List Str) : Pair :=
  .indep ⟨labelsOf baseDataKeys suffixes, u, .dec 1 0, false⟩ ⟨labelsOf baseDataKeys errorSuffix ++ ["ERR-T".toList], u ++ percentUnits, .dec 1 0, false⟩
/-- exfor_column_parsing.py:753-794 -/
def dataHighLow (u : List Str) : Pair :=
  .highLow ⟨labelsOf baseDataKeys ["-MIN"], u, .dec 1 0, false⟩ ⟨labelsOf baseDataKeys ["-MAX"], u, .dec 1 0, false⟩
/-- exfor_column_parsing.py:753-794 -/
def dataHighMidLow (u : List Str) : Pair :=
  .highMidLow ⟨labelsOf baseDataKeys [""], u, .dec 1 0, false⟩ ⟨labelsOf ["-DATA", "-RATIO"] errorSuffix, u, .dec 1 0, false⟩
    ⟨labelsOf ["+DATA", "+RATIO"] errorSuffix, u, .dec 1 0, false⟩
/-- exfor_column_parsing.py:753-794 -/
def dataAddErr (u : List Str) : Pair :=
  .addErr ⟨labelsOf baseDataKeys [""], u, .dec 1 0, false⟩ ⟨["ERR".toList], u ++ percentUnits, .dec 1 0, false⟩
    ⟨["ERR-S".toList], u ++ percentUnits, .dec 1 0, false⟩
/-- exfor_column_parsing.py:753-794 -/
def dataMissing (suffixes : List String) (u : List Str) : Pair := .missing ⟨labelsOf baseDataKeys suffixes, u, .dec 1 0, false⟩

/-- exfor_column_parsing.py:753-794 -/
def csDataParserList : List Pair :=
  [dataIndep (variableSuffix ++ frameSuffix) (crossSectionUnits ++ noUnits), dataHighLow (crossSectionUnits ++ noUnits),
   dataHighMidLow (crossSectionUnits ++ noUnits), dataAddErr (crossSectionUnits ++ noUnits),
   .barnsSqrtE ⟨["DATA".toList], sqrtEnCrossSectUnits, .dec 1 0, false⟩ ⟨["DATA-ERR".toList], sqrtEnCrossSectUnits, .dec 1 0, false⟩,
   dataMissing variableSuffix (crossSectionUnits ++ noUnits)]
/-- exfor_column_parsing.py:796-829 -/
def nubarParserList : List Pair :=
  [dataIndep variableSuffix (nubarUnits ++ noUnits), dataHighLow (nubarUnits ++ noUnits),
   dataHighMidLow (nubarUnits ++ noUnits), dataAddErr (nubarUnits ++ noUnits),
   dataMissing variableSuffix (nubarUnits ++ noUnits)]
/-- exfor_column_parsing.py:831-842 -/
def angDistParserList : List Pair :=
  [dataIndep (variableSuffix ++ frameSuffix) (angDistUnits ++ noUnits),
   dataMissing (variableSuffix ++ frameSuffix) (angDistUnits ++ noUnits)]
/-- exfor_column_parsing.py:844-855 -/
def energyDistParserList : List Pair :=
  [dataIndep (variableSuffix ++ frameSuffix) (energyDistUnits ++ noUnits),
   dataMissing (variableSuffix ++ frameSuffix) (energyDistUnits ++ noUnits)]
/-- exfor_column_parsing.py:857-874 -/
def angleParserList : List Pair :=
  let v := labelsOf baseAngleKeys (variableSuffix ++ frameSuffix)
  let u := angUnits ++ noUnits
  [.indep ⟨v, u, .dec 1 0, true⟩ ⟨labelsOf baseAngleKeys (errorSuffix ++ resolutionHWSuffix), u ++ percentUnits, .dec 1 0, true⟩,
   .indep ⟨v, u, .dec 1 0, true⟩ ⟨labelsOf baseAngleKeys resolutionFWSuffix, u ++ percentUnits, .dec 5 (-1), true⟩,
   .missing ⟨v, u, .dec 1 0, true⟩]

end X4
