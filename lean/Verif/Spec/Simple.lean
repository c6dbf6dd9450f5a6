import Verif.Spec.Column
/-! What a simplified dataset should contain, stated on the table with its headings and units. -/
namespace X4

/-- a quantity of a simplified dataset: its name, its unit, and its value and uncertainty in a row of the table -/
structure Quantity where
  name : Str
  unit : Str
  val : List (Option ℝ) → Option ℝ
  err : List (Option ℝ) → Option ℝ

/-- some row has an uncertainty -/
def Quantity.HasErr (q : Quantity) (rows : List (List (Option ℝ))) : Prop := ∃ row ∈ rows, q.err row ≠ none

open Classical in
/-- the quantities that get an uncertainty column -/
noncomputable def withUncertainty (qs : List Quantity) (rows : List (List (Option ℝ))) (makeAll : Bool) : List Quantity :=
  qs.filter fun q => decide (makeAll = true ∨ q.HasErr rows)

open Classical in
/-- the simplified table: the quantities, and after them their uncertainties; an uncertainty column that is asked for
although no uncertainty is known is zero -/
noncomputable def quantityTable (qs : List Quantity) (rows : List (List (Option ℝ))) (makeAll : Bool) : Table ℝ :=
  { labels := qs.map Quantity.name ++ (withUncertainty qs rows makeAll).map fun q => "d(".toList ++ q.name ++ ")".toList
    units := (qs.map fun q => some q.unit) ++ (withUncertainty qs rows makeAll).map fun q => some q.unit
    data := rows.map fun row => (qs.map fun q => q.val row) ++
      (withUncertainty qs rows makeAll).map fun q => if q.HasErr rows then q.err row else some 0 }

/-- there is exactly one column with a label of the list: column `i`, with label `l` and unit `u` -/
structure OneCol {N : Type} (t : Table N) (ls : List Str) (i : Nat) (l u : Str) : Prop where
  label : t.labels[i]? = some l
  unit : t.units[i]? = some (some u)
  mem : l ∈ ls
  only : ∀ (j : Nat) l', t.labels[j]? = some l' → l' ∈ ls → j = i

/-- the first column with a label of the list is column `i`, with label `l` and unit `u` -/
structure FirstCol {N : Type} (t : Table N) (ls : List Str) (i : Nat) (l u : Str) : Prop where
  label : t.labels[i]? = some l
  unit : t.units[i]? = some (some u)
  mem : l ∈ ls
  first : ∀ (j : Nat) l', j < i → t.labels[j]? = some l' → l' ∉ ls

/-- there is no column with a label of the list -/
def NoCol {N : Type} (t : Table N) (ls : List Str) : Prop := ∀ l ∈ t.labels, l ∉ ls

/-- There is no column with a label of the list, or the first of them has percent as unit, or one of the units, convertible
to that of the values, `un`. -/
def OptCol {N : Type} (t : Table N) (ls : List Str) (us : List Str) (un : Str) : Option (Nat × Str) → Prop
  | none => NoCol t ls
  | some (j, u) => (∃ l, FirstCol t ls j l u) ∧ (u = "PER-CENT".toList ∨ u ∈ us ∧ canonUnit u = un)

/-- the value of a row in column `i`, whose unit is `u` -/
noncomputable def valueIn (i : Nat) (u : Str) (row : List (Option ℝ)) : Option ℝ := (cell row i).map fun x => x * unitFactor u

/-- The uncertainty of the value `v` of a row that an uncertainty column gives: `scale` times the entry; percents are percents of
the value, other units are converted. -/
noncomputable def errorIn (v : Option ℝ) (c : Option (Nat × Str)) (scale : ℝ) (row : List (Option ℝ)) : Option ℝ :=
  match c with
  | none => none
  | some (j, u) => match cell row j with
    | none => none
    | some x => if u = "PER-CENT".toList then v.map fun v => |v * (x * scale) / 100| else some |x * unitFactor u * scale|

/-- sum in quadrature -/
noncomputable def inQuadrature : Option ℝ → Option ℝ → Option ℝ
  | none, none => none
  | some x, none => some x
  | none, some y => some y
  | some x, some y => some (Real.sqrt (x ^ 2 + y ^ 2))

/-- two uncertainty columns are either both in percent or both not -/
def SameKind : Option (Nat × Str) → Option (Nat × Str) → Prop
  | some (_, u), some (_, u') => u = "PER-CENT".toList ↔ u' = "PER-CENT".toList
  | _, _ => True

/-! ### the columns of the usual tables -/

/-- headings of the form `base + ending` -/
def withEnding (b : Str) (es : List String) : List Str := es.map fun e => b ++ e.toList

/-- headings of a column of values -/
def valueHeads (b : Str) : List Str := withEnding b ["", "-DUMMY", "-ASSUM", "-MEAN", "-APRX"]
/-- headings of full widths at half maximum -/
def fullWidthHeads (b : Str) : List Str := withEnding b ["-RES", "-RSL", "-RSL-FW"]

def unitsOfEnergy : List Str := ["GEV", "MEV", "KEV", "EV", "MILLI-EV", "MeV", "K"].map String.toList
def unitsOfCrossSection : List Str := ["B", "MB", "MICRO-B", "barns"].map String.toList
def unitsOfAngDist : List Str := ["B/SR", "MB/SR", "MICRO-B/SR", "barns/SR"].map String.toList
def unitsOfSpectrum : List Str := ["1/GEV", "1/MEV", "1/KEV", "1/EV", "1/MILLI-EV", "1/MeV"].map String.toList
def unitsOfNubar : List Str := ["PRT/FIS".toList]
def unitsOfAngle : List Str := ["ADEG", "SR", "RAD"].map String.toList
def dimensionless : List Str := ["NO-DIM", "ARB-UNITS", "no-dim"].map String.toList

/-- middle and half width of the interval from `lo` to `hi` -/
noncomputable def middle : Option ℝ → Option ℝ → Option ℝ
  | some lo, some hi => some ((lo + hi) / 2)
  | _, _ => none
noncomputable def halfWidth : Option ℝ → Option ℝ → Option ℝ
  | some lo, some hi => some (|hi - lo| / 2)
  | _, _ => none

/-- middle and half width of the interval from `v - lo` to `v + hi` -/
noncomputable def middleOf : Option ℝ → Option ℝ → Option ℝ → Option ℝ
  | some v, some lo, some hi => some (((v - lo) + (v + hi)) / 2)
  | _, _, _ => none
noncomputable def halfWidthOf : Option ℝ → Option ℝ → Option ℝ → Option ℝ
  | some _, some lo, some hi => some (|lo + hi| / 2)
  | _, _, _ => none

/-- How a table gives energies, in columns with headings beginning with `b` (EN or E). -/
inductive EnergyGiven (b name : Str) (t : Table ℝ) : Quantity → Prop
  /-- one column of energies, with any of the three kinds of uncertainty: an error (preferred), a full width, of
  which half is taken, and a half width -/
  | points (i : Nat) (l u : Str) (e1 e2 e3 : Option (Nat × Str)) (h : FirstCol t (valueHeads b ++ ["MOM".toList]) i l u) (hl : l ∈ valueHeads b)
      (hu : u ∈ unitsOfEnergy) (h1 : OptCol t [b ++ "-ERR".toList] unitsOfEnergy "MeV".toList e1) (h2 : OptCol t (fullWidthHeads b) unitsOfEnergy "MeV".toList e2)
      (h3 : OptCol t [b ++ "-RSL-HW".toList] unitsOfEnergy "MeV".toList e3)
      (hn : NoCol t [b ++ "-MIN".toList, b ++ "-MAX".toList, "-".toList ++ b ++ "-ERR".toList, "+".toList ++ b ++ "-ERR".toList]) :
      EnergyGiven b name t ⟨name, "MeV".toList, valueIn i u, fun row =>
        firstSome [errorIn (valueIn i u row) e1 1 row, errorIn (valueIn i u row) e2 (1 / 2) row, errorIn (valueIn i u row) e3 1 row]⟩
  /-- lower and upper limits, both of them in every row with one of them -/
  | bins (i j : Nat) (l l' u u' : Str) (h : FirstCol t [b ++ "-MIN".toList] i l u) (h' : FirstCol t [b ++ "-MAX".toList] j l' u') (hu : u ∈ unitsOfEnergy) (hu' : u' ∈ unitsOfEnergy)
      (hb : ∀ row ∈ t.data, cell row i = none ↔ cell row j = none) (hn : NoCol t (valueHeads b ++ ["MOM".toList])) :
      EnergyGiven b name t ⟨name, "MeV".toList, fun row => middle (valueIn i u row) (valueIn j u' row), fun row => halfWidth (valueIn i u row) (valueIn j u' row)⟩
  /-- a column of energies and two columns of different errors below and above: the middle of the interval and half its
  width; the energy itself where an error is not given -/
  | asym (i j k : Nat) (l l' u u' u'' : Str) (h : FirstCol t (valueHeads b ++ ["MOM".toList]) i b u) (h' : FirstCol t ["-".toList ++ b ++ "-ERR".toList] j l u')
      (h'' : FirstCol t ["+".toList ++ b ++ "-ERR".toList] k l' u'') (hu : u ∈ unitsOfEnergy) (hu' : u' ∈ unitsOfEnergy) (hu'' : u'' ∈ unitsOfEnergy)
      (hn : NoCol t ([b ++ "-ERR".toList, b ++ "-RSL-HW".toList, b ++ "-MIN".toList, b ++ "-MAX".toList] ++ fullWidthHeads b)) :
      EnergyGiven b name t ⟨name, "MeV".toList, fun row => firstSome [middleOf (valueIn i u row) (valueIn j u' row) (valueIn k u'' row), valueIn i u row],
        fun row => halfWidthOf (valueIn i u row) (valueIn j u' row) (valueIn k u'' row)⟩

  /-- a column of energies, and lower and upper limits, both of them in every row with one of them: if there is a column of
  one of the three kinds of uncertainty, the energy is preferred to the middle between the limits, otherwise the middle to the energy -/
  | both (i j k : Nat) (l l' l'' u u' u'' : Str) (e1 e2 e3 : Option (Nat × Str)) (h : FirstCol t (valueHeads b ++ ["MOM".toList]) i l u) (hl : l ∈ valueHeads b)
      (hu : u ∈ unitsOfEnergy) (h1 : OptCol t [b ++ "-ERR".toList] unitsOfEnergy "MeV".toList e1) (h2 : OptCol t (fullWidthHeads b) unitsOfEnergy "MeV".toList e2)
      (h3 : OptCol t [b ++ "-RSL-HW".toList] unitsOfEnergy "MeV".toList e3) (h' : FirstCol t [b ++ "-MIN".toList] j l' u') (h'' : FirstCol t [b ++ "-MAX".toList] k l'' u'')
      (hu' : u' ∈ unitsOfEnergy) (hu'' : u'' ∈ unitsOfEnergy) (hb : ∀ row ∈ t.data, cell row j = none ↔ cell row k = none)
      (hn : NoCol t ["-".toList ++ b ++ "-ERR".toList, "+".toList ++ b ++ "-ERR".toList]) :
      EnergyGiven b name t ⟨name, "MeV".toList,
        fun row => if e1.isSome ∨ e2.isSome ∨ e3.isSome then firstSome [valueIn i u row, middle (valueIn j u' row) (valueIn k u'' row)]
          else firstSome [middle (valueIn j u' row) (valueIn k u'' row), valueIn i u row],
        fun row => firstSome [errorIn (valueIn i u row) e1 1 row, errorIn (valueIn i u row) e2 (1 / 2) row, errorIn (valueIn i u row) e3 1 row,
          halfWidth (valueIn j u' row) (valueIn k u'' row)]⟩

/-- headings of a column of measured values -/
def dataHeads : List Str := withEnding "DATA".toList ["", "-DUMMY", "-ASSUM", "-MEAN", "-APRX", "-CM"] ++ withEnding "RATIO".toList ["", "-DUMMY", "-ASSUM", "-MEAN", "-APRX", "-CM"]

/-- How a table gives measured values: in one column, with a total error, or a systematic and a statistical one, or both (the
total error is preferred); or with different errors below and above; or by limits. -/
inductive DataGiven (us : List Str) (t : Table ℝ) : Quantity → Prop
  | points (i : Nat) (l u : Str) (e1 e2 e3 : Option (Nat × Str)) (h : OneCol t dataHeads i l u) (hl : l ∈ ["DATA".toList, "RATIO".toList]) (hu : u ∈ us ++ dimensionless)
      (h1 : OptCol t ["DATA-ERR".toList, "RATIO-ERR".toList, "ERR-T".toList] (us ++ dimensionless) (canonUnit u) e1)
      (h2 : OptCol t ["ERR".toList] (us ++ dimensionless) (canonUnit u) e2) (h3 : OptCol t ["ERR-S".toList] (us ++ dimensionless) (canonUnit u) e3) (hs : SameKind e2 e3)
      (hn : NoCol t (withEnding "DATA".toList ["-MIN", "-MAX"] ++ withEnding "RATIO".toList ["-MIN", "-MAX"] ++
        ["-DATA-ERR".toList, "+DATA-ERR".toList, "-RATIO-ERR".toList, "+RATIO-ERR".toList])) :
      DataGiven us t ⟨"Data".toList, canonUnit u, valueIn i u, fun row =>
        firstSome [errorIn (valueIn i u row) e1 1 row, inQuadrature (errorIn (valueIn i u row) e2 1 row) (errorIn (valueIn i u row) e3 1 row)]⟩
  /-- different errors below and above -/
  | asym (i j k : Nat) (l l' l'' u u' u'' : Str) (h : OneCol t dataHeads i l u) (hl : l ∈ ["DATA".toList, "RATIO".toList])
      (h' : FirstCol t ["-DATA-ERR".toList, "-RATIO-ERR".toList] j l' u') (h'' : FirstCol t ["+DATA-ERR".toList, "+RATIO-ERR".toList] k l'' u'')
      (hu : u ∈ us ++ dimensionless) (hu' : u' ∈ us ++ dimensionless) (hu'' : u'' ∈ us ++ dimensionless) (he' : canonUnit u' = canonUnit u) (he'' : canonUnit u'' = canonUnit u)
      (hn : NoCol t (withEnding "DATA".toList ["-MIN", "-MAX", "-ERR"] ++ withEnding "RATIO".toList ["-MIN", "-MAX", "-ERR"] ++ ["ERR-T".toList, "ERR".toList, "ERR-S".toList])) :
      DataGiven us t ⟨"Data".toList, canonUnit u, fun row => firstSome [middleOf (valueIn i u row) (valueIn j u' row) (valueIn k u'' row), valueIn i u row],
        fun row => halfWidthOf (valueIn i u row) (valueIn j u' row) (valueIn k u'' row)⟩
  /-- lower and upper limits, both of them in every row with one of them -/
  | bins (i j : Nat) (l l' u u' : Str) (h : FirstCol t ["DATA-MIN".toList, "RATIO-MIN".toList] i l u) (h' : FirstCol t ["DATA-MAX".toList, "RATIO-MAX".toList] j l' u')
      (hu : u ∈ us ++ dimensionless) (hu' : u' ∈ us ++ dimensionless) (he : canonUnit u' = canonUnit u) (hb : ∀ row ∈ t.data, cell row i = none ↔ cell row j = none)
      (hn : NoCol t dataHeads) :
      DataGiven us t ⟨"Data".toList, canonUnit u, fun row => middle (valueIn i u row) (valueIn j u' row), fun row => halfWidth (valueIn i u row) (valueIn j u' row)⟩

/-- A table gives measured values of a distribution in one column, with or without a column of errors. -/
inductive DistGiven (us : List Str) (t : Table ℝ) : Quantity → Prop
  | points (i : Nat) (l u : Str) (e : Option (Nat × Str)) (h : FirstCol t dataHeads i l u) (hu : u ∈ us ++ dimensionless)
      (h1 : OptCol t ["DATA-ERR".toList, "RATIO-ERR".toList, "ERR-T".toList] (us ++ dimensionless) (canonUnit u) e) :
      DistGiven us t ⟨"Data".toList, canonUnit u, valueIn i u, fun row => errorIn (valueIn i u row) e 1 row⟩

/-- headings of angles and their cosines -/
def angleHeads (es : List String) : List Str := withEnding "ANG".toList es ++ withEnding "COS".toList es

/-- the angle of a row in degrees, of which column `i` has the cosine -/
noncomputable def angleOfCosine (i : Nat) (row : List (Option ℝ)) : Option ℝ := (cell row i).map fun x => Real.arccos x * (180 / Real.pi)

/-- A table gives angles or their cosines in one column, with or without errors of the angles. -/
inductive AngleGiven (t : Table ℝ) : Quantity → Prop
  | points (i : Nat) (l u : Str) (e1 e2 : Option (Nat × Str)) (h : FirstCol t (angleHeads ["", "-DUMMY", "-ASSUM", "-MEAN", "-APRX", "-CM"]) i l u)
      (hl : l ∈ withEnding "ANG".toList ["", "-DUMMY", "-ASSUM", "-MEAN", "-APRX", "-CM"]) (hu : u ∈ unitsOfAngle)
      (h1 : OptCol t (withEnding "ANG".toList ["-ERR", "-RSL-HW"]) unitsOfAngle "degrees".toList e1)
      (h2 : OptCol t (withEnding "ANG".toList ["-RES", "-RSL", "-RSL-FW"]) unitsOfAngle "degrees".toList e2)
      (hn : NoCol t (withEnding "COS".toList ["-ERR", "-RSL-HW", "-RES", "-RSL", "-RSL-FW"])) :
      AngleGiven t ⟨"Angle".toList, "degrees".toList, valueIn i u, fun row =>
        firstSome [errorIn (valueIn i u row) e1 1 row, errorIn (valueIn i u row) e2 (1 / 2) row]⟩
  | cosines (i : Nat) (l u : Str) (e1 e2 : Option (Nat × Str)) (h : FirstCol t (angleHeads ["", "-DUMMY", "-ASSUM", "-MEAN", "-APRX", "-CM"]) i l u)
      (hl : l ∈ withEnding "COS".toList ["", "-DUMMY", "-ASSUM", "-MEAN", "-APRX", "-CM"]) (hu : u ∈ dimensionless)
      (hx : ∀ row ∈ t.data, ∀ x, cell row i = some x → -1 ≤ x ∧ x ≤ 1)
      (h1 : OptCol t (withEnding "ANG".toList ["-ERR", "-RSL-HW"]) unitsOfAngle "degrees".toList e1)
      (h2 : OptCol t (withEnding "ANG".toList ["-RES", "-RSL", "-RSL-FW"]) unitsOfAngle "degrees".toList e2)
      (hn : NoCol t (withEnding "COS".toList ["-ERR", "-RSL-HW", "-RES", "-RSL", "-RSL-FW"])) :
      AngleGiven t ⟨"Angle".toList, "degrees".toList, angleOfCosine i, fun row =>
        firstSome [errorIn (angleOfCosine i row) e1 1 row, errorIn (angleOfCosine i row) e2 (1 / 2) row]⟩

end X4
