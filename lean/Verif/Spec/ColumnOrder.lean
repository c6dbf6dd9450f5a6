import Verif.Model.Dataset
/-! Columns of a table without their order, and the headings that stand for the same quantity. -/
namespace X4
variable {N : Type}

/-- a column: heading, unit, and what stands in every row -/
abbrev WholeColumn (N : Type) := Str × Option (Option Str) × List (Option (Option N))

/-- the columns of a table, from left to right -/
def columnsOf (t : Table N) : List (WholeColumn N) :=
  t.labels.zipIdx.map fun li => (li.1, t.units[li.2]?, t.data.map fun r => r[li.2]?)

/-- headings for an energy `b`: the energy, its error, its resolution (full and half width), limits and asymmetric errors. A
momentum may stand for the energy. -/
def energyFamilies (b : String) : List (List String) :=
  [[b, b ++ "-DUMMY", b ++ "-ASSUM", b ++ "-MEAN", b ++ "-APRX", "MOM"], [b ++ "-ERR"], [b ++ "-RES", b ++ "-RSL", b ++ "-RSL-FW"],
   [b ++ "-RSL-HW"], [b ++ "-MIN"], [b ++ "-MAX"], ["-" ++ b ++ "-ERR"], ["+" ++ b ++ "-ERR"]]
/-- headings for temperatures -/
def temperatureFamilies : List (List String) :=
  [["KT", "KT-DUMMY", "KT-ASSUM", "KT-MEAN", "KT-APRX", "KT-K", "TEMP", "TEMP-DUMMY", "TEMP-ASSUM", "TEMP-MEAN", "TEMP-APRX", "TEMP-K"],
   ["KT-ERR"], ["KT-RES", "KT-RSL", "KT-RSL-FW"], ["KT-RSL-HW"], ["KT-MIN"], ["KT-MAX"], ["-KT-ERR"], ["+KT-ERR"]]
/-- headings for angles and cosines of angles -/
def angleFamilies : List (List String) :=
  [["ANG", "ANG-DUMMY", "ANG-ASSUM", "ANG-MEAN", "ANG-APRX", "ANG-CM", "COS", "COS-DUMMY", "COS-ASSUM", "COS-MEAN", "COS-APRX", "COS-CM"],
   ["ANG-ERR", "ANG-RSL-HW", "COS-ERR", "COS-RSL-HW"], ["ANG-RES", "ANG-RSL", "ANG-RSL-FW", "COS-RES", "COS-RSL", "COS-RSL-FW"]]
/-- headings for the data -/
def dataFamilies : List (List String) :=
  [["DATA", "DATA-DUMMY", "DATA-ASSUM", "DATA-MEAN", "DATA-APRX", "DATA-CM",
    "RATIO", "RATIO-DUMMY", "RATIO-ASSUM", "RATIO-MEAN", "RATIO-APRX", "RATIO-CM"],
   ["DATA-ERR", "RATIO-ERR", "ERR-T"], ["DATA-MIN", "RATIO-MIN"], ["DATA-MAX", "RATIO-MAX"], ["-DATA-ERR", "-RATIO-ERR"],
   ["+DATA-ERR", "+RATIO-ERR"], ["ERR"], ["ERR-S"]]

/-- the headings of interest for each class of datasets -/
def headingFamilies : DsKind → List (List String)
  | .crossSection | .nubar => energyFamilies "EN" ++ dataFamilies
  | .spectrumAve => temperatureFamilies ++ energyFamilies "EN" ++ dataFamilies
  | .angular => energyFamilies "EN" ++ angleFamilies ++ dataFamilies
  | .energyDist => energyFamilies "EN" ++ energyFamilies "E" ++ dataFamilies
  | _ => []

/-- the heading is one of a family -/
def inFamily (F : List String) (l : Str) : Bool := F.any fun s => decide (s.toList = l)
/-- the heading is of interest for the class -/
def ofInterest (k : DsKind) (l : Str) : Bool := (headingFamilies k).any fun F => inFamily F l

/-- no family of headings comes twice -/
def OneEach (k : DsKind) (heads : List Str) : Prop := ∀ F ∈ headingFamilies k, (heads.filter (inFamily F)).length ≤ 1

end X4
