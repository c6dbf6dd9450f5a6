import Verif.Model.Dataset
import Verif.Spec.Simple
/-! The columns from which the quantities of simplified datasets can be read: headings and units. -/
namespace X4

/-- no column has one of the headings together with one of the units beside them -/
def Nowhere {N : Type} (t : Table N) (cs : List (List Str × List Str)) : Prop :=
  ∀ (i : Nat) l u, t.labels[i]? = some l → t.units[i]? = some (some u) → ∀ c ∈ cs, l ∈ c.1 → u ∉ c.2

/-- columns of energies: values and limits in units of energy (or temperature), and values in units of momentum -/
def energyColumns (b : Str) : List (List Str × List Str) :=
  [(valueHeads b ++ ["MOM".toList] ++ withEnding b ["-MIN", "-MAX"], unitsOfEnergy),
   (valueHeads b ++ ["MOM".toList], ["GEV/C".toList, "MEV/C".toList])]
/-- columns of temperatures -/
def tempColumns : List (List Str × List Str) :=
  [(valueHeads "KT".toList ++ valueHeads "TEMP".toList ++ ["KT-K".toList, "TEMP-K".toList, "KT-MIN".toList, "KT-MAX".toList], unitsOfEnergy)]
/-- columns of angles -/
def angleColumns : List (List Str × List Str) :=
  [(angleHeads ["", "-DUMMY", "-ASSUM", "-MEAN", "-APRX", "-CM"], unitsOfAngle ++ dimensionless)]
/-- headings of limits of measured values -/
def limitHeads : List Str := withEnding "DATA".toList ["-MIN", "-MAX"] ++ withEnding "RATIO".toList ["-MIN", "-MAX"]
/-- columns of cross sections; also, under the heading DATA, of cross sections times the square root of the energy -/
def crossSectionColumns : List (List Str × List Str) :=
  [(dataHeads ++ limitHeads, unitsOfCrossSection ++ dimensionless), (["DATA".toList], ["B*RT-EV".toList, "MB*RT-EV".toList])]

/-- the quantities of the simplified datasets of a kind, and the columns they can be read from -/
def quantitiesOf : DsKind → List (Str × List (List Str × List Str))
  | .crossSection => [("Energy".toList, energyColumns "EN".toList), ("Data".toList, crossSectionColumns)]
  | .nubar => [("Energy".toList, energyColumns "EN".toList),
      ("Data".toList, [(valueHeads "DATA".toList ++ valueHeads "RATIO".toList ++ limitHeads, unitsOfNubar ++ dimensionless)])]
  | .spectrumAve => [("Energy".toList, tempColumns ++ energyColumns "EN".toList), ("Data".toList, crossSectionColumns)]
  | .angular => [("Energy".toList, energyColumns "EN".toList), ("Angle".toList, angleColumns), ("Data".toList, [(dataHeads, unitsOfAngDist ++ dimensionless)])]
  | .energyDist => [("Energy".toList, energyColumns "EN".toList), ("E'".toList, energyColumns "E".toList), ("Data".toList, [(dataHeads, unitsOfSpectrum ++ dimensionless)])]
  | _ => []

end X4
