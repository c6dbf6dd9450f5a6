import Mathlib.Analysis.Real.Pi.Bounds
import Verif.Py.Str
/-! The units of EXFOR columns and of simplified datasets as physical units, in terms of SI units. -/
namespace X4

/-- what a unit measures -/
inductive Dimension where
  | energy | perEnergy | area | areaPerSolidAngle | areaRootEnergy | angle | solidAngle | momentum | multiplicity | pure | arbitrary
  deriving DecidableEq, Repr

/-- the units from which the others are made by powers of ten -/
inductive BaseUnit where
  | electronvolt | kelvin | perElectronvolt | barn | barnPerSteradian | barnRootElectronvolt | degree | radian | steradian | electronvoltPerC | perFission | one | arbitrary
  deriving DecidableEq, Repr

def BaseUnit.dimension : BaseUnit → Dimension
  | .electronvolt | .kelvin => .energy
  | .perElectronvolt => .perEnergy
  | .barn => .area
  | .barnPerSteradian => .areaPerSolidAngle
  | .barnRootElectronvolt => .areaRootEnergy
  | .degree | .radian => .angle
  | .steradian => .solidAngle
  | .electronvoltPerC => .momentum
  | .perFission => .multiplicity
  | .one => .pure
  | .arbitrary => .arbitrary

/-- The size of the units: joules, square metres, radians, … The elementary charge and the Boltzmann constant have the exact
values of the SI of 2019; a temperature stands for the energy `k T`. -/
noncomputable def BaseUnit.size : BaseUnit → ℝ
  | .electronvolt => 1.602176634e-19
  | .kelvin => 1.380649e-23
  | .perElectronvolt => 1 / 1.602176634e-19
  | .barn | .barnPerSteradian => 1e-28
  | .barnRootElectronvolt => 1e-28 * Real.sqrt 1.602176634e-19
  | .degree => Real.pi / 180
  | .electronvoltPerC => 1.602176634e-19 / 299792458
  | .radian | .steradian | .perFission | .one | .arbitrary => 1

/-- a unit is a power of ten of a base unit -/
def siUnits : List (Str × BaseUnit × ℤ) :=
  [("GEV".toList, .electronvolt, 9), ("MEV".toList, .electronvolt, 6), ("KEV".toList, .electronvolt, 3), ("EV".toList, .electronvolt, 0),
   ("MILLI-EV".toList, .electronvolt, -3), ("MeV".toList, .electronvolt, 6), ("K".toList, .kelvin, 0),
   ("1/GEV".toList, .perElectronvolt, -9), ("1/MEV".toList, .perElectronvolt, -6), ("1/KEV".toList, .perElectronvolt, -3), ("1/EV".toList, .perElectronvolt, 0),
   ("1/MILLI-EV".toList, .perElectronvolt, 3), ("1/MeV".toList, .perElectronvolt, -6),
   ("B".toList, .barn, 0), ("MB".toList, .barn, -3), ("MICRO-B".toList, .barn, -6), ("barns".toList, .barn, 0),
   ("B/SR".toList, .barnPerSteradian, 0), ("MB/SR".toList, .barnPerSteradian, -3), ("MICRO-B/SR".toList, .barnPerSteradian, -6),
   ("barns/SR".toList, .barnPerSteradian, 0), ("barns/ster".toList, .barnPerSteradian, 0),
   ("B*RT-EV".toList, .barnRootElectronvolt, 0), ("MB*RT-EV".toList, .barnRootElectronvolt, -3),
   ("ADEG".toList, .degree, 0), ("degrees".toList, .degree, 0), ("RAD".toList, .radian, 0), ("SR".toList, .steradian, 0),
   ("GEV/C".toList, .electronvoltPerC, 9), ("MEV/C".toList, .electronvoltPerC, 6), ("GeV/c".toList, .electronvoltPerC, 9),
   ("PRT/FIS".toList, .perFission, 0), ("ptcls/fis".toList, .perFission, 0),
   ("NO-DIM".toList, .one, 0), ("no-dim".toList, .one, 0), ("ARB-UNITS".toList, .arbitrary, 0)]

/-- `u` is `10ⁿ` times the base unit `b` -/
def IsUnit (u : Str) (b : BaseUnit) (n : ℤ) : Prop := (u, b, n) ∈ siUnits
instance (u : Str) (b : BaseUnit) (n : ℤ) : Decidable (IsUnit u b n) := inferInstanceAs (Decidable ((u, b, n) ∈ siUnits))

end X4
