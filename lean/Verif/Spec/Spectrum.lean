import Verif.Spec.Simple
/-! How tables give the temperature or the energy of a spectrum, stated on the table with its headings and units. -/
namespace X4

/-- headings of temperatures: KT (an energy), or TEMP -/
def ktHeads : List Str := valueHeads "KT".toList
def tempHeads : List Str := withEnding "TEMP".toList ["", "-DUMMY", "-ASSUM", "-MEAN", "-APRX", "-K"]

/-- Energies may be given besides the temperature, in one column and without uncertainties. -/
def EnergyBeside {N : Type} (t : Table N) (en : Option (Nat × Str)) : Prop :=
  (match en with
    | none => NoCol t (valueHeads "EN".toList ++ ["MOM".toList])
    | some (k, u) => ∃ l, OneCol t (valueHeads "EN".toList ++ ["MOM".toList]) k l u ∧ l ∈ valueHeads "EN".toList ∧ u ∈ unitsOfEnergy) ∧
  NoCol t (["EN-ERR", "EN-RSL-HW", "EN-MIN", "EN-MAX", "-EN-ERR", "+EN-ERR", "EN-RES", "EN-RSL", "EN-RSL-FW"].map String.toList)

/-- the energy given besides the temperature -/
noncomputable def energyBeside (en : Option (Nat × Str)) (row : List (Option ℝ)) : Option ℝ :=
  match en with
  | none => none
  | some (k, u) => valueIn k u row

/-- How a table gives the temperature of a Maxwellian spectrum, or its energy: the temperature is preferred, the energy
stands in for it in the rows without a temperature. -/
inductive SpectrumGiven (t : Table ℝ) : Quantity → Prop
  /-- one column of temperatures KT, with any of the three kinds of uncertainty -/
  | kt (i : Nat) (l u : Str) (e1 e2 e3 en : Option (Nat × Str)) (h : OneCol t (ktHeads ++ ["KT-K".toList] ++ tempHeads) i l u) (hl : l ∈ ktHeads)
      (hu : u ∈ unitsOfEnergy) (h1 : OptCol t ["KT-ERR".toList] unitsOfEnergy "MeV".toList e1) (h2 : OptCol t (fullWidthHeads "KT".toList) unitsOfEnergy "MeV".toList e2)
      (h3 : OptCol t ["KT-RSL-HW".toList] unitsOfEnergy "MeV".toList e3)
      (hn : NoCol t (["KT-MIN", "KT-MAX", "-KT-ERR", "+KT-ERR"].map String.toList)) (hen : EnergyBeside t en) :
      SpectrumGiven t ⟨"Energy".toList, "MeV".toList, fun row => firstSome [valueIn i u row, energyBeside en row], fun row =>
        firstSome [errorIn (valueIn i u row) e1 1 row, errorIn (valueIn i u row) e2 (1 / 2) row, errorIn (valueIn i u row) e3 1 row]⟩
  /-- one column of temperatures TEMP, without uncertainties -/
  | temp (i : Nat) (l u : Str) (en : Option (Nat × Str)) (h : OneCol t (ktHeads ++ ["KT-K".toList] ++ tempHeads) i l u) (hl : l ∈ tempHeads) (hu : u ∈ unitsOfEnergy)
      (hn : NoCol t (["KT-MIN", "KT-MAX"].map String.toList)) (hen : EnergyBeside t en) :
      SpectrumGiven t ⟨"Energy".toList, "MeV".toList, fun row => firstSome [valueIn i u row, energyBeside en row], fun _ => none⟩
  /-- lower and upper limits of the temperature, both of them in every row with one of them -/
  | limits (i j : Nat) (l l' u u' : Str) (en : Option (Nat × Str)) (h : OneCol t ["KT-MIN".toList] i l u) (h' : OneCol t ["KT-MAX".toList] j l' u')
      (hu : u ∈ unitsOfEnergy) (hu' : u' ∈ unitsOfEnergy) (hb : ∀ row ∈ t.data, cell row i = none ↔ cell row j = none)
      (hn : NoCol t (ktHeads ++ ["KT-K".toList] ++ tempHeads)) (hen : EnergyBeside t en) :
      SpectrumGiven t ⟨"Energy".toList, "MeV".toList, fun row => firstSome [middle (valueIn i u row) (valueIn j u' row), energyBeside en row],
        fun row => halfWidth (valueIn i u row) (valueIn j u' row)⟩
  /-- different errors below and above -/
  | asym (i j k : Nat) (l l' u u' u'' : Str) (en : Option (Nat × Str)) (h : OneCol t (ktHeads ++ ["KT-K".toList] ++ tempHeads) i "KT".toList u)
      (h' : OneCol t ["-KT-ERR".toList] j l u') (h'' : OneCol t ["+KT-ERR".toList] k l' u'') (hu : u ∈ unitsOfEnergy) (hu' : u' ∈ unitsOfEnergy) (hu'' : u'' ∈ unitsOfEnergy)
      (hn : NoCol t (["KT-ERR", "KT-RSL-HW", "KT-MIN", "KT-MAX", "KT-RES", "KT-RSL", "KT-RSL-FW"].map String.toList)) (hen : EnergyBeside t en) :
      SpectrumGiven t ⟨"Energy".toList, "MeV".toList,
        fun row => firstSome [middleOf (valueIn i u row) (valueIn j u' row) (valueIn k u'' row), valueIn i u row, energyBeside en row],
        fun row => halfWidthOf (valueIn i u row) (valueIn j u' row) (valueIn k u'' row)⟩
  /-- no temperature: the energies -/
  | energy (q : Quantity) (hn : NoCol t (ktHeads ++ ["KT-K".toList] ++ tempHeads ++ ["KT-MIN", "KT-MAX"].map String.toList))
      (h : EnergyGiven "EN".toList "Energy".toList t q) : SpectrumGiven t q

end X4
