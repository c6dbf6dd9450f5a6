import Verif.Spec.UnitChoice
/-! Uncertainties in percent of the quantity, and the same uncertainties in a unit. -/
namespace X4

/-- The uncertainties that may be given in percent: the headings of the uncertainty, and those of the quantity. -/
def relativeHeadings : List (List String × List String) :=
  (["EN", "E"].flatMap fun b => [([b ++ "-ERR"], (energyFamilies b).headD []), ([b ++ "-RES", b ++ "-RSL", b ++ "-RSL-FW"], (energyFamilies b).headD []),
    ([b ++ "-RSL-HW"], (energyFamilies b).headD [])]) ++
  [(["KT-ERR"], temperatureFamilies.headD []), (["KT-RES", "KT-RSL", "KT-RSL-FW"], temperatureFamilies.headD []), (["KT-RSL-HW"], temperatureFamilies.headD []),
   (["ANG-ERR", "ANG-RSL-HW"], angleFamilies.headD []), (["ANG-RES", "ANG-RSL", "ANG-RSL-FW"], angleFamilies.headD []),
   (["DATA-ERR", "RATIO-ERR", "ERR-T"], dataFamilies.headD []), (["ERR"], dataFamilies.headD []), (["ERR-S"], dataFamilies.headD [])]

/-- quantity, uncertainty in percent, uncertainty in a unit -/
def SameUncertainty (size size' : ℝ) : Option ℝ → Option ℝ → Option ℝ → Prop
  | some x, some p, e => ∃ y, e = some y ∧ y * size' = x * size * p / 100
  | _, _, e => e = none

/-- `c` gives uncertainties of the quantities `v` in percent, `c'` the same uncertainties in a unit. -/
structure InPercent (v c c' : WholeColumn ℝ) : Prop where
  heading : c.1 = c'.1
  /-- not the cosine of an angle -/
  noCosine : ¬ hasSub "COS".toList v.1 = true ∧ ¬ hasSub "COS".toList c.1 = true
  headings : ∃ h ∈ relativeHeadings, inFamily h.1 c.1 = true ∧ inFamily h.2 v.1 = true
  percent : c.2.1 = some (some "PER-CENT".toList)
  cells : ∃ u b n u' b' n', ∃ rows : List (Option ℝ × Option ℝ × Option ℝ), v.2 = (some (some u), rows.map fun r => some r.1) ∧
    c.2.2 = (rows.map fun r => some r.2.1) ∧ c'.2 = (some (some u'), rows.map fun r => some r.2.2) ∧ u ∈ freeUnits ∧ u' ∈ freeUnits ∧
    IsUnit u b n ∧ IsUnit u' b' n' ∧ b.dimension = b'.dimension ∧ ∀ r ∈ rows, SameUncertainty (10 ^ n * b.size) (10 ^ n' * b'.size) r.1 r.2.1 r.2.2

/-- ERR and ERR-S are both in percent, or both are not -/
def NotMixed (cols : List (WholeColumn ℝ)) : Prop := ∀ c ∈ cols, ∀ e ∈ cols, c.1 = "ERR".toList → e.1 = "ERR-S".toList →
  (c.2.1 = some (some "PER-CENT".toList) ↔ e.2.1 = some (some "PER-CENT".toList))

end X4
