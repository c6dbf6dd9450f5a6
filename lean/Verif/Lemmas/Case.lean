import Verif.Py.Str
import Mathlib.Tactic.SplitIfs
/-! Upper and lower case of ASCII letters. -/
namespace X4

theorem toUpper_cases (c : Char) :
    (97 ≤ c.toNat ∧ c.toNat ≤ 122 ∧ c.toUpper.toNat + 32 = c.toNat) ∨ (¬(97 ≤ c.toNat ∧ c.toNat ≤ 122) ∧ c.toUpper = c) := by
  by_cases h : 97 ≤ c.toNat ∧ c.toNat ≤ 122
  · left
    refine ⟨h.1, h.2, ?_⟩
    have key : ∀ n, n < 123 → 97 ≤ n → (Char.ofNat n).toUpper.toNat + 32 = n := by decide
    have := key c.toNat (by omega) h.1
    rwa [Char.ofNat_toNat] at this
  · right
    refine ⟨h, ?_⟩
    unfold Char.toUpper
    rw [dif_neg]
    exact h

theorem toLower_cases (c : Char) :
    (65 ≤ c.toNat ∧ c.toNat ≤ 90 ∧ c.toLower.toNat = c.toNat + 32) ∨ (¬(65 ≤ c.toNat ∧ c.toNat ≤ 90) ∧ c.toLower = c) := by
  by_cases h : 65 ≤ c.toNat ∧ c.toNat ≤ 90
  · left
    refine ⟨h.1, h.2, ?_⟩
    have key : ∀ n, n < 91 → 65 ≤ n → (Char.ofNat n).toLower.toNat = n + 32 := by decide
    have := key c.toNat (by omega) h.1
    rwa [Char.ofNat_toNat] at this
  · right
    refine ⟨h, ?_⟩
    unfold Char.toLower
    first
      | rw [dif_neg]; exact h
      | rw [if_neg]; exact h

theorem char_ext_toNat {a b : Char} (h : a.toNat = b.toNat) : a = b := by
  rw [← Char.ofNat_toNat a, ← Char.ofNat_toNat b, h]

theorem toUpper_of_not_lower {c : Char} (h : ¬(97 ≤ c.toNat ∧ c.toNat ≤ 122)) : c.toUpper = c := by
  rcases toUpper_cases c with h1 | h1
  · exact absurd ⟨h1.1, h1.2.1⟩ h
  · exact h1.2

theorem toUpper_toUpper (c : Char) : c.toUpper.toUpper = c.toUpper := by
  rcases toUpper_cases c with h | h
  · exact toUpper_of_not_lower (by omega)
  · rw [h.2, h.2]

theorem toUpper_toLower (c : Char) : c.toLower.toUpper = c.toUpper := by
  rcases toLower_cases c with h | h
  · rcases toUpper_cases c.toLower with h1 | h1
    · rw [toUpper_of_not_lower (c := c) (by omega)]
      exact char_ext_toNat (by omega)
    · omega
  · rw [h.2]

theorem upper_upper (s : Str) : upper (upper s) = upper s := by
  unfold upper
  rw [List.map_map]
  exact List.map_congr_left fun c _ => toUpper_toUpper c

theorem upper_lower (s : Str) : upper (lower s) = upper s := by
  unfold upper lower
  rw [List.map_map]
  exact List.map_congr_left fun c _ => toUpper_toLower c

theorem toUpper_eq_iff {c d : Char} (h : ¬(65 ≤ d.toNat ∧ d.toNat ≤ 122)) : c.toUpper = d ↔ c = d := by
  rcases toUpper_cases c with h1 | h1
  · constructor
    · rintro rfl; omega
    · rintro rfl; omega
  · rw [h1.2]

theorem toLower_toUpper (c : Char) : c.toUpper.toLower = c.toLower := by
  rcases toUpper_cases c with h | h
  · rcases toLower_cases c.toUpper with h1 | h1
    · rcases toLower_cases c with h2 | h2
      · omega
      · rw [h2.2]; exact char_ext_toNat (by omega)
    · omega
  · rw [h.2]

theorem lower_upper (s : Str) : lower (upper s) = lower s := by
  unfold upper lower
  rw [List.map_map]
  exact List.map_congr_left fun c _ => toLower_toUpper c

end X4
