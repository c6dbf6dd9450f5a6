import Verif.Lemmas.Str
import Verif.Spec.Number
import Mathlib.Tactic.Ring
import Mathlib.Tactic.FieldSimp
import Mathlib.Tactic.Positivity
import Mathlib.Data.Nat.Digits.Lemmas
import Mathlib.Tactic.NormNum
/-! Correctness of the number parser on decimal notation. -/
namespace X4

theorem isDig_iff {c : Char} : isDig c = true ↔ '0' ≤ c ∧ c ≤ '9' := by
  unfold isDig
  rw [Char.le_def, Char.le_def, UInt32.le_iff_toNat_le, UInt32.le_iff_toNat_le]
  simp

theorem Digits.isDig {s : Str} (h : Digits s) : ∀ c ∈ s, isDig c := fun c hc => isDig_iff.2 (h c hc)

theorem digitsVal_append (a b : Str) : digitsVal (a ++ b) = digitsVal a * 10 ^ b.length + digitsVal b := by
  have key : ∀ (b : Str) (n : Nat), b.foldl (fun n c => 10 * n + digVal c) n
      = n * 10 ^ b.length + b.foldl (fun n c => 10 * n + digVal c) 0 := by
    intro b
    induction b with
    | nil => simp
    | cons c b ih =>
      intro n
      simp only [List.foldl_cons, List.length_cons]
      rw [ih, ih (10 * 0 + digVal c)]
      ring
  unfold digitsVal
  rw [List.foldl_append, key]

theorem digitsVal_eq_decVal (s : Str) : digitsVal s = decVal s := by
  unfold decVal
  induction s using List.reverseRecOn with
  | nil => rfl
  | append_singleton s c ih =>
    rw [digitsVal_append, ih]
    simp [Nat.ofDigits_cons, digitsVal, digVal]
    ring

theorem decVal_append (a b : Str) : decVal (a ++ b) = decVal a * 10 ^ b.length + decVal b := by
  rw [← digitsVal_eq_decVal, digitsVal_append, digitsVal_eq_decVal, digitsVal_eq_decVal]

theorem usOk_of_no {p : Bool} {s : Str} (h : '_' ∉ s) : usOk p s = true := by
  induction s generalizing p with
  | nil => rfl
  | cons c s ih =>
    simp at h
    have : (c == '_') = false := by simp; exact fun e => h.1 e.symm
    simp only [usOk, this]
    exact ih h.2

theorem rmUnderscore_of_no {s : Str} (h : '_' ∉ s) : rmUnderscore s = s := by
  unfold rmUnderscore
  rw [List.filter_eq_self]
  intro c hc; simp; intro e; subst e; exact h hc

/-- the text after a mantissa does not extend it -/
def restOk (r : Str) : Prop := ∀ c, r.head? = some c → isDig c = false ∧ c ≠ '.'

theorem takeWhile_restOk {r : Str} (h : restOk r) : r.takeWhile isDig = [] ∧ r.dropWhile isDig = r := by
  cases r with
  | nil => simp
  | cons c r => have := (h c (by simp)).1; simp [this]

theorem numeral_int {neg : Bool} {d r : Str} (hd : ∀ c ∈ d, isDig c) (hne : d ≠ []) (hr : restOk r) :
    numeral neg (d ++ r) = (expPart r).map fun e => .fin neg (digitsVal d) (e - (0 : Nat)) := by
  have h := takeWhile_restOk hr
  have hf : fracPart r = ([], r) := by
    cases r with
    | nil => rfl
    | cons c t => have := (hr c (by simp)).2; simp [fracPart, this]
  simp only [numeral, takeWhile_all r hd, dropWhile_all r hd, h.1, h.2, hf]
  simp [hne]

theorem numeral_frac {neg : Bool} {ip fp r : Str} (hi : ∀ c ∈ ip, isDig c) (hf : ∀ c ∈ fp, isDig c)
    (hne : ip ++ fp ≠ []) (hr : restOk r) :
    numeral neg (ip ++ '.' :: fp ++ r) =
      (expPart r).map fun e => .fin neg (digitsVal (ip ++ fp)) (e - fp.length) := by
  have h := takeWhile_restOk hr
  have hdot : isDig '.' = false := by decide
  have e : (ip.isEmpty && fp.isEmpty) = false := by
    cases ip <;> cases fp <;> simp_all
  have hfr : fracPart ('.' :: (fp ++ r)) = (fp, r) := by
    simp [fracPart, takeWhile_all r hf, dropWhile_all r hf, h.1, h.2]
  rw [List.append_assoc]
  simp only [numeral, takeWhile_all _ hi, dropWhile_all _ hi, List.cons_append, List.takeWhile_cons,
    List.dropWhile_cons, hdot, Bool.false_eq_true, if_false, hfr, List.append_nil, e]

theorem isDig_ne {c d : Char} (hc : isDig c) (hd : isDig d = false) : c ≠ d := by
  rintro rfl; simp [hc] at hd

theorem takeSign_body {b : Str} (h : ∀ c, b.head? = some c → c ≠ '-' ∧ c ≠ '+') : takeSign b = (false, b) := by
  cases b with
  | nil => rfl
  | cons c t =>
    have := h c (by simp)
    unfold takeSign
    split
    · simp_all
    · simp_all
    · rfl

theorem lower_head_ne {b : Str} {w : Str} (h : ∀ c, b.head? = some c → isDig c ∨ c = '.')
    (hw : ∃ c t, w = c :: t ∧ isDig c = false ∧ c ≠ '.') : lower b ≠ w := by
  obtain ⟨c, t, rfl, hc, hc'⟩ := hw
  cases b with
  | nil => simp [lower]
  | cons x b =>
    have hx := h x (by simp)
    unfold lower
    simp only [List.map_cons, ne_eq, List.cons.injEq, not_and]
    intro e
    exfalso
    have hl : x.toLower = x := by
      unfold Char.toLower
      split
      · rename_i hcap
        rcases hx with hx | rfl
        · unfold isDig at hx; simp at hx
          exfalso
          rw [ge_iff_le, UInt32.le_iff_toNat_le, UInt32.le_iff_toNat_le] at hcap
          simp at hcap; omega
        · revert hcap; decide
      · rfl
    rw [hl] at e; subst e
    rcases hx with hx | hx
    · simp [hx] at hc
    · exact hc' hx

theorem pyFloat_body {neg : Bool} {s b : Str} (hs : takeSign (s ++ b) = (neg, b)) (hu : '_' ∉ s ++ b)
    (hb : ∀ c, b.head? = some c → isDig c ∨ c = '.')
    (h1 : headOk (s ++ b)) (h2 : endOk (s ++ b)) {a z : Str} (ha : ∀ x ∈ a, isSpace x) (hz : ∀ x ∈ z, isSpace x) :
    pyFloat (a ++ (s ++ b) ++ z) = numeral neg b := by
  simp only [pyFloat, strip_surround ha hz h1 h2, usOk_of_no hu, rmUnderscore_of_no hu, hs, if_true]
  have e1 := lower_head_ne (w := "inf".toList) hb ⟨'i', ['n','f'], rfl, by decide, by decide⟩
  have e2 := lower_head_ne (w := "infinity".toList) hb ⟨'i', ['n','f','i','n','i','t','y'], rfl, by decide, by decide⟩
  have e3 := lower_head_ne (w := "nan".toList) hb ⟨'n', ['a','n'], rfl, by decide, by decide⟩
  rw [if_neg (by tauto), if_neg e3]

theorem SignText.takeSign {s : Str} {σ : ℚ} (h : SignText s σ) {b : Str}
    (hb : ∀ c, b.head? = some c → isDig c ∨ c = '.') :
    ∃ neg, X4.takeSign (s ++ b) = (neg, b) ∧ σ = (if neg then -1 else 1) := by
  cases h with
  | none =>
    refine ⟨false, ?_, by simp⟩
    apply takeSign_body
    intro c hc
    rcases hb c hc with h | rfl
    · exact ⟨isDig_ne h (by decide), isDig_ne h (by decide)⟩
    · decide
  | plus => exact ⟨false, rfl, by simp⟩
  | minus => exact ⟨true, rfl, by simp⟩

theorem SignText.mem {s : Str} {σ : ℚ} (h : SignText s σ) {c : Char} (hc : c ∈ s) : c = '+' ∨ c = '-' := by
  cases h <;> simp_all

/-- characters of a mantissa -/
theorem Mantissa.mem {m : Str} {q : ℚ} (h : Mantissa m q) {c : Char} (hc : c ∈ m) :
    isDig c ∨ c = '.' ∨ c = '+' ∨ c = '-' := by
  cases h with
  | int hs hd _ =>
    simp at hc
    rcases hc with hc | hc
    · have := hs.mem hc; tauto
    · exact Or.inl (hd.isDig c hc)
  | frac hs hi hf _ =>
    simp at hc
    rcases hc with hc | hc | hc | hc
    · have := hs.mem hc; tauto
    · exact Or.inl (hi.isDig c hc)
    · tauto
    · exact Or.inl (hf.isDig c hc)

theorem Mantissa.ne_nil {m : Str} {q : ℚ} (h : Mantissa m q) : m ≠ [] := by
  cases h with
  | int hs hd hne => simp [hne]
  | frac hs hi hf hne => simp

theorem Mantissa.getLast {m : Str} {q : ℚ} (h : Mantissa m q) {c : Char} (hc : m.getLast? = some c) :
    isDig c ∨ c = '.' := by
  cases h with
  | @int s σ d hs hd hne =>
    rw [List.getLast?_append_of_ne_nil _ hne] at hc
    exact Or.inl (hd.isDig c (List.mem_of_getLast? hc))
  | @frac s σ ip fp hs hi hf hne =>
    rw [List.getLast?_append_of_ne_nil _ (by simp)] at hc
    rw [List.getLast?_cons] at hc
    rcases hfp : fp.getLast? with _ | x
    · rw [hfp] at hc; simp at hc; exact Or.inr hc.symm
    · rw [hfp] at hc; simp at hc; subst hc
      exact Or.inl (hf.isDig x (List.mem_of_getLast? hfp))

theorem not_space_numchar {c : Char} (h : isDig c ∨ c = '.' ∨ c = '+' ∨ c = '-') : isSpace c = false := by
  rcases h with h | rfl | rfl | rfl
  · exact isSpace_false_of_isDig h
  all_goals decide

/-- `float()` reads a mantissa followed by an exponent part as expected. -/
theorem pyFloat_mantissa {m : Str} {q : ℚ} (h : Mantissa m q) :
    ∃ (neg : Bool) (M k : Nat), q = (if neg then -1 else 1) * M * (10 : ℚ) ^ (-(k : Int)) ∧
      ∀ r a z : Str, restOk r → '_' ∉ r → endOk (m ++ r) → (∀ x ∈ a, isSpace x) → (∀ x ∈ z, isSpace x) →
        pyFloat (a ++ (m ++ r) ++ z) = (expPart r).map fun e => .fin neg M (e - k) := by
  have hno : '_' ∉ m := by
    intro hc
    rcases h.mem hc with h | h | h | h <;> revert h <;> decide
  have hhead : ∀ r, headOk (m ++ r) := by
    intro r c hc
    rcases m with _ | ⟨x, m⟩
    · exact absurd rfl h.ne_nil
    · simp at hc; subst hc
      exact not_space_numchar (h.mem (by simp))
  cases h with
  | @int s σ d hs hd hne =>
    have hb : ∀ r c, (d ++ r).head? = some c → isDig c ∨ c = '.' := by
      intro r c hc
      cases d with
      | nil => simp at hne
      | cons x d => simp at hc; subst hc; exact Or.inl (hd.isDig x (by simp))
    have hb0 : ∀ c, d.head? = some c → isDig c ∨ c = '.' := by simpa using hb []
    obtain ⟨neg, _, hσ⟩ := hs.takeSign hb0
    refine ⟨neg, digitsVal d, 0, ?_, ?_⟩
    · rw [digitsVal_eq_decVal, hσ]; simp
    · intro r a z hr hu he ha hz
      have hneg : takeSign (s ++ (d ++ r)) = (neg, d ++ r) := by
        obtain ⟨neg', h1, h2⟩ := hs.takeSign (hb r)
        have : neg' = neg := by
          rw [hσ] at h2
          revert h2
          cases neg <;> cases neg' <;> norm_num
        rw [h1, this]
      have := pyFloat_body (a := a) (z := z) hneg (by simp at hno hu ⊢; tauto) (hb r)
        (by simpa using hhead r) (by simpa using he) ha hz
      rw [← numeral_int hd.isDig hne hr, ← this]; simp
  | @frac s σ ip fp hs hi hf hne =>
    have hb : ∀ r c, (ip ++ '.' :: fp ++ r).head? = some c → isDig c ∨ c = '.' := by
      intro r c hc
      cases ip with
      | nil => simp at hc; exact Or.inr hc.symm
      | cons x d => simp at hc; subst hc; exact Or.inl (hi.isDig x (by simp))
    have hb0 : ∀ c, (ip ++ '.' :: fp).head? = some c → isDig c ∨ c = '.' := by simpa using hb []
    obtain ⟨neg, _, hσ⟩ := hs.takeSign hb0
    refine ⟨neg, digitsVal (ip ++ fp), fp.length, ?_, ?_⟩
    · rw [digitsVal_eq_decVal, decVal_append, hσ]
      push_cast
      rw [zpow_neg, zpow_natCast]
      have : (10 : ℚ) ^ fp.length ≠ 0 := by positivity
      field_simp
    · intro r a z hr hu he ha hz
      have hneg : takeSign (s ++ (ip ++ '.' :: fp ++ r)) = (neg, ip ++ '.' :: fp ++ r) := by
        obtain ⟨neg', h1, h2⟩ := hs.takeSign (hb r)
        have : neg' = neg := by
          rw [hσ] at h2
          revert h2
          cases neg <;> cases neg' <;> norm_num
        rw [h1, this]
      have := pyFloat_body (a := a) (z := z) hneg (by simp at hno hu ⊢; tauto) (hb r)
        (by simpa using hhead r) (by simpa using he) ha hz
      rw [← numeral_frac hi.isDig hf.isDig hne hr, ← this]; simp

end X4

namespace X4

theorem replaceChar_nil (c : Char) (s : Str) : replaceChar c [] s = s.filter (fun x => x != c) := by
  unfold replaceChar
  induction s with
  | nil => rfl
  | cons x s ih =>
    rw [List.flatMap_cons, ih]
    by_cases h : x = c <;> simp [h]

theorem expPart_noblank {r : Str} {e : Int} (h : expPart r = some e) : ' ' ∉ r := by
  intro hm
  cases r with
  | nil => simp at hm
  | cons c t =>
    simp only [expPart] at h
    split at h
    · rename_i hc
      split at h
      · rename_i hd
        simp at hm
        rcases hm with rfl | hm
        · revert hc; decide
        · have : ' ' ∈ (takeSign t).2 := by
            unfold takeSign
            split
            · simpa using hm
            · simpa using hm
            · exact hm
          simp at hd
          have := hd.2 _ this
          revert this; decide
      · simp at h
    · simp at h

theorem numeral_noblank {neg : Bool} {b : Str} {v : FloatLit} (h : numeral neg b = some v) : ' ' ∉ b := by
  intro hm
  rw [← List.takeWhile_append_dropWhile (p := isDig) (l := b), List.mem_append] at hm
  have hd : ∀ l : Str, ' ' ∉ l.takeWhile isDig := by
    intro l hl; have := mem_takeWhile_imp' hl; revert this; decide
  rcases hm with hm | hm
  · exact hd _ hm
  · simp only [numeral] at h
    split at h
    · simp at h
    · rcases he : expPart (fracPart (b.dropWhile isDig)).2 with _ | e
      · rw [he] at h; simp at h
      · apply expPart_noblank he
        generalize b.dropWhile isDig = r at hm
        cases r with
        | nil => simp at hm
        | cons c t =>
          simp only [fracPart]
          split
          · rename_i hc
            simp at hc; subst hc
            simp at hm
            rw [← List.takeWhile_append_dropWhile (p := isDig) (l := t), List.mem_append] at hm
            rcases hm with hm | hm
            · exact absurd hm (hd _)
            · exact hm
          · exact hm

theorem pyFloat_strip (s : Str) : pyFloat (strip s) = pyFloat s := by
  simp only [pyFloat, strip_strip]

theorem pyFloat_noblank {s : Str} {v : FloatLit} (h : pyFloat s = some v) : ' ' ∉ strip s := by
  intro hm
  simp only [pyFloat] at h
  split at h
  · have h1 : ' ' ∈ rmUnderscore (strip s) := by
      unfold rmUnderscore; simp; exact hm
    have h2 : ' ' ∈ (takeSign (rmUnderscore (strip s))).2 := by
      revert h1
      generalize rmUnderscore (strip s) = t
      intro hm
      unfold takeSign
      split
      · simpa using hm
      · simpa using hm
      · exact hm
    have h3 : ' ' ∈ lower (takeSign (rmUnderscore (strip s))).2 := by
      unfold lower; rw [List.mem_map]; exact ⟨' ', h2, by decide⟩
    split at h
    · rename_i hh
      rcases hh with hh | hh <;> (rw [hh] at h3; revert h3; decide)
    · split at h
      · rename_i hh
        rw [hh] at h3; revert h3; decide
      · exact numeral_noblank h h2
  · simp at h

end X4

namespace X4

theorem expPart_exp {c : Char} (hc : c = 'E' ∨ c = 'e') {sg d : Str} {σ : ℚ} (hs : SignText sg σ)
    (hd : Digits d) (hne : d ≠ []) :
    ∃ e : Int, expPart (c :: (sg ++ d)) = some e ∧ (e : ℚ) = σ * decVal d := by
  have hh : ∀ x, d.head? = some x → isDig x ∨ x = '.' := by
    intro x hx; exact Or.inl (hd.isDig x (List.mem_of_mem_head? hx))
  obtain ⟨neg, h1, h2⟩ := hs.takeSign hh
  have hc' : (c == 'e' || c == 'E') = true := by rcases hc with rfl | rfl <;> rfl
  have hall : (!d.isEmpty && d.all isDig) = true := by
    simp [hne]; exact hd.isDig
  refine ⟨if neg then - (decVal d : Int) else (decVal d : Int), ?_, ?_⟩
  · simp only [expPart, hc', if_true, h1, hall, digitsVal_eq_decVal]
  · rw [h2]; cases neg <;> simp

theorem restOk_exp {c : Char} (hc : c = 'E' ∨ c = 'e') (t : Str) : restOk (c :: t) := by
  intro x hx; simp at hx; subst hx
  rcases hc with rfl | rfl <;> exact ⟨by decide, by decide⟩

theorem endOk_digits {p d : Str} (hd : Digits d) (hne : d ≠ []) : endOk (p ++ d) := by
  intro c hc
  rw [List.getLast?_append_of_ne_nil _ hne] at hc
  exact isSpace_false_of_isDig (hd.isDig c (List.mem_of_getLast? hc))

theorem no_us_exp {c : Char} (hc : c = 'E' ∨ c = 'e') {sg d : Str} {σ : ℚ} (hs : SignText sg σ) (hd : Digits d) :
    '_' ∉ c :: (sg ++ d) := by
  intro h
  simp at h
  rcases h with h | h | h
  · rcases hc with rfl | rfl <;> simp at h
  · rcases hs.mem h with h | h <;> revert h <;> decide
  · have := hd.isDig _ h; revert this; decide

/-- `float` of `mantissa E exponent` -/
theorem pyFloat_exp {m : Str} {q σ : ℚ} (hm : Mantissa m q) {c : Char} (hc : c = 'E' ∨ c = 'e') {sg d : Str} {e : Int}
    (hs : SignText sg σ) (hd : Digits d) (hne : d ≠ []) (he : (e : ℚ) = σ * decVal d) {a z : Str}
    (ha : ∀ x ∈ a, isSpace x) (hz : ∀ x ∈ z, isSpace x) :
    ∃ v, pyFloat (a ++ (m ++ c :: (sg ++ d)) ++ z) = some v ∧ v.value = some (q * 10 ^ e) := by
  obtain ⟨neg, M, k, hq, hf⟩ := pyFloat_mantissa hm
  obtain ⟨e', he', hv⟩ := expPart_exp hc hs hd hne
  have : e' = e := by
    have := hv; rw [← he] at this; exact_mod_cast this
  subst this
  refine ⟨.fin neg M (e' - k), ?_, ?_⟩
  · rw [hf _ a z (restOk_exp hc _) (no_us_exp hc hs hd) ?_ ha hz, he']
    · rfl
    · have := endOk_digits (p := m ++ c :: sg) hd hne
      simpa using this
  · simp only [FloatLit.value, hq, Option.some.injEq]
    rw [sub_eq_neg_add, zpow_add₀ (by norm_num)]; ring

end X4
