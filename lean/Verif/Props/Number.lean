import Verif.Model.Utilities
import Verif.Lemmas.Number
/-! C07: `parseFORTRANNumber` decodes FORTRAN numbers. -/
namespace X4

/-- C07: `None` exactly for blank fields. -/
theorem C07_none_iff_blank (s : Str) :
    parseFORTRANNumber s = .ok none ↔ ∀ c ∈ s, isSpace c = true := by
  rw [← strip_eq_nil_iff]
  unfold parseFORTRANNumber
  split
  · simp_all
  · split
    · simp_all
    · split <;> simp_all

/-- C07: the only exception is `BrokenNumberError` carrying the original text. -/
theorem C07_only_broken (s : Str) (e : PyErr) (h : parseFORTRANNumber s = .error e) :
    e = .brokenNumberError s := by
  unfold parseFORTRANNumber at h
  split at h
  · simp at h
  · split at h
    · simp at h
    · split at h
      · simp at h
      · simpa using h.symm

example : parseFORTRANNumber "1.2.3".toList = .error (.brokenNumberError "1.2.3".toList) := by decide

/-- C07: wherever `float()` accepts the text, its value is returned. -/
theorem C07_agrees_with_float (s : Str) (v : FloatLit) (h : pyFloat s = some v) :
    parseFORTRANNumber s = .ok (some v) := by
  unfold parseFORTRANNumber
  rw [h]
  have : strip s ≠ [] := by
    intro he
    simp [pyFloat, he, usOk, rmUnderscore, takeSign, lower, numeral, fracPart] at h
  simp [this]

example : pyFloat " 1.5e3".toList = some (.fin false 15 2) := by decide

/-- C07: a plain decimal number, with any surrounding white space, denotes itself. -/
theorem C07_plain_number (m a z : Str) (q : ℚ) (hm : Mantissa m q)
    (ha : ∀ x ∈ a, isSpace x) (hz : ∀ x ∈ z, isSpace x) :
    ∃ v, parseFORTRANNumber (a ++ m ++ z) = .ok (some v) ∧ v.value = some q := by
  obtain ⟨neg, M, k, hq, hf⟩ := pyFloat_mantissa hm
  have := hf [] a z (by intro c hc; simp at hc) (by simp) ?_ ha hz
  · refine ⟨_, C07_agrees_with_float _ (.fin neg M (0 - k)) ?_, ?_⟩
    · simpa [expPart] using this
    · simp [FloatLit.value, hq]
  · intro c hc
    simp at hc
    rcases hm.getLast hc with h | rfl
    · exact isSpace_false_of_isDig h
    · decide

/-- C07: a number with an explicit exponent denotes mantissa times power of ten. -/
theorem C07_explicit_exponent (m a z sg d : Str) (c : Char) (q σ : ℚ) (e : Int) (hm : Mantissa m q)
    (hc : c = 'E' ∨ c = 'e') (hs : SignText sg σ) (hd : Digits d) (hne : d ≠ []) (he : (e : ℚ) = σ * decVal d)
    (ha : ∀ x ∈ a, isSpace x) (hz : ∀ x ∈ z, isSpace x) :
    ∃ v, parseFORTRANNumber (a ++ (m ++ c :: (sg ++ d)) ++ z) = .ok (some v) ∧ v.value = some (q * 10 ^ e) := by
  obtain ⟨v, h1, h2⟩ := pyFloat_exp hm hc hs hd hne he ha hz
  exact ⟨v, C07_agrees_with_float _ _ h1, h2⟩

theorem strip_ne_nil_of_filter {s t : Str} (h : (strip s).filter (fun x => x != ' ') = t) (ht : t ≠ []) :
    strip s ≠ [] := by
  rintro e; rw [e] at h; exact ht h.symm

/-- C07: blanks inside a number with an explicit `E` are ignored: if removing the
blanks from `s` leaves `mantissa E exponent`, that number is returned. -/
theorem C07_blanks_ignored (s m sg d : Str) (q σ : ℚ) (e : Int) (hm : Mantissa m q)
    (hs : SignText sg σ) (hd : Digits d) (hne : d ≠ []) (he : (e : ℚ) = σ * decVal d)
    (h : (strip s).filter (fun x => x != ' ') = m ++ 'E' :: (sg ++ d)) :
    ∃ v, parseFORTRANNumber s = .ok (some v) ∧ v.value = some (q * 10 ^ e) := by
  obtain ⟨v, h1, h2⟩ := pyFloat_exp (a := []) (z := []) hm (Or.inl rfl) hs hd hne he (by simp) (by simp)
  simp at h1
  have hE : (strip s).count 'E' ≠ 0 := by
    rw [Ne, List.count_eq_zero]
    intro hn; apply hn
    have : 'E' ∈ (strip s).filter (fun x => x != ' ') := by rw [h]; simp
    exact (List.mem_filter.1 this).1
  have hfix : fortranFix s = m ++ 'E' :: (sg ++ d) := by
    unfold fortranFix
    simp only [replaceChar_nil]
    rw [if_neg (by omega), h]
  unfold parseFORTRANNumber
  rw [if_neg (strip_ne_nil_of_filter h (by simp))]
  rcases hp : pyFloat s with _ | w
  · refine ⟨v, ?_, h2⟩
    simp only [hfix, h1]
  · have hnb := pyFloat_noblank hp
    have : strip s = m ++ 'E' :: (sg ++ d) := by
      rw [← h, eq_comm, List.filter_eq_self]
      intro x hx; simp; rintro rfl; exact hnb hx
    have hw : pyFloat s = pyFloat (strip s) := (pyFloat_strip s).symm
    rw [this, h1] at hw
    rw [hw] at hp
    refine ⟨w, rfl, ?_⟩
    rw [← Option.some.inj hp, h2]

example : Mantissa "1.5".toList (15 / 10) := by
  have := Mantissa.frac (s := []) (ip := ['1']) (fp := ['5']) .none (by intro c hc; simp at hc; subst hc; decide)
    (by intro c hc; simp at hc; subst hc; decide) (by simp)
  have e : ((15 : ℚ) / 10) = (1 * ((decVal ['1'] : ℕ) + (decVal ['5'] : ℕ) / 10 ^ (['5'] : Str).length)) := by
    have h1 : decVal ['1'] = 1 := by decide
    have h2 : decVal ['5'] = 5 := by decide
    rw [h1, h2]; norm_num
  rw [e]; exact this
example : (strip " 1.5 E- 3".toList).filter (fun x => x != ' ') = "1.5".toList ++ 'E' :: (['-'] ++ ['3']) := by decide

/-- C07: FORTRAN numbers written without the `E`: mantissa (possibly with blanks
inside), sign, one or two digits. -/
theorem C07_missing_E (s m' m d : Str) (sep : Char) (q σ : ℚ) (e : Int) (hm : Mantissa m q)
    (hm' : m'.filter (fun x => x != ' ') = m)
    (hs : SignText [sep] σ) (hd : Digits d) (hne : d.length = 1 ∨ d.length = 2) (he : (e : ℚ) = σ * decVal d)
    (h : strip s = m' ++ sep :: d) :
    ∃ v, parseFORTRANNumber s = .ok (some v) ∧ v.value = some (q * 10 ^ e) := by
  have hdne : d ≠ [] := by rintro rfl; simp at hne
  have hsep : sep = '+' ∨ sep = '-' := hs.mem (by simp)
  obtain ⟨v, h1, h2⟩ := pyFloat_exp (a := []) (z := []) hm (Or.inl rfl) hs hd hdne he (by simp) (by simp)
  simp at h1
  have hm'mem : ∀ c ∈ m', c = ' ' ∨ isDig c ∨ c = '.' ∨ c = '+' ∨ c = '-' := by
    intro c hc
    by_cases hb : c = ' '
    · exact Or.inl hb
    · right; apply hm.mem; rw [← hm']; simp [hc, hb]
  have hdmem : ∀ c ∈ d, isDig c := hd.isDig
  have hE : (strip s).count 'E' = 0 := by
    rw [List.count_eq_zero, h]
    intro hn
    simp at hn
    rcases hn with hn | hn | hn
    · rcases hm'mem _ hn with h | h | h | h | h <;> revert h <;> decide
    · rcases hsep with rfl | rfl <;> simp at hn
    · have := hdmem _ hn; revert this; decide
  have hdc : ∀ c : Char, isDig c = false → d.count c = 0 := by
    intro c hc
    rw [List.count_eq_zero]; intro hn
    have := hdmem _ hn; simp [this] at hc
  -- the last three characters
  have hlast : ∃ p t, m' = p ++ t ∧ last3 (strip s) = t ++ sep :: d ∧ but3 (strip s) = p ∧
      (∀ c ∈ t, c ≠ '+' ∧ c ≠ '-') := by
    have hm'ne : m' ≠ [] := by
      rintro rfl; simp at hm'; exact hm.ne_nil hm'
    rcases hne with h1 | h2
    · refine ⟨m'.dropLast, [m'.getLast hm'ne], (List.dropLast_append_getLast hm'ne).symm, ?_, ?_, ?_⟩
      · rw [h]; unfold last3
        have hl : (m' ++ sep :: d).length - 3 = m'.dropLast.length := by simp; omega
        rw [hl]
        conv => lhs; rw [← List.dropLast_append_getLast hm'ne]
        rw [List.append_assoc]; simp
      · rw [h]; unfold but3
        have hl : (m' ++ sep :: d).length - 3 = m'.dropLast.length := by simp; omega
        rw [hl]
        conv => lhs; rw [← List.dropLast_append_getLast hm'ne]
        rw [List.append_assoc]; simp
      · intro c hc
        simp at hc
        have hnum : c = ' ' ∨ isDig c ∨ c = '.' := by
          by_cases hb : c = ' '
          · exact Or.inl hb
          · right
            apply hm.getLast
            rw [← hm', ← List.dropLast_append_getLast hm'ne, List.filter_append, ← hc]
            simp [hb]
        rcases hnum with rfl | hh | rfl
        · decide
        · exact ⟨isDig_ne hh (by decide), isDig_ne hh (by decide)⟩
        · decide
    · refine ⟨m', [], by simp, ?_, ?_, by simp⟩
      · rw [h]; unfold last3
        have hl : (m' ++ sep :: d).length - 3 = m'.length := by simp; omega
        rw [hl]; simp
      · rw [h]; unfold but3
        have hl : (m' ++ sep :: d).length - 3 = m'.length := by simp; omega
        rw [hl]; simp
  obtain ⟨p, t, hpt, hl3, hb3, ht⟩ := hlast
  have htc : t.count '+' = 0 ∧ t.count '-' = 0 := by
    constructor <;> rw [List.count_eq_zero] <;> intro hn
    · exact (ht _ hn).1 rfl
    · exact (ht _ hn).2 rfl
  have hrep : replaceChar sep ['E', sep] (t ++ sep :: d) = t ++ 'E' :: sep :: d := by
    have hid : ∀ l : Str, (∀ c ∈ l, c ≠ sep) → replaceChar sep ['E', sep] l = l := by
      intro l hl
      unfold replaceChar
      induction l with
      | nil => rfl
      | cons x l ih =>
        have hx := hl x (by simp)
        have := ih (fun c hc => hl c (by simp [hc]))
        simp only [List.flatMap_cons, this]
        simp [hx]
    have happ : ∀ l1 l2 : Str, replaceChar sep ['E', sep] (l1 ++ l2)
        = replaceChar sep ['E', sep] l1 ++ replaceChar sep ['E', sep] l2 := by
      intro l1 l2; simp [replaceChar]
    rw [happ, hid t]
    · have : replaceChar sep ['E', sep] (sep :: d) = ['E', sep] ++ replaceChar sep ['E', sep] d := by
        simp [replaceChar]
      rw [this, hid d]
      · simp
      · intro c hc
        have hcd := hdmem c hc
        rcases hsep with rfl | rfl <;> exact isDig_ne hcd (by decide)
    · intro c hc; have := ht c hc
      rcases hsep with rfl | rfl
      · exact this.1
      · exact this.2
  have hfix : fortranFix s = m ++ 'E' :: sep :: d := by
    unfold fortranFix
    simp only [replaceChar_nil, hl3, hb3, hE]
    have hcp : (t ++ sep :: d).count '+' = if sep = '+' then 1 else 0 := by
      rw [List.count_append, htc.1, List.count_cons, hdc '+' (by decide)]
      simp
    have hcm : (t ++ sep :: d).count '-' = if sep = '-' then 1 else 0 := by
      rw [List.count_append, htc.2, List.count_cons, hdc '-' (by decide)]
      simp
    rw [hcp, hcm]
    have hfin : (p ++ (t ++ 'E' :: sep :: d)).filter (fun x => x != ' ') = m ++ 'E' :: sep :: d := by
      rw [← List.append_assoc, ← hpt, List.filter_append, hm']
      congr 1
      rw [List.filter_eq_self]
      intro c hc
      simp at hc
      rcases hc with rfl | rfl | hc
      · decide
      · rcases hsep with rfl | rfl <;> decide
      · have := isDig_ne (hdmem c hc) (d := ' ') (by decide); simpa using this
    rcases hsep with rfl | rfl
    · simp [hrep, hfin]
    · simp [hrep, hfin]
  unfold parseFORTRANNumber
  rw [if_neg (by rw [h]; simp)]
  have hnone : pyFloat s = none := by
    rcases hp : pyFloat s with _ | w
    · rfl
    · exfalso
      have hnb := pyFloat_noblank hp
      have hmm : m' = m := by
        rw [← hm', eq_comm, List.filter_eq_self]
        intro x hx; simp; rintro rfl; apply hnb; rw [h]; simp [hx]
      obtain ⟨neg, M, k, hq, hf⟩ := pyFloat_mantissa hm
      have hrest : restOk (sep :: d) := by
        intro c hc; simp at hc; subst hc
        rcases hsep with rfl | rfl <;> exact ⟨by decide, by decide⟩
      have := hf (sep :: d) [] [] hrest ?_ ?_ (by simp) (by simp)
      · have hw : pyFloat s = pyFloat (strip s) := (pyFloat_strip s).symm
        rw [h, hmm] at hw
        simp at this
        rw [hw, this] at hp
        have : expPart (sep :: d) = none := by
          rcases hsep with rfl | rfl <;> simp [expPart]
        rw [this] at hp; simp at hp
      · intro hn; simp at hn
        rcases hn with hn | hn
        · rcases hsep with rfl | rfl <;> simp at hn
        · have := hdmem _ hn; revert this; decide
      · rw [← hmm, ← h]; exact endOk_strip s
  rw [hnone]
  refine ⟨v, ?_, h2⟩
  simp only [hfix]
  rw [h1]

example : strip " -1. 5-13 ".toList = "-1. 5".toList ++ '-' :: ['1', '3'] := by decide
example : parseFORTRANNumber " -1. 5-13 ".toList = .ok (some (.fin true 15 (-14))) := by decide

/-- a mantissa followed by a sign and digits is no number for `float()` -/
theorem pyFloat_sign_none {m d : Str} {sep : Char} {q : ℚ} (hm : Mantissa m q) (hsep : sep = '+' ∨ sep = '-') (hd : Digits d) (hne : d ≠ []) :
    pyFloat (m ++ sep :: d) = none := by
  obtain ⟨neg, M, k, hq, hf⟩ := pyFloat_mantissa hm
  have hrest : restOk (sep :: d) := by
    intro c hc; simp at hc; subst hc
    rcases hsep with rfl | rfl <;> exact ⟨by decide, by decide⟩
  have := hf (sep :: d) [] [] hrest ?_ ?_ (by simp) (by simp)
  · simp at this
    rw [this]
    have : expPart (sep :: d) = none := by
      rcases hsep with rfl | rfl <;> simp [expPart]
    rw [this]; rfl
  · intro hn; simp at hn
    rcases hn with hn | hn
    · rcases hsep with rfl | rfl <;> simp at hn
    · have := hd.isDig _ hn; revert this; decide
  · intro c hc
    rw [List.getLast?_append_of_ne_nil _ (by simp), List.getLast?_cons] at hc
    cases hl : d.getLast? with
    | none => exact absurd (List.getLast?_eq_none_iff.1 hl) hne
    | some x =>
      rw [hl] at hc
      simp only [Option.getD_some, Option.some.injEq] at hc
      subst hc
      exact isSpace_false_of_isDig (hd.isDig x (List.mem_of_getLast? hl))

/-- boundary of `C07_missing_E`: three or more exponent digits are not understood without the `E`,
whatever the mantissa. -/
theorem C07_three_digit_exponent_rejected (s m' m d : Str) (sep : Char) (q : ℚ) (hm : Mantissa m q)
    (hm' : m'.filter (fun x => x != ' ') = m) (hsep : sep = '+' ∨ sep = '-') (hd : Digits d) (hne : 3 ≤ d.length)
    (h : strip s = m' ++ sep :: d) : parseFORTRANNumber s = .error (.brokenNumberError s) := by
  have hdne : d ≠ [] := by rintro rfl; simp at hne
  have hsn := pyFloat_sign_none hm hsep hd hdne
  have hfix : fortranFix s = m ++ sep :: d := by
    have hl : last3 (strip s) = d.drop (d.length - 3) := by
      unfold last3
      rw [h, show (m' ++ sep :: d).length - 3 = (m' ++ [sep]).length + (d.length - 3) by simp; omega,
        show m' ++ sep :: d = (m' ++ [sep]) ++ d by simp, List.drop_length_add_append]
    have hc : ∀ c : Char, isDig c = false → (last3 (strip s)).count c = 0 := by
      intro c hc
      rw [List.count_eq_zero, hl]
      intro hn
      have := hd.isDig c (List.mem_of_mem_drop hn)
      simp [this] at hc
    unfold fortranFix
    simp only [hc '+' (by decide), hc '-' (by decide)]
    rw [if_neg (by simp), replaceChar_nil, h, List.filter_append, hm']
    congr 1
    rw [List.filter_eq_self]
    intro c hc
    rcases List.mem_cons.1 hc with rfl | hc
    · rcases hsep with rfl | rfl <;> decide
    · have := isDig_ne (hd.isDig c hc) (d := ' ') (by decide); simpa using this
  have hnone : pyFloat s = none := by
    rcases hp : pyFloat s with _ | w
    · rfl
    · exfalso
      have hnb := pyFloat_noblank hp
      have hmm : m' = m := by
        rw [← hm', eq_comm, List.filter_eq_self]
        intro x hx; simp; rintro rfl; apply hnb; rw [h]; simp [hx]
      rw [← pyFloat_strip s, h, hmm, hsn] at hp
      cases hp
  unfold parseFORTRANNumber
  rw [if_neg (by rw [h]; simp), hnone]
  simp only [hfix, hsn]

example : strip "1.5+100".toList = "1.5".toList ++ '+' :: "100".toList ∧
    parseFORTRANNumber "1.5+100".toList = .error (.brokenNumberError "1.5+100".toList) := by decide
/-- boundary: a FORTRAN `D` exponent is not understood -/
theorem C07_D_exponent_rejected :
    parseFORTRANNumber "1.5D+03".toList = .error (.brokenNumberError "1.5D+03".toList) := by decide

end X4
