import Verif.Model.Reference
import Verif.Lemmas.Str
/-! Publication years (C43). -/
namespace X4

/-- all characters are among `0..9` -/
def AsciiDigits (s : Str) : Prop := ∀ c ∈ s, isDig c = true

theorem no_rpar_of_digits {s : Str} (h : AsciiDigits s) : replaceChar ')' [] s = s := by
  induction s with
  | nil => rfl
  | cons c cs ih =>
    have hc : isDig c = true := h c (by simp)
    have hne : (c == ')') = false := by
      cases hcc : c == ')' with
      | false => rfl
      | true =>
        rw [beq_iff_eq] at hcc; subst hcc; exact absurd hc (by decide)
    have := ih (fun x hx => h x (by simp [hx]))
    unfold replaceChar at *
    rw [List.flatMap_cons, this, hne]
    rfl

theorem isDigitStr_of_digits {s : Str} (h : AsciiDigits s) (hl : s.length ≠ 0) : isDigitStr s = true := by
  unfold isDigitStr
  rw [Bool.and_eq_true, List.all_eq_true]
  refine ⟨by cases s <;> simp at *, fun c hc => ?_⟩
  simp [isPyDigit, h c hc]

theorem digits_pyInt {a b : Char} (ha : isDig a = true) (hb : isDig b = true) :
    pyInt [a, b] = some ((10 * digVal a + digVal b : Nat) : Int) := by
  have hs : ∀ c, isDig c = true → isSpace c = false ∧ c ≠ '_' ∧ c ≠ '-' ∧ c ≠ '+' := by
    intro c hc
    refine ⟨?_, ?_, ?_, ?_⟩
    · simp only [isDig, isSpace, Bool.and_eq_true, decide_eq_true_eq] at *
      simp; omega
    all_goals (rintro rfl; exact absurd hc (by decide))
  obtain ⟨a1, a2, a3, a4⟩ := hs a ha
  obtain ⟨b1, b2, b3, b4⟩ := hs b hb
  have hstrip : strip [a, b] = [a, b] := by simp [strip, lstrip, rstrip, a1, b1]
  have hu : usOk false [a, b] = true := by simp [usOk, a2, b2]
  have hr : rmUnderscore [a, b] = [a, b] := by simp [rmUnderscore, a2, b2]
  have ht : takeSign [a, b] = (false, [a, b]) := by
    unfold takeSign; split <;> simp_all
  unfold pyInt
  simp only [hstrip, hu, hr, ht]
  simp [ha, hb, digitsVal]

/-- The century that a two-digit year is assumed to lie in. -/
def century (a b : Char) : Str := if 10 * digVal a + digVal b > 10 then "19".toList else "20".toList

theorem twoDigitYear_digits {a b : Char} (ha : isDig a = true) (hb : isDig b = true) :
    twoDigitYear [a, b] = .ok (century a b ++ [a, b]) := by
  unfold twoDigitYear century
  simp only [digits_pyInt ha hb]
  rw [if_pos (by rfl)]
  split_ifs with h1 h2 h3
  · rfl
  · omega
  · omega
  · rfl

/-- C43: explicit years (the first two of 4, 6 or 8 digits being 19 or 20) are kept. -/
theorem C43_explicit (d : Str) (hd : AsciiDigits d) (hl : d.length = 4 ∨ d.length = 6 ∨ d.length = 8)
    (h : d.take 2 = "19".toList ∨ d.take 2 = "20".toList) : parseX4Year d = .ok (d.take 4) := by
  unfold parseX4Year
  simp only [no_rpar_of_digits hd, isDigitStr_of_digits hd (by omega), if_true]
  rcases hl with hl | hl | hl
  · simp only [hl, Nat.reduceEqDiff, if_false, if_true]
    rw [if_pos h, List.take_of_length_le (by omega)]
  · have h4 : (d.take 4).length = 4 := by simp [hl]
    simp only [hl, Nat.reduceEqDiff, if_false, if_true, Nat.reduceSub, h4, List.take_take, Nat.reduceLeDiff, Nat.min_def]
    rw [if_pos h]
  · have h4 : (d.take 4).length = 4 := by simp [hl]
    simp only [hl, Nat.reduceEqDiff, if_false, if_true, Nat.reduceSub, h4, List.take_take, Nat.reduceLeDiff, Nat.min_def]
    rw [if_pos h]

/-- C43: all other dates of 2, 4, 6 or 8 digits start with a two-digit year,
which is put into 1911..1999 or 2000..2010. -/
theorem C43_two_digit (a b : Char) (r : Str) (hd : AsciiDigits (a :: b :: r))
    (hl : r.length = 0 ∨ r.length = 2 ∨ r.length = 4 ∨ r.length = 6)
    (h : r.length = 0 ∨ ([a, b] ≠ "19".toList ∧ [a, b] ≠ "20".toList)) :
    parseX4Year (a :: b :: r) = .ok (century a b ++ [a, b]) := by
  have ha : isDig a = true := hd a (by simp)
  have hb : isDig b = true := hd b (by simp)
  unfold parseX4Year
  simp only [no_rpar_of_digits hd, isDigitStr_of_digits hd (by simp), if_true]
  rcases hl with hl | hl | hl | hl
  · have : r = [] := List.length_eq_zero_iff.1 hl
    subst this
    simp only [List.length_cons, List.length_nil, Nat.zero_add, Nat.reduceAdd, Nat.reduceEqDiff, if_false]
    exact twoDigitYear_digits ha hb
  · have hne := h.resolve_left (by omega)
    simp only [List.length_cons, hl, Nat.reduceAdd, Nat.reduceEqDiff, if_false, if_true]
    rw [if_neg (by simpa only [List.take_succ_cons, List.take_zero, not_or] using hne)]
    exact twoDigitYear_digits ha hb
  · have hne := h.resolve_left (by omega)
    simp only [List.length_cons, hl, Nat.reduceAdd, Nat.reduceSub, Nat.reduceEqDiff, if_false, if_true, List.length_take,
      Nat.reduceLeDiff, Nat.min_def, List.take_take]
    rw [if_neg (by simpa only [List.take_succ_cons, List.take_zero, not_or] using hne)]
    exact twoDigitYear_digits ha hb
  · have hne := h.resolve_left (by omega)
    simp only [List.length_cons, hl, Nat.reduceAdd, Nat.reduceSub, Nat.reduceEqDiff, if_false, if_true, List.length_take,
      Nat.reduceLeDiff, Nat.min_def, List.take_take]
    rw [if_neg (by simpa only [List.take_succ_cons, List.take_zero, not_or] using hne)]
    exact twoDigitYear_digits ha hb

/-- C43: the year of every date of 2, 4, 6 or 8 digits has four digits and
lies in the twentieth or twenty-first century. -/
theorem C43_four_digits (d : Str) (hd : AsciiDigits d)
    (hl : d.length = 2 ∨ d.length = 4 ∨ d.length = 6 ∨ d.length = 8) :
    ∃ y, parseX4Year d = .ok y ∧ y.length = 4 ∧ AsciiDigits y ∧
      (y.take 2 = "19".toList ∨ y.take 2 = "20".toList) := by
  obtain ⟨a, b, r, rfl⟩ : ∃ a b r, d = a :: b :: r := by
    match d, hl with
    | [], h => simp at h
    | [_], h => simp at h
    | a :: b :: r, _ => exact ⟨a, b, r, rfl⟩
  simp only [List.length_cons] at hl
  by_cases h : r.length = 0 ∨ ([a, b] ≠ "19".toList ∧ [a, b] ≠ "20".toList)
  · refine ⟨_, C43_two_digit a b r hd (by omega) h, ?_, ?_, ?_⟩
    · unfold century; split_ifs <;> rfl
    · intro c hc
      rcases List.mem_append.1 hc with hc | hc
      · unfold century at hc
        split_ifs at hc
        · exact (by decide : ∀ c ∈ "19".toList, isDig c = true) c hc
        · exact (by decide : ∀ c ∈ "20".toList, isDig c = true) c hc
      · exact hd c (by simp at hc ⊢; tauto)
    · unfold century; split_ifs
      · exact .inl rfl
      · exact .inr rfl
  · push Not at h
    have h2 : (a :: b :: r).take 2 = "19".toList ∨ (a :: b :: r).take 2 = "20".toList := by
      by_cases h1 : [a, b] = "19".toList
      · exact .inl h1
      · exact .inr (h.2 h1)
    have hl' : (a :: b :: r).length = 4 ∨ (a :: b :: r).length = 6 ∨ (a :: b :: r).length = 8 := by
      simp only [List.length_cons]; have := h.1; omega
    refine ⟨_, C43_explicit _ hd hl' h2, ?_, ?_, ?_⟩
    · rw [List.length_take]; omega
    · exact fun c hc => hd c (List.mem_of_mem_take hc)
    · rw [List.take_take]; exact h2

example : AsciiDigits "198411".toList ∧ "198411".toList.length = 6 ∧ parseX4Year "198411".toList = .ok "1984".toList ∧
    parseX4Year "8411".toList = .ok "1984".toList ∧ parseX4Year "05".toList = .ok "2005".toList ∧
    parseX4Year "20050211".toList = .ok "2005".toList := by
  refine ⟨by unfold AsciiDigits; decide, by decide, by decide, by decide, by decide, by decide⟩

/-- C43: any character that is neither a digit (in the sense of `str.isdigit`)
nor `)` makes the call fail with `TypeError`; so does a date without digits. -/
theorem C43_type_error (d : Str) (h : (∃ c ∈ d, c ≠ ')' ∧ isPyDigit c = false) ∨ ∀ c ∈ d, c = ')') :
    parseX4Year d = .error .typeError := by
  have hmem : ∀ c, c ∈ replaceChar ')' [] d ↔ c ∈ d ∧ c ≠ ')' := by
    intro c
    unfold replaceChar
    rw [List.mem_flatMap]
    constructor
    · rintro ⟨x, hx, hc⟩
      split_ifs at hc with h1
      · simp at hc
      · rw [List.mem_singleton] at hc; subst hc; exact ⟨hx, by simpa using h1⟩
    · rintro ⟨hx, hc⟩
      exact ⟨c, hx, by simp [hc]⟩
  have : isDigitStr (replaceChar ')' [] d) = false := by
    rw [Bool.eq_false_iff]
    intro hd
    unfold isDigitStr at hd
    rw [Bool.and_eq_true, List.all_eq_true] at hd
    rcases h with ⟨c, hc, hne, hdig⟩ | h
    · have := hd.2 c ((hmem c).2 ⟨hc, hne⟩)
      rw [hdig] at this; exact Bool.noConfusion this
    · have : replaceChar ')' [] d = [] := List.eq_nil_iff_forall_not_mem.2 fun c hc => ((hmem c).1 hc).2 (h c ((hmem c).1 hc).1)
      rw [this] at hd; exact Bool.noConfusion hd.1
  unfold parseX4Year
  simp only [this]
  rfl

example : ∃ c ∈ "1984-5".toList, c ≠ ')' ∧ isPyDigit c = false := by decide

/-- C43: closing parentheses are ignored, wherever they are. -/
theorem C43_parentheses (d : Str) : parseX4Year d = parseX4Year (replaceChar ')' [] d) := by
  have : replaceChar ')' [] (replaceChar ')' [] d) = replaceChar ')' [] d := by
    induction d with
    | nil => rfl
    | cons c cs ih =>
      unfold replaceChar at *
      rw [List.flatMap_cons, List.flatMap_append, ih]
      congr 1
      split_ifs with h
      · rfl
      · rw [List.flatMap_singleton, if_neg h]
  unfold parseX4Year
  rw [this]

/-- C43: dates with another number of digits are not reduced to a year. -/
theorem C43_other_lengths (d : Str) (hd : AsciiDigits d) (h0 : d.length ≠ 0)
    (hl : d.length ≠ 2 ∧ d.length ≠ 4 ∧ d.length ≠ 6 ∧ d.length ≠ 8) : parseX4Year d = .ok d := by
  unfold parseX4Year
  simp only [no_rpar_of_digits hd, isDigitStr_of_digits hd h0, if_true, hl.1, hl.2.1, hl.2.2.1, hl.2.2.2, if_false, twoDigitYear]

/-- The superscript digits pass the `isdigit` test but are rejected by `int`,
so the exception is then not a `TypeError` (and is not converted to a
`ReferenceParsingError`). -/
theorem C43_superscript : parseX4Year "8²".toList = .error .valueError := by decide

end X4
