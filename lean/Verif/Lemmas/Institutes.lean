import Verif.Lemmas.TextGrammar
/-! How the grammar of institutes (`x4textfield`) acts on texts. -/
namespace X4
open Parser

/-- a text of characters of the given kind and blanks -/
def TextOf (K : Char → Bool) (s : Str) : Prop := ∀ c ∈ s, K c = true ∨ c = ' '

instance (K : Char → Bool) (s : Str) : Decidable (TextOf K s) := inferInstanceAs (Decidable (∀ c ∈ s, _))

theorem textOf_cases {K : Char → Bool} (hK : K ' ' = false) {s : Str} (h : TextOf K s) :
    ∃ b w r, s = b ++ (w ++ r) ∧ Blanks b ∧ (∀ c ∈ w, K c = true) ∧ (∀ c ∈ r.head?, c = ' ') ∧ TextOf K r ∧ (w = [] → r = []) := by
  have hr : ∀ c ∈ ((s.dropWhile (· == ' ')).dropWhile K).head?, c = ' ' := by
    intro c hc
    have hm : c ∈ s := (List.dropWhile_sublist _).mem ((List.dropWhile_sublist _).mem (List.mem_of_head? hc))
    rcases h c hm with h1 | h1
    · rw [head_dropWhile _ c hc] at h1; cases h1
    · exact h1
  refine ⟨s.takeWhile (· == ' '), (s.dropWhile (· == ' ')).takeWhile K, (s.dropWhile (· == ' ')).dropWhile K, ?_, ?_, ?_, hr, ?_, ?_⟩
  · rw [List.takeWhile_append_dropWhile, List.takeWhile_append_dropWhile]
  · intro c hc; simpa using mem_takeWhile_true hc
  · intro c hc; exact mem_takeWhile_true hc
  · intro c hc
    exact h c ((List.dropWhile_sublist _).mem ((List.dropWhile_sublist _).mem hc))
  · intro hw
    have he : s.dropWhile (· == ' ') = (s.dropWhile (· == ' ')).dropWhile K := by
      conv_lhs => rw [← List.takeWhile_append_dropWhile (p := K) (l := s.dropWhile (· == ' ')), hw, List.nil_append]
    rw [← he] at hr ⊢
    have h2 := head_dropWhile (p := (· == ' ')) s
    cases hd : s.dropWhile (· == ' ') with
    | nil => rfl
    | cons c t =>
      rw [hd] at hr h2
      have e1 := hr c (by simp)
      have e2 := h2 c (by simp)
      rw [e1] at e2
      cases e2

/-- induction over the words of a text -/
theorem textOf_induction {K : Char → Bool} (hK : K ' ' = false) {P : Str → Prop} (hb : ∀ b, Blanks b → P b)
    (hw : ∀ b w r, Blanks b → w ≠ [] → (∀ c ∈ w, K c = true) → (∀ c ∈ r.head?, c = ' ') → TextOf K r → P r → P (b ++ (w ++ r)))
    (s : Str) (h : TextOf K s) : P s := by
  induction hn : s.length using Nat.strong_induction_on generalizing s with
  | _ n ih =>
    obtain ⟨b, w, r, rfl, h1, h2, h3, h4, h5⟩ := textOf_cases hK h
    by_cases hwe : w = []
    · rw [h5 hwe, hwe]
      simpa using hb b h1
    · refine hw b w r h1 hwe h2 h3 h4 (ih r.length ?_ r h4 rfl)
      have : 0 < w.length := List.length_pos_iff.2 hwe
      rw [← hn, List.length_append, List.length_append]
      omega

theorem splitWs_blank_nil {b : Str} (hb : Blanks b) : splitWs b = [] := by
  have := splitWs_blanks hb []
  rw [List.append_nil] at this
  rw [this]; rfl

/-- the words of a text are read one after the other -/
theorem loops_words {p : Parser} {K : Char → Bool} (hK : ∀ c, K c = true → isSpace c = false)
    (skip : ∀ b s, Blanks b → p.parse true (b ++ s) = p.parse true s)
    (word : ∀ w r, w ≠ [] → (∀ c ∈ w, K c = true) → (∀ c ∈ r.head?, K c = false) → p.parse true (w ++ r) = some ([.str w], r))
    {s r : Str} (hs : TextOf K s) (hr : ∀ c ∈ r.head?, K c = false) (hstop : p.parse true r = none) :
    ∃ b, Blanks b ∧ Loops p (s ++ r) ((splitWs s).map .str) (b ++ r) := by
  have hblank : K ' ' = false := by
    cases h : K ' ' with
    | false => rfl
    | true => exact absurd (hK _ h) (by decide)
  refine textOf_induction hblank (P := fun s => ∃ b, Blanks b ∧ Loops p (s ++ r) ((splitWs s).map .str) (b ++ r)) ?_ ?_ s hs
  · intro b hb
    rw [splitWs_blank_nil hb]
    exact ⟨b, hb, .stop (by rw [skip b r hb, hstop])⟩
  · intro b w r1 hb hne hw hr1 _ ih
    obtain ⟨b', hb', hl⟩ := ih
    rw [splitWs_blanks hb, splitWs_word_blank hne (fun c hc => hK c (hw c hc)) hr1]
    refine ⟨b', hb', ?_⟩
    have hh : ∀ c ∈ (r1 ++ r).head?, K c = false := by
      intro c hc
      cases r1 with
      | nil => exact hr c hc
      | cons d r1 =>
        simp at hc
        subst hc
        rw [hr1 d (by simp)]
        exact hblank
    have := Loops.step (p := p) (s := b ++ (w ++ (r1 ++ r))) (s1 := r1 ++ r) (t := [.str w])
      (by rw [skip b _ hb, word w _ hne hw hh])
      (by
        have : 0 < w.length := List.length_pos_iff.2 hne
        simp only [List.length_append]; omega) hl
    simpa using this

theorem Loops.ne_none {p : Parser} {s r : Str} {ts : List Tok} (h : Loops p s ts r) (hts : ts ≠ []) : p.parse true s ≠ none := by
  cases h with
  | stop h => exact absurd rfl hts
  | step h _ _ => rw [h]; simp

theorem Loops.length_le {p : Parser} {s r : Str} {ts : List Tok} (h : Loops p s ts r) : r.length ≤ s.length := by
  induction h with
  | stop h => exact le_refl _
  | step _ hl _ ih => omega

/-- the characters of the grammar are those of the specification -/
theorem wordChar_eq (c : Char) : wordChar c = isX4Word c := by
  have h : c.isAlphanum = isAlnumA c := by
    rw [Bool.eq_iff_iff]
    simp only [Char.isAlphanum, Char.isAlpha, Char.isUpper, Char.isLower, Char.isDigit, isAlnumA, isAlphaA, isCap, isDig, Bool.or_eq_true,
      Bool.and_eq_true, decide_eq_true_eq, UInt32.le_iff_toNat_le, Char.toNat, ge_iff_le]
    norm_num
    rfl
  rw [Bool.eq_iff_iff]
  unfold wordChar isX4Word
  rw [h]
  simp only [Bool.or_eq_true, decide_eq_true_eq, List.mem_cons, List.not_mem_nil, or_false, beq_iff_eq]
  tauto

theorem wordChar_fun : wordChar = isX4Word := funext wordChar_eq

theorem x4Word_facts {c : Char} (h : isX4Word c = true) : isWhite c = false ∧ isSpace c = false ∧ c ≠ '(' ∧ c ≠ ')' ∧ c ≠ '\t' := by
  have h2 : isSpace c = false := by
    simp only [isX4Word, isAlnumA, isAlphaA, isCap, isDig, Bool.or_eq_true, beq_iff_eq, Bool.and_eq_true, decide_eq_true_eq] at h
    simp only [isSpace]
    rcases h with (((((((h | h) | h) | h) | h) | h) | h) | h) | h <;> first | (subst h; decide) | (simp; omega)
  refine ⟨?_, h2, ?_, ?_, ?_⟩
  · cases hc : isWhite c with
    | false => rfl
    | true =>
      rcases isWhite_cases hc with rfl | rfl | rfl | rfl <;> revert h2 <;> decide
  · rintro rfl; revert h; decide
  · rintro rfl; revert h; decide
  · rintro rfl; revert h; decide

theorem pX4Word_word (w r : Str) (hne : w ≠ []) (hw : ∀ c ∈ w, isX4Word c = true) (hr : ∀ c ∈ r.head?, isX4Word c = false) :
    pX4Word.parse true (w ++ r) = some ([.str w], r) := by
  obtain ⟨c, w', rfl⟩ : ∃ c w', w = c :: w' := by cases w with | nil => exact absurd rfl hne | cons c w => exact ⟨c, w, rfl⟩
  have hnw : NW (c :: w' ++ r) := NW_cons.2 (x4Word_facts (hw c (by simp))).1
  rw [parse_nw hnw]
  exact word_all hne hw hr

theorem pX4Word_stop {r : Str} (hn : NW r) (hr : ∀ c ∈ r.head?, isX4Word c = false) : pX4Word.parse true r = none := by
  rw [parse_nw hn]
  exact word_none hr

/-- an element of a phrase -/
def pPhraseItem : Parser := first pX4Word pMinicode

theorem pPhraseItem_parse (b : Bool) (s : Str) : pPhraseItem.parse b s = pPhraseItem.impl s := by
  unfold parse
  have : pPhraseItem.pre = false := rfl
  rw [this]
  simp

theorem pPhraseItem_skip (b s : Str) (hb : Blanks b) : pPhraseItem.parse true (b ++ s) = pPhraseItem.parse true s := by
  rw [pPhraseItem_parse, pPhraseItem_parse]
  unfold pPhraseItem first
  simp only
  rw [parse_skip rfl rfl hb.white, parse_skip (p := pMinicode) rfl rfl hb.white]

theorem pPhraseItem_word (w r : Str) (hne : w ≠ []) (hw : ∀ c ∈ w, isX4Word c = true) (hr : ∀ c ∈ r.head?, isX4Word c = false) :
    pPhraseItem.parse true (w ++ r) = some ([.str w], r) := by
  rw [pPhraseItem_parse]
  unfold pPhraseItem
  exact first_some (pX4Word_word w r hne hw hr)

theorem pMinicode_ne {c : Char} {s : Str} (h : c ≠ '(') : pMinicode.impl (c :: s) = none :=
  and_none_left (and_none_left (pLpar_ne h))

theorem pPhraseItem_rpar (r : Str) : pPhraseItem.parse true (')' :: r) = none := by
  rw [pPhraseItem_parse]
  unfold pPhraseItem
  rw [first_second (pX4Word_stop (NW_cons.2 rfl) (by simp; decide)), parse_nw (NW_cons.2 rfl)]
  exact pMinicode_ne (by decide)

/-- `( words )` -/
theorem pCode_words {s : Str} (hs : TextOf isX4Word s) (hne : splitWs s ≠ []) (r : Str) :
    pCode.impl ('(' :: (s ++ ')' :: r)) = some ((splitWs s).map .str, r) := by
  obtain ⟨b, hb, hl⟩ := loops_words (p := pPhraseItem) (fun c hc => (x4Word_facts hc).2.1) pPhraseItem_skip pPhraseItem_word hs
    (r := ')' :: r) (by simp; decide) (pPhraseItem_rpar r)
  have hprog : pPhraseItem.parse true (s ++ ')' :: r) ≠ none :=
    hl.ne_none fun h => hne (List.map_eq_nil_iff.1 h)
  have h1 : pPhrase.parse true (s ++ ')' :: r) = some ((splitWs s).map .str, b ++ ')' :: r) := by
    have hm := hl.many1 (by rw [pPhraseItem_parse, pPhraseItem_parse]) hprog
    have hpre : (many1 pPhraseItem).pre = false := rfl
    show (many1 pPhraseItem).parse true _ = _
    unfold parse
    rw [hpre]
    simpa using hm
  have h2 : pRpar.parse true (b ++ ')' :: r) = some ([], r) := by
    rw [parse_skip rfl rfl hb.white, parse_nw (NW_cons.2 rfl), pRpar_cons]
  have h3 := and_some (and_some (pLpar_cons (s ++ ')' :: r)) h1) h2
  have h4 : pLpar.parse true (s ++ ')' :: r) = none := by
    obtain ⟨b', w, r', he, hb', hw, hr', _, hn⟩ := textOf_cases (K := isX4Word) (by decide) hs
    have hwe : w ≠ [] := by
      intro hwe
      apply hne
      rw [he, hn hwe, hwe]
      simpa using splitWs_blank_nil hb'
    obtain ⟨c, w', rfl⟩ : ∃ c w', w = c :: w' := by cases w with | nil => exact absurd rfl hwe | cons c w => exact ⟨c, w, rfl⟩
    have hc := x4Word_facts (hw c (by simp))
    rw [he, List.append_assoc, parse_skip rfl rfl hb'.white, List.append_assoc, List.cons_append, parse_nw (NW_cons.2 hc.1)]
    exact pLpar_ne hc.2.2.1
  have h5 : (and pLpar pLpar).impl ('(' :: (s ++ ')' :: r)) = none := and_none_right (pLpar_cons _) h4
  unfold pCode
  rw [or_impl, parse_nw (NW_cons.2 rfl), parse_nw (NW_cons.2 rfl), h3,
    and_none_left (and_none_left (and_none_left (and_none_left (and_none_left (and_none_left (and_none_left h5)))))), longer_none_right]
  simp

/-- what follows the words of a comment: the next code, the end, or another character that is not part of a word -/
def CodeOrEnd (r : Str) : Prop := NW r ∧ ∀ x ∈ r.head?, isX4Word x = false

/-- a code with the words after it -/
theorem pCodeField_words {s c : Str} (hs : TextOf isX4Word s) (hne : splitWs s ≠ []) (hc : TextOf isX4Word c) {r : Str} (hr : CodeOrEnd r) :
    ∃ b, Blanks b ∧ b.length ≤ c.length ∧ (group pCodeField).impl ('(' :: (s ++ ')' :: (c ++ r))) =
      some ([.grp (.grp ((splitWs s).map .str) :: (splitWs c).map .str)], b ++ r) := by
  have hr1 : NW r ∧ ∀ x ∈ r.head?, isX4Word x = false := hr
  have hc1 : c = c.takeWhile (· == ' ') ++ c.dropWhile (· == ' ') := (List.takeWhile_append_dropWhile ..).symm
  have hb1 : Blanks (c.takeWhile (· == ' ')) := fun x hx => by simpa using mem_takeWhile_true hx
  have hc2 : TextOf isX4Word (c.dropWhile (· == ' ')) := fun x hx => hc x ((List.dropWhile_sublist _).mem hx)
  have hn : NW (c.dropWhile (· == ' ') ++ r) := by
    cases hd : c.dropWhile (· == ' ') with
    | nil => exact hr1.1
    | cons x t =>
      have h1 := head_dropWhile (p := (· == ' ')) c
      rw [hd] at h1 hc2
      refine NW_cons.2 ?_
      rcases hc2 x (by simp) with h | h
      · exact (x4Word_facts h).1
      · have := h1 x (by simp)
        rw [h] at this
        cases this
  obtain ⟨b, hb, hl⟩ := loops_words (p := pX4Word) (fun c hc => (x4Word_facts hc).2.1)
    (fun b s hb => parse_skip rfl rfl hb.white) pX4Word_word hc2 hr1.2 (pX4Word_stop hr1.1 hr1.2)
  have hsp : splitWs (c.dropWhile (· == ' ')) = splitWs c := by
    conv_rhs => rw [hc1]
    rw [splitWs_blanks hb1]
  have hlen : b.length ≤ c.length := by
    have h1 := hl.length_le
    have h2 := congrArg List.length hc1
    simp only [List.length_append] at h1 h2
    omega
  refine ⟨b, hb, hlen, ?_⟩
  have h1 := group_some (pCode_words hs hne (c ++ r))
  have h2 : (many pX4Word).parse true (c ++ r) = some ((splitWs c).map .str, b ++ r) := by
    conv_lhs => rw [hc1]
    rw [List.append_assoc, parse_skip rfl rfl hb1.white, parse_nw hn, ← hsp]
    exact hl.many (by rw [parse_nw hn, parse_nw hn])
  have h3 := and_some h1 h2
  exact group_some h3

theorem codeNil : pCode.impl [] = none := by decide +kernel

/-- Institutes with their comments: the codes in parentheses, each followed by words. -/
def instText (l : List (Str × Str)) : Str := l.flatMap fun x => '(' :: (x.1 ++ ')' :: x.2)

/-- no code begins with another character than a parenthesis -/
theorem pCode_ne {c : Char} (hc : isWhite c = false) (h : c ≠ '(') (s : Str) : pCode.impl (c :: s) = none := by
  have hn : NW (c :: s) := NW_cons.2 hc
  have h1 : ∀ p q : Parser, (and (and pLpar p) q).impl (c :: s) = none := fun p q => and_none_left (and_none_left (pLpar_ne h))
  have h5 : (and pLpar pLpar).impl (c :: s) = none := and_none_left (pLpar_ne h)
  unfold pCode
  rw [or_impl, parse_nw hn, parse_nw hn, h1,
    and_none_left (and_none_left (and_none_left (and_none_left (and_none_left (and_none_left (and_none_left h5)))))), longer_none_right]

/-- institutes followed by anything that does not begin with a character of a word, a blank or a parenthesis -/
theorem instLoops_tail (l : List (Str × Str)) (hl : ∀ x ∈ l, TextOf isX4Word x.1 ∧ splitWs x.1 ≠ [] ∧ TextOf isX4Word x.2) (t : Str)
    (ht : CodeOrEnd t) (hp : '(' ∉ t.head?) {b : Str} (hb : Blanks b) :
    ∃ r, Loops (group pCodeField) (b ++ (instText l ++ t)) (l.map fun x => .grp (.grp ((splitWs x.1).map .str) :: (splitWs x.2).map .str)) r := by
  induction l generalizing b with
  | nil =>
    refine ⟨b ++ t, ?_⟩
    have : instText [] = [] := rfl
    rw [this, List.nil_append]
    refine .stop ?_
    rw [parse_skip (p := group pCodeField) rfl rfl hb.white, parse_nw ht.1]
    cases t with
    | nil => exact group_none (and_none_left (group_none codeNil))
    | cons c t => exact group_none (and_none_left (group_none (pCode_ne (NW_cons.1 ht.1) (fun h => hp (by simp [h])) t)))
  | cons x l ih =>
    obtain ⟨h1, h2, h3⟩ := hl x (by simp)
    have hr : CodeOrEnd (instText l ++ t) := by
      cases l with
      | nil => exact ht
      | cons y l => exact ⟨NW_cons.2 rfl, by simp [instText]; decide⟩
    obtain ⟨b', hb', hlen, hp⟩ := pCodeField_words h1 h2 h3 hr
    obtain ⟨r, hr⟩ := ih (fun y hy => hl y (by simp [hy])) hb'
    refine ⟨r, ?_⟩
    have he : b ++ (instText (x :: l) ++ t) = b ++ '(' :: (x.1 ++ ')' :: (x.2 ++ (instText l ++ t))) := by
      simp [instText]
    rw [he]
    refine Loops.step (p := group pCodeField) (s1 := b' ++ (instText l ++ t))
      (t := [.grp (.grp ((splitWs x.1).map .str) :: (splitWs x.2).map .str)]) ?_ ?_ hr
    · rw [parse_skip rfl rfl hb.white, parse_nw (NW_cons.2 rfl), hp]
    · simp only [List.length_append, List.length_cons]; omega

theorem instLoops (l : List (Str × Str)) (hl : ∀ x ∈ l, TextOf isX4Word x.1 ∧ splitWs x.1 ≠ [] ∧ TextOf isX4Word x.2) {b : Str} (hb : Blanks b) :
    ∃ r, Loops (group pCodeField) (b ++ instText l) (l.map fun x => .grp (.grp ((splitWs x.1).map .str) :: (splitWs x.2).map .str)) r := by
  have := instLoops_tail l hl [] ⟨NW_nil, by simp⟩ (by simp) hb
  rwa [List.append_nil] at this

end X4
