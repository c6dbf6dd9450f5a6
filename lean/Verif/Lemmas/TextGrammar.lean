import Verif.Model.TextGrammar
import Verif.Spec.TextFields
import Verif.Lemmas.Grammar
import Verif.Lemmas.Str
/-! How the grammars of `Verif.Model.TextGrammar` act on texts. -/
namespace X4
open Parser

/-! ### repetition, step by step -/

/-- The repetition of `p` on `s` gives the tokens `ts` and leaves `r`. -/
inductive Loops (p : Parser) : Str → List Tok → Str → Prop where
  | stop {s : Str} : p.parse true s = none → Loops p s [] s
  | step {s s1 r : Str} {t ts : List Tok} : p.parse true s = some (t, s1) → s1.length < s.length → Loops p s1 ts r → Loops p s (t ++ ts) r

theorem Loops.manyLoop {p : Parser} {s r : Str} {ts : List Tok} (h : Loops p s ts r) :
    ∀ (n : Nat) (acc : List Tok), s.length < n → manyLoop p n acc s = (acc ++ ts, r) := by
  induction h with
  | stop h =>
    intro n acc hn
    cases n with
    | zero => omega
    | succ n => unfold Parser.manyLoop; rw [h, List.append_nil]
  | step h hl _ ih =>
    intro n acc hn
    cases n with
    | zero => omega
    | succ n =>
      unfold Parser.manyLoop
      rw [h]
      simp only
      rw [ih n _ (by omega), List.append_assoc]

theorem Loops.many {p : Parser} {s r : Str} {ts : List Tok} (h : Loops p s ts r) (hp : p.parse false s = p.parse true s) :
    (many p).impl s = some (ts, r) := by
  unfold Parser.many many1
  cases h with
  | stop h => simp only [hp, h]
  | step h hl h' =>
    simp only [hp, h]
    rw [h'.manyLoop _ _ (by omega)]

theorem Loops.many1 {p : Parser} {s r : Str} {ts : List Tok} (h : Loops p s ts r) (hp : p.parse false s = p.parse true s)
    (hs : p.parse true s ≠ none) : (many1 p).impl s = some (ts, r) := by
  unfold Parser.many1
  cases h with
  | stop h => exact absurd h hs
  | step h hl h' =>
    simp only [hp, h]
    rw [h'.manyLoop _ _ (by omega)]

theorem Loops.progress {p : Parser} {s r : Str} {ts : List Tok} (h : Loops p s ts r) (hl : r.length < s.length) : p.parse true s ≠ none := by
  cases h with
  | stop h => omega
  | step h _ _ => rw [h]; simp

/-! ### white space -/

theorem skipWs_append {b s : Str} (hb : ∀ c ∈ b, isWhite c = true) : skipWs (b ++ s) = skipWs s := dropWhile_all s hb

theorem parse_skip {p : Parser} (hw : p.ws = true) (hp : p.pre = true) {b s : Str} (hb : ∀ c ∈ b, isWhite c = true) :
    p.parse true (b ++ s) = p.parse true s := by
  unfold parse
  rw [hw, hp, if_pos (by rfl), if_pos (by rfl), skipWs_append hb]

theorem plain_facts {c : Char} (h : plainChar c = true) :
    isWhite c = false ∧ isSpace c = false ∧ c ≠ '(' ∧ c ≠ ')' ∧ c ≠ '\'' ∧ c ≠ '"' ∧ c ≠ '\t' ∧ c ≠ '\n' ∧ isNestedStop c = false := by
  simp only [plainChar, Bool.and_eq_true, decide_eq_true_eq, bne_iff_ne, ne_eq] at h
  obtain ⟨⟨⟨⟨⟨h1, h2⟩, h3⟩, h4⟩, h5⟩, h6⟩ := h
  have hw : isWhite c = false := by
    cases hc : isWhite c with
    | false => rfl
    | true =>
      rcases isWhite_cases hc with rfl | rfl | rfl | rfl <;> revert h1 <;> decide
  refine ⟨hw, ?_, h3, h4, h5, h6, ?_, ?_, ?_⟩
  · simp only [isSpace]
    simp
    omega
  · rintro rfl; revert h1; decide
  · rintro rfl; revert h1; decide
  · simp [isNestedStop, h3, h4, hw]

/-- blanks only -/
def Blanks (s : Str) : Prop := ∀ c ∈ s, c = ' '
theorem Blanks.white {s : Str} (h : Blanks s) : ∀ c ∈ s, isWhite c = true := fun c hc => by rw [h c hc]; rfl
theorem Blanks.space {s : Str} (h : Blanks s) : ∀ c ∈ s, isSpace c = true := fun c hc => by rw [h c hc]; rfl
theorem Blanks.nil : Blanks [] := fun _ h => nomatch h

/-! ### quotation marks -/

theorem pQuoted_none {ws : Bool} {s : Str} (h : ∀ c ∈ s.head?, c ≠ '\'' ∧ c ≠ '"' ∧ isWhite c = false) : (pQuoted ws).impl s = none := by
  have hq : ∀ q : Char, q = '\'' ∨ q = '"' → (and (pQuoteOpen q) (lit [q] false)).impl s = none := by
    intro q hq
    apply and_none_left
    unfold pQuoteOpen
    cases s with
    | nil => rfl
    | cons c s =>
      have := h c (by simp)
      simp only
      rw [if_neg]
      rcases hq with rfl | rfl
      · exact this.1
      · exact this.2.1
  have hnw : NW s := fun c hc => (h c hc).2.2
  show (combine _).impl s = none
  apply combine_none
  rw [first_nw hnw, hq _ (.inr rfl), hq _ (.inl rfl)]
  rfl

/-! ### words -/

/-- one character of a word -/
def pContentChar : Parser := and (notAny (pQuoted false)) (charNotIn isNestedStop)

theorem pContentChar_eq (c : Char) (s : Str) (h : c ≠ '\'' ∧ c ≠ '"' ∧ isWhite c = false) :
    pContentChar.impl (c :: s) = if isNestedStop c then none else some ([.str [c]], s) := by
  have h1 : (notAny (pQuoted false)).impl (c :: s) = some ([], c :: s) := by
    unfold notAny
    simp only
    rw [parse_nows rfl, pQuoted_none (by simpa using h)]
  have h2 : (charNotIn isNestedStop).parse true (c :: s) = if isNestedStop c then none else some ([.str [c]], s) := by
    rw [parse_nows rfl]; rfl
  split_ifs with hc
  · rw [if_pos hc] at h2
    exact and_none_right h1 h2
  · rw [if_neg hc] at h2
    exact and_some h1 h2

theorem pContentChar_stop {s : Str} (h : ∀ c ∈ s.head?, isNestedStop c = true ∧ c ≠ '\'' ∧ c ≠ '"') : pContentChar.impl s = none := by
  have h2 : (charNotIn isNestedStop).parse true s = none := by
    rw [parse_nows rfl]
    cases s with
    | nil => rfl
    | cons c s => show (if _ then _ else _) = none; rw [if_pos (h c (by simp)).1]
  have h1 : (notAny (pQuoted false)).impl s = some ([], s) ∨ (notAny (pQuoted false)).impl s = none := by
    unfold notAny
    simp only
    split
    · left; rfl
    · right; rfl
  rcases h1 with h1 | h1
  · exact and_none_right h1 h2
  · exact and_none_left h1

theorem flatStr_chars (w : Str) : flatStr (w.flatMap fun c => [Tok.str [c]]) = w := by
  induction w with
  | nil => rfl
  | cons c w ih => simp only [List.flatMap_cons, List.singleton_append, flatStr, tokFlat, ih]

theorem contentLoops {w r : Str} (hw : ∀ c ∈ w, plainChar c = true) (hr : ∀ c ∈ r.head?, isNestedStop c = true ∧ c ≠ '\'' ∧ c ≠ '"') :
    Loops pContentChar (w ++ r) (w.flatMap fun c => [Tok.str [c]]) r := by
  induction w with
  | nil => exact .stop (by rw [parse_nows rfl]; exact pContentChar_stop hr)
  | cons c w ih =>
    have hc := plain_facts (hw c (by simp))
    refine .step (s1 := w ++ r) (t := [.str [c]]) ?_ (by simp) (ih fun x hx => hw x (by simp [hx]))
    rw [parse_nows rfl, List.cons_append, pContentChar_eq _ _ ⟨hc.2.2.2.2.1, hc.2.2.2.2.2.1, hc.1⟩, if_neg]
    simp [hc.2.2.2.2.2.2.2.2]

theorem strip_plain {w : Str} (h : ∀ c ∈ w, isSpace c = false) : strip w = w :=
  strip_of_ok (fun c hc => h c (List.mem_of_head? hc)) (fun c hc => h c (List.mem_of_getLast? hc))

theorem pContent_word {w r : Str} (hne : w ≠ []) (hw : ∀ c ∈ w, plainChar c = true)
    (hr : ∀ c ∈ r.head?, isNestedStop c = true ∧ c ≠ '\'' ∧ c ≠ '"') : pContent.impl (w ++ r) = some ([.str w], r) := by
  have hl := contentLoops hw hr
  have h1 : (many1 pContentChar).impl (w ++ r) = some (w.flatMap fun c => [Tok.str [c]], r) := by
    refine hl.many1 (by rw [parse_nows rfl, parse_nows rfl]) ?_
    cases w with
    | nil => exact absurd rfl hne
    | cons c w =>
      have hc := plain_facts (hw c (by simp))
      rw [parse_nows rfl, List.cons_append, pContentChar_eq _ _ ⟨hc.2.2.2.2.1, hc.2.2.2.2.2.1, hc.1⟩, if_neg]
      · simp
      · simp [hc.2.2.2.2.2.2.2.2]
  have h2 : (combine (many1 pContentChar)).impl (w ++ r) = some ([.str w], r) := by
    rw [combine_some h1, flatStr_chars]
  show (Parser.action strip (combine (many1 pContentChar))).impl (w ++ r) = some ([.str w], r)
  unfold Parser.action
  simp only [parse_false, h2]
  rw [strip_plain fun c hc => (plain_facts (hw c hc)).2.1]

theorem pContent_stop {s : Str} (h : ∀ c ∈ s.head?, isNestedStop c = true ∧ c ≠ '\'' ∧ c ≠ '"') : pContent.impl s = none := by
  have h2 : (combine (many1 pContentChar)).impl s = none := by
    apply combine_none
    unfold Parser.many1
    simp only [parse_false, pContentChar_stop h]
  show (Parser.action strip (combine (many1 pContentChar))).impl s = none
  unfold Parser.action
  simp only [parse_false, h2]

/-! ### parentheses -/

theorem pNested_ws (n : Nat) : (pNested n).ws = true ∧ (pNested n).pre = true := by
  cases n <;> exact ⟨rfl, rfl⟩

theorem pNested_none {n : Nat} {s : Str} (h : ∀ c ∈ s.head?, c ≠ '(') : (pNested n).impl s = none := by
  cases n with
  | zero => rfl
  | succ n =>
    have h1 : pLpar.impl s = none := by
      cases s with
      | nil => exact suppress_none lit_nil
      | cons c s => exact pLpar_ne (h c (by simp))
    show Parser.parse _ false s = none
    rw [parse_false]
    exact group_none (and_none_left (and_none_left h1))

/-- an element inside parentheses -/
def pNestedItem (n : Nat) : Parser := first (first pQuoted (pNested n)) pContent

theorem pNestedItem_parse (n : Nat) (b : Bool) (s : Str) : (pNestedItem n).parse b s = (pNestedItem n).impl s := by
  unfold parse
  have : (pNestedItem n).pre = false := rfl
  rw [this]
  simp

theorem first_skip {a b : Parser} {u s : Str} (ha : ∀ b', a.parse b' (u ++ s) = a.parse b' s) (hb : b.parse true (u ++ s) = b.parse true s) :
    (first a b).impl (u ++ s) = (first a b).impl s := by
  unfold first
  simp only [ha, hb]

theorem pNestedItem_skip (n : Nat) {b s : Str} (hb : Blanks b) : (pNestedItem n).impl (b ++ s) = (pNestedItem n).impl s := by
  have h1 : (first pQuoted (pNested n)).impl (b ++ s) = (first pQuoted (pNested n)).impl s := by
    unfold first
    simp only
    rw [parse_skip rfl rfl hb.white, parse_skip (pNested_ws n).1 (pNested_ws n).2 hb.white]
  have h2 : ∀ x, (first pQuoted (pNested n)).parse true x = (first pQuoted (pNested n)).impl x := by
    intro x; unfold parse; rfl
  unfold pNestedItem
  show (match (first pQuoted (pNested n)).parse true (b ++ s) with | some m => some m | none => pContent.parse true (b ++ s)) =
    (match (first pQuoted (pNested n)).parse true s with | some m => some m | none => pContent.parse true s)
  rw [h2, h2, h1, parse_skip rfl rfl hb.white]

theorem pNestedItem_word (n : Nat) {w r : Str} (hne : w ≠ []) (hw : ∀ c ∈ w, plainChar c = true)
    (hr : ∀ c ∈ r.head?, isNestedStop c = true ∧ c ≠ '\'' ∧ c ≠ '"') : (pNestedItem n).impl (w ++ r) = some ([.str w], r) := by
  obtain ⟨c, w', rfl⟩ : ∃ c w', w = c :: w' := by cases w with | nil => exact absurd rfl hne | cons c w => exact ⟨c, w, rfl⟩
  have hc := plain_facts (hw c (by simp))
  have hnw : NW (c :: w' ++ r) := NW_cons.2 hc.1
  unfold pNestedItem
  rw [first_nw hnw, first_nw hnw, pQuoted_none (by simp [hc.1, hc.2.2.2.2.1, hc.2.2.2.2.2.1]), pNested_none (by simp [hc.2.2.1]),
    pContent_word hne hw hr]
  rfl

theorem pNestedItem_rpar (n : Nat) (r : Str) : (pNestedItem n).impl (')' :: r) = none := by
  have hnw : NW (')' :: r) := NW_cons.2 rfl
  unfold pNestedItem
  rw [first_nw hnw, first_nw hnw, pQuoted_none (by simp; decide), pNested_none (by simp), pContent_stop (by simp; decide)]
  rfl

theorem pNestedItem_lpar (n : Nat) {s r : Str} {t : List Tok} (h : (pNested n).impl ('(' :: s) = some (t, r)) :
    (pNestedItem n).impl ('(' :: s) = some (t, r) := by
  have hnw : NW ('(' :: s) := NW_cons.2 rfl
  unfold pNestedItem
  rw [first_nw hnw, first_nw hnw, pQuoted_none (by simp; decide), h]
  rfl

/-- the first character does not continue a word -/
def StopHead (r : Str) : Prop := ∃ c r', r = c :: r' ∧ (c = '(' ∨ c = ')')

theorem splitWs_cons_blank (s : Str) : splitWs (' ' :: s) = splitWs s := by
  have : splitOnP isSpace (' ' :: s) = [] :: splitOnP isSpace s := rfl
  unfold splitWs
  rw [this]; rfl

theorem splitWs_blanks {b : Str} (hb : Blanks b) (s : Str) : splitWs (b ++ s) = splitWs s := by
  induction b with
  | nil => rfl
  | cons c b ih =>
    rw [hb c (by simp), List.cons_append, splitWs_cons_blank, ih fun x hx => hb x (by simp [hx])]

theorem splitWs_word_blank {w s : Str} (hne : w ≠ []) (hw : ∀ c ∈ w, isSpace c = false) (hs : ∀ c ∈ s.head?, c = ' ') :
    splitWs (w ++ s) = w :: splitWs s := by
  have hne' : w.isEmpty = false := by cases w with | nil => exact absurd rfl hne | cons _ _ => rfl
  cases s with
  | nil =>
    unfold splitWs
    rw [List.append_nil, splitOnP_none hw]
    simp [splitOnP, hne]
  | cons c s =>
    have hc : c = ' ' := hs c (by simp)
    subst hc
    rw [splitWs_cons_blank]
    unfold splitWs
    rw [splitOnP_append_sep hw rfl, List.filter_cons, hne']
    rfl

theorem head_dropWhile {p : Char → Bool} (s : Str) : ∀ c ∈ (s.dropWhile p).head?, p c = false := by
  induction s with
  | nil => simp
  | cons x s ih =>
    rw [List.dropWhile_cons]
    split_ifs with h
    · exact ih
    · intro c hc
      simp at hc
      subst hc
      simpa using h

/-- a text is blanks, then nothing or a word that ends before a blank or at the end -/
theorem text_cases {s : Str} (h : UnquotedText s) :
    ∃ b w r, s = b ++ (w ++ r) ∧ Blanks b ∧ (∀ c ∈ w, plainChar c = true) ∧ (∀ c ∈ r.head?, c = ' ') ∧ UnquotedText r ∧ (w = [] → r = []) := by
  have hr : ∀ c ∈ ((s.dropWhile (· == ' ')).dropWhile plainChar).head?, c = ' ' := by
    intro c hc
    have hm : c ∈ s := (List.dropWhile_sublist _).mem ((List.dropWhile_sublist _).mem (List.mem_of_head? hc))
    rcases h c hm with h1 | h1
    · rw [head_dropWhile _ c hc] at h1; cases h1
    · exact h1
  refine ⟨s.takeWhile (· == ' '), (s.dropWhile (· == ' ')).takeWhile plainChar, (s.dropWhile (· == ' ')).dropWhile plainChar, ?_, ?_, ?_, hr, ?_, ?_⟩
  · rw [List.takeWhile_append_dropWhile, List.takeWhile_append_dropWhile]
  · intro c hc; simpa using mem_takeWhile_true hc
  · intro c hc; exact mem_takeWhile_true hc
  · intro c hc
    exact h c ((List.dropWhile_sublist _).mem ((List.dropWhile_sublist _).mem hc))
  · intro hw
    have he : s.dropWhile (· == ' ') = (s.dropWhile (· == ' ')).dropWhile plainChar := by
      conv_lhs => rw [← List.takeWhile_append_dropWhile (p := plainChar) (l := s.dropWhile (· == ' ')), hw, List.nil_append]
    rw [← he] at hr ⊢
    have h2 := head_dropWhile (p := (· == ' ')) s
    cases hd : s.dropWhile (· == ' ') with
    | nil => rfl
    | cons c t =>
      rw [hd] at hr h2
      have e1 := hr c (by simp)
      have e2 := h2 c (by simp)
      rw [e1] at e2
      cases e2

/-- induction over the words of a text -/
theorem text_induction {P : Str → Prop} (hb : ∀ b, Blanks b → P b)
    (hw : ∀ b w r, Blanks b → w ≠ [] → (∀ c ∈ w, plainChar c = true) → (∀ c ∈ r.head?, c = ' ') → UnquotedText r → P r → P (b ++ (w ++ r)))
    (s : Str) (h : UnquotedText s) : P s := by
  induction hn : s.length using Nat.strong_induction_on generalizing s with
  | _ n ih =>
    obtain ⟨b, w, r, rfl, h1, h2, h3, h4, h5⟩ := text_cases h
    by_cases hwe : w = []
    · rw [h5 hwe, hwe]
      simpa using hb b h1
    · refine hw b w r h1 hwe h2 h3 h4 (ih r.length ?_ r h4 rfl)
      have : 0 < w.length := List.length_pos_iff.2 hwe
      rw [← hn, List.length_append, List.length_append]
      omega

/-- the repetition on `s` gives `ts` and leaves `q`, up to blanks in front of it -/
def LoopsTo (n : Nat) (s : Str) (ts : List Tok) (q : Str) : Prop := ∃ b, Blanks b ∧ Loops (pNestedItem n) s ts (b ++ q)

theorem loopsTo_end (n : Nat) {b : Str} (hb : Blanks b) (r : Str) : LoopsTo n (b ++ ')' :: r) [] (')' :: r) :=
  ⟨b, hb, .stop (by rw [pNestedItem_parse, pNestedItem_skip n hb, pNestedItem_rpar])⟩

/-- the words of a text are read one after the other -/
theorem loopsTo_text (n : Nat) {s : Str} (hs : UnquotedText s) {r q : Str} {ts : List Tok} (hr : StopHead r)
    (h : ∀ b, Blanks b → LoopsTo n (b ++ r) ts q) : LoopsTo n (s ++ r) ((splitWs s).map .str ++ ts) q := by
  refine text_induction (P := fun s => LoopsTo n (s ++ r) ((splitWs s).map .str ++ ts) q) ?_ ?_ s hs
  · intro b hb
    have : splitWs b = [] := by
      have := splitWs_blanks hb []
      rw [List.append_nil] at this
      rw [this]; rfl
    rw [this]
    exact h b hb
  · intro b w r1 hb hne hw hr1 _ ih
    obtain ⟨b', hb', hl⟩ := ih
    rw [splitWs_blanks hb, splitWs_word_blank hne (fun c hc => (plain_facts (hw c hc)).2.1) hr1]
    refine ⟨b', hb', ?_⟩
    have hh : ∀ c ∈ (r1 ++ r).head?, isNestedStop c = true ∧ c ≠ '\'' ∧ c ≠ '"' := by
      intro c hc
      cases r1 with
      | nil =>
        obtain ⟨d, r', rfl, hd⟩ := hr
        simp at hc
        subst hc
        rcases hd with rfl | rfl <;> decide
      | cons d r1 =>
        simp at hc
        subst hc
        rw [hr1 d (by simp)]
        decide
    have := Loops.step (p := pNestedItem n) (s := b ++ (w ++ (r1 ++ r))) (s1 := r1 ++ r) (t := [.str w])
      (by rw [pNestedItem_parse, pNestedItem_skip n hb, pNestedItem_word n hne hw hh])
      (by
        have : 0 < w.length := List.length_pos_iff.2 hne
        simp only [List.length_append]; omega) hl
    simpa using this

/-- one more parenthesis -/
theorem loopsTo_group (n : Nat) {b s r q : Str} {t ts : List Tok} (hb : Blanks b) (h : (pNested n).impl ('(' :: s) = some (t, r))
    (hl : r.length < s.length) (h2 : LoopsTo n r ts q) : LoopsTo n (b ++ '(' :: s) (t ++ ts) q := by
  obtain ⟨b', hb', h2⟩ := h2
  refine ⟨b', hb', .step (s1 := r) ?_ ?_ h2⟩
  · rw [pNestedItem_parse, pNestedItem_skip n hb, pNestedItem_lpar n h]
  · simp only [List.length_append, List.length_cons]; omega

/-- what a pair of parentheses contains -/
theorem pNested_loops (n : Nat) {s r : Str} {ts : List Tok} (h : LoopsTo n (s ++ ')' :: r) ts (')' :: r)) :
    (pNested (n + 1)).impl ('(' :: (s ++ ')' :: r)) = some ([.grp ts], r) := by
  obtain ⟨b, hb, hl⟩ := h
  have h1 : (many (pNestedItem n)).parse true (s ++ ')' :: r) = some (ts, b ++ ')' :: r) := by
    have hm := hl.many (by rw [pNestedItem_parse, pNestedItem_parse])
    have hpre : (many (pNestedItem n)).pre = false := rfl
    unfold parse
    rw [hpre]
    simpa using hm
  have h2 : pRpar.parse true (b ++ ')' :: r) = some ([], r) := by
    rw [parse_skip rfl rfl hb.white, parse_nw (NW_cons.2 rfl), pRpar_cons]
  have h3 := and_some (and_some (pLpar_cons (s ++ ')' :: r)) h1) h2
  show Parser.parse (group (and (and pLpar (many (pNestedItem n))) pRpar)) false _ = _
  rw [parse_false, group_some h3]
  simp

/-- a parenthesis around words -/
theorem pNested_text (n : Nat) {s : Str} (hs : UnquotedText s) (r : Str) :
    (pNested (n + 1)).impl ('(' :: (s ++ ')' :: r)) = some ([.grp ((splitWs s).map .str)], r) := by
  apply pNested_loops
  have := loopsTo_text n hs (r := ')' :: r) (ts := []) ⟨_, _, rfl, .inr rfl⟩ (fun b hb => loopsTo_end n hb r)
  rwa [List.append_nil] at this

/-- A text with parentheses that contain no further ones: the text before the first one, and the content of each with the text after it. -/
def flatParens (s0 : Str) (l : List (Str × Str)) : Str := s0 ++ l.flatMap fun x => '(' :: (x.1 ++ ')' :: x.2)

theorem loopsTo_parens (n : Nat) {s0 : Str} {l : List (Str × Str)} (h0 : UnquotedText s0) (hl : ∀ x ∈ l, UnquotedText x.1 ∧ UnquotedText x.2) (r : Str) :
    LoopsTo (n + 1) (flatParens s0 l ++ ')' :: r)
      ((splitWs s0).map .str ++ l.flatMap fun x => .grp ((splitWs x.1).map .str) :: (splitWs x.2).map .str) (')' :: r) := by
  induction l generalizing s0 with
  | nil =>
    unfold flatParens
    simp only [List.flatMap_nil, List.append_nil]
    have := loopsTo_text (n + 1) h0 (r := ')' :: r) (ts := []) ⟨_, _, rfl, .inr rfl⟩ (fun b hb => loopsTo_end (n + 1) hb r)
    rwa [List.append_nil] at this
  | cons x l ih =>
    have hx := hl x (by simp)
    have ih := ih hx.2 (fun y hy => hl y (by simp [hy]))
    have he : flatParens s0 (x :: l) ++ ')' :: r = s0 ++ '(' :: (x.1 ++ ')' :: (flatParens x.2 l ++ ')' :: r)) := by
      simp [flatParens]
    rw [he, List.flatMap_cons]
    refine loopsTo_text (n + 1) h0 ⟨_, _, rfl, .inl rfl⟩ (fun b hb => ?_)
    have := loopsTo_group (n + 1) hb (pNested_text n hx.1 (flatParens x.2 l ++ ')' :: r))
      (by simp only [List.length_append, List.length_cons]; omega) ih
    simpa using this

theorem pNested_parens (n : Nat) {s0 : Str} {l : List (Str × Str)} (h0 : UnquotedText s0) (hl : ∀ x ∈ l, UnquotedText x.1 ∧ UnquotedText x.2) (r : Str) :
    (pNested (n + 2)).impl ('(' :: (flatParens s0 l ++ ')' :: r)) =
      some ([.grp ((splitWs s0).map .str ++ l.flatMap fun x => .grp ((splitWs x.1).map .str) :: (splitWs x.2).map .str)], r) :=
  pNested_loops (n + 1) (loopsTo_parens n h0 hl r)

/-! ### comma separated lists -/

/-- the characters of list items: printable, no comma, no quotation mark -/
def itemChar (c : Char) : Bool := isCommaItemChar c && c != '\'' && c != '"'

theorem item_facts {c : Char} (h : itemChar c = true) :
    isCommaItemChar c = true ∧ c ≠ '\'' ∧ c ≠ '"' ∧ isWhite c = false ∧ isSpace c = false ∧ c ≠ ',' := by
  simp only [itemChar, isCommaItemChar, Bool.and_eq_true, decide_eq_true_eq, bne_iff_ne, ne_eq] at h
  obtain ⟨⟨⟨⟨h1, h2⟩, h3⟩, h4⟩, h5⟩ := h
  refine ⟨by simp [isCommaItemChar, h1, h2, h3], h4, h5, ?_, ?_, h3⟩
  · cases hc : isWhite c with
    | false => rfl
    | true =>
      rcases isWhite_cases hc with rfl | rfl | rfl | rfl <;> revert h1 <;> decide
  · simp only [isSpace]
    simp
    omega

/-- the optional blanks inside an item -/
def pInnerBlanks : Parser := opt (and (and (word isBlankTab isBlankTab false) (notAny (lit [','] false))) (notAny lineEnd))
/-- a word of an item with the blanks after it -/
def pItemWord : Parser := and (word isCommaItemChar isCommaItemChar false) pInnerBlanks

/-- the end of an item -/
def ItemEnd (r : Str) : Prop := r = [] ∨ ∃ r', r = ',' :: r'

theorem notAny_some {p : Parser} (hp : p.ws = false) {s : Str} (h : p.impl s = none) : (notAny p).parse true s = some ([], s) := by
  rw [parse_nows rfl]
  unfold notAny
  simp only [parse_nows hp, h]
theorem notAny_none {p : Parser} (hp : p.ws = false) {s : Str} {m : List Tok × Str} (h : p.impl s = some m) : (notAny p).parse true s = none := by
  rw [parse_nows rfl]
  unfold notAny
  simp only [parse_nows hp, h]

theorem pInnerBlanks_end {b r : Str} (hb : Blanks b) (hr : ItemEnd r) : pInnerBlanks.impl (b ++ r) = some ([], b ++ r) := by
  have hbt : ∀ x ∈ r.head?, isBlankTab x = false := by
    rcases hr with rfl | ⟨r', rfl⟩
    · simp
    · simp; decide
  unfold pInnerBlanks
  apply opt_none
  by_cases hbe : b = []
  · subst hbe
    exact and_none_left (and_none_left (word_none hbt))
  · have hw := word_all (b := isBlankTab) (ws := false) hbe (fun x hx => by rw [hb x hx]; rfl) hbt
    rcases hr with rfl | ⟨r', rfl⟩
    · have h2 := and_some hw (notAny_some (p := lit [','] false) rfl lit_nil)
      exact and_none_right h2 (notAny_none (p := lineEnd) rfl (m := ([], [])) rfl)
    · exact and_none_left (and_none_right hw (notAny_none (p := lit [','] false) rfl (lit_cons ',' r' false)))

theorem pInnerBlanks_some {b s : Str} {c : Char} (hb : Blanks b) (hne : b ≠ []) (hc : itemChar c = true) :
    pInnerBlanks.impl (b ++ c :: s) = some ([.str b], c :: s) := by
  have hf := item_facts hc
  have hbt : ∀ x ∈ (c :: s).head?, isBlankTab x = false := by
    intro x hx
    simp at hx
    subst hx
    have : isWhite c = false := hf.2.2.2.1
    simp only [isWhite, Bool.or_eq_false_iff] at this
    simp [isBlankTab, this]
  have hw := word_all (b := isBlankTab) (ws := false) hne (fun x hx => by rw [hb x hx]; rfl) hbt
  have h2 := and_some hw (notAny_some (p := lit [','] false) rfl (lit_head_ne (Ne.symm hf.2.2.2.2.2)))
  have h3 : lineEnd.impl (c :: s) = none := by
    show (if c = '\n' then _ else _) = none
    rw [if_neg]
    rintro rfl
    exact absurd hf.2.2.2.1 (by decide)
  have := and_some h2 (notAny_some (p := lineEnd) rfl h3)
  exact opt_some (by simpa using this)

/-- a text of item characters and blanks -/
def ItemText (s : Str) : Prop := ∀ c ∈ s, itemChar c = true ∨ c = ' '

theorem pItemWord_stop {b r : Str} (hb : Blanks b) (hr : ItemEnd r) : pItemWord.parse true (b ++ r) = none := by
  rw [parse_nows rfl]
  apply and_none_left
  apply word_none
  intro x hx
  cases b with
  | nil =>
    rcases hr with rfl | ⟨r', rfl⟩
    · simp at hx
    · simp at hx; subst hx; decide
  | cons c b =>
    simp at hx
    subst hx
    rw [hb c (by simp)]
    decide

/-- the words of an item -/
theorem itemLoops {q b r : Str} (hq : ItemText q) (hh : ∀ c ∈ q.head?, itemChar c = true) (he : endOk q) (hb : Blanks b) (hr : ItemEnd r) :
    ∃ ts, Loops pItemWord (q ++ (b ++ r)) ts (b ++ r) ∧ flatStr ts = q := by
  induction hn : q.length using Nat.strong_induction_on generalizing q with
  | _ n ih =>
    cases q with
    | nil => exact ⟨[], by rw [List.nil_append]; exact .stop (pItemWord_stop hb hr), rfl⟩
    | cons c q =>
      have hc := hh c (by simp)
      have hf := item_facts hc
      -- the first word and the rest
      have hsplit : (c :: q).takeWhile itemChar ++ (c :: q).dropWhile itemChar = c :: q := List.takeWhile_append_dropWhile
      generalize hw : (c :: q).takeWhile itemChar = w at hsplit
      generalize hd : (c :: q).dropWhile itemChar = d at hsplit
      have hwne : w ≠ [] := by rw [← hw, List.takeWhile_cons, if_pos hc]; simp
      have hwi : ∀ x ∈ w, itemChar x = true := fun x hx => mem_takeWhile_true (by rw [hw]; exact hx)
      have hdh : ∀ x ∈ d.head?, x = ' ' := by
        intro x hx
        have h1 : itemChar x = false := head_dropWhile (p := itemChar) (c :: q) x (by rw [hd]; exact hx)
        have hm : x ∈ c :: q := by rw [← hsplit]; exact List.mem_append_right _ (List.mem_of_head? hx)
        rcases hq x hm with h2 | h2
        · rw [h1] at h2; cases h2
        · exact h2
      have hword : ∀ x, (∀ y ∈ x.head?, isCommaItemChar y = false) → (word isCommaItemChar isCommaItemChar false).impl (w ++ x) = some ([.str w], x) :=
        fun x hx => word_all hwne (fun y hy => (item_facts (hwi y hy)).1) hx
      by_cases hde : d = []
      · subst hde
        rw [List.append_nil] at hsplit
        refine ⟨[.str w] ++ [], .step (s1 := b ++ r) ?_ ?_ (.stop (pItemWord_stop hb hr)), ?_⟩
        · rw [parse_nows rfl, ← hsplit]
          have h1 := hword (b ++ r) (by
            intro y hy
            cases b with
            | nil =>
              rcases hr with rfl | ⟨r', rfl⟩
              · simp at hy
              · simp at hy; subst hy; decide
            | cons z b => simp at hy; subst hy; rw [hb z (by simp)]; decide)
          have h2 : pInnerBlanks.parse true (b ++ r) = some ([], b ++ r) := by rw [parse_nows rfl, pInnerBlanks_end hb hr]
          have := and_some h1 h2
          exact this
        · simp only [List.length_append, List.length_cons]; omega
        · simp [flatStr, tokFlat, hsplit]
      · -- blanks, then the next word
        generalize hb1 : d.takeWhile (· == ' ') = b1
        generalize hq1 : d.dropWhile (· == ' ') = q1
        have hs1 : b1 ++ q1 = d := by rw [← hb1, ← hq1]; exact List.takeWhile_append_dropWhile
        have hbl : Blanks b1 := fun x hx => by
          have := mem_takeWhile_true (p := (· == ' ')) (by rw [hb1]; exact hx)
          simpa using this
        have hb1ne : b1 ≠ [] := by
          cases d with
          | nil => exact absurd rfl hde
          | cons x d =>
            rw [← hb1, List.takeWhile_cons, hdh x (by simp)]
            simp
        have hq1ne : q1 ≠ [] := by
          intro h0
          rw [h0, List.append_nil] at hs1
          have h1 : (c :: q).getLast? = some ' ' := by
            rw [← hsplit, ← hs1, List.getLast?_append]
            have : b1.getLast? = some ' ' := by
              cases hg : b1.getLast? with
              | none => exact absurd (List.getLast?_eq_none_iff.1 hg) hb1ne
              | some x => rw [hbl x (List.mem_of_getLast? hg)]
            rw [this]; rfl
          exact absurd (he ' ' h1) (by decide)
        have hmem : ∀ x ∈ q1, x ∈ c :: q := fun x hx => by
          rw [← hsplit, ← hs1]; simp [hx]
        have hq1h : ∀ x ∈ q1.head?, itemChar x = true := by
          intro x hx
          rcases hq x (hmem x (List.mem_of_head? hx)) with h2 | h2
          · exact h2
          · have := head_dropWhile (p := (· == ' ')) d x (by rw [hq1]; exact hx)
            rw [h2] at this; cases this
        obtain ⟨ts, hl, hts⟩ := ih q1.length (by
            rw [← hn, ← hsplit, ← hs1]
            have : 0 < w.length := List.length_pos_iff.2 hwne
            simp only [List.length_append]; omega) (q := q1) (fun x hx => hq x (hmem x hx)) hq1h
          (fun x hx => he x (by
            rw [← hsplit, ← hs1, List.getLast?_append, List.getLast?_append, hx]; rfl)) rfl
        refine ⟨[.str w, .str b1] ++ ts, .step (s1 := q1 ++ (b ++ r)) ?_ ?_ hl, ?_⟩
        · rw [parse_nows rfl, ← hsplit, ← hs1]
          obtain ⟨x, q2, rfl⟩ : ∃ x q2, q1 = x :: q2 := by
            cases q1 with | nil => exact absurd rfl hq1ne | cons x q2 => exact ⟨x, q2, rfl⟩
          have h1 := hword (b1 ++ (x :: q2 ++ (b ++ r))) (by
            intro y hy
            cases b1 with
            | nil => exact absurd rfl hb1ne
            | cons z b1 => simp at hy; subst hy; rw [hbl z (by simp)]; decide)
          have h2 : pInnerBlanks.parse true (b1 ++ (x :: q2 ++ (b ++ r))) = some ([.str b1], x :: q2 ++ (b ++ r)) := by
            rw [parse_nows rfl]
            exact pInnerBlanks_some hbl hb1ne (hq1h x (by simp))
          have := and_some h1 h2
          simp only [List.append_assoc]
          exact this
        · rw [← hsplit, ← hs1]
          have : 0 < w.length := List.length_pos_iff.2 hwne
          simp only [List.length_append]; omega
        · simp only [List.cons_append, List.nil_append, flatStr, tokFlat, hts]
          rw [← List.append_assoc, List.append_assoc, hs1, hsplit]

/-- an item of a comma separated list -/
def pListItem : Parser := optDefault (first pQuoted pCommaItem) []

theorem pCommaItem_skip {u s : Str} (hu : Blanks u) : (first pQuoted pCommaItem).impl (u ++ s) = (first pQuoted pCommaItem).impl s := by
  unfold first
  simp only
  rw [parse_skip rfl rfl hu.white, parse_skip rfl rfl hu.white]

theorem itemText_space {q : Str} (hq : ItemText q) {c : Char} (hc : c ∈ q) (hs : isSpace c = true) : c = ' ' := by
  rcases hq c hc with h | h
  · rw [(item_facts h).2.2.2.2.1] at hs; cases hs
  · exact h

theorem pListItem_parse {q r : Str} (hq : ItemText q) (hr : ItemEnd r) :
    ∃ b, Blanks b ∧ pListItem.parse true (q ++ r) = some ([.str (strip q)], b ++ r) ∧ b.length ≤ q.length := by
  have hpre : ∀ s, pListItem.parse true s = match (first pQuoted pCommaItem).impl s with | none => some ([.str []], s) | some m => some m := by
    intro s
    have h1 : pListItem.pre = false := rfl
    unfold parse
    rw [h1]
    simp only [Bool.true_and, Bool.false_and, Bool.false_eq_true, if_false]
    show (match (first pQuoted pCommaItem).parse false s with | none => _ | some m => _) = _
    rw [parse_false]
  rw [hpre]
  obtain ⟨u, v, hsp, hu, hv⟩ := strip_decomp q
  have hu' : Blanks u := fun c hc => itemText_space hq (by rw [hsp]; simp [hc]) (hu c hc)
  have hv' : Blanks v := fun c hc => itemText_space hq (by rw [hsp]; simp [hc]) (hv c hc)
  by_cases hs : strip q = []
  · refine ⟨q, ?_, ?_, le_refl _⟩
    · intro c hc
      exact itemText_space hq hc (strip_eq_nil_iff.1 hs c hc)
    · have hqb : Blanks q := fun c hc => itemText_space hq hc (strip_eq_nil_iff.1 hs c hc)
      have hnw : NW r := by
        rcases hr with rfl | ⟨r', rfl⟩
        · exact NW_nil
        · exact NW_cons.2 rfl
      have h1 : pCommaItem.impl r = none := by
        have := pItemWord_stop Blanks.nil hr
        rw [parse_nows rfl, List.nil_append] at this
        apply combine_none
        unfold Parser.many1
        show (match pItemWord.parse false r with | none => none | some (t, r) => _) = none
        rw [parse_false, this]
      have h2 : (first pQuoted pCommaItem).impl (q ++ r) = none := by
        rw [pCommaItem_skip hqb, first_nw hnw, h1, pQuoted_none]
        · rfl
        · rcases hr with rfl | ⟨r', rfl⟩
          · simp
          · simp; decide
      rw [h2, hs]
  · refine ⟨v, hv', ?_, ?_⟩
    · have hsm : ItemText (strip q) := fun c hc => hq c (mem_strip hc)
      have hhead : ∀ c ∈ (strip q).head?, itemChar c = true := by
        intro c hc
        rcases hsm c (List.mem_of_head? hc) with h | h
        · exact h
        · have := headOk_strip q c hc
          rw [h] at this; cases this
      obtain ⟨ts, hl, hts⟩ := itemLoops hsm hhead (endOk_strip q) hv' hr
      obtain ⟨c, s', hcs⟩ : ∃ c s', strip q = c :: s' := by
        cases h : strip q with | nil => exact absurd h hs | cons c s' => exact ⟨c, s', rfl⟩
      have hc := item_facts (hhead c (by rw [hcs]; simp))
      have h1 : pCommaItem.impl (strip q ++ (v ++ r)) = some ([.str (strip q)], v ++ r) := by
        have h2 : (many1 pItemWord).impl (strip q ++ (v ++ r)) = some (ts, v ++ r) := by
          apply hl.many1
          · rw [parse_nows rfl, parse_nows rfl]
          · apply hl.progress
            rw [hcs]
            simp only [List.length_append, List.length_cons]; omega
        have := combine_some h2
        rw [hts] at this
        exact this
      have h2 : (first pQuoted pCommaItem).impl (q ++ r) = some ([.str (strip q)], v ++ r) := by
        have he : q ++ r = u ++ (strip q ++ (v ++ r)) := by
          conv_lhs => rw [hsp]
          simp
        have hnw : NW (strip q ++ (v ++ r)) := by rw [hcs]; exact NW_cons.2 hc.2.2.2.1
        rw [he, pCommaItem_skip hu', first_nw hnw, h1, pQuoted_none]
        · rfl
        · rw [hcs]; simp [hc.2.1, hc.2.2.1, hc.2.2.2.1]
      rw [h2]
    · have := congrArg List.length hsp
      simp only [List.length_append] at this
      omega

/-- the further items of a list -/
def pMoreItems : Parser := and (suppress (lit [','])) pListItem

theorem pMoreItems_parse {b q r : Str} (hb : Blanks b) (hq : ItemText q) (hr : ItemEnd r) :
    ∃ b', Blanks b' ∧ pMoreItems.parse true (b ++ ',' :: (q ++ r)) = some ([.str (strip q)], b' ++ r) ∧ b'.length ≤ q.length := by
  obtain ⟨b', hb', h, hlen⟩ := pListItem_parse hq hr
  refine ⟨b', hb', ?_, hlen⟩
  rw [parse_skip rfl rfl hb.white, parse_nw (NW_cons.2 rfl)]
  exact and_some (suppress_some (lit_cons ',' (q ++ r) true)) h

theorem moreLoops (ps : List Str) (hps : ∀ q ∈ ps, ItemText q) {b : Str} (hb : Blanks b) :
    ∃ b', Blanks b' ∧ Loops pMoreItems (b ++ ps.flatMap fun q => ',' :: q) (ps.map fun q => .str (strip q)) b' := by
  induction ps generalizing b with
  | nil =>
    refine ⟨b, hb, ?_⟩
    simp only [List.flatMap_nil, List.append_nil, List.map_nil]
    refine .stop ?_
    have := parse_skip (p := pMoreItems) rfl rfl hb.white (s := [])
    rw [List.append_nil] at this
    rw [this, parse_nw NW_nil]
    exact and_none_left (suppress_none lit_nil)
  | cons q ps ih =>
    have hr : ItemEnd (ps.flatMap fun q => ',' :: q) := by
      cases ps with
      | nil => exact .inl rfl
      | cons p ps => exact .inr ⟨_, rfl⟩
    obtain ⟨b1, hb1, h1, hlen⟩ := pMoreItems_parse hb (hps q (by simp)) hr
    obtain ⟨b2, hb2, h2⟩ := ih (fun x hx => hps x (by simp [hx])) hb1
    refine ⟨b2, hb2, ?_⟩
    have := Loops.step (p := pMoreItems) (s := b ++ ',' :: (q ++ ps.flatMap fun q => ',' :: q)) h1
      (by simp only [List.length_append, List.length_cons]; omega) h2
    simpa using this

theorem joinWith_commas (p : Str) (ps : List Str) : joinWith [','] (p :: ps) = p ++ ps.flatMap fun q => ',' :: q := by
  induction ps generalizing p with
  | nil => simp [joinWith]
  | cons q ps ih =>
    rw [List.flatMap_cons]
    simp only [joinWith, ih, List.append_assoc, List.cons_append, List.nil_append]

theorem mem_splitChar {a : Char} {s q : Str} (hq : q ∈ splitChar a s) {c : Char} (hc : c ∈ q) : c ∈ s ∧ c ≠ a := by
  refine ⟨?_, by simpa using splitOnP_sepfree hq c hc⟩
  unfold splitChar at hq
  induction s generalizing q with
  | nil => simp [splitOnP] at hq; subst hq; cases hc
  | cons x s ih =>
    simp only [splitOnP] at hq
    split_ifs at hq with hx
    · rcases List.mem_cons.1 hq with rfl | hq
      · cases hc
      · exact List.mem_cons_of_mem _ (ih hq hc)
    · split at hq
      · simp at hq; subst hq; simp at hc; simp [hc]
      · rename_i h t heq
        rcases List.mem_cons.1 hq with rfl | hq
        · rcases List.mem_cons.1 hc with rfl | hc
          · simp
          · exact List.mem_cons_of_mem _ (ih (q := h) (by rw [heq]; simp) hc)
        · exact List.mem_cons_of_mem _ (ih (by rw [heq]; simp [hq]) hc)

/-- A comma separated list is read as its items without the blanks around them. -/
theorem pCommaList_parse (s : Str) (hs : ∀ c ∈ s, itemChar c = true ∨ c = ' ' ∨ c = ',') :
    ∃ r, pCommaList.parse true s = some ((splitChar ',' s).map fun q => .str (strip q), r) := by
  have hps : ∀ q ∈ splitChar ',' s, ItemText q := by
    intro q hq c hc
    obtain ⟨hm, hne⟩ := mem_splitChar hq hc
    rcases hs c hm with h | h | h
    · exact .inl h
    · exact .inr h
    · exact absurd h hne
  have hj := joinWith_splitChar (c := ',') s
  cases hsp : splitChar ',' s with
  | nil => exact absurd hsp (splitOnP_ne_nil _ _)
  | cons p ps =>
    rw [hsp] at hps hj
    rw [← hj, joinWith_commas]
    have hr : ItemEnd (ps.flatMap fun q => ',' :: q) := by
      cases ps with
      | nil => exact .inl rfl
      | cons p ps => exact .inr ⟨_, rfl⟩
    have hFnw : NW (ps.flatMap fun q => ',' :: q) := by
      rcases hr with h | ⟨r', h⟩ <;> rw [h]
      · exact NW_nil
      · exact NW_cons.2 rfl
    have hp := hps p (by simp)
    obtain ⟨u, hu, hus⟩ := lstrip_decomp p
    have hu' : Blanks u := fun c hc => itemText_space hp (by rw [hu]; simp [hc]) (hus c hc)
    have hl : ItemText (lstrip p) := fun c hc => hp c (by rw [hu]; simp [hc])
    have hnw : NW (lstrip p ++ ps.flatMap fun q => ',' :: q) := by
      cases hlp : lstrip p with
      | nil => exact hFnw
      | cons c t =>
        rcases hl c (by rw [hlp]; simp) with h | h
        · exact NW_cons.2 (item_facts h).2.2.2.1
        · have := headOk_lstrip p c (by rw [hlp]; rfl)
          rw [h] at this; cases this
    have hss : strip (lstrip p) = strip p := by
      conv_rhs => rw [hu]
      have := strip_surround_eq (a := u) (s := lstrip p) (b := []) hus (by simp)
      rw [List.append_nil] at this
      exact this.symm
    obtain ⟨b1, hb1, h1, _⟩ := pListItem_parse hl hr
    rw [hss] at h1
    obtain ⟨b2, hb2, h2⟩ := moreLoops ps (fun x hx => hps x (by simp [hx])) Blanks.nil
    rw [List.nil_append] at h2
    refine ⟨b2, ?_⟩
    have hlist : p ++ ps.flatMap (fun q => ',' :: q) = u ++ (lstrip p ++ ps.flatMap fun q => ',' :: q) := by
      conv_lhs => rw [hu]
      rw [List.append_assoc]
    rw [hlist, parse_skip rfl rfl hu'.white, parse_nw hnw]
    have h3 : (many pMoreItems).parse true (b1 ++ ps.flatMap fun q => ',' :: q) = some (ps.map fun q => .str (strip q), b2) := by
      rw [parse_skip rfl rfl hb1.white, parse_nw hFnw]
      exact h2.many (by rw [parse_nw hFnw, parse_nw hFnw])
    rw [parse_nw hnw] at h1
    exact and_some h1 h3

/-! ### blanks in lists -/

/-- runs of blanks become one blank, blanks at the end disappear -/
def sq : Str → Str
  | [] => []
  | c :: s =>
    if c = ' ' then match sq s with
      | [] => []
      | d :: t => if d = ' ' then d :: t else ' ' :: d :: t
    else c :: sq s

theorem splitChar_cons_ne {a c : Char} (h : c ≠ a) (s : Str) :
    ∃ p ps, splitChar a s = p :: ps ∧ splitChar a (c :: s) = (c :: p) :: ps := by
  unfold splitChar
  cases hs : splitOnP (fun x => x == a) s with
  | nil => exact absurd hs (splitOnP_ne_nil _ _)
  | cons p ps =>
    refine ⟨p, ps, rfl, ?_⟩
    simp [splitOnP, h, hs]

theorem splitChar_cons_eq (a : Char) (s : Str) : splitChar a (a :: s) = [] :: splitChar a s := by
  simp [splitChar, splitOnP]

theorem rstrip_cons {c : Char} (h : isSpace c = false) (s : Str) : rstrip (c :: s) = c :: rstrip s := by
  obtain ⟨b, hb, hs⟩ := rstrip_decomp s
  have : rstrip (c :: rstrip s) = c :: rstrip s := by
    apply rstrip_of_endOk
    intro d hd
    rcases List.eq_nil_or_concat (rstrip s) with h0 | ⟨t, e, h0⟩
    · rw [h0] at hd; simp at hd; rw [← hd]; exact h
    · have he := endOk_rstrip s
      rw [h0] at hd he
      apply he
      rw [← hd]
      simp [List.getLast?_cons]
  conv_lhs => rw [hb, ← List.cons_append, rstrip_append_space hs, this]

theorem rstrip_blank (s : Str) : rstrip (' ' :: s) = if rstrip s = [] then [] else ' ' :: rstrip s := by
  obtain ⟨b, hb, hs⟩ := rstrip_decomp s
  split_ifs with h0
  · rw [h0, List.nil_append] at hb
    have : rstrip ([] ++ (' ' :: s)) = rstrip [] := rstrip_append_space (by
      intro x hx
      rcases List.mem_cons.1 hx with rfl | hx
      · rfl
      · rw [hb] at hx; exact hs x hx)
    simpa [rstrip] using this
  · have : rstrip (' ' :: rstrip s) = ' ' :: rstrip s := by
      apply rstrip_of_endOk
      intro d hd
      have he := endOk_rstrip s
      apply he
      rw [← hd, List.getLast?_cons]
      cases hg : (rstrip s).getLast? with
      | none => exact absurd (List.getLast?_eq_none_iff.1 hg) h0
      | some x => rfl
    conv_lhs => rw [hb, ← List.cons_append, rstrip_append_space hs, this]

theorem forall2_splitChar (s : Str) (hs : ∀ c ∈ s, isSpace c = true → c = ' ') :
    List.Forall₂ (fun p q => rstrip p = sq q) (splitChar ',' (sq s)) (splitChar ',' s) := by
  induction s with
  | nil => exact .cons rfl .nil
  | cons c s ih =>
    have ih := ih fun x hx => hs x (by simp [hx])
    by_cases hc : c = ' '
    · subst hc
      obtain ⟨q, qs, h1, h2⟩ := splitChar_cons_ne (a := ',') (c := ' ') (by decide) s
      rw [h2]
      rw [h1] at ih
      cases hq : splitChar ',' (sq s) with
      | nil => exact absurd hq (splitOnP_ne_nil _ _)
      | cons p ps =>
        rw [hq] at ih
        obtain ⟨hpq, hrest⟩ := List.forall₂_cons.1 ih
        have hsqq : sq (' ' :: q) = match rstrip p with | [] => [] | d :: t => if d = ' ' then d :: t else ' ' :: d :: t := by
          rw [hpq]; rfl
        cases hss : sq s with
        | nil =>
          have h0 : sq (' ' :: s) = [] := by simp [sq, hss]
          rw [hss] at hq
          have : p = [] ∧ ps = [] := by simpa [splitChar, splitOnP] using hq.symm
          rw [h0]
          rw [this.2] at hrest
          cases hrest
          refine .cons ?_ .nil
          rw [hsqq, this.1]; rfl
        | cons d t =>
          by_cases hd : d = ' '
          · subst hd
            have h0 : sq (' ' :: s) = sq s := by simp [sq, hss]
            rw [h0, hq]
            refine .cons ?_ hrest
            rw [hsqq]
            obtain ⟨p', ps', _, h4⟩ := splitChar_cons_ne (a := ',') (c := ' ') (by decide) t
            rw [hss, h4] at hq
            obtain ⟨rfl, rfl⟩ := List.cons.inj hq
            rw [rstrip_blank]
            split_ifs with h5
            · rfl
            · rfl
          · have h0 : sq (' ' :: s) = ' ' :: sq s := by simp [sq, hss, hd]
            obtain ⟨p', ps', h3, h4⟩ := splitChar_cons_ne (a := ',') (c := ' ') (by decide) (sq s)
            rw [hq] at h3
            obtain ⟨rfl, rfl⟩ := List.cons.inj h3
            rw [h0, h4]
            refine .cons ?_ hrest
            rw [hsqq, rstrip_blank]
            cases hr : rstrip p with
            | nil => rfl
            | cons e u =>
              have he : e ≠ ' ' := by
                rintro rfl
                obtain ⟨b, hb, _⟩ := rstrip_decomp p
                rw [hr] at hb
                by_cases hdc : d = ','
                · subst hdc
                  rw [hss, splitChar_cons_eq] at hq
                  rw [← (List.cons.inj hq).1] at hb
                  cases hb
                · obtain ⟨p'', ps'', _, h6⟩ := splitChar_cons_ne (a := ',') hdc t
                  rw [hss, h6] at hq
                  rw [← (List.cons.inj hq).1] at hb
                  exact hd (List.cons.inj hb).1
              simp [he]
    · by_cases hcc : c = ','
      · subst hcc
        have : sq (',' :: s) = ',' :: sq s := by simp [sq]
        rw [this, splitChar_cons_eq, splitChar_cons_eq]
        exact .cons rfl ih
      · have : sq (c :: s) = c :: sq s := by simp [sq, hc]
        obtain ⟨q, qs, h1, h2⟩ := splitChar_cons_ne (a := ',') hcc s
        obtain ⟨p, ps, h3, h4⟩ := splitChar_cons_ne (a := ',') hcc (sq s)
        rw [this, h2, h4]
        rw [h1, h3] at ih
        obtain ⟨hpq, hrest⟩ := List.forall₂_cons.1 ih
        have hsp : isSpace c = false := by
          cases h : isSpace c with
          | false => rfl
          | true => exact absurd (hs c (by simp) h) hc
        refine .cons ?_ hrest
        rw [rstrip_cons hsp, hpq]
        simp [sq, hc]

/-- the words after the first one, each with a blank before it -/
def blankJoin : List Str → Str
  | [] => []
  | w :: ws => ' ' :: joinWith [' '] (w :: ws)

theorem joinWith_blankJoin (h : Str) (ws : List Str) : joinWith [' '] (h :: ws) = h ++ blankJoin ws := by
  cases ws with
  | nil => simp [joinWith, blankJoin]
  | cons w ws => simp [joinWith, blankJoin]

theorem sq_words (s : Str) (hs : ∀ c ∈ s, isSpace c = true → c = ' ') :
    ∃ h t, splitOnP isSpace s = h :: t ∧ sq s = h ++ blankJoin (t.filter fun w => !w.isEmpty) := by
  induction s with
  | nil => exact ⟨[], [], rfl, rfl⟩
  | cons c s ih =>
    obtain ⟨h, t, h1, h2⟩ := ih fun x hx => hs x (by simp [hx])
    by_cases hc : isSpace c = true
    · have := hs c (by simp) hc
      subst this
      refine ⟨[], h :: t, by simp [splitOnP, h1, hc], ?_⟩
      have hsq : sq (' ' :: s) = match sq s with | [] => [] | d :: t => if d = ' ' then d :: t else ' ' :: d :: t := rfl
      rw [hsq, h2]
      cases h with
      | nil =>
        simp only [List.nil_append, List.filter_cons, List.isEmpty_nil, Bool.not_true, Bool.false_eq_true, if_false]
        cases t.filter fun w => !w.isEmpty with
        | nil => rfl
        | cons w ws => rfl
      | cons d h' =>
        have hd : d ≠ ' ' := by
          rintro rfl
          have := splitOnP_sepfree (p := isSpace) (s := s) (w := ' ' :: h') (by rw [h1]; simp) ' ' (by simp)
          cases this
        simp only [List.nil_append, List.cons_append, if_neg hd, List.filter_cons, List.isEmpty_cons, Bool.not_false, if_true]
        show _ = ' ' :: joinWith [' '] _
        rw [joinWith_blankJoin]
        rfl
    · have hc' : c ≠ ' ' := by rintro rfl; exact hc rfl
      refine ⟨c :: h, t, by simp [splitOnP, h1, hc], ?_⟩
      simp [sq, hc', h2]

theorem squash_eq (s : Str) (hs : ∀ c ∈ s, isSpace c = true → c = ' ') : squash s = lstrip (sq s) := by
  obtain ⟨h, t, h1, h2⟩ := sq_words s hs
  have hw : ∀ w ∈ splitWs s, w ≠ [] ∧ ∀ c ∈ w, isSpace c = false := by
    intro w hw
    have := List.mem_filter.1 hw
    exact ⟨by simpa using this.2, splitOnP_sepfree this.1⟩
  have hok : ∀ ws : List Str, (∀ w ∈ ws, w ≠ [] ∧ ∀ c ∈ w, isSpace c = false) → headOk (joinWith [' '] ws) := by
    intro ws hws
    cases ws with
    | nil => intro c hc; cases hc
    | cons w ws =>
      rw [joinWith_blankJoin]
      cases w with
      | nil => exact absurd rfl (hws [] (by simp)).1
      | cons d w =>
        intro c hc
        simp at hc
        subst hc
        exact (hws (d :: w) (by simp)).2 d (by simp)
  unfold squash
  have hsw : splitWs s = (if h = [] then [] else [h]) ++ t.filter fun w => !w.isEmpty := by
    unfold splitWs
    rw [h1, List.filter_cons]
    cases h <;> simp
  cases h with
  | nil =>
    simp only [if_true, List.nil_append] at hsw
    rw [h2, List.nil_append, ← hsw]
    have := hok (splitWs s) hw
    cases hsp : splitWs s with
    | nil => rfl
    | cons w ws =>
      rw [hsp] at this
      show _ = lstrip (' ' :: joinWith [' '] (w :: ws))
      have h3 : lstrip (' ' :: joinWith [' '] (w :: ws)) = lstrip (joinWith [' '] (w :: ws)) := rfl
      rw [h3, lstrip_of_headOk this]
  | cons d h =>
    have h3 := hok (splitWs s) hw
    rw [hsw] at h3 ⊢
    simp only [List.cons_ne_nil, if_false, List.singleton_append] at h3 ⊢
    rw [joinWith_blankJoin] at h3 ⊢
    rw [h2, lstrip_of_headOk h3]

/-- The pieces of the squashed text are the squashed pieces, up to blanks around them. -/
theorem splitChar_squash (s : Str) (hs : ∀ c ∈ s, isSpace c = true → c = ' ') :
    (splitChar ',' (squash s)).map strip = (splitChar ',' s).map squash := by
  have hf := forall2_splitChar s hs
  have hpq : (splitChar ',' (sq s)).map strip = (splitChar ',' s).map squash := by
    have hq : ∀ q ∈ splitChar ',' s, ∀ c ∈ q, isSpace c = true → c = ' ' := fun q hq c hc => hs c (mem_splitChar hq hc).1
    generalize splitChar ',' s = qs at hf hq
    generalize splitChar ',' (sq s) = ps at hf
    induction hf with
    | nil => rfl
    | @cons p q ps qs h1 _ ih =>
      rw [List.map_cons, List.map_cons, ih fun x hx => hq x (by simp [hx])]
      congr 1
      rw [squash_eq q (hq q (by simp)), ← h1]
      obtain ⟨b, hb, hsb⟩ := rstrip_decomp p
      have h2 := strip_surround_eq (a := []) (s := rstrip p) (b := b) (by simp) hsb
      rw [List.nil_append, ← hb] at h2
      rw [h2]
      unfold strip
      obtain ⟨b', hb', hsb'⟩ := lstrip_decomp (rstrip p)
      have he : endOk (lstrip (rstrip p)) := by
        intro c hc
        apply endOk_rstrip p c
        rw [hb', List.getLast?_append, hc]; rfl
      rw [rstrip_of_endOk he]
  rw [← hpq, squash_eq s hs]
  -- leading blanks only touch the first piece
  obtain ⟨b, hb, hsb⟩ := lstrip_decomp (sq s)
  have hmem : ∀ c ∈ sq s, c ∈ s := by
    clear hf hpq hb
    induction s with
    | nil => intro c hc; exact hc
    | cons x s ih =>
      intro c hc
      have ih := ih fun y hy => hs y (by simp [hy])
      unfold sq at hc
      split_ifs at hc with hx
      · subst hx
        cases hss : sq s with
        | nil => rw [hss] at hc; cases hc
        | cons d t =>
          rw [hss] at hc ih
          simp only at hc
          split_ifs at hc with hd
          · exact List.mem_cons_of_mem _ (ih c hc)
          · rcases List.mem_cons.1 hc with rfl | hc
            · simp
            · exact List.mem_cons_of_mem _ (ih c hc)
      · rcases List.mem_cons.1 hc with rfl | hc
        · simp
        · exact List.mem_cons_of_mem _ (ih c hc)
  have hbl : ∀ c ∈ b, c = ' ' := fun c hc => hs c (hmem c (by rw [hb]; simp [hc])) (hsb c hc)
  conv_rhs => rw [hb]
  clear hb hsb
  induction b with
  | nil => rfl
  | cons x b ih =>
    rw [hbl x (by simp), List.cons_append]
    obtain ⟨p, ps, h1, h2⟩ := splitChar_cons_ne (a := ',') (c := ' ') (by decide) (b ++ lstrip (sq s))
    have ih := ih fun c hc => hbl c (by simp [hc])
    rw [h2, ih, h1, List.map_cons, List.map_cons]
    rfl

end X4
