import Verif.Lemmas.Kept
import Verif.Lemmas.Case
import Verif.Props.Nuclei
import Verif.Props.TextFields
/-! Property C113: reading a code neither invents characters nor changes their order. -/
namespace X4
open Parser
open scoped List

/-! ### tools -/

theorem isSeparator_toUpper (c : Char) : isSeparator c.toUpper = isSeparator c := by
  rcases toUpper_cases c with ⟨h1, h2, h3⟩ | ⟨_, h⟩
  · have key : ∀ n, n < 123 → 65 ≤ n → n ≠ 91 → (n < 91 ∨ 97 ≤ n) → isSeparator (Char.ofNat n) = false := by decide
    have a := key c.toNat (by omega) (by omega) (by omega) (by omega)
    have b := key c.toUpper.toNat (by omega) (by omega) (by omega) (by omega)
    rw [Char.ofNat_toNat] at a b
    rw [a, b]
  · rw [h]

theorem contentUpper_eq (s : Str) : contentUpper s = content (upper s) := by
  induction s with
  | nil => rfl
  | cons c s ih =>
    simp only [contentUpper, content, upper, List.map_cons, List.filter_cons, isSeparator_toUpper] at ih ⊢
    split
    · rw [List.map_cons, ih]
    · exact ih

theorem contentUpper_title (s : Str) : contentUpper (title s) = contentUpper s := by
  rw [contentUpper_eq, contentUpper_eq, (C67_case_only s).1]

theorem content_append (a b : Str) : content (a ++ b) = content a ++ content b := List.filter_append ..
theorem rxContent_append (a b : Str) : rxContent (a ++ b) = rxContent a ++ rxContent b := List.filter_append ..

theorem contentUpper_append (a b : Str) : contentUpper (a ++ b) = contentUpper a ++ contentUpper b := by
  simp [contentUpper, content_append]

theorem contentUpper_sub {a b : Str} (h : content a <+ content b) : contentUpper a <+ contentUpper b := h.map _
theorem contentUpper_pre {a b : Str} (h : content a <+: content b) : contentUpper a <+: contentUpper b := h.map _

theorem strToks_flat : ∀ {l : List Tok} {ss : List Str}, strToks l = some ss → ss.flatten = flatStr l
  | [], _, h => by cases h; rfl
  | .str s :: r, _, h => by
    simp only [strToks, Option.map_eq_some_iff] at h
    obtain ⟨ss, h1, rfl⟩ := h
    simp [flatStr, tokFlat, strToks_flat h1]
  | .grp _ :: _, _, h => by cases h

theorem flatStr_tokSeq : ∀ t : Tok, flatStr (tokSeq t) = tokFlat t
  | .grp ts => rfl
  | .str s => by
    simp only [tokSeq, tokFlat]
    induction s with
    | nil => rfl
    | cons c s ih => simp [flatStr, tokFlat, ih]

theorem content_joinWith_blank : ∀ l : List Str, content (joinWith [' '] l) = content l.flatten
  | [] => rfl
  | [x] => by simp [joinWith]
  | x :: y :: l => by
    have := content_joinWith_blank (y :: l)
    simp only [joinWith, List.append_assoc, content_append, this]
    simp only [List.flatten_cons, content_append]
    rfl

theorem content_joinStrToks {l : List Tok} {s : Str} (h : joinStrToks [' '] l = .ok s) : content s = content (flatStr l) := by
  unfold joinStrToks at h
  split at h
  · cases h
  · rename_i ss hs
    rw [← Except.ok.inj h, content_joinWith_blank, strToks_flat hs]

theorem tokTexts_flat (l : List Tok) : (tokTexts l).flatten = flatStr l := by
  induction l with
  | nil => rfl
  | cons t l ih => simp only [tokTexts, List.map_cons, List.flatten_cons, flatStr] at ih ⊢; rw [ih]

theorem mapE_sublist {α β : Type} {f : α → Except PyErr β} {g : β → Str} {k : α → Str}
    (hf : ∀ x y, f x = .ok y → g y <+ k x) : ∀ {l : List α} {r : List β}, mapE f l = .ok r → r.flatMap g <+ l.flatMap k
  | [], _, h => by cases h; simp
  | x :: l, _, h => by
    simp only [mapE] at h
    split at h
    · cases h
    · rename_i y hy
      split at h
      · cases h
      · rename_i ys hys
        rw [← Except.ok.inj h]
        simp only [List.flatMap_cons]
        exact (hf x y hy).append (mapE_sublist hf hys)

theorem content_flatMap {α : Type} (g : α → Str) (l : List α) : content (l.flatMap g) = l.flatMap fun x => content (g x) := by
  induction l with
  | nil => rfl
  | cons x l ih => simp [content_append, ih]

theorem contentUpper_flatMap {α : Type} (g : α → Str) (l : List α) :
    contentUpper (l.flatMap g) = l.flatMap fun x => contentUpper (g x) := by
  induction l with
  | nil => rfl
  | cons x l ih => simp [contentUpper_append, ih]

theorem flatStr_flatMap (l : List Tok) : flatStr l = l.flatMap tokFlat := by
  induction l with
  | nil => rfl
  | cons t l ih => simp [flatStr, ih]

/-! ### authors -/

theorem content_parse {p : Parser} (hp : Keeps isSeparator p) {s : Str} {ts : List Tok} (h : parseString p s = .ok ts) :
    content (flatStr ts) <+: content s := parseString_keeps losesSeparators hp h

theorem authorTokens_content {t : Str} {ts : List Tok} (h : authorTokens t = .ok ts) : content (flatStr ts) <+: content t := by
  unfold authorTokens at h
  split at h
  · rename_i tt h1
    rw [← Except.ok.inj h]
    exact content_parse (keeps_pRefCode losesSeparators _) h1
  · refine (content_parse (keeps_pRefCode losesSeparators _) h).trans ?_
    rw [content_append]
    have e : content [')'] = [] := rfl
    rw [e, List.append_nil]
    exact (List.takeWhile_prefix _).filter _

/-- C113: for every text, the author names consist of the characters the text begins with (separators and the case of
letters aside). -/
theorem C113_authors (t : Str) (names : List Str) (h : authorsOfText t = .ok names) :
    contentUpper names.flatten <+: contentUpper t := by
  unfold authorsOfText at h
  split at h
  · cases h
  · cases h
  · rename_i x more h1
    split at h
    · cases h
    · rename_i s hs
      split at h
      · cases h
      · rename_i ts h2
        rw [← Except.ok.inj h]
        have e1 : contentUpper ((tokTexts ts).map title).flatten = contentUpper (flatStr ts) := by
          rw [← tokTexts_flat]
          generalize tokTexts ts = l
          induction l with
          | nil => rfl
          | cons a l ih => simp [contentUpper_append, contentUpper_title, ih]
        rw [e1]
        apply contentUpper_pre
        refine (content_parse (keeps_pCommaList losesSeparators) h2).trans ?_
        rw [content_joinStrToks hs, flatStr_tokSeq]
        refine List.IsPrefix.trans ?_ (authorTokens_content h1)
        rw [flatStr, content_append]
        exact List.prefix_append _ _

/-! ### institutes -/

/-- what an institute takes from the text: the code and the comment -/
def instTexts (x : Str × Str × Str) : Str := x.1 ++ x.2.2

theorem instituteOf_content {I : Dict Str (List Str)} {i : Tok} {x : Str × Str × Str} (h : instituteOf I i = .ok x) :
    contentUpper (instTexts x) <+ contentUpper (tokFlat i) := by
  unfold instituteOf at h
  split at h
  · cases h
  · rename_i code more hi
    split at h
    · cases h
    · rename_i tok toks hc
      simp only at h
      split at h
      · cases h
      · rename_i c hj
        have key : ∀ nm : Str, contentUpper (instTexts (tokFlat tok, nm, title c)) <+ contentUpper (tokFlat i) := by
          intro nm
          simp only [instTexts]
          rw [contentUpper_append, contentUpper_title, ← flatStr_tokSeq i, hi, flatStr, contentUpper_append]
          refine List.Sublist.append ?_ ?_
          · rw [← flatStr_tokSeq code, hc, flatStr, contentUpper_append]
            exact List.sublist_append_left _ _
          · have := content_joinStrToks hj
            simp only [contentUpper, this]
            exact List.Sublist.refl _
        split at h
        · rw [← Except.ok.inj h]; exact key _
        · split at h
          · cases h
          · rw [← Except.ok.inj h]; exact key _

/-- C113: for every text and every dictionary of institutes, the codes and comments of the institutes consist of
characters of the text in their order (separators and the case of letters aside). -/
theorem C113_institutes (I : Dict Str (List Str)) (s : Str) (l : List (Str × Str × Str)) (h : institutesOfText I s = .ok l) :
    contentUpper (l.flatMap fun x => x.1 ++ x.2.2) <+ contentUpper s := by
  unfold institutesOfText at h
  split at h
  · cases h
  · rename_i il h1
    have e := mapE_sublist (g := fun x => contentUpper (instTexts x)) (k := fun i => contentUpper (tokFlat i))
      (fun x y hxy => instituteOf_content hxy) h
    rw [contentUpper_flatMap]
    refine e.trans ?_
    rw [← contentUpper_flatMap, ← flatStr_flatMap]
    exact (contentUpper_pre (content_parse (keeps_pTextField losesSeparators) h1)).sublist

/-! ### references -/

/-- what a reference takes from the text: of a code of two items the second one is both name and date -/
def refTexts (r : RefCode) : Str :=
  if r.details = [] ∧ r.name = r.date then r.reftype ++ r.name else r.reftype ++ r.name ++ r.details.flatten ++ r.date

theorem refCodeOfList_texts {D : Dict Str (Dict Str (List Str))} {l : List Str} {r : RefCode} (h : refCodeOfList D l = .ok r) :
    refTexts r <+ l.flatten := by
  unfold refCodeOfList at h
  split at h
  · cases h
  · rename_i a ha
    split at h
    · cases h
    · rename_i b hb
      split at h
      · cases h
      · rename_i d hd
        split at h
        · cases h
        · split at h
          · cases h
          · have e := Except.ok.inj h
            subst e
            match l, ha, hb, hd with
            | [], ha, _, _ => cases ha
            | [_], _, hb, _ => cases hb
            | [x, y], ha, hb, hd =>
              cases ha; cases hb; cases hd
              simp [refTexts, detailsOf, slice]
            | x :: y :: z :: w, ha, hb, hd =>
              cases ha; cases hb
              have hd' : (a :: b :: z :: w)[w.length + 2]? = some d := by
                have : pyIdx (a :: b :: z :: w) (w.length + 2) = .ok d := hd
                unfold pyIdx at this
                split at this
                · rename_i v hv
                  rw [hv, Except.ok.inj this]
                · cases this
              have hl : z :: w = (z :: w).dropLast ++ [d] := by
                have h1 : (z :: w).getLast? = some d := by
                  rw [List.getLast?_eq_getElem?]
                  simpa using hd'
                exact (List.dropLast_append_getLast? d h1).symm
              have hdet : detailsOf (a :: b :: z :: w) = (z :: w).dropLast := by
                simp only [detailsOf, slice, List.length_cons, List.dropLast_eq_take]
                simp [List.take_succ_cons]
              have hfl : (a :: b :: z :: w).flatten = a ++ b ++ (z :: w).dropLast.flatten ++ d := by
                rw [List.flatten_cons, List.flatten_cons, hl]
                simp [List.flatten_append]
              simp only [refTexts, hdet, hfl]
              split
              · simp only [List.append_assoc]
                exact (List.Sublist.refl a).append (List.sublist_append_left _ _)
              · exact List.Sublist.refl _

theorem parens_content {t : Tok} {s : Str} (h : parens t = .ok s) : content s <+ content (tokFlat t) := by
  cases t with
  | str x => rw [← Except.ok.inj h]; exact List.Sublist.refl _
  | grp ts =>
    match ts, h with
    | [], h => cases h
    | .str x :: r, h =>
      rw [← Except.ok.inj h]
      simp only [tokFlat, flatStr, content_append]
      have e1 : content ['('] = [] := rfl
      have e2 : content [')'] = [] := rfl
      rw [e1, e2, List.nil_append, List.append_nil]
      exact List.sublist_append_left _ _
    | .grp _ :: _, h => cases h

theorem flattenRef_content {l : List Tok} {t : Tok} (h : flattenRef l = .ok t) : content (tokFlat t) <+ content (flatStr l) := by
  have key : ∀ {l : List Tok}, (match mapE parens l with
      | .error e => (Except.error e : Except PyErr Tok)
      | .ok ss => .ok (.str ss.flatten)) = .ok t → content (tokFlat t) <+ content (flatStr l) := by
    intro l h
    split at h
    · cases h
    · rename_i ss hs
      rw [← Except.ok.inj h]
      have e := mapE_sublist (g := fun s => content s) (k := fun i => content (tokFlat i)) (fun x y hxy => parens_content hxy) hs
      rw [← content_flatMap, ← content_flatMap, ← flatStr_flatMap] at e
      simpa [tokFlat, List.flatMap_id'] using e
  match l, h with
  | [], h => exact key h
  | [x], h =>
    rw [← Except.ok.inj h]
    simp [flatStr]
  | _ :: _ :: _, h => exact key h

theorem refOfTok_content {D : Dict Str (Dict Str (List Str))} {x : Tok} {r : RefCode} (h : refOfTok D x = .ok r) :
    content (refTexts r) <+ content (tokFlat x) := by
  have h' : (match flattenRef (tokSeq x) with
    | .error e => (Except.error e : Except PyErr RefCode)
    | .ok t => refCodeOf D t) = .ok r := by
    unfold refOfTok refReraise at h
    split at h <;> first | cases h | exact h
  split at h'
  · cases h'
  · rename_i t ht
    have e := flattenRef_content ht
    rw [flatStr_tokSeq] at e
    refine List.Sublist.trans ?_ e
    cases t with
    | grp _ => cases h'
    | str s =>
      simp only [refCodeOf] at h'
      split at h'
      · cases h'
      · rename_i ts hts
        have e2 := refCodeOfList_texts h'
        rw [tokTexts_flat] at e2
        exact (e2.filter _).trans (content_parse (keeps_pCommaList losesSeparators) hts).sublist

/-- C113: for every text and all dictionaries, the references read from it (type, name, details and date of each) consist
of characters of the text in their order. -/
theorem C113_references (D : Dict Str (Dict Str (List Str))) (b : Bool) (xx : Str) (refs : List RefCode)
    (h : referencesOf D b xx = .ok refs) : content (refs.flatMap refTexts) <+ content xx := by
  unfold referencesOf at h
  split at h
  · split at h
    · cases h
    · rename_i xref hx
      have e := mapE_sublist (g := fun r => content (refTexts r)) (k := fun i => content (tokFlat i))
        (fun x y hxy => refOfTok_content hxy) h
      rw [← content_flatMap, ← content_flatMap] at e
      refine e.trans (List.Sublist.trans ?_ (content_parse (keeps_pRefTautology losesSeparators _) hx).sublist)
      rw [flatStr_flatMap]
      refine List.Sublist.filter _ ?_
      exact List.Sublist.flatMap (List.filter_sublist.trans (List.dropLast_sublist _)) _
  · split at h
    · cases h
    · rename_i xref hx
      split at h
      · cases h
      · rename_i t more
        split at h
        · cases h
        · rename_i r hr
          rw [← Except.ok.inj h]
          have e := refOfTok_content hr
          simp only [List.flatMap_cons, List.flatMap_nil, List.append_nil]
          refine e.trans (List.Sublist.trans ?_ (content_parse (keeps_pRefCode losesSeparators _) hx).sublist)
          rw [flatStr, content_append]
          exact List.sublist_append_left _ _

/-! ### reactions -/

/-- every result of `p` has the property -/
def Results (p : Parser) (P : List Tok → Prop) : Prop := ∀ s t r, p.impl s = some (t, r) → P t

theorem Results.mono {p : Parser} {P Q : List Tok → Prop} (h : Results p P) (hq : ∀ t, P t → Q t) : Results p Q :=
  fun s t r e => hq t (h s t r e)

theorem results_lit (m : Str) (ws : Bool) : Results (lit m ws) (· = [.str m]) := by
  intro s t r h
  simp only [lit] at h
  split at h
  · exact (Prod.mk.inj (Option.some.inj h)).1.symm
  · cases h

theorem Results.first {a b : Parser} {P : List Tok → Prop} (ha : Results a P) (hb : Results b P) : Results (Parser.first a b) P := by
  intro s t r h
  simp only [Parser.first] at h
  split at h
  · rename_i m h1
    exact ha _ _ _ (h1.trans h)
  · exact hb _ _ _ h

theorem Results.and {a b : Parser} {P Q : List Tok → Prop} (ha : Results a P) (hb : Results b Q) :
    Results (Parser.and a b) fun t => ∃ t1 t2, P t1 ∧ Q t2 ∧ t = t1 ++ t2 := by
  intro s t r h
  simp only [Parser.and] at h
  split at h
  · cases h
  · rename_i t1 r1 h1
    split at h
    · cases h
    · rename_i t2 r2 h2
      exact ⟨t1, t2, ha _ _ _ h1, hb _ _ _ h2, (Prod.mk.inj (Option.some.inj h)).1.symm⟩

theorem results_any (p : Parser) : Results p fun _ => True := fun _ _ _ _ => trivial

theorem results_group (p : Parser) : Results (group p) fun t => ∃ ts, t = [.grp ts] := by
  intro s t r h
  simp only [Parser.group] at h
  split at h
  · cases h
  · rename_i t1 r1 h1
    exact ⟨t1, (Prod.mk.inj (Option.some.inj h)).1.symm⟩

theorem manyLoop_ops {p : Parser} (hp : Results p (·.any isOpTok = true)) : ∀ (n : Nat) (acc : List Tok) (s : Str),
    acc.any isOpTok = true → (manyLoop p n acc s).1.any isOpTok = true
  | 0, _, _, h => h
  | n + 1, acc, s, h => by
    simp only [manyLoop]
    split
    · exact h
    · exact manyLoop_ops hp n _ _ (by rw [List.any_append, h, Bool.true_or])

theorem Results.manyOps {p : Parser} (hp : Results p (·.any isOpTok = true)) :
    Results (many p) fun t => t = [] ∨ t.any isOpTok = true := by
  intro s t r h
  simp only [Parser.many, Parser.many1] at h
  cases h1 : p.parse false s with
  | none =>
    rw [h1] at h
    exact .inl (Prod.mk.inj (Option.some.inj h)).1.symm
  | some m =>
    rw [h1] at h
    have e := Option.some.inj h
    have := manyLoop_ops hp (m.2.length + 1) m.1 m.2 (hp _ _ _ h1)
    right
    rw [e] at this
    exact this

/-- a single reaction, or something with an operator in it -/
def OneReaction (t : List Tok) : Prop := (∃ ts, t = [.grp ts]) ∨ t.any isOpTok = true

theorem OneReaction.append {t u : List Tok} (ht : OneReaction t) (hu : u = [] ∨ u.any isOpTok = true) : OneReaction (t ++ u) := by
  rcases hu with rfl | hu
  · rwa [List.append_nil]
  · right; rw [List.any_append, hu, Bool.or_true]

theorem results_expression : ∀ n, Results (pExpression n) OneReaction
  | 0 => by intro s t r h; simp [pExpression] at h
  | n + 1 => by
    have factor : Results (first (group pReaction) (Parser.and (Parser.and (lit ['(']) (pExpression n)) (lit [')']))) OneReaction :=
      ((results_group _).mono fun t h => .inl h).first
        ((((results_lit ['('] _).and (results_any _)).and (results_any _)).mono fun t h => by
          obtain ⟨_, t2, ⟨_, t3, rfl, _, rfl⟩, _, rfl⟩ := h
          right; simp [isOpTok, combOps])
    have mult : Results pAltmultop (·.any isOpTok = true) :=
      ((((results_lit ['*'] _).mono fun t h => by subst h; rfl).first ((results_lit ['/', '/'] _).mono fun t h => by subst h; rfl)).first
        ((results_lit ['/'] _).mono fun t h => by subst h; rfl)).first ((results_lit ['='] _).mono fun t h => by subst h; rfl)
    have add : Results pAddop (·.any isOpTok = true) :=
      ((results_lit ['+'] _).mono fun t h => by subst h; rfl).first ((results_lit ['-'] _).mono fun t h => by subst h; rfl)
    have more : ∀ {a b : Parser}, Results a (·.any isOpTok = true) → Results (Parser.and a b) (·.any isOpTok = true) := by
      intro a b ha
      refine (ha.and (results_any b)).mono ?_
      rintro t ⟨t1, t2, h1, _, rfl⟩
      rw [List.any_append, h1, Bool.true_or]
    have ext : ∀ {a b : Parser}, Results a OneReaction → Results b (·.any isOpTok = true) →
        Results (Parser.and a (many b)) OneReaction := by
      intro a b ha hb
      refine (ha.and hb.manyOps).mono ?_
      rintro t ⟨t1, t2, h1, h2, rfl⟩
      exact h1.append h2
    have term := ext factor (more (b := first (group pReaction) (Parser.and (Parser.and (lit ['(']) (pExpression n)) (lit [')']))) mult)
    intro s t r h
    exact ext term (more add) s t r h

/-- the tokens of a REACTION text: those of the code, and the free text up to the end of the line -/
theorem reactionField_parts {d : Str} {f : List Tok} (h : parseString (pReactionField (d.length + 1)) d = .ok f) :
    ∃ ts free rest, f = ts ++ [.str free] ∧ OneReaction ts ∧ (rest = [] ∨ rest.head? = some '\n') ∧
      rxContent d = rxContent (flatStr ts) ++ rxContent free ++ rxContent rest := by
  unfold parseString at h
  split at h
  · cases h
  · rename_i t r h1
    have e := Except.ok.inj h
    subst e
    have hk := (keeps_pReactionField losesRxSeparators (d.length + 1)).parse losesRxSeparators.white h1
    rw [keepOf_expandTabs losesRxSeparators.space] at hk
    unfold Parser.parse at h1
    simp only [pReactionField, Parser.and] at h1
    split at h1
    · cases h1
    · rename_i t1 r1 he
      split at h1
      · cases h1
      · rename_i t2 r2 h2
        have e2 : ([.str (r1.takeWhile (· != '\n'))], r1.dropWhile (· != '\n')) = (t2, r2) := Option.some.inj h2
        obtain ⟨rfl, rfl⟩ := Prod.mk.inj e2
        obtain ⟨rfl, rfl⟩ := Prod.mk.inj (Option.some.inj h1)
        refine ⟨t1, r1.takeWhile (· != '\n'), r1.dropWhile (· != '\n'), rfl, results_expression _ _ _ _ he, ?_, ?_⟩
        · cases hd : r1.dropWhile (· != '\n') with
          | nil => exact .inl rfl
          | cons c cs =>
            right
            have := List.head?_dropWhile_not (· != '\n') r1
            rw [hd] at this
            simpa using this
        · rw [flatStr_app] at hk
          simpa [rxContent, flatStr, tokFlat, keepOf] using hk


theorem isRxSeparator_toUpper (c : Char) : isRxSeparator c.toUpper = isRxSeparator c := by
  unfold isRxSeparator
  rw [isSeparator_toUpper]
  have h1 : (c.toUpper == '-') = (c == '-') := by
    rw [Bool.eq_iff_iff, beq_iff_eq, beq_iff_eq]; exact toUpper_eq_iff (by decide)
  have h2 : (c.toUpper == '+') = (c == '+') := by
    rw [Bool.eq_iff_iff, beq_iff_eq, beq_iff_eq]; exact toUpper_eq_iff (by decide)
  rw [h1, h2]

theorem rxContent_upper (s : Str) : rxContent (upper s) = upper (rxContent s) := by
  induction s with
  | nil => rfl
  | cons c s ih =>
    simp only [rxContent, upper, List.map_cons, List.filter_cons, isRxSeparator_toUpper] at ih ⊢
    split
    · rw [List.map_cons, ih]
    · exact ih

/-- capitals of a reaction text without its separators -/
def rxUpper (s : Str) : Str := rxContent (upper s)

theorem rxUpper_append (a b : Str) : rxUpper (a ++ b) = rxUpper a ++ rxUpper b := by
  simp [rxUpper, upper, rxContent_append]

theorem rxUpper_upper (s : Str) : rxUpper (upper s) = rxUpper s := by rw [rxUpper, upper_upper, rxUpper]
theorem rxUpper_lower (s : Str) : rxUpper (lower s) = rxUpper s := by rw [rxUpper, upper_lower, rxUpper]

theorem rxUpper_sub {a b : Str} (h : a <+ b) : rxUpper a <+ rxUpper b := (h.map _).filter _

theorem rxUpper_flatMap {α : Type} (g : α → Str) (l : List α) : rxUpper (l.flatMap g) = l.flatMap fun x => rxUpper (g x) := by
  induction l with
  | nil => rfl
  | cons x l ih => simp [rxUpper_append, ih]

/-- the texts by which a particle is known: symbol, charge number and mass number of a nucleus, symbol of a particle, code of a
compound -/
def Particle.nameText : Particle → Str
  | .particle _ sym _ _ => sym
  | .nucleus Z sym A | .element Z sym A | .isomer Z sym A _ => Z ++ sym ++ A
  | .variable sym => sym
  | .compound _ _ code => code
/-- the same for a product; a channel is known by its code -/
def Product.nameText : Product → Str
  | .chan s => s
  | .part p => p.nameText

theorem multSym_sub {l : List Str} {ms : Mult × Str} (h : multSym l = .ok ms) : ms.2 <+ l.flatten := by
  match l, h with
  | [], h => cases h
  | [[]], h => cases h
  | [c :: r], h =>
    simp only [multSym] at h
    split at h
    · rw [← Except.ok.inj h]; simp
    · rw [← Except.ok.inj h]; simp
  | x :: y :: r, h =>
    simp only [multSym] at h
    split at h
    · cases h
    · rw [← Except.ok.inj h]
      simp only [List.flatten_cons]
      exact (List.sublist_append_left _ _).trans (List.sublist_append_right _ _)

theorem lookupParticle_name {ms : Mult × Str} {p : Particle} (h : lookupParticle ms = .ok p) : p.nameText = ms.2 := by
  unfold lookupParticle at h
  split at h
  · cases h
  · split at h
    · cases h
    · rw [← Except.ok.inj h]; rfl

theorem rxContent_parse {p : Parser} (hp : Keeps isRxSeparator p) {s : Str} {ts : List Tok} (h : parseString p s = .ok ts) :
    rxContent (flatStr ts) <+: rxContent s := parseString_keeps losesRxSeparators.toLosesSeparators hp h

theorem rxUpper_parse {p : Parser} (hp : Keeps isRxSeparator p) {s : Str} {ts : List Tok} (h : parseString p s = .ok ts) :
    rxUpper (flatStr ts) <+ rxUpper s := by
  unfold rxUpper
  rw [rxContent_upper, rxContent_upper]
  exact (rxContent_parse hp h).sublist.map _

theorem particleOfStr_name {x : Str} {p : Particle} (h : particleOfStr x = .ok p) : rxUpper p.nameText <+ rxUpper x := by
  unfold particleOfStr at h
  split at h
  · rename_i hx
    rw [← Except.ok.inj h, hx]
    exact List.Sublist.refl _
  · split at h
    · cases h
    · rename_i l hl
      split at h
      · cases h
      · rename_i ms hm
        rw [lookupParticle_name h]
        unfold parseParticle at hl
        split at hl
        · cases hl
        · rename_i ts hts
          split at hl
          · cases hl
          · rename_i l' hl'
            have e := Except.ok.inj hl
            subst e
            have h1 := rxUpper_sub (multSym_sub hm)
            rw [strToks_flat hl'] at h1
            have h2 := rxUpper_parse (keeps_pParticle losesRxSeparators) hts
            rw [rxUpper_upper] at h2
            exact h1.trans h2

theorem particleOfToks_name {x : List Str} {p : Particle} (h : particleOfToks x = .ok p) : rxUpper p.nameText <+ rxUpper x.flatten := by
  unfold particleOfToks at h
  split at h
  · cases h
  · rename_i ms hm
    rw [lookupParticle_name h]
    have h1 := rxUpper_sub (multSym_sub hm)
    have e : (x.map lower).flatten = lower x.flatten := by
      unfold lower
      rw [List.map_flatten]
    rw [e, rxUpper_lower] at h1
    exact h1

theorem compoundOfStr_name {x : Str} {p : Particle} (h : compoundOfStr x = .ok p) : rxUpper p.nameText <+ rxUpper x := by
  unfold compoundOfStr at h
  split at h
  · cases h
  · rename_i ts hts
    split at h
    · cases h
    · rename_i l hl
      split at h
      · cases h
      · rename_i code more
        have key : rxUpper code <+ rxUpper x := by
          refine List.Sublist.trans ?_ (rxUpper_parse (keeps_pCompound losesRxSeparators) hts)
          rw [← strToks_flat hl]
          exact rxUpper_sub (by simp)
        split at h
        · split at h
          · cases h
          · rw [← Except.ok.inj h]; exact key
        · cases h

theorem rxUpper_nucleus (z sym a : Str) : rxUpper (z ++ capitalize sym ++ a) = rxUpper (z ++ sym ++ a) := by
  rw [rxUpper_append, rxUpper_append, rxUpper_append, rxUpper_append]
  unfold rxUpper
  rw [upper_capitalize]

theorem setParticleType_name {t : Tok} {p : Particle} (h : setParticleType t = .ok p) : rxUpper p.nameText <+ rxUpper (tokFlat t) := by
  cases t with
  | str s =>
    simp only [setParticleType] at h
    split at h
    · rw [← Except.ok.inj h]; exact List.Sublist.refl _
    · exact particleOfStr_name h
  | grp ts =>
    simp only [setParticleType] at h
    split at h
    · cases h
    · rename_i il hil
      have e := strToks_flat hil
      simp only [tokFlat]
      rw [← e]
      split at h
      · rename_i z sym a
        split at h
        · split at h
          all_goals
            rw [← Except.ok.inj h]
            show rxUpper (z ++ capitalize sym ++ a) <+ _
            rw [rxUpper_nucleus]
            simp
        · cases h
      · rename_i z sym a rest _
        unfold isomerOfToks at h
        split at h
        · cases h
        · rw [← Except.ok.inj h]
          show rxUpper (z ++ capitalize sym ++ a) <+ _
          rw [rxUpper_nucleus]
          exact rxUpper_sub (by simp)
      · rename_i x
        split at h
        · simpa using compoundOfStr_name h
        · exact particleOfToks_name h
      · exact particleOfToks_name h

theorem setProduct_name {t : Tok} {p : Product} (h : setProduct t = .ok p) : rxUpper p.nameText <+ rxUpper (tokFlat t) := by
  cases t with
  | str s =>
    simp only [setProduct, setProduct.particleOfTok] at h
    split at h
    · rw [← Except.ok.inj h]; exact List.Sublist.refl _
    · split at h
      · cases h
      · rename_i q hq
        rw [← Except.ok.inj h]
        exact setParticleType_name hq
  | grp ts =>
    simp only [setProduct, setProduct.particleOfTok] at h
    split at h
    · cases h
    · rename_i q hq
      rw [← Except.ok.inj h]
      exact setParticleType_name hq

theorem findChannel_mem {products : List Product} : ∀ {l : List Str} {c : Str}, findChannel products l = some c → .chan c ∈ products
  | [], _, h => by cases h
  | x :: l, c, h => by
    simp only [findChannel] at h
    split at h
    · rename_i hm
      rw [← Option.some.inj h]; exact hm
    · exact findChannel_mem h

theorem chooseResidual_sub {Zin Ain Zout Aout : Int} {can : Bool} {products : List Product} {pr : List Product × Option Product}
    (h : chooseResidual Zin Ain Zout Aout can products = .ok pr) : pr.1 <+ products := by
  unfold chooseResidual at h
  split at h
  · split at h
    · cases h
    · rw [← Except.ok.inj h]
      exact List.erase_sublist.trans (List.dropLast_sublist _)
    · rw [← Except.ok.inj h]
      exact List.dropLast_sublist _
  · split at h
    · split at h
      · cases h
      · rw [← Except.ok.inj h]
    · rw [← Except.ok.inj h]

theorem setResidual_sub {targ proj : Particle} {products : List Product} {pr : List Product × Option Product}
    (h : setResidual targ proj products = .ok pr) : pr.1 <+ products := by
  unfold setResidual at h
  split at h
  · cases h
  · split at h
    · rename_i c hc
      rw [← Except.ok.inj h]
      exact List.singleton_sublist.2 (findChannel_mem hc)
    · split at h
      · cases h
      · split at h
        · cases h
        · exact chooseResidual_sub h

/-- the texts by which target, projectile and products of a process are known; the residual is left out, as it may be computed -/
def Process.nameText (p : Process) : Str := p.targ.nameText ++ p.proj.nameText ++ p.products.flatMap Product.nameText

theorem processOfToks_name {names : Dict Str (List Str)} {xl : List Tok} {p : Process} (h : processOfToks names xl = .ok p) :
    rxUpper p.nameText <+ rxUpper (flatStr xl) := by
  unfold processOfToks at h
  split at h
  · rename_i t q prods
    split at h
    · cases h
    · rename_i targ ht
      split at h
      · cases h
      · rename_i proj hq
        split at h
        · cases h
        · rename_i products hp
          split at h
          · cases h
          · rename_i pr hpr
            split at h
            · cases h
            · rw [← Except.ok.inj h]
              simp only [Process.nameText, flatStr, rxUpper_append, List.append_assoc]
              refine (setParticleType_name ht).append ((setParticleType_name hq).append ?_)
              rw [flatStr_flatMap, rxUpper_flatMap, rxUpper_flatMap]
              exact (List.Sublist.flatMap (setResidual_sub hpr) _).trans
                (mapE_sublist (g := fun x => rxUpper x.nameText) (k := fun x => rxUpper (tokFlat x)) (fun x y hxy => setProduct_name hxy) hp)
  · cases h

theorem processOfStr_name {names : Dict Str (List Str)} {x : Str} {p : Process} (h : processOfStr names x = .ok p) :
    rxUpper p.nameText <+ rxUpper x := by
  unfold processOfStr at h
  cases hts : parseString pProcess x with
  | error e => rw [hts] at h; exact nomatch h
  | ok ts =>
    rw [hts] at h
    exact (processOfToks_name h).trans (rxUpper_parse (keeps_pProcess losesRxSeparators) hts)

theorem reactionOfToks_parts {names : Dict Str (List Str)} {t : Tok} {q : List Tok} {r : Reaction}
    (h : reactionOfToks names (t :: q) = .ok r) :
    r.quantity = q ∧ ((∃ s, t = .str s ∧ processOfStr names s = .ok r.proc) ∨ ∃ ts, t = .grp ts ∧ processOfToks names ts = .ok r.proc) := by
  have key : ∀ o : Except PyErr Process, (match o with
      | .error e => (Except.error e : Except PyErr Reaction)
      | .ok p => .ok { proc := p, quantity := q }) = .ok r → r.quantity = q ∧ o = .ok r.proc := by
    intro o ho
    cases o with
    | error e => exact nomatch ho
    | ok p =>
      have e : { proc := p, quantity := q } = r := Except.ok.inj ho
      subst e
      exact ⟨rfl, rfl⟩
  unfold reactionOfToks at h
  generalize processOfStr names = f at h ⊢
  generalize processOfToks names = g at h ⊢
  cases t with
  | str s =>
    obtain ⟨h1, h2⟩ := key (f s) h
    exact ⟨h1, .inl ⟨s, rfl, h2⟩⟩
  | grp ts =>
    obtain ⟨h1, h2⟩ := key (g ts) h
    exact ⟨h1, .inr ⟨ts, rfl, h2⟩⟩

theorem reactionOfToks_name {names : Dict Str (List Str)} {t : Tok} {q : List Tok} {r : Reaction}
    (h : reactionOfToks names (t :: q) = .ok r) : r.quantity = q ∧ rxUpper r.proc.nameText <+ rxUpper (tokFlat t) := by
  obtain ⟨h1, ⟨s, rfl, h2⟩ | ⟨ts, rfl, h2⟩⟩ := reactionOfToks_parts h
  · exact ⟨h1, processOfStr_name h2⟩
  · exact ⟨h1, processOfToks_name h2⟩

/-- C113: for every text that is read as one reaction: the process, the quantities and the free text consist of the
characters of the text up to a line feed, in their order and without any missing (separators aside). -/
theorem C113_reaction (names : Dict Str (List Str)) (d : Str) (r : Reaction) (free : Str)
    (h : reactionFieldText names d = .ok (.rx r, free)) :
    ∃ (proc rest : Str), (rest = [] ∨ rest.head? = some '\n') ∧
      rxContent d = rxContent proc ++ rxContent (flatStr r.quantity) ++ rxContent free ++ rxContent rest ∧
      rxContent (upper r.proc.nameText) <+ rxContent (upper proc) := by
  unfold reactionFieldText at h
  split at h
  · cases h
  · rename_i f hf
    obtain ⟨ts, fr, rest, rfl, hone, hrest, hk⟩ := reactionField_parts hf
    split at h
    · cases h
    · rename_i m hm
      rw [List.getLast?_append, List.getLast?_singleton] at h
      simp only [Option.some_or] at h
      obtain ⟨rfl, rfl⟩ := Prod.mk.inj (Except.ok.inj h)
      rw [List.dropLast_concat] at hm
      have htry : measurementTry names ts = .ok (.rx r) := by
        unfold getMeasurementType at hm
        split at hm
        · split at hm
          · cases hm
          · cases hm
          · cases hm
        · exact hm
      unfold measurementTry at htry
      split at htry
      · split at htry
        · cases htry
        · cases htry
      · rename_i hno
        rcases hone with ⟨g, rfl⟩ | hop
        · simp only at htry
          split at htry
          · cases htry
          · rename_i R hR
            have e : R = r := by
              have := Except.ok.inj htry
              injection this
            subst e
            cases g with
            | nil => cases hR
            | cons t q =>
              obtain ⟨hq, hn⟩ := reactionOfToks_name hR
              refine ⟨tokFlat t, rest, hrest, ?_, hn⟩
              rw [hk, hq]
              simp [flatStr, tokFlat, rxContent_append]
        · exact absurd hop hno

/-- what an element of a combination takes from the text; the reactions made from isomer arithmetic repeat parts of the text and are
left out -/
def Datum.nameText : Datum → Str
  | .op s => s
  | .rx r => r.proc.nameText ++ flatStr r.quantity
  | .iso _ => []

theorem reactionOfToks_text {names : Dict Str (List Str)} {ts : List Tok} {r : Reaction} (h : reactionOfToks names ts = .ok r) :
    rxUpper (Datum.rx r).nameText <+ rxUpper (flatStr ts) := by
  cases ts with
  | nil => exact nomatch h
  | cons t q =>
    obtain ⟨h1, h2⟩ := reactionOfToks_name h
    simp only [Datum.nameText, flatStr, rxUpper_append, h1]
    exact h2.append (List.Sublist.refl _)

theorem reactionOfStr_text {names : Dict Str (List Str)} {s : Str} {r : Reaction} (h : reactionOfStr names s = .ok r) :
    rxUpper (Datum.rx r).nameText <+ rxUpper s := by
  unfold reactionOfStr at h
  cases hts : parseString pReaction s with
  | error e => rw [hts] at h; exact nomatch h
  | ok ts =>
    rw [hts] at h
    exact (reactionOfToks_text h).trans (rxUpper_parse (keeps_pReaction losesRxSeparators) hts)

theorem isoWith_text {comb : List Tok → Except PyErr (List Datum)} {x : List Tok} {d : Datum} (h : isoWith comb x = .ok d) :
    d.nameText = [] := by
  unfold isoWith at h
  generalize repack x = a at h
  cases a with
  | error e => exact nomatch h
  | ok s =>
    simp only at h
    generalize parseExpression s = b at h
    cases b with
    | error e => exact nomatch h
    | ok ts =>
      simp only at h
      split at h
      · exact nomatch h
      · rw [← Except.ok.inj h]; rfl

theorem rxOrIso_text {comb : List Tok → Except PyErr (List Datum)} {o : Except PyErr Reaction} {x : Except PyErr (List Tok)} {d : Datum}
    {s : Str} (ho : ∀ r, o = .ok r → rxUpper (Datum.rx r).nameText <+ rxUpper s) (h : rxOrIso comb o x = .ok d) :
    rxUpper d.nameText <+ rxUpper s := by
  unfold rxOrIso at h
  split at h
  · rename_i r
    rw [← Except.ok.inj h]
    exact ho r rfl
  · split at h
    · exact nomatch h
    · rw [isoWith_text h]
      exact List.nil_sublist _
  · exact nomatch h

theorem datumOf_text {names : Dict Str (List Str)} {comb : List Tok → Except PyErr (List Datum)} {t : Tok} {d : Datum}
    (h : datumOf names comb t = .ok d) : rxUpper d.nameText <+ rxUpper (tokFlat t) := by
  cases t with
  | str s =>
    unfold datumOf at h
    simp only at h
    split at h
    · rw [← Except.ok.inj h]; exact List.Sublist.refl _
    · exact rxOrIso_text (fun r hr => reactionOfStr_text hr) h
  | grp ts =>
    unfold datumOf at h
    exact rxOrIso_text (fun r hr => reactionOfToks_text hr) h

/-- C113: for every text that is read as a combination of reactions: the operators, the particles and quantities of the reactions in
it are characters of the expression in their order (the case of letters and separators aside), and expression and free text are the
text up to the end of a line. -/
theorem C113_combination (names : Dict Str (List Str)) (d : Str) (data : List Datum) (free : Str)
    (h : reactionFieldText names d = .ok (.comb data, free)) :
    ∃ (expr rest : Str), (rest = [] ∨ rest.head? = some '\n') ∧
      rxContent d = rxContent expr ++ rxContent free ++ rxContent rest ∧
      rxContent (upper (data.flatMap Datum.nameText)) <+ rxContent (upper expr) := by
  unfold reactionFieldText at h
  split at h
  · cases h
  · rename_i f hf
    obtain ⟨ts, fr, rest, rfl, hone, hrest, hk⟩ := reactionField_parts hf
    split at h
    · cases h
    · rename_i m hm
      rw [List.getLast?_append, List.getLast?_singleton] at h
      simp only [Option.some_or] at h
      obtain ⟨rfl, rfl⟩ := Prod.mk.inj (Except.ok.inj h)
      rw [List.dropLast_concat] at hm
      have htry : measurementTry names ts = .ok (.comb data) := by
        unfold getMeasurementType at hm
        split at hm
        · split at hm
          · cases hm
          · cases hm
          · cases hm
        · exact hm
      unfold measurementTry at htry
      split at htry
      · split at htry
        · cases htry
        · rename_i D hD
          have e : D = data := by
            have := Except.ok.inj htry
            injection this
          subst e
          refine ⟨flatStr ts, rest, hrest, hk, ?_⟩
          show rxUpper (D.flatMap Datum.nameText) <+ rxUpper (flatStr ts)
          rw [flatStr_flatMap, rxUpper_flatMap, rxUpper_flatMap]
          exact mapE_sublist (g := fun x => rxUpper x.nameText) (k := fun x => rxUpper (tokFlat x)) (fun x y hxy => datumOf_text hxy) hD
      · split at htry
        · cases htry
        · split at htry
          · cases htry
          · cases htry

/-- the separators are removed, the other characters are kept in order -/
example : (match authorsOfText chars!"(A.B.SMITH, J.-P.Jones) text" with | .ok l => contentUpper l.flatten | .error _ => []) =
    chars!"A.B.SMITHJ.-P.JONES" := by decide +kernel

set_option maxRecDepth 20000 in
example : (match institutesOfText [(chars!"1USALAS", [chars!"Los Alamos"])] chars!"(1USALAS) (now at Livermore)" with
    | .ok l => contentUpper (l.flatMap fun x => x.1 ++ x.2.2) | .error _ => []) = chars!"1USALASNOW" := by decide +kernel

set_option maxRecDepth 20000 in
example : (match referencesOf sampleDicts true chars!"((J,PR,120,556,1960)= (R,LA-123(4),1960)) same data" with
    | .ok r => content (r.flatMap refTexts) | .error _ => []) = chars!"JPR1205561960RLA-12341960" := by decide +kernel

/-- the text after the end of the line is the `rest` of C113_reaction -/
example : (match reactionFieldText [] chars!"(92-U-235(N,F),,SIG) free\nmore" with
    | .ok (.rx r, free) => (r.proc.nameText, flatStr r.quantity, free) | _ => ([], [], [])) =
    (chars!"92U235NF", chars!"SIG", chars!"free") := by decide +kernel

example : (match reactionFieldText [] chars!"((92-U-235(N,F),,SIG)/(79-Au-197(N,G)79-AU-198,,SIG)) free\nmore" with
    | .ok (.comb data, free) => (rxContent (data.flatMap Datum.nameText), free) | _ => ([], [])) =
    (chars!"92U235NFSIG/79Au197NGSIG", chars!"free") := by decide +kernel

end X4
