import Verif.Model.TextFields
import Verif.Lemmas.TextGrammar
import Verif.Lemmas.Institutes
import Verif.Lemmas.Case
import Verif.Props.ReactionText
import Verif.Props.Reference
import Verif.Props.Entry
import Verif.Props.Field
import Verif.Props.Dicts
import Verif.Lemmas.Dataset
/-! Authors, references and institutes as read from their texts (C66–C71). -/
namespace X4
open Parser

/-! ### tabs -/

theorem expandTabs_append (n : Nat) (a b : Str) (ha : '\t' ∉ a) : ∃ b', expandTabs n (a ++ b) = a ++ b' := by
  induction a generalizing n with
  | nil => exact ⟨_, rfl⟩
  | cons c a ih =>
    have hc : c ≠ '\t' := by rintro rfl; simp at ha
    obtain ⟨b', hb'⟩ := ih (if c == '\n' || c == '\r' then 0 else n + 1) (by intro h; exact ha (by simp [h]))
    refine ⟨b', ?_⟩
    rw [List.cons_append]
    unfold expandTabs
    rw [if_neg (by simpa using hc), hb']
    rfl

theorem unquoted_no_tab {s : Str} (h : UnquotedText s) : '\t' ∉ s := by
  intro hm
  rcases h _ hm with h | h
  · exact absurd h (by decide)
  · exact absurd h (by decide)

theorem tokTexts_str (l : List Str) : tokTexts (l.map .str) = l := by
  unfold tokTexts
  rw [List.map_map]
  have : (tokFlat ∘ Tok.str) = id := rfl
  rw [this, List.map_id]

theorem strToks_str (l : List Str) : strToks (l.map .str) = some l := by
  induction l with
  | nil => rfl
  | cons s l ih => simp [strToks, ih]

/-- a comma separated list -/
theorem commaList_texts (s : Str) (hs : ∀ c ∈ s, itemChar c = true ∨ c = ' ' ∨ c = ',') :
    ∃ ts, parseString pCommaList s = .ok ts ∧ tokTexts ts = (splitChar ',' s).map strip := by
  obtain ⟨r, hr⟩ := pCommaList_parse s hs
  refine ⟨(splitChar ',' s).map fun q => .str (strip q), ?_, ?_⟩
  · unfold parseString
    have ht : '\t' ∉ s := by
      intro hm
      rcases hs _ hm with h | h | h
      · exact absurd h (by decide)
      · exact absurd h (by decide)
      · exact absurd h (by decide)
    rw [expandTabs_id _ _ ht, hr]
  · have : ((splitChar ',' s).map fun q => Tok.str (strip q)) = ((splitChar ',' s).map strip).map .str := by
      rw [List.map_map]; rfl
    rw [this, tokTexts_str]

theorem plain_item {c : Char} (h : plainChar c = true) : itemChar c = true ∨ c = ',' := by
  simp only [plainChar, itemChar, isCommaItemChar, Bool.and_eq_true, decide_eq_true_eq, bne_iff_ne, ne_eq] at *
  tauto

theorem unquoted_items {s : Str} (h : UnquotedText s) : ∀ c ∈ s, itemChar c = true ∨ c = ' ' ∨ c = ',' := by
  intro c hc
  rcases h c hc with h | h
  · rcases plain_item h with h | h
    · exact .inl h
    · exact .inr (.inr h)
  · exact .inr (.inl h)

theorem unquoted_space {s : Str} (h : UnquotedText s) : ∀ c ∈ s, isSpace c = true → c = ' ' := by
  intro c hc hs
  rcases h c hc with h | h
  · rw [(plain_facts h).2.1] at hs; cases hs
  · exact h

theorem mem_joinWith_sep {sep : Str} {l : List Str} {c : Char} (h : c ∈ joinWith sep l) : c ∈ sep ∨ ∃ w ∈ l, c ∈ w := by
  induction l with
  | nil => cases h
  | cons w l ih =>
    cases l with
    | nil => exact .inr ⟨w, by simp, h⟩
    | cons w' l =>
      simp only [joinWith, List.mem_append] at h
      rcases h with (h | h) | h
      · exact .inr ⟨w, by simp, h⟩
      · exact .inl h
      · rcases ih h with h | ⟨v, hv, hc⟩
        · exact .inl h
        · exact .inr ⟨v, by simp [hv], hc⟩

theorem mem_splitWs {s w : Str} (hw : w ∈ splitWs s) {c : Char} (hc : c ∈ w) : c ∈ s := by
  have hw := (List.mem_filter.1 hw).1
  clear * - hw hc
  induction s generalizing w with
  | nil => simp [splitOnP] at hw; subst hw; cases hc
  | cons x s ih =>
    simp only [splitOnP] at hw
    split_ifs at hw with hx
    · rcases List.mem_cons.1 hw with rfl | hw
      · cases hc
      · exact List.mem_cons_of_mem _ (ih hc hw)
    · split at hw
      · simp at hw; subst hw; simp at hc; simp [hc]
      · rename_i h t heq
        rcases List.mem_cons.1 hw with rfl | hw
        · rcases List.mem_cons.1 hc with rfl | hc
          · simp
          · exact List.mem_cons_of_mem _ (ih hc (by rw [heq]; simp))
        · exact List.mem_cons_of_mem _ (ih hc (by rw [heq]; simp [hw]))

theorem squash_plain {s : Str} (h : UnquotedText s) : UnquotedText (squash s) := by
  intro c hc
  rcases mem_joinWith_sep hc with h1 | ⟨w, hw, hc⟩
  · right; simpa using h1
  · exact h c (mem_splitWs hw hc)

/-! ### authors -/

theorem authorTokens_ok {t : Str} {tt : List Tok} (h : parseString (pRefCode (t.length + 1)) t = .ok tt) : authorTokens t = .ok tt := by
  unfold authorTokens
  rw [h]

theorem refCode_parens {s0 : Str} {l : List (Str × Str)} (h0 : UnquotedText s0) (hl : ∀ x ∈ l, UnquotedText x.1 ∧ UnquotedText x.2) (c : Str) (n : Nat) :
    ∃ c', parseString (pRefCode (n + 2)) ('(' :: (flatParens s0 l ++ ')' :: c)) =
      .ok [.grp ((splitWs s0).map .str ++ l.flatMap fun x => .grp ((splitWs x.1).map .str) :: (splitWs x.2).map .str), .str c'] := by
  have hnt : '\t' ∉ '(' :: (flatParens s0 l ++ [')']) := by
    intro hm
    unfold flatParens at hm
    simp only [List.mem_cons, List.mem_append, List.mem_flatMap] at hm
    rcases hm with hm | (hm | ⟨x, hx, hm | hm | hm | hm⟩) | hm | hm
    · cases hm
    · exact unquoted_no_tab h0 hm
    · cases hm
    · exact unquoted_no_tab (hl x hx).1 hm
    · cases hm
    · exact unquoted_no_tab (hl x hx).2 hm
    · cases hm
    · cases hm
  obtain ⟨c1, hc1⟩ := expandTabs_append 0 _ c hnt
  have he : '(' :: (flatParens s0 l ++ ')' :: c) = '(' :: (flatParens s0 l ++ [')']) ++ c := by simp
  refine ⟨c1.takeWhile (· != '\n'), ?_⟩
  · unfold parseString
    rw [he, hc1]
    have he2 : '(' :: (flatParens s0 l ++ [')']) ++ c1 = '(' :: (flatParens s0 l ++ ')' :: c1) := by simp
    rw [he2, parse_nw (NW_cons.2 rfl)]
    have h1 := pNested_parens n h0 hl c1
    have h2 : restOfLine.parse true c1 = some ([.str (c1.takeWhile (· != '\n'))], c1.dropWhile (· != '\n')) := by
      rw [parse_nows rfl]; rfl
    rw [show (pRefCode (n + 2)).impl _ = _ from and_some h1 h2]
    rfl

/-- C67: a parenthesised author list without further parentheses and quotation marks, whatever follows it, is read as the names between the
commas, in order, with the case of their letters normalised and with single blanks between their words. -/
theorem C67_authors_partial (s c : Str) (hs : UnquotedText s) :
    authorsOfText ('(' :: (s ++ ')' :: c)) = .ok ((splitChar ',' s).map fun p => title (squash p)) := by
  obtain ⟨c', hc'⟩ := refCode_parens (l := []) hs (by simp) c (s.length + c.length + 1)
  have hlen : ('(' :: (s ++ ')' :: c)).length + 1 = s.length + c.length + 1 + 2 := by simp; omega
  have hfp : flatParens s [] = s := by simp [flatParens]
  rw [hfp, List.flatMap_nil, List.append_nil] at hc'
  unfold authorsOfText
  rw [authorTokens_ok (by rw [hlen]; exact hc')]
  simp only
  have hj : joinStrToks [' '] (tokSeq (.grp ((splitWs s).map .str))) = .ok (squash s) := by
    unfold joinStrToks
    rw [show tokSeq (.grp ((splitWs s).map .str)) = (splitWs s).map .str from rfl, strToks_str]
    rfl
  obtain ⟨ts, h1, h2⟩ := commaList_texts (squash s) (unquoted_items (squash_plain hs))
  rw [hj]
  simp only
  rw [h1]
  simp only
  rw [h2, splitChar_squash s (unquoted_space hs), List.map_map]
  rfl

example : authorsOfText chars!"(A.B.SMITH, J.VAN  DER BERG,C.D.JONES)  (see the author's letter)" =
    .ok [chars!"A.B.Smith", chars!"J.Van Der Berg", chars!"C.D.Jones"] := by decide +kernel
example : UnquotedText chars!"A.B.SMITH, J.VAN  DER BERG,C.D.JONES" := by decide

/-! ### references -/

theorem words_flatten (s : Str) (hs : UnquotedText s) : (splitWs s).flatten = noBlanks s := by
  refine text_induction (P := fun s => (splitWs s).flatten = noBlanks s) ?_ ?_ s hs
  · intro b hb
    have h1 : splitWs b = [] := by
      have := splitWs_blanks hb []
      rw [List.append_nil] at this
      rw [this]; rfl
    rw [h1]
    symm
    unfold noBlanks
    rw [List.flatten_nil, List.filter_eq_nil_iff]
    intro c hc
    rw [hb c hc]; decide
  · intro b w r hb hne hw hr _ ih
    rw [splitWs_blanks hb, splitWs_word_blank hne (fun c hc => (plain_facts (hw c hc)).2.1) hr, List.flatten_cons, ih]
    unfold noBlanks
    rw [List.filter_append, List.filter_append]
    have h1 : b.filter (· != ' ') = [] := by
      rw [List.filter_eq_nil_iff]
      intro c hc
      rw [hb c hc]; decide
    have h2 : w.filter (· != ' ') = w := by
      rw [List.filter_eq_self]
      intro c hc
      have := (plain_facts (hw c hc)).1
      simp only [bne_iff_ne]
      rintro rfl
      cases this
    rw [h1, h2, List.nil_append]

/-- the tokens of a text with parentheses -/
def parenToks (s0 : Str) (l : List (Str × Str)) : List Tok :=
  (splitWs s0).map .str ++ l.flatMap fun x => .grp ((splitWs x.1).map .str) :: (splitWs x.2).map .str

theorem mapE_parens_str (l : List Str) : mapE parens (l.map .str) = .ok l := by
  induction l with
  | nil => rfl
  | cons s l ih => simp [mapE, parens, ih]

theorem parenToks_texts {s0 : Str} {l : List (Str × Str)} (h0 : UnquotedText s0)
    (hl : ∀ x ∈ l, UnquotedText x.1 ∧ UnquotedText x.2 ∧ ∃ w, splitWs x.1 = [w]) :
    ∃ ss, mapE parens (parenToks s0 l) = .ok ss ∧ ss.flatten = noBlanks (flatParens s0 l) := by
  unfold parenToks flatParens
  have hl2 : ∃ ss, mapE parens (l.flatMap fun x => .grp ((splitWs x.1).map .str) :: (splitWs x.2).map .str) = .ok ss ∧
      ss.flatten = noBlanks (l.flatMap fun x => '(' :: (x.1 ++ ')' :: x.2)) := by
    induction l with
    | nil => exact ⟨[], rfl, rfl⟩
    | cons x l ih =>
      obtain ⟨ss, h1, h2⟩ := ih fun y hy => hl y (by simp [hy])
      obtain ⟨hx1, hx2, w, hw⟩ := hl x (by simp)
      rw [List.flatMap_cons, List.flatMap_cons]
      refine ⟨_, mapE_append_ok (ra := (['('] ++ w ++ [')']) :: splitWs x.2) ?_ h1, ?_⟩
      · unfold mapE
        rw [hw]
        simp only [List.map_cons, List.map_nil, parens, mapE_parens_str]
      · have e1 := words_flatten x.1 hx1
        have e2 := words_flatten x.2 hx2
        rw [hw] at e1
        simp only [List.flatten_cons, List.flatten_nil, List.append_nil] at e1
        rw [List.flatten_append, List.flatten_cons, h2, e2]
        unfold noBlanks at *
        rw [e1]
        simp only [List.filter_append, List.filter_cons]
        simp
  obtain ⟨ss, h1, h2⟩ := hl2
  refine ⟨_, mapE_append_ok (mapE_parens_str _) h1, ?_⟩
  rw [List.flatten_append, words_flatten s0 h0, h2]
  unfold noBlanks
  rw [List.filter_append]

/-- `flatten` gives the text without blanks -/
theorem flattenRef_parens {s0 : Str} {l : List (Str × Str)} (h0 : UnquotedText s0) (hne : noBlanks s0 ≠ [])
    (hl : ∀ x ∈ l, UnquotedText x.1 ∧ UnquotedText x.2 ∧ ∃ w, splitWs x.1 = [w]) :
    flattenRef (parenToks s0 l) = .ok (.str (noBlanks (flatParens s0 l))) := by
  obtain ⟨ss, h1, h2⟩ := parenToks_texts h0 hl
  obtain ⟨w, ws, hw⟩ : ∃ w ws, splitWs s0 = w :: ws := by
    cases h : splitWs s0 with
    | nil =>
      have := words_flatten s0 h0
      rw [h] at this
      exact absurd this.symm hne
    | cons w ws => exact ⟨w, ws, rfl⟩
  have hc : ∃ ts, parenToks s0 l = .str w :: ts := ⟨ws.map .str ++ _, by unfold parenToks; rw [hw]; rfl⟩
  obtain ⟨ts, hts⟩ := hc
  rw [hts] at h1 ⊢
  cases ts with
  | nil =>
    simp only [mapE, parens] at h1
    cases h1
    rw [← h2]
    simp [flattenRef]
  | cons t ts =>
    unfold flattenRef
    simp only
    rw [h1]
    simp only
    rw [h2]

/-- the characters of a reference code without blanks -/
theorem noBlanks_items {s0 : Str} {l : List (Str × Str)} (h0 : UnquotedText s0) (hl : ∀ x ∈ l, UnquotedText x.1 ∧ UnquotedText x.2) :
    ∀ c ∈ noBlanks (flatParens s0 l), itemChar c = true ∨ c = ',' := by
  intro c hc
  obtain ⟨hm, hb⟩ := List.mem_filter.1 hc
  have hb : c ≠ ' ' := by simpa using hb
  have hplain : ∀ s, UnquotedText s → c ∈ s → itemChar c = true ∨ c = ',' := by
    intro s hs hcs
    rcases unquoted_items hs c hcs with h | h | h
    · exact .inl h
    · exact absurd h hb
    · exact .inr h
  unfold flatParens at hm
  simp only [List.mem_append, List.mem_cons, List.mem_flatMap] at hm
  rcases hm with hm | ⟨x, hx, hm | hm | hm | hm⟩
  · exact hplain _ h0 hm
  · subst hm; exact .inl (by decide)
  · exact hplain _ (hl x hx).1 hm
  · subst hm; exact .inl (by decide)
  · exact hplain _ (hl x hx).2 hm

theorem refCodeOf_text (D : Dict Str (Dict Str (List Str))) {x : Str} (hx : ∀ c ∈ x, itemChar c = true ∨ c = ',') :
    refCodeOf D (.str x) = refCodeOfList D (splitChar ',' x) := by
  obtain ⟨ts, h1, h2⟩ := commaList_texts x (fun c hc => (hx c hc).elim .inl (fun h => .inr (.inr h)))
  unfold refCodeOf
  simp only
  rw [h1]
  simp only
  rw [h2]
  congr 1
  have : ∀ q ∈ splitChar ',' x, strip q = q := by
    intro q hq
    apply strip_plain
    intro c hc
    obtain ⟨hm, hne⟩ := mem_splitChar hq hc
    rcases hx c hm with h | h
    · exact (item_facts h).2.2.2.2.1
    · exact absurd h hne
  calc (splitChar ',' x).map strip = (splitChar ',' x).map id := List.map_congr_left this
    _ = _ := List.map_id _

/-- A reference code: text with parentheses that are not nested and contain one word each; it does not begin with a parenthesis. -/
structure RefText where
  first : Str
  parts : List (Str × Str)

/-- the text, without the outer parentheses -/
def RefText.text (t : RefText) : Str := flatParens t.first t.parts
def RefText.wf (t : RefText) : Prop :=
  UnquotedText t.first ∧ noBlanks t.first ≠ [] ∧ ∀ x ∈ t.parts, UnquotedText x.1 ∧ UnquotedText x.2 ∧ ∃ w, splitWs x.1 = [w]

theorem refOfTok_text (D : Dict Str (Dict Str (List Str))) {t : RefText} (ht : t.wf) :
    refOfTok D (.grp (parenToks t.first t.parts)) = refReraise (refCodeOfList D (splitChar ',' (noBlanks t.text))) := by
  obtain ⟨h0, hne, hl⟩ := ht
  unfold refOfTok
  rw [show tokSeq (.grp (parenToks t.first t.parts)) = parenToks t.first t.parts from rfl, flattenRef_parens h0 hne hl]
  simp only
  rw [refCodeOf_text D (noBlanks_items h0 fun x hx => ⟨(hl x hx).1, (hl x hx).2.1⟩)]
  rfl

/-- The attributes of a reference code with the given items. -/
theorem refCodeOfList_items (D : Dict Str (Dict Str (List Str))) (T N date y pn : Str) (ds : List Str)
    (hy : parseX4Year date = .ok y) (hp : prettyName D T N = .ok pn) :
    refCodeOfList D (T :: N :: (ds ++ [date])) =
      .ok { reftype := T, name := N, details := ds, date := date, pubyear := y, prettyName := pn } := by
  unfold refCodeOfList
  have h1 : pyIdx (T :: N :: (ds ++ [date])) 0 = .ok T := rfl
  have h2 : pyIdx (T :: N :: (ds ++ [date])) 1 = .ok N := rfl
  have h3 : pyIdx (T :: N :: (ds ++ [date])) ((T :: N :: (ds ++ [date])).length - 1) = .ok date := by
    simp
  have h4 : detailsOf (T :: N :: (ds ++ [date])) = ds := by
    simp [detailsOf, slice]
  have h5 : refYear date = .ok y := by unfold refYear; rw [hy]
  simp only [h1, h2, h3, h4, h5, hp]

/-- C66: a reference in parentheses — items separated by commas: the type, the name, details, and the date — is read as exactly these items, with
the year of the date; blanks between the items do not matter, the items may contain parentheses, and anything may follow. -/
theorem C66_reference_partial (D : Dict Str (Dict Str (List Str))) (taut : Bool) (t : RefText) (c : Str) (ht : t.wf)
    (T N date y pn : Str) (ds : List Str) (hitems : noBlanks t.text = joinWith [','] (T :: N :: (ds ++ [date])))
    (hcomma : ∀ x ∈ T :: N :: (ds ++ [date]), ',' ∉ x) (hy : parseX4Year date = .ok y) (hp : prettyName D T N = .ok pn)
    (heq : taut = false ∨ '=' ∉ '(' :: (t.text ++ ')' :: c)) :
    referencesOf D taut ('(' :: (t.text ++ ')' :: c)) =
      .ok [{ reftype := T, name := N, details := ds, date := date, pubyear := y, prettyName := pn }] := by
  have hr : refOfTok D (.grp (parenToks t.first t.parts)) =
      .ok { reftype := T, name := N, details := ds, date := date, pubyear := y, prettyName := pn } := by
    rw [refOfTok_text D ht, hitems, splitChar_joinWith hcomma (by simp), refCodeOfList_items D T N date y pn ds hy hp]
    rfl
  obtain ⟨h0, hne, hl⟩ := ht
  obtain ⟨c', hc'⟩ := refCode_parens h0 (fun x hx => ⟨(hl x hx).1, (hl x hx).2.1⟩) c (t.text.length + c.length + 1)
  have hlen : ('(' :: (t.text ++ ')' :: c)).length + 1 = t.text.length + c.length + 1 + 2 := by simp; omega
  unfold referencesOf
  rw [if_neg (by
    rintro ⟨h1, h2⟩
    rcases heq with h | h
    · rw [h] at h1; cases h1
    · exact h h2)]
  rw [hlen, show parseString (pRefCode (t.text.length + c.length + 1 + 2)) ('(' :: (t.text ++ ')' :: c)) = _ from hc']
  simp only
  unfold parenToks at hr
  rw [hr]

/-- a dictionary of reference types, as `x4Dictionaries` has it, for the examples -/
def sampleDicts : Dict Str (Dict Str (List Str)) := [
  (chars!"ReferenceTypes", [(chars!"R", [chars!"REPT", chars!"Report other than progress report"])]),
  (chars!"Journals", [(chars!"PR", [chars!"Physical Review"])])]

example : referencesOf sampleDicts true chars!"(J,PR, 120,(1),556,196010) main reference" =
    .ok [{ reftype := chars!"J", name := chars!"PR", details := [chars!"120", chars!"(1)", chars!"556"], date := chars!"196010",
           pubyear := chars!"1960", prettyName := chars!"Physical Review " }] :=
  C66_reference_partial sampleDicts true ⟨chars!"J,PR, 120,", [(chars!"1", chars!",556,196010")]⟩ chars!" main reference"
    ⟨by decide, by decide, by
      intro x hx
      simp only [List.mem_singleton] at hx
      subst hx
      exact ⟨by decide, by decide, _, rfl⟩⟩
    _ _ _ _ _ [chars!"120", chars!"(1)", chars!"556"] (by decide) (by decide) (by decide) (by decide) (.inr (by decide))

/-- C66 fails for a volume with two words in the inner parentheses: only the first one is kept. -/
theorem C66_refuted : ¬ ∀ (D : Dict Str (Dict Str (List Str))) (s : Str) (T N : Str) (ds : List Str) (date : Str) (r : RefCode),
    referencesOf D false ('(' :: (s ++ [')'])) = .ok [r] → noBlanks s = joinWith [','] (T :: N :: (ds ++ [date])) →
    (∀ x ∈ T :: N :: (ds ++ [date]), ',' ∉ x) → r.details = ds := by
  intro h
  have := h sampleDicts chars!"J,PR,120(1 A),556,1960" chars!"J" chars!"PR" [chars!"120(1A)", chars!"556"] chars!"1960"
    { reftype := chars!"J", name := chars!"PR", details := [chars!"120(1)", chars!"556"], date := chars!"1960",
      pubyear := chars!"1960", prettyName := chars!"Physical Review " } (by decide +kernel) (by decide) (by decide)
  revert this
  decide

/-- the items of a reference code -/
def refItems (r : RefCode) : List Str := r.reftype :: r.name :: (r.details ++ [r.date])

/-! ### several names of the same reference -/

/-- a further reference after an equals sign, with blanks before its parenthesis -/
def tautPart (x : Str × RefText) : Str := '=' :: (x.1 ++ '(' :: (x.2.text ++ [')']))

/-- `((A)=(B)=…)` and the comment after it -/
def tautText (t : RefText) (l : List (Str × RefText)) (c : Str) : Str :=
  '(' :: '(' :: (t.text ++ ')' :: (l.flatMap tautPart ++ ')' :: c))

theorem tautLoops (n : Nat) (l : List (Str × RefText)) (hl : ∀ x ∈ l, Blanks x.1 ∧ x.2.wf) (r : Str) :
    Loops (and pEquals (pNested (n + 2))) (l.flatMap tautPart ++ ')' :: r)
      (l.flatMap fun x => [.str ['='], .grp (parenToks x.2.first x.2.parts)]) (')' :: r) := by
  induction l with
  | nil =>
    refine .stop ?_
    rw [List.flatMap_nil, List.nil_append, parse_nw (NW_cons.2 rfl)]
    exact and_none_left (lit_head_ne (by decide))
  | cons x l ih =>
    obtain ⟨hb, hw⟩ := hl x (by simp)
    have he : (x :: l).flatMap tautPart ++ ')' :: r = '=' :: (x.1 ++ '(' :: (x.2.text ++ ')' :: (l.flatMap tautPart ++ ')' :: r))) := by
      simp [tautPart]
    rw [he, List.flatMap_cons]
    refine .step (s1 := l.flatMap tautPart ++ ')' :: r) ?_ ?_ (ih fun y hy => hl y (by simp [hy]))
    · rw [parse_nw (NW_cons.2 rfl)]
      have h2 : (pNested (n + 2)).parse true (x.1 ++ '(' :: (x.2.text ++ ')' :: (l.flatMap tautPart ++ ')' :: r))) =
          some ([.grp (parenToks x.2.first x.2.parts)], l.flatMap tautPart ++ ')' :: r) := by
        rw [parse_skip (pNested_ws _).1 (pNested_ws _).2 hb.white, parse_nw (NW_cons.2 rfl)]
        exact pNested_parens n hw.1 (fun y hy => ⟨(hw.2.2 y hy).1, (hw.2.2 y hy).2.1⟩) _
      exact and_some (lit_cons '=' _ true) h2
    · simp only [List.length_append, List.length_cons]; omega

theorem refText_no_tab {t : RefText} (h : t.wf) : '\t' ∉ t.text := by
  intro hm
  unfold RefText.text flatParens at hm
  simp only [List.mem_cons, List.mem_append, List.mem_flatMap] at hm
  rcases hm with hm | ⟨x, hx, hm | hm | hm | hm⟩
  · exact unquoted_no_tab h.1 hm
  · cases hm
  · exact unquoted_no_tab (h.2.2 x hx).1 hm
  · cases hm
  · exact unquoted_no_tab (h.2.2 x hx).2.1 hm

theorem pRefTautology_text (n : Nat) (t : RefText) (ht : t.wf) (l : List (Str × RefText)) (hne : l ≠ []) (hl : ∀ x ∈ l, Blanks x.1 ∧ x.2.wf) (c : Str) :
    ∃ c', parseString (pRefTautology (n + 2)) (tautText t l c) =
      .ok (.grp (parenToks t.first t.parts) :: (l.flatMap fun x => [.str ['='], .grp (parenToks x.2.first x.2.parts)]) ++ [.str c']) := by
  have he : tautText t l c = ('(' :: '(' :: (t.text ++ ')' :: (l.flatMap tautPart ++ [')']))) ++ c := by simp [tautText]
  obtain ⟨c1, hc1⟩ := expandTabs_append 0 ('(' :: '(' :: (t.text ++ ')' :: (l.flatMap tautPart ++ [')']))) c (by
    intro hm
    simp only [List.mem_cons, List.mem_append, List.mem_flatMap, tautPart] at hm
    rcases hm with hm | hm | hm | hm | ⟨x, hx, hm | hm | hm | hm | hm | hm⟩ | hm | hm
    · cases hm
    · cases hm
    · exact refText_no_tab ht hm
    · cases hm
    · cases hm
    · exact absurd ((hl x hx).1 _ hm) (by decide)
    · cases hm
    · exact refText_no_tab (hl x hx).2 hm
    · cases hm
    · cases hm
    · cases hm
    · cases hm)
  have he2 : ('(' :: '(' :: (t.text ++ ')' :: (l.flatMap tautPart ++ [')']))) ++ c1 = tautText t l c1 := by simp [tautText]
  have h1 : (and pLpar (pNested (n + 2))).impl (tautText t l c1) =
      some ([] ++ [.grp (parenToks t.first t.parts)], l.flatMap tautPart ++ ')' :: c1) := by
    refine and_some (pLpar_cons _) ?_
    rw [parse_nw (NW_cons.2 rfl)]
    exact pNested_parens n ht.1 (fun y hy => ⟨(ht.2.2 y hy).1, (ht.2.2 y hy).2.1⟩) _
  have hloop := tautLoops n l hl c1
  have hnw : NW (l.flatMap tautPart ++ ')' :: c1) := by
    cases l with
    | nil => exact absurd rfl hne
    | cons x l => exact NW_cons.2 rfl
  have h2 : (many1 (and pEquals (pNested (n + 2)))).parse true (l.flatMap tautPart ++ ')' :: c1) =
      some (l.flatMap fun x => [.str ['='], .grp (parenToks x.2.first x.2.parts)], ')' :: c1) := by
    rw [parse_nw hnw]
    refine hloop.many1 (by rw [parse_nw hnw, parse_nw hnw]) (hloop.ne_none ?_)
    cases l with
    | nil => exact absurd rfl hne
    | cons x l => simp
  have h3 : pRpar.parse true (')' :: c1) = some ([], c1) := by rw [parse_nw (NW_cons.2 rfl), pRpar_cons]
  have h4 : restOfLine.parse true c1 = some ([.str (c1.takeWhile (· != '\n'))], c1.dropWhile (· != '\n')) := by rw [parse_nows rfl]; rfl
  have h5 := and_some (and_some (and_some h1 h2) h3) h4
  refine ⟨c1.takeWhile (· != '\n'), ?_⟩
  unfold parseString
  have hnw' : NW (tautText t l c1) := NW_cons.2 rfl
  rw [he, hc1, he2, parse_nw hnw']
  unfold pRefTautology
  rw [h5]
  simp

/-- C66: for a reference given under several names, `((A)=(B)=…)`, all of them are read, in order. -/
theorem C66_tautology_partial (D : Dict Str (Dict Str (List Str))) (t : RefText) (r : RefCode) (l : List (Str × RefText × RefCode)) (c : Str) (hne : l ≠ [])
    (ht : t.wf) (hl : ∀ x ∈ l, Blanks x.1 ∧ x.2.1.wf)
    (hitems : ∀ x ∈ (t, r) :: l.map Prod.snd, noBlanks x.1.text = joinWith [','] (refItems x.2) ∧ (∀ i ∈ refItems x.2, ',' ∉ i) ∧
      parseX4Year x.2.date = .ok x.2.pubyear ∧ prettyName D x.2.reftype x.2.name = .ok x.2.prettyName) :
    referencesOf D true (tautText t (l.map fun x => (x.1, x.2.1)) c) = .ok (r :: l.map fun x => x.2.2) := by
  have hread : ∀ x ∈ (t, r) :: l.map Prod.snd, x.1.wf → refOfTok D (.grp (parenToks x.1.first x.1.parts)) = .ok x.2 := by
    intro x hx hw
    obtain ⟨h1, h2, h3, h4⟩ := hitems x hx
    rw [refOfTok_text D hw, h1]
    unfold refItems at h2 ⊢
    rw [splitChar_joinWith h2 (by simp), refCodeOfList_items D _ _ _ _ _ _ h3 h4]
    rfl
  have hl' : ∀ x ∈ l.map (fun x => (x.1, x.2.1)), Blanks x.1 ∧ x.2.wf := by
    intro x hx
    obtain ⟨y, hy, rfl⟩ := List.mem_map.1 hx
    exact hl y hy
  obtain ⟨c', hc'⟩ := pRefTautology_text ((tautText t (l.map fun x => (x.1, x.2.1)) c).length - 1) t ht (l.map fun x => (x.1, x.2.1))
    (by simpa using hne) hl' c
  have hlen : (tautText t (l.map fun x => (x.1, x.2.1)) c).length + 1 = (tautText t (l.map fun x => (x.1, x.2.1)) c).length - 1 + 2 := by
    have : 0 < (tautText t (l.map fun x => (x.1, x.2.1)) c).length := by simp [tautText]
    omega
  have heq : '=' ∈ tautText t (l.map fun x => (x.1, x.2.1)) c := by
    cases l with
    | nil => exact absurd rfl hne
    | cons x l => simp [tautText, tautPart]
  unfold referencesOf
  rw [if_pos ⟨rfl, heq⟩, hlen, hc']
  simp only
  rw [List.dropLast_concat, List.flatMap_map]
  rw [show (Tok.grp (parenToks t.first t.parts) :: l.flatMap fun x => [Tok.str ['='], .grp (parenToks x.2.1.first x.2.1.parts)]).filter notEquals =
    .grp (parenToks t.first t.parts) :: l.map fun x => .grp (parenToks x.2.1.first x.2.1.parts) by
      rw [List.filter_cons_of_pos rfl, List.filter_flatMap]
      congr 1
      clear * -
      induction l with
      | nil => rfl
      | cons x l ih =>
        rw [List.flatMap_cons, ih]
        rfl]
  rw [mapE_ok_iff]
  refine .cons (hread (t, r) (by simp) ht) ?_
  have : ∀ x ∈ l, refOfTok D (.grp (parenToks x.2.1.first x.2.1.parts)) = .ok x.2.2 := fun x hx =>
    hread x.2 (List.mem_cons_of_mem _ (List.mem_map.2 ⟨x, hx, rfl⟩)) (hl x hx).2
  clear * - this
  induction l with
  | nil => exact .nil
  | cons x l ih => exact .cons (this x (by simp)) (ih fun y hy => this y (by simp [hy]))

set_option maxRecDepth 20000 in
example : referencesOf sampleDicts true chars!"((J,PR,120,556,1960)= (R,LA-123(4),1960)) same data" =
    .ok [{ reftype := chars!"J", name := chars!"PR", details := [chars!"120", chars!"556"], date := chars!"1960",
           pubyear := chars!"1960", prettyName := chars!"Physical Review " },
         { reftype := chars!"R", name := chars!"LA-123(4)", details := [], date := chars!"1960", pubyear := chars!"1960",
           prettyName := chars!"Report other than progress report: LA-123(4) " }] := by decide +kernel
example : tautText ⟨chars!"J,PR,120,556,1960", []⟩ [(chars!" ", ⟨chars!"R,LA-123", [(chars!"4", chars!",1960")]⟩)] chars!" same data" =
    chars!"((J,PR,120,556,1960)= (R,LA-123(4),1960)) same data" := by decide

/-! ### names -/

theorem upper_titleAux (b : Bool) (s : Str) : upper (titleAux b s) = upper s := by
  induction s generalizing b with
  | nil => rfl
  | cons c s ih =>
    unfold titleAux
    show _ :: upper (titleAux (isCased c) s) = _ :: upper s
    rw [ih]
    congr 1
    split_ifs
    · exact toUpper_toLower c
    · exact toUpper_toUpper c

/-- C67: writing the names with capitals changes nothing but the case of letters. -/
theorem C67_case_only (s : Str) : upper (title s) = upper s ∧ (title s).length = s.length := by
  refine ⟨upper_titleAux false s, ?_⟩
  have := congrArg List.length (upper_titleAux false s)
  simp only [upper, List.length_map] at this
  exact this

example : title chars!"J.VAN DER BERG" = chars!"J.Van Der Berg" := by decide

set_option maxRecDepth 20000 in
/-- C67 fails when two names contain an apostrophe: the text between the apostrophes is taken for a quotation, and blanks are put around it. -/
theorem C67_apostrophes_refuted : ¬ ∀ s : Str, (∀ c ∈ s, plainChar c = true ∨ c = ' ' ∨ c = '\'') →
    authorsOfText ('(' :: (s ++ [')'])) = .ok ((splitChar ',' s).map fun p => title (squash p)) := by
  intro h
  have := h chars!"B.O'BRIEN,C.O'NEIL" (by decide)
  have h2 : authorsOfText chars!"(B.O'BRIEN,C.O'NEIL)" = .ok [chars!"B.O 'Brien", chars!"C.O' Neil"] := by decide +kernel
  rw [show chars!"(B.O'BRIEN,C.O'NEIL)" = '(' :: (chars!"B.O'BRIEN,C.O'NEIL" ++ [')']) from rfl, this] at h2
  revert h2
  decide

/-- C67 fails when a name is broken between two lines: the blank between its parts is lost. -/
theorem C67_line_break_refuted (D : TextDicts) : authorsOf (x4Parsers D) (' ', [chars!"(A.SMITH,J.VAN DER", chars!"BERG)"]) =
    .ok [chars!"A.Smith", chars!"J.Van Derberg"] := by
  have h : authorsOfText chars!"(A.SMITH,J.VAN DERBERG)" = .ok [chars!"A.Smith", chars!"J.Van Derberg"] := by decide +kernel
  unfold authorsOf x4Parsers
  simp only
  rw [show ([chars!"(A.SMITH,J.VAN DER", chars!"BERG)"].map strip).flatten = chars!"(A.SMITH,J.VAN DERBERG)" by decide, h]
  rfl

/-- whether the text ends in a letter -/
def endsCased (b : Bool) (s : Str) : Bool := ((s.getLast?).map isCased).getD b

theorem titleAux_append (b : Bool) (s t : Str) : titleAux b (s ++ t) = titleAux b s ++ titleAux (endsCased b s) t := by
  induction s generalizing b with
  | nil => rfl
  | cons c s ih =>
    have h1 : ∀ b c s, titleAux b (c :: s) = (if b then c.toLower else c.toUpper) :: titleAux (isCased c) s := fun _ _ _ => rfl
    rw [List.cons_append, h1, h1, ih, List.cons_append]
    congr 3
    cases s with
    | nil => rfl
    | cons d s =>
      unfold endsCased
      rw [List.getLast?_cons_cons, List.getLast?_eq_some_getLast (List.cons_ne_nil d s)]
      rfl

/-- C71: the family name of an author is what follows the last period of the name, in the same writing. -/
theorem C71_family_partial (pre fam : Str) (h : '.' ∉ fam) : familyName (title (pre ++ '.' :: fam)) = title fam := by
  unfold title
  rw [titleAux_append]
  have h1 : titleAux (endsCased false pre) ('.' :: fam) = '.' :: titleAux false fam := by
    have h1 : ∀ b c s, titleAux b (c :: s) = (if b then c.toLower else c.toUpper) :: titleAux (isCased c) s := fun _ _ _ => rfl
    rw [h1]
    have h2 : isCased '.' = false := by decide
    rw [h2]
    congr 1
    split_ifs <;> decide
  rw [h1]
  have h2 : '.' ∉ titleAux false fam := by
    intro hm
    have h3 : '.' ∈ upper (titleAux false fam) := List.mem_map.2 ⟨'.', hm, by decide⟩
    rw [upper_titleAux] at h3
    obtain ⟨c, hc, he⟩ := List.mem_map.1 h3
    rw [(toUpper_eq_iff (by decide)).1 he] at hc
    exact h hc
  unfold familyName
  have h3 : splitOnP (· == '.') (titleAux false fam) = [titleAux false fam] :=
    splitOnP_none fun x hx => by
      simp only [beq_eq_false_iff_ne]
      rintro rfl
      exact h2 hx
  unfold splitChar
  rw [splitOnP_append_gen _ _ (by simp), h3]
  simp

example : familyName (title chars!"J.P.VAN DER BERG") = chars!"Van Der Berg" := C71_family_partial chars!"J.P" chars!"VAN DER BERG" (by decide)

/-- C71 fails for names that end in a period: their family name is empty. -/
theorem C71_family_refuted (s : Str) : familyName (title (s ++ ['.'])) = [] := C71_family_partial s [] (by simp)

example : (authorsOfText chars!"(A.B.SMITH,C.JONES JR.)").map (·.map familyName) = .ok [chars!"Smith", []] := by decide +kernel

/-! ### institutes -/

/-- the name of an institute, or its code if the last three characters are not in the dictionary -/
def instName (I : Dict Str (List Str)) (code : Str) : Str :=
  match I.get? (lastThree code) with
  | some (name :: _) => name
  | _ => code

theorem joinStrToks_str (sep : Str) (l : List Str) : joinStrToks sep (l.map .str) = .ok (joinWith sep l) := by
  unfold joinStrToks
  rw [strToks_str]

theorem instituteOf_words (I : Dict Str (List Str)) (hI : ∀ e ∈ I, e.2 ≠ []) (w c : Str) (ws : List Str) :
    instituteOf I (.grp (.grp (.str w :: ws.map .str) :: (splitWs c).map .str)) = .ok (w, instName I w, title (squash c)) := by
  unfold instituteOf
  simp only [tokSeq, tokFlat, joinStrToks_str]
  unfold instName
  cases h : I.get? (lastThree w) with
  | none => rfl
  | some rec =>
    cases rec with
    | nil => exact absurd rfl (hI _ (Dict.mem_of_get? h))
    | cons n rec => rfl

theorem instText_no_tab {l : List (Str × Str)} (hl : ∀ x ∈ l, TextOf isX4Word x.1 ∧ TextOf isX4Word x.2) : '\t' ∉ instText l := by
  intro hm
  unfold instText at hm
  simp only [List.mem_flatMap, List.mem_cons, List.mem_append] at hm
  have hw : ∀ s, TextOf isX4Word s → '\t' ∉ s := by
    intro s hs hm
    rcases hs _ hm with h | h
    · exact absurd h (by decide)
    · cases h
  obtain ⟨x, hx, h | h | h | h⟩ := hm
  · cases h
  · exact hw _ (hl x hx).1 h
  · cases h
  · exact hw _ (hl x hx).2 h

/-- the tokens of institutes, whatever follows behind another character -/
theorem pTextField_tail (l : List (Str × Str)) (hne : l ≠ [])
    (hl : ∀ x ∈ l, TextOf isX4Word x.1 ∧ splitWs x.1 ≠ [] ∧ TextOf isX4Word x.2) (t : Str) (htab : '\t' ∉ t)
    (ht : CodeOrEnd t) (hp : '(' ∉ t.head?) :
    parseString pTextField (instText l ++ t) = .ok (l.map fun x => .grp (.grp ((splitWs x.1).map .str) :: (splitWs x.2).map .str)) := by
  obtain ⟨r, hr⟩ := instLoops_tail l hl t ht hp Blanks.nil
  rw [List.nil_append] at hr
  unfold parseString
  rw [expandTabs_id _ _ (by
    rw [List.mem_append]
    exact fun h => h.elim (instText_no_tab fun x hx => ⟨(hl x hx).1, (hl x hx).2.2⟩) htab)]
  have hn : NW (instText l ++ t) := by
    cases l with
    | nil => exact absurd rfl hne
    | cons x l => exact NW_cons.2 rfl
  have h1 := hr.many1 (by rw [parse_nw hn, parse_nw hn]) (hr.ne_none (by simpa using hne))
  rw [parse_nw hn]
  unfold pTextField
  rw [h1]

/-- the tokens of institutes -/
theorem pTextField_inst (l : List (Str × Str)) (hne : l ≠ [])
    (hl : ∀ x ∈ l, TextOf isX4Word x.1 ∧ splitWs x.1 ≠ [] ∧ TextOf isX4Word x.2) :
    parseString pTextField (instText l) = .ok (l.map fun x => .grp (.grp ((splitWs x.1).map .str) :: (splitWs x.2).map .str)) := by
  have := pTextField_tail l hne hl [] (by simp) ⟨NW_nil, by simp⟩ (by simp)
  rwa [List.append_nil] at this

/-- C68: for institutes given by one code in parentheses each, with or without words after it, every institute is listed once, in order, with
its code, the name the dictionary has for the last three characters of the code (or the code), and the words. -/
theorem C68_institutes_partial (I : Dict Str (List Str)) (hI : ∀ e ∈ I, e.2 ≠ []) (l : List (Str × Str)) (hne : l ≠ [])
    (hl : ∀ x ∈ l, x.1 ≠ [] ∧ (∀ c ∈ x.1, wordChar c = true) ∧ TextOf wordChar x.2) :
    institutesOfText I (instText l) = .ok (l.map fun x => (x.1, instName I x.1, title (squash x.2))) := by
  simp only [wordChar_fun] at hl
  have hsp : ∀ x ∈ l, splitWs x.1 = [x.1] := by
    intro x hx
    obtain ⟨h1, h2, -⟩ := hl x hx
    have := splitWs_word_blank h1 (fun c hc => (x4Word_facts (h2 c hc)).2.1) (s := []) (by simp)
    rw [List.append_nil] at this
    rw [this]; rfl
  unfold institutesOfText
  rw [pTextField_inst l hne fun x hx => ⟨fun c hc => .inl ((hl x hx).2.1 c hc), by rw [hsp x hx]; simp, (hl x hx).2.2⟩]
  simp only
  rw [mapE_map, mapE_ok_iff]
  clear hne
  induction l with
  | nil => exact .nil
  | cons x l ih =>
    refine .cons ?_ (ih (fun y hy => hl y (by simp [hy])) (fun y hy => hsp y (by simp [hy])))
    simp only [Function.comp]
    rw [hsp x (by simp)]
    exact instituteOf_words I hI x.1 x.2 []

/-- institutes for the examples -/
def sampleInst : Dict Str (List Str) := [(chars!"LAS", [chars!"Los Alamos National Laboratory, NM", chars!"1USA"]),
  (chars!"ORL", [chars!"Oak Ridge National Laboratory, Oak Ridge, TN", chars!"1USA"])]

example : institutesOfText sampleInst chars!"(1USALAS) FIRST AUTHORS (1USAORL)(1USAXXX)" =
    .ok [(chars!"1USALAS", chars!"Los Alamos National Laboratory, NM", chars!"First Authors"),
      (chars!"1USAORL", chars!"Oak Ridge National Laboratory, Oak Ridge, TN", []), (chars!"1USAXXX", chars!"1USAXXX", [])] :=
  C68_institutes_partial sampleInst (by decide)
    [(chars!"1USALAS", chars!" FIRST AUTHORS "), (chars!"1USAORL", []), (chars!"1USAXXX", [])] (by simp) (by decide)

/-- C68 fails for codes separated by commas: whatever the two codes are, one institute is listed, with the name of the last one. -/
theorem C68_comma_refuted (I : Dict Str (List Str)) (hI : ∀ e ∈ I, e.2 ≠ []) (a b : Str)
    (ha : ∀ c ∈ a, wordChar c = true) (hb : ∀ c ∈ b, wordChar c = true) (hb3 : 3 ≤ b.length) (name : Str) (rec : List Str)
    (hname : I.get? (lastThree b) = some (name :: rec)) :
    institutesOfText I ('(' :: (a ++ ',' :: b ++ [')'])) = .ok [(a ++ ',' :: b, name, [])] := by
  have h := C68_institutes_partial I hI [(a ++ ',' :: b, [])] (by simp) (by
    simp only [List.mem_singleton, forall_eq]
    refine ⟨by simp, ?_, by intro c hc; cases hc⟩
    intro c hc
    simp only [List.mem_append, List.mem_cons] at hc
    rcases hc with h | h | h
    · exact ha c h
    · subst h; decide
    · exact hb c h)
  have hlast : lastThree (a ++ ',' :: b) = lastThree b := by
    unfold lastThree
    have : (a ++ ',' :: b).length - 3 = (a ++ [',']).length + (b.length - 3) := by
      simp only [List.length_append, List.length_cons, List.length_nil]; omega
    rw [this, show a ++ ',' :: b = (a ++ [',']) ++ b by simp, List.drop_append]
    simp
  have hn : instName I (a ++ ',' :: b) = name := by
    unfold instName
    rw [hlast, hname]
  simp only [List.map_cons, List.map_nil, hn] at h
  rw [show instText [(a ++ ',' :: b, ([] : Str))] = '(' :: (a ++ ',' :: b ++ [')']) by simp [instText]] at h
  exact h

example : institutesOfText sampleInst chars!"(1USALAS,1USAORL)" =
    .ok [(chars!"1USALAS,1USAORL", chars!"Oak Ridge National Laboratory, Oak Ridge, TN", [])] := by decide +kernel

/-- C68 also fails when a comment contains any other character (a colon, a full stop of another alphabet, a closing parenthesis …): that ends the
list, whatever institutes follow. -/
theorem C68_punctuation_refuted (I : Dict Str (List Str)) (l : List (Str × Str)) (hne : l ≠ [])
    (hl : ∀ x ∈ l, x.1 ≠ [] ∧ (∀ c ∈ x.1, wordChar c = true) ∧ TextOf wordChar x.2) (c : Char) (hc : wordChar c = false) (hw : isWhite c = false)
    (hp : c ≠ '(') (t : Str) (ht : '\t' ∉ t) : institutesOfText I (instText l ++ c :: t) = institutesOfText I (instText l) := by
  simp only [wordChar_fun] at hl hc
  have hsp : ∀ x ∈ l, splitWs x.1 = [x.1] := by
    intro x hx
    obtain ⟨h1, h2, -⟩ := hl x hx
    have := splitWs_word_blank h1 (fun c hc => (x4Word_facts (h2 c hc)).2.1) (s := []) (by simp)
    rw [List.append_nil] at this
    rw [this]; rfl
  have hl' : ∀ x ∈ l, TextOf isX4Word x.1 ∧ splitWs x.1 ≠ [] ∧ TextOf isX4Word x.2 :=
    fun x hx => ⟨fun c hc => .inl ((hl x hx).2.1 c hc), by rw [hsp x hx]; simp, (hl x hx).2.2⟩
  unfold institutesOfText
  rw [pTextField_inst l hne hl', pTextField_tail l hne hl' (c :: t) (by
    rw [List.mem_cons]
    rintro (h | h)
    · rw [← h] at hw; revert hw; decide
    · exact ht h) ⟨NW_cons.2 hw, by simpa using hc⟩ (by simpa using hp)]

set_option maxRecDepth 20000 in
example : institutesOfText sampleInst chars!"(1USALAS) USA: FIRST AUTHORS (1USAORL)" =
    .ok [(chars!"1USALAS", chars!"Los Alamos National Laboratory, NM", chars!"Usa")] :=
  (C68_punctuation_refuted sampleInst [(chars!"1USALAS", chars!" USA")] (by simp) (by decide) ':' (by decide) (by decide) (by decide)
    chars!" FIRST AUTHORS (1USAORL)" (by decide)).trans (by decide +kernel)

/-! ### the attributes of a REFERENCE field -/

/-- A reference on one line: its text, what follows it, and what is to be read. -/
structure RefLine where
  text : RefText
  comment : Str
  code : RefCode

def RefLine.line (x : RefLine) : Str := '(' :: (x.text.text ++ ')' :: x.comment)

/-- the text shows the items, and the date and the names can be read -/
def RefLine.wf (D : Dict Str (Dict Str (List Str))) (x : RefLine) : Prop :=
  x.text.wf ∧ '\n' ∉ x.comment ∧ noBlanks x.text.text = joinWith [','] (refItems x.code) ∧ (∀ i ∈ refItems x.code, ',' ∉ i) ∧
    parseX4Year x.code.date = .ok x.code.pubyear ∧ prettyName D x.code.reftype x.code.name = .ok x.code.prettyName

theorem RefText.first_cons {t : RefText} (h : t.wf) : ∃ c s, t.first = c :: s ∧ (plainChar c = true ∨ c = ' ') := by
  cases ht : t.first with
  | nil => exact absurd (by rw [ht]; rfl) h.2.1
  | cons c s => exact ⟨c, s, rfl, h.1 c (by rw [ht]; simp)⟩

theorem RefLine.not_double {D : Dict Str (Dict Str (List Str))} {x : RefLine} (h : x.wf D) : ∃ c s, x.line = '(' :: c :: s ∧ c ≠ '(' := by
  obtain ⟨c, s, hc, hp⟩ := RefText.first_cons h.1
  refine ⟨c, s ++ (x.text.parts.flatMap fun x => '(' :: (x.1 ++ ')' :: x.2)) ++ ')' :: x.comment, ?_, ?_⟩
  · unfold RefLine.line RefText.text flatParens
    rw [hc]
    simp
  · rintro rfl
    rcases hp with hp | hp
    · exact absurd hp (by decide)
    · cases hp

theorem RefLine.no_newline {D : Dict Str (Dict Str (List Str))} {x : RefLine} (h : x.wf D) : '\n' ∉ x.line := by
  obtain ⟨⟨h0, -, hl⟩, hc, -⟩ := h
  have hw : ∀ s, UnquotedText s → '\n' ∉ s := by
    intro s hs hm
    rcases hs _ hm with h | h
    · exact absurd h (by decide)
    · cases h
  intro hm
  unfold RefLine.line RefText.text flatParens at hm
  simp only [List.mem_cons, List.mem_append, List.mem_flatMap] at hm
  rcases hm with h | (h | ⟨x, hx, h | h | h | h⟩) | h | h
  · cases h
  · exact hw _ h0 h
  · cases h
  · exact hw _ (hl x hx).1 h
  · cases h
  · exact hw _ (hl x hx).2.1 h
  · cases h
  · exact hc h

theorem noNl_id {s : Str} (hs : '\n' ∉ s) : noNl s = s := by
  induction s with
  | nil => rfl
  | cons c s ih =>
    simp only [List.mem_cons, not_or] at hs
    have : noNl (c :: s) = (if c == '\n' then [] else [c]) ++ noNl s := rfl
    rw [this, ih hs.2]
    simp [Ne.symm hs.1]

theorem refLoop_lines (D : Dict Str (Dict Str (List Str))) (l : List RefLine) (hl : ∀ x ∈ l, x.wf D) (acc : List Str) :
    refLoop acc false (l.map RefLine.line) = .ok (acc ++ l.map RefLine.line) := by
  induction l generalizing acc with
  | nil => simp [refLoop]
  | cons x l ih =>
    obtain ⟨c, s, he, hc⟩ := RefLine.not_double (hl x (by simp))
    have hn : noNl x.line = x.line := noNl_id (RefLine.no_newline (hl x (by simp)))
    have h2 : slice x.line 0 2 ≠ "((".toList := by
      rw [he]
      show ['(', c] ≠ ['(', '(']
      simp [hc]
    have h1 : slice x.line 0 1 = "(".toList := by rw [he]; rfl
    rw [List.map_cons, refLoop.eq_def]
    simp only
    rw [if_neg h2, if_pos ⟨rfl, h1⟩, hn]
    rw [show (if hasSub "))".toList x.line = true then false else false) = false by split <;> rfl]
    rw [ih (fun y hy => hl y (by simp [hy]))]
    simp

theorem hasTautology_lines (D : Dict Str (Dict Str (List Str))) (l : List RefLine) (hl : ∀ x ∈ l, x.wf D) :
    hasTautology (l.map RefLine.line) = false := by
  unfold hasTautology
  rw [List.any_eq_false]
  intro s hs
  obtain ⟨x, hx, rfl⟩ := List.mem_map.1 hs
  obtain ⟨c, s, he, hc⟩ := RefLine.not_double (hl x hx)
  rw [he]
  show ¬ (['(', c] == ['(', '(']) = true
  simp [hc]

theorem refLine_read {D : Dict Str (Dict Str (List Str))} {x : RefLine} (h : x.wf D) : referencesOf D false x.line = .ok [x.code] := by
  obtain ⟨h1, -, h3, h4, h5, h6⟩ := h
  exact C66_reference_partial D false x.text x.comment h1 x.code.reftype x.code.name x.code.date x.code.pubyear x.code.prettyName x.code.details
    h3 h4 h5 h6 (.inl rfl)

/-- the references of one pointer -/
theorem refsOf_lines (D : TextDicts) (p : Char) (l : List RefLine) (hl : ∀ x ∈ l, x.wf D.all) :
    refsOf (x4Parsers D) (p, l.map RefLine.line) = .ok (p, l.map RefLine.code) := by
  have h1 : refSplit (l.map RefLine.line) = .ok (l.map RefLine.line) := by
    unfold refSplit
    rw [refLoop_lines D.all l hl]
    rfl
  have h2 : mapE (referencesOf D.all false) (l.map RefLine.line) = .ok (l.map fun x => [x.code]) := by
    rw [mapE_map, mapE_ok_iff]
    clear h1
    induction l with
    | nil => exact .nil
    | cons x l ih => exact .cons (refLine_read (hl x (by simp))) (ih fun y hy => hl y (by simp [hy]))
  unfold refsOf
  simp only [h1, hasTautology_lines D.all l hl]
  rw [show (x4Parsers D).references false = referencesOf D.all false from rfl, h2]
  simp only
  congr 2
  clear h1 h2 hl
  induction l with
  | nil => rfl
  | cons x l ih => simp [ih]

/-- what the attributes of a REFERENCE field say when a reference of it cannot be read; the argument is the references kept for printing -/
def noReference (refs : Dict Char (List RefCode)) : RefInfo :=
  { reftype := ['?'], name := chars!"Parsing failed", details := [['?']], date := ['?'], pubyear := ['?'], pubtype := ['?'], refs := refs }

/-- C70: when every reference of a REFERENCE field can be read, the attributes of the field are those of the first reference of the first
pointer, with the publication type of its reference type, and all references are kept under their pointers. -/
theorem C70_main_partial (D : TextDicts) (f : PlainField) (p : Char) (x : RefLine) (l : List RefLine) (more : List (Char × List RefLine)) (pt : Str)
    (hf : f.subs = (p, (x :: l).map RefLine.line) :: more.map fun kv => (kv.1, kv.2.map RefLine.line))
    (hx : ∀ y ∈ x :: l, y.wf D.all) (hmore : ∀ kv ∈ more, ∀ y ∈ kv.2, y.wf D.all) (hpt : pubTypeMap.get x.code.reftype = .ok pt) :
    referenceInfo (x4Parsers D) f = .ok { reftype := x.code.reftype, name := x.code.name, details := x.code.details, date := x.code.date,
                                          pubyear := x.code.pubyear, pubtype := pt,
                                          refs := (p, (x :: l).map RefLine.code) :: more.map fun kv => (kv.1, kv.2.map RefLine.code) } := by
  have h2 : mapE (refsOf (x4Parsers D)) (more.map fun kv => (kv.1, kv.2.map RefLine.line)) = .ok (more.map fun kv => (kv.1, kv.2.map RefLine.code)) := by
    rw [mapE_map, mapE_ok_iff]
    clear hf
    induction more with
    | nil => exact .nil
    | cons kv more ih =>
      exact .cons (refsOf_lines D kv.1 kv.2 (hmore kv (by simp))) (ih fun y hy => hmore y (by simp [hy]))
  have h3 : mapE (refsOf (x4Parsers D)) f.subs =
      .ok ((p, (x :: l).map RefLine.code) :: more.map fun kv => (kv.1, kv.2.map RefLine.code)) := by
    rw [hf]
    unfold mapE
    rw [refsOf_lines D p (x :: l) hx]
    simp only
    rw [h2]
  have h4 : referenceTry (x4Parsers D) f =
      .ok (RefInfo.mk x.code.reftype x.code.name x.code.details x.code.date x.code.pubyear pt
        ((p, (x :: l).map RefLine.code) :: more.map fun kv => (kv.1, kv.2.map RefLine.code))) := by
    unfold referenceTry
    rw [h3]
    simp only
    unfold firstRef
    simp only
    rw [show pyIdx ((x :: l).map RefLine.code) 0 = .ok x.code from rfl]
    simp only
    rw [hpt]
  unfold referenceInfo
  rw [h4]

/-- a reference line for the examples -/
def sampleRef : RefLine where
  text := ⟨chars!"J,PR, 120,", [(chars!"1", chars!",556,196010")]⟩
  comment := chars!" main reference"
  code := { reftype := chars!"J", name := chars!"PR", details := [chars!"120", chars!"(1)", chars!"556"], date := chars!"196010",
            pubyear := chars!"1960", prettyName := chars!"Physical Review " }

theorem sampleRef_wf : sampleRef.wf sampleDicts := by
  refine ⟨⟨by decide, by decide, ?_⟩, by decide, by decide, by decide, by decide, by decide⟩
  intro x hx
  have hx : x = (chars!"1", chars!",556,196010") := by simpa [sampleRef] using hx
  subst hx
  exact ⟨by decide, by decide, _, rfl⟩

example : referenceInfo (x4Parsers { all := sampleDicts, institutes := [], names := [] })
      { tag := chars!"REFERENCE", subs := [(' ', [sampleRef.line, sampleRef.line])] } =
    .ok { reftype := chars!"J", name := chars!"PR", details := [chars!"120", chars!"(1)", chars!"556"], date := chars!"196010",
          pubyear := chars!"1960", pubtype := chars!"Journal", refs := [(' ', [sampleRef.code, sampleRef.code])] } :=
  C70_main_partial _ _ ' ' sampleRef [sampleRef] [] _ rfl
    (by
      intro y hy
      have : y = sampleRef := by simpa using hy
      subst this
      exact sampleRef_wf) (by simp) rfl

/-- a reference without commas cannot be read -/
theorem refOne_fails (D : Dict Str (Dict Str (List Str))) (s c : Str) (hs : UnquotedText s) (hne : noBlanks s ≠ []) (hcomma : ',' ∉ s) :
    referencesOf D false ('(' :: (s ++ ')' :: c)) = .error .referenceParsingError := by
  have hwf : (RefText.mk s []).wf := ⟨hs, hne, by simp⟩
  have hr : refOfTok D (.grp (parenToks s [])) = .error .referenceParsingError := by
    rw [show parenToks s [] = parenToks (RefText.mk s []).first (RefText.mk s []).parts from rfl, refOfTok_text D hwf]
    have ht : (RefText.mk s []).text = s := by simp [RefText.text, flatParens]
    have hsp : splitChar ',' (noBlanks s) = [noBlanks s] := by
      unfold splitChar
      apply splitOnP_none
      intro x hx
      simp only [beq_eq_false_iff_ne]
      rintro rfl
      exact hcomma (List.mem_filter.1 hx).1
    rw [ht, hsp]
    rfl
  obtain ⟨c', hc'⟩ := refCode_parens (l := []) hs (by simp) c (s.length + c.length + 1)
  have hlen : ('(' :: (s ++ ')' :: c)).length + 1 = s.length + c.length + 1 + 2 := by simp; omega
  rw [show flatParens s [] = s by simp [flatParens]] at hc'
  unfold referencesOf
  rw [if_neg (by rintro ⟨h1, -⟩; cases h1), hlen, hc']
  simp only
  unfold parenToks at hr
  rw [hr]

/-- A reference on a line of its own that cannot be read: the attributes of the field are lost, and the references before it are kept. -/
theorem refs_failed (D : TextDicts) (f : PlainField) (p : Char) (l : List RefLine) (z : Str)
    (hf : f.subs = [(p, l.map RefLine.line ++ [z])]) (hl : ∀ y ∈ l, y.wf D.all)
    (h2 : slice z 0 2 ≠ "((".toList) (h1 : slice z 0 1 = "(".toList) (hn : noNl z = z)
    (hfail : referencesOf D.all false z = .error .referenceParsingError) :
    referenceInfo (x4Parsers D) f = .ok (noReference [(p, l.map RefLine.code)]) := by
  have h3 : ∀ acc, refLoop acc false (l.map RefLine.line ++ [z]) =
      .ok (acc ++ (l.map RefLine.line ++ [z])) := by
    clear hf
    induction l with
    | nil =>
      intro acc
      rw [List.map_nil, List.nil_append, refLoop.eq_def]
      simp only
      rw [if_neg h2, if_pos ⟨rfl, h1⟩, hn]
      rw [show (if hasSub "))".toList z = true then false else false) = false by split <;> rfl, refLoop.eq_def]
    | cons x l ih =>
      intro acc
      obtain ⟨c', s', he, hc'⟩ := RefLine.not_double (hl x (by simp))
      have hn' : noNl x.line = x.line := noNl_id (RefLine.no_newline (hl x (by simp)))
      have h2' : slice x.line 0 2 ≠ "((".toList := by
        rw [he]
        show ['(', c'] ≠ ['(', '(']
        simp [hc']
      have h1' : slice x.line 0 1 = "(".toList := by rw [he]; rfl
      rw [List.map_cons, List.cons_append, refLoop.eq_def]
      simp only
      rw [if_neg h2', if_pos ⟨rfl, h1'⟩, hn']
      rw [show (if hasSub "))".toList x.line = true then false else false) = false by split <;> rfl]
      rw [ih (fun y hy => hl y (by simp [hy]))]
      simp
  have h4 : hasTautology (l.map RefLine.line ++ [z]) = false := by
    have := hasTautology_lines D.all l hl
    unfold hasTautology at *
    rw [List.any_append, this, Bool.false_or]
    simp only [List.any_cons, List.any_nil, Bool.or_false, beq_eq_false_iff_ne]
    exact h2
  have h5 : ∀ l : List RefLine, (∀ y ∈ l, y.wf D.all) →
      mapE (referencesOf D.all false) (l.map RefLine.line ++ [z]) = .error .referenceParsingError := by
    intro l hl
    induction l with
    | nil =>
      rw [List.map_nil, List.nil_append]
      unfold mapE
      rw [hfail]
    | cons x l ih =>
      rw [List.map_cons, List.cons_append]
      unfold mapE
      rw [refLine_read (hl x (by simp))]
      simp only
      rw [ih fun y hy => hl y (by simp [hy])]
  have h6 : refsOf (x4Parsers D) (p, l.map RefLine.line ++ [z]) = .error .referenceParsingError := by
    unfold refsOf
    simp only
    unfold refSplit
    rw [h3 []]
    simp only [List.nil_append, h4]
    rw [show (x4Parsers D).references false = referencesOf D.all false from rfl, h5 l hl]
  have h7 : referenceTry (x4Parsers D) f = .error .referenceParsingError := by
    unfold referenceTry
    rw [hf]
    unfold mapE
    rw [h6]
  have h8 : keptPieces (x4Parsers D) false (l.map RefLine.line ++ [z]) = l.map RefLine.code := by
    clear hf h3 h4 h6
    induction l with
    | nil =>
      rw [List.map_nil, List.nil_append]
      unfold keptPieces
      rw [show (x4Parsers D).references false = referencesOf D.all false from rfl, hfail]
      rfl
    | cons x l ih =>
      rw [List.map_cons, List.cons_append]
      unfold keptPieces
      rw [show (x4Parsers D).references false = referencesOf D.all false from rfl, refLine_read (hl x (by simp))]
      simp only
      rw [ih fun y hy => hl y (by simp [hy])]
      rfl
  have h9 : keptRefs (x4Parsers D) f.subs = [(p, l.map RefLine.code)] := by
    rw [hf]
    unfold keptRefs refSplit
    rw [h3 []]
    simp only [List.nil_append, h4]
    rw [show (x4Parsers D).references false = referencesOf D.all false from rfl, h5 l hl]
    simp only
    rw [h8]
  unfold referenceInfo
  rw [h7]
  simp only
  rw [h9]
  rfl

/-- C70 fails in general: if any other reference of the field has a single item, such as `(TO BE PUBLISHED)`, the attributes of the main
reference are lost (the references before it are kept for printing). -/
theorem C70_main_refuted (D : TextDicts) (f : PlainField) (p : Char) (l : List RefLine) (s c : Str)
    (hf : f.subs = [(p, l.map RefLine.line ++ ['(' :: (s ++ ')' :: c)])]) (hl : ∀ y ∈ l, y.wf D.all)
    (hs : UnquotedText s) (hne : noBlanks s ≠ []) (hcomma : ',' ∉ s) (hc : '\n' ∉ c) :
    referenceInfo (x4Parsers D) f = .ok (noReference [(p, l.map RefLine.code)]) := by
  obtain ⟨d, t, hd⟩ : ∃ d t, s = d :: t := by
    cases s with
    | nil => exact absurd rfl hne
    | cons d t => exact ⟨d, t, rfl⟩
  have hd' : d ≠ '(' := by
    rintro rfl
    rcases hs '(' (by rw [hd]; simp) with h | h
    · exact absurd h (by decide)
    · cases h
  have h2 : slice ('(' :: (s ++ ')' :: c)) 0 2 ≠ "((".toList := by
    rw [hd]
    show ['(', d] ≠ ['(', '(']
    simp [hd']
  have hn : noNl ('(' :: (s ++ ')' :: c)) = '(' :: (s ++ ')' :: c) := by
    apply noNl_id
    intro hm
    simp only [List.mem_cons, List.mem_append] at hm
    rcases hm with h | h | h | h
    · cases h
    · rcases hs _ h with h | h
      · exact absurd h (by decide)
      · cases h
    · cases h
    · exact hc h
  exact refs_failed D f p l _ hf hl h2 rfl hn (refOne_fails D.all s c hs hne hcomma)

example : referenceInfo (x4Parsers { all := sampleDicts, institutes := [], names := [] })
    { tag := chars!"REFERENCE", subs := [(' ', [sampleRef.line, chars!"(TO BE PUBLISHED)"])] } =
      .ok (noReference [(' ', [sampleRef.code])]) :=
  C70_main_refuted _ _ ' ' [sampleRef] chars!"TO BE PUBLISHED" [] rfl
    (by
      intro y hy
      have : y = sampleRef := by simpa using hy
      subst this
      exact sampleRef_wf) (by decide) (by decide) (by decide) (by simp)

/-! ### publication types -/

set_option maxRecDepth 20000 in
/-- the keys of dictionary 4 are the listed ones -/
theorem refTypeKeys_eq : (match getDictionary refTypeFile with | .ok d => d.keys | .error _ => []) = refTypeKeys := by
  decide +kernel

theorem refTypes_listed : ∀ t ∈ refTypeKeys, t ∉ [chars!"0", chars!"3", chars!"4"] → pubTypeMap.has t = true := by decide

/-- C69: every reference type in dictionary 4 has a publication type, except for the data libraries. -/
theorem C69_pubtypes_partial (d : Dict Str (List Str)) (hd : getDictionary refTypeFile = .ok d) (t : Str) (ht : t ∈ d.keys)
    (h : t ∉ [chars!"0", chars!"3", chars!"4"]) : ∃ pt, pubTypeMap.get t = .ok pt := by
  have hk := refTypeKeys_eq
  rw [hd] at hk
  simp only at hk
  rw [hk] at ht
  have h1 := refTypes_listed t ht h
  unfold Dict.get
  unfold Dict.has at h1
  obtain ⟨v, hv⟩ := Option.isSome_iff_exists.1 h1
  exact ⟨v, by rw [hv]⟩

/-- C69 fails for the data libraries, which dictionary 4 lists: the field cannot be read at all. -/
theorem C69_pubtypes_refuted (D : TextDicts) (f : PlainField) (p : Char) (x : RefLine) (l : List RefLine)
    (hf : f.subs = [(p, (x :: l).map RefLine.line)]) (hx : ∀ y ∈ x :: l, y.wf D.all)
    (ht : x.code.reftype ∈ [chars!"0", chars!"3", chars!"4"]) : referenceInfo (x4Parsers D) f = .error .keyError := by
  have h3 : mapE (refsOf (x4Parsers D)) f.subs = .ok [(p, (x :: l).map RefLine.code)] := by
    rw [hf]
    unfold mapE
    rw [refsOf_lines D p (x :: l) hx]
    rfl
  have h4 : referenceTry (x4Parsers D) f = .error .keyError := by
    unfold referenceTry
    rw [h3]
    simp only
    unfold firstRef
    simp only
    rw [show pyIdx ((x :: l).map RefLine.code) 0 = .ok x.code from rfl]
    simp only
    have : pubTypeMap.get x.code.reftype = .error .keyError := by
      simp only [List.mem_cons, List.not_mem_nil, or_false] at ht
      rcases ht with h | h | h <;> rw [h] <;> decide
    rw [this]
  unfold referenceInfo
  rw [h4]

example : referenceInfo (x4Parsers ⟨[(chars!"ReferenceTypes", [(chars!"4", [chars!"DATA", chars!"Experimental data library"])])], [], []⟩) { tag := chars!"REFERENCE", subs := [(' ', [chars!"(4,EXFOR,12345,2001)"])] } = .error .keyError := by
  decide +kernel

end X4
