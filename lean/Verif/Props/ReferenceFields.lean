import Verif.Props.TextFields
import Verif.Props.DatasetText
import Verif.Model.Metadata
/-! Reference and author fields, continued: the printed names of publications, codes that cannot be read, and author lists without their closing
parenthesis. -/
namespace X4
open Parser

/-! ### printed names -/

/-- C66: the printed name of a book, a conference or a journal is the entry of the dictionary for its code; for codes which are not in the
dictionary it is the type and the code. -/
theorem C66_names (D : Dict Str (Dict Str (List Str))) (T N : Str) (d : Dict Str (List Str))
    (h : (T ∈ [chars!"A", chars!"B", chars!"C"] ∧ D.get? chars!"ConferencesAndBooks" = some d) ∨
      (T ∈ [chars!"J", chars!"K"] ∧ D.get? chars!"Journals" = some d)) :
    (∀ s rec, d.get? N = some (s :: rec) → prettyName D T N = .ok (s ++ chars!" ")) ∧
    (d.get? N = none → prettyName D T N = .ok (T ++ chars!"," ++ N)) := by
  rcases h with ⟨hT, hd⟩ | ⟨hT, hd⟩
  · refine ⟨fun s rec hN => ?_, fun hN => ?_⟩
    · unfold prettyName getRefName
      rw [if_pos hT]
      simp only [Dict.get, hd, hN]
      rfl
    · unfold prettyName getRefName
      rw [if_pos hT]
      simp only [Dict.get, hd, hN]
  · have hT' : T ∉ [chars!"A", chars!"B", chars!"C"] := by
      intro h
      simp only [List.mem_cons, List.not_mem_nil, or_false] at hT h
      rcases hT with rfl | rfl <;> rcases h with h | h | h <;> exact absurd h (by decide)
    refine ⟨fun s rec hN => ?_, fun hN => ?_⟩
    · unfold prettyName getRefName
      rw [if_neg hT', if_pos hT]
      simp only [Dict.get, hd, hN]
      rfl
    · unfold prettyName getRefName
      rw [if_neg hT', if_pos hT]
      simp only [Dict.get, hd, hN]

example : prettyName sampleDicts chars!"J" chars!"PR" = .ok chars!"Physical Review " ∧
    prettyName sampleDicts chars!"J" chars!"XYZ" = .ok chars!"J,XYZ" :=
  ⟨(C66_names sampleDicts chars!"J" chars!"PR" _ (.inr ⟨by decide, rfl⟩)).1 _ _ rfl,
   (C66_names sampleDicts chars!"J" chars!"XYZ" _ (.inr ⟨by decide, rfl⟩)).2 (by decide)⟩

/-- C66: the printed name of a report begins with the long name of its type in the dictionary, followed by the number of the report. -/
theorem C66_reports (D : Dict Str (Dict Str (List Str))) (T N a s : Str) (rec : List Str) (d : Dict Str (List Str))
    (hT : T ∈ [chars!"P", chars!"R", chars!"S"]) (hD : D.get? chars!"ReferenceTypes" = some d) (hd : d.get? T = some (a :: s :: rec)) :
    prettyName D T N = .ok (s ++ chars!": " ++ N ++ chars!" ") := by
  unfold prettyName getRefName
  have h1 : T ∉ [chars!"A", chars!"B", chars!"C"] ∧ T ∉ [chars!"J", chars!"K"] := by
    simp only [List.mem_cons, List.not_mem_nil, or_false] at hT
    rcases hT with rfl | rfl | rfl <;> decide
  rw [if_neg h1.1, if_neg h1.2, if_pos hT]
  simp only [Dict.get, hD, hd]
  rfl

example : prettyName sampleDicts chars!"R" chars!"LA-1234" = .ok chars!"Report other than progress report: LA-1234 " :=
  C66_reports sampleDicts chars!"R" chars!"LA-1234" _ _ [] _ (by decide) rfl rfl

/-! ### codes that cannot be read -/

/-- A code cannot be read: its date is no number, or its type is none of those the program knows. -/
def BadCode (r : RefCode) : Prop :=
  (∃ c ∈ r.date, c ≠ ')' ∧ isPyDigit c = false) ∨
  ((∃ y, parseX4Year r.date = .ok y) ∧
    r.reftype ∉ [chars!"A", chars!"B", chars!"C", chars!"J", chars!"K", chars!"P", chars!"R", chars!"S", chars!"T", chars!"W", chars!"X",
      chars!"0", chars!"3", chars!"4"])

theorem badCode_list (D : Dict Str (Dict Str (List Str))) (r : RefCode) (h : BadCode r) :
    refReraise (refCodeOfList D (refItems r)) = .error .referenceParsingError := by
  unfold refItems refCodeOfList
  have h1 : pyIdx (r.reftype :: r.name :: (r.details ++ [r.date])) 0 = .ok r.reftype := rfl
  have h2 : pyIdx (r.reftype :: r.name :: (r.details ++ [r.date])) 1 = .ok r.name := rfl
  have h3 : pyIdx (r.reftype :: r.name :: (r.details ++ [r.date])) ((r.reftype :: r.name :: (r.details ++ [r.date])).length - 1) = .ok r.date := by
    simp
  simp only [h1, h2, h3]
  rcases h with h | ⟨⟨y, hy⟩, hT⟩
  · unfold refYear
    rw [C43_type_error r.date (.inl h)]
    rfl
  · have h5 : refYear r.date = .ok y := by unfold refYear; rw [hy]
    have h6 : prettyName D r.reftype r.name = .error .lookupError := by
      unfold prettyName getRefName
      rw [if_neg (by simp at hT ⊢; tauto), if_neg (by simp at hT ⊢; tauto), if_neg (by simp at hT ⊢; tauto), if_neg (by simp at hT ⊢; tauto)]
    rw [h5]
    simp only
    rw [h6]
    rfl

/-- the text shows the items of the code -/
def ShowsCode (t : RefText) (r : RefCode) : Prop :=
  t.wf ∧ noBlanks t.text = joinWith [','] (refItems r) ∧ ∀ i ∈ refItems r, ',' ∉ i

theorem badCode_tok (D : Dict Str (Dict Str (List Str))) {t : RefText} {r : RefCode} (ht : ShowsCode t r) (h : BadCode r) :
    refOfTok D (.grp (parenToks t.first t.parts)) = .error .referenceParsingError := by
  obtain ⟨hw, h1, h2⟩ := ht
  rw [refOfTok_text D hw, h1, splitChar_joinWith h2 (by simp [refItems]), badCode_list D r h]

theorem badCode_fails (D : Dict Str (Dict Str (List Str))) (t : RefText) (r : RefCode) (c : Str) (ht : ShowsCode t r) (h : BadCode r) :
    referencesOf D false ('(' :: (t.text ++ ')' :: c)) = .error .referenceParsingError := by
  have hr := badCode_tok D ht h
  obtain ⟨⟨h0, hne, hl⟩, -⟩ := ht
  obtain ⟨c', hc'⟩ := refCode_parens h0 (fun x hx => ⟨(hl x hx).1, (hl x hx).2.1⟩) c (t.text.length + c.length + 1)
  have hlen : ('(' :: (t.text ++ ')' :: c)).length + 1 = t.text.length + c.length + 1 + 2 := by simp; omega
  unfold referencesOf
  rw [if_neg (by rintro ⟨h1, -⟩; cases h1)]
  rw [hlen, show parseString (pRefCode (t.text.length + c.length + 1 + 2)) ('(' :: (t.text ++ ')' :: c)) = _ from hc']
  simp only
  unfold parenToks at hr
  rw [hr]

/-- C70 fails in general: if any other reference of the field has a date that is no number, or an unknown type, the attributes of the main
reference are lost; nothing is raised, and the references before it are kept for printing. -/
theorem C70_code_refuted (D : TextDicts) (f : PlainField) (p : Char) (l : List RefLine) (t : RefText) (r : RefCode) (c : Str)
    (hf : f.subs = [(p, l.map RefLine.line ++ ['(' :: (t.text ++ ')' :: c)])]) (hl : ∀ y ∈ l, y.wf D.all)
    (ht : ShowsCode t r) (hr : BadCode r) (hc : '\n' ∉ c) :
    referenceInfo (x4Parsers D) f = .ok (noReference [(p, l.map RefLine.code)]) := by
  have hz : ∃ d s, '(' :: (t.text ++ ')' :: c) = '(' :: d :: s ∧ d ≠ '(' := by
    obtain ⟨d, s, hd, hp⟩ := RefText.first_cons ht.1
    refine ⟨d, s ++ (t.parts.flatMap fun x => '(' :: (x.1 ++ ')' :: x.2)) ++ ')' :: c, ?_, ?_⟩
    · unfold RefText.text flatParens
      rw [hd]
      simp
    · rintro rfl
      rcases hp with hp | hp
      · exact absurd hp (by decide)
      · cases hp
  have hn : '\n' ∉ '(' :: (t.text ++ ')' :: c) := by
    obtain ⟨⟨h0, -, hl⟩, -⟩ := ht
    have hw : ∀ s, UnquotedText s → '\n' ∉ s := by
      intro s hs hm
      rcases hs _ hm with h | h
      · exact absurd h (by decide)
      · cases h
    intro hm
    unfold RefText.text flatParens at hm
    simp only [List.mem_cons, List.mem_append, List.mem_flatMap] at hm
    rcases hm with h | (h | ⟨x, hx, h | h | h | h⟩) | h | h
    · cases h
    · exact hw _ h0 h
    · cases h
    · exact hw _ (hl x hx).1 h
    · cases h
    · exact hw _ (hl x hx).2.1 h
    · cases h
    · exact hc h
  refine refs_failed D f p l _ hf hl ?_ rfl (noNl_id hn) (badCode_fails D.all t r c ht hr)
  obtain ⟨d, s, he, hd⟩ := hz
  rw [he]
  show ['(', d] ≠ ['(', '(']
  simp [hd]

/-- a code without a year, for the examples -/
def sampleBad : RefCode where
  reftype := chars!"W"
  name := chars!"SMITH"
  details := []
  date := chars!"TBD"
  pubyear := []
  prettyName := []

theorem sampleBad_shows : ShowsCode ⟨chars!"W,SMITH,TBD", []⟩ sampleBad := ⟨⟨by decide, by decide, by simp⟩, by decide, by decide⟩

example : referenceInfo (x4Parsers { all := sampleDicts, institutes := [], names := [] })
    { tag := chars!"REFERENCE", subs := [(' ', [sampleRef.line, chars!"(W,SMITH,TBD)"])] } =
      .ok (noReference [(' ', [sampleRef.code])]) :=
  C70_code_refuted _ _ ' ' [sampleRef] ⟨chars!"W,SMITH,TBD", []⟩ sampleBad [] rfl
    (by
      intro y hy
      have : y = sampleRef := by simpa using hy
      subst this
      exact sampleRef_wf) sampleBad_shows (.inl ⟨'T', by decide, by decide, by decide⟩) (by simp)

/-- C70: of a reference given under several names, `((A)=(B)=…)`, of which one cannot be read, those before it are kept. -/
theorem C70_kept_partial (D : Dict Str (Dict Str (List Str))) (t : RefText) (r : RefCode) (l : List (Str × RefText × RefCode))
    (b : Str) (t' : RefText) (r' : RefCode) (more : List (Str × RefText)) (c : Str)
    (ht : t.wf) (hl : ∀ x ∈ l, Blanks x.1 ∧ x.2.1.wf) (hb : Blanks b) (hmore : ∀ x ∈ more, Blanks x.1 ∧ x.2.wf)
    (hitems : ∀ x ∈ (t, r) :: l.map Prod.snd, noBlanks x.1.text = joinWith [','] (refItems x.2) ∧ (∀ i ∈ refItems x.2, ',' ∉ i) ∧
      parseX4Year x.2.date = .ok x.2.pubyear ∧ prettyName D x.2.reftype x.2.name = .ok x.2.prettyName)
    (ht' : ShowsCode t' r') (hr' : BadCode r') :
    referencesOf D true (tautText t ((l.map fun x => (x.1, x.2.1)) ++ (b, t') :: more) c) = .error .referenceParsingError ∧
    referencesKeptOf D true (tautText t ((l.map fun x => (x.1, x.2.1)) ++ (b, t') :: more) c) = r :: l.map fun x => x.2.2 := by
  have hread : ∀ x ∈ (t, r) :: l.map Prod.snd, x.1.wf → refOfTok D (.grp (parenToks x.1.first x.1.parts)) = .ok x.2 := by
    intro x hx hw
    obtain ⟨h1, h2, h3, h4⟩ := hitems x hx
    rw [refOfTok_text D hw, h1]
    unfold refItems at h2 ⊢
    rw [splitChar_joinWith h2 (by simp), refCodeOfList_items D _ _ _ _ _ _ h3 h4]
    rfl
  generalize hL : (l.map fun x => (x.1, x.2.1)) ++ (b, t') :: more = L
  have hLne : L ≠ [] := by rw [← hL]; simp
  have hLw : ∀ x ∈ L, Blanks x.1 ∧ x.2.wf := by
    intro x hx
    rw [← hL, List.mem_append, List.mem_cons] at hx
    rcases hx with hx | rfl | hx
    · obtain ⟨y, hy, rfl⟩ := List.mem_map.1 hx
      exact hl y hy
    · exact ⟨hb, ht'.1⟩
    · exact hmore x hx
  obtain ⟨c', hc'⟩ := pRefTautology_text ((tautText t L c).length - 1) t ht L hLne hLw c
  have hlen : (tautText t L c).length + 1 = (tautText t L c).length - 1 + 2 := by
    have : 0 < (tautText t L c).length := by simp [tautText]
    omega
  have heq : '=' ∈ tautText t L c := by
    cases L with
    | nil => exact absurd rfl hLne
    | cons x l => simp [tautText, tautPart]
  have hfil : (Tok.grp (parenToks t.first t.parts) :: L.flatMap fun x => [Tok.str ['='], .grp (parenToks x.2.first x.2.parts)]).filter notEquals =
      .grp (parenToks t.first t.parts) :: L.map fun x => .grp (parenToks x.2.first x.2.parts) := by
    rw [List.filter_cons_of_pos rfl, List.filter_flatMap]
    congr 1
    clear * -
    induction L with
    | nil => rfl
    | cons x l ih =>
      rw [List.flatMap_cons, ih]
      rfl
  have hfirst := hread (t, r) (by simp) ht
  have hrest : ∀ x ∈ l, refOfTok D (.grp (parenToks x.2.1.first x.2.1.parts)) = .ok x.2.2 := fun x hx =>
    hread x.2 (List.mem_cons_of_mem _ (List.mem_map.2 ⟨x, hx, rfl⟩)) (hl x hx).2
  have hbad := badCode_tok D ht' hr'
  simp only at hfirst
  constructor
  · unfold referencesOf
    rw [if_pos ⟨rfl, heq⟩, hlen, hc']
    simp only
    rw [List.dropLast_concat, hfil]
    unfold mapE
    rw [hfirst]
    simp only
    have : mapE (refOfTok D) (L.map fun x => .grp (parenToks x.2.first x.2.parts)) = .error .referenceParsingError := by
      rw [← hL]
      clear * - hrest hbad
      induction l with
      | nil =>
        rw [List.map_nil, List.nil_append, List.map_cons]
        unfold mapE
        rw [hbad]
      | cons x l ih =>
        rw [List.map_cons, List.cons_append, List.map_cons]
        unfold mapE
        simp only
        rw [hrest x (by simp)]
        simp only
        rw [ih fun y hy => hrest y (by simp [hy])]
    rw [this]
  · unfold referencesKeptOf
    rw [if_pos ⟨rfl, heq⟩, hlen, hc']
    simp only
    rw [List.dropLast_concat, hfil]
    unfold okPrefix
    rw [hfirst]
    simp only
    congr 1
    rw [← hL]
    clear * - hrest hbad
    induction l with
    | nil =>
      rw [List.map_nil, List.nil_append, List.map_cons]
      unfold okPrefix
      rw [hbad]
      rfl
    | cons x l ih =>
      rw [List.map_cons, List.cons_append, List.map_cons]
      unfold okPrefix
      simp only
      rw [hrest x (by simp)]
      simp only
      rw [ih fun y hy => hrest y (by simp [hy])]
      rfl

set_option maxRecDepth 20000 in
example : referencesKeptOf sampleDicts true chars!"((J,PR,120,556,1960)=(W,SMITH,TBD)=(J,PR,1,1960))" =
    [{ reftype := chars!"J", name := chars!"PR", details := [chars!"120", chars!"556"], date := chars!"1960",
       pubyear := chars!"1960", prettyName := chars!"Physical Review " }] :=
  (C70_kept_partial sampleDicts ⟨chars!"J,PR,120,556,1960", []⟩ _ [] [] ⟨chars!"W,SMITH,TBD", []⟩ sampleBad
    [([], ⟨chars!"J,PR,1,1960", []⟩)] [] ⟨by decide, by decide, by simp⟩ (by simp) Blanks.nil
    (by
      intro x hx
      simp only [List.mem_singleton] at hx
      subst hx
      exact ⟨Blanks.nil, by decide, by decide, by simp⟩)
    (by
      intro x hx
      simp only [List.map_nil, List.mem_singleton] at hx
      subst hx
      exact ⟨by decide, by decide, by decide, by decide⟩) sampleBad_shows (.inl ⟨'T', by decide, by decide, by decide⟩)).2

/-- C70: what a REFERENCE field keeps for printing when the reference under its several names cannot be read: the references on the lines before
it and the names before the one that cannot be read. The attributes of the main reference are lost. -/
theorem C70_kept_field_partial (D : TextDicts) (f : PlainField) (p : Char) (ls : List RefLine) (t : RefText) (r : RefCode)
    (l : List (Str × RefText × RefCode)) (b : Str) (t' : RefText) (r' : RefCode) (more : List (Str × RefText)) (c : Str)
    (hf : f.subs = [(p, ls.map RefLine.line ++ [tautText t ((l.map fun x => (x.1, x.2.1)) ++ (b, t') :: more) c])])
    (hls : ∀ y ∈ ls, y.wf D.all ∧ '=' ∉ y.line)
    (hnl : '\n' ∉ tautText t ((l.map fun x => (x.1, x.2.1)) ++ (b, t') :: more) c)
    (ht : t.wf) (hl : ∀ x ∈ l, Blanks x.1 ∧ x.2.1.wf) (hb : Blanks b) (hmore : ∀ x ∈ more, Blanks x.1 ∧ x.2.wf)
    (hitems : ∀ x ∈ (t, r) :: l.map Prod.snd, noBlanks x.1.text = joinWith [','] (refItems x.2) ∧ (∀ i ∈ refItems x.2, ',' ∉ i) ∧
      parseX4Year x.2.date = .ok x.2.pubyear ∧ prettyName D.all x.2.reftype x.2.name = .ok x.2.prettyName)
    (ht' : ShowsCode t' r') (hr' : BadCode r') :
    referenceInfo (x4Parsers D) f = .ok (noReference [(p, ls.map RefLine.code ++ r :: l.map fun x => x.2.2)]) := by
  obtain ⟨hfail, hkept⟩ := C70_kept_partial D.all t r l b t' r' more c ht hl hb hmore hitems ht' hr'
  have h2 : slice (tautText t ((l.map fun x => (x.1, x.2.1)) ++ (b, t') :: more) c) 0 2 = "((".toList := rfl
  revert hf hnl hfail hkept h2
  generalize tautText t ((l.map fun x => (x.1, x.2.1)) ++ (b, t') :: more) c = z
  intro hf hnl hfail hkept h2
  have hline : ∀ y ∈ ls, referencesOf D.all true y.line = .ok [y.code] := by
    intro y hy
    obtain ⟨⟨h1, -, h3, h4, h5, h6⟩, he⟩ := hls y hy
    exact C66_reference_partial D.all true y.text y.comment h1 y.code.reftype y.code.name y.code.date y.code.pubyear y.code.prettyName
      y.code.details h3 h4 h5 h6 (.inr he)
  have h3 : ∀ acc, refLoop acc false (ls.map RefLine.line ++ [z]) = .ok (acc ++ (ls.map RefLine.line ++ [z])) := by
    clear hf hline
    induction ls with
    | nil =>
      intro acc
      rw [List.map_nil, List.nil_append, refLoop.eq_def]
      simp only
      rw [if_pos h2, noNl_id hnl, refLoop.eq_def]
    | cons x ls ih =>
      intro acc
      obtain ⟨c', s', he, hc'⟩ := RefLine.not_double (hls x (by simp)).1
      have hn' : noNl x.line = x.line := noNl_id (RefLine.no_newline (hls x (by simp)).1)
      have h2' : slice x.line 0 2 ≠ "((".toList := by
        rw [he]
        show ['(', c'] ≠ ['(', '(']
        simp [hc']
      have h1' : slice x.line 0 1 = "(".toList := by rw [he]; rfl
      rw [List.map_cons, List.cons_append, refLoop.eq_def]
      simp only
      rw [if_neg h2', if_pos ⟨rfl, h1'⟩, hn']
      rw [show (if hasSub "))".toList x.line = true then false else false) = false by split <;> rfl]
      rw [ih (fun y hy => hls y (by simp [hy]))]
      simp
  have h4 : hasTautology (ls.map RefLine.line ++ [z]) = true := by
    unfold hasTautology
    rw [List.any_append]
    simp [h2]
  have h5 : mapE (referencesOf D.all true) (ls.map RefLine.line ++ [z]) = .error .referenceParsingError := by
    clear hf h3 h4 hls
    induction ls with
    | nil =>
      rw [List.map_nil, List.nil_append]
      unfold mapE
      rw [hfail]
    | cons x ls ih =>
      rw [List.map_cons, List.cons_append]
      unfold mapE
      rw [hline x (by simp)]
      simp only
      rw [ih fun y hy => hline y (by simp [hy])]
  have h6 : keptPieces (x4Parsers D) true (ls.map RefLine.line ++ [z]) = ls.map RefLine.code ++ r :: l.map fun x => x.2.2 := by
    clear hf h3 h4 h5 hls
    induction ls with
    | nil =>
      rw [List.map_nil, List.nil_append]
      unfold keptPieces
      rw [show (x4Parsers D).references true = referencesOf D.all true from rfl, hfail]
      exact hkept
    | cons x ls ih =>
      rw [List.map_cons, List.cons_append]
      unfold keptPieces
      rw [show (x4Parsers D).references true = referencesOf D.all true from rfl, hline x (by simp)]
      simp only
      rw [ih fun y hy => hline y (by simp [hy])]
      rfl
  have h7 : referenceTry (x4Parsers D) f = .error .referenceParsingError := by
    unfold referenceTry
    rw [hf]
    unfold mapE refsOf refSplit
    rw [h3 []]
    simp only [List.nil_append, h4]
    rw [show (x4Parsers D).references true = referencesOf D.all true from rfl, h5]
  have h8 : keptRefs (x4Parsers D) f.subs = [(p, ls.map RefLine.code ++ r :: l.map fun x => x.2.2)] := by
    rw [hf]
    unfold keptRefs refSplit
    rw [h3 []]
    simp only [List.nil_append, h4]
    rw [show (x4Parsers D).references true = referencesOf D.all true from rfl, h5]
    simp only
    rw [h6]
  unfold referenceInfo
  rw [h7]
  simp only
  rw [h8]
  rfl

set_option maxRecDepth 20000 in
example : referenceInfo (x4Parsers { all := sampleDicts, institutes := [], names := [] })
    { tag := chars!"REFERENCE",
      subs := [(' ', [sampleRef.line, chars!"((J,PR,120,556,1960)=(W,SMITH,TBD)=(J,PR,1,1960))"])] } =
    .ok (noReference [(' ', [sampleRef.code,
      { reftype := chars!"J", name := chars!"PR", details := [chars!"120", chars!"556"], date := chars!"1960",
        pubyear := chars!"1960", prettyName := chars!"Physical Review " }])]) :=
  C70_kept_field_partial _ _ ' ' [sampleRef] ⟨chars!"J,PR,120,556,1960", []⟩ _ [] [] ⟨chars!"W,SMITH,TBD", []⟩ sampleBad
    [([], ⟨chars!"J,PR,1,1960", []⟩)] [] rfl
    (by
      intro y hy
      have : y = sampleRef := by simpa using hy
      subst this
      exact ⟨sampleRef_wf, by decide⟩)
    (by decide) ⟨by decide, by decide, by simp⟩ (by simp) Blanks.nil
    (by
      intro x hx
      simp only [List.mem_singleton] at hx
      subst hx
      exact ⟨Blanks.nil, by decide, by decide, by simp⟩)
    (by
      intro x hx
      simp only [List.map_nil, List.mem_singleton] at hx
      subst hx
      exact ⟨by decide, by decide, by decide, by decide⟩) sampleBad_shows (.inl ⟨'T', by decide, by decide, by decide⟩)

/-- The words the program uses for the types of reference of dictionary 4: `A` an abstract of a conference paper, `B` a book, `C` a conference
paper, `J` a journal, `K` an abstract of a journal, `P` a progress report, `R` another report, `S` a report with the papers of a conference,
`T` a thesis, `W` a private communication, `X` a preprint. -/
inductive PubTypeOf : Str → Str → Prop
  | abstract : PubTypeOf chars!"A" chars!"Abstract"
  | book : PubTypeOf chars!"B" chars!"Book"
  | conference : PubTypeOf chars!"C" chars!"Conf. Proc."
  | journal : PubTypeOf chars!"J" chars!"Journal"
  | journalAbstract : PubTypeOf chars!"K" chars!"Abstract of Journal"
  | progress : PubTypeOf chars!"P" chars!"Prog. Report"
  | report : PubTypeOf chars!"R" chars!"Lab Report"
  | conferenceReport : PubTypeOf chars!"S" chars!"Conf. Proc."
  | thesis : PubTypeOf chars!"T" chars!"Thesis"
  | privateComm : PubTypeOf chars!"W" chars!"Private Comm."
  | preprint : PubTypeOf chars!"X" chars!"Preprint"

/-- C69: a REFERENCE field whose references can all be read gets the publication type that belongs to the type of its first reference. -/
theorem C69_words_partial (D : TextDicts) (f : PlainField) (p : Char) (x : RefLine) (l : List RefLine) (more : List (Char × List RefLine)) (pt : Str)
    (hf : f.subs = (p, (x :: l).map RefLine.line) :: more.map fun kv => (kv.1, kv.2.map RefLine.line))
    (hx : ∀ y ∈ x :: l, y.wf D.all) (hmore : ∀ kv ∈ more, ∀ y ∈ kv.2, y.wf D.all) (hpt : PubTypeOf x.code.reftype pt) :
    ∃ i, referenceInfo (x4Parsers D) f = .ok i ∧ i.pubtype = pt := by
  refine ⟨_, C70_main_partial D f p x l more pt hf hx hmore ?_, rfl⟩
  revert hpt
  generalize x.code.reftype = t
  intro hpt
  cases hpt <;> rfl

example : ∃ i, referenceInfo (x4Parsers { all := sampleDicts, institutes := [], names := [] })
    { tag := chars!"REFERENCE", subs := [(' ', [sampleRef.line])] } = .ok i ∧ i.pubtype = chars!"Journal" :=
  C69_words_partial _ _ ' ' sampleRef [] [] _ rfl
    (by
      intro y hy
      have : y = sampleRef := by simpa using hy
      subst this
      exact sampleRef_wf) (by simp) .journal

/-! ### author lists without a closing parenthesis -/

theorem pNestedItem_nil (n : Nat) : (pNestedItem n).impl [] = none := by
  have hnw : NW [] := by simp [NW]
  unfold pNestedItem
  rw [first_nw hnw, first_nw hnw, pQuoted_none (by simp), pNested_none (by simp), pContent_stop (by simp)]
  rfl

theorem loops_unclosed (n : Nat) {s : Str} (hs : UnquotedText s) : ∃ ts b, Blanks b ∧ Loops (pNestedItem n) s ts b := by
  refine text_induction (P := fun s => ∃ ts b, Blanks b ∧ Loops (pNestedItem n) s ts b) ?_ ?_ s hs
  · intro b hb
    refine ⟨[], b, hb, .stop ?_⟩
    rw [pNestedItem_parse]
    have := pNestedItem_skip n (s := []) hb
    rw [List.append_nil] at this
    rw [this, pNestedItem_nil]
  · intro b w r1 hb hne hw hr1 _ ih
    obtain ⟨ts, b', hb', hl⟩ := ih
    have hh : ∀ c ∈ r1.head?, isNestedStop c = true ∧ c ≠ '\'' ∧ c ≠ '"' := by
      intro c hc
      rw [hr1 c hc]
      decide
    refine ⟨[.str w] ++ ts, b', hb', ?_⟩
    exact Loops.step (p := pNestedItem n) (s1 := r1) (t := [.str w])
      (by rw [pNestedItem_parse, pNestedItem_skip n hb, pNestedItem_word n hne hw hh])
      (by
        have : 0 < w.length := List.length_pos_iff.2 hne
        simp only [List.length_append]; omega) hl

theorem pNested_unclosed (n : Nat) {s : Str} (hs : UnquotedText s) : (pNested (n + 1)).impl ('(' :: s) = none := by
  obtain ⟨ts, b, hb, hl⟩ := loops_unclosed n hs
  have h1 : (many (pNestedItem n)).parse true s = some (ts, b) := by
    have hm := hl.many (by rw [pNestedItem_parse, pNestedItem_parse])
    have hpre : (many (pNestedItem n)).pre = false := rfl
    unfold parse
    rw [hpre]
    simpa using hm
  have h2 : pRpar.parse true b = none := by
    have := parse_skip (p := pRpar) rfl rfl (s := []) hb.white
    rw [List.append_nil] at this
    rw [this]
    rfl
  have h3 := and_none_right (and_some (pLpar_cons s) h1) h2
  show Parser.parse (group (and (and pLpar (many (pNestedItem n))) pRpar)) false _ = _
  rw [parse_false]
  exact group_none h3

/-- C67: an author list whose closing parenthesis is missing is read like the one with it. -/
theorem C67_unclosed (s : Str) (hs : UnquotedText s) :
    authorsOfText ('(' :: s) = .ok ((splitChar ',' s).map fun p => title (squash p)) := by
  have h1 : parseString (pRefCode (('(' :: s).length + 1)) ('(' :: s) = .error .parseException := by
    unfold parseString
    rw [expandTabs_id _ _ (by
      simp only [List.mem_cons, not_or]
      exact ⟨by decide, unquoted_no_tab hs⟩), parse_nw (NW_cons.2 rfl)]
    rw [show (pRefCode (('(' :: s).length + 1)).impl ('(' :: s) = none from and_none_left (pNested_unclosed _ hs)]
  have h2 : ('(' :: s).takeWhile (· ≠ ')') ++ [')'] = '(' :: (s ++ ')' :: []) := by
    have : ('(' :: s).takeWhile (· ≠ ')') = '(' :: s := by
      have := takeWhile_all (p := (· ≠ ')')) (a := '(' :: s) [] ?_
      · rwa [List.append_nil, List.takeWhile_nil, List.append_nil] at this
      intro c hc
      simp only [ne_eq, decide_not, Bool.not_eq_true', decide_eq_false_iff_not]
      rintro rfl
      rcases List.mem_cons.1 hc with h | h
      · cases h
      · rcases hs _ h with h | h
        · exact absurd h (by decide)
        · cases h
    rw [this]; rfl
  rw [← C67_authors_partial s [] hs]
  obtain ⟨c', hc'⟩ := refCode_parens (l := []) hs (by simp) [] (s.length + 1)
  have hlen : ('(' :: (s ++ ')' :: [])).length + 1 = s.length + 1 + 2 := by simp
  rw [show flatParens s [] = s by simp [flatParens]] at hc'
  have h3 : authorTokens ('(' :: s) = authorTokens ('(' :: (s ++ ')' :: [])) := by
    rw [authorTokens_ok (t := '(' :: (s ++ ')' :: [])) (by rw [hlen]; exact hc')]
    unfold authorTokens
    rw [h1]
    simp only
    rw [h2, hlen, hc']
  unfold authorsOfText
  rw [h3]

example : authorsOfText chars!"(A.B.SMITH, J.VAN  DER BERG" = .ok [chars!"A.B.Smith", chars!"J.Van Der Berg"] :=
  C67_unclosed chars!"A.B.SMITH, J.VAN  DER BERG" (by decide)

/-- C67: an AUTHOR field whose text says that there are none is printed as "No author given", and every other one as its authors, separated by
commas. -/
theorem C67_printed {ρ : Type} (P : FieldParsers ρ) (raw : List Str) (v : BibField ρ) (h : buildField P (some chars!"AUTHOR") raw = .ok v) :
    ((∃ a b, joinWith ['\n'] raw = a ++ chars!"No author given" ++ b ∨ joinWith ['\n'] raw = a ++ chars!".NOT GIVEN." ++ b) →
      v.metaStr = chars!"No author given") ∧
    ((∀ a b, joinWith ['\n'] raw ≠ a ++ chars!"No author given" ++ b ∧ joinWith ['\n'] raw ≠ a ++ chars!".NOT GIVEN." ++ b) →
      ∃ f as, v = .author f as ∧ (as ≠ [] → v.metaStr = joinWith chars!", " as)) := by
  have hno : isNoAuthor raw = true ↔
      (∃ a b, joinWith ['\n'] raw = a ++ chars!"No author given" ++ b) ∨ ∃ a b, joinWith ['\n'] raw = a ++ chars!".NOT GIVEN." ++ b := by
    unfold isNoAuthor
    rw [Bool.or_eq_true, hasSub_iff, hasSub_iff]
    rfl
  unfold buildField at h
  rw [if_neg (by decide), if_neg (by decide), if_neg (by decide), if_pos (by decide)] at h
  constructor
  · rintro ⟨a, b, hab⟩
    rw [if_pos (hno.2 (hab.elim (fun x => .inl ⟨a, b, x⟩) (fun x => .inr ⟨a, b, x⟩)))] at h
    cases h
    rfl
  · intro hn
    rw [if_neg (by
      intro hc
      rcases hno.1 hc with ⟨a, b, x⟩ | ⟨a, b, x⟩
      · exact (hn a b).1 x
      · exact (hn a b).2 x)] at h
    unfold finishField at h
    split at h
    · cases h
    · split at h
      · cases h
      · cases h
        rename_i f _ _ as _
        refine ⟨f, as, rfl, fun hne => ?_⟩
        show authorsStr as = _
        unfold authorsStr
        rw [if_neg hne]

example : ∃ v, buildField (x4Parsers { all := [], institutes := [], names := [] }) (some chars!"AUTHOR") [chars!"AUTHOR     (.NOT GIVEN.)"] = .ok v ∧
    v.metaStr = chars!"No author given" :=
  ⟨.noAuthor, rfl, (C67_printed (x4Parsers { all := [], institutes := [], names := [] }) [chars!"AUTHOR     (.NOT GIVEN.)"] _ rfl).1 ⟨chars!"AUTHOR     (", [')'], .inr (by decide)⟩⟩

/-- C67: an AUTHOR field gives the authors of all its pointers, pointer after pointer. -/
theorem C67_field_partial (D : TextDicts) (raw : List Str) (f : PlainField) (hf : PlainField.build raw = .ok f)
    (hno : ∀ a b, joinWith ['\n'] raw ≠ a ++ chars!"No author given" ++ b ∧ joinWith ['\n'] raw ≠ a ++ chars!".NOT GIVEN." ++ b)
    (au : Char → Str × Str)
    (hau : ∀ kv ∈ f.subs, (kv.2.map strip).flatten = '(' :: ((au kv.1).1 ++ ')' :: (au kv.1).2) ∧ UnquotedText (au kv.1).1) :
    buildField (x4Parsers D) (some chars!"AUTHOR") raw =
      .ok (.author f (f.subs.keys.flatMap fun p => (splitChar ',' (au p).1).map fun x => title (squash x))) := by
  have hn : isNoAuthor raw = false := by
    cases h : isNoAuthor raw with
    | false => rfl
    | true =>
      unfold isNoAuthor at h
      rw [Bool.or_eq_true, hasSub_iff, hasSub_iff] at h
      rcases h with ⟨a, b, h⟩ | ⟨a, b, h⟩
      · exact absurd h (hno a b).1
      · exact absurd h (hno a b).2
  have hm : mapE (authorsOf (x4Parsers D)) f.subs = .ok (f.subs.map fun kv => (splitChar ',' (au kv.1).1).map fun x => title (squash x)) := by
    rw [mapE_ok_iff, List.forall₂_map_right_iff, List.forall₂_same]
    intro kv hkv
    obtain ⟨h1, h2⟩ := hau kv hkv
    unfold authorsOf
    rw [h1]
    show reraise _ (authorsOfText _) = _
    rw [C67_authors_partial _ _ h2]
    rfl
  unfold buildField
  rw [if_neg (by decide), if_neg (by decide), if_neg (by decide), if_pos (by decide), hn, if_neg (by decide), hf]
  unfold finishField
  simp only [hm, Dict.keys, List.flatMap_map]
  rw [List.flatMap_def]

/-- C67_field_partial applies: two pointers, and names on two lines. -/
example : ∃ f, buildField (x4Parsers { all := [], institutes := [], names := [] }) (some chars!"AUTHOR")
      [chars!"AUTHOR    1(A.B.SMITH, J.VAN  DER BERG, ", chars!"           X.YU) first", chars!"          2(E.E.S.)"] =
    .ok (.author f [chars!"A.B.Smith", chars!"J.Van Der Berg", chars!"X.Yu", chars!"E.E.S."]) :=
  ⟨_, C67_field_partial _ _ ⟨chars!"AUTHOR", [('1', [chars!"(A.B.SMITH, J.VAN  DER BERG,", chars!"X.YU) first"]), ('2', [chars!"(E.E.S.)"])]⟩
    (by decide +kernel) (fun a b =>
      ⟨fun h => absurd ((hasSub_iff _ _).2 ⟨a, b, h⟩) (by decide +kernel), fun h => absurd ((hasSub_iff _ _).2 ⟨a, b, h⟩) (by decide +kernel)⟩)
    (fun p => if p = '1' then (chars!"A.B.SMITH, J.VAN  DER BERG,X.YU", chars!" first") else (chars!"E.E.S.", []))
    (by decide +kernel)⟩

/-- C68: an INSTITUTE field gives the institutes of all its pointers, pointer after pointer. -/
theorem C68_field_partial (D : TextDicts) (hI : ∀ e ∈ D.institutes, e.2 ≠ []) (raw : List Str) (f : PlainField) (hf : PlainField.build raw = .ok f)
    (ins : Char → List (Str × Str))
    (hins : ∀ kv ∈ f.subs, subStr kv.2 = instText (ins kv.1) ∧ ins kv.1 ≠ [] ∧
      ∀ x ∈ ins kv.1, x.1 ≠ [] ∧ (∀ c ∈ x.1, wordChar c = true) ∧ TextOf wordChar x.2) :
    buildField (x4Parsers D) (some chars!"INSTITUTE") raw =
      .ok (.institute f (f.subs.keys.flatMap fun p => (ins p).map fun x => (x.1, instName D.institutes x.1, title (squash x.2)))) := by
  have hm : mapE (institutesOf (x4Parsers D)) f.subs =
      .ok (f.subs.map fun kv => (ins kv.1).map fun x => (x.1, instName D.institutes x.1, title (squash x.2))) := by
    rw [mapE_ok_iff, List.forall₂_map_right_iff, List.forall₂_same]
    intro kv hkv
    obtain ⟨h1, h2, h3⟩ := hins kv hkv
    unfold institutesOf
    rw [h1]
    show reraise _ (institutesOfText _ _) = _
    rw [C68_institutes_partial _ hI _ h2 h3]
    rfl
  unfold buildField
  rw [if_neg (by decide), if_neg (by decide), if_neg (by decide), if_neg (by decide), if_pos (by decide), hf]
  unfold finishField
  simp only [hm, Dict.keys, List.flatMap_map]
  rw [List.flatMap_def]

/-- C68_field_partial applies. -/
example : ∃ f, buildField (x4Parsers { all := [], institutes := sampleInst, names := [] }) (some chars!"INSTITUTE")
      [chars!"INSTITUTE 1(1USALAS)", chars!"          2(1USALAS) second", chars!"           author"] =
    .ok (.institute f [(chars!"1USALAS", chars!"Los Alamos National Laboratory, NM", []),
      (chars!"1USALAS", chars!"Los Alamos National Laboratory, NM", chars!"Second Author")]) :=
  ⟨_, C68_field_partial { all := [], institutes := sampleInst, names := [] } (by decide) _
    ⟨chars!"INSTITUTE", [('1', [chars!"(1USALAS)"]), ('2', [chars!"(1USALAS) second", chars!"author"])]⟩ (by decide +kernel)
    (fun p => if p = '1' then [(chars!"1USALAS", [])] else [(chars!"1USALAS", chars!" second author")])
    (by unfold TextOf; decide +kernel)⟩

end X4
