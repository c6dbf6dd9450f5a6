import Mathlib.Tactic.IntervalCases
import Verif.Lemmas.Bib
/-! Properties C16, C40, C41: BIB sections. -/
namespace X4
variable {ρ : Type}

/-- grammars that accept everything, for examples -/
def anyParsers : FieldParsers Unit where
  reaction s := .ok ((), s)
  references _ _ := .ok []
  authors s := .ok [s]
  institutes s := .ok [(s, s, [])]

def demoBib : List Str :=
  ["BIB                  2          4".toList, "TITLE      On cross sections".toList, "           and more".toList,
   "AUTHOR     (A.Author)".toList, "STATUS     ok".toList, "ENDBIB               4".toList]

/-! ### C40 -/

/-- C40: the fields of a section are its content lines, cut exactly at the tagged
lines. Without content there is a single empty field. -/
theorem C40_fields (sec : List Str) :
    (sec.filter (fun l => !isBibFrame l) = [] ∧ bibChunkify sec = [[]]) ∨
    FieldCut (sec.filter fun l => !isBibFrame l) (bibChunkify sec) := bibLoop_true sec

/-- No other cut has these properties. -/
theorem C40_unique (sec : List Str) (fields : List (List Str)) (hne : ∃ l ∈ sec, isBibFrame l = false)
    (h : FieldCut (sec.filter fun l => !isBibFrame l) fields) : fields = bibChunkify sec := by
  rcases C40_fields sec with ⟨h0, -⟩ | h0
  · obtain ⟨l, hl, hf⟩ := hne
    rw [List.filter_eq_nil_iff] at h0
    simpa [hf] using h0 l hl
  · exact h.unique h0

example : bibChunkify demoBib = [["TITLE      On cross sections".toList, "           and more".toList],
    ["AUTHOR     (A.Author)".toList], ["STATUS     ok".toList]] := by decide +kernel

theorem extract_key {f : List Str} {k : Option Str} (h : extractX4FieldType f = .ok k) : k = fieldKey f := by
  cases f with
  | nil => simp [extractX4FieldType, pyIdx] at h
  | cons l ls =>
    simp only [extractX4FieldType, pyIdx, List.getElem?_cons_zero, Except.ok.injEq, tag_slice] at h
    exact h.symm

theorem bibStep_inv {P : FieldParsers ρ} {b b' : BibSection ρ} {f : List Str} (h : bibStep P b f = .ok b') :
    ∃ v, f ≠ [] ∧ buildField P (fieldKey f) f = .ok v ∧ b'.fields = b.fields.set (fieldKey f) v ∧
      b'.sortedKeys = b.sortedKeys ++ [fieldKey f] := by
  unfold bibStep at h
  cases hk : extractX4FieldType f with
  | error e => rw [hk] at h; cases h
  | ok k =>
    rw [hk] at h
    have hk' := extract_key hk
    subst hk'
    simp only at h
    cases hb : buildField P (fieldKey f) f with
    | error e => rw [hb] at h; cases h
    | ok v =>
      rw [hb] at h
      cases h
      refine ⟨v, ?_, rfl, rfl, rfl⟩
      rintro rfl
      simp [extractX4FieldType, pyIdx] at hk

theorem bibFold_lookup {P : FieldParsers ρ} (fs : List (List Str)) (b b' : BibSection ρ)
    (h : foldE (bibStep P) b fs = .ok b') :
    b'.sortedKeys = b.sortedKeys ++ fs.map fieldKey ∧
    ∀ k v, b'.fields.get? k = some v ↔
      (∃ pre f post, fs = pre ++ f :: post ∧ fieldKey f = k ∧ (∀ g ∈ post, fieldKey g ≠ k) ∧ buildField P k f = .ok v) ∨
      ((∀ g ∈ fs, fieldKey g ≠ k) ∧ b.fields.get? k = some v) := by
  induction fs generalizing b with
  | nil => simp only [foldE, Except.ok.injEq] at h; subst h; simp
  | cons f fs ih =>
    simp only [foldE] at h
    cases hs : bibStep P b f with
    | error e => rw [hs] at h; cases h
    | ok b1 =>
      rw [hs] at h
      obtain ⟨i1, i2⟩ := ih b1 h
      obtain ⟨v0, _, hv0, hf, hk⟩ := bibStep_inv hs
      refine ⟨by rw [i1, hk]; simp, ?_⟩
      intro k v
      rw [i2, hf, Dict.get?_set]
      constructor
      · rintro (⟨pre, g, post, rfl, h1, h2, h3⟩ | ⟨h1, h2⟩)
        · exact .inl ⟨f :: pre, g, post, rfl, h1, h2, h3⟩
        · split at h2
          · rename_i e
            subst e
            cases h2
            exact .inl ⟨[], f, fs, rfl, rfl, h1, hv0⟩
          · rename_i e
            refine .inr ⟨?_, h2⟩
            intro g hg
            rcases List.mem_cons.1 hg with rfl | hg
            · exact fun h => e h.symm
            · exact h1 g hg
      · rintro (⟨pre, g, post, he, h1, h2, h3⟩ | ⟨h1, h2⟩)
        · cases pre with
          | nil =>
            simp only [List.nil_append, List.cons.injEq] at he
            obtain ⟨rfl, rfl⟩ := he
            subst h1
            refine .inr ⟨h2, ?_⟩
            rw [if_pos rfl]
            rw [hv0] at h3
            cases h3
            rfl
          | cons p pre =>
            simp only [List.cons_append, List.cons.injEq] at he
            exact .inl ⟨pre, g, post, he.2, h1, h2, h3⟩
        · refine .inr ⟨fun g hg => h1 g (by simp [hg]), ?_⟩
          rw [if_neg (fun e => h1 f (by simp) e.symm)]
          exact h2

/-- C40: the keys of a parsed section are the tags (columns 0-9) of its fields, in order, and looking
a key up gives the value built from the last field with that tag. -/
theorem C40_lookup (P : FieldParsers ρ) (sec : List Str) (b : BibSection ρ) (h : BibSection.build P sec = .ok b) :
    b.sortedKeys = (bibChunkify sec).map fieldKey ∧
    ∀ k v, b.fields.get? k = some v ↔ ∃ pre f post, bibChunkify sec = pre ++ f :: post ∧ fieldKey f = k ∧
      (∀ g ∈ post, fieldKey g ≠ k) ∧ buildField P k f = .ok v := by
  obtain ⟨h1, h2⟩ := bibFold_lookup _ _ _ h
  refine ⟨by simpa using h1, fun k v => ?_⟩
  rw [h2]
  simp [Dict.get?]

/-- a pointer in column 10 does not belong to the tag -/
example : ∃ b, BibSection.build anyParsers ["METHOD    1(TOF)".toList, "          2(ACTIV)".toList] = .ok b ∧
    b.sortedKeys = [some "METHOD".toList] := ⟨_, rfl, by decide +kernel⟩

/-! ### C41 -/

theorem joinWith_cons (sep a : Str) {b : List Str} (hb : b ≠ []) :
    joinWith sep (a :: b) = a ++ sep ++ joinWith sep b := by
  obtain ⟨y, b, rfl⟩ := List.exists_cons_of_ne_nil hb
  simp [joinWith]

/-- the printed form: header with the number of fields and of lines, the lines, trailer -/
theorem joinWith_body (h : Str) (rss : List (List Str)) (hne : ∀ rs ∈ rss, rs ≠ []) (t : Str) :
    h ++ ['\n'] ++ ((rss.map fun rs => joinWith ['\n'] rs).flatMap fun r => r ++ ['\n']) ++ t =
      joinWith ['\n'] (h :: rss.flatten ++ [t]) := by
  induction rss generalizing h with
  | nil => simp [joinWith]
  | cons rs rss ih =>
    have hrs := hne rs (by simp)
    have := ih (joinWith ['\n'] rs) (fun x hx => hne x (by simp [hx]))
    simp only [List.map_cons, List.flatMap_cons, List.flatten_cons]
    have e1 : h ++ ['\n'] ++ (joinWith ['\n'] rs ++ ['\n'] ++
        List.flatMap (fun r => r ++ ['\n']) (List.map (fun rs => joinWith ['\n'] rs) rss)) ++ t =
        h ++ ['\n'] ++ (joinWith ['\n'] rs ++ ['\n'] ++
        List.flatMap (fun r => r ++ ['\n']) (List.map (fun rs => joinWith ['\n'] rs) rss) ++ t) := by simp
    rw [e1, this]
    have e2 : joinWith ['\n'] (joinWith ['\n'] rs :: rss.flatten ++ [t]) =
        joinWith ['\n'] (rs ++ (rss.flatten ++ [t])) := by
      rw [joinWith_append _ hrs (by simp), List.cons_append, joinWith_cons _ _ (by simp)]
    rw [e2, List.cons_append, joinWith_cons _ _ (by simp), ← List.append_assoc rs]

theorem digits_no_nl (n : Nat) : '\n' ∉ natStr n := by
  have : ∀ fuel n, '\n' ∉ natDigitsRev fuel n := by
    intro fuel
    have hd : ∀ k, k < 10 → '\n' ≠ digChar k := by
      intro k hk; interval_cases k <;> decide
    induction fuel with
    | zero => intro n; simp [natDigitsRev]
    | succ f ih =>
      intro n
      unfold natDigitsRev
      split
      · simp [hd n (by omega)]
      · simp [hd (n % 10) (by omega), ih]
  simp [natStr, this]

/-- C41 for sections that can be printed and whose tags are distinct. The printed text
consists of the header line, as many lines as both counters say, and the trailer; the
field counter is the number of fields and the line counter the number of content
lines of the source. -/
theorem C41_counters_partial (P : FieldParsers ρ) (sec : List Str) (b : BibSection ρ) (t : Str)
    (hb : BibSection.build P sec = .ok b) (hr : b.repr = .ok t) (hn : b.sortedKeys.Nodup)
    (hnl : ∀ l ∈ sec, '\n' ∉ l) :
    ∃ (body : List Str) (k n : Nat),
      splitChar '\n' t = (ljust "BIB".toList 11 ++ rjust (natStr k) 11 ++ rjust (natStr n) 11) :: body ++
        [ljust "ENDBIB".toList 11 ++ rjust (natStr n) 11] ∧
      k = b.fields.length ∧ k = (bibChunkify sec).length ∧ n = body.length ∧
      n = (sec.filter fun l => !isBibFrame l).length := by
  unfold BibSection.build at hb
  obtain ⟨new, h1, h2, h3⟩ := foldE_bib _ _ b hb rfl hn
  simp only [List.nil_append] at h1 h2
  -- printing succeeded
  unfold BibSection.repr at hr
  split at hr
  · simp at hr
  rename_i n hlen
  split at hr
  · simp at hr
  rename_i rs hrs
  simp only [Except.ok.injEq] at hr
  have hnd : b.fields.keys.Nodup := by
    have : b.fields.keys = b.sortedKeys := by rw [h1, h2]; rfl
    rw [this]; exact hn
  -- the fields one by one
  have hlines : ∀ c ∈ bibChunkify sec, ∀ l ∈ c, '\n' ∉ l := by
    intro c hc l hl
    rcases C40_fields sec with ⟨-, e⟩ | h
    · rw [e] at hc; simp at hc; subst hc; simp at hl
    · have : l ∈ (bibChunkify sec).flatten := List.mem_flatten.2 ⟨c, hc, hl⟩
      rw [h.all] at this
      exact hnl l (List.mem_of_mem_filter this)
  have hflat : (bibChunkify sec).flatten = sec.filter fun l => !isBibFrame l := by
    rcases C40_fields sec with ⟨e0, e⟩ | h
    · rw [e, e0]; rfl
    · exact h.all
  -- the printed lines of each field
  have hper : ∀ (cs : List (List Str)) (new : List (Option Str × BibField ρ)),
      List.Forall₂ (fun c kv => extractX4FieldType c = .ok kv.1 ∧ buildField P kv.1 c = .ok kv.2) cs new →
      (∀ c ∈ cs, ∀ l ∈ c, '\n' ∉ l) → (∀ kv ∈ new, kv.2 ≠ .noAuthor) →
      ∃ rss : List (List Str), List.Forall₂ (fun kv rs => kv.2.repr = .ok (joinWith ['\n'] rs)) new rss ∧
        List.Forall₂ (fun kv rs => kv.2.totalLen = .ok rs.length) new rss ∧
        (∀ rs ∈ rss, rs ≠ [] ∧ ∀ l ∈ rs, '\n' ∉ l) ∧ rss.flatten.length = cs.flatten.length := by
    intro cs new h
    induction h with
    | nil => intro _ _; exact ⟨[], .nil, .nil, by simp, by simp⟩
    | cons hc _ ih =>
      rename_i c kv cs new _
      intro hl hna
      obtain ⟨rss, k1, k2, k3, k4⟩ := ih (fun c hc => hl c (by simp [hc])) (fun kv hk => hna kv (by simp [hk]))
      rcases buildField_ok hc.2 with e | ⟨f, hf, e1, e2, -⟩
      · exact absurd e (hna kv (by simp))
      · obtain ⟨ls, q1, q2, q3, q4⟩ := repr_lines hf (hl c (by simp))
        refine ⟨ls :: rss, .cons (by rw [e2, q1]) k1, .cons ?_ k2, ?_, ?_⟩
        · rw [e1, totalLen_build c f hf, q2]
        · intro r hr
          rcases List.mem_cons.1 hr with rfl | hr
          · exact ⟨q3, q4⟩
          · exact k3 r hr
        · simp only [List.flatten_cons, List.length_append]; omega
  have hreprs : ∀ kv ∈ new, kv.2 ≠ .noAuthor := by
    intro kv hkv e
    have hk : kv.1 ∈ b.sortedKeys := by rw [h2]; exact List.mem_map.2 ⟨kv, hkv, rfl⟩
    obtain ⟨i, hi⟩ := List.getElem?_of_mem hk
    obtain ⟨y, -, hy⟩ := mapE_get hrs i _ hi
    unfold BibSection.fieldRepr Dict.get at hy
    rw [Dict.get?_eq_some_of_mem hnd (show (kv.1, kv.2) ∈ b.fields by rw [h1]; exact hkv)] at hy
    rw [e] at hy
    simp [BibField.repr] at hy
  obtain ⟨rss, k1, k2, k3, k4⟩ := hper _ _ h3 hlines hreprs
  have hrs' : rs = rss.map fun r => joinWith ['\n'] r := by
    have : mapE b.fieldRepr b.sortedKeys = .ok (rss.map fun r => joinWith ['\n'] r) := by
      rw [mapE_ok_iff, h2, List.forall₂_map_left_iff, List.forall₂_map_right_iff]
      refine (List.forall₂_iff_get.2 ⟨k1.length_eq, ?_⟩)
      intro i hi hj
      have := (List.forall₂_iff_get.1 k1).2 i hi hj
      unfold BibSection.fieldRepr Dict.get
      rw [Dict.get?_eq_some_of_mem hnd (show ((new.get ⟨i, hi⟩).1, (new.get ⟨i, hi⟩).2) ∈ b.fields by
        rw [h1]; exact List.get_mem new ⟨i, hi⟩)]
      exact this
    rw [this] at hrs
    exact (Except.ok.inj hrs).symm
  have hn' : n = rss.flatten.length := by
    unfold BibSection.totalLen at hlen
    have : mapE (fun kv => kv.2.totalLen) b.fields = .ok (rss.map List.length) := by
      rw [mapE_ok_iff, h1, List.forall₂_map_right_iff]
      exact k2
    rw [this] at hlen
    simp only [Except.ok.injEq] at hlen
    rw [← hlen, List.length_flatten]
  refine ⟨rss.flatten, b.fields.length, n, ?_, rfl, ?_, hn', ?_⟩
  · have hsp : ∀ m : Nat, '\n' ∉ rjust (natStr m) 11 := by
      intro m; simp [rjust, digits_no_nl]
    rw [← hr, hrs']
    have := joinWith_body (ljust "BIB".toList 11 ++ rjust (natStr b.fields.length) 11 ++ rjust (natStr n) 11) rss
      (fun r hr => (k3 r hr).1) (ljust "ENDBIB".toList 11 ++ rjust (natStr n) 11)
    rw [List.append_assoc _ (ljust "ENDBIB".toList 11), this, splitChar_joinWith _ (by simp)]
    intro l hl
    simp only [List.cons_append, List.mem_cons, List.mem_append, List.not_mem_nil, or_false] at hl
    rcases hl with rfl | hl | rfl
    · simp only [List.mem_append, not_or]
      exact ⟨⟨by decide, hsp _⟩, hsp _⟩
    · obtain ⟨r, hr, hl⟩ := List.mem_flatten.1 hl
      exact (k3 r hr).2 l hl
    · simp only [List.mem_append, not_or]
      exact ⟨by decide, hsp _⟩
  · rw [h1, h3.length_eq]
  · rw [hn', k4, hflat]

example : ∃ b t, BibSection.build anyParsers demoBib = .ok b ∧ b.repr = .ok t ∧ b.sortedKeys.Nodup ∧
    (∀ l ∈ demoBib, '\n' ∉ l) ∧ t = joinWith ['\n']
      ["BIB                  3          4".toList, "TITLE      On cross sections".toList, "           and more".toList,
       "AUTHOR     (A.Author)".toList, "STATUS     ok".toList, "ENDBIB               4".toList] :=
  ⟨_, _, rfl, rfl, by decide +kernel⟩

/-- C41 is false of the code as it stands: a section without an author list parses, but
printing it raises `AttributeError`. -/
theorem C41_no_author_refuted :
    ∃ b, BibSection.build anyParsers ["AUTHOR     (.NOT GIVEN.)".toList] = .ok b ∧ b.sortedKeys.Nodup ∧
      b.repr = .error .attributeError := ⟨_, rfl, by decide +kernel⟩

/-- With a repeated tag the announced numbers differ from what is printed: one field and
one line are announced, two lines are printed. -/
theorem C41_repeated_tag_refuted :
    ∃ b, BibSection.build anyParsers ["STATUS     a".toList, "STATUS     b".toList] = .ok b ∧
      b.repr = .ok (joinWith ['\n'] ["BIB                  1          1".toList, "STATUS     b".toList,
        "STATUS     b".toList, "ENDBIB               1".toList]) := ⟨_, rfl, by decide +kernel⟩

/-! ### C16 -/

/-- C16 for BIB sections that have a title: reading the metadata does not change the
section. (`getDataSets`: see `Props/DataSets`.) -/
theorem C16_meta_partial (b b' : BibSection ρ) (subent : Str) (m : BibMeta ρ)
    (h : b.meta subent = .ok (m, b')) (ht : b.fields.has (some "TITLE".toList) = true) : b' = b := by
  unfold BibSection.meta at h
  have hd : b.defaultTitle = b := by unfold BibSection.defaultTitle; rw [if_pos ht]
  split at h
  · simp at h
  · split at h
    · simp at h; rw [← h.2, hd]
    · split at h
      · simp at h
      · simp at h; rw [← h.2, hd]

/-- In every case only the title is touched, and reading a second time changes nothing. -/
theorem C16_meta_idempotent (b b' : BibSection ρ) (subent : Str) (m : BibMeta ρ)
    (h : b.meta subent = .ok (m, b')) :
    b'.sortedKeys = b.sortedKeys ∧
    (∀ k, k ≠ some "TITLE".toList → b'.fields.get? k = b.fields.get? k) ∧
    b'.meta subent = .ok (m, b') := by
  by_cases ht : b.fields.has (some "TITLE".toList) = true
  · have e := C16_meta_partial b b' subent m h ht
    subst e
    exact ⟨rfl, fun _ _ => rfl, h⟩
  · have hd : b.defaultTitle = { b with fields := b.fields.set (some "TITLE".toList) .none } := by
      unfold BibSection.defaultTitle; rw [if_neg ht]
    have hne1 : (some "AUTHOR".toList : Option Str) ≠ some "TITLE".toList := by decide
    have hne2 : (some "INSTITUTE".toList : Option Str) ≠ some "TITLE".toList := by decide
    have hne3 : (some "REFERENCE".toList : Option Str) ≠ some "TITLE".toList := by decide
    have hget : ∀ k, k ≠ some "TITLE".toList → b.defaultTitle.fields.get? k = b.fields.get? k := by
      intro k hk; rw [hd]; exact Dict.get?_set_ne _ _ hk
    have hdd : b.defaultTitle.defaultTitle = b.defaultTitle := by
      have : b.defaultTitle.fields.has (some "TITLE".toList) = true := by
        rw [hd]; unfold Dict.has; rw [Dict.get?_set]; simp
      unfold BibSection.defaultTitle at this ⊢
      rw [if_neg ht] at this ⊢
      rw [if_pos this]
    have hma : b.defaultTitle.metaAuthor = b.metaAuthor := by
      unfold BibSection.metaAuthor; rw [hget _ hne1]
    have hb' : b' = b.defaultTitle := by
      unfold BibSection.meta at h
      split at h
      · simp at h
      · split at h
        · simp at h; exact h.2.symm
        · split at h
          · simp at h
          · simp at h; exact h.2.symm
    subst hb'
    refine ⟨by rw [hd], hget, ?_⟩
    rw [← h]
    unfold BibSection.meta
    rw [hma, hdd, hget _ hne2, hget _ hne3]

/-- C16 is false of the code: after asking a section without a title for its metadata it
can no longer be printed. -/
theorem C16_refuted :
    ∃ (b b' : BibSection Unit) (m : BibMeta Unit) (t : Str),
      BibSection.build anyParsers ["STATUS     a".toList] = .ok b ∧ b.repr = .ok t ∧
      b.meta "A0001001".toList = .ok (m, b') ∧ b'.repr = .error .attributeError :=
  ⟨_, _, _, _, rfl, rfl, rfl, by decide +kernel⟩

example : ∃ b b' m, BibSection.build anyParsers demoBib = .ok b ∧ b.meta "A0001001".toList = .ok (m, b') ∧
    b.fields.has (some "TITLE".toList) = true ∧ m.author = some ["(A.Author)".toList] :=
  ⟨_, _, _, rfl, rfl, by decide +kernel⟩

end X4
