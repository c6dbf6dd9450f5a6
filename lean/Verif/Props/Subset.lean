import Verif.Lemmas.Subset
import Verif.Props.Manager
import Verif.Lemmas.TextGrammar
/-! C115: the datasets of a subentry depend on it and on the first subentry only. -/
namespace X4
variable {ρ N : Type} [PyNum N]

theorem deleted_same {e e' : Entry ρ} (ha : e.accnum = e'.accnum) (h : e.subs.get? e.mainKey = e'.subs.get? e.mainKey) : e.deleted = e'.deleted := by
  have e1 : e.getItem (.int 1) = e.subs.get e.mainKey := rfl
  have e2 : e'.getItem (.int 1) = e'.subs.get e'.mainKey := rfl
  have hm : e'.mainKey = e.mainKey := by unfold Entry.mainKey; rw [ha]
  unfold Entry.deleted Entry.mainBib
  rw [e1, e2, hm]
  unfold Dict.get
  rw [h]

/-- what is made for a subentry, for two entries that agree in it and in the first subentry -/
theorem dataSets_same {rx : RxOps ρ} {e e' : Entry ρ} (he : e.Sound) (he' : e'.Sound) (ha : e.accnum = e'.accnum)
    (hm : e.subs.get? e.mainKey = e'.subs.get? e.mainKey) {k : Option Str} (hk : e.subs.get? k = e'.subs.get? k)
    {errs errs' : Dict DsKey PyErr} {st st' : DsState ρ N} (h : e.getDataSets rx errs = .ok st) (h' : e'.getDataSets rx errs' = .ok st')
    (a : Str) (p : Char) (hx : errs.get? (a, k, p) = errs'.get? (a, k, p)) :
    st.datasets.get? (a, k, p) = st'.datasets.get? (a, k, p) ∧ st.errors.get? (a, k, p) = st'.errors.get? (a, k, p) := by
  have hd := deleted_same ha hm
  have hmk : e'.mainKey = e.mainKey := by unfold Entry.mainKey; rw [ha]
  cases hdel : e.deleted with
  | error x => unfold Entry.getDataSets at h; rw [hdel] at h; simp at h
  | ok b =>
    cases b with
    | true =>
      unfold Entry.getDataSets at h h'
      rw [← hd, hdel] at h'
      rw [hdel] at h
      simp only [Except.ok.injEq] at h h'
      subst h h'
      exact ⟨rfl, hx⟩
    | false =>
      obtain ⟨s, main, h1, h2, h3, h4⟩ := getDataSets_eq rx e he errs st hdel h
      obtain ⟨s', main', h1', h2', h3', h4'⟩ := getDataSets_eq rx e' he' errs' st' (hd ▸ hdel) h'
      rw [hmk, ← hm, h1] at h1'
      cases h1'
      rw [← ha, h2] at h2'
      cases h2'
      have hdo : e.dataOf k = e'.dataOf k := by unfold Entry.dataOf; rw [hk]
      have hg : goodOf (N := N) rx e main.1 k p = goodOf rx e' main.1 k p := by
        unfold goodOf ownAttempt mainAttempt; rw [hdo, hmk]
      have hb : badOf N rx e main.1 k p = badOf N rx e' main.1 k p := by
        unfold badOf ownAttempt mainAttempt; rw [hdo, hmk]
      rw [h3, h3', h4, h4']
      simp only [ha, hg, hb, hx]
      exact ⟨trivial, trivial⟩

/-- C115: if two raw entries with the same number agree in the texts of the first subentry and in those of subentry `k`, the same datasets
are made for `k`, with the same errors, whatever the other subentries are. -/
theorem C115_local (P : FieldParsers ρ) (rx : RxOps ρ) (raw raw' : List Str) (e e' : Entry ρ) (he : Entry.build P raw = .ok e)
    (he' : Entry.build P raw' = .ok e') (hn : entryNumber raw = entryNumber raw')
    (hm : (raw.filter fun x => accessionField x = some (e.accnum ++ "001".toList)) = raw'.filter fun x => accessionField x = some (e.accnum ++ "001".toList))
    (k : Option Str) (hk : (raw.filter fun x => accessionField x = k) = raw'.filter fun x => accessionField x = k)
    (errs errs' : Dict DsKey PyErr) (st st' : DsState ρ N) (h : e.getDataSets rx errs = .ok st) (h' : e'.getDataSets rx errs' = .ok st')
    (a : Str) (p : Char) (hx : errs.get? (a, k, p) = errs'.get? (a, k, p)) :
    st.datasets.get? (a, k, p) = st'.datasets.get? (a, k, p) ∧ st.errors.get? (a, k, p) = st'.errors.get? (a, k, p) := by
  obtain ⟨a1, -, -, a4⟩ := C13_keys P raw e he
  obtain ⟨b1, -, -, b4⟩ := C13_keys P raw' e' he'
  have hsame : ∀ k, (raw.filter fun x => accessionField x = k) = (raw'.filter fun x => accessionField x = k) →
      e.subs.get? k = e'.subs.get? k := by
    intro k hk
    refine Option.ext fun s => ?_
    rw [a4, b4, hk]
  refine dataSets_same (Entry.build_sound he) (Entry.build_sound he') ?_ (hsame _ hm) (hsame _ hk) h h' a p hx
  rw [hn, b1] at a1
  exact (Option.some.inj a1).symm

/-! ### Reading some of the subentries -/

theorem entryStep_ok {P : FieldParsers ρ} (raw : List Str) (d : Dict (Option Str) (SubEntry ρ)) :
    (∃ d', foldE (entryStep P) d raw = .ok d') ↔ ∀ x ∈ raw, ∃ s, SubEntry.build P (splitChar '\n' x) = .ok s :=
  foldE_each (fun _ => True) (fun d x _ => by
    unfold entryStep
    cases SubEntry.build P (splitChar '\n' x) <;> simp) (fun _ _ _ _ _ => trivial) raw d trivial

theorem entryBuild_ok {P : FieldParsers ρ} {raw : List Str} {n : Str} (hn : entryNumber raw = some n) (h5 : n.length = 5) :
    (∃ e, Entry.build P raw = .ok e) ↔ ∀ x ∈ raw, ∃ s, SubEntry.build P (splitChar '\n' x) = .ok s := by
  rw [← entryStep_ok (P := P) raw []]
  unfold Entry.build
  rw [entryIndex_eq, hn]
  simp only [h5, ne_eq, not_true_eq_false, if_false]
  cases foldE (entryStep P) [] raw <;> simp

/-- Reading the texts that `keep` selects, where all texts with the same number are kept or none. -/
theorem subset_texts (P : FieldParsers ρ) (rx : RxOps ρ) (raw : List Str) (e : Entry ρ) (he : Entry.build P raw = .ok e) (keep : Option Str → Bool)
    (hn : entryNumber (raw.filter fun x => keep (accessionField x)) = entryNumber raw) (hmain : keep (some (e.accnum ++ "001".toList)) = true)
    (errs : Dict DsKey PyErr) (st : DsState ρ N) (h : e.getDataSets rx errs = .ok st) :
    ∃ e' st', Entry.build P (raw.filter fun x => keep (accessionField x)) = .ok e' ∧ e'.getDataSets rx errs = .ok st' ∧
      (∀ k, e'.subs.get? k = if keep k then e.subs.get? k else none) ∧
      (∀ a k p, st'.datasets.get? (a, k, p) = if keep k then st.datasets.get? (a, k, p) else none) ∧
      ∀ a k p, st'.errors.get? (a, k, p) = if keep k then st.errors.get? (a, k, p) else errs.get? (a, k, p) := by
  obtain ⟨a1, a2, a3, a4⟩ := C13_keys P raw e he
  have hall := (entryBuild_ok (P := P) a1 a2).1 ⟨e, he⟩
  obtain ⟨e', he'⟩ := (entryBuild_ok (P := P) (hn.trans a1) a2).2 fun x hx => hall x (List.mem_of_mem_filter hx)
  obtain ⟨b1, b2, b3, b4⟩ := C13_keys P _ e' he'
  have hacc : e.accnum = e'.accnum := by rw [hn, a1] at b1; exact Option.some.inj b1
  have hget : ∀ k, e'.subs.get? k = if keep k then e.subs.get? k else none := by
    intro k
    refine Option.ext fun s => ?_
    by_cases hk : keep k = true
    · rw [if_pos hk, b4, a4, List.filter_filter]
      have : (raw.filter fun x => decide (accessionField x = k) && keep (accessionField x)) = raw.filter fun x => decide (accessionField x = k) := by
        apply List.filter_congr
        intro x _
        by_cases hx : accessionField x = k <;> simp [hx, hk]
      rw [this]
    · rw [if_neg hk, b4, List.filter_filter]
      have : (raw.filter fun x => decide (accessionField x = k) && keep (accessionField x)) = [] := by
        rw [List.filter_eq_nil_iff]
        intro x _
        by_cases hx : accessionField x = k <;> simp [hx, hk]
      rw [this]; simp
  have hS := Entry.build_sound he
  have hS' := Entry.build_sound he'
  have hmk : e'.mainKey = e.mainKey := by unfold Entry.mainKey; rw [hacc]
  have hm : e.subs.get? e.mainKey = e'.subs.get? e.mainKey := by
    rw [hget, show keep e.mainKey = true from hmain]; rfl
  have hd := deleted_same hacc hm
  have hok : ∃ st' : DsState ρ N, e'.getDataSets rx errs = .ok st' := by
    cases hdel : e.deleted with
    | error x => unfold Entry.getDataSets at h; rw [hdel] at h; simp at h
    | ok b =>
      cases b with
      | true => exact ⟨{ errors := errs, entry := e' }, by unfold Entry.getDataSets; rw [← hd, hdel]⟩
      | false =>
        obtain ⟨s, main, c1, c2, c3⟩ := (getDataSets_ok_iff rx e hS errs hdel).1 ⟨st, h⟩
        refine (getDataSets_ok_iff rx e' hS' errs (hd ▸ hdel)).2 ⟨s, main, by rw [hmk, ← hm, c1], by rw [← hacc, c2], fun k hk s' hs' => ?_⟩
        rw [hmk]
        rw [hget] at hs'
        split at hs'
        · exact c3 k ((Dict.mem_keys_iff _ _).2 (by rw [hs']; rfl)) s' hs'
        · simp at hs'
  obtain ⟨st', hst'⟩ := hok
  have key : ∀ a k p, (keep k = true → st'.datasets.get? (a, k, p) = st.datasets.get? (a, k, p) ∧ st'.errors.get? (a, k, p) = st.errors.get? (a, k, p)) ∧
      (keep k ≠ true → st'.datasets.get? (a, k, p) = none ∧ st'.errors.get? (a, k, p) = errs.get? (a, k, p)) := by
    intro a k p
    refine ⟨fun hk => ?_, fun hk => ?_⟩
    · have := dataSets_same hS hS' hacc hm (k := k) (by rw [hget, if_pos hk]) h hst' a p rfl
      exact ⟨this.1.symm, this.2.symm⟩
    · cases hdel : e'.deleted with
      | error x => unfold Entry.getDataSets at hst'; rw [hdel] at hst'; simp at hst'
      | ok b =>
        cases b with
        | true =>
          unfold Entry.getDataSets at hst'
          rw [hdel] at hst'
          simp only [Except.ok.injEq] at hst'
          subst hst'
          exact ⟨rfl, rfl⟩
        | false =>
          obtain ⟨s, main, -, -, h3, h4⟩ := getDataSets_eq rx e' hS' errs st' hdel hst'
          have hno : e'.dataOf k = none := by unfold Entry.dataOf; rw [hget, if_neg hk]
          rw [h3, h4]
          simp [goodOf, badOf, hno]
  refine ⟨e', st', he', hst', hget, fun a k p => ?_, fun a k p => ?_⟩
  · split
    · rename_i hk; exact ((key a k p).1 hk).1
    · rename_i hk; exact ((key a k p).2 hk).1
  · split
    · rename_i hk; exact ((key a k p).1 hk).2
    · rename_i hk; exact ((key a k p).2 hk).2

/-- a subentry of entry `n`, with its number in columns 14-21 of the first line -/
structure SubOf (n : Str) (s : SubentText) : Prop where
  ok : s.Ok
  entry : n.length = 5 ∧ ∀ c ∈ n, isSpace c = false
  head : ∃ k rest : Str, k.length = 3 ∧ (∀ c ∈ k, isSpace c = false) ∧ s.head = "SUBENT        ".toList ++ (n ++ k) ++ rest

theorem not_newline {w : Str} (h : ∀ c ∈ w, isSpace c = false) : '\n' ∉ w := fun hc => absurd (h _ hc) (by decide)

theorem splitChar_first {c : Char} {w : Str} (h : c ∉ w) (r : Str) : ∃ r' t, splitChar c (w ++ r) = (w ++ r') :: t := by
  unfold splitChar
  induction w with
  | nil =>
    simp only [List.nil_append]
    cases hs : splitOnP (fun x => x == c) r with
    | nil => exact absurd hs (splitOnP_ne_nil _ _)
    | cons a t => exact ⟨a, t, rfl⟩
  | cons a w ih =>
    simp only [List.mem_cons, not_or] at h
    obtain ⟨r', t, e⟩ := ih h.2
    refine ⟨r', t, ?_⟩
    have ha : (a == c) = false := by simpa using fun e => h.1 e.symm
    simp only [List.cons_append, splitOnP, ha, e, Bool.false_eq_true, if_false]

theorem subent_first (r : Str) : firstWord ("SUBENT        ".toList ++ r) = some "SUBENT".toList := by
  have e : "SUBENT        ".toList = chars!"SUBENT" ++ chars!"        " := by decide
  rw [e, List.append_assoc]
  exact splitWs_ljust_head (w := chars!"SUBENT") (by decide) (by decide) (by intro c hc; simp at hc; subst hc; decide)

theorem SubOf.fields {n : Str} {s : SubentText} (h : SubOf n s) :
    accessionField s.lines.flatten = some s.accession ∧ firstWord s.lines.flatten = some "SUBENT".toList ∧
    (s.lines.flatten.drop 14).take 5 = n ∧ s.accession.length = 8 := by
  obtain ⟨k, rest, hk, hks, hh⟩ := h.head
  have h14 : "SUBENT        ".toList.length = 14 := by decide
  have hl : (n ++ k).length = 8 := by rw [List.length_append, h.entry.1, hk]
  have hsp : ∀ c ∈ n ++ k, isSpace c = false := by
    intro c hc
    rcases List.mem_append.1 hc with hc | hc
    · exact h.entry.2 c hc
    · exact hks c hc
  have h8 : ∀ r : Str, (("SUBENT        ".toList ++ (n ++ k) ++ r).drop 14).take 8 = n ++ k := by
    intro r
    rw [List.append_assoc, List.drop_append_of_le_length (by omega), List.drop_of_length_le (by omega), List.nil_append,
      List.take_append_of_le_length (by omega), List.take_of_length_le (by omega)]
  have hacc : s.accession = n ++ k := by
    unfold SubentText.accession
    rw [hh, h8, strip_plain hsp]
  have ht : s.lines.flatten = "SUBENT        ".toList ++ (n ++ k) ++ (rest ++ (s.body ++ [s.tail]).flatten) := by
    unfold SubentText.lines
    rw [List.cons_append, List.flatten_cons, hh]
    simp only [List.append_assoc]
  have hnl : '\n' ∉ "SUBENT        ".toList ++ (n ++ k) := by
    intro hc
    rcases List.mem_append.1 hc with hc | hc
    · exact absurd hc (by decide)
    · exact not_newline hsp hc
  refine ⟨?_, ?_, ?_, by rw [hacc, hl]⟩
  · unfold accessionField
    rw [ht]
    obtain ⟨r', t, e⟩ := splitChar_first hnl (rest ++ (s.body ++ [s.tail]).flatten)
    rw [e, List.find?_cons]
    have : firstWord ("SUBENT        ".toList ++ (n ++ k) ++ r') = some "SUBENT".toList := by
      rw [List.append_assoc]; exact subent_first _
    rw [this]
    simp only [decide_true, Option.map_some]
    rw [h8, hacc]
  · rw [ht, List.append_assoc]
    exact subent_first _
  · rw [ht, List.append_assoc, List.drop_append_of_le_length (by omega), List.drop_of_length_le (by omega), List.nil_append, List.append_assoc,
      List.take_append_of_le_length (by rw [h.entry.1]), List.take_of_length_le (by rw [h.entry.1])]

/-- the number of an entry with such subentries -/
theorem entryNumber_subs {n : Str} {ss : List SubentText} (h : ∀ s ∈ ss, SubOf n s) (hne : ss ≠ []) :
    entryNumber (ss.map fun s => s.lines.flatten) = some n := by
  cases ss with
  | nil => exact absurd rfl hne
  | cons s ss =>
    obtain ⟨-, h2, h3, -⟩ := (h s (by simp)).fields
    unfold entryNumber
    rw [List.map_cons, List.find?_cons]
    simp only [h2, or_true, decide_true, Option.map_some]
    rw [if_neg (by decide), h3]

/-- C115: if the datasets of an entry file can be made, they can be made from the first subentry and any selection of the others; each of
the selected subentries gives the same datasets and errors as in the whole entry. -/
theorem C115_selection (P : FieldParsers ρ) (rx : RxOps ρ) (n : Str) (ls : List Str) (ss : List SubentText) (hf : EntryFile ls ss)
    (hs : ∀ s ∈ ss, SubOf n s) (L : List Str) (hL : n ++ "001".toList ∈ L) (e : Entry ρ) (he : Entry.build P (splitEntryFile none ls) = .ok e)
    (errs : Dict DsKey PyErr) (st : DsState ρ N) (h : e.getDataSets rx errs = .ok st) :
    ∃ e' st', Entry.build P (splitEntryFile (some L) ls) = .ok e' ∧ e'.getDataSets rx errs = .ok st' ∧
      ∀ a k p, st'.datasets.get? (a, k, p) = (if k ∈ L.map some then st.datasets.get? (a, k, p) else none) ∧
        st'.errors.get? (a, k, p) = if k ∈ L.map some then st.errors.get? (a, k, p) else errs.get? (a, k, p) := by
  have e0 : splitEntryFile none ls = ss.map fun s => s.lines.flatten := by
    rw [C10_lossless ls ss hf]
    congr 1
    exact List.filter_eq_self.2 fun _ _ => rfl
  have hne : ss ≠ [] := by
    rintro rfl
    rw [e0] at he
    simp [Entry.build, extractX4EntryIndex] at he
  have hnum := entryNumber_subs hs hne
  obtain ⟨a1, a2, a3, a4⟩ := C13_keys P _ e he
  rw [e0] at he a1 a3 a4
  have hacc : e.accnum = n := by rw [hnum] at a1; exact (Option.some.inj a1).symm
  let keep : Option Str → Bool := fun k => decide (k ∈ L.map some)
  have e1 : splitEntryFile (some L) ls = (ss.map fun s => s.lines.flatten).filter fun x => keep (accessionField x) := by
    rw [C10_lossless ls ss hf, List.filter_map]
    congr 1
    apply List.filter_congr
    intro s hs'
    simp only [Function.comp_apply, (hs s hs').fields.1]
    simp [keep, requested]
  -- the first subentry is there
  have hmain : ∃ s ∈ ss, s.accession = n ++ "001".toList := by
    have : ∃ s, e.subs.get? e.mainKey = some s := by
      have e2 : e.getItem (.int 1) = e.subs.get e.mainKey := rfl
      have hdel : ∃ b, e.deleted = .ok b := by
        unfold Entry.getDataSets at h
        split at h
        · simp at h
        · rename_i hb; exact ⟨_, hb⟩
        · rename_i hb; exact ⟨_, hb⟩
      obtain ⟨b, hb⟩ := hdel
      unfold Entry.deleted Entry.mainBib at hb
      rw [e2, Dict.get] at hb
      cases hg : e.subs.get? e.mainKey with
      | none => rw [hg] at hb; simp at hb
      | some s => exact ⟨s, rfl⟩
    obtain ⟨s, hs0⟩ := this
    obtain ⟨x, hx, hxa⟩ := (a3 e.mainKey).1 ((Dict.mem_keys_iff _ _).2 (by rw [hs0]; rfl))
    obtain ⟨s', hs', rfl⟩ := List.mem_map.1 hx
    rw [(hs s' hs').fields.1] at hxa
    refine ⟨s', hs', ?_⟩
    rw [Option.some.inj hxa, hacc]
  obtain ⟨m, hm, hma⟩ := hmain
  have hnum' : entryNumber ((ss.map fun s => s.lines.flatten).filter fun x => keep (accessionField x)) = entryNumber (ss.map fun s => s.lines.flatten) := by
    rw [hnum, ← e1, C10_lossless ls ss hf]
    refine entryNumber_subs (fun s hs' => hs s (List.mem_of_mem_filter hs')) ?_
    intro h0
    have : m ∈ ss.filter fun s => requested (some L) s.accession := by
      rw [List.mem_filter]
      refine ⟨hm, ?_⟩
      unfold requested
      rw [hma]
      simpa using hL
    rw [h0] at this
    simp at this
  obtain ⟨e', st', h1, h2, -, h3, h4⟩ := subset_texts P rx _ e he keep hnum' (by rw [hacc]; simpa [keep] using hL) errs st h
  refine ⟨e', st', by rw [e1]; exact h1, h2, fun a k p => ⟨?_, ?_⟩⟩
  · rw [h3]
    by_cases h : k ∈ L.map some <;> simp only [keep, h, decide_true, decide_false, if_true, if_false, Bool.false_eq_true]
  · rw [h4]
    by_cases h : k ∈ L.map some <;> simp only [keep, h, decide_true, decide_false, if_true, if_false, Bool.false_eq_true]

/-- what a simplification makes of a state, key by key -/
theorem simplified_at {makeAll : Bool} {st st' : DsState ρ N} (hn : st.datasets.keys.Nodup)
    (h : foldE (simplifyStep makeAll) st st.datasets = .ok st') (k : DsKey) :
    match st.datasets.get? k with
    | none => st'.datasets.get? k = none ∧ st'.errors.get? k = st.errors.get? k
    | some d => match d.getSimplified makeAll false with
      | .ok d' => st'.datasets.get? k = some d' ∧ st'.errors.get? k = st.errors.get? k
      | .error x => Handled x ∧ st'.datasets.get? k = some d ∧ st'.errors.get? k = some x := by
  obtain ⟨-, -, j3, j4⟩ := (foldE_simplify makeAll st.datasets hn st (fun k h => h)).1 st' h
  cases hg : st.datasets.get? k with
  | none =>
    obtain ⟨a, b⟩ := j4 k (Dict.get?_eq_none_iff.1 hg)
    exact ⟨a.trans hg, b⟩
  | some d =>
    rcases j3 k d hg with ⟨d', a, b, c⟩ | ⟨x, a, b, c, f⟩
    · simp only [a]; exact ⟨b, c⟩
    · simp only [a]; exact ⟨b, c.trans hg, f⟩

/-- C115: the same for the simplified datasets -/
theorem C115_simplified (P : FieldParsers ρ) (rx : RxOps ρ) (n : Str) (ls : List Str) (ss : List SubentText) (hf : EntryFile ls ss)
    (hs : ∀ s ∈ ss, SubOf n s) (L : List Str) (hL : n ++ "001".toList ∈ L) (e : Entry ρ) (he : Entry.build P (splitEntryFile none ls) = .ok e)
    (errs : Dict DsKey PyErr) (makeAll : Bool) (st : DsState ρ N) (h : e.getSimplifiedDataSets rx errs makeAll = .ok st) :
    ∃ e' st', Entry.build P (splitEntryFile (some L) ls) = .ok e' ∧ e'.getSimplifiedDataSets rx errs makeAll = .ok st' ∧
      ∀ a k p, st'.datasets.get? (a, k, p) = (if k ∈ L.map some then st.datasets.get? (a, k, p) else none) ∧
        st'.errors.get? (a, k, p) = if k ∈ L.map some then st.errors.get? (a, k, p) else errs.get? (a, k, p) := by
  unfold Entry.getSimplifiedDataSets at h
  cases h0 : e.getDataSets (N := N) rx errs with
  | error x => rw [h0] at h; simp at h
  | ok st0 =>
    rw [h0] at h
    simp only at h
    obtain ⟨e', st0', g1, g2, g3⟩ := C115_selection P rx n ls ss hf hs L hL e he errs st0 h0
    have hn := getDataSets_nodup h0
    have hn' := getDataSets_nodup g2
    have hall := simplified_at hn h
    cases hs' : foldE (simplifyStep makeAll) st0' st0'.datasets with
    | error x =>
      exfalso
      obtain ⟨hx, kd, hkd, hd⟩ := (foldE_simplify makeAll st0'.datasets hn' st0' (fun k h => h)).2 x hs'
      have hg : st0'.datasets.get? kd.1 = some kd.2 := Dict.get?_eq_some_of_mem hn' hkd
      obtain ⟨⟨a, k, p⟩, d⟩ := kd
      simp only at hg hd
      rw [(g3 a k p).1] at hg
      split at hg
      · have := hall (a, k, p)
        rw [hg] at this
        simp only [hd] at this
        exact hx this.1
      · simp at hg
    | ok st' =>
      refine ⟨e', st', g1, by unfold Entry.getSimplifiedDataSets; rw [g2]; exact hs', fun a k p => ?_⟩
      have h1 := hall (a, k, p)
      have h2 := simplified_at hn' hs' (a, k, p)
      rw [(g3 a k p).1, (g3 a k p).2] at h2
      split_ifs at h2 ⊢ with hk
      · cases hg : st0.datasets.get? (a, k, p) with
        | none =>
          rw [hg] at h1 h2
          exact ⟨h2.1.trans h1.1.symm, h2.2.trans h1.2.symm⟩
        | some d =>
          rw [hg] at h1 h2
          simp only at h1 h2
          cases hd : d.getSimplified makeAll false with
          | error x =>
            rw [hd] at h1 h2
            exact ⟨h2.2.1.trans h1.2.1.symm, h2.2.2.trans h1.2.2.symm⟩
          | ok d' =>
            rw [hd] at h1 h2
            exact ⟨h2.1.trans h1.1.symm, h2.2.trans h1.2.symm⟩
      · exact h2

theorem mapE_source {ε α β : Type} {f : α → Except ε β} {l : List α} {r : List β} (h : mapE f l = .ok r) {y : β} (hy : y ∈ r) :
    ∃ x ∈ l, f x = .ok y := by
  replace h := mapE_ok_iff.1 h
  induction h with
  | nil => simp at hy
  | cons hx _ ih =>
    rcases List.mem_cons.1 hy with rfl | hy
    · exact ⟨_, List.mem_cons_self .., hx⟩
    · obtain ⟨x, h1, h2⟩ := ih hy
      exact ⟨x, List.mem_cons_of_mem _ h1, h2⟩

/-- C115: what `retrieve` finds for a query: every subentry that was found gives the same datasets and errors as in the whole entry. -/
theorem C115_retrieved (P : FieldParsers ρ) (rx : RxOps ρ) (table : List Row) (db : DB) (c : Criteria) (m : Dict Str (List Str)) (r : Dict Str (Entry ρ))
    (hq : (query table c).2 = .ok m) (hr : retrieve P table db c = .ok r) (n : Str) (e' : Entry ρ) (hn : (n, e') ∈ r)
    (hfile : ∀ ls, db.read (n.take 3 ++ "/".toList ++ n ++ ".x4".toList) = .ok ls → ∃ ss, EntryFile ls ss ∧ ∀ s ∈ ss, SubOf n s)
    (raw : List Str) (hraw : (entryFactoryRaw db n none).2 = .ok raw) (e : Entry ρ) (he : Entry.build P raw = .ok e)
    (errs : Dict DsKey PyErr) (st : DsState ρ N) (h : e.getDataSets rx errs = .ok st) :
    ∃ names st', (n, names) ∈ m ∧ e'.getDataSets rx errs = .ok st' ∧
      ∀ a k p, st'.datasets.get? (a, k, p) = (if k ∈ names.map some then st.datasets.get? (a, k, p) else none) ∧
        st'.errors.get? (a, k, p) = if k ∈ names.map some then st.errors.get? (a, k, p) else errs.get? (a, k, p) := by
  unfold retrieve at hr
  rw [hq] at hr
  obtain ⟨kv, hkv, hstep⟩ := mapE_source hr hn
  obtain ⟨k, names⟩ := kv
  simp only at hstep
  cases hf : (entryFactoryRaw db k (some names)).2 with
  | error x => rw [hf] at hstep; simp at hstep
  | ok l =>
    rw [hf] at hstep
    simp only at hstep
    cases hb : Entry.build P l with
    | error x => rw [hb] at hstep; simp at hstep
    | ok x =>
      rw [hb] at hstep
      simp only [Except.ok.injEq, Prod.mk.injEq] at hstep
      obtain ⟨rfl, rfl⟩ := hstep
      have h5 : k.length = 5 := by
        by_contra h5
        rw [C11_validated db _ _ h5] at hf; simp at hf
      obtain ⟨ls, h1, h2⟩ := ((C11_reads_own_file db k (some names) h5).2 l).1 hf
      obtain ⟨ls', h1', h2'⟩ := ((C11_reads_own_file db k none h5).2 raw).1 hraw
      rw [h1] at h1'
      cases h1'
      obtain ⟨ss, hE, hss⟩ := hfile ls h1
      have hL : k ++ "001".toList ∈ names := by
        unfold query at hq
        split at hq
        · simp only [Except.ok.injEq] at hq; subst hq; simp at hkv
        · simp only at hq
          split at hq
          · simp at hq
          · split at hq
            · simp at hq
            · rename_i found _
              simp only [Except.ok.injEq] at hq
              subst hq
              obtain ⟨t, ht, -⟩ := (groupSubents_grouped found).lists k names hkv
              rw [ht]; exact List.mem_cons_self ..
      subst h2 h2'
      obtain ⟨e'', st', g1, g2, g3⟩ := C115_selection P rx k ls ss hE hss names hL e he errs st h
      rw [hb] at g1
      cases g1
      exact ⟨names, st', hkv, g2, g3⟩

/-- C115: the first subentry is needed: without it nothing can be made. -/
theorem C115_first_needed (P : FieldParsers ρ) (rx : RxOps ρ) (n : Str) (ls : List Str) (ss : List SubentText) (hf : EntryFile ls ss)
    (hs : ∀ s ∈ ss, SubOf n s) (L : List Str) (hL : n ++ "001".toList ∉ L) (e' : Entry ρ) (he : Entry.build P (splitEntryFile (some L) ls) = .ok e')
    (errs : Dict DsKey PyErr) : e'.getDataSets (N := N) rx errs = .error .keyError := by
  obtain ⟨a1, a2, a3, a4⟩ := C13_keys P _ e' he
  rw [C10_lossless ls ss hf] at a1 a3
  have hne : (ss.filter fun s => requested (some L) s.accession) ≠ [] := by
    intro h0
    rw [h0] at a1
    simp [entryNumber] at a1
  rw [entryNumber_subs (fun s h => hs s (List.mem_of_mem_filter h)) hne] at a1
  have hacc : e'.accnum = n := (Option.some.inj a1).symm
  have hg : e'.subs.get? e'.mainKey = none := by
    rw [Dict.get?_eq_none_iff, a3]
    rintro ⟨x, hx, hk⟩
    obtain ⟨s, hs', rfl⟩ := List.mem_map.1 hx
    obtain ⟨hs1, hs2⟩ := List.mem_filter.1 hs'
    rw [(hs s hs1).fields.1] at hk
    have : s.accession = n ++ "001".toList := by rw [Option.some.inj hk, hacc]
    rw [this] at hs2
    exact hL (by simpa [requested] using hs2)
  have e1 : e'.getItem (.int 1) = e'.subs.get e'.mainKey := rfl
  unfold Entry.getDataSets Entry.deleted Entry.mainBib
  rw [e1, Dict.get, hg]

/-! ### An entry with two tables -/

/-- the lines of a subentry with a table -/
def tableSub (k : Char) (rx : List Char) : SubentText :=
  ⟨"SUBENT        1000100".toList ++ [k] ++ "   19991231\n".toList,
   ["BIB                  1          1\n".toList, "REACTION   ".toList ++ rx ++ ['\n'], "ENDBIB               1\n".toList, "DATA                 2          1\n".toList,
    "EN         DATA\n".toList, "MEV        B\n".toList, " 1.5        2.5\n".toList, "ENDDATA              1\n".toList], "ENDSUBENT            3\n".toList⟩
/-- the first subentry -/
def firstSub : SubentText :=
  ⟨"SUBENT        10001001   19991231\n".toList, ["BIB                  1          1\n".toList, "STATUS     x\n".toList, "ENDBIB               1\n".toList],
   "ENDSUBENT            3\n".toList⟩
def twoTables : List SubentText := [firstSub, tableSub '2' "CS".toList, tableSub '3' "DA".toList]
def twoTablesFile : List Str := "ENTRY            10001   19991231\n".toList :: (twoTables.flatMap SubentText.lines ++ ["ENDENTRY             3\n".toList])

theorem twoTables_sub : ∀ s ∈ twoTables, SubOf "10001".toList s := by
  have hb : ∀ s ∈ twoTables, ∀ l ∈ s.body, ¬ (startsWith l "ENTRY".toList ∨ startsWith l "ENDENTRY".toList ∨ startsWith l "NOSUBENT".toList) ∧
      ¬ startsWith l "SUBENT".toList ∧ ¬ startsWith l "ENDSUBENT".toList := by decide +kernel
  have ho : ∀ s ∈ twoTables, (startsWith s.head "SUBENT".toList ∧ 22 ≤ s.head.length) ∧ startsWith s.tail "ENDSUBENT".toList := by decide +kernel
  intro s hs
  refine ⟨⟨(ho s hs).1, hb s hs, (ho s hs).2⟩, by decide, ?_⟩
  simp only [twoTables, List.mem_cons, List.not_mem_nil, or_false] at hs
  rcases hs with rfl | rfl | rfl
  · exact ⟨"001".toList, "   19991231\n".toList, by decide, by decide, by decide +kernel⟩
  · exact ⟨"002".toList, "   19991231\n".toList, by decide, by decide, by decide +kernel⟩
  · exact ⟨"003".toList, "   19991231\n".toList, by decide, by decide, by decide +kernel⟩

theorem twoTables_file : EntryFile twoTablesFile twoTables := by
  have h : ∀ (ss : List SubentText), (∀ s ∈ ss, s.Ok) → EntryFile (ss.flatMap SubentText.lines ++ ["ENDENTRY             3\n".toList]) ss := by
    intro ss
    induction ss with
    | nil => intro _; exact .other _ _ _ (by decide) .nil
    | cons s ss ih =>
      intro h
      rw [List.flatMap_cons, List.append_assoc]
      exact .subent s _ _ (h s (by simp)) (ih fun x hx => h x (by simp [hx]))
  exact .other _ _ _ (by decide) (h _ fun s hs => (twoTables_sub s hs).ok)

set_option maxRecDepth 20000 in
/-- the hypotheses of `C115_selection` and `C115_simplified`, for two of the three subentries -/
example : EntryFile twoTablesFile twoTables ∧ (∀ s ∈ twoTables, SubOf "10001".toList s) ∧
    ∃ e, ∃ st st' : DsState _ N, Entry.build demoP (splitEntryFile none twoTablesFile) = .ok e ∧ e.getDataSets demoRx [] = .ok st ∧
      e.getSimplifiedDataSets demoRx [] false = .ok st' ∧
      st.datasets.keys = [("10001".toList, some "10001002".toList, ' '), ("10001".toList, some "10001003".toList, ' ')] :=
  ⟨twoTables_file, twoTables_sub, _, _, _, rfl, rfl, rfl, rfl⟩
set_option maxRecDepth 20000 in
/-- without the first subentry -/
example : ∃ e', Entry.build demoP (splitEntryFile (some ["10001002".toList]) twoTablesFile) = .ok e' := ⟨_, rfl⟩
/-- `C115_local`: another third subentry -/
example : let raw := twoTables.map fun s => s.lines.flatten
    let raw' := [firstSub, tableSub '2' "CS".toList, tableSub '4' "CS".toList].map fun s => s.lines.flatten
    entryNumber raw = entryNumber raw' ∧
    (raw.filter fun x => accessionField x = some "10001002".toList) = (raw'.filter fun x => accessionField x = some "10001002".toList) ∧ raw ≠ raw' := by
  decide +kernel
/-- a database with this file -/
def twoTablesDB : DB := ⟨fun p => if p = chars!"100/10001.x4" then .ok twoTablesFile else .error .ioError⟩
/-- an index of its subentries -/
def twoTablesIndex : List Row :=
  [⟨some chars!"10001", some chars!"10001002", some [' '], some chars!"Block", some chars!"N,G", some ['N'], some chars!"FE-0", some chars!"SIG"⟩,
   ⟨some chars!"10001", some chars!"10001003", some [' '], some chars!"Block", some chars!"N,EL", some ['N'], some chars!"FE-0", some chars!"DA"⟩]
set_option maxRecDepth 20000 in
/-- `C115_retrieved`: one of the tables is found -/
example : (query twoTablesIndex { quantity := some chars!"SIG" }).2 = .ok [(chars!"10001", [chars!"10001001", chars!"10001002"])] ∧
    (∃ r, retrieve demoP twoTablesIndex twoTablesDB { quantity := some chars!"SIG" } = .ok r ∧ r.keys = [chars!"10001"]) ∧
    ∃ raw, (entryFactoryRaw twoTablesDB chars!"10001" none).2 = .ok raw ∧ raw = twoTables.map fun s => s.lines.flatten :=
  ⟨by decide +kernel, ⟨_, rfl, by decide +kernel⟩, _, rfl, by decide +kernel⟩

end X4
