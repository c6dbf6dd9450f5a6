import Verif.Spec.Install
import Verif.Lemmas.Dict
/-! C51, C52: downloading and unpacking the database. -/
namespace X4.Install

theorem get?_rm (fs : FS) (p q : Path) : (fs.rm p).get? q = if q = p then none else fs.get? q := by
  induction fs with
  | nil => simp [FS.rm, Dict.get?]
  | cons kv fs ih =>
    obtain ⟨k, n⟩ := kv
    unfold FS.rm at ih ⊢
    by_cases hk : k = p
    · subst hk
      rw [List.filter_cons_of_neg (by simp), ih]
      by_cases hq : q = k
      · simp [hq]
      · rw [if_neg hq, if_neg hq, Dict.get?, if_neg (Ne.symm hq)]
    · rw [List.filter_cons_of_pos (by simp [hk])]
      simp only [Dict.get?]
      split
      · rename_i e
        subst e
        rw [if_neg hk]
      · exact ih

theorem rm_none {fs : FS} {p q : Path} (h : fs.get? q = none) : (fs.rm p).get? q = none := by
  rw [get?_rm]
  split
  · rfl
  · exact h

theorem mkParents_some (fs : FS) (p q : Path) (n : Node) (h : fs.get? q = some n) : (mkParents fs p).get? q = some n := by
  unfold mkParents
  generalize List.range p.length = l
  induction l generalizing fs with
  | nil => exact h
  | cons i l ih =>
    refine ih _ ?_
    dsimp only
    split
    · exact h
    · rename_i hn
      rw [Dict.get?_set_ne _ _ (by rintro rfl; simp [h] at hn)]
      exact h

theorem mkParents_none (fs : FS) (p q : Path) (hq : ¬ q <+: p) (h : fs.get? q = none) : (mkParents fs p).get? q = none := by
  unfold mkParents
  generalize List.range p.length = l
  induction l generalizing fs with
  | nil => exact h
  | cons i l ih =>
    refine ih _ ?_
    dsimp only
    split
    · exact h
    · rw [Dict.get?_set_ne _ _ (by rintro rfl; exact hq (List.take_prefix _ _))]
      exact h

theorem lastNode_append (ms : List (Path × Node)) (q : Path) (n : Node) (p : Path) :
    lastNode (ms ++ [(q, n)]) p = if q = p then some n else lastNode ms p := by
  simp [lastNode, Dict.get?]

/-- what holds in each phase, for C51 -/
def Inv (S : Server) (ms : List (Path × Node)) (fs₀ : FS) (s : State) : Prop :=
  match s.phase with
  | .clean todo => ∃ d, targets = d ++ todo ∧ (∀ p ∈ d, s.fs.get? p = none) ∧ (d = [] → s.fs = fs₀)
  | .rmtree p todo => ∃ d, targets = d ++ p :: todo ∧ (∀ q ∈ d, s.fs.get? q = none) ∧ d ≠ []
  | .tags _ => ∀ p ∈ targets, s.fs.get? p = none
  | .download rcv => (∀ p ∈ targets, s.fs.get? p = none) ∧ rcv <+: S.archive
  | .extract todo => s.fs.get? tagPath = none ∧ ∃ d, ms = d ++ todo ∧
      ∀ p n, lastNode d p = some n → (∀ m, todo.head? = some m → m.1 ≠ p) → s.fs.get? p = some n
  | .tagging => s.fs.get? tagPath = none ∧ Unpacked ms s.fs
  | .done => Unpacked ms s.fs
  | .failed _ => s.fs = fs₀ ∨ ∃ p ∈ checked, s.fs.get? p = none

theorem index_of_head {d todo : List Path} {p : Path} (h : targets = d ++ p :: todo) (hd : d = []) : p = indexPath := by
  subst hd
  simp only [targets, List.nil_append, List.cons.injEq] at h
  exact h.1.symm

theorem mem_checked {p : Path} (h : p ∈ targets) : p ∈ checked := by
  simp only [targets, List.mem_cons, List.not_mem_nil, or_false] at h
  simp only [checked, List.mem_cons, List.not_mem_nil, or_false]
  tauto

theorem inv_step {S : Server} {ms : List (Path × Node)} {fs₀ : FS} (hS : S.Detects) (hms : S.read S.archive = some ms)
    (htag : ∀ m ∈ ms, ¬ tagPath <+: m.1) (hidx : fs₀.get? indexPath ≠ some .dir) {s s' : State}
    (h : Inv S ms fs₀ s) (hs : Step S s s') : Inv S ms fs₀ s' := by
  have cleanDone : ∀ {d todo : List Path} {p : Path}, targets = d ++ p :: todo → targets = (d ++ [p]) ++ todo := by
    intro d todo p h
    rw [h]
    simp
  have missing : ∀ {fs : FS} {d todo : List Path}, targets = d ++ todo → (∀ p ∈ d, fs.get? p = none) → d ≠ [] →
      ∃ p ∈ checked, fs.get? p = none := by
    intro fs d todo e hd hne
    match d, hne with
    | p :: d, _ => exact ⟨p, mem_checked (by rw [e]; simp), hd p (by simp)⟩
  cases hs with
  | absent hp =>
    obtain ⟨d, e, hd, -⟩ := h
    refine ⟨_, cleanDone e, ?_, by simp⟩
    intro q hq
    rcases List.mem_append.1 hq with hq | hq
    · exact hd q hq
    · rw [List.mem_singleton.1 hq]; exact hp
  | remove hp =>
    obtain ⟨d, e, hd, -⟩ := h
    refine ⟨_, cleanDone e, ?_, by simp⟩
    intro q hq
    rcases List.mem_append.1 hq with hq | hq
    · exact rm_none (hd q hq)
    · rw [List.mem_singleton.1 hq, get?_rm, if_pos rfl]
  | enter hp =>
    obtain ⟨d, e, hd, h0⟩ := h
    refine ⟨d, e, hd, ?_⟩
    intro hn
    simp only at h0 hp
    rw [index_of_head e hn, h0 hn] at hp
    exact hidx hp
  | below _ _ _ _ =>
    obtain ⟨d, e, hd, h0⟩ := h
    exact ⟨d, e, fun q hq => rm_none (hd q hq), h0⟩
  | top _ =>
    obtain ⟨d, e, hd, h0⟩ := h
    refine ⟨_, cleanDone e, ?_, by simp⟩
    intro q hq
    rcases List.mem_append.1 hq with hq | hq
    · exact rm_none (hd q hq)
    · rw [List.mem_singleton.1 hq, get?_rm, if_pos rfl]
  | glob =>
    obtain ⟨d, e, hd, h0⟩ := h
    rw [List.append_nil] at e
    intro p hp
    exact hd p (e ▸ hp)
  | removeTag hp => exact fun p hp => rm_none (h p hp)
  | absentTag hp => exact h
  | request => exact ⟨h, List.nil_prefix⟩
  | block hb => exact ⟨h.1, hb⟩
  | wrongSize _ _ => exact .inr ⟨tagPath, by simp [checked], h.1 tagPath (by simp [targets])⟩
  | badTar _ _ => exact .inr ⟨tagPath, by simp [checked], h.1 tagPath (by simp [targets])⟩
  | openTar hsize hread =>
    obtain ⟨h1, h2⟩ := h
    rename_i fs rcv ms'
    have hr : rcv = S.archive := by
      rcases hS with ⟨h0, hl⟩ | hS
      · have : rcv.length = S.contentLength := by
          by_contra hc
          exact hsize ⟨h0, hc⟩
        exact h2.eq_of_length (by rw [this, hl])
      · by_contra hc
        rw [hS rcv h2 hc] at hread
        cases hread
    rw [hr, hms] at hread
    cases hread
    exact ⟨h1 tagPath (by simp [targets]), [], rfl, by intro p n hp; cases hp⟩
  | partly hc _ =>
    obtain ⟨h1, d, e, hd⟩ := h
    rename_i fs p b c todo _
    have hnp : ¬ tagPath <+: p := htag (p, .file b) (by rw [e]; simp)
    refine ⟨?_, d, e, ?_⟩
    · rw [Dict.get?_set_ne _ _ (by rintro rfl; exact hnp (List.prefix_refl _))]
      exact mkParents_none _ _ _ hnp h1
    · intro q n hq hne
      have : p ≠ q := hne _ rfl
      rw [Dict.get?_set_ne _ _ this.symm]
      exact mkParents_some _ _ _ _ (hd q n hq hne)
  | whole _ =>
    obtain ⟨h1, d, e, hd⟩ := h
    rename_i fs p b todo _
    have hnp : ¬ tagPath <+: p := htag (p, .file b) (by rw [e]; simp)
    refine ⟨?_, d ++ [(p, .file b)], by rw [e]; simp, ?_⟩
    · rw [Dict.get?_set_ne _ _ (by rintro rfl; exact hnp (List.prefix_refl _))]
      exact mkParents_none _ _ _ hnp h1
    · intro q n hq _
      rw [lastNode_append] at hq
      rw [Dict.get?_set]
      by_cases hpq : p = q
      · rw [if_pos hpq] at hq
        rw [if_pos hpq.symm, hq]
      · rw [if_neg hpq] at hq
        rw [if_neg (Ne.symm hpq)]
        exact mkParents_some _ _ _ _ (hd q n hq (by rintro m ⟨⟩; exact hpq))
  | mkdir _ =>
    obtain ⟨h1, d, e, hd⟩ := h
    rename_i fs p todo _
    have hnp : ¬ tagPath <+: p := htag (p, .dir) (by rw [e]; simp)
    refine ⟨?_, d ++ [(p, .dir)], by rw [e]; simp, ?_⟩
    · rw [Dict.get?_set_ne _ _ (by rintro rfl; exact hnp (List.prefix_refl _))]
      exact mkParents_none _ _ _ hnp h1
    · intro q n hq _
      rw [lastNode_append] at hq
      rw [Dict.get?_set]
      by_cases hpq : p = q
      · rw [if_pos hpq] at hq
        rw [if_pos hpq.symm, hq]
      · rw [if_neg hpq] at hq
        rw [if_neg (Ne.symm hpq)]
        exact mkParents_some _ _ _ _ (hd q n hq (by rintro m ⟨⟩; exact hpq))
  | unpacked =>
    obtain ⟨h1, d, e, hd⟩ := h
    rw [List.append_nil] at e
    subst e
    exact ⟨h1, fun p n hp => hd p n hp (by rintro m ⟨⟩)⟩
  | tag _ =>
    obtain ⟨h1, h2⟩ := h
    intro p n hp
    rw [Dict.get?_set_ne]
    · exact h2 p n hp
    · rintro rfl
      rw [h2 _ n hp] at h1
      cases h1
  | failClean =>
    obtain ⟨d, e, hd, h0⟩ := h
    by_cases hn : d = []
    · exact .inl (h0 hn)
    · exact .inr (missing e hd hn)
  | failRmtree =>
    obtain ⟨d, e, hd, h0⟩ := h
    exact .inr (missing e hd h0)
  | failTags => exact .inr ⟨tagPath, by simp [checked], h tagPath (by simp [targets])⟩
  | failRequest => exact .inr ⟨tagPath, by simp [checked], h tagPath (by simp [targets])⟩
  | failDownload => exact .inr ⟨tagPath, by simp [checked], h.1 tagPath (by simp [targets])⟩
  | failExtract => exact .inr ⟨tagPath, by simp [checked], h.1⟩
  | failTag => exact .inr ⟨tagPath, by simp [checked], h.1⟩

theorem allPresent_false {fs : FS} (h : ∃ p ∈ checked, fs.get? p = none) : allPresent fs = false := by
  obtain ⟨p, hp, hn⟩ := h
  unfold allPresent
  rw [List.all_eq_false]
  exact ⟨p, hp, by simp [hn]⟩

/-! ### C52 -/

/-- removing a node below which there is nothing leaves a tree -/
theorem Tree.rm {fs : FS} (h : Tree fs) {q : Path} (hq : ∀ r, q <+: r → (fs.get? r).isSome → r = q) : Tree (fs.rm q) := by
  intro p r hpr hne hr
  rw [get?_rm] at hr ⊢
  by_cases hrq : r = q
  · simp [hrq] at hr
  rw [if_neg hrq] at hr
  rw [if_neg, h p r hpr hne hr]
  rintro rfl
  exact hrq (hq r hpr hr)

theorem Tree.leaf {fs : FS} (h : Tree fs) {q : Path} (hq : fs.get? q ≠ some .dir) {r : Path} (hr : q <+: r) (hs : (fs.get? r).isSome) : r = q := by
  by_contra hc
  exact hq (h q r hr (Ne.symm hc) hs)

/-- a path that is neither one of the targets or below them nor named like a tag file -/
def Foreign (q : Path) : Prop := (∀ p ∈ targets, ¬ p <+: q) ∧ ∀ n, q = [n] → isTagName n = false

/-- a tree in which all of `d` is gone with everything below it, and nothing foreign has been changed -/
structure Gone (fs₀ : FS) (d : List Path) (fs : FS) : Prop where
  tree : Tree fs
  gone : ∀ p ∈ d, ∀ q, p <+: q → fs.get? q = none
  frame : ∀ q, Foreign q → fs.get? q = fs₀.get? q
  sub : ∀ q, (fs.get? q).isSome → fs.get? q = fs₀.get? q

theorem Gone.absent {fs₀ fs : FS} {d : List Path} {p : Path} (h : Gone fs₀ d fs) (hp : fs.get? p = none) : Gone fs₀ (d ++ [p]) fs := by
  refine ⟨h.tree, ?_, h.frame, h.sub⟩
  intro p' hp' q hq
  rcases List.mem_append.1 hp' with hd | hd
  · exact h.gone p' hd q hq
  · rw [List.mem_singleton.1 hd] at hq
    by_contra hc
    have := h.tree.leaf (q := p) (by rw [hp]; simp) hq (Option.isSome_iff_ne_none.2 hc)
    rw [this] at hc
    exact hc hp

theorem Gone.rm {fs₀ fs : FS} {d : List Path} {q : Path} (h : Gone fs₀ d fs) (hq : ∀ r, q <+: r → (fs.get? r).isSome → r = q)
    (hf : ¬ Foreign q) : Gone fs₀ d (fs.rm q) := by
  refine ⟨h.tree.rm hq, fun p hp r hr => rm_none (h.gone p hp r hr), ?_, ?_⟩
  · intro r hr
    rw [get?_rm, if_neg (by rintro rfl; exact hf hr), h.frame r hr]
  · intro r hr
    rw [get?_rm] at hr ⊢
    by_cases hrq : r = q
    · simp [hrq] at hr
    · rw [if_neg hrq] at hr ⊢
      exact h.sub r hr

theorem not_foreign {p q : Path} (hp : p ∈ targets) (h : p <+: q) : ¬ Foreign q := fun hf => hf.1 p hp h

theorem not_foreign_tag {fs : FS} {p : Path} (h : p ∈ tagFiles fs) : ¬ Foreign p := by
  intro hf
  have := (List.mem_filter.1 h).2
  match p, this with
  | [n], this => exact absurd this (by simp [hf.2 n rfl])

/-- what holds in each phase, for C52 -/
def Inv2 (fs₀ : FS) (s : State) : Prop :=
  match s.phase with
  | .clean todo => ∃ d, targets = d ++ todo ∧ Gone fs₀ d s.fs
  | .rmtree p todo => ∃ d, targets = d ++ p :: todo ∧ Gone fs₀ d s.fs
  | .tags todo => Gone fs₀ targets s.fs ∧ ∀ p ∈ todo, ¬ Foreign p
  | .download _ => Gone fs₀ targets s.fs
  | .failed .cleaning => Gone fs₀ [] s.fs
  | .failed .download => Gone fs₀ targets s.fs
  | _ => True

theorem Gone.nil {fs₀ fs : FS} {d : List Path} (h : Gone fs₀ d fs) : Gone fs₀ [] fs := ⟨h.tree, by simp, h.frame, h.sub⟩

theorem inv2_step {S : Server} {fs₀ : FS} {s s' : State} (h : Inv2 fs₀ s) (hs : Step S s s') : Inv2 fs₀ s' := by
  have cleanDone : ∀ {d todo : List Path} {p : Path}, targets = d ++ p :: todo → targets = (d ++ [p]) ++ todo := by
    intro d todo p h
    rw [h]
    simp
  cases hs with
  | absent hp =>
    obtain ⟨d, e, hd⟩ := h
    exact ⟨_, cleanDone e, hd.absent hp⟩
  | remove hp =>
    obtain ⟨d, e, hd⟩ := h
    rename_i fs p todo b
    have hl : ∀ r, p <+: r → (fs.get? r).isSome → r = p := fun r hr hs => hd.tree.leaf (by rw [hp]; simp) hr hs
    exact ⟨_, cleanDone e, (hd.rm hl (not_foreign (by rw [e]; simp) (List.prefix_refl p))).absent (by rw [get?_rm, if_pos rfl])⟩
  | enter hp => exact h
  | below hpq hne hq hl =>
    obtain ⟨d, e, hd⟩ := h
    exact ⟨d, e, hd.rm hl (not_foreign (by rw [e]; simp) hpq)⟩
  | top hl =>
    obtain ⟨d, e, hd⟩ := h
    rename_i fs p todo
    exact ⟨_, cleanDone e, (hd.rm hl (not_foreign (by rw [e]; simp) (List.prefix_refl p))).absent (by rw [get?_rm, if_pos rfl])⟩
  | glob =>
    obtain ⟨d, e, hd⟩ := h
    rw [List.append_nil] at e
    exact ⟨e ▸ hd, fun p hp => not_foreign_tag hp⟩
  | removeTag hp =>
    obtain ⟨h1, h2⟩ := h
    exact ⟨h1.rm (fun r hr hs => h1.tree.leaf (by rw [hp]; simp) hr hs) (h2 _ (by simp)), fun p hp => h2 p (by simp [hp])⟩
  | absentTag hp => exact ⟨h.1, fun p hp => h.2 p (by simp [hp])⟩
  | request => exact h.1
  | block _ => exact h
  | wrongSize _ _ => exact h
  | badTar _ _ => exact h
  | openTar _ _ => trivial
  | partly _ _ => trivial
  | whole _ => trivial
  | mkdir _ => trivial
  | unpacked => trivial
  | tag _ => trivial
  | failClean => obtain ⟨d, -, hd⟩ := h; exact hd.nil
  | failRmtree => obtain ⟨d, -, hd⟩ := h; exact hd.nil
  | failTags => exact h.1.nil
  | failRequest => exact h.1
  | failDownload => exact h
  | failExtract => trivial
  | failTag => trivial

theorem inv2_reach {S : Server} {fs₀ : FS} (hT : Tree fs₀) {s : State} (h : Reach S fs₀ s) : Inv2 fs₀ s := by
  induction h with
  | start => exact ⟨[], rfl, hT, by simp, fun _ _ => rfl, fun _ _ => rfl⟩
  | step _ hs ih => exact inv2_step ih hs

/-- removing makes the list of nodes shorter -/
theorem rm_length {fs : FS} {q : Path} (h : (fs.get? q).isSome) : (fs.rm q).length < fs.length := by
  unfold FS.rm
  refine List.length_filter_lt_length_iff_exists.2 ?_
  rw [← Dict.mem_keys_iff] at h
  obtain ⟨kv, hkv, e⟩ := List.mem_map.1 h
  exact ⟨kv, hkv, by simp [e]⟩

/-- there is a longest one among the paths of a list that satisfy a condition -/
theorem exists_longest (l : List Path) (P : Path → Prop) (h : ∃ q ∈ l, P q) : ∃ q ∈ l, P q ∧ ∀ r ∈ l, P r → r.length ≤ q.length := by
  induction l with
  | nil => obtain ⟨q, hq, -⟩ := h; cases hq
  | cons a l ih =>
    by_cases hl : ∃ q ∈ l, P q
    · obtain ⟨q, hq, hp, hm⟩ := ih hl
      by_cases ha : P a ∧ q.length < a.length
      · refine ⟨a, by simp, ha.1, ?_⟩
        intro r hr hpr
        rcases List.mem_cons.1 hr with rfl | hr
        · exact Nat.le_refl _
        · exact Nat.le_trans (hm r hr hpr) (Nat.le_of_lt ha.2)
      · refine ⟨q, by simp [hq], hp, ?_⟩
        intro r hr hpr
        rcases List.mem_cons.1 hr with rfl | hr
        · exact Nat.not_lt.1 (fun hc => ha ⟨hpr, hc⟩)
        · exact hm r hr hpr
    · obtain ⟨q, hq, hp⟩ := h
      rcases List.mem_cons.1 hq with rfl | hq
      · refine ⟨q, by simp, hp, ?_⟩
        intro r hr hpr
        rcases List.mem_cons.1 hr with rfl | hr
        · exact Nat.le_refl _
        · exact absurd ⟨r, hr, hpr⟩ hl
      · exact absurd ⟨q, hq, hp⟩ hl

theorem rmtree_finishes {S : Server} {fs₀ : FS} (p : Path) (todo : List Path) (n : Nat) :
    ∀ fs : FS, fs.length ≤ n → Reach S fs₀ ⟨fs, .rmtree p todo⟩ → ∃ fs', Reach S fs₀ ⟨fs', .clean todo⟩ := by
  induction n with
  | zero =>
    intro fs hl h
    have : fs = [] := List.length_eq_zero_iff.1 (Nat.le_zero.1 hl)
    subst this
    exact ⟨_, h.step (.top (by intro r _ hr; simp [Dict.get?] at hr))⟩
  | succ n ih =>
    intro fs hl h
    by_cases hex : ∃ q ∈ fs.keys, p <+: q ∧ q ≠ p
    · obtain ⟨q, hq, ⟨hpq, hne⟩, hm⟩ := exists_longest fs.keys _ hex
      have hs : (fs.get? q).isSome := (Dict.mem_keys_iff _ _).1 hq
      refine ih (fs.rm q) (by have := rm_length hs; omega) (h.step (.below hpq hne hs ?_))
      intro r hqr hr
      have hle := hm r ((Dict.mem_keys_iff _ _).2 hr) ⟨hpq.trans hqr, ?_⟩
      · exact (hqr.eq_of_length (Nat.le_antisymm hqr.length_le hle)).symm
      · rintro rfl
        exact hne (List.IsPrefix.eq_of_length hpq (Nat.le_antisymm hpq.length_le hqr.length_le)).symm
    · refine ⟨_, h.step (.top ?_)⟩
      intro r hpr hr
      by_contra hc
      exact hex ⟨r, (Dict.mem_keys_iff _ _).2 hr, hpr, hc⟩

theorem clean_finishes {S : Server} {fs₀ : FS} (todo : List Path) : ∀ fs : FS, Reach S fs₀ ⟨fs, .clean todo⟩ → ∃ fs', Reach S fs₀ ⟨fs', .clean []⟩ := by
  induction todo with
  | nil => exact fun fs h => ⟨fs, h⟩
  | cons p todo ih =>
    intro fs h
    match hp : fs.get? p with
    | none => exact ih _ (h.step (.absent hp))
    | some (.file b) => exact ih _ (h.step (.remove hp))
    | some .dir =>
      obtain ⟨fs', h'⟩ := rmtree_finishes p todo fs.length fs (Nat.le_refl _) (h.step (.enter hp))
      exact ih _ h'

theorem tags_finish {S : Server} {fs₀ : FS} (todo : List Path) : ∀ fs : FS, (∀ p ∈ todo, fs.get? p ≠ some .dir) →
    Reach S fs₀ ⟨fs, .tags todo⟩ → ∃ fs', Reach S fs₀ ⟨fs', .tags []⟩ := by
  induction todo with
  | nil => exact fun fs _ h => ⟨fs, h⟩
  | cons p todo ih =>
    intro fs hd h
    match hp : fs.get? p with
    | none => exact ih _ (fun q hq => hd q (by simp [hq])) (h.step (.absentTag hp))
    | some (.file b) =>
      refine ih _ (fun q hq => ?_) (h.step (.removeTag hp))
      rw [get?_rm]
      split
      · simp
      · exact hd q (by simp [hq])
    | some .dir => exact absurd hp (hd p (by simp))

end X4.Install

namespace X4
open Install

/-- C51: at every point of the execution, failures included, either nothing has been changed yet, or
one of the paths checked is missing, or the archive is completely unpacked. -/
theorem C51_crash {S : Server} {ms : List (Path × Node)} {fs₀ : FS} (hS : S.Detects) (hms : S.read S.archive = some ms)
    (htag : ∀ m ∈ ms, ¬ tagPath <+: m.1) (hidx : fs₀.get? indexPath ≠ some .dir) {s : State} (h : Reach S fs₀ s) :
    s.fs = fs₀ ∨ allPresent s.fs = false ∨ Unpacked ms s.fs := by
  have hinv : Inv S ms fs₀ s := by
    induction h with
    | start => exact ⟨[], rfl, by simp, fun _ => rfl⟩
    | step _ hs ih => exact inv_step hS hms htag hidx ih hs
  obtain ⟨fs, ph⟩ := s
  have tagMissing : fs.get? tagPath = none → allPresent fs = false := fun h => allPresent_false ⟨tagPath, by simp [checked], h⟩
  cases ph with
  | clean todo =>
    obtain ⟨d, e, hd, h0⟩ := hinv
    match d, hd, h0, e with
    | [], _, h0, _ => exact .inl (h0 rfl)
    | p :: d, hd, _, e => exact .inr (.inl (allPresent_false ⟨p, mem_checked (by rw [e]; simp), hd p (by simp)⟩))
  | rmtree p todo =>
    obtain ⟨d, e, hd, h0⟩ := hinv
    match d, hd, h0, e with
    | [], _, h0, _ => exact absurd rfl h0
    | p :: d, hd, _, e => exact .inr (.inl (allPresent_false ⟨p, mem_checked (by rw [e]; simp), hd p (by simp)⟩))
  | tags _ => exact .inr (.inl (tagMissing (hinv tagPath (by simp [targets]))))
  | download _ => exact .inr (.inl (tagMissing (hinv.1 tagPath (by simp [targets]))))
  | extract _ => exact .inr (.inl (tagMissing hinv.1))
  | tagging => exact .inr (.inl (tagMissing hinv.1))
  | done => exact .inr (.inr hinv)
  | failed _ =>
    rcases hinv with h | h
    · exact .inl h
    · exact .inr (.inl (allPresent_false h))

/-- C52 is false: when the download fails, nothing is left of the previous database, whatever it was. -/
theorem C52_refuted {S : Server} {fs₀ : FS} (hT : Tree fs₀) {s : State} (h : Reach S fs₀ s) (hf : s.phase = .failed .download) :
    ∀ p ∈ targets, ∀ q, p <+: q → s.fs.get? q = none := by
  have hi := inv2_reach hT h
  unfold Inv2 at hi
  rw [hf] at hi
  exact hi.gone

/-- and such a failure can happen to every database (in which no directory is named like a tag file) -/
theorem C52_possible_refuted (S : Server) {fs₀ : FS} (hT : Tree fs₀) (hd : ∀ n, isTagName n → fs₀.get? [n] ≠ some .dir) :
    ∃ fs, Reach S fs₀ ⟨fs, .failed .download⟩ := by
  obtain ⟨fs, h⟩ := clean_finishes targets fs₀ (Reach.start (S := S))
  obtain ⟨d, -, hg⟩ := inv2_reach hT h
  obtain ⟨fs', h'⟩ := tags_finish (tagFiles fs) fs (by
    intro p hp hc
    have hs := hg.sub p (by simp only at hc ⊢; rw [hc]; rfl)
    have := (List.mem_filter.1 hp).2
    match p, this with
    | [n], this =>
      simp only at hs hc
      rw [hc] at hs
      exact hd n this hs.symm) (h.step .glob)
  exact ⟨fs', h'.step .failRequest⟩

/-- C52 (partial): what neither belongs to the database nor is named like a tag file is not touched by
a failing download or cleanup; and nothing is changed in its contents, only removed. -/
theorem C52_frame_partial {S : Server} {fs₀ : FS} (hT : Tree fs₀) {s : State} (h : Reach S fs₀ s)
    (hf : s.phase = .failed .download ∨ s.phase = .failed .cleaning) :
    (∀ q, (∀ p ∈ targets, ¬ p <+: q) → (∀ n, q = [n] → isTagName n = false) → s.fs.get? q = fs₀.get? q) ∧
    ∀ q n, s.fs.get? q = some n → fs₀.get? q = some n := by
  have hi := inv2_reach hT h
  have : ∃ d, Gone fs₀ d s.fs := by
    unfold Inv2 at hi
    rcases hf with hf | hf <;> rw [hf] at hi <;> exact ⟨_, hi⟩
  obtain ⟨d, hg⟩ := this
  refine ⟨fun q h1 h2 => hg.frame q ⟨h1, h2⟩, fun q n hq => ?_⟩
  rw [← hg.sub q (by rw [hq]; rfl), hq]

/-! ### Examples -/

/-- what an archive of the database contains, here with one entry -/
def demoMembers : List (Path × Node) :=
  [(indexPath, .file [1]), (errorPath, .file []), (coupledPath, .file []), (monitoredPath, .file []), (countPath, .file []),
   (dbPath, .dir), (dbPath ++ [chars!"100", chars!"10001.x4"], .file [7, 8])]

/-- an older installation, with a file of the user -/
def demoOld : FS :=
  [([], .dir), (indexPath, .file [0]), (dbPath, .dir), (dbPath ++ [chars!"100"], .dir), (dbPath ++ [chars!"100", chars!"10001.x4"], .file [7]),
   ([chars!"EXFOR-2016-04-01"], .file []), ([chars!"notes"], .file [9])]

/-- a server that announces the size, and an archive reader for it -/
def demoServer : Server := ⟨2, [1, 2], fun b => if b = [1, 2] then some demoMembers else none⟩

/-- the files of the older installation that remain after the cleanup -/
def demoCleaned : FS := [([], .dir), ([chars!"notes"], .file [9])]

theorem demo_download (S : Server) : Reach S demoOld ⟨demoCleaned, .download []⟩ := by
  have h0 : Reach S demoOld ⟨demoOld, .clean targets⟩ := .start
  have h1 := h0.step (.remove (b := [0]) (by decide))
  have h2 := h1.step (.absent (by decide))
  have h3 := h2.step (.absent (by decide))
  have h4 := h3.step (.absent (by decide))
  have h5 := h4.step (.absent (by decide))
  have h6 := h5.step (.enter (by decide))
  have leaf : ∀ (fs : FS) (q : Path), (fs.keys.all (fun r => !(q.isPrefixOf r) || decide (r = q))) = true →
      ∀ r, q <+: r → (fs.get? r).isSome → r = q := by
    intro fs q h r hr hs
    have := List.all_eq_true.1 h r ((Dict.mem_keys_iff _ _).2 hs)
    rw [List.isPrefixOf_iff_prefix.2 hr] at this
    simpa using this
  have h7 := h6.step (.below (q := dbPath ++ [chars!"100", chars!"10001.x4"]) (by simp) (by simp) (by decide) (leaf _ _ (by decide)))
  have h8 := h7.step (.below (q := dbPath ++ [chars!"100"]) (by simp) (by simp) (by decide) (leaf _ _ (by decide)))
  have h9 := h8.step (.top (leaf _ _ (by decide)))
  have h10 := h9.step (.absent (by decide))
  have h11 := h10.step .glob
  have h12 := h11.step (.removeTag (b := []) (by decide))
  exact h12.step .request

/-- unpacking without interruption -/
def unpackAll : List (Path × Node) → FS → Option FS
  | [], fs => some fs
  | (p, .file b) :: ms, fs => if fs.get? p = some .dir then none else unpackAll ms ((mkParents fs p).set p (.file b))
  | (p, .dir) :: ms, fs => match fs.get? p with
    | some (.file _) => none
    | _ => unpackAll ms ((mkParents fs p).set p .dir)

theorem reach_unpackAll {S : Server} {fs₀ : FS} (ms : List (Path × Node)) : ∀ (fs fs' : FS), Reach S fs₀ ⟨fs, .extract ms⟩ → unpackAll ms fs = some fs' →
    Reach S fs₀ ⟨fs', .tagging⟩ := by
  induction ms with
  | nil =>
    intro fs fs' h e
    cases e
    exact h.step .unpacked
  | cons m ms ih =>
    intro fs fs' h e
    match m with
    | (p, .file b) =>
      rw [unpackAll] at e
      by_cases hd : fs.get? p = some .dir
      · rw [if_pos hd] at e; cases e
      · rw [if_neg hd] at e
        exact ih _ _ (h.step (.whole hd)) e
    | (p, .dir) =>
      rw [unpackAll] at e
      match hp : fs.get? p with
      | some (.file b) => rw [hp] at e; cases e
      | some .dir => rw [hp] at e; exact ih _ _ (h.step (.mkdir (by rw [hp]; simp))) e
      | none => rw [hp] at e; exact ih _ _ (h.step (.mkdir (by rw [hp]; simp))) e

/-- C51 applies: the server and the older installation meet its hypotheses … -/
example : demoServer.Detects ∧ demoServer.read demoServer.archive = some demoMembers ∧ (∀ m ∈ demoMembers, ¬ tagPath <+: m.1) ∧
    demoOld.get? indexPath ≠ some .dir ∧ Tree demoOld := by
  refine ⟨.inl (by decide), by decide, by decide, by decide, ?_⟩
  intro p q hp hne hq
  have h := (Dict.mem_keys_iff _ _).2 hq
  have : ∀ q ∈ demoOld.keys, ∀ i ∈ List.range q.length, demoOld.get? (q.take i) = some .dir := by decide
  have hl : p.length < q.length := by
    rcases Nat.lt_or_ge p.length q.length with h | h
    · exact h
    · exact absurd (hp.eq_of_length (Nat.le_antisymm hp.length_le h)) hne
  have := this q h p.length (List.mem_range.2 hl)
  rwa [← List.prefix_iff_eq_take.1 hp] at this

/-- … and the procedure can come to its end, with all the paths present. -/
example : ∃ fs, Reach demoServer demoOld ⟨fs, .done⟩ ∧ allPresent fs = true ∧ fs.get? (dbPath ++ [chars!"100", chars!"10001.x4"]) = some (.file [7, 8]) ∧
    fs.get? [chars!"notes"] = some (.file [9]) := by
  have h1 := (demo_download demoServer).step (.block (b := [1, 2]) (by decide))
  have h2 := h1.step (.openTar (ms := demoMembers) (by decide) (by decide))
  have h3 := reach_unpackAll _ _ _ h2 (by decide : unpackAll demoMembers demoCleaned = some ((unpackAll demoMembers demoCleaned).getD []))
  have h4 := h3.step (.tag (by decide))
  exact ⟨_, h4, by decide, by decide, by decide⟩

/-- The condition on cut-off transfers is needed in C51: without an announced size, and if the reader accepts
the beginning of an archive (`tarfile` does if an uncompressed archive is cut between members), all paths are
present in the end although an entry is missing. -/
theorem C51_truncated : ∃ (S : Server) (ms : List (Path × Node)) (fs₀ : FS) (s : State), S.read S.archive = some ms ∧ S.contentLength = 0 ∧
    (∀ m ∈ ms, ¬ tagPath <+: m.1) ∧ Reach S fs₀ s ∧ allPresent fs₀ = false ∧ allPresent s.fs = true ∧ ¬ Unpacked ms s.fs := by
  let S : Server := ⟨0, [1, 2], fun b => if b = [1, 2] then some demoMembers else if b = [1] then some (demoMembers.take 6) else none⟩
  have h1 := (demo_download S).step (.block (b := [1]) (by decide))
  have h2 := h1.step (.openTar (ms := demoMembers.take 6) (by decide) (by decide))
  have h3 := reach_unpackAll _ _ _ h2 (by decide : unpackAll (demoMembers.take 6) demoCleaned = some ((unpackAll (demoMembers.take 6) demoCleaned).getD []))
  have h4 := h3.step (.tag (by decide))
  refine ⟨S, demoMembers, demoOld, _, by decide, rfl, by decide, h4, by decide, by decide, ?_⟩
  intro hu
  have := hu (dbPath ++ [chars!"100", chars!"10001.x4"]) (.file [7, 8]) (by decide)
  revert this
  decide

/-- So is the condition on the tag file: if it is a member of the archive, it can be there before the rest. -/
theorem C51_tag_member : ∃ (S : Server) (ms : List (Path × Node)) (fs₀ : FS) (s : State), S.Detects ∧ S.read S.archive = some ms ∧
    Reach S fs₀ s ∧ allPresent fs₀ = false ∧ allPresent s.fs = true ∧ ¬ Unpacked ms s.fs := by
  let S : Server := ⟨2, [1, 2], fun b => if b = [1, 2] then some ((tagPath, .file []) :: demoMembers) else none⟩
  have h1 := (demo_download S).step (.block (b := [1, 2]) (by decide))
  have h2 := h1.step (.openTar (ms := (tagPath, .file []) :: demoMembers) (by decide) (by decide))
  have h3 := h2.step (.whole (by decide))
  have h4 := h3.step (.whole (by decide))
  have h5 := h4.step (.whole (by decide))
  have h6 := h5.step (.whole (by decide))
  have h7 := h6.step (.whole (by decide))
  have h8 := h7.step (.whole (by decide))
  have key : ∀ (fs : FS) (p : Path), fs.get? p = none → ∀ b, fs.get? p ≠ some (.file b) := fun fs p h b => by rw [h]; simp
  have h9 := h8.step (.mkdir (key _ _ (by decide)))
  refine ⟨S, (tagPath, .file []) :: demoMembers, demoOld, _, .inl (by decide), by decide, h9, by decide, by decide, ?_⟩
  intro hu
  have := hu (dbPath ++ [chars!"100", chars!"10001.x4"]) (.file [7, 8]) (by decide)
  revert this
  decide

/-- C52_refuted applies: the older installation is lost. -/
example : ∃ s, Reach demoServer demoOld s ∧ s.phase = .failed .download ∧ demoOld.get? indexPath ≠ none ∧ s.fs.get? indexPath = none ∧
    s.fs.get? [chars!"notes"] = some (.file [9]) :=
  ⟨_, (demo_download demoServer).step (.wrongSize (by decide) (by decide)), rfl, by decide, by decide, by decide⟩

end X4
