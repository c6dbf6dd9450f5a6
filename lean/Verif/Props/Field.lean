import Verif.Lemmas.MonRef
/-! Properties C37-C39, C42, C63: text, MONITOR and REFERENCE fields. -/
namespace X4

def demoField : List Str :=
  ["REACTION  1(1-H-1(N,TOT),,SIG)  ".toList, "           first".toList, "          3(1-H-1(N,EL)1-H-1,,SIG)".toList,
   "          2(1-H-1(N,INL),,SIG)".toList, "           more".toList]

/-- C37, for fields whose pointer characters are not below blank in code point order
(control characters): the lines of `repr(field)` parse to the same field. -/
theorem C37_roundtrip_partial (raw : List Str) (f : PlainField) (h : PlainField.build raw = .ok f)
    (hnl : ∀ l ∈ raw, '\n' ∉ l) (hp : ∀ l ∈ raw, ∀ c, explicitPointer l = some c → ' '.toNat ≤ c.toNat) :
    ∃ f', PlainField.build (splitChar '\n' f.repr) = .ok f' ∧ f'.tag = f.tag ∧
      (∀ p, f'.subs.get? p = f.subs.get? p) ∧ f'.subs.keys = f.sortedKeys := by
  cases raw with
  | nil => simp [PlainField.build, pyIdx] at h
  | cons l0 ls =>
    simp only [PlainField.build, pyIdx, List.getElem?_cons_zero, Except.ok.injEq] at h
    obtain ⟨hi1, hi2, hi3⟩ := fold_inv (l0 :: ls) hnl
    have hne := nonempty_fold (ls := l0 :: ls) (by simp)
    have hkeys : ∀ k ∈ ((l0 :: ls).foldl plainStep (' ', [])).2.keys, ' '.toNat ≤ k.toNat := by
      intro k hk
      rw [Dict.mem_keys_iff] at hk
      have := (fold_textUnder (l0 :: ls) k).2.2.1 hk
      obtain ⟨x, hx⟩ := List.exists_mem_of_ne_nil _ this
      simp only [textUnder, List.mem_filterMap] at hx
      obtain ⟨i, hi, hx⟩ := hx
      split at hx
      · rename_i hpk
        rw [← hpk, pointerInForce]
        cases hl : (List.filterMap explicitPointer (List.take (i + 1) (l0 :: ls))).getLast? with
        | none => simp
        | some c =>
          have := List.mem_of_getLast? hl
          rw [List.mem_filterMap] at this
          obtain ⟨l, hl, hc⟩ := this
          exact hp l (List.mem_of_mem_take hl) c hc
      · simp at hx
    have hftag : strip f.tag = f.tag := by rw [← h]; simp
    have hftl : f.tag.length ≤ 10 := by
      rw [← h]; simp only
      refine (length_strip_le _).trans ?_
      simp only [slice, List.drop_zero, List.length_take]; omega
    have hftnl : '\n' ∉ f.tag := by
      rw [← h]; simp only
      intro hm
      have := mem_strip hm
      simp only [slice, List.drop_zero] at this
      exact hnl l0 (by simp) (List.mem_of_mem_take this)
    have hsubs : f.subs = ((l0 :: ls).foldl plainStep (' ', [])).2 := by rw [← h]
    rw [← hsubs] at hi2 hi3 hne hkeys
    have hsk : f.sortedKeys.Pairwise fun a b => a.toNat < b.toNat := by
      have h1 := sortBy_sorted charLe_total charLe_trans f.subs.keys
      have h2 : f.sortedKeys.Nodup := (sortBy_perm charLe f.subs.keys).nodup_iff.2 hi2
      refine List.Pairwise.imp₂ ?_ h1 h2
      intro a b hab hne
      simp only [charLe, decide_eq_true_eq] at hab
      have : a.toNat ≠ b.toNat := fun e => hne (char_toNat_inj e)
      omega
    have hblock : ∀ b ∈ f.sortedSubs, b ∈ f.subs := by
      intro b hb
      simp only [PlainField.sortedSubs, List.mem_map] at hb
      obtain ⟨p, hp, rfl⟩ := hb
      rw [PlainField.sortedKeys, mem_sortBy, Dict.keys, List.mem_map] at hp
      obtain ⟨kv, hkv, rfl⟩ := hp
      simpa [Dict.get?_eq_some_of_mem hi2 (show (kv.1, kv.2) ∈ f.subs from hkv)] using hkv
    have hkeysS : f.sortedSubs.map Prod.fst = f.sortedKeys := by
      simp [PlainField.sortedSubs, Function.comp_def]
    have hneS : f.sortedSubs ≠ [] := by
      intro e
      have : f.sortedKeys = [] := by rw [← hkeysS, e]; rfl
      have hpm := sortBy_perm charLe f.subs.keys
      rw [PlainField.sortedKeys] at this
      rw [this] at hpm
      have := hpm.symm.eq_nil
      simp [Dict.keys] at this
      exact hne this
    have hcanon : CanonField f.tag f.sortedSubs := by
      refine ⟨hftl, hftag, hneS, ?_, ?_⟩
      · intro b hb
        have hb' := hblock b hb
        refine ⟨(hi3 b hb').1, hkeys b.1 (List.mem_map.2 ⟨b, hb', rfl⟩), ?_⟩
        intro x hx
        have := (hi3 b hb').2 x hx
        exact ⟨this.1, this.2.1⟩
      · have := hsk
        rw [← hkeysS, List.pairwise_map] at this
        exact this
    have hnlc : ∀ l ∈ canonLines f.tag f.sortedSubs, '\n' ∉ l := by
      have hbl : ∀ l ∈ f.sortedSubs.flatMap blockLines, '\n' ∉ l := by
        intro l hl
        rw [List.mem_flatMap] at hl
        obtain ⟨⟨p, xs⟩, hb, hl⟩ := hl
        have hb' := hblock _ hb
        have hpn : p ≠ '\n' := by
          have := hkeys p (List.mem_map.2 ⟨_, hb', rfl⟩)
          rintro rfl
          revert this; decide
        have hx := (hi3 _ hb').2
        cases xs with
        | nil => simp [blockLines] at hl
        | cons x xs =>
          simp only [blockLines, List.mem_cons, List.mem_map] at hl
          rcases hl with rfl | ⟨y, hy, rfl⟩
          · have := (hx x (by simp)).2.2
            simp [this, hpn.symm]
          · have := (hx y (by simp [hy])).2.2
            simp [this]
      intro l hl
      unfold canonLines at hl
      cases hc : f.sortedSubs.flatMap blockLines with
      | nil => simp [hc] at hl
      | cons a as =>
        rw [hc] at hl hbl
        simp only [List.mem_cons] at hl
        rcases hl with rfl | hl
        · have := hbl a (by simp)
          simp only [List.mem_append, not_or]
          refine ⟨?_, fun hm => this (List.mem_of_mem_drop hm)⟩
          simp [ljust, hftnl]
        · exact hbl l (by simp [hl])
    have hcne : canonLines f.tag f.sortedSubs ≠ [] := by
      obtain ⟨⟨p, xs⟩, bs, e⟩ := List.exists_cons_of_ne_nil hneS
      have := (hcanon.block (p, xs) (by rw [e]; simp)).1
      obtain ⟨x, xs, rfl⟩ := List.exists_cons_of_ne_nil this
      rw [e, canonLines_eq]; simp
    refine ⟨{ tag := f.tag, subs := f.sortedSubs }, ?_, rfl, ?_, ?_⟩
    · rw [repr_eq hne (fun kv hkv => (hi3 kv hkv).1) hi2, splitChar_joinWith hnlc hcne]
      exact build_canon hcanon
    · intro p
      have hnd : Dict.keys f.sortedSubs |>.Nodup := by
        show (f.sortedSubs.map Prod.fst).Nodup
        rw [hkeysS]
        exact (sortBy_perm charLe f.subs.keys).nodup_iff.2 hi2
      show Dict.get? f.sortedSubs p = _
      by_cases hm : p ∈ f.subs.keys
      · have : (p, (f.subs.get? p).getD []) ∈ f.sortedSubs := by
          simp only [PlainField.sortedSubs, List.mem_map]
          exact ⟨p, by rw [PlainField.sortedKeys, mem_sortBy]; exact hm, rfl⟩
        rw [Dict.get?_eq_some_of_mem hnd this]
        rw [Dict.mem_keys_iff] at hm
        obtain ⟨v, hv⟩ := Option.isSome_iff_exists.1 hm
        simp [hv]
      · rw [Dict.get?_eq_none_iff.2 hm, Dict.get?_eq_none_iff]
        show p ∉ f.sortedSubs.map Prod.fst
        rw [hkeysS, PlainField.sortedKeys, mem_sortBy]
        exact hm
    · exact hkeysS

example : ∃ f, PlainField.build demoField = .ok f ∧ (∀ l ∈ demoField, '\n' ∉ l) ∧
    f.subs.keys = ['1', '3', '2'] ∧ f.sortedKeys = ['1', '2', '3'] ∧ f.tag = "REACTION".toList :=
  ⟨_, rfl, by decide +kernel⟩
example : ∀ l ∈ demoField, ∀ c, explicitPointer l = some c → ' '.toNat ≤ c.toNat := by
  intro l hl c hc
  simp only [demoField, List.mem_cons, List.not_mem_nil, or_false] at hl
  rcases hl with rfl | rfl | rfl | rfl | rfl <;> revert hc <;> simp [explicitPointer] <;> rintro rfl <;> decide

/-- C37 fails for a control character as pointer: it sorts before the blank, so on
re-reading the pointer-free text is attributed to it. -/
theorem C37_control_pointer_refuted :
    ¬ ∀ (raw : List Str) (f : PlainField), PlainField.build raw = .ok f → (∀ l ∈ raw, '\n' ∉ l) →
      ∃ f', PlainField.build (splitChar '\n' f.repr) = .ok f' ∧ ∀ p, f'.subs.get? p = f.subs.get? p := by
  intro h
  obtain ⟨f', h1, h2⟩ := h ["TITLE      a".toList, "          \tb".toList] _ rfl (by decide)
  have : PlainField.build (splitChar '\n' (PlainField.repr ⟨"TITLE".toList, [(' ', ["a".toList]), ('\t', ["b".toList])]⟩))
      = .ok ⟨"TITLE".toList, [('\t', ["b".toList, "a".toList])]⟩ := by decide +kernel
  have e : f' = ⟨"TITLE".toList, [('\t', ["b".toList, "a".toList])]⟩ := by
    have := h1.symm.trans this
    simpa using this
  have := h2 ' '
  rw [e] at this
  revert this
  decide +kernel

/-- C38: canonical text is parsed into its blocks and printed back unchanged. -/
theorem C38_canonical (tag : Str) (blocks : List (Char × List Str)) (h : CanonField tag blocks) :
    ∃ f, PlainField.build (canonLines tag blocks) = .ok f ∧ f.tag = tag ∧ f.subs = blocks ∧
      f.repr = joinWith ['\n'] (canonLines tag blocks) := by
  refine ⟨_, build_canon h, rfl, rfl, ?_⟩
  have hs : (blocks.map Prod.fst).Pairwise fun a b => charLe a b = true := by
    rw [List.pairwise_map]
    exact h.sorted.imp (by intro a b hab; simp [charLe]; omega)
  have hn : (blocks.map Prod.fst).Nodup := by
    rw [List.Nodup, List.pairwise_map]
    exact h.sorted.imp (by intro a b hab e; rw [e] at hab; omega)
  have hsub : PlainField.sortedSubs ⟨tag, blocks⟩ = blocks := by
    unfold PlainField.sortedSubs PlainField.sortedKeys Dict.keys
    simp only
    rw [sortBy_of_sorted hs, List.map_map]
    conv_rhs => rw [← List.map_id blocks]
    apply List.map_congr_left
    intro b hb
    simp [Dict.get?_eq_some_of_mem (κ := Char) (d := blocks) hn (show (b.1, b.2) ∈ blocks from hb)]
  rw [repr_eq (f := ⟨tag, blocks⟩) h.nonempty (fun kv hkv => (h.block kv hkv).1) hn, hsub]

example : CanonField "TITLE".toList [(' ', ["some".toList, "text".toList]), ('1', ["x".toList])] :=
  ⟨by decide, by decide, by decide, by decide, by decide⟩

/-- C39: the text stored under each pointer is the text of exactly the lines for which
it is the pointer in force, in order; every pointer has text; no line is dropped. -/
theorem C39_pointer_in_force (raw : List Str) (f : PlainField) (h : PlainField.build raw = .ok f) (p : Char) :
    (f.subs.get? p).getD [] = textUnder raw p ∧ (p ∈ f.subs.keys ↔ textUnder raw p ≠ []) := by
  cases raw with
  | nil => simp [PlainField.build, pyIdx] at h
  | cons l0 ls =>
    simp only [PlainField.build, pyIdx, List.getElem?_cons_zero, Except.ok.injEq] at h
    have hsubs : f.subs = ((l0 :: ls).foldl plainStep (' ', [])).2 := by rw [← h]
    rw [Dict.mem_keys_iff, hsubs]
    exact (fold_textUnder (l0 :: ls) p).2

theorem C39_total (raw : List Str) (f : PlainField) (h : PlainField.build raw = .ok f) :
    f.totalLen = raw.length := by
  cases raw with
  | nil => simp [PlainField.build, pyIdx] at h
  | cons l0 ls =>
    simp only [PlainField.build, pyIdx, List.getElem?_cons_zero, Except.ok.injEq] at h
    rw [← h]
    simp only [PlainField.totalLen]
    generalize l0 :: ls = xs
    suffices ((xs.foldl plainStep (' ', [])).2.keys.Nodup ∧
        ((xs.foldl plainStep (' ', [])).2.map fun kv => kv.2.length).sum = xs.length) from this.2
    induction xs using List.reverseRecOn with
    | nil => simp [Dict.keys]
    | append_singleton xs l ih =>
      rw [List.foldl_append]
      simp only [List.foldl_cons, List.foldl_nil, plainStep]
      refine ⟨Dict.nodup_keys_set ih.1 _ _, ?_⟩
      rw [Dict.sum_set_getD _ ih.1, ih.2]; simp

theorem C39_fails_iff_empty (raw : List Str) : (∃ f, PlainField.build raw = .ok f) ↔ raw ≠ [] := by
  cases raw <;> simp [PlainField.build, pyIdx]

example : ∃ f, PlainField.build demoField = .ok f ∧ textUnder demoField '2' = ["(1-H-1(N,INL),,SIG)".toList, "more".toList] ∧
    f.totalLen = 5 := ⟨_, rfl, by decide +kernel⟩

/-- C42, first half: no text of a MONITOR field is lost or reordered. -/
theorem C42_no_text_lost (lines ds : List Str) (h : monitorSplit lines = .ok ds) :
    ds.flatten.filter (fun c => !isSpace c) = lines.flatten.filter (fun c => !isSpace c) := by
  have := monitorLoop_text _ lines [] ds (Nat.le_refl _) h
  simpa [nonSpace] using this

/-- C42 holds when every `(REACTION)` line is complete: then the entries are the
parenthesised codes (for `((MONITn)…` codes also with one continuation line) with
their free text. -/
theorem C42_entries_partial (lines ds : List Str) (h : monitorSplit lines = .ok ds)
    (hb : ∀ l ∈ lines, opensParen l → startsWith (strip l) "((".toList = true ∨ balanced l) : MonField lines ds :=
  monitorSplit_spec lines hb ds h

example : monitorSplit ["free".toList, "((MONIT1)(1-H-1(N,TOT),,".toList, "SIG)) text".toList, " more".toList] =
    .ok ["free".toList, "((MONIT1)(1-H-1(N,TOT),,SIG)) text more".toList] := by decide +kernel

/-- C42 is false of the code: the continuation of a `(REACTION` line is split into
single characters. -/
theorem C42_refuted : ¬ ∀ lines ds : List Str, monitorSplit lines = .ok ds → MonField lines ds := by
  intro h
  have h1 := h ["(1-H-1(N,TOT),".toList, ",SIG)".toList]
    ["(1-H-1(N,TOT),".toList, [','], ['S'], ['I'], ['G'], [')']] (by decide +kernel)
  generalize hl : ["(1-H-1(N,TOT),".toList, ",SIG)".toList] = ls at h1
  generalize hd : ["(1-H-1(N,TOT),".toList, [','], ['S'], ['I'], ['G'], [')']] = ds at h1
  have key : ∀ ls es, MonEntries ls es → es.length ≤ ls.length := by
    intro ls es h
    induction h with
    | nil => simp
    | entry code text rest es hc ht hr h ih =>
      have : 1 ≤ code.length := by cases hc <;> simp
      simp only [List.length_append, List.length_cons]; omega
  cases h1 with
  | coded ls es h => have := key _ _ h; rw [← hl, ← hd] at this; simp at this
  | free l text rest es h0 ht hr h =>
    have := key _ _ h
    have h2 := congrArg List.length hl
    have h3 := congrArg List.length hd
    simp at h2 h3
    omega

/-- C63: the reference strings are the lines cut exactly where a new reference opens,
each joined without losing a character. -/
theorem C63_references (lines refs : List Str) (hnl : ∀ l ∈ lines, '\n' ∉ l) (h : refSplit lines = .ok refs) :
    ∃ groups : List (List Str), groups.flatten = lines ∧ refs = groups.map List.flatten ∧
      (∀ g ∈ groups, g ≠ []) ∧
      ∀ g1 g g2, groups = g1 ++ g :: g2 → ∀ a l b, g = a ++ l :: b → (OpensRef (g1.flatten ++ a) l ↔ a = []) := by
  have hcut : RefCut [] := ⟨by simp, by simp⟩
  obtain ⟨gs, k1, k2, k3⟩ := refLoop_spec lines [] false hcut (by
    simp only [Bool.false_eq_true, false_iff]
    rintro ⟨a, l, b, e, -⟩; simp at e) refs (by simpa [refSplit] using h)
  refine ⟨gs, by simpa using k2, ?_, k1⟩
  rw [k3]
  apply List.map_congr_left
  intro g hg
  have : ∀ s : Str, '\n' ∉ s → noNl s = s := by
    intro s hs
    induction s with
    | nil => rfl
    | cons c s ih =>
      simp only [List.mem_cons, not_or] at hs
      have : noNl (c :: s) = (if c == '\n' then [] else [c]) ++ noNl s := rfl
      rw [this, ih hs.2]
      simp [Ne.symm hs.1]
  apply this
  intro hm
  obtain ⟨l, hl, hc⟩ := List.mem_flatten.1 hm
  refine hnl l ?_ hc
  have : gs.flatten = lines := by simpa using k2
  rw [← this]
  exact List.mem_flatten.2 ⟨g, hg, hl⟩

/-- The cut succeeds unless the field begins with text outside parentheses. -/
theorem C63_fails_iff (lines : List Str) :
    (∃ refs, refSplit lines = .ok refs) ↔ (∀ l ∈ lines.head?, l.take 1 = "(".toList) := by
  cases lines with
  | nil => simp [refSplit, refLoop]
  | cons l ls =>
    simp only [List.head?_cons, Option.mem_def, Option.some.injEq, forall_eq']
    rw [refSplit, refLoop.eq_def]
    simp only
    have hs2 : slice l 0 2 = l.take 2 := rfl
    have hs1 : slice l 0 1 = l.take 1 := rfl
    rw [hs2, hs1]
    split
    · rename_i h2
      have : l.take 1 = "(".toList := by
        have := congrArg (List.take 1) h2
        simpa [List.take_take] using this
      simp only [this, iff_true]
      exact refLoop_error _ _ _ (by simp)
    · split
      · rename_i h1
        simp only [h1.2, iff_true]
        exact refLoop_error _ _ _ (by simp)
      · rename_i h1
        simp at h1
        simp [h1]

example : refSplit ["((J,PR,1,2,1950)=".toList, "(R,XX-1,1950)) first".toList, "more".toList, "(J,NP,2,3,1960)".toList] =
    .ok ["((J,PR,1,2,1950)=(R,XX-1,1950)) firstmore".toList, "(J,NP,2,3,1960)".toList] := by decide +kernel

end X4
