import Verif.Props.EntryText
import Verif.Props.EntryDoc
import Verif.Props.Field
import Verif.Props.Metadata
import Verif.Props.DatasetText
/-! Property C104: the texts in EXFOR format (`repr`) of BIB sections, subentries and entries, read again. -/
namespace X4
variable {ρ : Type}

/-! ### where the printed lines come from -/

/-- the first text under a pointer stands on a line with this pointer -/
theorem fold_sources (ls : List Str) :
    ((ls.foldl plainStep (' ', [])).1 ∈ (ls.foldl plainStep (' ', [])).2.keys ∨ (ls.foldl plainStep (' ', [])).1 = ' ') ∧
    ∀ p xs, (ls.foldl plainStep (' ', [])).2.get? p = some xs →
      xs ≠ [] ∧ (∀ x ∈ xs.head?, ∃ r ∈ ls, lineText r = x ∧ col10 r = p) ∧ ∀ y ∈ xs, ∃ r ∈ ls, lineText r = y := by
  induction ls using List.reverseRecOn with
  | nil => simp [Dict.get?]
  | append_singleton ls l ih =>
    rw [List.foldl_append]
    simp only [List.foldl_cons, List.foldl_nil]
    generalize hst : ls.foldl plainStep (' ', []) = st at *
    obtain ⟨q, d⟩ := st
    obtain ⟨h1, h2⟩ := ih
    simp only [plainStep] at h1 h2 ⊢
    generalize hq : (if col10 l ≠ ' ' then col10 l else q) = p'
    refine ⟨.inl ((Dict.mem_keys_iff _ _).2 (by rw [Dict.get?_set_self]; rfl)), ?_⟩
    intro p xs hg
    rw [Dict.get?_set] at hg
    split at hg
    · rename_i hp
      subst hp
      simp only [Option.some.injEq] at hg
      cases hgp : d.get? p with
      | some v =>
        rw [hgp, Option.getD_some] at hg
        obtain ⟨i0, i1, i2⟩ := h2 p v hgp
        subst hg
        refine ⟨by simp, fun x hx => ?_, fun y hy => ?_⟩
        · cases v with
          | nil =>
            exact absurd rfl i0
          | cons v0 v =>
            simp only [List.cons_append, List.head?_cons, Option.mem_some_iff] at hx
            obtain ⟨r, hr, e⟩ := i1 x (by simp [hx])
            exact ⟨r, by simp [hr], e⟩
        · rcases List.mem_append.1 hy with hy | hy
          · obtain ⟨r, hr, e⟩ := i2 y hy; exact ⟨r, by simp [hr], e⟩
          · simp only [List.mem_singleton] at hy
            exact ⟨l, by simp, hy.symm⟩
      | none =>
        rw [hgp, Option.getD_none, List.nil_append] at hg
        subst hg
        refine ⟨by simp, fun x hx => ?_, fun y hy => ?_⟩
        · simp only [List.head?_cons, Option.mem_some_iff] at hx
          subst hx
          refine ⟨l, by simp, rfl, ?_⟩
          by_cases hc : col10 l = ' '
          · rw [if_neg (by simp [hc])] at hq
            rcases h1 with h1 | h1
            · rw [hq] at h1
              exact absurd h1 (Dict.get?_eq_none_iff.1 hgp)
            · rw [← hq, h1, hc]
          · rw [if_pos hc] at hq
            exact hq
        · simp only [List.mem_singleton] at hy
          exact ⟨l, by simp, hy.symm⟩
    · obtain ⟨i0, i1, i2⟩ := h2 p xs hg
      refine ⟨i0, fun x hx => ?_, fun y hy => ?_⟩
      · obtain ⟨r, hr, e⟩ := i1 x hx; exact ⟨r, by simp [hr], e⟩
      · obtain ⟨r, hr, e⟩ := i2 y hy; exact ⟨r, by simp [hr], e⟩

/-! ### the texts that mean that there is no author -/

theorem infix_sep {p a b : Str} {c : Char} (hc : c ∉ p) (h : p <:+: a ++ c :: b) : p <:+: a ∨ p <:+: b := by
  obtain ⟨u, v, e⟩ := h
  rw [List.append_assoc] at e
  rcases List.append_eq_append_iff.1 e with ⟨w, h1, h2⟩ | ⟨w, h1, h2⟩
  · rcases List.append_eq_append_iff.1 h2 with ⟨z, h3, h4⟩ | ⟨z, h3, h4⟩
    · left
      exact ⟨u, z, by rw [h1, h3, List.append_assoc]⟩
    · cases z with
      | nil =>
        left
        exact ⟨u, [], by rw [h1, h3]; simp⟩
      | cons z0 z =>
        simp only [List.cons_append, List.cons.injEq] at h4
        exact absurd (by rw [h3, h4.1]; simp) hc
  · cases w with
    | nil =>
      simp only [List.nil_append] at h2
      cases p with
      | nil => exact .inl ⟨a, [], by simp⟩
      | cons p0 p =>
        simp only [List.cons_append, List.cons.injEq] at h2
        exact absurd (by rw [h2.1]; simp) hc
    | cons w0 w =>
      simp only [List.cons_append, List.cons.injEq] at h2
      right
      exact ⟨w, v, by rw [h2.2, List.append_assoc]⟩

theorem hasSub_infix (p s : Str) : hasSub p s = true ↔ p <:+: s := by
  rw [hasSub_iff]
  constructor
  · rintro ⟨a, b, rfl⟩; exact ⟨a, b, rfl⟩
  · rintro ⟨a, b, rfl⟩; exact ⟨a, b, rfl⟩

theorem infix_joinWith_iff {p : Str} (hne : p ≠ []) {c : Char} (hc : c ∉ p) (ls : List Str) :
    p <:+: joinWith [c] ls ↔ ∃ l ∈ ls, p <:+: l := by
  induction ls with
  | nil =>
    simp only [joinWith, List.not_mem_nil, false_and, exists_false, iff_false]
    intro h
    exact hne (List.infix_nil.1 h)
  | cons l ls ih =>
    cases ls with
    | nil => simp [joinWith]
    | cons m ms =>
      have e : joinWith [c] (l :: m :: ms) = l ++ c :: joinWith [c] (m :: ms) := by simp [joinWith]
      rw [e]
      constructor
      · intro h
        rcases infix_sep hc h with h | h
        · exact ⟨l, by simp, h⟩
        · obtain ⟨x, hx, h⟩ := ih.1 h
          exact ⟨x, by simp [List.mem_cons.1 hx], h⟩
      · rintro ⟨x, hx, h⟩
        rcases List.mem_cons.1 hx with rfl | hx
        · exact h.trans ⟨[], c :: joinWith [c] (m :: ms), by simp⟩
        · exact (ih.2 ⟨x, hx, h⟩).trans ⟨l ++ [c], [], by simp⟩

theorem isNoAuthor_iff (raw : List Str) : isNoAuthor raw = true ↔
    ∃ l ∈ raw, "No author given".toList <:+: l ∨ ".NOT GIVEN.".toList <:+: l := by
  unfold isNoAuthor
  rw [Bool.or_eq_true, hasSub_infix, hasSub_infix, infix_joinWith_iff (by decide) (by decide), infix_joinWith_iff (by decide) (by decide)]
  constructor
  · rintro (⟨l, h1, h2⟩ | ⟨l, h1, h2⟩)
    · exact ⟨l, h1, .inl h2⟩
    · exact ⟨l, h1, .inr h2⟩
  · rintro ⟨l, h1, h2 | h2⟩
    · exact .inl ⟨l, h1, h2⟩
    · exact .inr ⟨l, h1, h2⟩

/-! ### fields -/

/-- The pointers of a field appear in increasing order, none of them a control character. -/
def PointersSorted (d : Dict Char (List Str)) : Prop :=
  (d.keys.Pairwise fun a b => a.toNat < b.toNat) ∧ ∀ p ∈ d.keys, ' '.toNat ≤ p.toNat

theorem sortedSubs_eq {f : PlainField} (h : f.subs.keys.Pairwise fun a b => a.toNat < b.toNat) : f.sortedSubs = f.subs := by
  have hn : f.subs.keys.Nodup := h.imp fun hab e => by rw [e] at hab; omega
  unfold PlainField.sortedSubs PlainField.sortedKeys
  rw [sortBy_of_sorted (h.imp (by intro a b hab; simp [charLe]; omega))]
  unfold Dict.keys
  rw [List.map_map]
  conv_rhs => rw [← List.map_id f.subs]
  apply List.map_congr_left
  intro b hb
  simp [Dict.get?_eq_some_of_mem (κ := Char) (d := f.subs) hn (show (b.1, b.2) ∈ f.subs from hb)]

theorem col10_text {r : Str} {c : Char} {x : Str} (hc : col10 r = c) (hx : lineText r = x) : (c :: x) <:+: r ∨ (c = ' ' ∧ x = []) := by
  rw [lineText_eq] at hx
  by_cases hl : 10 < r.length
  · left
    have h1 : r.drop 10 = c :: r.drop 11 := by
      rw [List.drop_eq_getElem_cons hl]
      congr 1
      rw [← hc, col10_eq]
      unfold explicitPointer
      rw [List.getElem?_eq_getElem hl]
      simp only
      split <;> simp_all
    obtain ⟨b, hb, -⟩ := rstrip_decomp ((r.drop 11).take 55)
    have h2 : x <+: r.drop 11 := by
      rw [← hx]
      exact (show textArea r <+: (r.drop 11).take 55 from ⟨b, hb.symm⟩).trans (List.take_prefix _ _)
    have h3 : (c :: x) <+: r.drop 10 := by
      rw [h1]
      obtain ⟨z, hz⟩ := h2
      exact ⟨z, by rw [← hz]; rfl⟩
    exact h3.isInfix.trans (List.drop_suffix 10 r).isInfix
  · right
    have h0 : r.drop 11 = [] := List.drop_eq_nil_of_le (by omega)
    refine ⟨?_, ?_⟩
    · rw [← hc, col10_eq]
      unfold explicitPointer
      rw [List.getElem?_eq_none (by omega)]
      rfl
    · rw [← hx, textArea, h0]
      rfl

/-- The lines that `repr` prints for a field, if its pointers are in order: the tag on the first line, and they make the same field.
The text of each line, with its pointer, stands on a line of the source. -/
theorem field_again {raw : List Str} {f : PlainField} (h : PlainField.build raw = .ok f) (hnl : ∀ l ∈ raw, '\n' ∉ l)
    (hs : PointersSorted f.subs) :
    ∃ a ls, f.repr = joinWith ['\n'] ((ljust f.tag 10 ++ a) :: ls) ∧ (∀ m ∈ (ljust f.tag 10 ++ a) :: ls, '\n' ∉ m) ∧
      PlainField.build ((ljust f.tag 10 ++ a) :: ls) = .ok f ∧ f.tag.length ≤ 10 ∧ strip f.tag = f.tag ∧
      (∀ m ∈ ls, ∃ b, m = List.replicate 10 ' ' ++ b) ∧
      (∀ m ∈ a :: ls.map (List.drop 10), ∃ r ∈ raw, ∃ c x, m = c :: x ∧ ((col10 r = c ∧ lineText r = x) ∨ (c = ' ' ∧ lineText r = x))) := by
  cases raw with
  | nil => simp [PlainField.build, pyIdx] at h
  | cons l0 ls =>
    simp only [PlainField.build, pyIdx, List.getElem?_cons_zero, Except.ok.injEq] at h
    obtain ⟨hi1, hi2, hi3⟩ := fold_inv (l0 :: ls) hnl
    have hne := nonempty_fold (ls := l0 :: ls) (by simp)
    have hsrc := (fold_sources (l0 :: ls)).2
    have hftag : strip f.tag = f.tag := by rw [← h]; simp
    have hftl : f.tag.length ≤ 10 := by
      rw [← h]; simp only
      refine (length_strip_le _).trans ?_
      simp only [slice, List.drop_zero, List.length_take]; omega
    have hftnl : '\n' ∉ f.tag := by
      rw [← h]; simp only
      intro hm
      have := mem_strip hm
      simp only [slice, List.drop_zero] at this
      exact hnl l0 (by simp) (List.mem_of_mem_take this)
    have hsubs : f.subs = ((l0 :: ls).foldl plainStep (' ', [])).2 := by rw [← h]
    rw [← hsubs] at hi2 hi3 hne hsrc
    have hcanon : CanonField f.tag f.subs := by
      refine ⟨hftl, hftag, hne, ?_, ?_⟩
      · intro b hb
        refine ⟨(hi3 b hb).1, hs.2 b.1 (List.mem_map.2 ⟨b, hb, rfl⟩), ?_⟩
        intro x hx
        have := (hi3 b hb).2 x hx
        exact ⟨this.1, this.2.1⟩
      · have := hs.1
        unfold Dict.keys at this
        rw [List.pairwise_map] at this
        exact this
    -- the lines of the blocks
    have hbl : ∀ m ∈ f.subs.flatMap blockLines, ∃ r ∈ l0 :: ls, ∃ c x, m = List.replicate 10 ' ' ++ c :: x ∧ '\n' ∉ c :: x ∧
        ((col10 r = c ∧ lineText r = x) ∨ (c = ' ' ∧ lineText r = x)) := by
      intro m hm
      rw [List.mem_flatMap] at hm
      obtain ⟨⟨p, xs⟩, hb, hm⟩ := hm
      have hpn : p ≠ '\n' := by
        have := hs.2 p (List.mem_map.2 ⟨_, hb, rfl⟩)
        rintro rfl
        revert this; decide
      have hx := (hi3 _ hb).2
      obtain ⟨-, i1, i2⟩ := hsrc p xs (Dict.get?_eq_some_of_mem hi2 hb)
      cases xs with
      | nil => simp [blockLines] at hm
      | cons x xs =>
        simp only [blockLines, List.mem_cons, List.mem_map] at hm
        rcases hm with rfl | ⟨y, hy, rfl⟩
        · obtain ⟨r, hr, e1, e2⟩ := i1 x (by simp)
          exact ⟨r, hr, p, x, rfl, by simp [(hx x (by simp)).2.2, hpn.symm], .inl ⟨e2, e1⟩⟩
        · obtain ⟨r, hr, e1⟩ := i2 y (by simp [hy])
          refine ⟨r, hr, ' ', y, ?_, by simp [(hx y (by simp [hy])).2.2], .inr ⟨rfl, e1⟩⟩
          rw [show (11 : Nat) = 10 + 1 from rfl, List.replicate_succ']
          simp
    have hrepr := repr_eq hne (fun kv hkv => (hi3 kv hkv).1) hi2
    rw [sortedSubs_eq hs.1] at hrepr
    have hbuild := build_canon hcanon
    cases hc : f.subs.flatMap blockLines with
    | nil =>
      exfalso
      obtain ⟨⟨p, xs⟩, bs, e⟩ := List.exists_cons_of_ne_nil hne
      have := (hi3 (p, xs) (by rw [e]; simp)).1
      obtain ⟨x, xs, rfl⟩ := List.exists_cons_of_ne_nil this
      rw [e] at hc
      simp [blockLines] at hc
    | cons b0 bs =>
      have e : canonLines f.tag f.subs = (ljust f.tag 10 ++ b0.drop 10) :: bs := by
        unfold canonLines
        rw [hc]
      rw [e] at hrepr hbuild
      rw [hc] at hbl
      refine ⟨b0.drop 10, bs, hrepr, ?_, hbuild, hftl, hftag, ?_, ?_⟩
      · intro m hm
        rcases List.mem_cons.1 hm with rfl | hm
        · obtain ⟨r, -, c, x, e, hcx, -⟩ := hbl b0 (by simp)
          rw [e, List.drop_left' (by simp)]
          simp only [List.mem_append, not_or]
          refine ⟨?_, hcx⟩
          simp [ljust, hftnl]
        · obtain ⟨r, -, c, x, e, hcx, -⟩ := hbl m (by simp [hm])
          rw [e]
          simp only [List.mem_append, not_or]
          refine ⟨?_, hcx⟩
          simp
      · intro m hm
        obtain ⟨r, -, c, x, e, -⟩ := hbl m (by simp [hm])
        exact ⟨_, e⟩
      · intro m hm
        rw [← List.map_cons (f := List.drop 10)] at hm
        obtain ⟨m', hm', rfl⟩ := List.mem_map.1 hm
        obtain ⟨r, hr, c, x, e, -, h2⟩ := hbl m' hm'
        exact ⟨r, hr, c, x, by rw [e, List.drop_left' (by simp)], h2⟩

theorem infix_skip {p : Str} {q c : Char} {s : Str} (h : (q :: p) <:+: c :: s) (hq : q ≠ c) : (q :: p) <:+: s := by
  rw [List.infix_cons_iff] at h
  rcases h with h | h
  · obtain ⟨z, hz⟩ := h
    simp only [List.cons_append, List.cons.injEq] at hz
    exact absurd hz.1 hq
  · exact h

theorem infix_skips {p : Str} {q : Char} (a : Str) {s : Str} (h : (q :: p) <:+: a ++ s) (hq : q ∉ a) : (q :: p) <:+: s := by
  induction a with
  | nil => exact h
  | cons c a ih =>
    simp only [List.mem_cons, not_or] at hq
    exact ih (infix_skip h hq.1) hq.2

/-- printing a list of authors does not make it an empty one -/
theorem isNoAuthor_again {raw : List Str} {a : Str} {ls : List Str} (hraw : isNoAuthor raw = false)
    (hls : ∀ m ∈ ls, ∃ b, m = List.replicate 10 ' ' ++ b)
    (hsrc : ∀ m ∈ a :: ls.map (List.drop 10), ∃ r ∈ raw, ∃ c x, m = c :: x ∧ ((col10 r = c ∧ lineText r = x) ∨ (c = ' ' ∧ lineText r = x))) :
    isNoAuthor ((ljust "AUTHOR".toList 10 ++ a) :: ls) = false := by
  rw [Bool.eq_false_iff, ne_eq, isNoAuthor_iff] at hraw ⊢
  rintro ⟨m, hm, hp⟩
  apply hraw
  -- the tail of the line
  have key : ∀ q p, q ≠ ' ' → q ∉ ljust "AUTHOR".toList 10 → (q :: p) <:+: m → ∃ r ∈ raw, (q :: p) <:+: r := by
    intro q p hq hqa hi
    have : ∃ m' ∈ a :: ls.map (List.drop 10), (q :: p) <:+: m' := by
      rcases List.mem_cons.1 hm with rfl | hm
      · exact ⟨a, by simp, infix_skips _ hi hqa⟩
      · obtain ⟨b, rfl⟩ := hls m hm
        refine ⟨b, ?_, infix_skips _ hi (by simp [hq])⟩
        rw [List.mem_cons, List.mem_map]
        exact .inr ⟨_, hm, by rw [List.drop_left' (by simp)]⟩
    obtain ⟨m', hm', hi⟩ := this
    obtain ⟨r, hr, c, x, rfl, h⟩ := hsrc m' hm'
    refine ⟨r, hr, ?_⟩
    rcases h with ⟨h1, h2⟩ | ⟨h1, h2⟩
    · rcases col10_text h1 h2 with h | ⟨rfl, rfl⟩
      · exact hi.trans h
      · have := infix_skip hi hq
        simp at this
    · subst h1
      have hi := infix_skip hi hq
      rcases col10_text rfl h2 with h | ⟨-, rfl⟩
      · exact hi.trans ((List.suffix_cons _ _).isInfix.trans h)
      · simp at hi
  rcases hp with hp | hp
  · obtain ⟨r, hr, h⟩ := key 'N' "o author given".toList (by decide) (by decide) hp
    exact ⟨r, hr, .inl h⟩
  · obtain ⟨r, hr, h⟩ := key '.' "NOT GIVEN.".toList (by decide) (by decide) hp
    exact ⟨r, hr, .inr h⟩

theorem buildField_congr (P : FieldParsers ρ) {k : Option Str} {raw raw' : List Str} (h : PlainField.build raw = PlainField.build raw')
    (ha : k = some "AUTHOR".toList → isNoAuthor raw = isNoAuthor raw') : buildField P k raw = buildField P k raw' := by
  unfold buildField
  rw [h]
  by_cases hk : k = some "AUTHOR".toList
  · rw [ha hk]
  · simp only [if_neg hk]

theorem tagOf_ljust {tag : Str} (h1 : tag.length ≤ 10) (h2 : strip tag = tag) (a : Str) : tagOf (ljust tag 10 ++ a) = tag := by
  unfold tagOf
  have : (ljust tag 10).length = 10 := by rw [length_ljust]; omega
  rw [List.take_append_of_le_length (by omega), List.take_of_length_le (by omega), strip_ljust, h2]

theorem tagOf_blank (b : Str) : tagOf (List.replicate 10 ' ' ++ b) = [] := by
  unfold tagOf
  rw [List.take_append_of_le_length (by simp), List.take_of_length_le (by simp)]
  decide

/-- the lines printed for a field of a section -/
structure FieldLines (P : FieldParsers ρ) (c : List Str) (kv : Option Str × BibField ρ) (rs : List Str) : Prop where
  repr : kv.2.repr = .ok (joinWith ['\n'] rs)
  count : kv.2.totalLen = .ok rs.length
  noNl : ∀ l ∈ rs, '\n' ∉ l
  type : extractX4FieldType rs = .ok kv.1
  again : buildField P kv.1 rs = .ok kv.2
  lines : ∃ tag a ls, rs = (ljust tag 10 ++ a) :: ls ∧ tagOf (ljust tag 10 ++ a) = tag ∧ (∀ l ∈ c.head?, tagOf l = tag) ∧
    (tag ≠ [] → kv.1 = some tag) ∧ ∀ m ∈ ls, ∃ b, m = List.replicate 10 ' ' ++ b

theorem fieldLines {P : FieldParsers ρ} {c : List Str} {kv : Option Str × BibField ρ} (hk : extractX4FieldType c = .ok kv.1)
    (hb : buildField P kv.1 c = .ok kv.2) (hnl : ∀ l ∈ c, '\n' ∉ l) (hs : PointersSorted kv.2.subs) (hna : kv.2 ≠ .noAuthor) :
    ∃ rs, FieldLines P c kv rs := by
  obtain ⟨k, v⟩ := kv
  simp only at hk hb hs hna
  rcases buildField_ok hb with e | ⟨f, hf, e1, e2, e3⟩
  · exact absurd e hna
  rw [e3] at hs
  obtain ⟨a, ls, r1, r2, r3, r4, r5, r6, r7⟩ := field_again hf hnl hs
  have ht : ∀ l ∈ c.head?, tagOf l = f.tag := by
    intro l hl
    cases c with
    | nil => simp at hl
    | cons l0 c =>
      simp only [List.head?_cons, Option.mem_some_iff] at hl
      subst hl
      simp only [PlainField.build, pyIdx, List.getElem?_cons_zero, Except.ok.injEq] at hf
      rw [← hf]
      rfl
  have hk' : k = if f.tag = [] then none else some f.tag := by
    rw [extract_key hk]
    cases c with
    | nil => simp [PlainField.build, pyIdx] at hf
    | cons l0 c => rw [fieldKey, ht l0 (by simp)]
  have htag := tagOf_ljust r4 r5 a
  have htype : extractX4FieldType ((ljust f.tag 10 ++ a) :: ls) = .ok k := by
    simp only [extractX4FieldType, pyIdx, List.getElem?_cons_zero, tag_slice, htag]
    rw [hk']
  have hno : k = some "AUTHOR".toList → isNoAuthor c = false := by
    intro hk
    subst hk
    unfold buildField at hb
    rw [if_neg (by decide), if_neg (by decide), if_neg (by decide), if_pos rfl] at hb
    cases h : isNoAuthor c with
    | false => rfl
    | true =>
      rw [h, if_pos rfl] at hb
      simp only [Except.ok.injEq] at hb
      exact absurd hb.symm hna
  refine ⟨(ljust f.tag 10 ++ a) :: ls, ?_⟩
  refine { repr := by rw [e2, r1], count := ?_, noNl := r2, type := htype, again := ?_, lines := ?_ }
  · rw [e1, totalLen_build _ f r3]
  · show buildField P k _ = .ok v
    rw [← hb]
    refine buildField_congr P (by rw [r3, hf]) ?_
    intro hk
    have : f.tag = "AUTHOR".toList := by
      rw [hk'] at hk
      split at hk
      · simp at hk
      · simpa using hk
    rw [hno hk, this]
    exact isNoAuthor_again (hno hk) r6 r7
  · exact ⟨f.tag, a, ls, rfl, htag, ht, fun h => by rw [hk', if_neg h], r6⟩

theorem bibStep_congr (P : FieldParsers ρ) {cs rss : List (List Str)}
    (h : List.Forall₂ (fun c rs => extractX4FieldType c = extractX4FieldType rs ∧
      ∀ k, extractX4FieldType c = .ok k → buildField P k c = buildField P k rs) cs rss) (b : BibSection ρ) :
    foldE (bibStep P) b cs = foldE (bibStep P) b rss := by
  induction h generalizing b with
  | nil => rfl
  | @cons c rs cs rss h _ ih =>
    have : bibStep P b c = bibStep P b rs := by
      unfold bibStep
      rw [← h.1]
      cases hk : extractX4FieldType c with
      | error e => rfl
      | ok k => simp only [h.2 k hk]
    simp only [foldE, this]
    cases bibStep P b rs with
    | error e => rfl
    | ok b' => exact ih b'

/-- A BIB section whose tags are distinct and whose fields have their pointers in increasing order. -/
def BibSection.InOrder (b : BibSection ρ) : Prop := b.sortedKeys.Nodup ∧ ∀ kv ∈ b.fields, PointersSorted kv.2.subs

theorem forall2_tail {α β : Type} {R : α → β → Prop} {a : List α} {b : List β} (h : List.Forall₂ R a b) : List.Forall₂ R a.tail b.tail := by
  cases h with
  | nil => exact .nil
  | cons _ h => exact h

theorem bibLoop_ne_nil (f : Bool) (fld : List Str) (s : List (List Str)) (ls : List Str) : bibLoop f fld s ls ≠ [] := by
  induction ls generalizing f fld s with
  | nil => simp [bibLoop]
  | cons l ls ih =>
    rw [bibLoop]
    split
    · exact ih _ _ _
    · split
      · exact ih _ _ _
      · split
        · exact ih _ _ _
        · exact ih _ _ _

theorem bib_again (P : FieldParsers ρ) (sec : List Str) (b : BibSection ρ) (t : Str) (hb : BibSection.build P sec = .ok b)
    (hr : b.repr = .ok t) (ho : b.InOrder) (hnl : ∀ l ∈ sec, '\n' ∉ l) :
    ∃ (body : List Str) (hd fin : Str), splitChar '\n' t = (ljust "BIB".toList 11 ++ hd) :: body ++ [ljust "ENDBIB".toList 11 ++ fin] ∧
      BibSection.build P (splitChar '\n' t) = .ok b ∧
      ∀ l ∈ body, (∃ r, l = List.replicate 10 ' ' ++ r) ∨ ∃ tag r, some tag ∈ b.sortedKeys ∧ l = ljust tag 10 ++ r := by
  unfold BibSection.build at hb
  obtain ⟨new, h1, h2, h3⟩ := foldE_bib _ _ b hb rfl ho.1
  simp only [List.nil_append] at h1 h2
  unfold BibSection.repr at hr
  split at hr
  · simp at hr
  rename_i n hlen
  split at hr
  · simp at hr
  rename_i rs hrs
  simp only [Except.ok.injEq] at hr
  have hnd : b.fields.keys.Nodup := by
    have : b.fields.keys = b.sortedKeys := by rw [h1, h2]; rfl
    rw [this]; exact ho.1
  have hcut : FieldCut (sec.filter fun l => !isBibFrame l) (bibChunkify sec) := by
    rcases C40_fields sec with ⟨-, e⟩ | h
    · rw [e] at h3
      cases h3 with
      | cons h _ => simp [extractX4FieldType, pyIdx] at h
    · exact h
  have hmem : ∀ c ∈ bibChunkify sec, ∀ l ∈ c, l ∈ sec ∧ isBibFrame l = false := by
    intro c hc l hl
    have : l ∈ (bibChunkify sec).flatten := List.mem_flatten.2 ⟨c, hc, hl⟩
    rw [hcut.all, List.mem_filter] at this
    simpa using this
  have hna : ∀ kv ∈ new, kv.2 ≠ .noAuthor := by
    intro kv hkv e
    have hk : kv.1 ∈ b.sortedKeys := by rw [h2]; exact List.mem_map.2 ⟨kv, hkv, rfl⟩
    obtain ⟨i, hi⟩ := List.getElem?_of_mem hk
    obtain ⟨y, -, hy⟩ := mapE_get hrs i _ hi
    unfold BibSection.fieldRepr Dict.get at hy
    rw [Dict.get?_eq_some_of_mem hnd (show (kv.1, kv.2) ∈ b.fields by rw [h1]; exact hkv)] at hy
    rw [e] at hy
    simp [BibField.repr] at hy
  -- the lines of each field
  have hper : ∀ (cs : List (List Str)) (new : List (Option Str × BibField ρ)),
      List.Forall₂ (fun c kv => extractX4FieldType c = .ok kv.1 ∧ buildField P kv.1 c = .ok kv.2) cs new →
      (∀ c ∈ cs, ∀ l ∈ c, '\n' ∉ l) → (∀ kv ∈ new, kv.2 ≠ .noAuthor ∧ PointersSorted kv.2.subs) →
      ∃ rss : List (List Str), List.Forall₂ (fun kv rs => kv.2.repr = .ok (joinWith ['\n'] rs)) new rss ∧
        List.Forall₂ (fun kv rs => kv.2.totalLen = .ok rs.length) new rss ∧
        List.Forall₂ (fun c rs => extractX4FieldType c = extractX4FieldType rs ∧
          ∀ k, extractX4FieldType c = .ok k → buildField P k c = buildField P k rs) cs rss ∧
        List.Forall₂ (fun c rs => ∃ tag a ls, rs = (ljust tag 10 ++ a) :: ls ∧ tagOf (ljust tag 10 ++ a) = tag ∧ (∀ l ∈ c.head?, tagOf l = tag) ∧
          ∀ m ∈ ls, ∃ b, m = List.replicate 10 ' ' ++ b) cs rss ∧
        List.Forall₂ (fun kv rs => ∀ m ∈ rs, (∃ b, m = List.replicate 10 ' ' ++ b) ∨ ∃ tag r, kv.1 = some tag ∧ m = ljust tag 10 ++ r) new rss ∧
        ∀ rs ∈ rss, rs ≠ [] ∧ ∀ l ∈ rs, '\n' ∉ l := by
    intro cs new h
    induction h with
    | nil => intro _ _; exact ⟨[], .nil, .nil, .nil, .nil, .nil, by simp⟩
    | @cons c kv cs new hc _ ih =>
      intro hl hn
      obtain ⟨rss, k2, k3, k4, k5, k6, k7⟩ := ih (fun c hc => hl c (by simp [hc])) (fun kv hk => hn kv (by simp [hk]))
      obtain ⟨rs, hf⟩ := fieldLines hc.1 hc.2 (hl c (by simp)) (hn kv (by simp)).2 (hn kv (by simp)).1
      obtain ⟨tag, a, ls, q1, q2, q3, q4, q5⟩ := hf.lines
      refine ⟨rs :: rss, .cons hf.repr k2, .cons hf.count k3, .cons ⟨by rw [hc.1, hf.type], ?_⟩ k4,
        .cons ⟨tag, a, ls, q1, q2, q3, q5⟩ k5, .cons ?_ k6, ?_⟩
      · intro k hk
        rw [hc.1, Except.ok.injEq] at hk
        subst hk
        rw [hc.2, hf.again]
      · intro m hm
        rw [q1] at hm
        rcases List.mem_cons.1 hm with rfl | hm
        · by_cases htag : tag = []
          · left
            exact ⟨a, by rw [htag]; rfl⟩
          · right
            exact ⟨tag, a, q4 htag, rfl⟩
        · exact .inl (q5 m hm)
      · intro r hr
        rcases List.mem_cons.1 hr with rfl | hr
        · exact ⟨by rw [q1]; simp, hf.noNl⟩
        · exact k7 r hr
  obtain ⟨rss, k2, k3, k4, k5, k6, k7⟩ := hper _ _ h3 (fun c hc l hl => hnl l (hmem c hc l hl).1)
    (fun kv hk => ⟨hna kv hk, ho.2 kv (by rw [h1]; exact hk)⟩)
  have hrs' : rs = rss.map fun r => joinWith ['\n'] r := by
    have : mapE b.fieldRepr b.sortedKeys = .ok (rss.map fun r => joinWith ['\n'] r) := by
      rw [mapE_ok_iff, h2, List.forall₂_map_left_iff, List.forall₂_map_right_iff]
      refine (List.forall₂_iff_get.2 ⟨k2.length_eq, ?_⟩)
      intro i hi hj
      have := (List.forall₂_iff_get.1 k2).2 i hi hj
      unfold BibSection.fieldRepr Dict.get
      rw [Dict.get?_eq_some_of_mem hnd (show ((new.get ⟨i, hi⟩).1, (new.get ⟨i, hi⟩).2) ∈ b.fields by
        rw [h1]; exact List.get_mem new ⟨i, hi⟩)]
      exact this
    rw [this] at hrs
    exact (Except.ok.inj hrs).symm
  have hsplit : splitChar '\n' t = (ljust "BIB".toList 11 ++ (rjust (natStr b.fields.length) 11 ++ rjust (natStr n) 11)) :: rss.flatten ++
      [ljust "ENDBIB".toList 11 ++ rjust (natStr n) 11] := by
    have hsp : ∀ m : Nat, '\n' ∉ rjust (natStr m) 11 := by
      intro m; simp [rjust, digits_no_nl]
    rw [← hr, hrs']
    have := joinWith_body (ljust "BIB".toList 11 ++ (rjust (natStr b.fields.length) 11 ++ rjust (natStr n) 11)) rss
      (fun r hr => (k7 r hr).1) (ljust "ENDBIB".toList 11 ++ rjust (natStr n) 11)
    rw [List.append_assoc _ (ljust "ENDBIB".toList 11), List.append_assoc (ljust "BIB".toList 11), this, splitChar_joinWith _ (by simp)]
    intro l hl
    simp only [List.cons_append, List.mem_cons, List.mem_append, List.not_mem_nil, or_false] at hl
    rcases hl with rfl | hl | rfl
    · simp only [List.mem_append, not_or]
      exact ⟨by decide, hsp _, hsp _⟩
    · obtain ⟨r, hr, hl⟩ := List.mem_flatten.1 hl
      exact (k7 r hr).2 l hl
    · simp only [List.mem_append, not_or]
      exact ⟨by decide, hsp _⟩
  -- the cut of the printed lines
  have hnot : ∀ cs rss : List (List Str), List.Forall₂ (fun c rs => ∃ tag a ls, rs = (ljust tag 10 ++ a) :: ls ∧ tagOf (ljust tag 10 ++ a) = tag ∧
      (∀ l ∈ c.head?, tagOf l = tag) ∧ ∀ m ∈ ls, ∃ b, m = List.replicate 10 ' ' ++ b) cs rss →
      (∀ c ∈ cs, IsField c) → (∀ c ∈ cs, ∀ l ∈ c, isBibFrame l = false) → (∀ l ∈ rss.flatten, isBibFrame l = false) := by
    intro cs rss h
    induction h with
    | nil => simp
    | @cons c rs cs rss hc _ ih =>
      intro hF hB l hl
      rw [List.flatten_cons, List.mem_append] at hl
      rcases hl with hl | hl
      · obtain ⟨tag, a, ls, rfl, q2, q3, q4⟩ := hc
        rcases List.mem_cons.1 hl with rfl | hl
        · obtain ⟨l0, ls0, rfl, -⟩ := hF c (by simp)
          have hf := hB (l0 :: ls0) (by simp) l0 (by simp)
          unfold isBibFrame at hf ⊢
          rw [q3 l0 (by simp)] at hf
          rw [q2]
          exact hf
        · obtain ⟨b, rfl⟩ := q4 l hl
          unfold isBibFrame
          rw [tagOf_blank]
          decide
      · exact ih (fun c hc => hF c (by simp [hc])) (fun c hc => hB c (by simp [hc])) l hl
  have hfr := hnot _ _ k5 hcut.isField (fun c hc l hl => (hmem c hc l hl).2)
  have hframe1 : isBibFrame (ljust "BIB".toList 11 ++ (rjust (natStr b.fields.length) 11 ++ rjust (natStr n) 11)) = true := by
    unfold isBibFrame tagOf
    rw [List.take_append_of_le_length (by decide)]
    decide
  have hframe2 : isBibFrame (ljust "ENDBIB".toList 11 ++ rjust (natStr n) 11) = true := by
    unfold isBibFrame tagOf
    rw [List.take_append_of_le_length (by decide)]
    decide
  have hfilter : (splitChar '\n' t).filter (fun l => !isBibFrame l) = rss.flatten := by
    rw [hsplit, List.cons_append, List.filter_cons_of_neg (by rw [hframe1]; decide), List.filter_append, List.filter_cons_of_neg (by rw [hframe2]; decide),
      List.filter_nil, List.append_nil, List.filter_eq_self]
    intro l hl
    simp [hfr l hl]
  have hcut' : FieldCut ((splitChar '\n' t).filter fun l => !isBibFrame l) rss := by
    refine ⟨by rw [hfilter], ?_, ?_⟩
    · intro r hr
      obtain ⟨i, hi, rfl⟩ := List.mem_iff_getElem.1 hr
      obtain ⟨tag, a, ls, q1, -, -, q4⟩ := (List.forall₂_iff_get.1 k5).2 i (by rw [k5.length_eq]; exact hi) hi
      refine ⟨_, ls, q1, ?_⟩
      intro m hm
      obtain ⟨b, rfl⟩ := q4 m hm
      unfold hasTag
      rw [tagOf_blank]
      simp
    · intro r hr l hl
      have k5' := forall2_tail k5
      obtain ⟨i, hi, rfl⟩ := List.mem_iff_getElem.1 hr
      obtain ⟨tag, a, ls, q1, q2, q3, -⟩ := (List.forall₂_iff_get.1 k5').2 i (by rw [k5'.length_eq]; exact hi) hi
      simp only [List.get_eq_getElem] at q1 q3
      rw [q1] at hl
      simp only [List.head?_cons, Option.mem_some_iff] at hl
      subst hl
      have hc : (bibChunkify sec).tail[i]'(by rw [k5'.length_eq]; exact hi) ∈ (bibChunkify sec).tail := List.getElem_mem _
      obtain ⟨l0, ls0, e, -⟩ := hcut.isField _ (List.mem_of_mem_tail hc)
      have ht := hcut.tagged _ hc l0 (by rw [e]; simp)
      unfold hasTag at ht ⊢
      rw [q2, ← q3 l0 (by rw [e]; simp)]
      exact ht
  refine ⟨rss.flatten, _, _, hsplit, ?_, ?_⟩
  · unfold BibSection.build
    have hne : rss ≠ [] := by
      intro e
      rw [e] at k5
      have := k5.length_eq
      rw [List.length_nil, List.length_eq_zero_iff] at this
      exact bibLoop_ne_nil _ _ _ _ this
    have hex : ∃ l ∈ splitChar '\n' t, isBibFrame l = false := by
      obtain ⟨r, rss', rfl⟩ := List.exists_cons_of_ne_nil hne
      obtain ⟨l, r', rfl⟩ := List.exists_cons_of_ne_nil (k7 r (by simp)).1
      exact ⟨l, by rw [hsplit]; simp, hfr l (by simp)⟩
    rw [← C40_unique _ rss hex hcut', ← bibStep_congr P k4]
    exact hb
  · intro l hl
    obtain ⟨r, hr, hl⟩ := List.mem_flatten.1 hl
    obtain ⟨i, hi, rfl⟩ := List.mem_iff_getElem.1 hr
    have hi' : i < new.length := by rw [k6.length_eq]; exact hi
    rcases (List.forall₂_iff_get.1 k6).2 i hi' hi l hl with h | ⟨tag, r, h, e⟩
    · exact .inl h
    · refine .inr ⟨tag, r, ?_, e⟩
      rw [h2, ← h]
      exact List.mem_map.2 ⟨_, List.getElem_mem _, rfl⟩

/-- C104: the text in EXFOR format of a BIB section, read again, gives the same section (for sections that can be printed, with distinct
tags and pointers in increasing order within each field). -/
theorem C104_bib_partial (P : FieldParsers ρ) (sec : List Str) (b : BibSection ρ) (t : Str) (hb : BibSection.build P sec = .ok b)
    (hr : b.repr = .ok t) (hd : b.sortedKeys.Nodup) (hs : ∀ kv ∈ b.fields, PointersSorted kv.2.subs) (hnl : ∀ l ∈ sec, '\n' ∉ l) :
    BibSection.build P (splitChar '\n' t) = .ok b := by
  obtain ⟨_, _, _, _, h, _⟩ := bib_again P sec b t hb hr ⟨hd, hs⟩ hnl
  exact h

/-! ### subentries -/

theorem chunkLoop_lines {S E : Str → Bool} (entries : List (List Str)) (cur : Option (List Str)) (ls : List Str) (c : List Str)
    (h : c ∈ chunkLoop S E entries cur ls) : c ∈ entries ∨ ∀ l ∈ c, l ∈ cur.getD [] ∨ l ∈ ls := by
  induction ls generalizing entries cur with
  | nil => cases cur <;> exact .inl h
  | cons x ls ih =>
    cases cur with
    | none =>
      rw [chunkLoop] at h
      split at h
      · rcases ih _ _ h with h | h
        · exact .inl h
        · refine .inr fun l hl => .inr ?_
          rcases h l hl with h | h
          · simp only [Option.getD_some, List.mem_singleton] at h
            simp [h]
          · simp [h]
      · rcases ih _ _ h with h | h
        · exact .inl h
        · refine .inr fun l hl => ?_
          rcases h l hl with h | h
          · simp at h
          · simp [h]
    | some cur =>
      rw [chunkLoop] at h
      have hx : ∀ l ∈ cur ++ [x], l ∈ cur ∨ l ∈ x :: ls := by
        intro l hl
        rcases List.mem_append.1 hl with h | h
        · exact .inl h
        · simp only [List.mem_singleton] at h
          simp [h]
      split at h
      · rcases ih _ _ h with h | h
        · rcases List.mem_append.1 h with h | h
          · exact .inl h
          · simp only [List.mem_singleton] at h
            subst h
            exact .inr hx
        · refine .inr fun l hl => ?_
          rcases h l hl with h | h
          · simp at h
          · simp [h]
      · rcases ih _ _ h with h | h
        · exact .inl h
        · refine .inr fun l hl => ?_
          rcases h l hl with h | h
          · exact hx l h
          · simp [h]

theorem section_source {P : FieldParsers ρ} {cs : List (List Str)} {d d' : Dict Str (Sec ρ)} (h : foldE (sectionStep P) d cs = .ok d') (k : Str)
    (v : Sec ρ) (hg : d'.get? k = some v) : d.get? k = some v ∨ ∃ c ∈ cs, extractX4SectionType c = some k ∧
      ((k = "BIB".toList ∧ ∃ b, v = .bib b ∧ BibSection.build P c = .ok b) ∨
        (k ≠ "BIB".toList ∧ ∃ d, v = .data d ∧ DataSection.build k c = .ok d)) := by
  induction cs generalizing d with
  | nil => simp only [foldE, Except.ok.injEq] at h; subst h; exact .inl hg
  | cons c cs ih =>
    rw [foldE] at h
    split at h
    · cases h
    · rename_i d1 hd1
      rcases ih h with h' | ⟨c', hc', h'⟩
      · unfold sectionStep at hd1
        split at hd1
        · simp at hd1
        · rename_i tag htag
          split at hd1
          · rename_i hbib
            split at hd1
            · simp at hd1
            · rename_i b hb
              simp only [Except.ok.injEq] at hd1
              subst hd1
              rw [Dict.get?_set] at h'
              split at h'
              · rename_i e
                subst e
                simp only [Option.some.injEq] at h'
                exact .inr ⟨c, by simp, htag, .inl ⟨hbib, b, h'.symm, hb⟩⟩
              · exact .inl h'
          · rename_i hbib
            split at hd1
            · simp at hd1
            · rename_i b hb
              simp only [Except.ok.injEq] at hd1
              subst hd1
              rw [Dict.get?_set] at h'
              split at h'
              · rename_i e
                subst e
                simp only [Option.some.injEq] at h'
                exact .inr ⟨c, by simp, htag, .inr ⟨hbib, b, h'.symm, hb⟩⟩
              · exact .inl h'
      · exact .inr ⟨c', by simp [hc'], h'⟩

/-- a number does not begin with `E` -/
theorem pyFloat_E {s r : Str} (h : strip s = 'E' :: r) : pyFloat s = none := by
  have h1 : rmUnderscore ('E' :: r) = 'E' :: rmUnderscore r := by simp [rmUnderscore]
  have h2 : takeSign ('E' :: rmUnderscore r) = (false, 'E' :: rmUnderscore r) := rfl
  unfold pyFloat
  simp only [h, h1, h2]
  split
  · have hl : lower ('E' :: rmUnderscore r) = 'e' :: lower (rmUnderscore r) := rfl
    rw [hl, if_neg (by simp), if_neg (by simp)]
    unfold numeral
    have h3 : List.takeWhile isDig ('E' :: rmUnderscore r) = [] := by
      rw [List.takeWhile_cons_of_neg (by decide)]
    have h4 : List.dropWhile isDig ('E' :: rmUnderscore r) = 'E' :: rmUnderscore r := by
      rw [List.dropWhile_cons_of_neg (by decide)]
    rw [h3, h4]
    simp [fracPart]
  · rfl

theorem parse_E {s r : Str} {v : Option FloatLit} (hs : strip s = s) (h : parseFORTRANNumber s = .ok v) : s ≠ 'E' :: r := by
  rintro rfl
  unfold parseFORTRANNumber at h
  rw [if_neg (by rw [hs]; simp), pyFloat_E hs] at h
  have h1 : fortranFix ('E' :: r) = 'E' :: replaceChar ' ' [] r := by
    unfold fortranFix
    simp only [hs]
    rw [if_neg (by simp)]
    simp [replaceChar]
  have h2 : ∃ r', strip ('E' :: replaceChar ' ' [] r) = 'E' :: r' := by
    generalize replaceChar ' ' [] r = z
    have : lstrip ('E' :: z) = 'E' :: z := by
      unfold lstrip
      rw [List.dropWhile_cons_of_neg (by decide)]
    unfold strip
    rw [this, rstrip_cons (by decide)]
    exact ⟨_, rfl⟩
  obtain ⟨r', h2⟩ := h2
  rw [h1, pyFloat_E h2] at h
  simp at h

/-- a line that begins with a padded text begins with `END` only if the text does -/
theorem slice3_cell {n : Nat} (hn : 3 ≤ n) {c r : Str} (h : slice (ljust c n ++ r) 0 3 = "END".toList) : startsWith c "END".toList = true := by
  have hlen : 3 ≤ c.length := by
    by_contra hc
    have : ' ' ∈ slice (ljust c n ++ r) 0 3 := by
      unfold slice ljust
      rw [List.drop_zero, List.append_assoc, List.take_append, List.mem_append]
      right
      rw [List.take_append_of_le_length (by simp; omega), List.take_replicate]
      have : min (3 - c.length) (n - c.length) ≠ 0 := by omega
      simp [this]
    rw [h] at this
    revert this
    decide
  unfold slice ljust at h
  rw [List.drop_zero, List.append_assoc, List.take_append_of_le_length hlen] at h
  unfold startsWith
  rw [List.isPrefixOf_iff_prefix, ← h]
  exact List.take_prefix _ _

/-- a section that is read again from its text in EXFOR format: a BIB section with distinct tags, none of them beginning with `END`,
and pointers in increasing order; a table with up to six columns, whose first heading and unit do not begin with `END` -/
def Sec.Plain : Sec ρ → Prop
  | .bib b => b.InOrder ∧ ∀ tag, some tag ∈ b.sortedKeys → startsWith tag "END".toList = false
  | .data d => 1 ≤ d.numcols ∧ d.numcols ≤ 6 ∧ d.numrows < 10 ^ 10 ∧
      (∀ c ∈ d.labels.head?, startsWith c "END".toList = false) ∧ ∀ c ∈ d.units.head?, startsWith c "END".toList = false

/-- the lines printed for a section -/
structure SecLines (P : FieldParsers ρ) (k : Str) (v : Sec ρ) (ls : List Str) : Prop where
  ex : ∃ u, v.repr = .ok u ∧ u = joinWith ['\n'] ls
  noNl : ∀ l ∈ ls, '\n' ∉ l
  shape : ∃ hd body fin, ls = hd :: (body ++ [fin]) ∧ isSectionName (tag11 hd) = true ∧ slice fin 0 3 = "END".toList ∧
    ∀ l ∈ body, slice l 0 3 ≠ "END".toList
  step : ∀ d, sectionStep P d ls = .ok (d.set k v)

theorem bib_lines {P : FieldParsers ρ} {c : List Str} {b : BibSection ρ} {u : Str} (hb : BibSection.build P c = .ok b) (hu : b.repr = .ok u)
    (hnl : ∀ l ∈ c, '\n' ∉ l) (hp : Sec.Plain (.bib b)) : SecLines P "BIB".toList (.bib b) (splitChar '\n' u) := by
  obtain ⟨body, hd, fin, h1, h2, h3⟩ := bib_again P c b u hb hu hp.1 hnl
  refine ⟨⟨u, hu, (joinWith_splitChar u).symm⟩, fun l hl hc => (mem_splitChar hl hc).2 rfl,
    ⟨_, body, _, h1, ?_, ?_, ?_⟩, ?_⟩
  · rw [tag11_ljust (by decide) (by decide)]
    decide
  · rw [slice3_ljust (by decide)]
    decide
  · intro l hl he
    rcases h3 l hl with ⟨r, rfl⟩ | ⟨tag, r, ht, rfl⟩
    · have : slice (List.replicate 10 ' ' ++ r) 0 3 = "   ".toList := rfl
      rw [this] at he
      revert he
      decide
    · have := hp.2 tag ht
      rw [slice3_cell (by omega) he] at this
      simp at this
  · intro d
    unfold sectionStep
    rw [h2]
    have : extractX4SectionType (splitChar '\n' u) = some "BIB".toList := by
      rw [h1]
      exact sectionType_head (by decide) (by decide) (by decide) _ _
    rw [this]
    simp only [if_true]

theorem data_lines {P : FieldParsers ρ} {k : Str} {c : List Str} {d : DataSection} (hk : k = "DATA".toList ∨ k = "COMMON".toList)
    (hb : DataSection.build k c = .ok d) (hp : Sec.Plain (.data d : Sec ρ)) : SecLines P k (.data d) d.reprLines := by
  obtain ⟨p1, p2, p3, p4, p5⟩ := hp
  have hnn := C02_numrows_nonneg k c d hb p1 p2
  obtain ⟨q1, q2, q3, q4, q5, q6⟩ := C02_rectangular k c d hb
  obtain ⟨cl, cu, cr⟩ := build_cells hb
  obtain ⟨n, c', hs, rows, b⟩ := build_ok hb
  have hpar := build_parsed hb
  have htag : d.tag = k := by rw [b.eq]
  obtain ⟨h1, h2⟩ := build_printed k hk d htag (by rw [b.eq]) (by rw [b.eq]) q1 q2 q3 q5 cl cu cr hpar p1 p2 hnn p3
  have hkk : strip k = k ∧ k.length ≤ 8 ∧ isSectionName k = true ∧ k ≠ "BIB".toList := by rcases hk with rfl | rfl <;> decide
  have hrow : ∀ cells : List Str, (∀ c ∈ cells.head?, startsWith c "END".toList = false) →
      slice (cells.map fun c => ljust c 11).flatten 0 3 ≠ "END".toList := by
    intro cells hc he
    cases cells with
    | nil => revert he; decide
    | cons x xs =>
      simp only [List.map_cons, List.flatten_cons] at he
      have := hc x (by simp)
      rw [slice3_cell (by omega) he] at this
      simp at this
  refine ⟨⟨_, rfl, rfl⟩, fun l hl hc => ?_, ⟨ljust d.tag 11 ++ (rjust (intStr d.numcols) 11 ++ rjust (intStr d.numrows) 11),
    (d.labels.map fun c => ljust c 11).flatten :: (d.units.map fun c => ljust c 11).flatten ::
      d.rawData.map fun r => (r.map fun c => ljust c 11).flatten,
    ljust ("END".toList ++ d.tag) 11 ++ rjust (intStr (d.numrows + 2)) 11, ?_, ?_, ?_, ?_⟩, ?_⟩
  · rw [← h1] at hl
    exact (mem_splitChar hl hc).2 rfl
  · unfold DataSection.reprLines
    simp only [List.append_assoc, List.cons_append, List.nil_append]
  · rw [htag, tag11_ljust hkk.1 (by omega)]
    exact hkk.2.2.1
  · rw [slice3_ljust (by simp)]
    simp
  · intro l hl
    simp only [List.mem_cons, List.mem_map] at hl
    rcases hl with rfl | rfl | ⟨r, hr, rfl⟩
    · exact hrow _ p4
    · exact hrow _ p5
    · refine hrow _ ?_
      intro x hx
      cases r with
      | nil => simp at hx
      | cons y ys =>
        simp only [List.head?_cons, Option.mem_def, Option.some.injEq] at hx
        subst hx
        obtain ⟨i, hi, he⟩ := List.mem_iff_getElem.1 hr
        have hlen := hpar.length_eq
        have hpi := List.Forall₂.get hpar hi (by omega)
        simp only [List.get_eq_getElem, he, mapE] at hpi
        split at hpi
        · simp at hpi
        · rename_i v hv
          rw [← Bool.not_eq_true]
          intro hst
          unfold startsWith at hst
          rw [List.isPrefixOf_iff_prefix] at hst
          obtain ⟨z, hz⟩ := hst
          exact parse_E (r := 'N' :: 'D' :: z) (cr _ hr _ (by simp)).1 hv hz.symm
  · intro e
    unfold sectionStep
    have : extractX4SectionType d.reprLines = some k := by
      unfold DataSection.reprLines
      simp only [List.append_assoc, List.cons_append]
      rw [htag]
      exact sectionType_head hkk.1 (by omega) hkk.2.2.1 _ _
    rw [this]
    simp only [if_neg hkk.2.2.2, h2]

theorem sections_chunked {P : FieldParsers ρ} {s : Dict Str (Sec ρ)} {ks : List Str} {lss : List (List Str)}
    (h : List.Forall₂ (fun k ls => ∃ v, s.get? k = some v ∧ SecLines P k v ls) ks lss) (rest : List Str) :
    subentryChunkify (lss.flatten ++ rest) = lss ++ subentryChunkify rest := by
  induction h with
  | nil => rfl
  | cons hx _ ih =>
    obtain ⟨v, -, hl⟩ := hx
    obtain ⟨hd, body, fin, rfl, h1, h2, h3⟩ := hl.shape
    rw [List.flatten_cons, List.append_assoc]
    unfold subentryChunkify at ih ⊢
    rw [chunk_one (S := fun l => isSectionName (tag11 l)) (E := fun l => decide (slice l 0 3 = "END".toList)) h1
      (fun l hl => decide_eq_false (h3 l hl)) (decide_eq_true h2), ih]
    rfl

theorem sections_folded {P : FieldParsers ρ} {s : Dict Str (Sec ρ)} {ks : List Str} {lss : List (List Str)}
    (h : List.Forall₂ (fun k ls => ∃ v, s.get? k = some v ∧ SecLines P k v ls) ks lss) (d : Dict Str (Sec ρ)) (hn : (d.keys ++ ks).Nodup) :
    ∃ d', foldE (sectionStep P) d lss = .ok d' ∧ d'.keys = d.keys ++ ks ∧ ∀ k, d'.get? k = if k ∈ ks then s.get? k else d.get? k := by
  induction h generalizing d with
  | nil => exact ⟨d, rfl, by simp, by simp⟩
  | cons hx _ ih =>
    rename_i k ls ks lss _
    obtain ⟨v, hv, hl⟩ := hx
    have hk : k ∉ d.keys := by
      intro hk
      rw [List.nodup_append] at hn
      exact hn.2.2 k hk k (by simp) rfl
    have hks : (d.set k v).keys = d.keys ++ [k] := by rw [Dict.keys_set, if_neg hk]
    obtain ⟨d', h1, h2, h3⟩ := ih (d.set k v) (by rw [hks]; simpa using hn)
    refine ⟨d', by rw [foldE, hl.step]; exact h1, by rw [h2, hks]; simp, ?_⟩
    intro k'
    rw [h3]
    have hkn : k ∉ ks := by
      intro hm
      rw [List.nodup_append] at hn
      have := hn.2.1
      simp only [List.nodup_cons] at this
      exact this.1 hm
    by_cases hk' : k' ∈ ks
    · simp [hk']
    · rw [if_neg hk', Dict.get?_set]
      by_cases e : k' = k
      · subst e; simp [hv]
      · simp [e, hk']

/-- C104: the text in EXFOR format of a subentry, read again, gives the same sections, in the same order. The accession number is read
three columns too far to the right (C14). -/
theorem C104_subentry_partial (P : FieldParsers ρ) (lines : List Str) (s : SubEntry ρ) (t acc : Str) (hs : SubEntry.build P lines = .ok s)
    (hr : s.repr = .ok t) (ha : s.accnum = some acc) (hnl : ∀ l ∈ lines, '\n' ∉ l) (hp : ∀ k v, s.sections.get? k = some v → v.Plain) :
    ∃ s', SubEntry.build P (splitChar '\n' t) = .ok s' ∧ s'.accnum = some (ljust (acc.drop 3) 8) ∧ s'.sortedKeys = s.sortedKeys ∧
      ∀ k, s'.sections.get? k = s.sections.get? k := by
  obtain ⟨k1, k2, k3⟩ := sections_keys hs
  have hacc : acc.length ≤ 8 ∧ '\n' ∉ acc := by
    have : s.accnum = extractX4SubEntryIndex lines := by
      unfold SubEntry.build at hs
      split at hs
      · simp at hs
      · simp only [Except.ok.injEq] at hs
        rw [← hs]
    rw [ha, subEntryIndex_eq] at this
    obtain ⟨l, hl, rfl⟩ := Option.map_eq_some_iff.1 this.symm
    refine ⟨by simp, fun h => hnl l (List.mem_of_find?_eq_some hl) ?_⟩
    exact List.mem_of_mem_drop (List.mem_of_mem_take h)
  have hsec : ∀ k v u, s.sections.get? k = some v → v.repr = .ok u → ∃ ls, SecLines P k v ls ∧ u = joinWith ['\n'] ls := by
    intro k v u hg hu
    have hb := hs
    unfold SubEntry.build at hb
    split at hb
    · simp at hb
    rename_i d hd
    simp only [Except.ok.injEq] at hb
    have hg' : d.get? k = some v := by rw [← hg, ← hb]
    rcases section_source hd k v hg' with h | ⟨c, hc, -, ⟨rfl, b, rfl, hb⟩ | ⟨hne, b, rfl, hb⟩⟩
    · simp [Dict.get?] at h
    · have hcl : ∀ l ∈ c, '\n' ∉ l := by
        intro l hl
        rcases chunkLoop_lines _ _ _ _ hc with h | h
        · simp at h
        · rcases h l hl with h | h
          · simp at h
          · exact hnl l h
      exact ⟨_, bib_lines hb hu hcl (hp _ _ hg), (joinWith_splitChar u).symm⟩
    · have hk : k = "DATA".toList ∨ k = "COMMON".toList := by
        rcases k2 k ((Dict.mem_keys_iff _ _).2 (by rw [hg]; rfl)) with h | h | h
        · exact absurd h hne
        · exact .inr h
        · exact .inl h
      refine ⟨_, data_lines hk hb (hp _ _ hg), ?_⟩
      exact (Except.ok.inj hu).symm
  unfold SubEntry.repr at hr
  rw [ha] at hr
  simp only at hr
  split at hr
  · simp at hr
  rename_i rs hrs
  simp only [Except.ok.injEq] at hr
  have hall : ∃ lss, List.Forall₂ (fun k ls => ∃ v, s.sections.get? k = some v ∧ SecLines P k v ls) s.sortedKeys lss ∧
      rs = lss.map fun ls => joinWith ['\n'] ls := by
    rw [mapE_ok_iff] at hrs
    clear hr k3
    generalize s.sortedKeys = ks at hrs
    induction hrs with
    | nil => exact ⟨[], .nil, rfl⟩
    | cons hx _ ih =>
      obtain ⟨lss, h1, rfl⟩ := ih
      unfold SubEntry.secRepr Dict.get at hx
      split at hx
      · simp at hx
      · rename_i v hv
        split at hv
        · rename_i w hw
          simp only [Except.ok.injEq] at hv
          subst hv
          obtain ⟨ls, h2, rfl⟩ := hsec _ _ _ hw hx
          exact ⟨ls :: lss, .cons ⟨w, hw, h2⟩ h1, rfl⟩
        · simp at hv
  obtain ⟨lss, hl, rfl⟩ := hall
  have hmem : ∀ ls ∈ lss, ls ≠ [] ∧ ∀ l ∈ ls, '\n' ∉ l := by
    clear hr hrs
    generalize s.sortedKeys = ks at hl
    induction hl with
    | nil => simp
    | cons hx _ ih =>
      intro ls hls
      rcases List.mem_cons.1 hls with rfl | hls
      · obtain ⟨v, -, h⟩ := hx
        obtain ⟨hd, body, fin, rfl, -⟩ := h.shape
        exact ⟨by simp, h.noNl⟩
      · exact ih ls hls
  rw [joinWith_body _ _ fun ls h => (hmem ls h).1] at hr
  have hsplit : splitChar '\n' t = (ljust "SUBENT".toList 11 ++ ljust acc 11) :: lss.flatten ++ [ljust "ENDSUBENT".toList 11] := by
    rw [← hr]
    refine splitChar_joinWith ?_ (by simp)
    intro l hl
    simp only [List.cons_append, List.mem_cons, List.mem_append, List.not_mem_nil, or_false] at hl
    rcases hl with rfl | hl | rfl
    · simp [ljust, hacc.2]
    · obtain ⟨r, hr, hl⟩ := List.mem_flatten.1 hl
      exact (hmem r hr).2 l hl
    · decide
  have hnd : s.sortedKeys.Nodup := by rw [k3]; exact (sortBy_perm strLe _).nodup_iff.2 k1
  obtain ⟨d', f1, f2, f3⟩ := sections_folded hl [] (by simpa [Dict.keys] using hnd)
  have hch : subentryChunkify (splitChar '\n' t) = lss := by
    rw [hsplit]
    have h0 : subentryChunkify ((ljust "SUBENT".toList 11 ++ ljust acc 11) :: lss.flatten ++ [ljust "ENDSUBENT".toList 11]) =
        subentryChunkify (lss.flatten ++ [ljust "ENDSUBENT".toList 11]) := by
      unfold subentryChunkify
      rw [List.cons_append, chunkLoop, if_neg]
      rw [tag11_ljust (by decide) (by decide)]
      decide
    rw [h0, sections_chunked hl]
    have : subentryChunkify [ljust "ENDSUBENT".toList 11] = [] := by decide
    rw [this, List.append_nil]
  refine ⟨{ accnum := extractX4SubEntryIndex (splitChar '\n' t), sections := d', sortedKeys := sortBy strLe d'.keys }, ?_, ?_, ?_, ?_⟩
  · unfold SubEntry.build
    rw [hch, f1]
  · simp only
    rw [hsplit, subEntryIndex_eq]
    have hfw : firstWord (ljust "SUBENT".toList 11 ++ ljust acc 11) = some "SUBENT".toList := by
      unfold firstWord
      have : ljust "SUBENT".toList 11 ++ ljust acc 11 = "SUBENT".toList ++ (List.replicate 5 ' ' ++ ljust acc 11) := by
        simp [ljust]
      rw [this]
      exact splitWs_ljust_head (by decide) (by decide) (by simp [List.replicate_succ]; decide)
    simp only [List.cons_append, List.find?_cons, hfw, decide_true, Option.map_some, Option.some.injEq]
    have h14 : List.drop 14 (ljust "SUBENT".toList 11 ++ ljust acc 11) = List.drop 3 (ljust acc 11) := rfl
    rw [h14]
    have hlen : (ljust acc 11).length = 11 := by rw [length_ljust]; omega
    rw [List.take_of_length_le (by rw [List.length_drop, hlen])]
    unfold ljust
    rw [List.drop_append, List.length_drop, List.drop_replicate]
    congr 2
    omega
  · simp only
    rw [f2, k3]
    have hk : Dict.keys ([] : Dict Str (Sec ρ)) = [] := rfl
    rw [hk, List.nil_append]
    exact sortBy_of_sorted (sortBy_sorted (le := strLe) strLe_total strLe_trans s.sections.keys)
  · intro k
    simp only
    rw [f3]
    split
    · rfl
    · rename_i hk
      rw [k3, mem_sortBy, ← Dict.get?_eq_none_iff] at hk
      rw [hk]
      rfl

/-- the part of the printed subentry for one kind of section -/
def SectionPrinted (s : SubEntry ρ) (k part : Str) : Prop :=
  (s.sections.get? k = none ∧ part = []) ∨ ∃ v u, s.sections.get? k = some v ∧ v.repr = .ok u ∧ part = u ++ ['\n']

/-- C104: the text in EXFOR format of a subentry shows its sections in the order BIB, COMMON, DATA between the first and the last line. -/
theorem C104_subentry_text (P : FieldParsers ρ) (lines : List Str) (s : SubEntry ρ)
    (h : SubEntry.build P lines = .ok s) (t : Str) (ht : s.repr = .ok t) :
    ∃ acc bib common data, s.accnum = some acc ∧ SectionPrinted s chars!"BIB" bib ∧ SectionPrinted s chars!"COMMON" common ∧
      SectionPrinted s chars!"DATA" data ∧
      t = chars!"SUBENT     " ++ ljust acc 11 ++ ['\n'] ++ bib ++ common ++ data ++ chars!"ENDSUBENT  " := by
  unfold SubEntry.repr at ht
  split at ht
  · simp at ht
  · rename_i acc hacc
    split at ht
    · simp at ht
    · rename_i us hus
      simp only [Except.ok.injEq] at ht
      rw [sections_sorted h] at hus
      have hone : ∀ k : Str, ∀ l us, mapE s.secRepr ((k :: l).filter fun k => (s.sections.get? k).isSome) = .ok us →
          ∃ part us', SectionPrinted s k part ∧ mapE s.secRepr (l.filter fun k => (s.sections.get? k).isSome) = .ok us' ∧
            us.flatMap (fun u => u ++ ['\n']) = part ++ us'.flatMap fun u => u ++ ['\n'] := by
        intro k l us hus
        cases hg : s.sections.get? k with
        | none =>
          rw [List.filter_cons_of_neg (by simp [hg])] at hus
          exact ⟨[], us, .inl ⟨hg, rfl⟩, hus, rfl⟩
        | some v =>
          rw [List.filter_cons_of_pos (by simp [hg])] at hus
          simp only [mapE] at hus
          split at hus
          · simp at hus
          · rename_i u hu
            split at hus
            · simp at hus
            · rename_i us' hus'
              simp only [Except.ok.injEq] at hus
              subst hus
              unfold SubEntry.secRepr Dict.get at hu
              rw [hg] at hu
              exact ⟨u ++ ['\n'], us', .inr ⟨v, u, hg, hu, rfl⟩, hus', by simp⟩
      obtain ⟨p1, us1, s1, m1, e1⟩ := hone _ _ _ hus
      obtain ⟨p2, us2, s2, m2, e2⟩ := hone _ _ _ m1
      obtain ⟨p3, us3, s3, m3, e3⟩ := hone _ _ _ m2
      simp only [List.filter_nil, mapE, Except.ok.injEq] at m3
      subst m3
      refine ⟨acc, p1, p2, p3, hacc, s1, s2, s3, ?_⟩
      rw [← ht, e1, e2, e3]
      simp only [List.flatMap_nil, List.append_nil, List.append_assoc]
      rfl

/-- C104: the text in EXFOR format of an entry shows every subentry once, by increasing accession number, between the first and the last line
(the accession numbers having 8 characters). -/
theorem C104_entry_text (P : FieldParsers ρ) (raw : List Str) (e : Entry ρ)
    (h : Entry.build P raw = .ok e) (h8 : ∀ x ∈ raw, ∃ a, accessionField x = some a ∧ a.length = 8) (t : Str)
    (ht : e.repr = .ok t) :
    ∃ L : List (Str × SubEntry ρ × Str), (L.map Prod.fst).Pairwise StrLt ∧
      (∀ k s, e.subs.get? (some k) = some s ↔ ∃ u, (k, s, u) ∈ L) ∧ (∀ x ∈ L, x.2.1.repr = .ok x.2.2) ∧
      t = chars!"ENTRY      " ++ ljust e.accnum 11 ++ ['\n'] ++ L.flatMap (fun x => x.2.2 ++ ['\n']) ++ chars!"ENDENTRY   " := by
  obtain ⟨-, -, hk, -⟩ := C13_keys P raw e h
  have hnd := (Entry.build_sound h).1
  have hkey : ∀ k ∈ e.subs.keys, ∃ a, k = some a ∧ a.length = 8 := by
    intro k hkm
    obtain ⟨x, hx, rfl⟩ := (hk k).1 hkm
    exact h8 x hx
  unfold Entry.repr at ht
  split at ht
  · simp at ht
  · rename_i ks hks
    split at ht
    · simp at ht
    · rename_i us hus
      simp only [Except.ok.injEq] at ht
      unfold Entry.sortedKeys sortOptKeys at hks
      split at hks
      · simp at hks
      · simp only [Except.ok.injEq] at hks
        have hmem : ∀ k, k ∈ ks ↔ k ∈ e.subs.keys := by intro k; rw [← hks, mem_sortBy]
        have hsorted : ks.Pairwise fun a b => strLe (a.getD []) (b.getD []) = true := by
          rw [← hks]
          exact sortBy_sorted (le := fun a b : Option Str => strLe (a.getD []) (b.getD [])) (fun a b => strLe_total _ _)
            (fun a b c => strLe_trans _ _ _) _
        have hknd : ks.Nodup := by rw [← hks]; exact (sortBy_perm _ _).nodup_iff.2 hnd
        rw [mapE_ok_iff] at hus
        -- the list of shown subentries
        have hbuild : ∀ (ks : List (Option Str)) (us : List Str), (∀ k ∈ ks, k ∈ e.subs.keys) →
            List.Forall₂ (fun k u => e.keyRepr k = .ok u) ks us →
            ∃ L : List (Str × SubEntry ρ × Str), L.map (fun x => some x.1) = ks ∧ L.map (fun x => x.2.2) = us ∧
              ∀ x ∈ L, e.subs.get? (some x.1) = some x.2.1 ∧ x.2.1.repr = .ok x.2.2 := by
          intro ks us hm hf
          induction hf with
          | nil => exact ⟨[], rfl, rfl, by simp⟩
          | @cons k u ks us hu _ ih =>
            obtain ⟨L, l1, l2, l3⟩ := ih (fun k hk => hm k (by simp [hk]))
            obtain ⟨a, rfl, ha8⟩ := hkey k (hm k (by simp))
            unfold Entry.keyRepr Entry.getKey at hu
            simp only [getItem_full e ha8] at hu
            unfold Dict.get at hu
            cases hg : e.subs.get? (some a) with
            | none => simp [hg] at hu
            | some s =>
              simp only [hg] at hu
              refine ⟨(a, s, u) :: L, by simp [l1], by simp [l2], ?_⟩
              intro x hx
              rcases List.mem_cons.1 hx with rfl | hx
              · exact ⟨hg, hu⟩
              · exact l3 x hx
        obtain ⟨L, l1, l2, l3⟩ := hbuild ks us (fun k hk => (hmem k).1 hk) hus
        refine ⟨L, ?_, ?_, fun x hx => (l3 x hx).2, ?_⟩
        · have h1 : ks.Pairwise fun a b => strLe (a.getD []) (b.getD []) = true ∧ a ≠ b := hsorted.and hknd
          rw [← l1, List.pairwise_map] at h1
          rw [List.pairwise_map]
          refine h1.imp ?_
          intro a b hab
          exact ⟨hab.1, fun e => hab.2 (by rw [e])⟩
        · intro k s
          constructor
          · intro hg
            have : some k ∈ ks := (hmem _).2 ((Dict.mem_keys_iff _ _).2 (by simp [hg]))
            rw [← l1, List.mem_map] at this
            obtain ⟨⟨k', s', u⟩, hx, hk'⟩ := this
            simp only [Option.some.injEq] at hk'
            subst hk'
            have := (l3 _ hx).1
            simp only at this
            rw [hg] at this
            simp only [Option.some.injEq] at this
            subst this
            exact ⟨u, hx⟩
          · rintro ⟨u, hx⟩
            exact (l3 _ hx).1
        · rw [← ht, ← l2, List.flatMap_map]
          rfl

/-- An entry can be printed in EXFOR format exactly when every subentry can. -/
theorem C104_entry_prints (P : FieldParsers ρ) (raw : List Str) (e : Entry ρ)
    (h : Entry.build P raw = .ok e) (h8 : ∀ x ∈ raw, ∃ a, accessionField x = some a ∧ a.length = 8) :
    (∃ t, e.repr = .ok t) ↔ ∀ k s, e.subs.get? k = some s → ∃ u, s.repr = .ok u := by
  obtain ⟨-, -, hk, -⟩ := C13_keys P raw e h
  have hkey : ∀ k ∈ e.subs.keys, ∃ a, k = some a ∧ a.length = 8 := by
    intro k hkm
    obtain ⟨x, hx, rfl⟩ := (hk k).1 hkm
    exact h8 x hx
  constructor
  · rintro ⟨t, ht⟩ k s hg
    obtain ⟨L, -, l2, l3, -⟩ := C104_entry_text P raw e h h8 t ht
    obtain ⟨a, rfl, -⟩ := hkey k ((Dict.mem_keys_iff _ _).2 (by simp [hg]))
    obtain ⟨u, hu⟩ := (l2 a s).1 hg
    exact ⟨u, l3 _ hu⟩
  · intro hall
    unfold Entry.repr Entry.sortedKeys sortOptKeys
    rw [if_neg (by
      rintro ⟨hn, -⟩
      obtain ⟨a, ha, -⟩ := hkey _ hn
      cases ha)]
    simp only
    obtain ⟨us, hus⟩ := (mapE_ok_or e.keyRepr (sortBy (fun a b : Option Str => strLe (a.getD []) (b.getD [])) e.subs.keys)).2 (by
      intro k hkm
      rw [mem_sortBy] at hkm
      obtain ⟨a, rfl, ha8⟩ := hkey k hkm
      rw [Dict.mem_keys_iff, Option.isSome_iff_exists] at hkm
      obtain ⟨s, hs⟩ := hkm
      obtain ⟨u, hu⟩ := hall _ s hs
      refine ⟨u, ?_⟩
      unfold Entry.keyRepr Entry.getKey
      simp only [getItem_full e ha8]
      unfold Dict.get
      simp only [hs, hu])
    rw [hus]
    exact ⟨_, rfl⟩

/-- the demo section of C41 meets the hypotheses of `C104_bib_partial`, as does one with two pointers -/
example : ∃ b t, BibSection.build anyParsers demoBib = .ok b ∧ b.repr = .ok t ∧ b.sortedKeys.Nodup ∧
    (∀ kv ∈ b.fields, kv.2.subs.keys.Pairwise (fun a b => a.toNat < b.toNat) ∧ ∀ p ∈ kv.2.subs.keys, ' '.toNat ≤ p.toNat) ∧
    BibSection.build anyParsers (splitChar '\n' t) = .ok b := ⟨_, _, rfl, rfl, by decide +kernel⟩

/-- a subentry with all three sections -/
def threeSections : List Str :=
  ["SUBENT        10001002   19991231".toList,
   "BIB                  2          3".toList, "METHOD    1(TOF)".toList, "          2(ACTIV)".toList, "STATUS     ok".toList, "ENDBIB               3".toList,
   "COMMON               1          3".toList, "EN".toList, "MEV".toList, "14.0".toList, "ENDCOMMON            3".toList,
   "DATA                 2          2".toList, "EN         DATA      1".toList, "EV         B".toList, "1.0        2.0-3".toList,
   "           3".toList, "ENDDATA              4".toList, "ENDSUBENT           18".toList]

/-- `Sec.Plain`, decided -/
def Sec.plain : Sec ρ → Bool
  | .bib b => decide b.sortedKeys.Nodup && b.fields.all (fun kv => decide (kv.2.subs.keys.Pairwise fun a b => a.toNat < b.toNat) &&
      kv.2.subs.keys.all fun p => decide (' '.toNat ≤ p.toNat)) &&
      b.sortedKeys.all fun tag => tag.all fun tag => !startsWith tag "END".toList
  | .data d => decide (1 ≤ d.numcols ∧ d.numcols ≤ 6 ∧ d.numrows < 10 ^ 10) && d.labels.head?.all (fun c => !startsWith c "END".toList) &&
      d.units.head?.all fun c => !startsWith c "END".toList

theorem Sec.plain_iff (v : Sec ρ) : v.plain = true → v.Plain := by
  cases v with
  | bib b =>
    simp only [Sec.plain, Sec.Plain, BibSection.InOrder, PointersSorted, Bool.and_eq_true, decide_eq_true_eq, List.all_eq_true]
    rintro ⟨⟨h1, h2⟩, h3⟩
    refine ⟨⟨h1, fun kv hkv => h2 kv hkv⟩, fun tag ht => ?_⟩
    have := h3 _ ht
    simpa only [Option.all_some, Bool.not_eq_true'] using this
  | data d =>
    simp only [Sec.plain, Sec.Plain, Bool.and_eq_true, decide_eq_true_eq]
    rintro ⟨⟨⟨h1, h2, h3⟩, h4⟩, h5⟩
    refine ⟨h1, h2, h3, fun c hc => ?_, fun c hc => ?_⟩
    · rw [Option.mem_def.1 hc] at h4
      simpa only [Option.all_some, Bool.not_eq_true'] using h4
    · rw [Option.mem_def.1 hc] at h5
      simpa only [Option.all_some, Bool.not_eq_true'] using h5

set_option maxRecDepth 20000 in
/-- `C104_subentry_partial` applies to it -/
example : ∃ s t, SubEntry.build anyParsers threeSections = .ok s ∧ s.repr = .ok t ∧ s.accnum = some "10001002".toList ∧
    (∀ l ∈ threeSections, '\n' ∉ l) ∧ (∀ k v, s.sections.get? k = some v → v.Plain) ∧ s.sortedKeys.length = 3 ∧
    t.take 39 = "SUBENT     10001002   \nBIB             ".toList := by
  refine ⟨_, _, rfl, rfl, by decide +kernel, by decide +kernel, ?_, by decide +kernel, by decide +kernel⟩
  intro k v hg
  refine Sec.plain_iff v ?_
  have hall : ∀ kv ∈ (SubEntry.build anyParsers threeSections).toOption.elim [] (·.sections), kv.2.plain = true := by decide +kernel
  exact hall _ (Dict.mem_of_get? hg)

/-- Why the tags must not begin with `END`: a tag that was indented by a blank is printed at the margin, where it ends the section. -/
theorem C104_end_tag_refuted : ∃ lines s t s', SubEntry.build anyParsers lines = .ok s ∧ s.repr = .ok t ∧ (∀ l ∈ lines, '\n' ∉ l) ∧
    SubEntry.build anyParsers (splitChar '\n' t) = .ok s' ∧ s'.sections ≠ s.sections :=
  ⟨["SUBENT        10001002".toList, "BIB                  2          2".toList, " ENDX      a".toList, "STATUS     b".toList,
    "ENDBIB               2".toList, "ENDSUBENT".toList], _, _, _, rfl, rfl, by decide +kernel, rfl, by decide +kernel⟩

/-- Why the tables must not have more than six columns: the rows are printed on one line, but read from several. -/
theorem C104_wide_refuted : ∃ lines s t, SubEntry.build anyParsers lines = .ok s ∧ s.repr = .ok t ∧ (∀ l ∈ lines, '\n' ∉ l) ∧
    ∀ s', SubEntry.build anyParsers (splitChar '\n' t) = .ok s' → s'.sections ≠ s.sections := by
  refine ⟨["SUBENT        10001002".toList, "DATA                 7          1".toList,
    "A          B          C          D          E          F".toList, "G".toList,
    "EV         EV         EV         EV         EV         EV".toList, "EV".toList,
    "1.         2.         3.         4.         5.         6.".toList, "7.".toList,
    "ENDDATA".toList, "ENDSUBENT".toList], _, _, rfl, rfl, by decide +kernel, ?_⟩
  intro s' hs'
  have h : ∀ s₁ ∈ (SubEntry.build anyParsers (splitChar '\n' ((SubEntry.build anyParsers
    ["SUBENT        10001002".toList, "DATA                 7          1".toList,
    "A          B          C          D          E          F".toList, "G".toList,
    "EV         EV         EV         EV         EV         EV".toList, "EV".toList,
    "1.         2.         3.         4.         5.         6.".toList, "7.".toList,
    "ENDDATA".toList, "ENDSUBENT".toList]).toOption.elim [] fun s => s.repr.toOption.getD []))).toOption, False := by decide +kernel
  exact (h s' (by rw [Option.mem_def]; exact congrArg Except.toOption hs')).elim

/-- Why the section must be printable: without an author list there is no text (C41). -/
theorem C104_no_author_refuted : ∃ lines s, SubEntry.build anyParsers lines = .ok s ∧ s.repr = .error .attributeError :=
  ⟨["SUBENT        10001001".toList, "BIB                  1          1".toList, "AUTHOR     (.NOT GIVEN.)".toList,
    "ENDBIB               1".toList, "ENDSUBENT".toList], _, rfl, by decide +kernel⟩

/-! ### the subentries listed in the metadata of an entry -/

/-- C74: the metadata of an entry list the accession numbers of all its subentries, each once and in increasing order. -/
theorem C74_subentries (P : FieldParsers ρ) (raw : List Str) (e : Entry ρ) (m : EntryMeta ρ) (h : Entry.build P raw = .ok e)
    (hm : e.meta = .ok m) : ∃ L : List Str, m.subentryaccnums = L.map some ∧ L.Pairwise StrLt ∧ ∀ a, a ∈ L ↔ ∃ x ∈ raw, accessionField x = some a := by
  obtain ⟨-, -, hk, -⟩ := C13_keys P raw e h
  have hnd := (Entry.build_sound h).1
  unfold Entry.meta at hm
  split at hm
  · simp at hm
  split at hm
  · simp at hm
  rename_i ks hks
  split at hm
  · simp at hm
  rename_i b hb
  split at hm
  · simp at hm
  simp only [Except.ok.injEq] at hm
  have hmain : ∃ a, some a ∈ e.subs.keys := by
    unfold Entry.mainBib at hb
    split at hb
    · simp at hb
    · rename_i s hs
      unfold Entry.getItem Entry.getStr at hs
      have key : ∀ k, e.subs.get k = .ok s → k ∈ e.subs.keys := by
        intro k hg
        unfold Dict.get at hg
        split at hg
        · rename_i v hv
          exact (Dict.mem_keys_iff _ _).2 (by rw [hv]; rfl)
        · simp at hg
      split at hs
      · exact ⟨_, key _ hs⟩
      · split at hs
        · exact ⟨_, key _ hs⟩
        · simp at hs
  unfold Entry.sortedKeys sortOptKeys at hks
  split at hks
  · simp at hks
  rename_i hnone
  simp only [Except.ok.injEq] at hks
  have hno : none ∉ e.subs.keys := by
    intro hn
    obtain ⟨a, ha⟩ := hmain
    apply hnone
    refine ⟨hn, fun h1 => ?_⟩
    obtain ⟨k, hk1⟩ := List.length_eq_one_iff.1 h1
    rw [hk1, List.mem_singleton] at hn ha
    rw [← hn] at ha
    cases ha
  have hmem : ∀ k, k ∈ ks ↔ k ∈ e.subs.keys := by intro k; rw [← hks, mem_sortBy]
  have hmap : (ks.map fun k => k.getD []).map some = ks := by
    rw [List.map_map]
    conv => rhs; rw [← List.map_id ks]
    refine List.map_congr_left ?_
    intro k hkm
    cases k with
    | none => exact absurd ((hmem _).1 hkm) hno
    | some a => rfl
  refine ⟨ks.map fun k => k.getD [], by rw [← hm, hmap], ?_, ?_⟩
  · have hsorted : ks.Pairwise fun a b => strLe (a.getD []) (b.getD []) = true := by
      rw [← hks]
      exact sortBy_sorted (le := fun a b : Option Str => strLe (a.getD []) (b.getD [])) (fun a b => strLe_total _ _)
        (fun a b c => strLe_trans _ _ _) _
    have hknd : ks.Nodup := by rw [← hks]; exact (sortBy_perm _ _).nodup_iff.2 hnd
    rw [List.pairwise_map]
    refine (hsorted.and hknd).imp_of_mem ?_
    intro a b ha hb hab
    refine ⟨hab.1, fun he => hab.2 ?_⟩
    cases a with
    | none => exact absurd ((hmem _).1 ha) hno
    | some a =>
      cases b with
      | none => exact absurd ((hmem _).1 hb) hno
      | some b => simp only [Option.getD_some] at he; rw [he]
  · intro a
    rw [← hk, ← hmem, List.mem_map]
    constructor
    · rintro ⟨k, hkm, rfl⟩
      cases k with
      | none => exact absurd ((hmem _).1 hkm) hno
      | some a => exact hkm
    · exact fun ha => ⟨_, ha, rfl⟩

set_option maxRecDepth 20000 in
example : ∃ e m, Entry.build (x4Parsers metaDicts) (["SUBENT        10001002".toList] ++ metaRaw) = .ok e ∧ e.meta = .ok m ∧
    m.subentryaccnums = [some "10001001".toList, some "10001002".toList] := ⟨_, _, rfl, rfl, by decide +kernel⟩

end X4
