import Verif.Model.Field
import Verif.Spec.Field
import Verif.Lemmas.Str
import Verif.Lemmas.Dict
import Verif.Lemmas.Sort
import Mathlib.Data.List.Induction
/-! Lemmas about text fields. -/
namespace X4

namespace Dict
variable {κ α : Type} [DecidableEq κ]
theorem set_append_new {d : Dict κ α} {k : κ} (h : k ∉ d.keys) (v : α) : d.set k v = d ++ [(k, v)] := by
  induction d with
  | nil => rfl
  | cons p d ih =>
    obtain ⟨k', v'⟩ := p
    simp only [keys, List.map_cons, List.mem_cons, not_or] at h
    have : k' ≠ k := fun e => h.1 e.symm
    simp only [set, this, if_false, List.cons_append]
    rw [ih h.2]
theorem set_append_last {d : Dict κ α} {k : κ} (h : k ∉ d.keys) (v w : α) :
    set (d ++ [(k, v)]) k w = d ++ [(k, w)] := by
  induction d with
  | nil => simp [set]
  | cons p d ih =>
    obtain ⟨k', v'⟩ := p
    simp only [keys, List.map_cons, List.mem_cons, not_or] at h
    have : k' ≠ k := fun e => h.1 e.symm
    simp only [set, this, if_false, List.cons_append]
    rw [ih h.2]
theorem get?_append_last {d : Dict κ α} {k : κ} (h : k ∉ d.keys) (v : α) :
    get? (d ++ [(k, v)]) k = some v := by
  rw [← set_append_new h v]; simp
theorem map_get?_keys {d : Dict κ α} (h : d.keys.Nodup) : d.keys.map (fun k => (k, d.get? k)) = d.map (fun kv => (kv.1, some kv.2)) := by
  simp only [keys, List.map_map]
  apply List.map_congr_left
  intro kv hkv
  simp [get?_eq_some_of_mem h hkv]
theorem sum_set_getD {d : Dict κ (List α)} {k : κ} (x : α) (h : d.keys.Nodup) :
    ((d.set k ((d.get? k).getD [] ++ [x])).map fun kv => kv.2.length).sum = (d.map fun kv => kv.2.length).sum + 1 := by
  induction d with
  | nil => simp [set, get?]
  | cons p d ih =>
    obtain ⟨k', v'⟩ := p
    simp only [keys, List.map_cons, List.nodup_cons] at h
    simp only [set, get?]
    split
    · simp; omega
    · simp only [List.map_cons, List.sum_cons]; rw [ih h.2]; omega
end Dict

theorem endOk_iff_rstrip {s : Str} : rstrip s = s ↔ endOk s :=
  ⟨fun h => h ▸ endOk_rstrip s, rstrip_of_endOk⟩

theorem rstrip_slice_ljust (s : Str) (n a b : Nat) : rstrip (slice (ljust s n) a b) = rstrip (slice s a b) := by
  have : ∃ m, slice (ljust s n) a b = slice s a b ++ List.replicate m ' ' := by
    unfold ljust slice
    rw [List.take_append, List.drop_append, List.take_replicate, List.drop_replicate]
    exact ⟨_, rfl⟩
  obtain ⟨m, hm⟩ := this
  rw [hm, rstrip_append_space]
  intro x hx
  rw [List.eq_of_mem_replicate hx]; decide

theorem lineText_eq (l : Str) : lineText l = textArea l := by
  unfold lineText textArea
  rw [rstrip_slice_ljust]
  congr 1
  unfold slice
  rw [List.drop_take]

theorem col10_eq (l : Str) : col10 l = (explicitPointer l).getD ' ' := by
  unfold col10 explicitPointer ljust
  by_cases h : 10 < l.length
  · rw [List.getElem?_append_left h, List.getElem?_eq_getElem h]
    simp only [Option.getD_some]
    split <;> simp_all
  · rw [List.getElem?_append_right (by omega), List.getElem?_eq_none (l := l) (by omega), List.getElem?_replicate]
    split <;> simp

theorem plainStep_ptr (p : Char) (d : Dict Char (List Str)) (l : Str) :
    (plainStep (p, d) l).1 = (explicitPointer l).getD p := by
  simp only [plainStep, col10_eq]
  unfold explicitPointer
  cases h : l[10]? with
  | none => simp
  | some c =>
    by_cases hc : c = ' ' <;> simp [hc]

theorem col10_of {t : Str} {c : Char} {x : Str} (h : t.length = 10) : col10 (t ++ c :: x) = c := by
  rw [col10_eq]; unfold explicitPointer
  rw [List.getElem?_append_right (by omega), h]
  simp only [Nat.sub_self, List.getElem?_cons_zero]
  split <;> simp_all

theorem lineText_of {t : Str} {c : Char} {x : Str} (h : t.length = 10) (hx : x.length ≤ 55) (hr : rstrip x = x) :
    lineText (t ++ c :: x) = x := by
  rw [lineText_eq]; unfold textArea
  have : t ++ c :: x = (t ++ [c]) ++ x := by simp
  rw [this, List.drop_left' (by simp [h]), List.take_of_length_le hx, hr]

/-! folding over a pointer block -/
theorem fold_cont {d : Dict Char (List Str)} {p : Char} (hp : p ∉ d.keys) (ys : List Str)
    (hy : ∀ y ∈ ys, y.length ≤ 55 ∧ rstrip y = y) (acc : List Str) :
    (ys.map fun y => List.replicate 11 ' ' ++ y).foldl plainStep (p, d ++ [(p, acc)]) = (p, d ++ [(p, acc ++ ys)]) := by
  induction ys generalizing acc with
  | nil => simp
  | cons y ys ih =>
    have hy0 := hy y (by simp)
    have e : List.replicate 11 ' ' ++ y = List.replicate 10 ' ' ++ ' ' :: y := by
      rw [show (11 : Nat) = 10 + 1 from rfl, ← List.replicate_append_replicate]; simp
    simp only [List.map_cons, List.foldl_cons]
    have : plainStep (p, d ++ [(p, acc)]) (List.replicate 11 ' ' ++ y) = (p, d ++ [(p, acc ++ [y])]) := by
      rw [e]
      simp only [plainStep, col10_of (List.length_replicate (n := 10) (a := ' ')), ne_eq, not_true, if_false,
        lineText_of (List.length_replicate (n := 10) (a := ' ')) hy0.1 hy0.2, Dict.get?_append_last hp,
        Option.getD_some, Dict.set_append_last hp]
    rw [this, ih (fun z hz => hy z (by simp [hz]))]
    simp

/-- first line `t ++ p :: x` (any 10-character head), then continuation lines -/
theorem fold_block {d : Dict Char (List Str)} {p q : Char} (hp : p ∉ d.keys) (hq : p = ' ' → q = ' ')
    {t : Str} (ht : t.length = 10) (x : Str) (xs : List Str)
    (hx : ∀ y ∈ x :: xs, y.length ≤ 55 ∧ rstrip y = y) :
    ((t ++ p :: x) :: xs.map fun y => List.replicate 11 ' ' ++ y).foldl plainStep (q, d) = (p, d ++ [(p, x :: xs)]) := by
  have h0 := hx x (by simp)
  simp only [List.foldl_cons]
  have hptr : (if p ≠ ' ' then p else q) = p := by
    split
    · rfl
    · rename_i h; simp at h; rw [hq h, h]
  have : plainStep (q, d) (t ++ p :: x) = (p, d ++ [(p, [x])]) := by
    simp only [plainStep, col10_of ht, hptr, lineText_of ht h0.1 h0.2]
    rw [Dict.get?_eq_none_iff.2 hp]
    simp [Dict.set_append_new hp]
  rw [this, fold_cont hp xs (fun y hy => hx y (by simp [hy]))]
  simp

theorem fold_blocks (bs : List (Char × List Str)) (q : Char) (d : Dict Char (List Str))
    (hb : ∀ b ∈ bs, b.2 ≠ [] ∧ ' '.toNat < b.1.toNat ∧ ∀ x ∈ b.2, x.length ≤ 55 ∧ rstrip x = x)
    (hs : bs.Pairwise fun a b => a.1.toNat < b.1.toNat)
    (hd : ∀ k ∈ d.keys, ∀ b ∈ bs, k.toNat < b.1.toNat) :
    ((bs.flatMap blockLines).foldl plainStep (q, d)).2 = d ++ bs := by
  induction bs generalizing q d with
  | nil => simp
  | cons b bs ih =>
    obtain ⟨p, xs⟩ := b
    obtain ⟨hne, hlt, hx⟩ := hb (p, xs) (by simp)
    obtain ⟨x, xs, rfl⟩ := List.exists_cons_of_ne_nil hne
    rw [List.pairwise_cons] at hs
    have hp : p ∉ d.keys := fun hm => by have := hd p hm (p, x :: xs) (by simp); simp at this
    have hq : p = ' ' → q = ' ' := fun e => by subst e; simp at hlt
    simp only [List.flatMap_cons, List.foldl_append, blockLines]
    rw [fold_block hp hq (by simp) x xs hx]
    rw [ih]
    · simp
    · exact fun b' h => hb b' (by simp [h])
    · exact hs.2
    · intro k hk b' hb'
      simp only [Dict.keys, List.map_append, List.mem_append, List.map_cons, List.map_nil, List.mem_singleton] at hk
      rcases hk with hk | rfl
      · exact hd k hk b' (by simp [hb'])
      · exact hs.1 b' hb'

theorem canonLines_eq {tag : Str} {p : Char} {x : Str} {xs : List Str} {bs : List (Char × List Str)} :
    canonLines tag ((p, x :: xs) :: bs) =
      ((ljust tag 10 ++ p :: x) :: xs.map fun y => List.replicate 11 ' ' ++ y) ++ bs.flatMap blockLines := by
  simp [canonLines, blockLines]

theorem build_canon {tag : Str} {bs : List (Char × List Str)} (h : CanonField tag bs) :
    PlainField.build (canonLines tag bs) = .ok { tag := tag, subs := bs } := by
  obtain ⟨⟨p, xs⟩, bs, rfl⟩ := List.exists_cons_of_ne_nil h.nonempty
  obtain ⟨hne, hle, hx⟩ := h.block (p, xs) (by simp)
  obtain ⟨x, xs, rfl⟩ := List.exists_cons_of_ne_nil hne
  have hs := h.sorted
  rw [List.pairwise_cons] at hs
  rw [canonLines_eq]
  have htl : (ljust tag 10).length = 10 := by rw [length_ljust]; have := h.tagLen; omega
  have htag : strip (slice (ljust tag 10 ++ p :: x) 0 10) = tag := by
    rw [slice_append_left (by omega)]
    simp only [slice, List.drop_zero]
    rw [List.take_of_length_le (by omega), strip_ljust, h.tagStrip]
  have hf := fold_block (d := []) (p := p) (q := ' ') (by simp [Dict.keys]) (fun _ => rfl) htl x xs hx
  simp only [List.cons_append] at *
  simp only [PlainField.build, pyIdx, List.getElem?_cons_zero, htag, Except.ok.injEq, PlainField.mk.injEq, true_and]
  rw [← List.cons_append, List.foldl_append, hf, fold_blocks]
  · simp
  · intro b hb
    obtain ⟨h1, h2, h3⟩ := h.block b (by simp [hb])
    have := hs.1 b hb
    exact ⟨h1, by omega, h3⟩
  · exact hs.2
  · intro k hk b hb
    simp [Dict.keys] at hk
    subst hk
    exact hs.1 b hb

/-! `repr` -/
theorem joinWith_head (sep a x : Str) (r : List Str) : joinWith sep ((a ++ x) :: r) = a ++ joinWith sep (x :: r) := by
  cases r <;> simp [joinWith]

theorem joinWith_append (sep : Str) {a b : List Str} (ha : a ≠ []) (hb : b ≠ []) :
    joinWith sep (a ++ b) = joinWith sep a ++ sep ++ joinWith sep b := by
  induction a with
  | nil => exact absurd rfl ha
  | cons x a ih =>
    cases a with
    | nil =>
      obtain ⟨y, b, rfl⟩ := List.exists_cons_of_ne_nil hb
      simp [joinWith]
    | cons y a =>
      have := ih (by simp)
      simp only [List.cons_append, joinWith] at *
      rw [this]; simp

theorem joinWith_flatMap (sep : Str) (bs : List (Char × List Str)) (hb : ∀ b ∈ bs, b.2 ≠ []) :
    joinWith sep (bs.map fun b => joinWith sep (blockLines b)) = joinWith sep (bs.flatMap blockLines) := by
  induction bs with
  | nil => rfl
  | cons b bs ih =>
    have hne : ∀ b : Char × List Str, b.2 ≠ [] → blockLines b ≠ [] := by
      intro b h; obtain ⟨p, xs⟩ := b
      cases xs <;> simp [blockLines] at *
    cases bs with
    | nil => simp [joinWith]
    | cons c bs =>
      have := ih (fun b' h => hb b' (by simp [h]))
      rw [List.flatMap_cons, joinWith_append sep (hne b (hb b (by simp)))]
      · rw [← this]; simp [joinWith]
      · simp [List.flatMap_cons, hne c (hb c (by simp))]

theorem block_repr (p : Char) (xs : List Str) (h : xs ≠ []) :
    (subRepr xs).take 10 ++ [p] ++ (subRepr xs).drop 11 = joinWith ['\n'] (blockLines (p, xs)) := by
  obtain ⟨x, r, rfl⟩ := List.exists_cons_of_ne_nil h
  have : subRepr (x :: r) = blanks 11 ++ joinWith ['\n'] (x :: r.map fun y => blanks 11 ++ y) := by
    simp only [subRepr, List.map_cons]; rw [joinWith_head]
  rw [this]
  simp only [blockLines]
  have e2 : joinWith ['\n'] ((List.replicate 10 ' ' ++ p :: x) :: r.map fun y => List.replicate 11 ' ' ++ y)
      = List.replicate 10 ' ' ++ ([p] ++ joinWith ['\n'] (x :: r.map fun y => blanks 11 ++ y)) := by
    rw [joinWith_head]
    rw [← joinWith_head ['\n'] [p] x]; rfl
  rw [e2]
  simp [blanks]

/-- the blocks of a field in the order in which they are printed -/
def PlainField.sortedSubs (f : PlainField) : List (Char × List Str) :=
  f.sortedKeys.map fun p => (p, (f.subs.get? p).getD [])

theorem repr_eq {f : PlainField} (hne : f.subs ≠ []) (hx : ∀ kv ∈ f.subs, kv.2 ≠ []) (hn : f.subs.keys.Nodup) :
    f.repr = joinWith ['\n'] (canonLines f.tag f.sortedSubs) := by
  have hmem : ∀ b ∈ f.sortedSubs, b.2 ≠ [] := by
    intro b hb
    simp only [PlainField.sortedSubs, List.mem_map] at hb
    obtain ⟨p, hp, rfl⟩ := hb
    rw [PlainField.sortedKeys, mem_sortBy, Dict.keys, List.mem_map] at hp
    obtain ⟨kv, hkv, rfl⟩ := hp
    simp [Dict.get?_eq_some_of_mem hn (show (kv.1, kv.2) ∈ f.subs from hkv), hx kv hkv]
  have h1 : f.repr = ljust f.tag 10 ++ (joinWith ['\n'] (f.sortedSubs.flatMap blockLines)).drop 10 := by
    simp only [PlainField.repr]
    rw [← joinWith_flatMap _ _ hmem]
    congr 3
    simp only [PlainField.sortedSubs, List.map_map]
    apply List.map_congr_left
    intro p hp
    exact block_repr p _ (hmem (p, _) (by simp only [PlainField.sortedSubs, List.mem_map]; exact ⟨p, hp, rfl⟩))
  rw [h1]
  have hne' : f.sortedSubs ≠ [] := by
    intro h
    have : f.sortedKeys = [] := by simpa [PlainField.sortedSubs] using h
    have h2 := (sortBy_perm charLe f.subs.keys)
    rw [PlainField.sortedKeys] at this
    rw [this] at h2
    have := h2.symm.eq_nil
    simp [Dict.keys] at this
    exact hne this
  revert hmem hne'
  generalize f.sortedSubs = bs
  intro hmem hne'
  obtain ⟨⟨p, xs⟩, bs, rfl⟩ := List.exists_cons_of_ne_nil hne'
  obtain ⟨x, xs, rfl⟩ := List.exists_cons_of_ne_nil (hmem (p, xs) (by simp))
  rw [canonLines_eq]
  simp only [List.flatMap_cons, blockLines, List.cons_append]
  rw [joinWith_head, joinWith_head]
  simp

/-! invariants of a parsed field -/
theorem fold_inv (ls : List Str) (hnl : ∀ l ∈ ls, '\n' ∉ l) :
    (ls.foldl plainStep (' ', [])).1 = pointerInForce ls ∧
    (ls.foldl plainStep (' ', [])).2.keys.Nodup ∧
    (∀ kv ∈ (ls.foldl plainStep (' ', [])).2, kv.2 ≠ [] ∧ ∀ x ∈ kv.2, x.length ≤ 55 ∧ rstrip x = x ∧ '\n' ∉ x) := by
  induction ls using List.reverseRecOn with
  | nil => simp [pointerInForce, Dict.keys]
  | append_singleton ls l ih =>
    obtain ⟨h1, h2, h3⟩ := ih (fun x hx => hnl x (by simp [hx]))
    rw [List.foldl_append]
    simp only [List.foldl_cons, List.foldl_nil]
    generalize hst : ls.foldl plainStep (' ', []) = st at *
    obtain ⟨q, d⟩ := st
    refine ⟨?_, ?_, ?_⟩
    · rw [plainStep_ptr]
      simp only at h1
      simp only [pointerInForce, List.filterMap_append, List.filterMap_cons, List.filterMap_nil]
      cases h : explicitPointer l with
      | none => simp [h1, pointerInForce]
      | some c => simp
    · exact Dict.nodup_keys_set h2 _ _
    · intro kv hkv
      simp only [plainStep] at hkv
      generalize (if col10 l ≠ ' ' then col10 l else q) = p at hkv
      have hg := Dict.get?_eq_some_of_mem (Dict.nodup_keys_set h2 _ _) (show (kv.1, kv.2) ∈ _ from hkv)
      rw [Dict.get?_set] at hg
      split at hg
      · simp only [Option.some.injEq] at hg
        rw [← hg]
        refine ⟨by simp, ?_⟩
        intro x hx
        rw [List.mem_append] at hx
        rcases hx with hx | hx
        · cases hgp : d.get? p with
          | none => simp [hgp] at hx
          | some v =>
            simp [hgp] at hx
            exact (h3 _ (Dict.mem_of_get? hgp)).2 x hx
        · simp at hx; subst hx
          have hlen : (lineText l).length ≤ 55 := by
            rw [lineText_eq, textArea]
            obtain ⟨b, hb, -⟩ := rstrip_decomp ((l.drop 11).take 55)
            have := congrArg List.length hb
            simp at this; omega
          refine ⟨hlen, ?_, ?_⟩
          · exact rstrip_of_endOk (endOk_rstrip _)
          · intro hm
            rw [lineText_eq, textArea] at hm
            obtain ⟨b, hb, -⟩ := rstrip_decomp ((l.drop 11).take 55)
            have : '\n' ∈ (l.drop 11).take 55 := by rw [hb]; simp [hm]
            exact hnl l (by simp) (List.mem_of_mem_drop (List.mem_of_mem_take this))
      · exact h3 _ (Dict.mem_of_get? hg)

theorem nonempty_fold {ls : List Str} (h : ls ≠ []) : (ls.foldl plainStep (' ', [])).2 ≠ [] := by
  rw [← List.dropLast_append_getLast h, List.foldl_append]
  simp only [List.foldl_cons, List.foldl_nil, plainStep]
  intro e
  have := Dict.get?_set_self (List.foldl plainStep (' ', []) ls.dropLast).2
    (if col10 (ls.getLast h) ≠ ' ' then col10 (ls.getLast h) else (List.foldl plainStep (' ', []) ls.dropLast).1)
    (((List.foldl plainStep (' ', []) ls.dropLast).2.get? (if col10 (ls.getLast h) ≠ ' ' then col10 (ls.getLast h) else (List.foldl plainStep (' ', []) ls.dropLast).1)).getD [] ++ [lineText (ls.getLast h)])
  rw [e] at this
  simp [Dict.get?] at this

theorem textUnder_snoc (ls : List Str) (l : Str) (p : Char) :
    textUnder (ls ++ [l]) p = textUnder ls p ++ (if pointerInForce (ls ++ [l]) = p then [textArea l] else []) := by
  unfold textUnder
  rw [List.length_append, List.length_singleton, List.range_succ, List.filterMap_append]
  congr 1
  · apply List.filterMap_congr
    intro k hk
    rw [List.mem_range] at hk
    rw [List.take_append_of_le_length (by omega), List.getElem?_append_left hk]
  · simp only [List.filterMap_cons, List.filterMap_nil]
    rw [List.take_of_length_le (by simp)]
    split <;> simp_all

theorem fold_textUnder (ls : List Str) (p : Char) :
    (ls.foldl plainStep (' ', [])).1 = pointerInForce ls ∧
    ((ls.foldl plainStep (' ', [])).2.get? p).getD [] = textUnder ls p ∧
    (((ls.foldl plainStep (' ', [])).2.get? p).isSome ↔ textUnder ls p ≠ []) := by
  induction ls using List.reverseRecOn with
  | nil => simp [pointerInForce, Dict.get?, textUnder]
  | append_singleton ls l ih =>
    obtain ⟨h1, h2, h3⟩ := ih
    rw [List.foldl_append, textUnder_snoc]
    simp only [List.foldl_cons, List.foldl_nil]
    have hp : (plainStep (List.foldl plainStep (' ', []) ls) l).1 = pointerInForce (ls ++ [l]) := by
      generalize List.foldl plainStep (' ', []) ls = st at *
      obtain ⟨q, d⟩ := st
      rw [plainStep_ptr]
      simp only at h1
      simp only [pointerInForce, List.filterMap_append, List.filterMap_cons, List.filterMap_nil]
      cases h : explicitPointer l with
      | none => simp [h1, pointerInForce]
      | some c => simp
    refine ⟨hp, ?_⟩
    generalize hst : List.foldl plainStep (' ', []) ls = st at *
    obtain ⟨q, d⟩ := st
    rw [← hp]
    simp only [plainStep]
    generalize (if col10 l ≠ ' ' then col10 l else q) = r
    rw [Dict.get?_set]
    by_cases e : p = r
    · subst e; simp [h2, lineText_eq]
    · have e' : r ≠ p := fun h => e h.symm
      simp [e, e', h2, h3]

end X4
