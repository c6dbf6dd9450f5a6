import Verif.Model.PyParsing
import Mathlib.Data.List.Basic
import Mathlib.Tactic.SplitIfs
/-! How the combinators of `Verif.Model.PyParsing` act on texts. -/
namespace X4
open Parser

/-- the text does not begin with white space -/
def NW (s : Str) : Prop := ∀ c ∈ s.head?, isWhite c = false

theorem NW_nil : NW [] := by simp [NW]
theorem NW_cons {c : Char} {s : Str} : NW (c :: s) ↔ isWhite c = false := by simp [NW]
theorem NW_append {a b : Str} (ha : a ≠ []) (h : NW a) : NW (a ++ b) := by
  cases a with
  | nil => exact absurd rfl ha
  | cons c a => exact NW_cons.2 (NW_cons.1 h)

theorem skipWs_nw {s : Str} (h : NW s) : skipWs s = s := by
  cases s with
  | nil => rfl
  | cons c s =>
    unfold skipWs
    rw [List.dropWhile_cons, if_neg]
    have := NW_cons.1 h
    simp [this]

theorem parse_nw {p : Parser} {b : Bool} {s : Str} (h : NW s) : p.parse b s = p.impl s := by
  unfold parse
  rw [skipWs_nw h]
  split_ifs <;> rfl

theorem parse_false (p : Parser) (s : Str) : p.parse false s = p.impl s := by
  unfold parse; simp

/-! ### leaves -/

theorem lit_append (m r : Str) (ws : Bool) : (lit m ws).impl (m ++ r) = some ([.str m], r) := by
  unfold lit
  have : m.isPrefixOf (m ++ r) = true := List.isPrefixOf_iff_prefix.2 (List.prefix_append m r)
  simp only [this, if_true, List.drop_left]

theorem lit_cons (c : Char) (r : Str) (ws : Bool) : (lit [c] ws).impl (c :: r) = some ([.str [c]], r) := lit_append [c] r ws

theorem lit_none {m s : Str} {ws : Bool} (h : ¬ m <+: s) : (lit m ws).impl s = none := by
  unfold lit
  simp only
  rw [if_neg]
  rwa [List.isPrefixOf_iff_prefix]

theorem lit_head_ne {c d : Char} {m s : Str} {ws : Bool} (h : c ≠ d) : (lit (c :: m) ws).impl (d :: s) = none := by
  apply lit_none
  intro hp
  obtain ⟨t, ht⟩ := hp
  simp at ht
  exact h ht.1

theorem lit_nil {c : Char} {m : Str} {ws : Bool} : (lit (c :: m) ws).impl [] = none := by
  apply lit_none
  intro hp
  simpa using List.prefix_nil.1 hp

theorem takeDrop_all {p : Char → Bool} {w r : Str} (hw : ∀ x ∈ w, p x = true) (hr : ∀ x ∈ r.head?, p x = false) :
    (w ++ r).takeWhile p = w ∧ (w ++ r).dropWhile p = r := by
  induction w with
  | nil =>
    cases r with
    | nil => simp
    | cons c r =>
      have := hr c (by simp)
      simp [this]
  | cons c w ih =>
    have hc := hw c (by simp)
    obtain ⟨h1, h2⟩ := ih (fun x hx => hw x (by simp [hx]))
    rw [List.cons_append, List.takeWhile_cons, List.dropWhile_cons, hc]
    simp [h1, h2]

theorem word_append {i b : Char → Bool} {ws : Bool} {c : Char} {w r : Str} (hc : i c = true) (hw : ∀ x ∈ w, b x = true)
    (hr : ∀ x ∈ r.head?, b x = false) : (word i b ws).impl (c :: w ++ r) = some ([.str (c :: w)], r) := by
  unfold word
  obtain ⟨h1, h2⟩ := takeDrop_all hw hr
  simp only [List.cons_append, hc, if_true, h1, h2]

theorem word_none {i b : Char → Bool} {ws : Bool} {s : Str} (h : ∀ x ∈ s.head?, i x = false) : (word i b ws).impl s = none := by
  unfold word
  cases s with
  | nil => rfl
  | cons c s =>
    have := h c (by simp)
    simp [this]

/-- a word with the same characters everywhere -/
theorem word_all {b : Char → Bool} {ws : Bool} {w r : Str} (hne : w ≠ []) (hw : ∀ x ∈ w, b x = true)
    (hr : ∀ x ∈ r.head?, b x = false) : (word b b ws).impl (w ++ r) = some ([.str w], r) := by
  cases w with
  | nil => exact absurd rfl hne
  | cons c w => exact word_append (hw c (by simp)) (fun x hx => hw x (by simp [hx])) hr

theorem wordMax_none {i b : Char → Bool} {m : Nat} {s : Str} (h : ∀ x ∈ s.head?, i x = false) : (wordMax i b m).impl s = none := by
  unfold wordMax
  cases s with
  | nil => rfl
  | cons c s =>
    have := h c (by simp)
    simp [this]

theorem wordMax_append {i b : Char → Bool} {m : Nat} {c : Char} {w r : Str} (hc : i c = true) (hw : ∀ x ∈ w, b x = true)
    (hm : w.length ≤ m - 1) (hr : ∀ x ∈ r.head?, b x = false) :
    (wordMax i b m).impl (c :: w ++ r) = some ([.str (c :: w)], r) := by
  unfold wordMax
  obtain ⟨h1, h2⟩ := takeDrop_all hw hr
  simp only [List.cons_append, hc, if_true, h1]
  rw [List.take_of_length_le hm, List.drop_left]
  cases r with
  | nil => rfl
  | cons d r =>
    have := hr d (by simp)
    simp [this]

/-! ### combinators -/

theorem and_some {a b : Parser} {s r r' : Str} {t t' : List Tok} (h1 : a.impl s = some (t, r)) (h2 : b.parse true r = some (t', r')) :
    (and a b).impl s = some (t ++ t', r') := by
  unfold Parser.and
  simp only [parse_false, h1, h2]

theorem and_none_left {a b : Parser} {s : Str} (h : a.impl s = none) : (and a b).impl s = none := by
  unfold Parser.and
  simp only [parse_false, h]

theorem and_none_right {a b : Parser} {s r : Str} {t : List Tok} (h1 : a.impl s = some (t, r)) (h2 : b.parse true r = none) :
    (and a b).impl s = none := by
  unfold Parser.and
  simp only [parse_false, h1, h2]

theorem suppress_some {p : Parser} {s r : Str} {t : List Tok} (h : p.impl s = some (t, r)) : (suppress p).impl s = some ([], r) := by
  unfold suppress
  simp only [parse_false, h]
theorem suppress_none {p : Parser} {s : Str} (h : p.impl s = none) : (suppress p).impl s = none := by
  unfold suppress
  simp only [parse_false, h]
theorem group_some {p : Parser} {s r : Str} {t : List Tok} (h : p.impl s = some (t, r)) : (group p).impl s = some ([.grp t], r) := by
  unfold group
  simp only [parse_false, h]
theorem group_none {p : Parser} {s : Str} (h : p.impl s = none) : (group p).impl s = none := by
  unfold group
  simp only [parse_false, h]
theorem opt_some {p : Parser} {s r : Str} {t : List Tok} (h : p.impl s = some (t, r)) : (opt p).impl s = some (t, r) := by
  unfold opt
  simp only [parse_false, h]
theorem opt_none {p : Parser} {s : Str} (h : p.impl s = none) : (opt p).impl s = some ([], s) := by
  unfold opt
  simp only [parse_false, h]
theorem combine_some {p : Parser} {s r : Str} {t : List Tok} (h : p.impl s = some (t, r)) :
    (combine p).impl s = some ([.str (flatStr t)], r) := by
  unfold combine
  simp only [parse_false, h]
theorem combine_none {p : Parser} {s : Str} (h : p.impl s = none) : (combine p).impl s = none := by
  unfold combine
  simp only [parse_false, h]
theorem first_some {a b : Parser} {s : Str} {m : List Tok × Str} (h : a.parse true s = some m) : (first a b).impl s = some m := by
  unfold first
  simp only [h]
theorem first_second {a b : Parser} {s : Str} (h : a.parse true s = none) : (first a b).impl s = b.parse true s := by
  unfold first
  simp only [h]

theorem first_nw {a b : Parser} {s : Str} (h : NW s) : (first a b).impl s = (a.impl s).or (b.impl s) := by
  unfold first
  simp only [parse_nw h]
  cases a.impl s <;> rfl

/-! ### longest match -/

/-- `m` is no longer than a match leaving `r` -/
def NotLonger (r : Str) (m : Option (List Tok × Str)) : Prop := ∀ t' r', m = some (t', r') → r.length ≤ r'.length
/-- `m` is shorter than a match leaving `r` -/
def Shorter (r : Str) (m : Option (List Tok × Str)) : Prop := ∀ t' r', m = some (t', r') → r.length < r'.length

theorem notLonger_none (r : Str) : NotLonger r none := by intro _ _ h; cases h
theorem shorter_none (r : Str) : Shorter r none := by intro _ _ h; cases h

theorem longer_left {t : List Tok} {r : Str} {m : Option (List Tok × Str)} (h : NotLonger r m) :
    longer (some (t, r)) m = some (t, r) := by
  cases m with
  | none => rfl
  | some x =>
    obtain ⟨t', r'⟩ := x
    unfold longer
    simp only
    rw [if_neg (by have := h t' r' rfl; omega)]

theorem longer_right {t : List Tok} {r : Str} {m : Option (List Tok × Str)} (h : Shorter r m) :
    longer m (some (t, r)) = some (t, r) := by
  cases m with
  | none => rfl
  | some x =>
    obtain ⟨t', r'⟩ := x
    unfold longer
    simp only
    rw [if_pos (h t' r' rfl)]

theorem longer_none_left (m : Option (List Tok × Str)) : longer none m = m := by
  cases m <;> rfl
theorem longer_none_right (m : Option (List Tok × Str)) : longer m none = m := by
  cases m <;> rfl

theorem or_parse (a b : Parser) (c : Bool) (s : Str) : (or a b).parse c s = longer (a.parse true s) (b.parse true s) := by
  unfold parse
  unfold Parser.or
  simp only [Bool.and_false, Bool.false_and, Bool.false_eq_true, if_false]
  rfl

theorem or_impl (a b : Parser) (s : Str) : (or a b).impl s = longer (a.parse true s) (b.parse true s) := rfl

/-- the results of the alternatives, combined -/
theorem orFrom_impl (acc : Parser) (l : List Parser) (s : Str) (hs : NW s) :
    (orAll.orFrom acc l).impl s = (l.map (fun p => p.impl s)).foldl longer (acc.impl s) := by
  induction l generalizing acc with
  | nil => rfl
  | cons q r ih =>
    unfold orAll.orFrom
    rw [ih, or_impl, parse_nw hs, parse_nw hs]
    rfl

theorem orAll_impl (p : Parser) (l : List Parser) (s : Str) (hs : NW s) :
    (orAll (p :: l)).impl s = (l.map (fun p => p.impl s)).foldl longer (p.impl s) := by
  cases l with
  | nil => rfl
  | cons q r =>
    unfold orAll
    rw [orFrom_impl _ _ _ hs, or_impl, parse_nw hs, parse_nw hs]
    rfl

theorem foldl_longer_none (l : List (Option (List Tok × Str))) (h : ∀ m ∈ l, m = none) (a : Option (List Tok × Str)) :
    l.foldl longer a = a := by
  induction l generalizing a with
  | nil => rfl
  | cons m r ih =>
    rw [List.foldl_cons, h m (by simp), longer_none_right, ih (fun x hx => h x (by simp [hx]))]

theorem foldl_longer_stay {t : List Tok} {r : Str} (l : List (Option (List Tok × Str))) (h : ∀ m ∈ l, NotLonger r m) :
    l.foldl longer (some (t, r)) = some (t, r) := by
  induction l with
  | nil => rfl
  | cons m l ih =>
    rw [List.foldl_cons, longer_left (h m (by simp)), ih (fun x hx => h x (by simp [hx]))]

theorem longer_shorter {r : Str} {a b : Option (List Tok × Str)} (ha : Shorter r a) (hb : Shorter r b) : Shorter r (longer a b) := by
  cases a with
  | none => rw [longer_none_left]; exact hb
  | some x =>
    cases b with
    | none => exact ha
    | some y =>
      obtain ⟨t1, r1⟩ := x
      obtain ⟨t2, r2⟩ := y
      unfold longer
      simp only
      split_ifs
      · exact hb
      · exact ha

theorem foldl_longer_win {t : List Tok} {r : Str} (l1 l2 : List (Option (List Tok × Str))) (a : Option (List Tok × Str))
    (ha : Shorter r a) (h1 : ∀ m ∈ l1, Shorter r m) (h2 : ∀ m ∈ l2, NotLonger r m) :
    (l1 ++ some (t, r) :: l2).foldl longer a = some (t, r) := by
  induction l1 generalizing a with
  | nil =>
    rw [List.nil_append, List.foldl_cons, longer_right ha, foldl_longer_stay _ h2]
  | cons m l1 ih =>
    rw [List.cons_append, List.foldl_cons]
    exact ih _ (longer_shorter ha (h1 m (by simp))) (fun x hx => h1 x (by simp [hx]))

/-- no alternative matches -/
theorem orAll_none (l : List Parser) (s : Str) (hs : NW s) (h : ∀ p ∈ l, p.impl s = none) : (orAll l).impl s = none := by
  cases l with
  | nil => rfl
  | cons p l =>
    rw [orAll_impl _ _ _ hs, h p (by simp), foldl_longer_none]
    intro m hm
    obtain ⟨q, hq, rfl⟩ := List.mem_map.1 hm
    exact h q (by simp [hq])

/-- one alternative wins -/
theorem orAll_win {t : List Tok} {r : Str} (l1 l2 : List Parser) (p : Parser) (s : Str) (hs : NW s) (hp : p.impl s = some (t, r))
    (h1 : ∀ q ∈ l1, Shorter r (q.impl s)) (h2 : ∀ q ∈ l2, NotLonger r (q.impl s)) :
    (orAll (l1 ++ p :: l2)).impl s = some (t, r) := by
  cases l1 with
  | nil =>
    rw [List.nil_append, orAll_impl _ _ _ hs, hp]
    refine foldl_longer_stay _ fun m hm => ?_
    obtain ⟨q, hq, rfl⟩ := List.mem_map.1 hm
    exact h2 q hq
  | cons q l1 =>
    rw [List.cons_append, orAll_impl _ _ _ hs, List.map_append, List.map_cons, hp]
    refine foldl_longer_win _ _ _ (h1 q (by simp)) ?_ ?_
    · intro m hm
      obtain ⟨x, hx, rfl⟩ := List.mem_map.1 hm
      exact h1 x (by simp [hx])
    · intro m hm
      obtain ⟨x, hx, rfl⟩ := List.mem_map.1 hm
      exact h2 x hx

/-- a literal that matches leaves the rest -/
theorem lit_eq_some {m s : Str} {ws : Bool} {t : List Tok} {r : Str} (h : (lit m ws).impl s = some (t, r)) :
    t = [.str m] ∧ s = m ++ r := by
  unfold lit at h
  simp only at h
  split_ifs at h with hp
  injection h with h
  injection h with h1 h2
  refine ⟨h1.symm, ?_⟩
  obtain ⟨u, hu⟩ := List.isPrefixOf_iff_prefix.1 hp
  rw [← hu, List.drop_left] at h2
  rw [← hu, h2]

/-- alternatives that are literals -/
theorem lits_none (keys : List Str) (s : Str) (hs : NW s) (h : ∀ k ∈ keys, ¬ k <+: s) :
    (orAll (keys.map (fun k => lit k))).impl s = none := by
  refine orAll_none _ _ hs fun p hp => ?_
  obtain ⟨k, hk, rfl⟩ := List.mem_map.1 hp
  exact lit_none (h k hk)

/-- the longest literal wins -/
theorem lits_some (keys : List Str) (s : Str) (hs : NW s) (k r : Str) (hk : k ∈ keys) (he : s = k ++ r)
    (hmax : ∀ k' ∈ keys, k' <+: s → k'.length ≤ k.length) :
    (orAll (keys.map (fun k => lit k))).impl s = some ([.str k], r) := by
  have hnl : ∀ k' ∈ keys, NotLonger r ((lit k').impl s) := by
    intro k' hk' t' r' hm
    obtain ⟨-, e⟩ := lit_eq_some hm
    have := hmax k' hk' ⟨r', e.symm⟩
    have e2 := congrArg List.length (he.symm.trans e)
    rw [List.length_append, List.length_append] at e2
    omega
  obtain ⟨l1, l2, e1, e2⟩ : ∃ l1 l2, keys = l1 ++ k :: l2 ∧ k ∉ l1 := List.eq_append_cons_of_mem hk
  rw [e1, List.map_append, List.map_cons]
  refine orAll_win _ _ _ _ hs (by rw [he]; exact lit_append k r true) ?_ ?_
  · intro q hq
    obtain ⟨k', hk', rfl⟩ := List.mem_map.1 hq
    intro t' r' hm
    have h1 := hnl k' (by rw [e1]; simp [hk']) t' r' hm
    obtain ⟨-, e⟩ := lit_eq_some hm
    rcases Nat.lt_or_ge r.length r'.length with h | h
    · exact h
    · have hl : k'.length = k.length := by
        have e3 := congrArg List.length (he.symm.trans e)
        rw [List.length_append, List.length_append] at e3
        omega
      have : k' = k := (List.append_inj (e.symm.trans he) hl).1
      exact absurd (this ▸ hk') e2
  · intro q hq
    obtain ⟨k', hk', rfl⟩ := List.mem_map.1 hq
    exact hnl k' (by rw [e1]; simp [hk'])

theorem foldl_longer_mem (l : List (Option (List Tok × Str))) (a : Option (List Tok × Str)) :
    l.foldl longer a = a ∨ l.foldl longer a ∈ l := by
  induction l generalizing a with
  | nil => exact .inl rfl
  | cons m l ih =>
    rw [List.foldl_cons]
    have hl : longer a m = a ∨ longer a m = m := by
      cases a with
      | none => right; exact longer_none_left m
      | some x =>
        cases m with
        | none => left; rfl
        | some y =>
          unfold longer
          simp only
          split_ifs
          · right; rfl
          · left; rfl
    rcases ih (longer a m) with h | h
    · rcases hl with h' | h'
      · left; rw [h, h']
      · right; rw [h, h']; simp
    · right; simp [h]

/-- what alternatives that are literals can give -/
theorem lits_cases (keys : List Str) (s : Str) (hs : NW s) :
    (orAll (keys.map (fun k => lit k))).impl s = none ∨
    ∃ k r, k ∈ keys ∧ s = k ++ r ∧ (orAll (keys.map (fun k => lit k))).impl s = some ([.str k], r) := by
  cases h : (orAll (keys.map (fun k => lit k))).impl s with
  | none => exact .inl rfl
  | some m =>
    right
    cases keys with
    | nil => cases h
    | cons k0 keys =>
      rw [List.map_cons, orAll_impl _ _ _ hs, List.map_map] at h
      have : ∃ k ∈ k0 :: keys, (lit k).impl s = some m := by
        rcases foldl_longer_mem (keys.map ((fun p : Parser => p.impl s) ∘ fun k => lit k)) ((lit k0).impl s) with h' | h'
        · exact ⟨k0, by simp, h'.symm.trans h⟩
        · rw [h] at h'
          obtain ⟨k, hk, e⟩ := List.mem_map.1 h'
          exact ⟨k, by simp [hk], e⟩
      obtain ⟨k, hk, e⟩ := this
      obtain ⟨t, r⟩ := m
      obtain ⟨rfl, e2⟩ := lit_eq_some e
      exact ⟨k, r, hk, e2, rfl⟩

/-- an alternative that does not match may be left out -/
theorem orAll_skip (p : Parser) (l : List Parser) (s : Str) (hs : NW s) (hp : p.impl s = none) (hl : l ≠ []) :
    (orAll (p :: l)).impl s = (orAll l).impl s := by
  cases l with
  | nil => exact absurd rfl hl
  | cons q l => rw [orAll_impl _ _ _ hs, orAll_impl _ _ _ hs, hp, List.map_cons, List.foldl_cons, longer_none_left]

theorem parse_nows {p : Parser} (h : p.ws = false) (b : Bool) (s : Str) : p.parse b s = p.impl s := by
  unfold parse
  rw [h]
  simp

/-! ### repetition -/

theorem many_none {p : Parser} {s : Str} (h : p.impl s = none) : (many p).impl s = some ([], s) := by
  unfold many many1
  simp only [parse_false, h]

theorem manyLoop_list {α : Type} (p : Parser) (tx : α → Str) (tk : α → List Tok) (xs : List α) (e : Str) (n : Nat) (acc : List Tok)
    (hn : xs.length < n) (he : p.parse true e = none)
    (hx : ∀ x l, (x :: l) <:+ xs → p.parse true (tx x ++ (l.flatMap tx ++ e)) = some (tk x, l.flatMap tx ++ e)) :
    manyLoop p n acc (xs.flatMap tx ++ e) = (acc ++ xs.flatMap tk, e) := by
  induction xs generalizing n acc with
  | nil =>
    cases n with
    | zero => simp at hn
    | succ n =>
      unfold manyLoop
      simp only [List.flatMap_nil, List.nil_append, he, List.append_nil]
  | cons x l ih =>
    cases n with
    | zero => simp at hn
    | succ n =>
      unfold manyLoop
      rw [List.flatMap_cons, List.append_assoc, hx x l (List.suffix_refl _)]
      simp only
      rw [ih n (acc ++ tk x) (by simpa using hn) (fun y l' hl => hx y l' (hl.trans (List.suffix_cons _ _))), List.flatMap_cons,
        List.append_assoc]

/-- Repetition over a list of pieces. -/
theorem many_list {α : Type} (p : Parser) (tx : α → Str) (tk : α → List Tok) (xs : List α) (e : Str)
    (hne : ∀ x ∈ xs, tx x ≠ []) (he : p.impl e = none) (he' : p.parse true e = none)
    (hx : ∀ x l, (x :: l) <:+ xs → NW (tx x) ∧ p.impl (tx x ++ (l.flatMap tx ++ e)) = some (tk x, l.flatMap tx ++ e)) :
    (many p).impl (xs.flatMap tx ++ e) = some (xs.flatMap tk, e) := by
  cases xs with
  | nil => exact many_none he
  | cons x l =>
    have h1 := hx x l (List.suffix_refl _)
    unfold many many1
    rw [List.flatMap_cons, List.append_assoc]
    simp only [parse_false, h1.2]
    rw [manyLoop_list p tx tk l e _ _ ?_ he' ?_]
    · rfl
    · have hl : l.length ≤ (l.flatMap tx).length := by
        clear hx h1
        induction l with
        | nil => simp
        | cons y l ih =>
          have hy : 0 < (tx y).length := List.length_pos_iff.2 (hne y (by simp))
          have := ih (fun z hz => hne z (by
            rcases List.mem_cons.1 hz with rfl | hz
            · simp
            · simp [hz]))
          rw [List.flatMap_cons, List.length_append, List.length_cons]
          omega
      rw [List.length_append]; omega
    · intro y l' hs
      have h2 := hx y l' (hs.trans (List.suffix_cons _ _))
      rw [parse_nw (NW_append (hne y (by
        have := hs.subset (List.mem_cons_self ..)
        simp [this])) h2.1)]
      exact h2.2

/-! ### what is consumed -/

theorem mem_takeWhile_true {p : Char → Bool} {s : Str} {x : Char} (h : x ∈ s.takeWhile p) : p x = true := by
  induction s with
  | nil => simp at h
  | cons c s ih =>
    rw [List.takeWhile_cons] at h
    split_ifs at h with hc
    · rcases List.mem_cons.1 h with rfl | h
      · exact hc
      · exact ih h
    · simp at h

/-- A match consumes only white space and characters of a class. -/
def Within (K : Char → Bool) (p : Parser) : Prop :=
  ∀ s t r, p.impl s = some (t, r) → ∃ u, s = u ++ r ∧ ∀ x ∈ u, K x = true ∨ isWhite x = true

theorem skipWs_split (s : Str) : ∃ u, s = u ++ skipWs s ∧ ∀ x ∈ u, isWhite x = true :=
  ⟨s.takeWhile isWhite, (List.takeWhile_append_dropWhile ..).symm, fun x hx => by simpa using mem_takeWhile_true hx⟩

theorem Within.parse {K : Char → Bool} {p : Parser} (h : Within K p) {b : Bool} {s r : Str} {t : List Tok}
    (hp : p.parse b s = some (t, r)) : ∃ u, s = u ++ r ∧ ∀ x ∈ u, K x = true ∨ isWhite x = true := by
  unfold Parser.parse at hp
  split_ifs at hp with hc
  · obtain ⟨v, h1, h2⟩ := skipWs_split s
    obtain ⟨u, h3, h4⟩ := h _ _ _ hp
    refine ⟨v ++ u, by rw [List.append_assoc, ← h3, ← h1], ?_⟩
    intro x hx
    rcases List.mem_append.1 hx with hx | hx
    · exact .inr (h2 x hx)
    · exact h4 x hx
  · exact h _ _ _ hp

theorem Within.and {K : Char → Bool} {a b : Parser} (ha : Within K a) (hb : Within K b) : Within K (Parser.and a b) := by
  intro s t r h
  unfold Parser.and at h
  simp only at h
  split at h
  · cases h
  · rename_i t1 r1 h1
    split at h
    · cases h
    · rename_i t2 r2 h2
      injection h with h
      injection h with _ h
      subst h
      obtain ⟨u, e1, k1⟩ := ha.parse h1
      obtain ⟨v, e2, k2⟩ := hb.parse h2
      refine ⟨u ++ v, by rw [List.append_assoc, ← e2, ← e1], ?_⟩
      intro x hx
      rcases List.mem_append.1 hx with hx | hx
      · exact k1 x hx
      · exact k2 x hx

theorem Within.or {K : Char → Bool} {a b : Parser} (ha : Within K a) (hb : Within K b) : Within K (Parser.or a b) := by
  intro s t r h
  rw [or_impl] at h
  unfold longer at h
  split at h
  · exact hb.parse h
  · exact ha.parse h
  · rename_i t1 r1 t2 r2 h1 h2
    split_ifs at h
    · exact hb.parse (h2.trans h)
    · exact ha.parse (h1.trans h)

theorem Within.first {K : Char → Bool} {a b : Parser} (ha : Within K a) (hb : Within K b) : Within K (Parser.first a b) := by
  intro s t r h
  unfold Parser.first at h
  simp only at h
  split at h
  · rename_i m hm
    exact ha.parse (hm.trans h)
  · exact hb.parse h

theorem Within.orFrom {K : Char → Bool} (acc : Parser) (l : List Parser) (ha : Within K acc) (hl : ∀ p ∈ l, Within K p) :
    Within K (orAll.orFrom acc l) := by
  induction l generalizing acc with
  | nil => exact ha
  | cons q l ih =>
    unfold orAll.orFrom
    exact ih _ (ha.or (hl q (by simp))) (fun p hp => hl p (by simp [hp]))

theorem Within.orAll {K : Char → Bool} (l : List Parser) (hl : ∀ p ∈ l, Within K p) : Within K (Parser.orAll l) := by
  match l with
  | [] => intro s t r h; cases h
  | [p] => exact hl p (by simp)
  | p :: q :: l =>
    unfold Parser.orAll
    exact Within.orFrom _ _ ((hl p (by simp)).or (hl q (by simp))) (fun x hx => hl x (by simp [hx]))

theorem Within.lit {K : Char → Bool} (m : Str) (ws : Bool) (h : ∀ x ∈ m, K x = true) : Within K (Parser.lit m ws) := by
  intro s t r hp
  obtain ⟨-, e⟩ := lit_eq_some hp
  exact ⟨m, e, fun x hx => .inl (h x hx)⟩

theorem Within.word {K : Char → Bool} {i b : Char → Bool} {ws : Bool} (hi : ∀ x, i x = true → K x = true) (hb : ∀ x, b x = true → K x = true) :
    Within K (Parser.word i b ws) := by
  intro s t r hp
  unfold Parser.word at hp
  cases s with
  | nil => cases hp
  | cons c s =>
    simp only at hp
    split_ifs at hp with hc
    injection hp with hp
    injection hp with _ hp
    subst hp
    refine ⟨c :: s.takeWhile b, by simp, ?_⟩
    intro x hx
    rcases List.mem_cons.1 hx with rfl | hx
    · exact .inl (hi _ hc)
    · exact .inl (hb x (mem_takeWhile_true hx))

theorem Within.wordMax {K : Char → Bool} {i b : Char → Bool} {m : Nat} (hi : ∀ x, i x = true → K x = true) (hb : ∀ x, b x = true → K x = true) :
    Within K (Parser.wordMax i b m) := by
  intro s t r hp
  unfold Parser.wordMax at hp
  cases s with
  | nil => cases hp
  | cons c s =>
    simp only at hp
    split_ifs at hp with hc
    have hpre : (s.takeWhile b).take (m - 1) <+: s := (List.take_prefix _ _).trans (List.takeWhile_prefix _)
    obtain ⟨u, hu⟩ := hpre
    have key : r = s.drop ((s.takeWhile b).take (m - 1)).length := by
      split at hp
      · rename_i h
        injection hp with hp
        injection hp with _ hp
        rw [h, hp]
      · rename_i d r' h
        split_ifs at hp
        injection hp with hp
        injection hp with _ hp
        rw [h, hp]
    refine ⟨c :: (s.takeWhile b).take (m - 1), ?_, ?_⟩
    · rw [key]
      simp only [List.cons_append]
      congr 1
      have : s.drop ((s.takeWhile b).take (m - 1)).length = u := by
        have h2 := List.drop_left (l₁ := (s.takeWhile b).take (m - 1)) (l₂ := u)
        rwa [hu] at h2
      rw [this, hu]
    · intro x hx
      rcases List.mem_cons.1 hx with rfl | hx
      · exact .inl (hi _ hc)
      · exact .inl (hb x (mem_takeWhile_true (List.mem_of_mem_take hx)))

theorem Within.map {K : Char → Bool} {a b : Parser} (h : Within K a)
    (hb : ∀ s t r, b.impl s = some (t, r) → (∃ t', a.parse false s = some (t', r)) ∨ s = r) : Within K b := by
  intro s t r hp
  rcases hb s t r hp with ⟨t', h'⟩ | rfl
  · exact h.parse h'
  · exact ⟨[], rfl, by simp⟩

theorem Within.suppress {K : Char → Bool} {a : Parser} (h : Within K a) : Within K (Parser.suppress a) := by
  refine h.map fun s t r hp => .inl ?_
  unfold Parser.suppress at hp
  simp only at hp
  split at hp
  · cases hp
  · rename_i t' r' h'
    injection hp with hp
    injection hp with _ hp
    subst hp
    exact ⟨t', h'⟩

theorem Within.group {K : Char → Bool} {a : Parser} (h : Within K a) : Within K (Parser.group a) := by
  refine h.map fun s t r hp => .inl ?_
  unfold Parser.group at hp
  simp only at hp
  split at hp
  · cases hp
  · rename_i t' r' h'
    injection hp with hp
    injection hp with _ hp
    subst hp
    exact ⟨t', h'⟩

theorem Within.opt {K : Char → Bool} {a : Parser} (h : Within K a) : Within K (Parser.opt a) := by
  refine h.map fun s t r hp => ?_
  unfold Parser.opt at hp
  simp only at hp
  split at hp
  · injection hp with hp
    injection hp with _ hp
    exact .inr hp
  · rename_i m h'
    exact .inl ⟨t, h'.trans hp⟩

theorem Within.manyLoop {K : Char → Bool} {p : Parser} (h : Within K p) (n : Nat) (acc : List Tok) (s : Str) :
    ∃ u, s = u ++ (Parser.manyLoop p n acc s).2 ∧ ∀ x ∈ u, K x = true ∨ isWhite x = true := by
  induction n generalizing acc s with
  | zero => exact ⟨[], rfl, by simp⟩
  | succ n ih =>
    unfold Parser.manyLoop
    split
    · exact ⟨[], rfl, by simp⟩
    · rename_i t r hp
      obtain ⟨u, e1, k1⟩ := h.parse hp
      obtain ⟨v, e2, k2⟩ := ih (acc ++ t) r
      refine ⟨u ++ v, by rw [List.append_assoc, ← e2, ← e1], ?_⟩
      intro x hx
      rcases List.mem_append.1 hx with hx | hx
      · exact k1 x hx
      · exact k2 x hx

theorem Within.many {K : Char → Bool} {a : Parser} (h : Within K a) : Within K (Parser.many a) := by
  intro s t r hp
  unfold Parser.many Parser.many1 at hp
  simp only at hp
  split at hp
  · injection hp with hp
    injection hp with _ hp
    exact ⟨[], hp, by simp⟩
  · rename_i m hm
    split at hm
    · cases hm
    · rename_i t1 r1 h1
      obtain ⟨u, e1, k1⟩ := h.parse h1
      obtain ⟨v, e2, k2⟩ := h.manyLoop (r1.length + 1) t1 r1
      have : (Parser.manyLoop a (r1.length + 1) t1 r1).2 = r := by
        have := Option.some.inj (hm.trans hp)
        rw [this]
      rw [this] at e2
      refine ⟨u ++ v, by rw [List.append_assoc, ← e2, ← e1], ?_⟩
      intro x hx
      rcases List.mem_append.1 hx with hx | hx
      · exact k1 x hx
      · exact k2 x hx

end X4
