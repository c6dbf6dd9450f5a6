import Verif.Py.Dict
import Mathlib.Data.List.Basic
/-! Lemmas about dictionaries. -/
namespace X4.Dict
variable {κ α : Type} [DecidableEq κ]

@[simp] theorem get?_set_self (d : Dict κ α) (k : κ) (v : α) : (d.set k v).get? k = some v := by
  induction d with
  | nil => simp [set, get?]
  | cons p d ih =>
    obtain ⟨k', v'⟩ := p
    simp only [set]
    split
    · rename_i h; simp [get?, h]
    · rename_i h; simp [get?, h, ih]

theorem get?_set_ne (d : Dict κ α) {k k' : κ} (v : α) (h : k' ≠ k) : (d.set k v).get? k' = d.get? k' := by
  induction d with
  | nil => simp [set, get?, h.symm]
  | cons p d ih =>
    obtain ⟨k'', v'⟩ := p
    simp only [set]
    split
    · rename_i e; subst e; simp [get?, h.symm]
    · simp only [get?]; split
      · rfl
      · exact ih

theorem get?_set (d : Dict κ α) (k k' : κ) (v : α) :
    (d.set k v).get? k' = if k' = k then some v else d.get? k' := by
  split
  · rename_i h; subst h; simp
  · rename_i h; exact get?_set_ne d v h

theorem mem_keys_iff (d : Dict κ α) (k : κ) : k ∈ d.keys ↔ (d.get? k).isSome := by
  induction d with
  | nil => simp [keys, get?]
  | cons p d ih =>
    obtain ⟨k', v'⟩ := p
    simp only [keys, List.map_cons, List.mem_cons, get?] at ih ⊢
    split
    · rename_i h; simp [h]
    · rename_i h; rw [← ih]; simp [Ne.symm h]

theorem keys_set (d : Dict κ α) (k : κ) (v : α) :
    (d.set k v).keys = if k ∈ d.keys then d.keys else d.keys ++ [k] := by
  induction d with
  | nil => simp [set, keys]
  | cons p d ih =>
    obtain ⟨k', v'⟩ := p
    by_cases h : k' = k
    · simp [set, keys, h]
    · have h' : k ≠ k' := Ne.symm h
      have hk : ∀ l : Dict κ α, keys ((k', v') :: l) = k' :: l.keys := fun l => rfl
      have hs : set ((k', v') :: d) k v = (k', v') :: set d k v := by simp [set, h]
      rw [hs, hk, hk, ih]
      by_cases hm : k ∈ keys d <;> simp [hm, h']

theorem nodup_keys_set {d : Dict κ α} (h : d.keys.Nodup) (k : κ) (v : α) : (d.set k v).keys.Nodup := by
  rw [keys_set]
  split
  · exact h
  · rename_i hk
    rw [List.nodup_append]
    refine ⟨h, by simp, ?_⟩
    intro a ha b hb
    simp at hb; subst hb
    rintro rfl; exact hk ha

theorem get?_eq_some_of_mem {d : Dict κ α} (h : d.keys.Nodup) {k : κ} {v : α} (hm : (k, v) ∈ d) :
    d.get? k = some v := by
  induction d with
  | nil => simp at hm
  | cons p d ih =>
    obtain ⟨k', v'⟩ := p
    simp only [keys, List.map_cons, List.nodup_cons] at h
    simp at hm
    rcases hm with ⟨rfl, rfl⟩ | hm
    · simp [get?]
    · have : k' ≠ k := by
        rintro rfl
        exact h.1 (List.mem_map.2 ⟨_, hm, rfl⟩)
      simp [get?, this, ih h.2 hm]

theorem mem_of_get? {d : Dict κ α} {k : κ} {v : α} (h : d.get? k = some v) : (k, v) ∈ d := by
  induction d with
  | nil => simp [get?] at h
  | cons p d ih =>
    obtain ⟨k', v'⟩ := p
    simp only [get?] at h
    split at h
    · rename_i e; simp at h; subst h; subst e; simp
    · simp [ih h]

theorem get?_eq_none_iff {d : Dict κ α} {k : κ} : d.get? k = none ↔ k ∉ d.keys := by
  rw [mem_keys_iff]; cases d.get? k <;> simp

end X4.Dict

namespace X4

theorem get?_foldl_set {κ α : Type} [DecidableEq κ] (l : List (κ × α)) (d : Dict κ α) (k : κ) :
    (l.foldl (fun d kv => Dict.set d kv.1 kv.2) d).get? k = (Dict.get? (α := α) l.reverse k).or (d.get? k) := by
  induction l generalizing d with
  | nil => simp [Dict.get?]
  | cons kv r ih =>
    have happ : ∀ (x y : List (κ × α)), Dict.get? (x ++ y) k = (Dict.get? x k).or (Dict.get? y k) := by
      intro x y
      induction x with
      | nil => simp [Dict.get?]
      | cons a x ihx =>
        obtain ⟨a, v⟩ := a
        simp only [List.cons_append, Dict.get?]
        split_ifs <;> simp [ihx]
    rw [List.foldl_cons, ih, List.reverse_cons, happ]
    obtain ⟨a, v⟩ := kv
    by_cases h : a = k
    · subst h; simp [Dict.get?]
    · rw [Dict.get?_set]
      rw [if_neg (Ne.symm h)]; simp [Dict.get?, h]

/-- a list of pairs with distinct keys is a dictionary already -/
theorem dictOf_nodup {κ α : Type} [DecidableEq κ] {l : List (κ × α)} (h : (l.map Prod.fst).Nodup) : dictOf l = l := by
  have key : ∀ (l d : List (κ × α)), ((d ++ l).map Prod.fst).Nodup →
      l.foldl (fun d kv => Dict.set d kv.1 kv.2) d = d ++ l := by
    intro l
    induction l with
    | nil => simp
    | cons kv r ih =>
      intro d hd
      rw [List.foldl_cons]
      have hset : ∀ (d : List (κ × α)), kv.1 ∉ d.map Prod.fst → Dict.set d kv.1 kv.2 = d ++ [kv] := by
        intro d
        induction d with
        | nil => intro _; rfl
        | cons x d ihd =>
          intro hx
          rw [List.map_cons, List.mem_cons, not_or] at hx
          obtain ⟨k, v⟩ := x
          have e : Dict.set ((k, v) :: d) kv.1 kv.2 = (k, v) :: Dict.set d kv.1 kv.2 := by
            have : k ≠ kv.1 := fun e => hx.1 e.symm
            simp only [Dict.set]
            rw [if_neg this]
          rw [e, ihd hx.2]; rfl
      have hn : kv.1 ∉ d.map Prod.fst := by
        rw [List.map_append, List.nodup_append] at hd
        intro hm
        exact hd.2.2 _ hm _ (by simp) rfl
      rw [hset d hn, ih _ (by simpa [List.append_assoc] using hd)]
      simp
  exact key l [] (by simpa using h)

/-- look-up in `dict(l)`: the last pair with the key -/
theorem dictOf_get?_last {κ α : Type} [DecidableEq κ] (l : List (κ × α)) (k : κ) :
    (dictOf l).get? k = Dict.get? (α := α) l.reverse k := by
  unfold dictOf
  rw [get?_foldl_set]; simp [Dict.get?]

end X4
