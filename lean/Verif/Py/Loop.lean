import Verif.Py.Err
import Mathlib.Data.List.Forall2
/-! `for` loops that build a list and may raise. -/
namespace X4

/-- `[f(x) for x in l]` where `f` may raise: the first exception wins. -/
def mapE {ε α β} (f : α → Except ε β) : List α → Except ε (List β)
  | [] => .ok []
  | x :: l =>
    match f x with
    | .error e => .error e
    | .ok y =>
      match mapE f l with
      | .error e => .error e
      | .ok ys => .ok (y :: ys)

/-- a loop with a state that may raise -/
def foldE {ε σ α} (f : σ → α → Except ε σ) : σ → List α → Except ε σ
  | s, [] => .ok s
  | s, x :: l =>
    match f s x with
    | .error e => .error e
    | .ok s' => foldE f s' l

theorem mapE_length {ε α β} {f : α → Except ε β} {l : List α} {r : List β} (h : mapE f l = .ok r) :
    r.length = l.length := by
  induction l generalizing r with
  | nil => simp [mapE] at h; subst h; rfl
  | cons x l ih =>
    simp only [mapE] at h
    split at h
    · simp at h
    · split at h
      · simp at h
      · rename_i ys hys
        simp at h; subst h; simp [ih hys]

theorem mapE_get {ε α β} {f : α → Except ε β} {l : List α} {r : List β} (h : mapE f l = .ok r)
    (i : Nat) (x : α) (hx : l[i]? = some x) : ∃ y, r[i]? = some y ∧ f x = .ok y := by
  induction l generalizing r i with
  | nil => simp at hx
  | cons x' l ih =>
    simp only [mapE] at h
    split at h
    · simp at h
    · rename_i y hy
      split at h
      · simp at h
      · rename_i ys hys
        simp at h; subst h
        cases i with
        | zero => simp at hx; subst hx; exact ⟨y, by simp, hy⟩
        | succ i => simpa using ih hys i (by simpa using hx)

theorem mapE_ok_iff {ε α β} {f : α → Except ε β} {l : List α} {r : List β} :
    mapE f l = .ok r ↔ List.Forall₂ (fun x y => f x = .ok y) l r := by
  induction l generalizing r with
  | nil => simp [mapE, eq_comm]
  | cons x l ih =>
    simp only [mapE]
    rcases hx : f x with e | y
    · simp only [reduceCtorEq, false_iff]
      intro h; cases h; simp_all
    · rcases hl : mapE f l with e | ys
      · simp only [reduceCtorEq, false_iff]
        intro h; cases h with
        | cons h1 h2 => rw [← ih] at h2; simp_all
      · simp only [Except.ok.injEq]
        constructor
        · rintro rfl; exact .cons hx (ih.1 hl)
        · intro h; cases h with
          | cons h1 h2 => rw [← ih] at h2; simp_all

theorem mapE_all_ok {ε α β} {f : α → Except ε β} {g : α → β} {l : List α} (h : ∀ x ∈ l, f x = .ok (g x)) :
    mapE f l = .ok (l.map g) := by
  induction l with
  | nil => rfl
  | cons x l ih =>
    simp [mapE, h x (by simp), ih (fun y hy => h y (by simp [hy]))]

theorem mapE_congr {ε α β} {f g : α → Except ε β} {l : List α} (h : ∀ x ∈ l, f x = g x) :
    mapE f l = mapE g l := by
  induction l with
  | nil => rfl
  | cons x l ih =>
    simp [mapE, h x (by simp), ih (fun y hy => h y (by simp [hy]))]

/-- the exception raised by `mapE` comes from the first failing element -/
theorem mapE_error {ε α β} {f : α → Except ε β} {l : List α} {e : ε} (h : mapE f l = .error e) :
    ∃ x ∈ l, f x = .error e := by
  induction l with
  | nil => simp [mapE] at h
  | cons x l ih =>
    simp only [mapE] at h
    split at h
    · rename_i e' he; simp at h; subst h; exact ⟨x, by simp, he⟩
    · split at h
      · rename_i e' he; simp at h; subst h
        obtain ⟨y, hy, hf⟩ := ih he
        exact ⟨y, by simp [hy], hf⟩
      · simp at h

end X4
