import Verif.Lemmas.Rounded
import Mathlib.Data.Option.Basic
/-! The column parsers on rounded numbers and on exact ones, side by side. -/
namespace X4
open PyNum
variable {R : Rounding}

/-! ### relations -/

/-- related entries of three lists of the same length -/
inductive Rel3 {α β γ : Type} (P : α → β → γ → Prop) : List α → List β → List γ → Prop
  | nil : Rel3 P [] [] []
  | cons {r a b rs as bs} : P r a b → Rel3 P rs as bs → Rel3 P (r :: rs) (a :: as) (b :: bs)

/-- both raise the same exception, or both succeed with related results -/
inductive ExRel {α β : Type} (T : α → β → Prop) : Except PyErr α → Except PyErr β → Prop
  | error (e) : ExRel T (.error e) (.error e)
  | ok {a b} : T a b → ExRel T (.ok a) (.ok b)

/-- both `None`, or related numbers -/
inductive OptRel {α β : Type} (T : α → β → Prop) : Option α → Option β → Prop
  | none : OptRel T none none
  | some {a b} : T a b → OptRel T (some a) (some b)

theorem OptRel.imp {α β} {T U : α → β → Prop} (h : ∀ a b, T a b → U a b) {x : Option α} {y : Option β} (hx : OptRel T x y) : OptRel U x y := by
  cases hx with
  | none => exact .none
  | some h' => exact .some (h _ _ h')

variable {α β γ δ ε ζ : Type}

theorem Rel3.imp {P Q : α → β → γ → Prop} (h : ∀ r a b, P r a b → Q r a b) {rs as bs} (hr : Rel3 P rs as bs) : Rel3 Q rs as bs := by
  induction hr with
  | nil => exact .nil
  | cons h1 _ ih => exact .cons (h _ _ _ h1) ih

theorem Rel3.zip {P : α → β → γ → Prop} {Q : α → δ → ε → Prop} {W : α → ζ → η → Prop} {f : β → δ → ζ} {g : γ → ε → η}
    (h : ∀ r a b a' b', P r a b → Q r a' b' → W r (f a a') (g b b')) {rs as bs as' bs'} (h1 : Rel3 P rs as bs) (h2 : Rel3 Q rs as' bs') :
    Rel3 W rs (List.zipWith f as as') (List.zipWith g bs bs') := by
  induction h1 generalizing as' bs' with
  | nil => cases h2; exact .nil
  | cons h3 _ ih => cases h2 with
    | cons h4 h5 => exact .cons (h _ _ _ _ _ h3 h4) (ih h5)

theorem Rel3.map {P : α → β → γ → Prop} {W : α → δ → ε → Prop} {f : β → δ} {g : γ → ε} (h : ∀ r a b, P r a b → W r (f a) (g b)) {rs as bs}
    (h1 : Rel3 P rs as bs) : Rel3 W rs (as.map f) (bs.map g) := by
  induction h1 with
  | nil => exact .nil
  | cons h3 _ ih => exact .cons (h _ _ _ h3) ih

theorem Rel3.length {P : α → β → γ → Prop} {rs as bs} (h : Rel3 P rs as bs) : as.length = rs.length ∧ bs.length = rs.length := by
  induction h with
  | nil => exact ⟨rfl, rfl⟩
  | cons _ _ ih => simp [ih.1, ih.2]

theorem Rel3.get {P : α → β → γ → Prop} {rs as bs} (h : Rel3 P rs as bs) {i : Nat} {r : α} (hr : rs[i]? = some r) :
    ∃ a b, as[i]? = some a ∧ bs[i]? = some b ∧ P r a b := by
  induction h generalizing i with
  | nil => simp at hr
  | cons h1 _ ih => cases i with
    | zero => simp at hr; subst hr; exact ⟨_, _, rfl, rfl, h1⟩
    | succ i => exact ih (by simpa using hr)

/-- loops over the rows -/
theorem rel3_mapE {P : α → β → γ → Prop} {W : α → δ → ε → Prop} {f : β → Except PyErr δ} {g : γ → Except PyErr ε}
    (h : ∀ r a b, P r a b → ExRel (W r) (f a) (g b)) {rs as bs} (h1 : Rel3 P rs as bs) : ExRel (Rel3 W rs) (mapE f as) (mapE g bs) := by
  induction h1 with
  | nil => exact .ok .nil
  | cons h3 _ ih =>
    have h4 := h _ _ _ h3
    simp only [mapE]
    generalize f _ = x at h4 ⊢
    generalize g _ = y at h4 ⊢
    cases h4 with
    | error e => exact .error e
    | ok h5 =>
      generalize mapE f _ = x at ih ⊢
      generalize mapE g _ = y at ih ⊢
      cases ih with
      | error e => exact .error e
      | ok h6 => exact .ok (.cons h5 h6)

/-- loops over the same list -/
theorem mapE_rel {T : β → γ → Prop} {f : α → Except PyErr β} {g : α → Except PyErr γ} {l : List α} (h : ∀ x ∈ l, ExRel T (f x) (g x)) :
    ExRel (List.Forall₂ T) (mapE f l) (mapE g l) := by
  induction l with
  | nil => exact .ok .nil
  | cons x l ih =>
    have h4 := h x (by simp)
    have ih := ih fun y hy => h y (by simp [hy])
    simp only [mapE]
    generalize f x = a at h4 ⊢
    generalize g x = b at h4 ⊢
    cases h4 with
    | error e => exact .error e
    | ok h5 =>
      generalize mapE f l = x at ih ⊢
      generalize mapE g l = y at ih ⊢
      cases ih with
      | error e => exact .error e
      | ok h6 => exact .ok (.cons h5 h6)

/-- loops over related lists -/
theorem forall2_mapE {T : α → β → Prop} {U : γ → δ → Prop} {f : α → Except PyErr γ} {g : β → Except PyErr δ} (h : ∀ a b, T a b → ExRel U (f a) (g b))
    {l l'} (hl : List.Forall₂ T l l') : ExRel (List.Forall₂ U) (mapE f l) (mapE g l') := by
  induction hl with
  | nil => exact .ok .nil
  | cons h3 _ ih =>
    have h4 := h _ _ h3
    simp only [mapE]
    generalize f _ = a at h4 ⊢
    generalize g _ = b at h4 ⊢
    cases h4 with
    | error e => exact .error e
    | ok h5 =>
      generalize mapE f _ = x at ih ⊢
      generalize mapE g _ = y at ih ⊢
      cases ih with
      | error e => exact .error e
      | ok h6 => exact .ok (.cons h5 h6)

/-- related columns: the same heading and unit, and related entries in every row -/
structure ColRel {N M : Type} (P : α → Option N → Option M → Prop) (rows : List α) (a : Column N) (b : Column M) : Prop where
  label : a.label = b.label
  unit : a.unit = b.unit
  vals : Rel3 P rows a.vals b.vals

/-! ### entries -/

/-- a converted entry -/
structure CellRel (s : ℝ) (a : Fl R) (x : ℝ) : Prop where
  near : Near R 9 |x| a.val x
  mag : |x| ≤ s

/-- an entry of the result -/
def OutRel (s : ℝ) (a : Fl R) (x : ℝ) : Prop := |a.val - x| ≤ R.bound 47 * (|x| + 2 * s)

theorem outRel_of {s m : ℝ} {k : Nat} {a : Fl R} {x : ℝ} (h : Near R k m a.val x) (hk : k ≤ 47) (hm : m ≤ |x| + 2 * s) : OutRel s a x :=
  (h.mono hk hm).err

theorem outRel_of' {s m : ℝ} {k : Nat} {a : Fl R} {x : ℝ} (h : Near R k m a.val x) (hk : k ≤ 47) (hm : m ≤ 2 * s) : OutRel s a x :=
  outRel_of h hk (by linarith [abs_nonneg x])

theorem CellRel.nonneg {s : ℝ} {a : Fl R} {x : ℝ} (h : CellRel s a x) : 0 ≤ s := (abs_nonneg x).trans h.mag

theorem CellRel.out {s : ℝ} {a : Fl R} {x : ℝ} (h : CellRel s a x) : OutRel s a x := outRel_of h.near (by omega) (by linarith [h.nonneg])

theorem OutRel.abs {s : ℝ} {a : Fl R} {x : ℝ} (h : OutRel s a x) : OutRel s (PyNum.abs a) (PyNum.abs x) := by
  unfold OutRel at *
  have h1 : (PyNum.abs a).val = |a.val| := rfl
  rw [h1, RealNum.abs_eq, abs_abs]
  exact (abs_abs_sub_abs_le _ _).trans h

theorem near_half : Near R 1 (1 / 2) (PyNum.half : Fl R).val (PyNum.half : ℝ) := by
  refine (near_dec (R := R) 5 (-1)).mono le_rfl ?_
  norm_num

/-- times one half -/
theorem near_mul_half {k : Nat} {m : ℝ} {a : Fl R} {x : ℝ} (h : Near R k m a.val x) :
    Near R (k + 2) (1 / 2 * m) (PyNum.mul PyNum.half a).val (PyNum.mul PyNum.half x) := by
  have := (near_half.mul h).rnd
  exact this.mono (by omega) le_rfl

theorem out_highLowVal {s : ℝ} {a a' : Option (Fl R)} {x x' : Option ℝ} (h : OptRel (CellRel s) a x) (h' : OptRel (CellRel s) a' x') :
    OptRel (OutRel s) (highLowVal a a') (highLowVal x x') := by
  cases h with
  | none => cases h' with
    | none => exact .none
    | some h1 => exact .some (outRel_of' (near_mul_half h1.near) (by omega) (by linarith [h1.mag, h1.nonneg]))
  | some h1 => cases h' with
    | none => exact .none
    | some h2 => exact .some (outRel_of' (near_mul_half (h1.near.add h2.near).rnd) (by omega) (by linarith [h1.mag, h2.mag, h1.nonneg]))

theorem out_highLowErr {s : ℝ} {a a' : Option (Fl R)} {x x' : Option ℝ} (h : OptRel (CellRel s) a x) (h' : OptRel (CellRel s) a' x') :
    OptRel (OutRel s) (highLowErr a a') (highLowErr x x') := by
  cases h with
  | none => cases h' <;> exact .none
  | some h1 => cases h' with
    | none => exact .none
    | some h2 =>
      have h3 := (h1.near.sub h2.near).rnd.abs
      exact .some (outRel_of' (near_mul_half (a := PyNum.abs _) h3) (by omega) (by linarith [h1.mag, h2.mag, h1.nonneg]))

theorem out_midVal {s : ℝ} {a a' a'' : Option (Fl R)} {x x' x'' : Option ℝ} (h : OptRel (CellRel s) a x) (h' : OptRel (CellRel s) a' x')
    (h'' : OptRel (CellRel s) a'' x'') : OptRel (OutRel s) (midVal a a' a'') (midVal x x' x'') := by
  cases h with
  | none => cases h' <;> cases h'' <;> exact .none
  | some h1 => cases h' with
    | none => cases h'' <;> exact .none
    | some h2 => cases h'' with
      | none => exact .none
      | some h3 =>
        have h4 := ((h1.near.sub h2.near).rnd.add (h1.near.add h3.near).rnd).rnd
        exact .some (outRel_of' (near_mul_half (a := PyNum.add _ _) h4) (by omega) (by linarith [h1.mag, h2.mag, h3.mag]))

theorem out_midErr {s : ℝ} {a a' a'' : Option (Fl R)} {x x' x'' : Option ℝ} (h : OptRel (CellRel s) a x) (h' : OptRel (CellRel s) a' x')
    (h'' : OptRel (CellRel s) a'' x'') : OptRel (OutRel s) (midErr a a' a'') (midErr x x' x'') := by
  cases h with
  | none => cases h' <;> cases h'' <;> exact .none
  | some h1 => cases h' with
    | none => cases h'' <;> exact .none
    | some h2 => cases h'' with
      | none => exact .none
      | some h3 =>
        have h4 := ((h1.near.sub h2.near).rnd.sub (h1.near.add h3.near).rnd).rnd
        exact .some (OutRel.abs (outRel_of' (near_mul_half (a := PyNum.sub _ _) h4) (by omega) (by linarith [h1.mag, h2.mag, h3.mag])))

/-- a percentage, of which only the relative error matters -/
theorem near_pct {k : Nat} {m : ℝ} {a : Fl R} {x : ℝ} (h : Near R k m a.val x) : Near R (k + 3) (m / 100) (PyNum.pct a).val (PyNum.pct x) :=
  (h.div (c := 100) (by norm_num)).rnd

theorem near_percentOf {s s' : ℝ} {a a' : Fl R} {x x' : ℝ} (h : CellRel s a x) (h' : CellRel s' a' x') :
    Near R 22 |(PyNum.pct (PyNum.mul x x') : ℝ)| (PyNum.pct (PyNum.mul a a')).val (PyNum.pct (PyNum.mul x x')) := by
  refine (near_pct (a := PyNum.mul a a') (h.near.mul h'.near).rnd).mono (by omega) ?_
  rw [RealNum.pct_eq, RealNum.mul_eq, abs_div, abs_mul]
  norm_num

/-- an uncertainty before it is added in quadrature -/
def ErrRel (a : Fl R) (x : ℝ) : Prop := Near R 22 |x| a.val x

theorem err_percentOf {s : ℝ} {a a' : Option (Fl R)} {x x' : Option ℝ} (h : OptRel (CellRel s) a x) (h' : OptRel (CellRel s) a' x') :
    OptRel ErrRel (percentOf a a') (percentOf x x') := by
  cases h with
  | none => cases h' <;> exact .none
  | some h1 => cases h' with
    | none => exact .none
    | some h2 => exact .some (near_percentOf h1 h2)

theorem CellRel.err {s : ℝ} {a : Fl R} {x : ℝ} (h : CellRel s a x) : ErrRel a x := h.near.mono (by omega) le_rfl

theorem ErrRel.out {s : ℝ} (hs : 0 ≤ s) {a : Fl R} {x : ℝ} (h : ErrRel a x) : OutRel s a x := outRel_of h (by omega) (by linarith)

theorem out_constPct {s : ℝ} {a : Fl R} {x : ℝ} (h : CellRel s a x) :
    OutRel s (PyNum.pct (PyNum.mul a (PyNum.dec 10 0))) (PyNum.pct (PyNum.mul x (PyNum.dec 10 0))) := by
  refine outRel_of (near_pct (a := PyNum.mul a _) (h.near.mul (near_dec 10 0)).rnd) (by omega) ?_
  rw [RealNum.pct_eq, RealNum.mul_eq, RealNum.dec_eq, abs_div, abs_mul]
  norm_num
  exact h.nonneg

theorem err_getD {a : Option (Fl R)} {x : Option ℝ} (h : OptRel ErrRel a x) : ErrRel (a.getD PyNum.zero) (x.getD PyNum.zero) := by
  cases h with
  | none =>
    show Near R 22 |(PyNum.zero : ℝ)| (PyNum.zero : Fl R).val (PyNum.zero : ℝ)
    rw [near_zero, RealNum.zero_eq]
    exact (near_refl 0).mono (by omega) le_rfl
  | some h => exact h

theorem out_quadSum {s : ℝ} (hs : 0 ≤ s) {a a' : Option (Fl R)} {x x' : Option ℝ} (h : OptRel ErrRel a x) (h' : OptRel ErrRel a' x') :
    ExRel (OptRel (OutRel s)) (quadSum a a') (quadSum x x') := by
  have key : ∀ {a a' : Fl R} {x x' : ℝ}, ErrRel a x → ErrRel a' x' →
      ∃ r r', PyNum.sqrt (PyNum.add (PyNum.mul a a) (PyNum.mul a' a')) = .ok r ∧ PyNum.sqrt (PyNum.add (PyNum.mul x x) (PyNum.mul x' x')) = .ok r' ∧ OutRel s r r' := by
    intro a a' x x' h h'
    have h1 := ((h.mul h).rnd.add (h'.mul h').rnd).rnd
    simp only [abs_mul_abs_self] at h1
    have h2 : 0 ≤ R.rnd (R.rnd (a.val * a.val) + R.rnd (a'.val * a'.val)) :=
      rnd_nonneg (add_nonneg (rnd_nonneg (mul_self_nonneg _)) (rnd_nonneg (mul_self_nonneg _)))
    have h3 : 0 ≤ x * x + x' * x' := add_nonneg (mul_self_nonneg _) (mul_self_nonneg _)
    refine ⟨⟨R.rnd (Real.sqrt (R.rnd (R.rnd (a.val * a.val) + R.rnd (a'.val * a'.val))))⟩, Real.sqrt (x * x + x' * x'), ?_, ?_, ?_⟩
    · exact if_neg (not_lt.2 h2)
    · exact if_neg (not_lt.2 h3)
    · refine outRel_of (h1.sqrt h2).rnd (by omega) ?_
      rw [abs_of_nonneg (Real.sqrt_nonneg _)]; linarith
  have go := key (err_getD h) (err_getD h')
  obtain ⟨r, r', e1, e2, h4⟩ := go
  cases h with
  | none => cases h' with
    | none => exact .ok .none
    | some h2 => simp only [quadSum, e1, e2]; exact .ok (.some h4)
  | some h1 => cases h' with
    | none => simp only [quadSum, e1, e2]; exact .ok (.some h4)
    | some h2 => simp only [quadSum, e1, e2]; exact .ok (.some h4)

end X4
