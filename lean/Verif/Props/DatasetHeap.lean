import Verif.Model.DatasetHeap
import Verif.Props.Factory
/-! Does simplifying a dataset keep it apart from the result? (C24) -/
namespace X4
variable {ρ N : Type} [PyNum N]

/-- the heap model returns the dataset of the pure model -/
theorem DsObj.getSimplified_view (h h' : Heap N) (o r : DsObj ρ N) (makeAll failMissing : Bool)
    (hs : o.getSimplified h makeAll failMissing = .ok (h', r)) :
    (o.view h).getSimplified makeAll failMissing = .ok (r.view h') := by
  unfold DsObj.getSimplified at hs
  split at hs
  · simp at hs
  · rename_i d hd
    rw [hd]
    split at hs
    · simp only [Except.ok.injEq, Prod.mk.injEq] at hs
      obtain ⟨rfl, rfl⟩ := hs
      simp [DsObj.view, Heap.alloc]
    · rename_i hr
      simp only [Except.ok.injEq, Prod.mk.injEq] at hs
      obtain ⟨rfl, rfl⟩ := hs
      have hdd : d = o.view h := by
        unfold DataSet.getSimplified at hd
        unfold DataSet.rebuilds at hr
        split at hd
        · simp at hd
        · simp only [Except.ok.injEq] at hd; exact hd.symm
        · rename_i k h1 h2
          unfold DataSet.simplifyWith at hd
          split at hd
          · simp only [Except.ok.injEq] at hd; exact hd.symm
          · rename_i hsim
            split at hd
            · simp only [Except.ok.injEq] at hd; exact hd.symm
            · rename_i m hm
              exfalso
              apply hr
              have h2' : (o.view h).kind ≠ .analyzingPower := fun e => h2 e
              simp [h2', hsim, hm]
      rw [hdd]
      rfl

/-- The rows of an object with a lower address than the receiver's, and all addresses below it, survive. -/
theorem run_frame [DecidableEq ρ] (rx : RxOps ρ) (a : Nat) (ops : List (DsOp ρ N)) (st : Heap N × DsObj ρ N)
    (ha : st.2.addr ≠ a) (hn : a < st.1.next) :
    (ops.foldl (DsObj.run rx) st).1.cells a = st.1.cells a := by
  induction ops generalizing st with
  | nil => rfl
  | cons op ops ih =>
    rw [List.foldl_cons]
    have key : (DsObj.run rx st op).2.addr ≠ a ∧ a < (DsObj.run rx st op).1.next ∧ (DsObj.run rx st op).1.cells a = st.1.cells a := by
      cases op with
      | sort f => exact ⟨ha, hn, by simp [DsObj.run, Heap.write, ha.symm]⟩
      | append o =>
        simp only [DsObj.run]
        split
        · exact ⟨ha, hn, rfl⟩
        · split
          · exact ⟨by simp; omega, by simp [Heap.alloc]; omega, by simp [Heap.alloc]; omega⟩
          · exact ⟨ha, hn, by simp [Heap.write, ha.symm]⟩
    rw [ih _ key.1 key.2.1, key.2.2]

/-- C24 (partial): when `getSimplified` does condense columns (the dataset is of a class with parsers
and not simplified yet), no later sequence of `sort` and `append` on the result changes the dataset
it was made from. -/
theorem C24_partial [DecidableEq ρ] (rx : RxOps ρ) (h h' : Heap N) (o r : DsObj ρ N) (makeAll failMissing : Bool)
    (ho : o.addr < h.next) (hr : (o.view h).rebuilds = true)
    (hs : o.getSimplified h makeAll failMissing = .ok (h', r)) (ops : List (DsOp ρ N)) :
    o.view (ops.foldl (DsObj.run rx) (h', r)).1 = o.view h := by
  unfold DsObj.getSimplified at hs
  split at hs
  · simp at hs
  · rw [if_pos hr] at hs
    simp only [Except.ok.injEq, Prod.mk.injEq] at hs
    obtain ⟨rfl, rfl⟩ := hs
    unfold DsObj.view
    rw [run_frame rx o.addr ops _ (by simp; omega) (by simp [Heap.alloc]; omega)]
    simp only [Heap.alloc]
    rw [if_neg (by omega)]

/-- C24 is false of every dataset that is not condensed (already simplified, of the generic class, or
an analyzing power): the result shares its rows with the dataset, so that sorting the result
sorts the dataset. -/
theorem C24_sort_refuted [DecidableEq ρ] (rx : RxOps ρ) (h h' : Heap N) (o r : DsObj ρ N) (makeAll failMissing : Bool)
    (hr : (o.view h).rebuilds = false) (hs : o.getSimplified h makeAll failMissing = .ok (h', r))
    (order : List (List (Option N)) → List (List (Option N))) :
    (o.view (DsObj.run rx (h', r) (.sort order)).1).data = order (o.view h).data := by
  unfold DsObj.getSimplified at hs
  split at hs
  · simp at hs
  · rw [if_neg (by simp [hr])] at hs
    simp only [Except.ok.injEq, Prod.mk.injEq] at hs
    obtain ⟨rfl, rfl⟩ := hs
    simp [DsObj.run, DsObj.view, Heap.write]

/-- ... and rows appended to the result are appended to the dataset. -/
theorem C24_append_refuted [DecidableEq ρ] (rx : RxOps ρ) (h h' : Heap N) (o r : DsObj ρ N) (makeAll failMissing : Bool)
    (hr : (o.view h).rebuilds = false) (hs : o.getSimplified h makeAll failMissing = .ok (h', r)) (other : DataSet ρ N)
    (hb : ¬ Blank (o.view h)) (hc : Compatible rx (o.view h) other) :
    (o.view (DsObj.run rx (h', r) (.append other)).1).data = (o.view h).data ++ other.data := by
  have hv := DsObj.getSimplified_view h h' o r makeAll failMissing hs
  unfold DsObj.getSimplified at hs
  rw [hv] at hs
  simp only at hs
  rw [if_neg (by simp [hr])] at hs
  simp only [Except.ok.injEq, Prod.mk.injEq] at hs
  obtain ⟨rfl, hr'⟩ := hs
  have haddr : r.addr = o.addr := by rw [← hr']
  have hvv : r.view h = o.view h := by
    unfold DataSet.getSimplified at hv
    unfold DataSet.rebuilds at hr
    split at hv
    · simp at hv
    · simp only [Except.ok.injEq] at hv; exact hv.symm
    · rename_i k h1 h2
      unfold DataSet.simplifyWith at hv
      split at hv
      · simp only [Except.ok.injEq] at hv; exact hv.symm
      · rename_i hsim
        split at hv
        · simp only [Except.ok.injEq] at hv; exact hv.symm
        · rename_i m hm
          exfalso
          have h2' : (o.view h).kind ≠ .analyzingPower := fun e => h2 e
          simp [h2', hsim, hm] at hr
  simp only [DsObj.run]
  rw [hvv, C36_compatible rx _ _ hb hc]
  simp only
  rw [if_neg (show ¬ (_ ∧ _ ∧ _) from hb)]
  simp [DsObj.view, Heap.write, haddr]

/-- a cross section with one row -/
def csAttrs : DataSet (Option (List Str) × List (List Str)) N :=
  { kind := .crossSection, info := {}, reaction := some ((some ["SIG".toList], []), []), monitor := none, coupled := false,
    labels := ["EN".toList, "DATA".toList], units := [some "MEV".toList, some "B".toList] }
def csHeap : Heap N := { cells := fun _ => [[some PyNum.zero, some PyNum.one]], next := 1 }

example : ∃ h' r, DsObj.getSimplified (csHeap (N := N)) ⟨csAttrs, 0⟩ true false = .ok (h', r) ∧
    (DsObj.view (csHeap (N := N)) ⟨csAttrs, 0⟩).rebuilds = true := ⟨_, _, rfl, rfl⟩
/-- the result of one simplification meets the hypotheses of the refutation for the next one -/
example : ∃ h' r h'' r', DsObj.getSimplified (csHeap (N := N)) ⟨csAttrs, 0⟩ true false = .ok (h', r) ∧
    r.getSimplified h' true false = .ok (h'', r') ∧ (r.view h').rebuilds = false ∧ ¬ Blank (r.view h') ∧
    Compatible demoRx (r.view h') (r.view h') :=
  ⟨_, _, _, _, rfl, rfl, rfl, fun h => Nat.noConfusion (show (4 : Nat) = 0 from congrArg List.length h.1), rfl, rfl, _, _, _, rfl, rfl, rfl, rfl⟩

end X4
