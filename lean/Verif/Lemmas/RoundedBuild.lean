import Verif.Lemmas.RoundedSimple
/-! Datasets built of rounded numbers and of exact ones. -/
namespace X4
variable {R : Rounding} {ρ : Type}

/-- the outcome with the result changed -/
def mapOk {α β : Type} (f : α → β) : Except PyErr α → Except PyErr β
  | .ok a => .ok (f a)
  | .error e => .error e

/-- an entry, rounded -/
noncomputable abbrev rndCell (R : Rounding) : Option ℝ → Option (Fl R) := Option.map fun x => ⟨R.rnd x⟩

theorem mapE_natural {α β γ : Type} {f : α → Except PyErr β} {g : α → Except PyErr γ} {φ : β → γ} (h : ∀ x, g x = mapOk φ (f x)) (l : List α) :
    mapE g l = mapOk (List.map φ) (mapE f l) := by
  induction l with
  | nil => rfl
  | cons x l ih =>
    simp only [mapE, h, ih]
    cases f x with
    | error e => rfl
    | ok y =>
      simp only [mapOk]
      cases mapE f l <;> rfl

theorem mapE_natural_map {α α' β γ : Type} {ψ : α → α'} {f : α → Except PyErr β} {g : α' → Except PyErr γ} {φ : β → γ} (h : ∀ x, g (ψ x) = mapOk φ (f x)) (l : List α) :
    mapE g (l.map ψ) = mapOk (List.map φ) (mapE f l) := by
  induction l with
  | nil => rfl
  | cons x l ih =>
    simp only [List.map_cons, mapE, h, ih]
    cases f x with
    | error e => rfl
    | ok y =>
      simp only [mapOk]
      cases mapE f l <;> rfl

theorem foldE_natural {α σ τ : Type} {f : σ → α → Except PyErr σ} {g : τ → α → Except PyErr τ} {φ : σ → τ} (h : ∀ s x, g (φ s) x = mapOk φ (f s x)) (s : σ) (l : List α) :
    foldE g (φ s) l = mapOk φ (foldE f s l) := by
  induction l generalizing s with
  | nil => rfl
  | cons x l ih =>
    simp only [foldE, h]
    cases f s x with
    | error e => rfl
    | ok y => exact ih y

theorem rnd_cellNum (x : Option FloatLit) : (cellNum x : Option (Fl R)) = rndCell R (cellNum x) := by cases x <;> rfl

theorem rnd_newRow (d : DataSection) (filt : List Bool) (offs : List Nat) (i : Nat) :
    newRow (N := Fl R) d filt offs i = mapOk (List.map (rndCell R)) (newRow (N := ℝ) d filt offs i) := by
  unfold newRow
  cases pyIdx offs 2 with
  | error e => rfl
  | ok o =>
    simp only
    cases pyIdx d.data i with
    | error e => rfl
    | ok r =>
      simp only
      cases filterRow filt o r with
      | error e => rfl
      | ok t =>
        simp only [mapOk, List.map_append, List.map_replicate, List.map_map]
        have h1 : (some PyNum.zero : Option (Fl R)) = rndCell R (some PyNum.zero) := rfl
        have h2 : (cellNum : Option FloatLit → Option (Fl R)) = rndCell R ∘ cellNum := by funext x; exact rnd_cellNum x
        rw [h1, h2]

theorem rnd_setIdx {α β : Type} (φ : α → β) (l : List α) (i : Nat) (x : α) : setIdx (l.map φ) i (φ x) = mapOk (List.map φ) (setIdx l i x) := by
  unfold setIdx
  rw [List.length_map]
  split
  · simp only [mapOk, List.map_set]
  · rfl

theorem rnd_writeCell (c : DataSection) (off crow : Nat) (row : List (Option ℝ)) (icol : Nat) :
    writeCell (N := Fl R) c off crow (row.map (rndCell R)) icol = mapOk (List.map (rndCell R)) (writeCell c off crow row icol) := by
  unfold writeCell
  cases pyIdx c.data crow with
  | error e => rfl
  | ok r =>
    simp only
    cases pyIdx r icol with
    | error e => rfl
    | ok x => simp only; rw [rnd_cellNum]; exact rnd_setIdx _ _ _ _

theorem rnd_writeCommon (c : DataSection) (off crow : Nat) (row : List (Option ℝ)) :
    writeCommon (N := Fl R) c off crow (row.map (rndCell R)) = mapOk (List.map (rndCell R)) (writeCommon c off crow row) :=
  foldE_natural (rnd_writeCell c off crow) row _

theorem rnd_commonStep (common : List (Option (Nat × DataSection))) (offs : List Nat) (rows : List (List (Option ℝ))) (c : Option (Nat × DataSection)) :
    commonStep (N := Fl R) common offs (rows.map (List.map (rndCell R))) c = mapOk (List.map (List.map (rndCell R))) (commonStep common offs rows c) := by
  rcases c with _ | ⟨cid, sec⟩
  · rfl
  · unfold commonStep
    simp only
    cases pyIdx offs _ with
    | error e => rfl
    | ok off =>
      simp only
      split
      · exact mapE_natural_map (rnd_writeCommon sec off 0) rows
      · have h1 : (rows.map (List.map (rndCell R))).zipIdx.take sec.numrows.toNat = (rows.zipIdx.take sec.numrows.toNat).map fun x => (x.1.map (rndCell R), x.2) := by
          rw [List.zipIdx_map, List.map_take]; rfl
        rw [h1, mapE_natural_map (f := fun ir => writeCommon sec off ir.2 ir.1) (φ := List.map (rndCell R)) (fun x => rnd_writeCommon sec off x.2 x.1)]
        cases mapE (fun ir => writeCommon sec off ir.2 ir.1) (rows.zipIdx.take sec.numrows.toNat) with
        | error e => rfl
        | ok top => simp only [mapOk, List.map_append, List.map_drop]

theorem rnd_setData (d : DataSection) (common : List (Option (Nat × DataSection))) (pointer : Option Char) :
    setData (N := Fl R) d common pointer = mapOk (Table.rounded R) (setData d common pointer) := by
  unfold setData
  cases mapE (optHeads pointer) common with
  | error e => rfl
  | ok chs =>
    simp only
    cases secHeads d pointer with
    | error e => rfl
    | ok dh =>
      simp only
      rw [mapE_natural (rnd_newRow d _ _)]
      cases mapE (newRow (N := ℝ) d _ _) (List.range d.numrows.toNat) with
      | error e => rfl
      | ok rows =>
        simp only [mapOk]
        rw [foldE_natural (rnd_commonStep common _)]
        cases foldE (commonStep (N := ℝ) common _) rows common <;> rfl

theorem rnd_build (rx : RxOps ρ) (kind : DsKind) (ms : List (Option (DsMeta ρ))) (common : List (Option (Nat × DataSection))) (reaction : Option (ρ × Str))
    (monitor : Option (List (Monitor ρ))) (data : Option DataSection) (pointer : Option Char) :
    DataSet.build (N := Fl R) rx kind ms common reaction monitor data pointer = mapOk (DataSet.rounded R) (DataSet.build rx kind ms common reaction monitor data pointer) := by
  unfold DataSet.build
  cases data with
  | none => rfl
  | some d =>
    simp only [rnd_setData]
    cases setData (N := ℝ) d common pointer <;> rfl

theorem rnd_factory (rx : RxOps ρ) (ms : List (Option (DsMeta ρ))) (common : List (Option (Nat × DataSection))) (reaction : ρ × Str)
    (monitor : Option (List (Monitor ρ))) (data : DataSection) (pointer : Option Char) :
    dataSetFactory (N := Fl R) rx ms common reaction monitor data pointer = mapOk (DataSet.rounded R) (dataSetFactory rx ms common reaction monitor data pointer) := by
  unfold dataSetFactory
  cases effectiveQuant rx reaction.1 with
  | error e => rfl
  | ok q => exact rnd_build _ _ _ _ _ _ _ _

/-- the state of `getDataSets` with every number rounded -/
noncomputable def DsState.rounded (R : Rounding) (st : DsState ρ ℝ) : DsState ρ (Fl R) :=
  { datasets := st.datasets.map fun kd => (kd.1, kd.2.rounded R), errors := st.errors, entry := st.entry }

theorem set_map {κ α β : Type} [DecidableEq κ] (φ : α → β) (d : Dict κ α) (k : κ) (x : α) :
    Dict.set (d.map fun kd => (kd.1, φ kd.2)) k (φ x) = (Dict.set d k x).map fun kd => (kd.1, φ kd.2) := by
  induction d with
  | nil => rfl
  | cons y d ih =>
    obtain ⟨k', v⟩ := y
    simp only [List.map_cons, Dict.set]
    split
    · rfl
    · rw [List.map_cons, ← ih]

theorem rnd_dsStep (rx : RxOps ρ) (accnum : Str) (sub : Option Str) (ms : List (Option (DsMeta ρ))) (common : List (Option (Nat × DataSection)))
    (data : DataSection) (from_ : SubInfo ρ) (st : DsState ρ ℝ) (pr : Char × (ρ × Str)) :
    dsStep rx accnum sub ms common data from_ (st.rounded R) pr = mapOk (DsState.rounded R) (dsStep rx accnum sub ms common data from_ st pr) := by
  unfold dsStep
  rw [rnd_factory]
  rcases dataSetFactory (N := ℝ) rx ms common pr.2 (from_.monitors.get? pr.1) data (some pr.1) with e | d
  · cases e <;> rfl
  · simp only [mapOk, DsState.rounded]
    rw [← set_map]

theorem rnd_subStep (rx : RxOps ρ) (mainKey : Option Str) (main : SubInfo ρ) (st : DsState ρ ℝ) (key : Option Str) :
    subStep rx mainKey main (st.rounded R) key = mapOk (DsState.rounded R) (subStep rx mainKey main st key) := by
  unfold subStep
  have e1 : (st.rounded R).entry = st.entry := rfl
  rw [e1]
  cases st.entry.subs.get? key with
  | none => rfl
  | some s =>
    simp only
    cases s.data with
    | none => rfl
    | some data =>
      simp only
      cases s.info (s.accnum.getD "None".toList) with
      | error e => rfl
      | ok si =>
        simp only
        have e2 := foldE_natural (φ := DsState.rounded R) (rnd_dsStep rx st.entry.accnum s.accnum [main.info, si.1.info] (commonList mainKey key main.common si.1.common) data main)
          { st with entry := { st.entry with subs := st.entry.subs.set key si.2 } } main.reactions
        have e3 : ({ st.rounded R with entry := { st.entry with subs := st.entry.subs.set key si.2 } } : DsState ρ (Fl R)) =
          DsState.rounded R { st with entry := { st.entry with subs := st.entry.subs.set key si.2 } } := rfl
        rw [e3, e2]
        cases foldE (dsStep (N := ℝ) rx st.entry.accnum s.accnum [main.info, si.1.info] (commonList mainKey key main.common si.1.common) data main)
          { st with entry := { st.entry with subs := st.entry.subs.set key si.2 } } main.reactions with
        | error e => rfl
        | ok st' => exact foldE_natural (φ := DsState.rounded R) (rnd_dsStep rx st.entry.accnum s.accnum [main.info, si.1.info] (commonList mainKey key main.common si.1.common) data si.1) st' _

theorem rnd_getDataSets (rx : RxOps ρ) (e : Entry ρ) (errs : Dict DsKey PyErr) :
    e.getDataSets (N := Fl R) rx errs = mapOk (DsState.rounded R) (e.getDataSets rx errs) := by
  unfold Entry.getDataSets
  cases e.deleted with
  | error x => rfl
  | ok b =>
    cases b with
    | true => rfl
    | false =>
      simp only
      cases e.getItem (.int 1) with
      | error x => rfl
      | ok s =>
        simp only
        cases s.info (e.accnum ++ "001".toList) with
        | error x => rfl
        | ok mi => exact foldE_natural (φ := DsState.rounded R) (rnd_subStep rx e.mainKey mi.1) { errors := errs, entry := { e with subs := e.subs.set e.mainKey mi.2 } } e.subs.keys

end X4
