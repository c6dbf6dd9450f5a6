import Verif.Lemmas.RoundedBuild
import Verif.Props.DataSets
import Verif.Props.DatasetText
import Verif.Props.Simple
/-! C112: floating-point arithmetic. -/
namespace X4
variable {R : Rounding} {ρ : Type}

/-! ### reading -/

theorem get?_mapVals {κ α β : Type} [DecidableEq κ] (φ : α → β) (d : Dict κ α) (k : κ) : Dict.get? (d.map fun kd => (kd.1, φ kd.2)) k = (d.get? k).map φ := by
  induction d with
  | nil => rfl
  | cons y d ih =>
    obtain ⟨k', v⟩ := y
    simp only [List.map_cons, Dict.get?]
    split
    · rfl
    · exact ih

/-- C112: the datasets of an entry in floating-point arithmetic are those in exact arithmetic with every number rounded once, under the
same keys; exceptions and recorded errors are the same. -/
theorem C112_read (R : Rounding) (rx : RxOps ρ) (e : Entry ρ) (errs : Dict DsKey PyErr) :
    (∀ x, e.getDataSets (N := ℝ) rx errs = .error x → e.getDataSets (N := Fl R) rx errs = .error x) ∧
    ∀ st, e.getDataSets (N := ℝ) rx errs = .ok st → ∃ st', e.getDataSets (N := Fl R) rx errs = .ok st' ∧ st'.errors = st.errors ∧ st'.entry = st.entry ∧
      st'.datasets.keys = st.datasets.keys ∧ ∀ k, st'.datasets.get? k = (st.datasets.get? k).map (DataSet.rounded R) := by
  rw [rnd_getDataSets]
  refine ⟨fun x h => by rw [h]; rfl, fun st h => ?_⟩
  rw [h]
  refine ⟨_, rfl, rfl, rfl, ?_, fun k => get?_mapVals _ _ k⟩
  simp [DsState.rounded, Dict.keys]

/-! ### converted columns -/

/-- C112: a converted column has in floating-point arithmetic the same heading and unit as in exact arithmetic, the same entries are
missing, and the others have a relative error of nine roundings at most. -/
theorem C112_column (R : Rounding) (t : Table ℝ) (p : ColParser) (hs : p.scale = .dec 1 0 ∨ p.scale = .dec 5 (-1))
    (ha : p.angle = true → ∀ l ∈ t.labels, ¬ "COS".toList <:+: l) :
    (∀ x, p.find t = .error x → p.find (t.rounded R) = .error x) ∧
    ∀ k, p.find t = .ok k → ∃ k', p.find (t.rounded R) = .ok k' ∧ k'.label = k.label ∧ k'.unit = k.unit ∧
      List.Forall₂ (fun a x => (a = none ∧ x = none) ∨ ∃ a' x', a = some a' ∧ x = some x' ∧ |a'.val - x'| ≤ ((1 + R.u) ^ 9 - 1) * |x'|) k'.vals k.vals := by
  have hp : GoodCol t p := ⟨hs, fun l hl => by
    cases h : p.angle with
    | false => rfl
    | true =>
      have := ha h l hl
      cases h2 : hasSub "COS".toList l with
      | false => rfl
      | true =>
        obtain ⟨a, b, e⟩ := (hasSub_iff _ _).1 h2
        exact absurd ⟨a, b, e.symm⟩ this⟩
  have h := find_rel (R := R) hp
  generalize p.find (t.rounded R) = x at h ⊢
  generalize p.find t = y at h ⊢
  cases h with
  | error e => exact ⟨fun x h => by cases h; rfl, fun k h => by simp at h⟩
  | @ok a b k =>
    refine ⟨fun x h => by simp at h, fun k0 h => ?_⟩
    obtain rfl := Except.ok.inj h
    refine ⟨_, rfl, k.label, k.unit, ?_⟩
    have hv := k.vals
    generalize a.vals = u at hv ⊢
    generalize b.vals = v at hv ⊢
    generalize t.data = rows at hv
    clear k h
    induction hv with
    | nil => exact .nil
    | cons h1 _ ih =>
      refine .cons ?_ ih
      cases h1 with
      | none => exact .inl ⟨rfl, rfl⟩
      | some h2 => exact .inr ⟨_, _, rfl, rfl, h2.near.err⟩

/-- a column of energies in keV with one entry missing -/
noncomputable def kevTable : Table ℝ := { labels := ["EN".toList], units := [some "KEV".toList], data := [[some (1 / 10)], [none]] }

example : ∃ p ∈ [(⟨labelsOf ["EN"] variableSuffix, energyUnits, .dec 1 0, false⟩ : ColParser)], ∃ k, p.find kevTable = .ok k ∧ (p.scale = .dec 1 0 ∨ p.scale = .dec 5 (-1)) ∧
    p.angle = false ∧ k.unit = some "MeV".toList ∧ k.vals = [some (1 / 10000), none] := by
  refine ⟨_, List.mem_singleton.2 rfl, _, rfl, .inl rfl, rfl, rfl, ?_⟩
  show [some (scaleVal (.dec 1 (-3)) (.dec 1 0) (1 / 10 : ℝ)), none] = _
  norm_num [scaleVal, Factor.val, RealNum.dec_eq]

/-- C112: no uncertainty is negative in floating-point arithmetic either. -/
theorem C112_nonneg (R : Rounding) (d : Table (Fl R)) (p : Pair) (k : Column (Fl R)) (h : p.getError d = .ok k) (x : Fl R) (hx : some x ∈ k.vals) : 0 ≤ x.val := by
  unfold Pair.getError at h
  split at h
  · split at h
    · simp at h
    · obtain rfl := Except.ok.inj h
      simp only [absCol, List.mem_map, Option.map_eq_some_iff] at hx
      obtain ⟨y, _, z, _, hz⟩ := hx
      rw [← hz]
      exact abs_nonneg _
  · obtain rfl := Except.ok.inj h
    simp only [dummy, List.mem_replicate] at hx
    simp at hx

/-! ### simplified datasets -/

/-- every parser of the lists -/
def goodScale (c : ColParser) : Bool := decide (c.scale = .dec 1 0) || decide (c.scale = .dec 5 (-1))
def pairCols : Pair → List ColParser
  | .missing c | .constPct c => [c]
  | .indep c c' | .highLow c c' | .barnsSqrtE c c' => [c, c']
  | .highMidLow c c' c'' | .addErr c c' c'' => [c, c', c'']

theorem goodPair_of {t : Table ℝ} {p : Pair} (h : ∀ c ∈ pairCols p, GoodCol t c) : GoodPair t p := by
  cases p <;> simp only [pairCols, List.mem_cons, List.not_mem_nil, or_false, forall_eq_or_imp, forall_eq] at h <;> exact h

theorem kinds_scale : ∀ k m, parserMapOf k = some m → ∀ kv ∈ m.1, ∀ p ∈ kv.2, ∀ c ∈ pairCols p, goodScale c = true ∧ (k = .angular ∨ c.angle = false) := by
  intro k
  have key : (match parserMapOf k with
      | none => true
      | some m => m.1.all fun kv => kv.2.all fun p => (pairCols p).all fun c => goodScale c && (decide (k = .angular) || !c.angle)) = true := by
    cases k <;> decide +kernel
  intro m hm kv hkv p hp c hc
  rw [hm] at key
  simp only [List.all_eq_true] at key
  have := key kv hkv p hp c hc
  simp only [Bool.and_eq_true, Bool.or_eq_true, decide_eq_true_eq, Bool.not_eq_true'] at this
  exact this

theorem approx_of {s : ℝ} {a : Option (Fl R)} {b : Option ℝ} (h : OptRel (OutRel s) a b) : Approx ((1 + R.u) ^ 47 - 1) s a b := by
  cases h with
  | none => trivial
  | some h => exact h

theorem approx_rnd {s : ℝ} (hs : 0 ≤ s) (x : Option ℝ) : Approx ((1 + R.u) ^ 47 - 1) s (rndCell R x) x := by
  cases x with
  | none => trivial
  | some x =>
    show |R.rnd x - x| ≤ R.bound 47 * (|x| + 2 * s)
    exact ((near_rnd x).mono (by omega) (by linarith)).err

/-- a dataset that is not changed -/
theorem agrees_self (d : DataSet ρ ℝ) : Agrees ((1 + R.u) ^ 47 - 1) d (d.rounded R) d where
  attrs := rfl
  rows := ⟨by simp [DataSet.rounded], rfl⟩
  cells := by
    intro i row a b h1 h2 h3
    obtain rfl : row = b := Option.some.inj (h1.symm.trans h3)
    simp only [DataSet.rounded, List.getElem?_map, h1, Option.map_some, Option.some.injEq] at h2
    subst h2
    rw [List.forall₂_map_left_iff]
    exact List.forall₂_same.2 fun x _ => approx_rnd (rowSize_nonneg _ _) x

theorem rounded_table (d : DataSet ρ ℝ) : (d.rounded R).table = d.table.rounded R := rfl

theorem getSimplified_rel (R : Rounding) (d : DataSet ρ ℝ) (hc : NoCosines d) (makeAll failMissing : Bool) :
    ExRel (Agrees ((1 + R.u) ^ 47 - 1) d) ((d.rounded R).getSimplified makeAll failMissing) (d.getSimplified makeAll failMissing) := by
  have key : ∀ k, d.kind = k → ExRel (Agrees ((1 + R.u) ^ 47 - 1) d) ((d.rounded R).simplifyWith (parserMapOf k) makeAll failMissing) (d.simplifyWith (parserMapOf k) makeAll failMissing) := by
    intro k hk
    unfold DataSet.simplifyWith
    have e1 : (d.rounded R).simplified = d.simplified := rfl
    rw [e1]
    split
    · exact .ok (agrees_self d)
    · cases hm : parserMapOf k with
      | none => exact .ok (agrees_self d)
      | some m =>
        simp only [rounded_table]
        have h := simplify_rel (R := R) (t := d.table) (pm := m.1) (fun kv hkv p hp => goodPair_of fun c hcc => by
          obtain ⟨h1, h2⟩ := kinds_scale k m hm kv hkv p hp c hcc
          refine ⟨by simpa [goodScale] using h1, fun l hl => ?_⟩
          rcases h2 with h2 | h2
          · cases h3 : hasSub "COS".toList l with
            | false => simp
            | true =>
              obtain ⟨a, b, e⟩ := (hasSub_iff _ _).1 h3
              exact absurd ⟨a, b, e.symm⟩ (hc (hk.trans h2) l hl)
          · rw [h2]; rfl) m.2 makeAll failMissing
        generalize simplifyTable (d.table.rounded R) m.1 m.2 makeAll failMissing = x at h ⊢
        generalize simplifyTable d.table m.1 m.2 makeAll failMissing = y at h ⊢
        cases h with
        | error e => exact .error e
        | ok h1 =>
          obtain ⟨h2, h3, h4⟩ := h1
          have hlen := h4.length
          refine .ok ⟨?_, ⟨hlen.1.trans hlen.2.symm, hlen.2⟩, fun i row a b k1 k2 k3 => ?_⟩
          · simp only [h2, h3]; rfl
          · obtain ⟨a', b', j1, j2, j3⟩ := h4.get k1
            obtain rfl : a' = a := Option.some.inj (j1.symm.trans k2)
            obtain rfl : b' = b := Option.some.inj (j2.symm.trans k3)
            exact j3.imp fun _ _ h => approx_of h
  unfold DataSet.getSimplified
  have e1 : (d.rounded R).kind = d.kind := rfl
  rw [e1]
  cases hk : d.kind
  case resonanceInt => exact .error _
  case analyzingPower => exact .ok (agrees_self d)
  all_goals exact key _ hk

/-- C112 (partial: without cosines of angles): for a dataset with the rounded numbers of a table, the simplified dataset in
floating-point arithmetic has the same headings, units, attributes and missing entries as in exact arithmetic, and every number differs from the
exact one by 47 roundings at most of a number of the size of the result and twice the largest entry of its row. Exceptions are
the same. -/
theorem C112_simplified_partial (R : Rounding) (d : DataSet ρ ℝ) (hc : NoCosines d) (makeAll failMissing : Bool) :
    (∀ x, d.getSimplified makeAll failMissing = .error x → (d.rounded R).getSimplified makeAll failMissing = .error x) ∧
    ∀ r, d.getSimplified makeAll failMissing = .ok r → ∃ r', (d.rounded R).getSimplified makeAll failMissing = .ok r' ∧ Agrees ((1 + R.u) ^ 47 - 1) d r' r := by
  have h := getSimplified_rel R d hc makeAll failMissing
  generalize (d.rounded R).getSimplified makeAll failMissing = x at h ⊢
  generalize d.getSimplified makeAll failMissing = y at h ⊢
  cases h with
  | error e => exact ⟨fun x h => by cases h; rfl, fun k h => by simp at h⟩
  | ok h => exact ⟨fun x h => by simp at h, fun r hr => by obtain rfl := Except.ok.inj hr; exact ⟨_, rfl, h⟩⟩

theorem Agrees.mono {e e' : ℝ} (he : e ≤ e') {d0 : DataSet ρ ℝ} {d' : DataSet ρ (Fl R)} {d : DataSet ρ ℝ} (h : Agrees e d0 d' d) : Agrees e' d0 d' d where
  attrs := h.attrs
  rows := h.rows
  cells i row a b h1 h2 h3 := (h.cells i row a b h1 h2 h3).imp fun x y hxy => by
    cases x <;> cases y
    · trivial
    · exact hxy
    · exact hxy
    · refine le_trans hxy (mul_le_mul_of_nonneg_right he ?_)
      have := rowSize_nonneg d0.units row
      positivity

/-- 47 roundings to 53 binary digits -/
theorem double_bound : (1 + doubleRounding.u) ^ 47 - 1 ≤ 1 / 10 ^ 14 := by
  show (1 + (2 : ℝ) ^ (-53 : ℤ)) ^ 47 - 1 ≤ _
  norm_num

/-- C112 (partial: without cosines of angles): with numbers of 53 binary digits every number of the simplified dataset differs from
the exact one by at most 10⁻¹⁴ times its size and twice that of the largest entry of its row. -/
theorem C112_double_partial (d : DataSet ρ ℝ) (hc : NoCosines d) (makeAll failMissing : Bool) (r : DataSet ρ ℝ) (h : d.getSimplified makeAll failMissing = .ok r) :
    ∃ r', (d.rounded doubleRounding).getSimplified makeAll failMissing = .ok r' ∧ Agrees (1 / 10 ^ 14) d r' r := by
  obtain ⟨r', h1, h2⟩ := (C112_simplified_partial doubleRounding d hc makeAll failMissing).2 r h
  exact ⟨r', h1, h2.mono double_bound⟩

/-- energies by limits, with a cross section in millibarns and its uncertainty in per cent -/
def limitSet : DataSet Unit ℝ := plainSet .crossSection ["EN-MIN", "EN-MAX", "DATA", "DATA-ERR"] ["KEV", "KEV", "MB", "PER-CENT"]
  [[some 10, some 20, some 500, some 10], [some 20, some 40, some 300, none]]

example : NoCosines limitSet ∧ ∃ r, limitSet.getSimplified false false = .ok r ∧ r.data.length = 2 ∧
    ∃ r', (limitSet.rounded doubleRounding).getSimplified false false = .ok r' ∧ Agrees (1 / 10 ^ 14) limitSet r' r := by
  have h1 : NoCosines limitSet := fun h => absurd h (by decide)
  have h2 : ∃ r, limitSet.getSimplified false false = .ok r ∧ r.data.length = 2 := ⟨_, rfl, rfl⟩
  obtain ⟨r, h3, h4⟩ := h2
  exact ⟨h1, r, h3, h4, C112_double_partial limitSet h1 false false r h3⟩

/-! ### the datasets of an entry -/

/-- the datasets of an entry in the two arithmetics -/
structure StateRel (l : Dict DsKey (DataSet ρ ℝ)) (a : DsState ρ (Fl R)) (b : DsState ρ ℝ) : Prop where
  errors : a.errors = b.errors
  entry : a.entry = b.entry
  datasets : Rel3 (fun kd x y => x.1 = kd.1 ∧ y.1 = kd.1 ∧ Agrees ((1 + R.u) ^ 47 - 1) kd.2 x.2 y.2) l a.datasets b.datasets

theorem set_rel {l : Dict DsKey (DataSet ρ ℝ)} (hn : l.keys.Nodup) {a : Dict DsKey (DataSet ρ (Fl R))} {b : Dict DsKey (DataSet ρ ℝ)}
    (h : Rel3 (fun kd x y => x.1 = kd.1 ∧ y.1 = kd.1 ∧ Agrees ((1 + R.u) ^ 47 - 1) kd.2 x.2 y.2) l a b) {kd : DsKey × DataSet ρ ℝ} (hkd : kd ∈ l)
    {d' : DataSet ρ (Fl R)} {d : DataSet ρ ℝ} (hd : Agrees ((1 + R.u) ^ 47 - 1) kd.2 d' d) :
    Rel3 (fun kd x y => x.1 = kd.1 ∧ y.1 = kd.1 ∧ Agrees ((1 + R.u) ^ 47 - 1) kd.2 x.2 y.2) l (a.set kd.1 d') (b.set kd.1 d) := by
  induction h with
  | nil => simp at hkd
  | @cons r x y rs as bs h1 h2 ih =>
    obtain ⟨k, u⟩ := x
    obtain ⟨k', v⟩ := y
    obtain ⟨rfl, rfl, h3⟩ := h1
    simp only [Dict.keys, List.map_cons, List.nodup_cons] at hn
    rcases List.mem_cons.1 hkd with rfl | hm
    · simp only [Dict.set, if_true]
      exact .cons ⟨rfl, rfl, hd⟩ h2
    · have hne : r.1 ≠ kd.1 := by
        intro e
        exact hn.1 (e ▸ List.mem_map_of_mem hm)
      simp only [Dict.set, if_neg hne]
      exact .cons ⟨rfl, rfl, h3⟩ (ih hn.2 hm)

theorem simplifyFold_rel {l : Dict DsKey (DataSet ρ ℝ)} (hn : l.keys.Nodup) (hc : ∀ kd ∈ l, NoCosines kd.2) (makeAll : Bool) (m : Dict DsKey (DataSet ρ ℝ)) (hm : ∀ kd ∈ m, kd ∈ l)
    {a : DsState ρ (Fl R)} {b : DsState ρ ℝ} (h : StateRel l a b) :
    ExRel (StateRel l) (foldE (simplifyStep makeAll) a (m.map fun kd => (kd.1, kd.2.rounded R))) (foldE (simplifyStep makeAll) b m) := by
  induction m generalizing a b with
  | nil => exact .ok h
  | cons kd m ih =>
    have ih := fun {a b} => ih (fun x hx => hm x (by simp [hx])) (a := a) (b := b)
    have h1 := getSimplified_rel R kd.2 (hc kd (hm kd (by simp))) makeAll false
    simp only [List.map_cons, foldE, simplifyStep]
    generalize (kd.2.rounded R).getSimplified makeAll false = x at h1 ⊢
    generalize kd.2.getSimplified makeAll false = y at h1 ⊢
    cases h1 with
    | error e =>
      by_cases hh : simplifyHandled e = true
      · simp only [if_pos hh]
        exact ih ⟨by simp only [h.errors], h.entry, h.datasets⟩
      · simp only [if_neg hh]
        exact .error _
    | ok h2 => exact ih ⟨h.errors, h.entry, set_rel hn h.datasets (hm kd (by simp)) h2⟩

theorem rel3_get? {l : Dict DsKey (DataSet ρ ℝ)} {a : Dict DsKey (DataSet ρ (Fl R))} {b : Dict DsKey (DataSet ρ ℝ)} {T : DataSet ρ ℝ → DataSet ρ (Fl R) → DataSet ρ ℝ → Prop}
    (h : Rel3 (fun kd x y => x.1 = kd.1 ∧ y.1 = kd.1 ∧ T kd.2 x.2 y.2) l a b) :
    a.keys = b.keys ∧ ∀ k d, b.get? k = some d → ∃ d0 d', l.get? k = some d0 ∧ a.get? k = some d' ∧ T d0 d' d := by
  induction h with
  | nil => exact ⟨rfl, fun k d h => by simp [Dict.get?] at h⟩
  | @cons r x y rs as bs h1 h2 ih =>
    obtain ⟨k, u⟩ := x
    obtain ⟨k', v⟩ := y
    obtain ⟨k0, w⟩ := r
    obtain ⟨h3, h4, h5⟩ := h1
    simp only at h3 h4
    subst h3 h4
    refine ⟨?_, fun k1 d hd => ?_⟩
    · simp only [Dict.keys, List.map_cons] at ih ⊢
      rw [ih.1]
    · simp only [Dict.get?] at hd ⊢
      by_cases hk : k' = k1
      · rw [if_pos hk] at hd ⊢
        obtain rfl := Option.some.inj hd
        exact ⟨w, u, rfl, by rw [if_pos hk], h5⟩
      · simp only [if_neg hk] at hd ⊢
        exact ih.2 k1 d hd

/-- C112 (partial: without cosines of angles) for all datasets of an entry: the simplified datasets in floating-point arithmetic have the keys of those
in exact arithmetic, agree with them up to rounding, and the recorded errors are the same. -/
theorem C112_entry_partial (R : Rounding) (rx : RxOps ρ) (e : Entry ρ) (errs : Dict DsKey PyErr) (makeAll : Bool) (st : DsState ρ ℝ) (h : e.getDataSets rx errs = .ok st)
    (hc : ∀ kd ∈ st.datasets, NoCosines kd.2) :
    (∀ x, e.getSimplifiedDataSets (N := ℝ) rx errs makeAll = .error x → e.getSimplifiedDataSets (N := Fl R) rx errs makeAll = .error x) ∧
    ∀ r, e.getSimplifiedDataSets (N := ℝ) rx errs makeAll = .ok r → ∃ r', e.getSimplifiedDataSets (N := Fl R) rx errs makeAll = .ok r' ∧
      r'.errors = r.errors ∧ r'.entry = r.entry ∧ r'.datasets.keys = r.datasets.keys ∧
      ∀ k d, r.datasets.get? k = some d → ∃ d0 d', st.datasets.get? k = some d0 ∧ r'.datasets.get? k = some d' ∧ Agrees ((1 + R.u) ^ 47 - 1) d0 d' d := by
  have h0 : StateRel st.datasets (st.rounded R) st := by
    refine ⟨rfl, rfl, ?_⟩
    have := rel3_self (P := fun (kd : DsKey × DataSet ρ ℝ) (x : DsKey × DataSet ρ (Fl R)) (y : DsKey × DataSet ρ ℝ) => x.1 = kd.1 ∧ y.1 = kd.1 ∧ Agrees ((1 + R.u) ^ 47 - 1) kd.2 x.2 y.2)
      (f := fun kd => (kd.1, kd.2.rounded R)) (g := id) (fun kd => ⟨rfl, rfl, agrees_self kd.2⟩) st.datasets
    simpa [DsState.rounded] using this
  have h1 := simplifyFold_rel (getDataSets_nodup h) hc makeAll st.datasets (fun _ hx => hx) h0
  have e1 : e.getSimplifiedDataSets (N := Fl R) rx errs makeAll = foldE (simplifyStep makeAll) (st.rounded R) (st.datasets.map fun kd => (kd.1, kd.2.rounded R)) := by
    unfold Entry.getSimplifiedDataSets
    rw [rnd_getDataSets, h]; rfl
  have e2 : e.getSimplifiedDataSets (N := ℝ) rx errs makeAll = foldE (simplifyStep makeAll) st st.datasets := by
    unfold Entry.getSimplifiedDataSets
    rw [h]
  rw [e1, e2]
  generalize foldE (simplifyStep makeAll) (st.rounded R) _ = x at h1 ⊢
  generalize foldE (simplifyStep makeAll) st st.datasets = y at h1 ⊢
  cases h1 with
  | error e => exact ⟨fun x h => by cases h; rfl, fun k h => by simp at h⟩
  | ok k =>
    refine ⟨fun x h => by simp at h, fun r hr => ?_⟩
    obtain rfl := Except.ok.inj hr
    obtain ⟨j1, j2⟩ := rel3_get? k.datasets
    exact ⟨_, rfl, k.errors, k.entry, j1, j2⟩

set_option maxRecDepth 20000 in
/-- an entry with one dataset of cross sections -/
example : ∃ e, ∃ st : DsState _ ℝ, demoEntry "CS".toList "MIXED".toList = .ok e ∧ e.getDataSets demoRx [] = .ok st ∧ st.datasets.keys.length = 1 ∧ (∀ kd ∈ st.datasets, NoCosines kd.2) ∧
    ∃ r : DsState _ ℝ, e.getSimplifiedDataSets demoRx [] true = .ok r ∧ r.datasets.keys.length = 1 := by
  refine ⟨_, _, rfl, rfl, rfl, fun kd hkd hk => absurd hk ?_, _, rfl, rfl⟩
  obtain rfl := List.mem_singleton.1 hkd
  decide

/-! ### cosines -/

/-- the column of angles that `angleParserList` reads -/
def angleCol : ColParser := ⟨labelsOf baseAngleKeys (variableSuffix ++ frameSuffix), angUnits ++ noUnits, .dec 1 0, true⟩

/-- a cosine that is almost 1 -/
noncomputable def nearOneTable : Table ℝ := { labels := ["COS".toList], units := [some "NO-DIM".toList], data := [[some (1 - 1 / 10 ^ 17)]] }

theorem double_one : double 1 = 1 := by
  have h : Int.log 2 |(1 : ℝ)| = 0 := by rw [abs_one, Int.log_one_right]
  simp only [double, h]
  have : (1 : ℝ) / 2 ^ ((0 : ℤ) - 52) = ((2 ^ 52 : ℤ) : ℝ) := by norm_num
  rw [this, round_intCast]
  norm_num

theorem double_near_one : double (1 - 1 / 10 ^ 17) = 1 := by
  have hp : |(1 - 1 / 10 ^ 17 : ℝ)| = 1 - 1 / 10 ^ 17 := abs_of_pos (by norm_num)
  have h : Int.log 2 |(1 - 1 / 10 ^ 17 : ℝ)| = -1 := by
    rw [hp]
    have h1 : (-1 : ℤ) ≤ Int.log 2 (1 - 1 / 10 ^ 17 : ℝ) := by
      rw [← Int.zpow_le_iff_le_log (by norm_num) (by norm_num)]; norm_num
    have h2 : Int.log 2 (1 - 1 / 10 ^ 17 : ℝ) < 0 := by
      rw [← Int.lt_zpow_iff_log_lt (by norm_num) (by norm_num)]; norm_num
    omega
  simp only [double, h]
  have : round ((1 - 1 / 10 ^ 17 : ℝ) / 2 ^ ((-1 : ℤ) - 52)) = 2 ^ 53 := by
    rw [round_eq, Int.floor_eq_iff]
    constructor <;> norm_num
  rw [this]
  norm_num

theorem cos_find {N : Type} [PyNum N] (t : Table N) (x : N) (hl : t.labels = ["COS".toList]) (hu : t.units = [some "NO-DIM".toList]) (hd : t.data = [[some x]]) (a : N)
    (ha : acosVal (.dec 1 0) x = .ok a) : angleCol.find t = .ok { label := some "COS".toList, unit := some "degrees".toList, vals := [some a] } := by
  have h : Finds angleCol t 0 "COS".toList "NO-DIM".toList := by
    refine ⟨by rw [hl]; rfl, by rw [hu]; rfl, by decide, by decide, by simp⟩
  unfold ColParser.find
  rw [firstMatch_some h]
  have hm : angleCol.isMatch t 0 = true := isMatch_iff.2 ⟨_, _, h.label, h.unit, h.accLabel, h.accUnit⟩
  have hc : (angleCol.angle && hasSub "COS".toList "COS".toList) = true := by decide
  have hg : (getConversion "RAD".toList).2 = "degrees".toList := by decide
  simp only [ColParser.getColumn, h.label, h.unit, hm, if_true, ColParser.readColumn, hc, hd, mapE, convCell, cellAt, pyIdx, List.getElem?_cons_zero, hg]
  have : angleCol.scale = .dec 1 0 := rfl
  rw [this, ha]

/-- C112 is false for cosines: an angle of more than 10⁻⁷ degrees, given by a cosine that is almost 1, becomes 0. -/
theorem C112_cosine_refuted : Pair.missing angleCol ∈ angleParserList ∧ ∃ k k' x, angleCol.find nearOneTable = .ok k ∧ angleCol.find (nearOneTable.rounded doubleRounding) = .ok k' ∧
    k.vals = [some x] ∧ k'.vals = [some ⟨0⟩] ∧ 1 / 10 ^ 7 < x := by
  refine ⟨by decide, _, _, Real.arccos (1 - 1 / 10 ^ 17) * (180 / Real.pi), cos_find nearOneTable (1 - 1 / 10 ^ 17) rfl rfl rfl _ ?_, cos_find _ ⟨double (1 - 1 / 10 ^ 17)⟩ rfl rfl rfl ⟨0⟩ ?_, rfl, rfl, ?_⟩
  · have e1 : (PyNum.add (PyNum.mul (1 - 1 / 10 ^ 17 : ℝ) (Factor.dec 1 0).val) PyNum.zero : ℝ) = 1 - 1 / 10 ^ 17 := by
      simp [Factor.val, RealNum.dec_eq]
    have e2 : PyNum.acos (1 - 1 / 10 ^ 17 : ℝ) = .ok (Real.arccos (1 - 1 / 10 ^ 17)) := if_neg (by norm_num)
    simp only [acosVal, e1, e2]
    rfl
  · have e0 : ((Factor.dec 1 0).val : Fl doubleRounding) = ⟨1⟩ := by
      show (⟨double _⟩ : Fl doubleRounding) = _
      norm_num [double_one]
    have e1 : (PyNum.add (PyNum.mul (⟨double (1 - 1 / 10 ^ 17)⟩ : Fl doubleRounding) (Factor.dec 1 0).val) PyNum.zero : Fl doubleRounding) = ⟨1⟩ := by
      rw [e0, double_near_one]
      show (⟨double (double (1 * 1) + (PyNum.zero : Fl doubleRounding).val)⟩ : Fl doubleRounding) = _
      rw [near_zero]
      norm_num [double_one]
    have e3 : double 0 = 0 := by simp [double]
    have e2 : PyNum.acos (⟨1⟩ : Fl doubleRounding) = .ok ⟨0⟩ := by
      show (if (1 : ℝ) < -1 ∨ (1 : ℝ) < 1 then _ else _) = _
      rw [if_neg (by norm_num)]
      show Except.ok (⟨double (Real.arccos 1)⟩ : Fl doubleRounding) = _
      rw [Real.arccos_one, e3]
    simp only [acosVal, e1, e2]
    show Except.ok (⟨double (0 * _)⟩ : Fl doubleRounding) = _
    rw [zero_mul, e3]
  · have h1 : (4 / 10 ^ 9 : ℝ) < Real.arccos (1 - 1 / 10 ^ 17) := by
      have h2 : 1 - 1 / 10 ^ 17 < Real.cos (4 / 10 ^ 9) := lt_of_lt_of_le (by norm_num) (Real.one_sub_sq_div_two_le_cos)
      have h3 : Real.arccos (Real.cos (4 / 10 ^ 9)) = 4 / 10 ^ 9 := Real.arccos_cos (by norm_num) (by linarith [Real.pi_gt_three])
      rw [← h3]
      exact Real.strictAntiOn_arccos ⟨by norm_num, by norm_num⟩ ⟨Real.neg_one_le_cos _, Real.cos_le_one _⟩ h2
    have h4 : (45 : ℝ) < 180 / Real.pi := by
      rw [lt_div_iff₀ Real.pi_pos]; nlinarith [Real.pi_lt_four]
    nlinarith

end X4
