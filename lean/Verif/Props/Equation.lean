import Verif.Model.Equation
import Verif.Spec.Equation
import Verif.Props.Isomers
/-! C99: the equations of REACTION fields. -/
namespace X4

def Datum.isOp : Datum → Bool
  | .op _ => true
  | _ => false

/-- the words of some data, given texts for what is no operator -/
def dataWords (g : Datum → Str) (d : List Datum) : List Str := d.map fun x => match x with | .op s => s | x => g x

/-- the words of some data with numbered names -/
def schemWords : Nat → List Datum → List Str
  | _, [] => []
  | i, .op s :: r => s :: schemWords i r
  | i, _ :: r => rxnName i :: schemWords (i + 1) r

theorem equation_schem (i : Nat) (d : List Datum) : equationItems (equationItem true) i d = .ok (schemWords i d) := by
  induction d generalizing i with
  | nil => rfl
  | cons x r ih => cases x <;> simp [equationItems, schemWords, equationItem, ih]

theorem equation_words (g : Datum → Str) (i : Nat) (d : List Datum) (h : ∀ x ∈ d, x.isOp = false → x.repr = .ok (g x)) :
    equationItems (equationItem false) i d = .ok (dataWords g d) := by
  induction d generalizing i with
  | nil => rfl
  | cons x r ih =>
    have ih' := fun i => ih i (fun x hx => h x (by simp [hx]))
    cases x with
    | op s => simp [equationItems, dataWords, ih']
    | rx R => simp [equationItems, dataWords, equationItem, ih', h (.rx R) (by simp) rfl]
    | iso l => simp [equationItems, dataWords, equationItem, ih', h (.iso l) (by simp) rfl]

theorem isName_rxnName (i : Nat) : isName (rxnName i) = true := rfl
theorem nameNumber_rxnName (i : Nat) : nameNumber (rxnName i) = i := (natStr_spec i).2.2.1

theorem schem_names (i : Nat) (d : List Datum) (h : ∀ s, .op s ∈ d → isName s = false) :
    (schemWords i d).filter isName = (List.range' i (d.filter fun x => !x.isOp).length).map rxnName := by
  induction d generalizing i with
  | nil => rfl
  | cons x r ih =>
    have ih' := fun i => ih i (fun s hs => h s (by simp [hs]))
    cases x with
    | op s => simp [schemWords, h s (by simp), ih', Datum.isOp]
    | rx R =>
      rw [schemWords, List.filter_cons_of_pos (isName_rxnName i), ih', List.filter_cons_of_pos (by rfl), List.length_cons, List.range'_succ]
      rfl
      simp
    | iso l =>
      rw [schemWords, List.filter_cons_of_pos (isName_rxnName i), ih', List.filter_cons_of_pos (by rfl), List.length_cons, List.range'_succ]
      rfl
      simp

theorem fillIn_cons (ts : List Str) (w : Str) (ws : List Str) (v : Str) (vs : List Str)
    (h : (if isName w then ts[nameNumber w]? else some w) = some v) (hs : fillIn ts ws = some vs) : fillIn ts (w :: ws) = some (v :: vs) := by
  unfold fillIn at *
  rw [List.mapM_cons, h, hs]
  rfl

theorem schem_fill (g : Datum → Str) (pre : List Str) (d : List Datum) (h : ∀ s, .op s ∈ d → isName s = false) :
    fillIn (pre ++ (d.filter fun x => !x.isOp).map g) (schemWords pre.length d) = some (dataWords g d) := by
  induction d generalizing pre with
  | nil => rfl
  | cons x r ih =>
    have hr : ∀ s, .op s ∈ r → isName s = false := fun s hs => h s (by simp [hs])
    have step : x.isOp = false → schemWords pre.length (x :: r) = rxnName pre.length :: schemWords (pre.length + 1) r →
        dataWords g (x :: r) = g x :: dataWords g r →
        fillIn (pre ++ ((x :: r).filter fun x => !x.isOp).map g) (schemWords pre.length (x :: r)) = some (dataWords g (x :: r)) := by
      intro hx h1 h2
      rw [h1, h2]
      refine fillIn_cons _ _ _ _ _ ?_ ?_
      · rw [if_pos (isName_rxnName _), nameNumber_rxnName]
        simp [hx]
      · have := ih (pre ++ [g x]) hr
        simpa [hx] using this
    cases x with
    | op s =>
      refine fillIn_cons _ _ _ _ _ ?_ ?_
      · rw [if_neg (by rw [h s (by simp)]; simp)]
      · exact ih pre hr
    | rx R => exact step rfl rfl rfl
    | iso l => exact step rfl rfl rfl

mutual
theorem dataOf_nonops (rd : ReactText → Datum) (f : FactorText) (h : ∀ x ∈ f.reacts, (rd x).isOp = false) :
    (f.dataOf rd).filter (fun x => !x.isOp) = f.reacts.map rd := by
  cases f with
  | rx r => rw [FactorText.dataOf, FactorText.reacts]; simp [h r (by simp [FactorText.reacts])]
  | par f l =>
    rw [FactorText.dataOf, FactorText.reacts, List.filter_cons, List.filter_append, List.filter_append,
      dataOf_nonops rd f (fun x hx => h x (by simp [FactorText.reacts, hx])), dataOf_nonopsR rd l (fun x hx => h x (by simp [FactorText.reacts, hx]))]
    simp [Datum.isOp]
theorem dataOf_nonopsR (rd : ReactText → Datum) (l : RestText) (h : ∀ x ∈ l.reacts, (rd x).isOp = false) :
    (l.dataOf rd).filter (fun x => !x.isOp) = l.reacts.map rd := by
  cases l with
  | nil => rw [RestText.dataOf, RestText.reacts]; rfl
  | cons op f l =>
    rw [RestText.dataOf, RestText.reacts, List.filter_cons, List.filter_append,
      dataOf_nonops rd f (fun x hx => h x (by simp [RestText.reacts, hx])), dataOf_nonopsR rd l (fun x hx => h x (by simp [RestText.reacts, hx]))]
    simp [Datum.isOp]
end

mutual
theorem dataOf_words (rd : ReactText → Datum) (g : Datum → Str) (t : ReactText → Str) (f : FactorText) (h : ∀ x ∈ f.reacts, (rd x).isOp = false ∧ g (rd x) = t x) :
    dataWords g (f.dataOf rd) = f.words t := by
  cases f with
  | rx r =>
    rw [FactorText.dataOf, FactorText.words]
    have := h r (by simp [FactorText.reacts])
    rw [← this.2]
    have h1 := this.1
    cases hr : rd r with
    | op s => rw [hr] at h1; cases h1
    | rx R => rfl
    | iso l => rfl
  | par f l =>
    have h1 := dataOf_words rd g t f (fun x hx => h x (by simp [FactorText.reacts, hx]))
    have h2 := dataOf_wordsR rd g t l (fun x hx => h x (by simp [FactorText.reacts, hx]))
    rw [FactorText.dataOf, FactorText.words, ← h1, ← h2]
    simp [dataWords]
theorem dataOf_wordsR (rd : ReactText → Datum) (g : Datum → Str) (t : ReactText → Str) (l : RestText) (h : ∀ x ∈ l.reacts, (rd x).isOp = false ∧ g (rd x) = t x) :
    dataWords g (l.dataOf rd) = l.words t := by
  cases l with
  | nil => rw [RestText.dataOf, RestText.words]; rfl
  | cons op f l =>
    have h1 := dataOf_words rd g t f (fun x hx => h x (by simp [RestText.reacts, hx]))
    have h2 := dataOf_wordsR rd g t l (fun x hx => h x (by simp [RestText.reacts, hx]))
    rw [RestText.dataOf, RestText.words, ← h1, ← h2]
    simp [dataWords]
end

theorem exprOps_noName : ∀ op ∈ exprOps, isName op = false := by decide

mutual
theorem dataOf_ops (rd : ReactText → Datum) (f : FactorText) (hf : f.wf) (h : ∀ x ∈ f.reacts, (rd x).isOp = false) (s : Str)
    (hs : .op s ∈ f.dataOf rd) : isName s = false := by
  cases f with
  | rx r =>
    rw [FactorText.dataOf, List.mem_singleton] at hs
    have := h r (by simp [FactorText.reacts])
    rw [← hs] at this; cases this
  | par f l =>
    rw [FactorText.wf] at hf
    rw [FactorText.dataOf, List.mem_cons, List.mem_append, List.mem_append, List.mem_singleton] at hs
    rcases hs with e | hs | hs | e
    · simp only [Datum.op.injEq] at e; subst e; rfl
    · exact dataOf_ops rd f hf.1 (fun x hx => h x (by simp [FactorText.reacts, hx])) s hs
    · exact dataOf_opsR rd l hf.2 (fun x hx => h x (by simp [FactorText.reacts, hx])) s hs
    · simp only [Datum.op.injEq] at e; subst e; rfl
theorem dataOf_opsR (rd : ReactText → Datum) (l : RestText) (hl : l.wf) (h : ∀ x ∈ l.reacts, (rd x).isOp = false) (s : Str)
    (hs : .op s ∈ l.dataOf rd) : isName s = false := by
  cases l with
  | nil => rw [RestText.dataOf] at hs; cases hs
  | cons op f l =>
    rw [RestText.wf] at hl
    rw [RestText.dataOf, List.mem_cons, List.mem_append] at hs
    rcases hs with e | hs | hs
    · simp only [Datum.op.injEq] at e; subst e; exact exprOps_noName _ hl.1
    · exact dataOf_ops rd f hl.2.1 (fun x hx => h x (by simp [RestText.reacts, hx])) s hs
    · exact dataOf_opsR rd l hl.2.2 (fun x hx => h x (by simp [RestText.reacts, hx])) s hs
end

/-- C99: the equation of a field with a single reaction is the text of the reaction; schematically it is called `rxn 0`. -/
theorem C99_single (rs : Dict Char (Measurement × Str)) (p : Char) (R : Reaction) (free t : Str) (h : rs.get? p = some (.rx R, free))
    (ht : R.repr = .ok t) :
    fieldEquation rs p false = .ok (.text t) ∧ fieldEquation rs p true = .ok (.text chars!"rxn 0") ∧ fieldReactionList rs p = .ok [R] := by
  have hg : rs.get p = .ok (.rx R, free) := by simp [Dict.get, h]
  unfold fieldEquation fieldReactionList
  simp only [hg, Measurement.equation, ht, Measurement.reactionList]
  refine ⟨rfl, ?_, trivial⟩
  rw [if_pos trivial, show rxnName 0 = chars!"rxn 0" from by decide]

/-- C99: the equation of a combination has the parentheses and operators of the written combination, and the texts of the reactions
(of isomer combinations as well) in their places. In the schematic equation the reactions are called `rxn 0`, `rxn 1`, … from left to
right, and filling in the texts gives the equation. -/
theorem C99_combination (rs : Dict Char (Measurement × Str)) (p : Char) (f : FactorText) (hf : f.wf) (rd : ReactText → Datum) (free : Str)
    (h : rs.get? p = some (.comb (f.dataOf rd), free) ∨ rs.get? p = some (.iso (f.dataOf rd), free))
    (hrd : ∀ x ∈ f.reacts, ∀ s, rd x ≠ .op s) (t : ReactText → Str) (ht : ∀ x ∈ f.reacts, (rd x).repr = .ok (t x)) :
    fieldEquation rs p false = .ok (.items (f.words t)) ∧
    ∃ ws, fieldEquation rs p true = .ok (.items ws) ∧ ws.filter isName = (List.range f.reacts.length).map rxnName ∧
      fillIn (f.reacts.map t) ws = some (f.words t) := by
  have hno : ∀ x ∈ f.reacts, (rd x).isOp = false := by
    intro x hx
    have := hrd x hx
    cases hr : rd x with
    | op s => exact absurd hr (this s)
    | rx R => rfl
    | iso l => rfl
  let g : Datum → Str := fun x => match x.repr with | .ok s => s | .error _ => []
  have hg : ∀ x ∈ f.reacts, g (rd x) = t x := by
    intro x hx; simp only [g, ht x hx]
  have hw : dataWords g (f.dataOf rd) = f.words t := dataOf_words rd g t f fun x hx => ⟨hno x hx, hg x hx⟩
  have hops : ∀ s, .op s ∈ f.dataOf rd → isName s = false := fun s => dataOf_ops rd f hf hno s
  have hrep : ∀ x ∈ f.dataOf rd, x.isOp = false → x.repr = .ok (g x) := by
    intro x hx ho
    have : x ∈ (f.dataOf rd).filter (fun x => !x.isOp) := by simp [hx, ho]
    rw [dataOf_nonops rd f hno, List.mem_map] at this
    obtain ⟨y, hy, rfl⟩ := this
    rw [hg y hy, ht y hy]
  have hmap : ((f.dataOf rd).filter fun x => !x.isOp).map g = f.reacts.map t := by
    rw [dataOf_nonops rd f hno, List.map_map]
    exact List.map_congr_left fun x hx => hg x hx
  have key : ∀ b, fieldEquation rs p b = match equationItems (equationItem b) 0 (f.dataOf rd) with
      | .error e => .error e
      | .ok l => .ok (.items l) := by
    intro b
    unfold fieldEquation
    rcases h with h | h <;> simp only [Dict.get, h, Measurement.equation] <;> rfl
  refine ⟨?_, schemWords 0 (f.dataOf rd), ?_, ?_, ?_⟩
  · rw [key, equation_words g 0 _ hrep, hw]
  · rw [key, equation_schem]
  · rw [schem_names 0 _ hops, dataOf_nonops rd f hno, List.length_map, List.range_eq_range']
  · have := schem_fill g [] _ hops
    rwa [List.nil_append, hmap, hw] at this

theorem fillIn_none (ts ws : List Str) (w : Str) (hw : w ∈ ws) (hn : isName w = true) (hl : ts.length ≤ nameNumber w) : fillIn ts ws = none := by
  unfold fillIn
  induction ws with
  | nil => cases hw
  | cons v ws ih =>
    rw [List.mapM_cons]
    rcases List.mem_cons.1 hw with rfl | h
    · rw [if_pos hn, List.getElem?_eq_none hl]
      rfl
    · rw [ih h]
      cases (if isName v then ts[nameNumber v]? else some v) <;> rfl

/-- C99 holds with the list of reactions of the field when the combination has no isomer arithmetic inside. -/
theorem C99_list_partial (rs : Dict Char (Measurement × Str)) (p : Char) (f : FactorText) (rd : ReactText → Reaction) (free : Str)
    (h : rs.get? p = some (.comb (f.data rd), free) ∨ rs.get? p = some (.iso (f.data rd), free)) :
    fieldReactionList rs p = .ok (f.reacts.map rd) := by
  have h1 := C80_listed_partial (fun x => .rx (rd x)) f
  rw [dataOf_rx] at h1
  have h2 : (f.reacts.flatMap fun x => [rd x]) = f.reacts.map rd := by induction f.reacts <;> simp_all
  unfold fieldReactionList
  rcases h with h | h <;> simp only [Dict.get, h, Except.ok.injEq]
  · rw [h1, ← h2]
  · rw [show Measurement.reactionList (.iso (f.data rd)) = Measurement.reactionList (.comb (f.data rd)) from rfl, h1, ← h2]

/-- C99 fails for combinations with isomer arithmetic inside: the list of reactions is shorter than the list of names in the equation. -/
theorem C99_list_refuted (rs : Dict Char (Measurement × Str)) (p : Char) (f : FactorText) (hf : f.wf) (rd : ReactText → Datum) (free : Str)
    (h : rs.get? p = some (.comb (f.dataOf rd), free)) (hrd : ∀ x ∈ f.reacts, ∀ s, rd x ≠ .op s)
    (hi : ∃ x ∈ f.reacts, ∃ d, rd x = .iso d) :
    ∃ ws L, fieldEquation rs p true = .ok (.items ws) ∧ fieldReactionList rs p = .ok L ∧ L.length < (ws.filter isName).length ∧
      ∀ g : Reaction → Str, fillIn (L.map g) ws = none := by
  have hno : ∀ x ∈ f.reacts, (rd x).isOp = false := by
    intro x hx
    have := hrd x hx
    cases hr : rd x with
    | op s => exact absurd hr (this s)
    | rx R => rfl
    | iso l => rfl
  have hops : ∀ s, .op s ∈ f.dataOf rd → isName s = false := fun s => dataOf_ops rd f hf hno s
  have hnames : (schemWords 0 (f.dataOf rd)).filter isName = (List.range f.reacts.length).map rxnName := by
    rw [schem_names 0 _ hops, dataOf_nonops rd f hno, List.length_map, List.range_eq_range']
  have hlt : (f.reacts.flatMap (fun x => match rd x with | .rx R => [R] | _ => [])).length < f.reacts.length := by
    clear hops hnames h hf
    obtain ⟨x, hx, d, hd⟩ := hi
    have hle : ∀ l : List ReactText, (l.flatMap (fun x => match rd x with | .rx R => [R] | _ => [])).length ≤ l.length := by
      intro l
      induction l with
      | nil => simp
      | cons y l ih =>
        rw [List.flatMap_cons, List.length_append, List.length_cons]
        have : (match rd y with | .rx R => [R] | _ => [] : List Reaction).length ≤ 1 := by split <;> simp
        omega
    obtain ⟨a, b, e⟩ := List.append_of_mem hx
    rw [e, List.flatMap_append, List.flatMap_cons, List.length_append, List.length_append, List.length_append, List.length_cons, hd]
    have h1 := hle a
    have h2 := hle b
    simp only [List.length_nil]
    omega
  refine ⟨schemWords 0 (f.dataOf rd), f.reacts.flatMap (fun x => match rd x with | .rx R => [R] | _ => []), ?_, ?_, ?_, fun g => ?_⟩
  · unfold fieldEquation
    simp only [Dict.get, h, Measurement.equation, equation_schem]
  · unfold fieldReactionList
    simp only [Dict.get, h]
    exact congrArg Except.ok (C80_listed_partial rd f)
  · rw [hnames]
    simpa using hlt
  · have hm : rxnName (f.reacts.length - 1) ∈ schemWords 0 (f.dataOf rd) := by
      have : rxnName (f.reacts.length - 1) ∈ (schemWords 0 (f.dataOf rd)).filter isName := by
        rw [hnames]
        exact List.mem_map_of_mem (List.mem_range.2 (by omega))
      exact (List.mem_filter.1 this).1
    refine fillIn_none _ _ _ hm (isName_rxnName _) ?_
    rw [nameNumber_rxnName, List.length_map]
    omega

/-- C99 fails for MONITOR fields, which inherit the method. -/
theorem C99_monitor_refuted (ms : Dict Char (List (Monitor Measurement))) (p : Char) (l : List (Monitor Measurement)) (hl : l ≠ [])
    (h : ms.get? p = some l) (b : Bool) : monitorEquation ms p b = .error .attributeError := by
  unfold monitorEquation
  cases l with
  | nil => exact absurd rfl hl
  | cons m l => simp only [Dict.get, h]

/-- C99_combination and C99_list_refuted apply to `((95-AM-241(N,G)95-AM-242-M/G,,SIG)//(95-AM-241(N,G)95-AM-242-M,,SIG))` as it is read. -/
example : ∃ rd : ReactText → Datum, reactionFieldText [] (nestedText.text ++ []) = .ok (.comb (nestedText.dataOf rd), []) ∧
    nestedText.wf ∧ (∀ x ∈ nestedText.reacts, ∀ s, rd x ≠ .op s) ∧ ∃ x ∈ nestedText.reacts, ∃ d, rd x = .iso d := by
  obtain ⟨rd, h, ⟨R, hR⟩, d, hd⟩ := nestedText_stands
  have := C55_nested_partial [] (.rx isomerReaction) (.cons ['/', '/'] (.rx exampleReaction) .nil) nestedText_wf [] (by decide) (by intro c hc; cases hc) rd h
  refine ⟨rd, this, nestedText_wf, ?_, isomerReaction, by simp [nestedText, FactorText.reacts], d, hd⟩
  intro x hx s
  simp only [nestedText, FactorText.reacts, RestText.reacts, List.cons_append, List.nil_append, List.append_nil, List.mem_cons, List.not_mem_nil, or_false] at hx
  rcases hx with rfl | rfl
  · rw [hd]; simp
  · rw [hR]; simp

/-- the equations of a field, computed -/
def equationOf (text : Str) (schematic : Bool) : Except PyErr Equation :=
  match reactionFieldText [] text with
  | .error e => .error e
  | .ok (m, free) => fieldEquation [(' ', m, free)] ' ' schematic

set_option maxRecDepth 20000 in
example : equationOf chars!"((95-AM-241(N,G)95-AM-242-M/G,,SIG)//(95-AM-241(N,G)95-AM-242-M,,SIG))" true =
    .ok (.items [chars!"(", chars!"rxn 0", chars!"//", chars!"rxn 1", chars!")"]) := by decide +kernel
set_option maxRecDepth 20000 in
example : equationOf chars!"((1-H-1(N,EL)1-H-1,,DA)/(1-H-1(N,EL)1-H-1,,SIG)) ratio" false =
    .ok (.items [chars!"(", chars!"(1-H-1(N,EL)1-H-1,DA)", chars!"/", chars!"(1-H-1(N,EL)1-H-1,SIG)", chars!")"]) := by decide +kernel
example : fillIn [chars!"A", chars!"B"] [chars!"(", chars!"rxn 0", chars!"/", chars!"rxn 1", chars!")"] =
    some [chars!"(", chars!"A", chars!"/", chars!"B", chars!")"] := by decide

end X4
