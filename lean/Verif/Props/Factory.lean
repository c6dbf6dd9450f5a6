import Verif.Props.Utilities
import Verif.Props.Simplify
import Verif.Props.Dataset
/-! Choice of the dataset class (C35), appending (C36). -/
namespace X4
variable {ρ N : Type}

/-! ### C35 -/

/-- C35: the listed combinations with SIG are cross sections. -/
theorem C35_cross_section (q : List Str) : kindOf q = .crossSection ↔
    q ∈ [["SIG".toList], ["CN".toList, "SIG".toList], ["SIG".toList, "DERIV".toList], ["SIG".toList, "FCT".toList],
      ["DI".toList, "SIG".toList], ["SIG".toList, "EVAL".toList], ["SIG".toList, "EXP".toList], ["SIG".toList, "AV".toList]] := by
  unfold kindOf
  change _ ↔ q ∈ crossSectionQuants
  split_ifs with h1 <;> simp [h1]

/-- C35: the listed combinations with SIG are spectrum averages. -/
theorem C35_spectrum_average (q : List Str) : kindOf q = .spectrumAve ↔
    q ∈ [["SIG".toList, "MXW".toList], ["SIG".toList, "SPA".toList], ["SIG".toList, "SFC".toList, "EVAL".toList],
      ["SIG".toList, "SFC".toList, "EXP".toList], ["SIG".toList, "SFC".toList], ["SIG".toList, "FST".toList],
      ["SIG".toList, "RTE".toList], ["SIG".toList, "FIS".toList], ["SIG".toList, "FIS".toList, "EVAL".toList]] := by
  change _ ↔ q ∈ spectrumQuants
  have hd : ∀ q ∈ crossSectionQuants, q ∉ spectrumQuants := by decide
  unfold kindOf
  split_ifs with h1 h2 <;> simp [*]

/-- no member of the lists of combinations with SIG contains one of the other quantities -/
theorem sig_lists {q : List Str} (h : q ∈ crossSectionQuants ∨ q ∈ spectrumQuants) :
    "RI".toList ∉ q ∧ "POL/DA".toList ∉ q ∧ "DA".toList ∉ q ∧ "NU".toList ∉ q ∧ "DE".toList ∉ q := by
  have h1 : ∀ q ∈ crossSectionQuants, "RI".toList ∉ q ∧ "POL/DA".toList ∉ q ∧ "DA".toList ∉ q ∧ "NU".toList ∉ q ∧ "DE".toList ∉ q := by
    decide
  have h2 : ∀ q ∈ spectrumQuants, "RI".toList ∉ q ∧ "POL/DA".toList ∉ q ∧ "DA".toList ∉ q ∧ "NU".toList ∉ q ∧ "DE".toList ∉ q := by
    decide
  rcases h with h | h
  · exact h1 q h
  · exact h2 q h

/-- C35: the other quantities, in this order of priority. -/
theorem C35_priority (q : List Str) :
    (kindOf q = .resonanceInt ↔ "RI".toList ∈ q) ∧
    (kindOf q = .analyzingPower ↔ "RI".toList ∉ q ∧ "POL/DA".toList ∈ q) ∧
    (kindOf q = .angular ↔ "RI".toList ∉ q ∧ "POL/DA".toList ∉ q ∧ "DA".toList ∈ q) ∧
    (kindOf q = .nubar ↔ "RI".toList ∉ q ∧ "POL/DA".toList ∉ q ∧ "DA".toList ∉ q ∧ "NU".toList ∈ q) ∧
    (kindOf q = .energyDist ↔ "RI".toList ∉ q ∧ "POL/DA".toList ∉ q ∧ "DA".toList ∉ q ∧ "NU".toList ∉ q ∧ "DE".toList ∈ q) := by
  by_cases h : q ∈ crossSectionQuants ∨ q ∈ spectrumQuants
  · obtain ⟨a, b, c, d, e⟩ := sig_lists h
    have hk : kindOf q = .crossSection ∨ kindOf q = .spectrumAve := by
      rcases h with h | h
      · exact .inl ((C35_cross_section q).2 h)
      · exact .inr ((C35_spectrum_average q).2 h)
    rcases hk with hk | hk <;> (rw [hk]; simp only [reduceCtorEq, false_iff, not_and, a, b, c, d, e]; tauto)
  · push Not at h
    unfold kindOf
    rw [if_neg h.1, if_neg h.2]
    generalize "RI".toList = r
    generalize "POL/DA".toList = p
    generalize "DA".toList = d
    generalize "NU".toList = n
    generalize "DE".toList = e
    split_ifs <;> simp_all

/-- C35: everything else is the generic class. -/
theorem C35_generic (q : List Str) : kindOf q = .generic ↔
    q ∉ crossSectionQuants ∧ q ∉ spectrumQuants ∧
    ∀ x ∈ ["RI".toList, "POL/DA".toList, "DA".toList, "NU".toList, "DE".toList], x ∉ q := by
  unfold kindOf
  simp only [List.forall_mem_cons, List.not_mem_nil, false_implies, implies_true, and_true]
  generalize "RI".toList = r
  generalize "POL/DA".toList = p
  generalize "DA".toList = d
  generalize "NU".toList = n
  generalize "DE".toList = e
  split_ifs <;> simp_all

/-- C35: the flag of a dataset says whether its reaction is a combination (which has no quantity of its own). -/
theorem C35_flag {N : Type} [PyNum N] (rx : RxOps ρ) (kind : DsKind) (ms : List (Option (DsMeta ρ))) (common : List (Option (Nat × DataSection))) (reaction : Option (ρ × Str))
    (monitor : Option (List (Monitor ρ))) (data : Option DataSection) (pointer : Option Char) (d : DataSet ρ N)
    (h : DataSet.build rx kind ms common reaction monitor data pointer = .ok d) : d.coupled = true ↔ ∃ r s, reaction = some (r, s) ∧ rx.quantity r = none := by
  unfold DataSet.build at h
  split at h
  · cases h
  · cases h
    cases reaction with
    | none => simp
    | some r =>
      obtain ⟨r, s⟩ := r
      simp

/-- datasets of both kinds are built -/
example {N : Type} [PyNum N] (rx : RxOps Bool) (h : rx.quantity = fun r => if r then none else some []) (k : DsKind) : ∃ d d' : DataSet Bool N,
    DataSet.build rx k [] [] (some (true, [])) none none none = .ok d ∧ d.coupled = true ∧
    DataSet.build rx k [] [] (some (false, [])) none none none = .ok d' ∧ d'.coupled = false := by
  refine ⟨_, _, rfl, ?_, rfl, ?_⟩ <;> simp [h]

/-- C35: the quantity of a combination is the common quantity of its members; it is rejected
when there is none, with the exception of `str` if the combination cannot be printed. -/
theorem C35_coupled (rx : RxOps ρ) (r : ρ) (hc : rx.quantity r = none) :
    (∀ q, effectiveQuant rx r = .ok q ↔ rx.members r ≠ [] ∧ ∀ x ∈ rx.members r, x = q) ∧
    ((∀ q, ¬ (rx.members r ≠ [] ∧ ∀ x ∈ rx.members r, x = q)) →
      (∀ t, rx.text r = .ok t → effectiveQuant rx r = .error .notImplementedError) ∧
      ∀ x, rx.text r = .error x → effectiveQuant rx r = .error x) := by
  have key : ∀ q, effectiveQuant rx r = .ok q ↔ rx.members r ≠ [] ∧ ∀ x ∈ rx.members r, x = q := by
    intro q
    have hm := C60_mem (rx.members r)
    have hn := C60_nodup (rx.members r)
    unfold effectiveQuant
    rw [hc]
    simp only
    constructor
    · intro h
      split at h
      · rename_i q' hu
        simp only [Except.ok.injEq] at h
        subst h
        rw [hu] at hm
        exact ⟨fun he => by have := (hm q').1 (by simp); simp [he] at this, fun x hx => by simpa using (hm x).2 hx⟩
      · split at h <;> simp at h
    · rintro ⟨hne, hall⟩
      have : unique (rx.members r) = [q] := by
        cases hu : unique (rx.members r) with
        | nil =>
          rw [hu] at hm
          obtain ⟨x, hx⟩ := List.exists_mem_of_ne_nil _ hne
          have := (hm x).2 hx
          simp at this
        | cons a l =>
          rw [hu] at hm hn
          have ha := hall a ((hm a).1 (by simp))
          cases l with
          | nil => rw [ha]
          | cons b l =>
            have hb := hall b ((hm b).1 (by simp))
            rw [ha, hb] at hn
            simp at hn
      rw [this]
  refine ⟨key, fun h => ?_⟩
  have hu : ∀ q, unique (rx.members r) ≠ [q] := by
    intro q hq
    refine h q ((key q).1 ?_)
    unfold effectiveQuant
    rw [hc]
    simp only [hq]
  constructor
  · intro t ht
    unfold effectiveQuant
    rw [hc]
    simp only [ht]
  · intro x hx
    unfold effectiveQuant
    rw [hc]
    simp only [hx]

/-- C35: what the factory returns is of the class chosen for the quantity, and refers to the
given reaction, monitor and metadata. -/
theorem C35_factory [PyNum N] (rx : RxOps ρ) (ms : List (Option (DsMeta ρ))) (common : List (Option (Nat × DataSection)))
    (r : ρ × Str) (mon : Option (List (Monitor ρ))) (d : DataSection) (p : Option Char) (ds : DataSet ρ N)
    (h : dataSetFactory rx ms common r mon d p = .ok ds) :
    ∃ q, effectiveQuant rx r.1 = .ok q ∧ (∀ q', rx.quantity r.1 = some q' → q = q') ∧ ds.kind = kindOf q ∧
      ds.reaction = some r ∧ ds.monitor = mon ∧ ds.simplified = false ∧ setData d common p = .ok ds.table := by
  unfold dataSetFactory at h
  split at h
  · simp at h
  · rename_i q hq
    refine ⟨q, hq, ?_, ?_⟩
    · intro q' hq'
      unfold effectiveQuant at hq
      rw [hq'] at hq
      simpa using hq.symm
    · unfold DataSet.build at h
      simp only at h
      split at h
      · simp at h
      · rename_i t ht
        simp only [Except.ok.injEq] at h
        subst h
        exact ⟨rfl, rfl, rfl, rfl, ht⟩

/-- measurements given by their quantity (`none`: coupled, with the listed members) -/
def demoRx : RxOps (Option (List Str) × List (List Str)) := ⟨Prod.fst, Prod.snd, fun r => .ok (r.1.getD []).flatten⟩

example : kindOf ["SIG".toList, "AV".toList] = .crossSection ∧ kindOf ["PAR".toList, "DA".toList, "DE".toList] = .angular ∧
    kindOf ["DA".toList, "RI".toList] = .resonanceInt ∧ kindOf ["KER".toList] = .generic ∧
    kindOf ["SIG".toList, "SFC".toList] = .spectrumAve := by decide
example : effectiveQuant demoRx (none, [["SIG".toList], ["SIG".toList]]) = .ok ["SIG".toList] ∧
    effectiveQuant demoRx (none, [["SIG".toList], ["DA".toList]]) = .error .notImplementedError := by decide
example [PyNum N] : ∃ ds : DataSet _ N, dataSetFactory demoRx [none, none] (numbered (some demoC) none)
    (((some ["DA".toList], [])), []) none demoD (some '1') = .ok ds := ⟨_, rfl⟩

/-! ### C36 -/

/-- two datasets may be joined: same labels, units and reaction text -/
def Compatible (rx : RxOps ρ) (d o : DataSet ρ N) : Prop :=
  d.labels = o.labels ∧ d.units = o.units ∧
    ∃ r r' t, d.reaction = some r ∧ o.reaction = some r' ∧ rx.text r.1 = .ok t ∧ rx.text r'.1 = .ok t

/-- a dataset without columns and rows -/
def Blank (d : DataSet ρ N) : Prop := d.labels = [] ∧ d.units = [] ∧ d.data = []

/-- C36: an empty receiver takes everything from the argument but its metadata and class. -/
theorem C36_blank [PyNum N] [DecidableEq ρ] (rx : RxOps ρ) (d o : DataSet ρ N) (h : Blank d) :
    ∃ d', d.append rx o = .ok d' ∧ d'.table = o.table ∧ d'.reaction = o.reaction ∧ d'.monitor = o.monitor ∧
      d'.simplified = o.simplified ∧ d'.info = d.info ∧ d'.kind = d.kind := by
  obtain ⟨a, b, c⟩ := h
  refine ⟨DataSet.mk d.kind d.info o.reaction o.monitor d.coupled o.labels o.units o.data o.simplified d.frame, ?_, rfl, rfl, rfl, rfl, rfl, rfl⟩
  unfold DataSet.append
  rw [if_pos ⟨a, b, c⟩]

/-- C36: the rows of a compatible dataset are added after those of the receiver; nothing else
changes. -/
theorem C36_compatible [PyNum N] [DecidableEq ρ] (rx : RxOps ρ) (d o : DataSet ρ N) (hb : ¬ Blank d) (h : Compatible rx d o) :
    d.append rx o = .ok { d with data := d.data ++ o.data } := by
  obtain ⟨h1, h2, r, r', t, h3, h4, h5, h6⟩ := h
  unfold DataSet.append
  rw [if_neg (show ¬ (_ ∧ _ ∧ _) from hb), if_pos ⟨h1, h2⟩]
  simp [reactionText, h3, h4, h5, h6]

/-- C36: with an incompatible dataset the receiver stays as it is, unless a reaction is missing or cannot be printed:
then it either stays as it is or the exception is a `TypeError` or that of `str`. -/
theorem C36_incompatible [PyNum N] [DecidableEq ρ] (rx : RxOps ρ) (d o : DataSet ρ N) (hb : ¬ Blank d) (h : ¬ Compatible rx d o) :
    d.append rx o = .ok d ∨ (d.append rx o = .error .typeError ∧ (d.reaction = none ∨ o.reaction = none)) ∨
      ∃ r x, (d.reaction = some r ∨ o.reaction = some r) ∧ rx.text r.1 = .error x ∧ d.append rx o = .error x := by
  unfold DataSet.append
  rw [if_neg (show ¬ (d.labels = [] ∧ d.units = [] ∧ d.data = []) from hb)]
  unfold Compatible at h
  unfold reactionText
  cases hd : d.reaction with
  | none => split_ifs <;> simp
  | some r =>
    cases ht : rx.text r.1 with
    | error x =>
      split_ifs
      · exact .inr (.inr ⟨r, x, .inl rfl, ht, by simp [ht]⟩)
      · exact .inr (.inr ⟨r, x, .inl rfl, ht, by simp [ht]⟩)
      · exact .inl rfl
    | ok t =>
      cases ho : o.reaction with
      | none => split_ifs <;> simp [ht]
      | some r' =>
        rw [hd, ho] at h
        cases ht' : rx.text r'.1 with
        | error x =>
          split_ifs
          · exact .inr (.inr ⟨r', x, .inr rfl, ht', by simp [ht, ht']⟩)
          · exact .inr (.inr ⟨r', x, .inr rfl, ht', by simp [ht, ht']⟩)
          · exact .inl rfl
        | ok t' =>
          split_ifs with h1 h2
          · simp only [ht, ht']
            rw [if_neg]
            · simp
            · rintro rfl
              exact h ⟨h1.1, h1.2, r, r', t, rfl, rfl, ht, ht'⟩
          · simp [ht, ht']
          · simp

/-- appending several datasets in turn -/
def appendAll [PyNum N] [DecidableEq ρ] (rx : RxOps ρ) (d : DataSet ρ N) (os : List (DataSet ρ N)) : Except PyErr (DataSet ρ N) :=
  foldE (DataSet.append rx) d os

open Classical in
/-- C36: appending several datasets with reactions to a non-empty dataset with a reaction gives
the rows of the compatible ones in order, if the reactions can be printed. -/
theorem C36_sequence [PyNum N] [DecidableEq ρ] (rx : RxOps ρ) (d : DataSet ρ N) (os : List (DataSet ρ N)) (hb : ¬ Blank d)
    (hr : ∃ r t, d.reaction = some r ∧ rx.text r.1 = .ok t) (ho : ∀ o ∈ os, ∃ r t, o.reaction = some r ∧ rx.text r.1 = .ok t) :
    appendAll rx d os = .ok { d with data := d.data ++ (os.filter fun o => decide (Compatible rx d o)).flatMap DataSet.data } := by
  induction os generalizing d with
  | nil => simp [appendAll, foldE]
  | cons o os ih =>
    unfold appendAll at ih ⊢
    rw [foldE]
    by_cases hc : Compatible rx d o
    · rw [C36_compatible rx d o hb hc]
      simp only
      have hb' : ¬ Blank { d with data := d.data ++ o.data } := fun ⟨a, b, c⟩ => hb ⟨a, b, (List.append_eq_nil_iff.1 c).1⟩
      rw [ih _ hb' hr (fun o h => ho o (by simp [h]))]
      have : ∀ x, Compatible rx { d with data := d.data ++ o.data } x ↔ Compatible rx d x := fun x => Iff.rfl
      simp [this, hc]
    · obtain ⟨r, t, hr1, hr2⟩ := hr
      obtain ⟨r', t', hr1', hr2'⟩ := ho o (by simp)
      rcases C36_incompatible rx d o hb hc with h | ⟨_, h | h⟩ | ⟨y, x, hy | hy, hx, -⟩
      · rw [h]
        simp only
        rw [ih _ hb ⟨r, t, hr1, hr2⟩ (fun o h => ho o (by simp [h]))]
        simp [hc]
      · rw [hr1] at h; cases h
      · rw [hr1'] at h; cases h
      · rw [hr1] at hy; cases hy; rw [hr2] at hx; cases hx
      · rw [hr1'] at hy; cases hy; rw [hr2'] at hx; cases hx

/-- C36: a missing reaction makes `append` fail with `TypeError` although labels and units agree. -/
theorem C36_no_reaction_refuted [PyNum N] [DecidableEq ρ] (rx : RxOps ρ) (d o : DataSet ρ N) (hb : ¬ Blank d)
    (hl : d.labels = o.labels) (hu : d.units = o.units) (hr : d.reaction = none) : d.append rx o = .error .typeError := by
  unfold DataSet.append
  rw [if_neg (show ¬ (_ ∧ _ ∧ _) from hb), if_pos ⟨hl, hu⟩]
  simp [reactionText, hr]

/-- C36: and so does a reaction that cannot be printed, with the exception of `str`. -/
theorem C36_unprintable_refuted [PyNum N] [DecidableEq ρ] (rx : RxOps ρ) (d o : DataSet ρ N) (hb : ¬ Blank d)
    (hl : d.labels = o.labels) (hu : d.units = o.units) (r : ρ × Str) (hr : d.reaction = some r) (x : PyErr) (hx : rx.text r.1 = .error x) :
    d.append rx o = .error x := by
  unfold DataSet.append
  rw [if_neg (show ¬ (_ ∧ _ ∧ _) from hb), if_pos ⟨hl, hu⟩]
  simp [reactionText, hr, hx]

/-- One round of `for row in self.data: self.data.append(copy.copy(row))`, exfor_dataset.py:258-259
with `other` the receiver itself: list iterators look at the current length. State: position of
the iterator, the list; `none` when the loop ends. -/
def selfAppendStep {α} (st : Nat × List α) : Option (Nat × List α) :=
  match st.2[st.1]? with
  | none => none
  | some row => some (st.1 + 1, st.2 ++ [row])

/-- C36: appending a dataset with rows to itself never ends (`DataSet.append` is for two distinct
objects): after any number of rounds the loop still goes on. -/
theorem C36_self_refuted {α} (rows : List α) (h : rows ≠ []) (n : Nat) :
    ∃ st, (fun o => o.bind selfAppendStep)^[n] (some (0, rows)) = some st ∧ st.2.length = rows.length + n := by
  have key : ∃ st, (fun o => o.bind selfAppendStep)^[n] (some (0, rows)) = some st ∧ st.1 = n ∧ st.2.length = rows.length + n := by
    induction n with
    | zero => exact ⟨_, rfl, rfl, rfl⟩
    | succ n ih =>
      obtain ⟨st, h1, h2, h3⟩ := ih
      rw [Function.iterate_succ_apply', h1]
      have hl : st.1 < st.2.length := by
        have := List.length_pos_iff.2 h
        omega
      refine ⟨(st.1 + 1, st.2 ++ [st.2[st.1]]), ?_, ?_, ?_⟩
      · simp [selfAppendStep, List.getElem?_eq_getElem hl]
      · simp [h2]
      · simp [h3]; omega
  obtain ⟨st, h1, -, h3⟩ := key
  exact ⟨st, h1, h3⟩

def demoDS [PyNum N] (labels : List Str) (r : Option (List Str)) : DataSet (Option (List Str) × List (List Str)) N :=
  { kind := .generic, info := {}, reaction := r.map fun q => ((some q, []), []), monitor := none, coupled := false,
    labels := labels, units := labels.map fun _ => none, data := [labels.map fun _ => some PyNum.zero] }

example [PyNum N] : ∃ d, appendAll (N := N) demoRx (demoDS ["EN".toList] (some ["DA".toList]))
    [demoDS ["EN".toList] (some ["DA".toList]), demoDS ["E".toList] (some ["DA".toList]), demoDS ["EN".toList] (some ["NU".toList])] = .ok d ∧
    d.data.length = 2 := ⟨_, rfl, rfl⟩
example [PyNum N] : ¬ Blank (demoDS (N := N) ["EN".toList] none) := by simp [Blank, demoDS]

end X4
