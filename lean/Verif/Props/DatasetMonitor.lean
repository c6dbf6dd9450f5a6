import Verif.Props.EntrySets
import Verif.Props.MonitorText
/-! C86, C98: the monitors of datasets. -/
namespace X4
variable {ρ N : Type} [PyNum N]

theorem SubEntry.info_monitors {s : SubEntry ρ} {a : Str} {i : SubInfo ρ × SubEntry ρ} (h : s.info a = .ok i) :
    (s.bib = none ∧ i.1.monitors = []) ∨ ∃ b, s.bib = some b ∧ b.monitors = .ok i.1.monitors := by
  unfold SubEntry.info at h
  cases hb : s.bib with
  | none =>
    rw [hb] at h
    simp only [Except.ok.injEq] at h
    subst h
    exact .inl ⟨rfl, rfl⟩
  | some b =>
    right
    rw [hb] at h
    simp only at h
    split at h
    · simp at h
    · rename_i m hm
      split at h
      · simp at h
      · split at h
        · simp at h
        · rename_i mon hmon
          simp only [Except.ok.injEq] at h
          subst h
          refine ⟨b, rfl, ?_⟩
          rw [← hmon, (BibSection.meta_snd hm).2.2]

/-- the monitors of a subentry that was read -/
theorem doc_monitors {P : FieldParsers ρ} {s : SubDoc} (hw : s.wf) {S : SubEntry ρ} (hS : SubHolds P s S) {a : Str} {i : SubInfo ρ × SubEntry ρ}
    (hi : S.info a = .ok i) :
    ((∀ f ∈ s.bib, f.tag ≠ chars!"MONITOR") → i.1.monitors = []) ∧
    ∀ f ∈ s.bib, f.tag = chars!"MONITOR" → ∃ pf, buildField P (some chars!"MONITOR") f.lines = .ok (.monitor pf i.1.monitors) := by
  obtain ⟨b, hb1, hb2⟩ := hS.bib
  have hbS : S.bib = some b := by unfold SubEntry.bib; rw [hb1]
  have hbr : b.monitors = .ok i.1.monitors := by
    rcases SubEntry.info_monitors hi with ⟨h0, -⟩ | ⟨b', hb', hbr⟩
    · rw [hbS] at h0; cases h0
    · rw [hbS] at hb'
      cases hb'
      exact hbr
  constructor
  · intro hno
    have h0 : b.fields.get? (some "MONITOR".toList) = none := forall₂_get_none (k := fun f : FieldDoc => some f.tag)
      (Q := fun f v => buildField P (some f.tag) f.lines = .ok v) hb2.fields (fun f hf' he => hno f hf' (Option.some.inj he))
    unfold BibSection.monitors at hbr
    rw [h0] at hbr
    exact (Except.ok.inj hbr).symm
  · intro f hmem htag
    have hndt : (s.bib.map fun f => some f.tag).Nodup := by
      have := (List.nodup_map_iff (Option.some_injective Str)).2 hw.tags
      rwa [List.map_map] at this
    obtain ⟨v, hv, hv2⟩ := forall₂_get (k := fun f : FieldDoc => some f.tag) (Q := fun f v => buildField P (some f.tag) f.lines = .ok v) hb2.fields hndt hmem
    simp only [htag] at hv hv2
    unfold BibSection.monitors at hbr
    rw [show some "MONITOR".toList = some chars!"MONITOR" from rfl, hv] at hbr
    cases v with
    | monitor pf ms =>
      simp only [Except.ok.injEq] at hbr
      subst hbr
      exact ⟨pf, hv2⟩
    | _ => simp at hbr

/-- the reaction and the monitors a dataset has: those under its pointer in one subentry -/
structure TakenFrom (P : FieldParsers ρ) (x : SubDoc) (p : Char) (d : DataSet ρ N) : Prop where
  reaction : x.reactionText p ≠ [] ∧ ∃ r, P.reaction (joinWith [' '] ((x.reactionText p).map strip)) = .ok r ∧ d.reaction = some r
  without : (∀ f ∈ x.bib, f.tag ≠ chars!"MONITOR") → d.monitor = none
  monitor : ∀ f ∈ x.bib, f.tag = chars!"MONITOR" →
    ∃ pf ms, buildField P (some chars!"MONITOR") f.lines = .ok (.monitor pf ms) ∧ d.monitor = ms.get? p

theorem takenFrom_attempt {P : FieldParsers ρ} {rx : RxOps ρ} {x : SubDoc} (hw : x.wf) {S : SubEntry ρ} (hS : SubHolds P x S) {a : Str}
    {i : SubInfo ρ × SubEntry ρ} (hi : S.info a = .ok i) {ms : List (Option (DsMeta ρ))} {common : List (Option (Nat × DataSection))} {data : DataSection}
    {p : Char} {d : DataSet ρ N} (h : okPart (attempt rx ms common data i.1 p) = some d) : TakenFrom P x p d := by
  unfold attempt at h
  cases hr : i.1.reactions.get? p with
  | none => rw [hr] at h; cases h
  | some r =>
    rw [hr, Option.map_some] at h
    have hf : dataSetFactory rx ms common r (i.1.monitors.get? p) data (some p) = .ok d := by
      cases hx : dataSetFactory (N := N) rx ms common r (i.1.monitors.get? p) data (some p) with
      | error y => rw [hx] at h; cases h
      | ok y => rw [hx] at h; cases h; rfl
    obtain ⟨-, -, -, -, h1, h2, -⟩ := C35_factory rx _ _ _ _ _ _ _ hf
    obtain ⟨g1, g2⟩ := doc_reactions hw hS hi p
    obtain ⟨m1, m2⟩ := doc_monitors hw hS hi
    have ht : x.reactionText p ≠ [] := fun h0 => by rw [g1 h0] at hr; cases hr
    refine ⟨⟨ht, ?_⟩, fun hno => by rw [h2, m1 hno]; rfl, fun f hf htag => ?_⟩
    · obtain ⟨r', e1, e2⟩ := g2 ht
      rw [hr] at e2
      cases e2
      exact ⟨r, e1, h1⟩
    · obtain ⟨pf, e⟩ := m2 f hf htag
      exact ⟨pf, _, e, h2⟩

/-- C86: every dataset of a written entry has the reaction that stands under its pointer in its own subentry, and the monitors that stand
under this pointer in the MONITOR field of the same subentry (none, if there is no such field). If there is no such reaction, or if no
quantity can be given for it, reaction and monitors are both those of the first subentry: they are never mixed. -/
theorem C86_monitors (P : FieldParsers ρ) (rx : RxOps ρ) (D : EntryDoc) (h : D.wf) (hr : ∀ s ∈ D.subs, s.Readable P) (subents : Option (List Str))
    (m : SubDoc) (hm : m ∈ D.subs) (hma : m.acc = D.acc ++ "001".toList) (hmr : requested subents m.acc) :
    ∃ e : Entry ρ, Entry.build P (splitEntryFile subents D.file) = .ok e ∧
      ∀ st : DsState ρ N, e.getDataSets rx [] = .ok st → ∀ s ∈ D.subs, ∀ p d, st.datasets.get? (D.acc, some s.acc, p) = some d →
        TakenFrom P s p d ∨
        TakenFrom P m p d ∧ ∀ r, s.reactionText p ≠ [] → P.reaction (joinWith [' '] ((s.reactionText p).map strip)) = .ok r → ∀ q, effectiveQuant rx r.1 ≠ .ok q := by
  obtain ⟨e, he, hold⟩ := C85_read P D h subents hr ⟨m, hm, hmr⟩
  refine ⟨e, he, fun st hst s hs p d hd => ?_⟩
  have hmf : m ∈ D.subs.filter fun s => requested subents s.acc := List.mem_filter.2 ⟨hm, hmr⟩
  obtain ⟨-, s', hs', hss, -⟩ := doc_only P rx D h _ List.filter_sublist _ e he hold m hmf hma st hst _ _ p d hd
  have hs0 := (List.mem_filter.1 hs').1
  have : s = s' := List.inj_on_of_nodup_map h.distinct hs hs0 (Option.some.inj hss)
  subst this
  obtain ⟨M, main, hMh, hmain, -, hgets, hval⟩ := doc_values (N := N) P rx D h _ List.filter_sublist _ e he hold m hmf hma st hst
  obtain ⟨S, hS, hSh⟩ := hgets s hs'
  rw [hval, if_pos hold.accnum.symm, goodOf] at hd
  cases hdi : e.dataOf (some s.acc) with
  | none => rw [hdi] at hd; cases hd
  | some di =>
    rw [hdi] at hd
    simp only at hd
    obtain ⟨i, hi, hi2⟩ : ∃ i, S.info (S.accnum.getD "None".toList) = .ok i ∧ i.1 = di.2 := by
      unfold Entry.dataOf at hdi
      rw [hS] at hdi
      simp only at hdi
      split at hdi
      · cases hdi
      · split at hdi
        · cases hdi
        · cases hdi; exact ⟨_, by assumption, rfl⟩
    unfold ownAttempt mainAttempt at hd
    rw [← hi2] at hd
    cases hown : okPart (attempt (N := N) rx [main.1.info, i.1.info] (commonList e.mainKey (some s.acc) main.1.common i.1.common) di.1 i.1 p) with
    | some d' =>
      rw [hown, Option.some_or] at hd
      cases hd
      exact .inl (takenFrom_attempt (h.subs s hs).1 hSh hi hown)
    | none =>
      rw [hown, Option.none_or] at hd
      refine .inr ⟨takenFrom_attempt (h.subs m hm).1 hMh hmain hd, fun r ht hrx q hq => ?_⟩
      obtain ⟨r', e1, e2⟩ := (doc_reactions (h.subs s hs).1 hSh hi p).2 ht
      rw [hrx] at e1
      cases e1
      unfold attempt at hown hd
      rw [e2, Option.map_some] at hown
      cases hr2 : main.1.reactions.get? p with
      | none => rw [hr2] at hd; cases hd
      | some r2 =>
        rw [hr2, Option.map_some] at hd
        unfold dataSetFactory at hown hd
        rw [hq] at hown
        unfold DataSet.build at hown hd
        simp only at hown hd
        cases htab : setData (N := N) di.1 (commonList e.mainKey (some s.acc) main.1.common i.1.common) (some p) with
        | ok t => rw [htab] at hown; cases hown
        | error y =>
          rw [htab] at hd
          cases hq2 : effectiveQuant rx r2.1 with
          | error z => rw [hq2] at hd; cases hd
          | ok z => rw [hq2] at hd; cases hd

/-- C98: the monitors of a dataset, as they are written in the MONITOR field of the subentry with its reaction. -/
theorem C98_dataset {P : FieldParsers ρ} {x : SubDoc} {p : Char} {d : DataSet ρ N} (hd : TakenFrom P x p d)
    (f : FieldDoc) (hf : f ∈ x.bib) (ht : f.tag = chars!"MONITOR") (pf : PlainField) (hpf : PlainField.build f.lines = .ok pf)
    (intro : Char → List Str) (es : Char → List MonEntry) (hw : MonitorLines f.lines intro es)
    (ms : Char → List (Monitor ρ)) (hms : ∀ p, List.Forall₂ (fun m v => m.read P.reaction = .ok v) (es p) (ms p)) :
    d.monitor = if textUnder f.lines p = [] then none else some (introMonitor (intro p) ++ ms p) := by
  obtain ⟨pf', ds, h1, h2⟩ := hd.monitor f hf ht
  obtain ⟨ds', h3, h4⟩ := C98_field P f.lines pf hpf intro es hw ms hms
  rw [h1] at h3
  cases h3
  rw [h2, h4]

/-! ### an entry with monitors in both subentries -/

def monMain : SubDoc where
  acc := chars!"10001001"
  bib := [⟨chars!"REACTION", ('2', chars!"(95-AM-241(N,G),,SIG)"), []⟩, ⟨chars!"MONITOR", ('1', chars!"(1-H-1(N,TOT),,SIG) first"), [('2', chars!"(1-H-1(N,TOT),,SIG) second")]⟩]
  common := none
  data := none
def monSub : SubDoc where
  acc := chars!"10001002"
  bib := [⟨chars!"REACTION", ('1', chars!"(95-AM-241(N,G)95-AM-242-M,,SIG) isomer"), []⟩, ⟨chars!"MONITOR", ('1', chars!"((MONIT1)1-H-1(N,EL)1-H-1,,SIG) own"), []⟩]
  common := none
  data := docSub.data
def monDoc : EntryDoc := ⟨chars!"10001", [monMain, monSub]⟩

theorem monDoc_wf : monDoc.wf := by
  refine ⟨by decide, by decide, ?_, by decide⟩
  intro s hs
  simp only [monDoc, List.mem_cons, List.not_mem_nil, or_false] at hs
  rcases hs with rfl | rfl
  · refine ⟨⟨by decide, by decide, ?_, by decide, ?_, ?_⟩, by decide⟩
    · intro f hf
      simp only [monMain, List.mem_cons, List.not_mem_nil, or_false] at hf
      rcases hf with rfl | rfl <;> exact ⟨by decide, by decide, by decide⟩
    · intro t ht
      cases ht
    · intro t ht
      cases ht
  · refine ⟨⟨by decide, by decide, ?_, by decide, ?_, ?_⟩, by decide⟩
    · intro f hf
      simp only [monSub, List.mem_cons, List.not_mem_nil, or_false] at hf
      rcases hf with rfl | rfl <;> exact ⟨by decide, by decide, by decide⟩
    · intro t ht
      cases ht
    · intro t ht
      cases ht
      exact ⟨by decide, by decide, by decide, by decide, by decide, by decide, by decide⟩

theorem monDoc_readable : ∀ s ∈ monDoc.subs, s.Readable (x4Parsers metaDicts) := by
  intro s hs
  have key : (∀ s ∈ monDoc.subs, ∀ f ∈ s.bib, okB (buildField (x4Parsers metaDicts) (some f.tag) f.lines) = true) ∧
    (∀ s ∈ monDoc.subs, ∀ t ∈ s.common.toList ++ s.data.toList, ∀ r ∈ t.rows, ∀ c ∈ r, okB (parseFORTRANNumber c) = true) := by decide +kernel
  refine ⟨fun f hf => okB_iff (key.1 s hs f hf), fun t ht r hr c hc => okB_iff (key.2 s hs t ?_ r hr c hc), fun t ht r hr c hc => okB_iff (key.2 s hs t ?_ r hr c hc)⟩
  · rw [Option.mem_def] at ht; simp [ht]
  · rw [Option.mem_def] at ht; simp [ht]

theorem monDoc_printable {rxd : RxDicts} : monDoc.Printable (x4Parsers metaDicts) (x4RxOps rxd) := by
  intro s hs p r hp hr hq
  have key : ∀ s ∈ monDoc.subs, ∀ p, s.reactionText p ≠ [] → p = '1' ∨ p = '2' := by
    intro s hs p hp
    have key1 : ∀ s ∈ monDoc.subs, ∀ f ∈ s.bib, f.tag = chars!"REACTION" →
        ∀ q ∈ (List.range f.lines.length).map fun k => pointerInForce (f.lines.take (k + 1)), q = '1' ∨ q = '2' := by decide +kernel
    unfold SubDoc.reactionText at hp
    cases hf : s.bib.find? fun f => decide (f.tag = chars!"REACTION") with
    | none => rw [hf] at hp; exact absurd rfl hp
    | some f =>
      rw [hf] at hp
      exact key1 s hs f (List.mem_of_find?_eq_some hf) (by simpa using List.find?_some hf) p (textUnder_pointer hp)
  have key2 : ∀ s ∈ monDoc.subs, ∀ p ∈ ['1', '2'], isSingle ((x4Parsers metaDicts).reaction (joinWith [' '] ((s.reactionText p).map strip))) = true := by decide +kernel
  have := key2 s hs p (by simpa using key s hs p hp)
  rw [hr] at this
  obtain ⟨m, t⟩ := r
  cases m <;> simp_all [isSingle, x4RxOps]

/-- texts and headings of the monitors under a pointer -/
def monitorTexts (p : Char) : Except PyErr (BibField Measurement) → Option (List (Str × Option Str))
  | .ok (.monitor _ ms) => (ms.get? p).map fun l => l.map fun m => (m.text, m.heading)
  | _ => none

/-- The dataset with a reaction of its own has its own monitor, that with the reaction of the first subentry the monitor given there. -/
example (rxd : RxDicts) : ∃ (e : Entry Measurement) (st : DsState Measurement N), Entry.build (x4Parsers metaDicts) (splitEntryFile none monDoc.file) = .ok e ∧
    e.getDataSets (x4RxOps rxd) [] = .ok st ∧ ∀ pt ∈ [('1', chars!"own", some chars!"MONIT1"), ('2', chars!"second", none)],
      ∀ d, st.datasets.get? (monDoc.acc, some monSub.acc, pt.1) = some d → (d.monitor.map fun l => l.map fun m => (m.text, m.heading)) = some [pt.2] := by
  obtain ⟨e, he, hall⟩ := C86_monitors (N := N) (x4Parsers metaDicts) (x4RxOps rxd) monDoc monDoc_wf monDoc_readable none monMain (by simp [monDoc]) (by decide) rfl
  obtain ⟨e', he', hret, -⟩ := C86_only (N := N) (x4Parsers metaDicts) (x4RxOps rxd) monDoc monDoc_wf monDoc_readable none monMain (by simp [monDoc]) (by decide) rfl
  rw [he] at he'
  cases he'
  obtain ⟨st, hst⟩ := hret monDoc_printable
  refine ⟨e, st, he, hst, fun pt hpt d hd => ?_⟩
  have hno : monMain.reactionText '1' = [] ∧ monSub.reactionText '2' = [] := by decide +kernel
  have htx : monitorTexts '1' (buildField (x4Parsers metaDicts) (some chars!"MONITOR") (monSub.bib[1]).lines) = some [(chars!"own", some chars!"MONIT1")] ∧
      monitorTexts '2' (buildField (x4Parsers metaDicts) (some chars!"MONITOR") (monMain.bib[1]).lines) = some [(chars!"second", none)] := by decide +kernel
  have hx := hall st hst monSub (by simp [monDoc]) pt.1 d hd
  simp only [List.mem_cons, List.not_mem_nil, or_false] at hpt
  rcases hpt with rfl | rfl
  · rcases hx with hx | ⟨hx, -⟩
    · obtain ⟨pf, ms, h1, h2⟩ := hx.monitor (monSub.bib[1]) (List.getElem_mem _) rfl
      have := htx.1
      rw [h1] at this
      rw [h2]
      exact this
    · exact absurd hno.1 hx.reaction.1
  · rcases hx with hx | ⟨hx, -⟩
    · exact absurd hno.2 hx.reaction.1
    · obtain ⟨pf, ms, h1, h2⟩ := hx.monitor (monMain.bib[1]) (List.getElem_mem _) rfl
      have := htx.2
      rw [h1] at this
      rw [h2]
      exact this

/-- Both datasets exist. -/
example (rxd : RxDicts) : ∀ p ∈ ['1', '2'], ∃ (e : Entry Measurement) (st : DsState Measurement N) (d : DataSet Measurement N),
    Entry.build (x4Parsers metaDicts) (splitEntryFile none monDoc.file) = .ok e ∧
    e.getDataSets (x4RxOps rxd) [] = .ok st ∧ st.datasets.get? (monDoc.acc, some monSub.acc, p) = some d := by
  intro p hp
  have hne : docReaction monMain monSub p ≠ [] := by revert p; decide +kernel
  have hok : okB ((x4Parsers metaDicts).reaction (joinWith [' '] ((docReaction monMain monSub p).map strip))) = true ∧
      isSingle ((x4Parsers metaDicts).reaction (joinWith [' '] ((docReaction monMain monSub p).map strip))) = true := by
    clear hne; revert p; decide +kernel
  obtain ⟨r, hrx⟩ := okB_iff hok.1
  have hq : ∃ q, effectiveQuant (x4RxOps rxd) r.1 = .ok q := by
    have := hok.2
    rw [hrx] at this
    obtain ⟨m, t⟩ := r
    cases m with
    | rx R => exact ⟨_, rfl⟩
    | _ => cases this
  obtain ⟨q, hq⟩ := hq
  obtain ⟨e, st, d, h1, h2, h3, -⟩ := C86_dataset_partial (N := N) (x4Parsers metaDicts) (x4RxOps rxd) monDoc monDoc_wf monDoc_printable monDoc_readable none
    monMain monSub (by simp [monDoc]) (by decide) rfl (by simp [monDoc]) (by decide) rfl _ rfl (by decide) p
    (fun t ht => by cases ht) (fun t ht => by cases ht) hne r hrx q hq
  exact ⟨e, st, d, h1, h2, h3⟩

end X4
