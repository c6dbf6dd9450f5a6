import Verif.Spec.Spectrum
import Verif.Props.Simple
/-! Simplified datasets of spectrum-averaged cross sections: temperatures in MeV, or energies where there is no temperature. -/
namespace X4

abbrev RowFn := (List (Option ℝ) → Option ℝ)
abbrev nothing : RowFn × RowFn := (fun _ => none, fun _ => none)

theorem forall_append {t : Table ℝ} {un : Str} {ps ps' : List Pair} {ves ves' : List (RowFn × RowFn)} (h : List.Forall₂ (fun p ve => PairGives t p un ve.1 ve.2) ps ves)
    (h' : List.Forall₂ (fun p ve => PairGives t p un ve.1 ve.2) ps' ves') : List.Forall₂ (fun p (ve : RowFn × RowFn) => PairGives t p un ve.1 ve.2) (ps ++ ps') (ves ++ ves') := by
  induction h with
  | nil => exact h'
  | cons a _ ih => exact .cons a ih

theorem firstSome_nones {α : Type} {l l' : List (Option α)} (h : ∀ x ∈ l, x = none) : firstSome (l ++ l') = firstSome l' := by
  induction l with
  | nil => rfl
  | cons a l ih =>
    rw [h a (List.mem_cons_self ..)]
    exact ih fun x hx => h x (List.mem_cons_of_mem _ hx)

theorem firstSome_agree {α : Type} {l l' : List (Option α)} {a : α} (h : ∀ x ∈ l, x = none ∨ x = some a) (h' : firstSome l' = some a) : firstSome (l ++ l') = some a := by
  induction l with
  | nil => exact h'
  | cons b l ih =>
    rcases h b (List.mem_cons_self ..) with rfl | rfl
    · exact ih fun x hx => h x (List.mem_cons_of_mem _ hx)
    · rfl

/-- parsers that give nothing may stand before others -/
theorem ListGives.after {t : Table ℝ} {ps ps' : List Pair} {un : Str} {V E : RowFn} (h : ∀ p ∈ ps, PairGives t p un (fun _ => none) (fun _ => none))
    (h' : ListGives t ps' un V E) : ListGives t (ps ++ ps') un V E := by
  refine ⟨⟨?_, ?_⟩, ?_, ?_, ?_, ?_⟩
  · have := h'.reads.1; simp [this]
  · intro p hp
    rcases List.mem_append.1 hp with hp | hp
    · exact (h p hp).ok
    · exact h'.reads.2 p hp
  · intro r row hr
    rw [← h'.val r row hr, colVal, List.map_append, firstSome_nones]
    · rfl
    · intro x hx
      obtain ⟨p, hp, rfl⟩ := List.mem_map.1 hx
      exact (h p hp).val r row hr
  · intro r row hr
    rw [← h'.err r row hr, colErr, List.map_append, firstSome_nones]
    · rfl
    · intro x hx
      obtain ⟨p, hp, rfl⟩ := List.mem_map.1 hx
      exact (h p hp).err r row hr
  · intro hs
    rw [colUnit, List.map_append]
    refine firstSome_agree (fun x hx => ?_) (h'.vsome hs)
    obtain ⟨p, hp, rfl⟩ := List.mem_map.1 hx
    exact (h p hp).vunit
  · intro hs
    rw [errUnit, List.map_append]
    refine firstSome_agree (fun x hx => ?_) (h'.esome hs)
    obtain ⟨p, hp, rfl⟩ := List.mem_map.1 hx
    exact (h p hp).eunit

theorem en_labels : (∀ x ∈ labelsOf ["EN"] variableSuffix, x ∈ valueHeads "EN".toList ++ ["MOM".toList]) ∧ (∀ x ∈ valueHeads "EN".toList, x ∈ labelsOf ["EN"] variableSuffix) ∧
    (∀ x ∈ labelsOf ["EN"] variableSuffix ++ baseMomKeys, x ∈ valueHeads "EN".toList ++ ["MOM".toList]) ∧
    (∀ ls ∈ [labelsOf ["EN"] errorSuffix, labelsOf ["EN"] resolutionFWSuffix, labelsOf ["EN"] resolutionHWSuffix, ["EN-MIN".toList], ["EN-MAX".toList], ["-EN-ERR".toList], ["+EN-ERR".toList]], ∀ x ∈ ls, x ∈
      ["EN-ERR", "EN-RSL-HW", "EN-MIN", "EN-MAX", "-EN-ERR", "+EN-ERR", "EN-RES", "EN-RSL", "EN-RSL-FW"].map String.toList) := by decide

/-- the parsers of energies, when they stand besides the temperatures -/
theorem beside_gives {t : Table ℝ} (hr : t.Rect) {en : Option (Nat × Str)} (h : EnergyBeside t en) :
    List.Forall₂ (fun p (ve : RowFn × RowFn) => PairGives t p "MeV".toList ve.1 ve.2) incidentEnergyParserList
      [nothing, nothing, nothing, nothing, nothing, (energyBeside en, fun _ => none)] := by
  obtain ⟨a1, a2, a3, a4⟩ := en_labels
  obtain ⟨h, hn⟩ := h
  have n : ∀ ls us s, ls ∈ [labelsOf ["EN"] errorSuffix, labelsOf ["EN"] resolutionFWSuffix, labelsOf ["EN"] resolutionHWSuffix, ["EN-MIN".toList], ["EN-MAX".toList], ["-EN-ERR".toList], ["+EN-ERR".toList]] →
      FindsNone ⟨ls, us, s, false⟩ t := fun ls us s hls => hn.finds _ (a4 ls hls)
  cases en with
  | none =>
    have m : ∀ ls us s, (∀ x ∈ ls, x ∈ valueHeads "EN".toList ++ ["MOM".toList]) → FindsNone ⟨ls, us, s, false⟩ t := fun ls us s hls => NoCol.finds h _ hls
    exact gives_cons (indep_none (m _ _ _ a1)) (gives_cons (indep_none (m _ _ _ a1)) (gives_cons (indep_none (m _ _ _ a1))
      (gives_cons (highLow_none (n _ _ _ (by decide)) (n _ _ _ (by decide))) (gives_cons (highMidLow_none (n _ _ _ (by decide)) (n _ _ _ (by decide)))
        (gives_cons (missing_none (m _ _ _ a3)) .nil)))))
  | some ku =>
    obtain ⟨k, u⟩ := ku
    obtain ⟨l, h, hl, hu⟩ := h
    have hcu := canon_energy u hu
    have f : Finds ⟨labelsOf ["EN"] variableSuffix, energyUnits, .dec 1 0, false⟩ t k l u := h.finds _ a1 (a2 l hl) (energyUnits_spec ▸ hu)
    have f6 : Finds ⟨labelsOf ["EN"] variableSuffix ++ baseMomKeys, energyUnits ++ momUnits, .dec 1 0, false⟩ t k l u :=
      h.finds _ a3 (List.mem_append_left _ (a2 l hl)) (List.mem_append_left _ (energyUnits_spec ▸ hu))
    have m := missing_gives hr f6 (noCos_false _ rfl _)
    have e : canonCell ⟨labelsOf ["EN"] variableSuffix ++ baseMomKeys, energyUnits ++ momUnits, .dec 1 0, false⟩ u k = energyBeside (some (k, u)) := funext fun row => canonCell_one ..
    rw [e] at m
    have g : ∀ ls us s, ls ∈ [labelsOf ["EN"] errorSuffix, labelsOf ["EN"] resolutionFWSuffix, labelsOf ["EN"] resolutionHWSuffix, ["EN-MIN".toList], ["EN-MAX".toList], ["-EN-ERR".toList], ["+EN-ERR".toList]] →
        PairGives t (.indep ⟨labelsOf ["EN"] variableSuffix, energyUnits, .dec 1 0, false⟩ ⟨ls, us, s, false⟩) (canonUnit u) (fun _ => none) (fun _ => none) := fun ls us s hls =>
      indep_gives hr f (noCos_false _ rfl _) (e := none) (n ls us s hls)
    rw [← hcu]
    exact gives_cons (g _ _ _ (by decide)) (gives_cons (g _ _ _ (by decide)) (gives_cons (g _ _ _ (by decide))
      (gives_cons (highLow_none (n _ _ _ (by decide)) (n _ _ _ (by decide))) (gives_cons (highMidLow_none (n _ _ _ (by decide)) (n _ _ _ (by decide)))
        (gives_cons m .nil)))))

theorem kt_labels : (∀ ls ∈ [labelsOf ["KT"] (variableSuffix ++ ["-K"]), labelsOf ["KT"] variableSuffix, ["KT".toList], labelsOf ["TEMP"] (variableSuffix ++ ["-K"]) ++ labelsOf ["KT"] variableSuffix],
      ∀ x ∈ ls, x ∈ ktHeads ++ ["KT-K".toList] ++ tempHeads) ∧
    (∀ x ∈ ktHeads, x ∈ labelsOf ["KT"] (variableSuffix ++ ["-K"]) ∧ x ∈ labelsOf ["KT"] variableSuffix ∧ x ∈ labelsOf ["TEMP"] (variableSuffix ++ ["-K"]) ++ labelsOf ["KT"] variableSuffix) ∧
    (∀ x ∈ tempHeads, x ∈ labelsOf ["TEMP"] (variableSuffix ++ ["-K"]) ++ labelsOf ["KT"] variableSuffix ∧
      x ∉ labelsOf ["KT"] (variableSuffix ++ ["-K"]) ∧ x ∉ labelsOf ["KT"] variableSuffix ∧ x ∉ ["KT".toList]) ∧
    labelsOf ["KT"] errorSuffix = ["KT-ERR".toList] ∧ labelsOf ["KT"] resolutionFWSuffix = fullWidthHeads "KT".toList ∧ labelsOf ["KT"] resolutionHWSuffix = ["KT-RSL-HW".toList] ∧
    "KT".toList ∈ ktHeads := by decide

theorem temp_units {u : Str} (hu : u ∈ unitsOfEnergy) : u ∈ energyUnits ++ tempUnits ∧ u ∈ energyUnits ++ tempUnits ++ percentUnits := by
  have : u ∈ energyUnits := energyUnits_spec ▸ hu
  simp [this]

/-- a column with another of the labels is not accepted by a parser -/
theorem OneCol.findsOther {t : Table ℝ} {ls : List Str} {i : Nat} {l u : Str} (h : OneCol t ls i l u) (c : ColParser) (hsub : ∀ x ∈ c.labels, x ∈ ls)
    (hl : l ∉ c.labels) : FindsNone c t := by
  intro j l' u' h1 h2 hc
  have := h.only j l' h1 (hsub l' hc.1)
  subst this
  rw [h.label] at h1
  cases h1
  exact hl hc.1

/-- The parsers of the argument of a spectrum average read the temperatures, or energies, of the table, in MeV. -/
theorem spectrum_list {t : Table ℝ} (hr : t.Rect) {q : Quantity} (h : SpectrumGiven t q) : ListGives t spectrumArgumentParserList q.unit q.val q.err := by
  obtain ⟨a1, a2, a3, a4, a5, a6, a7⟩ := kt_labels
  cases h with
  | kt i l u e1 e2 e3 en h hl hu h1 h2 h3 hn hen =>
    have hcu := canon_energy u hu
    have hE := beside_gives hr hen
    have f1 : Finds ⟨labelsOf ["KT"] (variableSuffix ++ ["-K"]), energyUnits ++ tempUnits, .dec 1 0, false⟩ t i l u := h.finds _ (a1 _ (by decide)) (a2 l hl).1 (temp_units hu).1
    have f2 : Finds ⟨labelsOf ["KT"] variableSuffix, energyUnits ++ tempUnits, .dec 1 0, false⟩ t i l u := h.finds _ (a1 _ (by decide)) (a2 l hl).2.1 (temp_units hu).1
    have f6 : Finds ⟨labelsOf ["TEMP"] (variableSuffix ++ ["-K"]) ++ labelsOf ["KT"] variableSuffix, energyUnits ++ tempUnits, .dec 1 0, false⟩ t i l u :=
      h.finds _ (a1 _ (by decide)) (a2 l hl).2.2 (temp_units hu).1
    have hus : ∀ x ∈ unitsOfEnergy, x ∈ energyUnits ++ tempUnits ++ percentUnits := fun x hx => (temp_units hx).2
    have g1 : FindsErr ⟨labelsOf ["KT"] errorSuffix, energyUnits ++ tempUnits ++ percentUnits, .dec 1 0, false⟩ t (canonUnit u) e1 :=
      hcu ▸ h1.finds _ (fun x => by rw [a4]) hus (percent_mem _) (fun l _ => noCos_false _ rfl l)
    have g2 : FindsErr ⟨labelsOf ["KT"] resolutionFWSuffix, energyUnits ++ tempUnits ++ percentUnits, .dec 5 (-1), false⟩ t (canonUnit u) e2 :=
      hcu ▸ h2.finds _ (fun x => by rw [a5]) hus (percent_mem _) (fun l _ => noCos_false _ rfl l)
    have g3 : FindsErr ⟨labelsOf ["KT"] resolutionHWSuffix, energyUnits ++ tempUnits ++ percentUnits, .dec 1 0, false⟩ t (canonUnit u) e3 :=
      hcu ▸ h3.finds _ (fun x => by rw [a6]) hus (percent_mem _) (fun l _ => noCos_false _ rfl l)
    have n : ∀ x ∈ ["KT-MIN", "KT-MAX", "-KT-ERR", "+KT-ERR"].map String.toList, ∀ us s, FindsNone ⟨[x], us, s, false⟩ t := fun x hx us s =>
      hn.finds _ (by simp only [List.mem_singleton]; rintro _ rfl; exact hx)
    rw [← hcu] at hE
    have key := listGives (t := t) (ps := spectrumArgumentParserList) (un := canonUnit u)
      (gives_cons (indep_gives hr f1 (noCos_false _ rfl l) g1) (gives_cons (indep_gives hr f2 (noCos_false _ rfl l) g2) (gives_cons (indep_gives hr f2 (noCos_false _ rfl l) g3)
        (gives_cons (highLow_none (n "KT-MIN".toList (by decide) _ _) (n "KT-MAX".toList (by decide) _ _))
          (gives_cons (highMidLow_none (n "-KT-ERR".toList (by decide) _ _) (n "+KT-ERR".toList (by decide) _ _))
            (gives_cons (missing_gives hr f6 (noCos_false _ rfl l)) hE)))))) (by simp [spectrumArgumentParserList, tempParserList])
    rw [hcu] at key
    refine key.congr ?_ ?_
    · intro row _
      simp only [List.map_cons, List.map_nil, canonCell_one]
      cases e1 <;> cases e2 <;> cases e3 <;> cases valueIn i u row <;> cases energyBeside en row <;> rfl
    · intro row _
      simp only [List.map_cons, List.map_nil, canonCell_one, val_one, val_half]
      cases errorIn (valueIn i u row) e1 1 row <;> cases errorIn (valueIn i u row) e2 (1 / 2) row <;> cases errorIn (valueIn i u row) e3 1 row <;> rfl
  | temp i l u en h hl hu hn hen =>
    have hcu := canon_energy u hu
    have hE := beside_gives hr hen
    rw [← hcu] at hE
    have f6 : Finds ⟨labelsOf ["TEMP"] (variableSuffix ++ ["-K"]) ++ labelsOf ["KT"] variableSuffix, energyUnits ++ tempUnits, .dec 1 0, false⟩ t i l u :=
      h.finds _ (a1 _ (by decide)) (a3 l hl).1 (temp_units hu).1
    have n : ∀ x ∈ ["KT-MIN", "KT-MAX"].map String.toList, ∀ us s, FindsNone ⟨[x], us, s, false⟩ t := fun x hx us s =>
      hn.finds _ (by simp only [List.mem_singleton]; rintro _ rfl; exact hx)
    have key := listGives (t := t) (ps := spectrumArgumentParserList) (un := canonUnit u)
      (gives_cons (indep_none (h.findsOther _ (a1 _ (by decide)) (a3 l hl).2.1)) (gives_cons (indep_none (h.findsOther _ (a1 _ (by decide)) (a3 l hl).2.2.1))
        (gives_cons (indep_none (h.findsOther _ (a1 _ (by decide)) (a3 l hl).2.2.1))
          (gives_cons (highLow_none (n "KT-MIN".toList (by decide) _ _) (n "KT-MAX".toList (by decide) _ _))
            (gives_cons (highMidLow_none' (h.findsOther _ (a1 _ (by decide)) (a3 l hl).2.2.2))
              (gives_cons (missing_gives hr f6 (noCos_false _ rfl l)) hE)))))) (by simp [spectrumArgumentParserList, tempParserList])
    rw [hcu] at key
    refine key.congr ?_ ?_
    · intro row _
      simp only [List.map_cons, List.map_nil, canonCell_one]
      cases valueIn i u row <;> cases energyBeside en row <;> rfl
    · intro row _; rfl
  | limits i j l l' u u' en h h' hu hu' hb hn hen =>
    have hcu := canon_energy u hu
    have hE := beside_gives hr hen
    rw [← hcu] at hE
    have f1 : Finds ⟨["KT-MIN".toList], energyUnits ++ tempUnits, .dec 1 0, false⟩ t i l u := h.finds _ (fun _ h => h) h.mem (temp_units hu).1
    have f2 : Finds ⟨["KT-MAX".toList], energyUnits ++ tempUnits, .dec 1 0, false⟩ t j l' u' := h'.finds _ (fun _ h => h) h'.mem (temp_units hu').1
    have n : ∀ ls us s, ls ∈ [labelsOf ["KT"] (variableSuffix ++ ["-K"]), labelsOf ["KT"] variableSuffix, ["KT".toList], labelsOf ["TEMP"] (variableSuffix ++ ["-K"]) ++ labelsOf ["KT"] variableSuffix] →
        FindsNone ⟨ls, us, s, false⟩ t := fun ls us s hls => hn.finds _ (a1 ls hls)
    have key := listGives (t := t) (ps := spectrumArgumentParserList) (un := canonUnit u)
      (gives_cons (indep_none (n _ _ _ (by decide))) (gives_cons (indep_none (n _ _ _ (by decide))) (gives_cons (indep_none (n _ _ _ (by decide)))
        (gives_cons (highLow_gives hr f1 f2 (hcu.trans (canon_energy u' hu').symm) hb) (gives_cons (highMidLow_none' (n _ _ _ (by decide)))
              (gives_cons (missing_none (n _ _ _ (by decide))) hE)))))) (by simp [spectrumArgumentParserList, tempParserList])
    rw [hcu] at key
    refine key.congr ?_ ?_
    · intro row _
      simp only [List.map_cons, List.map_nil]
      cases middle (valueIn i u row) (valueIn j u' row) <;> cases energyBeside en row <;> rfl
    · intro row _
      simp only [List.map_cons, List.map_nil]
      cases halfWidth (valueIn i u row) (valueIn j u' row) <;> rfl
  | asym i j k l l' u u' u'' en h h' h'' hu hu' hu'' hn hen =>
    have hcu := canon_energy u hu
    have hE := beside_gives hr hen
    rw [← hcu] at hE
    have f1 : Finds ⟨labelsOf ["KT"] (variableSuffix ++ ["-K"]), energyUnits ++ tempUnits, .dec 1 0, false⟩ t i "KT".toList u := h.finds _ (a1 _ (by decide)) (a2 _ a7).1 (temp_units hu).1
    have f2 : Finds ⟨labelsOf ["KT"] variableSuffix, energyUnits ++ tempUnits, .dec 1 0, false⟩ t i "KT".toList u := h.finds _ (a1 _ (by decide)) (a2 _ a7).2.1 (temp_units hu).1
    have f5 : Finds ⟨["KT".toList], energyUnits ++ tempUnits, .dec 1 0, false⟩ t i "KT".toList u := h.finds _ (a1 _ (by decide)) (List.mem_singleton_self _) (temp_units hu).1
    have f6 : Finds ⟨labelsOf ["TEMP"] (variableSuffix ++ ["-K"]) ++ labelsOf ["KT"] variableSuffix, energyUnits ++ tempUnits, .dec 1 0, false⟩ t i "KT".toList u :=
      h.finds _ (a1 _ (by decide)) (a2 _ a7).2.2 (temp_units hu).1
    have fl : Finds ⟨["-KT-ERR".toList], energyUnits ++ tempUnits, .dec 1 0, false⟩ t j l u' := h'.finds _ (fun _ h => h) h'.mem (temp_units hu').1
    have fh : Finds ⟨["+KT-ERR".toList], energyUnits ++ tempUnits, .dec 1 0, false⟩ t k l' u'' := h''.finds _ (fun _ h => h) h''.mem (temp_units hu'').1
    have n : ∀ ls us s, (∀ x ∈ ls, x ∈ ["KT-ERR", "KT-RSL-HW", "KT-MIN", "KT-MAX", "KT-RES", "KT-RSL", "KT-RSL-FW"].map String.toList) →
        FindsNone ⟨ls, us, s, false⟩ t := fun ls us s hls => hn.finds _ hls
    have key := listGives (t := t) (ps := spectrumArgumentParserList) (un := canonUnit u)
      (gives_cons (indep_gives hr f1 (noCos_false _ rfl _) (e := none) (n _ _ _ (by decide : ∀ x ∈ labelsOf ["KT"] errorSuffix, x ∈ _)))
        (gives_cons (indep_gives hr f2 (noCos_false _ rfl _) (e := none) (n _ _ _ (by decide : ∀ x ∈ labelsOf ["KT"] resolutionFWSuffix, x ∈ _)))
          (gives_cons (indep_gives hr f2 (noCos_false _ rfl _) (e := none) (n _ _ _ (by decide : ∀ x ∈ labelsOf ["KT"] resolutionHWSuffix, x ∈ _)))
            (gives_cons (highLow_none (n _ _ _ (by decide : ∀ x ∈ ["KT-MIN".toList], x ∈ _)) (n _ _ _ (by decide : ∀ x ∈ ["KT-MAX".toList], x ∈ _)))
              (gives_cons (highMidLow_gives hr f5 fl fh ((canon_energy u'' hu'').trans hcu.symm))
                (gives_cons (missing_gives hr f6 (noCos_false _ rfl _)) hE)))))) (by simp [spectrumArgumentParserList, tempParserList])
    rw [hcu] at key
    refine key.congr ?_ ?_
    · intro row _
      simp only [List.map_cons, List.map_nil, canonCell_one]
      show firstSome [none, none, none, none, middleOf (valueIn i u row) (valueIn j u' row) (valueIn k u'' row), valueIn i u row, none, none, none, none, none, energyBeside en row] = _
      cases middleOf (valueIn i u row) (valueIn j u' row) (valueIn k u'' row) <;> cases valueIn i u row <;> cases energyBeside en row <;> rfl
    · intro row _
      simp only [List.map_cons, List.map_nil]
      cases halfWidthOf (valueIn i u row) (valueIn j u' row) (valueIn k u'' row) <;> rfl
  | energy q hn h =>
    have n : ∀ ls us s, ls ∈ [labelsOf ["KT"] (variableSuffix ++ ["-K"]), labelsOf ["KT"] variableSuffix, ["KT".toList], labelsOf ["TEMP"] (variableSuffix ++ ["-K"]) ++ labelsOf ["KT"] variableSuffix] →
        FindsNone ⟨ls, us, s, false⟩ t := fun ls us s hls => hn.finds _ fun x hx => List.mem_append_left _ (a1 ls hls x hx)
    have n' : ∀ x ∈ ["KT-MIN", "KT-MAX"].map String.toList, ∀ us s, FindsNone ⟨[x], us, s, false⟩ t := fun x hx us s =>
      hn.finds _ (by simp only [List.mem_singleton]; rintro _ rfl; exact List.mem_append_right _ hx)
    refine ListGives.after (ps := tempParserList) ?_ (energy_list hr "EN" h)
    intro p hp
    simp only [tempParserList, List.mem_cons, List.not_mem_nil, or_false] at hp
    rcases hp with rfl | rfl | rfl | rfl | rfl | rfl
    · exact indep_none (n _ _ _ (by decide))
    · exact indep_none (n _ _ _ (by decide))
    · exact indep_none (n _ _ _ (by decide))
    · exact highLow_none (n' "KT-MIN".toList (by decide) _ _) (n' "KT-MAX".toList (by decide) _ _)
    · exact highMidLow_none' (n _ _ _ (by decide))
    · exact missing_none (n _ _ _ (by decide))

theorem SpectrumGiven.name_eq {t : Table ℝ} {q : Quantity} (h : SpectrumGiven t q) : q.name = "Energy".toList := by
  cases h
  case energy h => exact h.name_eq
  all_goals rfl

variable {ρ : Type}

/-- C91: the simplified dataset of spectrum-averaged cross sections has the temperatures in MeV, the energies where there is
no temperature, and the cross sections in barns (or without dimension, as they are given), with the uncertainties given for
them. -/
theorem C91_spectrum_partial (d : DataSet ρ ℝ) (hk : d.kind = .spectrumAve) (hs : d.simplified = false) (hr : d.table.Rect) (q1 q2 : Quantity)
    (h1 : SpectrumGiven d.table q1) (h2 : DataGiven unitsOfCrossSection d.table q2)
    (hv : ∀ q ∈ [q1, q2], ∃ row ∈ d.data, q.val row ≠ none) (makeAll failMissing : Bool)
    (he : makeAll = true ∨ failMissing = false ∨ ∀ q ∈ [q1, q2], q.HasErr d.data) :
    d.getSimplified makeAll failMissing = .ok (d.with [q1, q2] makeAll) := by
  unfold DataSet.getSimplified
  rw [hk]
  refine simplified_of hs ?_ (by decide) ?_ hv he ?_
  · simp only [List.map_cons, List.map_nil, h1.name_eq, h2.name_eq]; rfl
  · intro q hq
    simp only [List.mem_cons, List.not_mem_nil, or_false] at hq
    rcases hq with rfl | rfl
    · exact ⟨spectrumArgumentParserList, by rw [h1.name_eq]; rfl, spectrum_list hr h1⟩
    · exact ⟨csDataParserList, by rw [h2.name_eq]; rfl, cs_list hr h2⟩
  · simp only [List.map_cons, List.map_nil, h1.name_eq, h2.name_eq]

/-- temperatures with a resolution (full width), and an energy in the row without a temperature: 25 keV with a width of 2 keV
becomes 0.025 ± 0.001 MeV, and the row without temperature has its energy, 0.03 MeV, without uncertainty -/
def ktSet : DataSet Unit ℝ := plainSet .spectrumAve ["KT", "KT-RSL-FW", "EN", "DATA"] ["KEV", "KEV", "KEV", "MB"]
  [[some 25, some 2, some 60, some 500], [none, none, some 30, some 400]]

example : ∃ q1 q2, SpectrumGiven ktSet.table q1 ∧ DataGiven unitsOfCrossSection ktSet.table q2 ∧ (∀ q ∈ [q1, q2], ∃ row ∈ ktSet.data, q.val row ≠ none) ∧
    ktSet.data.map q1.val = [some (25 / 1000), some (30 / 1000)] ∧ ktSet.data.map q1.err = [some (1 / 1000), none] := by
  refine ⟨_, _, .kt 0 "KT".toList "KEV".toList none (some (1, "KEV".toList)) none (some (2, "KEV".toList)) (by col_dec) (by decide) (by decide) (by col_dec)
      ⟨⟨"KT-RSL-FW".toList, by col_dec⟩, by decide⟩ (by col_dec) (by col_dec) ⟨⟨"EN".toList, by col_dec, by decide, by decide⟩, by col_dec⟩,
    .points 3 "DATA".toList "MB".toList none none none (by col_dec) (by decide) (by decide) (by col_dec) (by col_dec) (by col_dec) trivial (by col_dec), ?_, ?_, ?_⟩
  · intro q hq
    simp only [List.mem_cons, List.not_mem_nil, or_false] at hq
    refine ⟨_, List.mem_cons_self .., ?_⟩
    rcases hq with rfl | rfl <;> simp [valueIn, cell, firstSome]
  · have e1 : unitFactor ['K', 'E', 'V'] = 10 ^ (-3 : ℤ) := knownUnit_keV
    simp [ktSet, plainSet, valueIn, cell, firstSome, energyBeside, e1]
    norm_num
  · have e1 : unitFactor ['K', 'E', 'V'] = 10 ^ (-3 : ℤ) := knownUnit_keV
    simp [ktSet, plainSet, valueIn, errorIn, cell, firstSome, e1]
    norm_num

example : ktSet.table.Rect := ⟨rfl, by intro row hrow; simp [DataSet.table, ktSet, plainSet] at hrow ⊢; rcases hrow with rfl | rfl <;> rfl⟩

/-- the other ways of giving the temperature -/
example (a b c : ℝ) : ∃ q, SpectrumGiven (plainSet .spectrumAve ["TEMP", "DATA"] ["K", "MB"] [[some a, some b]]).table q :=
  ⟨_, .temp 0 "TEMP".toList "K".toList none (by col_dec) (by decide) (by decide) (by col_dec) ⟨by col_dec, by col_dec⟩⟩
example (a b c : ℝ) : ∃ q, SpectrumGiven (plainSet .spectrumAve ["KT-MIN", "KT-MAX", "DATA"] ["KEV", "KEV", "MB"] [[some a, some b, some c]]).table q := by
  refine ⟨_, .limits 0 1 "KT-MIN".toList "KT-MAX".toList "KEV".toList "KEV".toList none (by col_dec) (by col_dec) (by decide) (by decide) ?_ (by col_dec) ⟨by col_dec, by col_dec⟩⟩
  intro row hrow
  simp only [DataSet.table, plainSet, List.mem_singleton] at hrow
  subst hrow
  simp [cell]
example (a b c e : ℝ) : ∃ q, SpectrumGiven (plainSet .spectrumAve ["KT", "-KT-ERR", "+KT-ERR", "DATA"] ["KEV", "EV", "KEV", "MB"] [[some a, some b, some c, some e]]).table q :=
  ⟨_, .asym 0 1 2 "-KT-ERR".toList "+KT-ERR".toList "KEV".toList "EV".toList "KEV".toList none (by col_dec) (by col_dec) (by col_dec) (by decide) (by decide) (by decide) (by col_dec)
    ⟨by col_dec, by col_dec⟩⟩
example (a b c : ℝ) : ∃ q, SpectrumGiven (plainSet .spectrumAve ["EN", "EN-ERR", "DATA"] ["MEV", "PER-CENT", "MB"] [[some a, some b, some c]]).table q :=
  ⟨_, .energy _ (by col_dec) (.points 0 "EN".toList "MEV".toList (some (1, "PER-CENT".toList)) none none (by col_dec) (by decide) (by decide) ⟨⟨"EN-ERR".toList, by col_dec⟩, by decide⟩
    (by col_dec) (by col_dec) (by col_dec))⟩

/-- C91 is false where an energy with an uncertainty stands besides a temperature without one: the temperature gets the
uncertainty of the energy. -/
theorem C91_energy_error_refuted (T e de y : ℝ) : ∃ r,
    (plainSet .spectrumAve ["KT", "EN", "EN-ERR", "DATA"] ["MEV", "MEV", "MEV", "B"] [[some T, some e, some de, some y]]).getSimplified false false = .ok r ∧
    r.labels = ["Energy", "Data", "d(Energy)"].map String.toList ∧ r.data = [[some T, some y, some |de|]] := by
  refine ⟨_, rfl, rfl, ?_⟩
  show [[some (scaleVal (.dec 1 0) (.dec 1 0) T), some (scaleVal (.dec 1 0) (.dec 1 0) y), some (PyNum.abs (scaleVal (.dec 1 0) (.dec 1 0) de))]] = _
  simp [scaleVal, Factor.val, RealNum.dec_eq]

/-- C91 is false for temperatures under the heading KT-K without uncertainties: the dataset is reported to have no energies. -/
theorem C91_ktk_refuted (T y : ℝ) (makeAll failMissing : Bool) :
    (plainSet .spectrumAve ["KT-K", "DATA"] ["K", "B"] [[some T, some y]]).getSimplified makeAll failMissing = .error (.noValuesGivenError "Energy".toList) := rfl

end X4
