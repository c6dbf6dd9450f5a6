import Verif.Props.Isomers
import Verif.Props.Entry
import Verif.Lemmas.Case
/-! Nuclei and isomers made from texts (C89). -/
namespace X4
open Parser

/-! ### C89: reading -/

theorem descr_no_tab {s : Str} (h : ∀ c ∈ s, isDescr c = true) : '\t' ∉ s := fun hm => by
  have := h _ hm
  revert this; decide

theorem parseNucleus_text {n : NucText} (hn : n.wf) : parseNucleus n.text = .ok ([n.Z, n.sym, n.A] ++ modStrs n.mods) := by
  obtain ⟨hne, hd⟩ := nuc_descr hn
  have h : pNucleus.parse true n.text = some (n.toks, []) := by
    rw [parse_nw (by have := nw_descr (r := []) hne hd; rwa [List.append_nil] at this)]
    have := pNucleus_tail hn NucTail.nil
    rwa [List.append_nil] at this
  unfold parseNucleus parseString
  rw [expandTabs_id 0 _ (descr_no_tab hd), h, nucToks_eq]
  simp only [strToks_map]

/-- C89: a nucleus made from the text `Z-SYM-A`, the symbol being written in capitals or not, has that charge, symbol and mass number. -/
theorem C89_nucleus (n : NucText) (hn : n.wf) : nucleusOfStr n.text = .ok (.nucleus n.Z (capitalize n.sym) n.A) := by
  unfold nucleusOfStr
  rw [parseNucleus_text hn]
  rfl

theorem isomerOfStr_text {n : NucText} (hn : n.wf) : isomerOfStr n.text = isomerOfToks n.Z n.sym n.A (modStrs n.mods) := by
  unfold isomerOfStr
  rw [parseNucleus_text hn]
  rfl

/-- C89: an isomer made from the text `Z-SYM-A-M2` lists the state that is written. -/
theorem C89_isomer (n : NucText) (hn : n.wf) (m : IsoMod) (hm : n.mods = [m]) (hl : m.letter ∈ ['G', 'M', 'T'])
    (hd : m.letter ≠ 'M' → m.digits = []) :
    isomerOfStr n.text = .ok (.isomer n.Z (capitalize n.sym) n.A m.levels) := by
  rw [isomerOfStr_text hn, ← setParticleType_iso n (by simp [hm])]
  exact C79_states n hn m hm hl hd

/-- C89: a text with several states is refused with the error that announces isomer arithmetic. -/
theorem C89_math (n : NucText) (hn : n.wf) (hl : ∀ m ∈ n.mods, m.letter ∈ ['G', 'M', 'T']) (h2 : 2 ≤ n.mods.length)
    (hM : ∃ m ∈ n.mods, m.letter = 'M') : isomerOfStr n.text = .error .isomerMathParsingError := by
  rw [isomerOfStr_text hn, ← setParticleType_iso n (by rintro h; rw [h] at h2; simp at h2)]
  exact C79_math n hn hl h2 hM

/-- C89: the list made of a nucleus or isomer is its parts in capitals. -/
theorem C89_list (n : NucText) (hn : n.wf) : nucleusList n.text = .ok (([n.Z, n.sym, n.A] ++ modStrs n.mods).map upper) := by
  unfold nucleusList
  rw [parseNucleus_text hn]

/-! ### C89: printing -/

theorem upper_capitalize (s : Str) : upper (capitalize s) = upper s := by
  cases s with
  | nil => rfl
  | cons c s =>
    show c.toUpper.toUpper :: upper (lower s) = c.toUpper :: upper s
    rw [toUpper_toUpper, upper_lower]
theorem capitalize_upper (s : Str) : capitalize (upper s) = capitalize s := by
  cases s with
  | nil => rfl
  | cons c s =>
    show c.toUpper.toUpper :: lower (upper s) = c.toUpper :: lower s
    rw [toUpper_toUpper, lower_upper]

/-- the nucleus in the spelling of EXFOR: the symbol in capitals -/
def NucText.inCapitals (n : NucText) : NucText := { n with sym := upper n.sym }

theorem isCap_toUpper {c : Char} (h : isAlphaA c = true) : isCap c.toUpper = true := by
  rcases toUpper_cases c with h1 | h1
  · simp only [isCap, Bool.and_eq_true, decide_eq_true_eq]; omega
  · rw [h1.2]
    simp only [isAlphaA, isCap, Bool.or_eq_true, Bool.and_eq_true, decide_eq_true_eq] at h ⊢
    omega

theorem symbol_upper {s : Str} (h : SymbolText s) : SymbolText (upper s) := by
  obtain ⟨c, w, rfl, hc, hl, hw⟩ := h
  refine ⟨c.toUpper, upper w, rfl, ?_, by simpa [upper] using hl, ?_⟩
  · rcases hc with hc | rfl
    · exact Or.inl (isCap_toUpper (cap_alpha hc))
    · exact Or.inr rfl
  · intro x hx
    obtain ⟨y, hy, rfl⟩ := List.mem_map.1 hx
    exact cap_alpha (isCap_toUpper (hw y hy))

/-- C89: a nucleus is printed in capitals, and the printed text gives the same nucleus; the element is not `NN`, the symbol of the
neutron. -/
theorem C89_exfor_partial (n : NucText) (hn : n.wf) (hm : n.mods = []) (hN : upper n.sym ≠ chars!"NN") (p : Particle)
    (hp : nucleusOfStr n.text = .ok p) : p.exfor = .ok n.inCapitals.text ∧ nucleusOfStr n.inCapitals.text = .ok p := by
  have hc : capitalize n.sym ≠ chars!"Nn" := by
    intro h
    apply hN
    rw [← upper_capitalize, h]
    decide
  rw [C89_nucleus n hn] at hp
  cases hp
  refine ⟨?_, ?_⟩
  · simp only [Particle.exfor, exforNucleus, if_neg hc, upper_capitalize, NucText.inCapitals, NucText.text, hm, List.flatMap_nil, List.append_nil]
    simp [List.append_assoc]
  · rw [C89_nucleus n.inCapitals ⟨hn.1, symbol_upper hn.2.1, hn.2.2.1, hn.2.2.2⟩]
    simp only [NucText.inCapitals, capitalize_upper]

/-- C89 fails for the neutron written as a nucleus: it is printed as `n`, which is not read as a nucleus. -/
theorem C89_neutron_refuted (n : NucText) (hn : n.wf) (hN : capitalize n.sym = chars!"Nn") :
    ∃ p, nucleusOfStr n.text = .ok p ∧ p.exfor = .ok chars!"n" ∧ nucleusOfStr chars!"n" = .error .particleParsingError := by
  refine ⟨_, C89_nucleus n hn, ?_, by decide⟩
  simp only [Particle.exfor, exforNucleus, if_pos hN]

/-- C89: an isomer in a state `G`, `M`, `M1`, `M2`, ... is printed as a text that gives the same isomer. -/
theorem C89_isomer_exfor_partial (n : NucText) (hn : n.wf) (m : IsoMod) (hm : n.mods = [m]) (hl : m.letter ∈ ['G', 'M'])
    (hd : m.letter ≠ 'M' → m.digits = []) (hN : upper n.sym ≠ chars!"NN") (p : Particle) (hp : isomerOfStr n.text = .ok p) :
    ∃ t, p.exfor = .ok t ∧ isomerOfStr t = .ok p := by
  have hc : capitalize n.sym ≠ chars!"Nn" := by
    intro h
    apply hN
    rw [← upper_capitalize, h]
    decide
  have hl' : m.letter ∈ ['G', 'M', 'T'] := by
    simp only [List.mem_cons, List.not_mem_nil, or_false] at hl ⊢; tauto
  rw [C89_isomer n hn m hm hl' hd] at hp
  cases hp
  have hdig := (hn.2.2.2 m (by rw [hm]; simp)).2.2
  -- the printed state
  obtain ⟨lv, hlv, hlvd⟩ : ∃ lv, m.levels = [lv] ∧ DigitText lv := by
    obtain ⟨op, c, d⟩ := m
    simp only [List.mem_cons, List.not_mem_nil, or_false] at hl
    rcases hl with rfl | rfl
    · exact ⟨['0'], rfl, by decide, by decide⟩
    · by_cases h0 : d = []
      · exact ⟨['1'], by simp [IsoMod.levels, h0], by decide, by decide⟩
      · exact ⟨d, by simp [IsoMod.levels, h0], h0, hdig⟩
  let m' : IsoMod := ⟨'-', 'M', if lv = ['1'] then [] else lv⟩
  let n' : NucText := { n.inCapitals with mods := [m'] }
  have hm' : m'.levels = [lv] := by
    by_cases h1 : lv = ['1']
    · simp [m', IsoMod.levels, h1]
    · simp [m', IsoMod.levels, h1, hlvd.1]
  have hn' : n'.wf := ⟨hn.1, symbol_upper hn.2.1, hn.2.2.1, by
    intro x hx
    rw [List.mem_singleton.1 hx]
    refine ⟨by simp [m'], show isModifier 'M' = true by decide, ?_⟩
    intro c hc
    by_cases h1 : lv = ['1']
    · simp [m', h1] at hc
    · simp only [m', if_neg h1] at hc; exact hlvd.2 c hc⟩
  refine ⟨n'.text, ?_, ?_⟩
  · have e : isomerTail ['+', 'M'] m.levels = m'.digits := by
      rw [hlv]
      by_cases h1 : lv = ['1']
      · simp [isomerTail, m', h1]
      · simp [isomerTail, m', h1, joinWith]
    simp only [Particle.exfor, exforNucleus, if_neg hc, upper_capitalize, e]
    simp [n', m', NucText.text, NucText.inCapitals, IsoMod.text, List.append_assoc]
  · rw [C89_isomer n' hn' m' rfl (by simp [m']) (fun h => absurd rfl h), hm', hlv]
    simp only [n', NucText.inCapitals, capitalize_upper]

/-- C89 fails for the sum over all states: `-T` is printed as `-M`, which is the first isomer. -/
theorem C89_total_refuted (n : NucText) (hn : n.wf) (hm : n.mods = [⟨'-', 'T', []⟩]) (hN : upper n.sym ≠ chars!"NN") :
    ∃ p t q, isomerOfStr n.text = .ok p ∧ p.exfor = .ok t ∧ isomerOfStr t = .ok q ∧ q ≠ p := by
  have hc : capitalize n.sym ≠ chars!"Nn" := by
    intro h
    apply hN
    rw [← upper_capitalize, h]
    decide
  let n' : NucText := { n.inCapitals with mods := [⟨'-', 'M', []⟩] }
  have hn' : n'.wf := ⟨hn.1, symbol_upper hn.2.1, hn.2.2.1, by
    intro x hx; rw [List.mem_singleton.1 hx]; exact ⟨by decide, by decide, by decide⟩⟩
  refine ⟨_, n'.text, _, C89_isomer n hn _ hm (by decide) (by decide), ?_, C89_isomer n' hn' _ rfl (by decide) (by decide), ?_⟩
  · simp only [Particle.exfor, exforNucleus, if_neg hc, upper_capitalize]
    simp [n', NucText.text, NucText.inCapitals, IsoMod.text, IsoMod.levels, isomerTail, joinWith, List.append_assoc]
  · simp [IsoMod.levels]

/-- C89: the readable form of a nucleus is its mass number and symbol, that of an isomer has the state between them. -/
theorem C89_pretty (names : Dict Str (List Str)) (n : NucText) (hn : n.wf) (hN : upper n.sym ≠ chars!"NN") :
    (n.mods = [] → ∀ p, nucleusOfStr n.text = .ok p → p.pretty names = .ok (n.A ++ capitalize n.sym)) ∧
    (∀ m, n.mods = [m] → m.letter = 'M' → ∀ p, isomerOfStr n.text = .ok p →
      p.pretty names = .ok (n.A ++ 'm' :: ((if m.digits = ['1'] then [] else m.digits) ++ capitalize n.sym))) := by
  have hc : capitalize n.sym ≠ chars!"Nn" := by
    intro h
    apply hN
    rw [← upper_capitalize, h]
    decide
  refine ⟨?_, ?_⟩
  · intro _ p hp
    rw [C89_nucleus n hn] at hp
    cases hp
    simp only [Particle.pretty, if_neg hc]
  · intro m hm hl p hp
    rw [C89_isomer n hn m hm (by rw [hl]; decide) (fun h => absurd hl h)] at hp
    cases hp
    have e : isomerTail [','] m.levels = if m.digits = ['1'] then [] else m.digits := by
      unfold IsoMod.levels
      rw [if_neg (by rw [hl]; decide), if_pos hl]
      by_cases h0 : m.digits = []
      · simp [h0, isomerTail]
      · by_cases h1 : m.digits = ['1']
        · simp [h1, isomerTail]
        · simp [h0, h1, isomerTail, joinWith]
    simp only [Particle.pretty, e]
    simp [List.append_assoc]

/-! ### C89: the ENDL names -/

theorem zfill3 {s : Str} (h : DigitText s) (hl : s.length ≤ 3) : (zfill s 3).length = 3 ∧ decVal (zfill s 3) = decVal s := by
  rw [zfill_of_digits 3 h.2]
  refine ⟨by simp; omega, ?_⟩
  rw [← digitsVal_eq_decVal, ← digitsVal_eq_decVal, digitsVal_append]
  have : ∀ k, digitsVal (List.replicate k '0') = 0 := by
    intro k
    induction k with
    | zero => rfl
    | succ k ih =>
      rw [List.replicate_succ', digitsVal_append, ih]
      rfl
  rw [this]
  simp

/-- C89: the ENDL name of a nucleus has three digits for the charge and three for the mass number, so that two nuclei have the same name
only if they agree in both. -/
theorem C89_endl (n : NucText) (hn : n.wf) (hZ : n.Z.length ≤ 3) (hA : n.A.length ≤ 3) (p : Particle) (hp : nucleusOfStr n.text = .ok p) :
    ∃ z a, p.endlZA = .ok (some (chars!"za" ++ z ++ a)) ∧ z.length = 3 ∧ a.length = 3 ∧ decVal z = decVal n.Z ∧ decVal a = decVal n.A := by
  rw [C89_nucleus n hn] at hp
  cases hp
  obtain ⟨h1, h2⟩ := zfill3 hn.1 hZ
  obtain ⟨h3, h4⟩ := zfill3 hn.2.2.1 hA
  exact ⟨_, _, rfl, h1, h3, h2, h4⟩

theorem C89_endl_injective (n n' : NucText) (hn : n.wf) (hn' : n'.wf) (hl : n.Z.length ≤ 3 ∧ n.A.length ≤ 3) (hl' : n'.Z.length ≤ 3 ∧ n'.A.length ≤ 3)
    (p q : Particle) (hp : nucleusOfStr n.text = .ok p) (hq : nucleusOfStr n'.text = .ok q) (h : p.endlZA = q.endlZA) :
    decVal n.Z = decVal n'.Z ∧ decVal n.A = decVal n'.A := by
  obtain ⟨z, a, e, hz, ha, vz, va⟩ := C89_endl n hn hl.1 hl.2 p hp
  obtain ⟨z', a', e', hz', ha', vz', va'⟩ := C89_endl n' hn' hl'.1 hl'.2 q hq
  rw [e, e'] at h
  injection h with h
  injection h with h
  rw [List.append_assoc, List.append_assoc] at h
  have h := List.append_cancel_left h
  obtain ⟨rfl, rfl⟩ := List.append_inj h (by omega)
  exact ⟨vz.symm.trans vz', va.symm.trans va'⟩

/-- C89: the ENDL name of an isomer is that of the nucleus followed by the state: `g`, `m`, `m2`, ... -/
theorem C89_endl_isomer (n : NucText) (hn : n.wf) (m : IsoMod) (hm : n.mods = [m]) (hl : m.letter ∈ ['G', 'M', 'T'])
    (hd : m.letter ≠ 'M' → m.digits = []) (p q : Particle) (hp : isomerOfStr n.text = .ok p) (hq : nucleusOfStr n.text = .ok q)
    (h0 : m.digits ≠ ['0']) :
    ∃ za, q.endlZA = .ok (some za) ∧ p.endlZA = .ok (some (za ++
      if m.letter = 'G' then ['g'] else if m.letter = 'M' then 'm' :: (if m.digits = ['1'] then [] else m.digits) else [])) := by
  rw [C89_isomer n hn m hm hl hd] at hp
  rw [C89_nucleus n hn] at hq
  cases hp
  cases hq
  refine ⟨_, rfl, ?_⟩
  obtain ⟨op, c, d⟩ := m
  simp only [List.mem_cons, List.not_mem_nil, or_false] at hl h0
  rcases hl with rfl | rfl | rfl
  · rfl
  · by_cases hd0 : d = []
    · simp [Particle.endlZA, IsoMod.levels, hd0]
    · by_cases hd1 : d = ['1']
      · simp [Particle.endlZA, IsoMod.levels, hd1]
      · simp [Particle.endlZA, IsoMod.levels, hd0, hd1, h0]
  · rfl

theorem puWf : NucText.wf ⟨chars!"94", chars!"Pu", chars!"240", []⟩ :=
  ⟨⟨by decide, by decide⟩, ⟨'P', ['u'], rfl, by decide, by decide, by decide⟩, ⟨by decide, by decide⟩, by simp⟩
theorem puMWf : NucText.wf ⟨chars!"94", chars!"Pu", chars!"240", [⟨'-', 'M', ['2']⟩]⟩ :=
  ⟨⟨by decide, by decide⟩, ⟨'P', ['u'], rfl, by decide, by decide, by decide⟩, ⟨by decide, by decide⟩, by
    intro m hm; rw [List.mem_singleton.1 hm]; exact ⟨by decide, by decide, by decide⟩⟩

/-- The theorems apply to plutonium 240, written in mixed case. -/
example : nucleusOfStr chars!"94-Pu-240" = .ok (.nucleus chars!"94" chars!"Pu" chars!"240") := C89_nucleus _ puWf
example : Particle.exfor (.nucleus chars!"94" chars!"Pu" chars!"240") = .ok chars!"94-PU-240" :=
  (C89_exfor_partial _ puWf rfl (by decide) _ (C89_nucleus _ puWf)).1
example : isomerOfStr chars!"94-Pu-240-M2" = .ok (.isomer chars!"94" chars!"Pu" chars!"240" [['2']]) :=
  C89_isomer _ puMWf _ rfl (by decide) (by decide)
example : ∃ t, Particle.exfor (.isomer chars!"94" chars!"Pu" chars!"240" [['2']]) = .ok t ∧
    isomerOfStr t = .ok (.isomer chars!"94" chars!"Pu" chars!"240" [['2']]) :=
  C89_isomer_exfor_partial _ puMWf _ rfl (by decide) (by decide) (by decide) _ (C89_isomer _ puMWf _ rfl (by decide) (by decide))
example : Particle.endlZA (.isomer chars!"94" chars!"Pu" chars!"240" [['2']]) = .ok (some chars!"za094240m2") := by decide

end X4
