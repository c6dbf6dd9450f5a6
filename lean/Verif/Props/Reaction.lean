import Verif.Spec.Reaction
import Verif.Lemmas.DataSection
import Verif.Lemmas.Dict
import Verif.Lemmas.Case
/-! Particles (C54) and residual nuclei (C53). -/
namespace X4

/-! ### C54 -/

/-- C54: letter case does not matter. -/
theorem C54_case (s : Str) : particleOfStr (upper s) = particleOfStr s := by
  have h0 : upper s = ['0'] ↔ s = ['0'] := by
    unfold upper
    cases s with
    | nil => simp
    | cons c r =>
      rw [List.map_cons, List.cons.injEq, List.cons.injEq, List.map_eq_nil_iff, toUpper_eq_iff (by decide)]
  unfold particleOfStr
  by_cases h : s = ['0']
  · rw [if_pos h, if_pos (h0.2 h)]
  · rw [if_neg h, if_neg (fun e => h (h0.1 e)), upper_upper]

/-- charge and mass number of a particle -/
def chargeMass (p : Particle) : Option (Int × Int) :=
  match p.getZ, p.getA with
  | .ok z, .ok a => some (z, a)
  | _, _ => none

/-- what the tables say about a code -/
def tabled (code : Str) : Option (Int × Int) :=
  match x4ZMap.get? code, x4AMap.get? code with
  | some z, some a => some (z, a)
  | _, _ => none

/-- C54: every code of the tables except `XR` and `B+`, in any letter case, is constructed with
its charge and its mass number. -/
theorem C54_partial (s : Str) (hs : upper s ∈ x4ZMap.keys) (h1 : upper s ≠ "XR".toList) (h2 : upper s ≠ "B+".toList) :
    ∃ p, particleOfStr s = .ok p ∧ chargeMass p = tabled (upper s) ∧ tabled (upper s) ≠ none := by
  have key : ∀ k ∈ x4ZMap.keys, k ≠ "XR".toList → k ≠ "B+".toList →
      (match particleOfStr k with | .ok p => decide (chargeMass p = tabled k ∧ tabled k ≠ none) | .error _ => false) = true := by
    decide +kernel
  have := key _ hs h1 h2
  rw [C54_case] at this
  cases hp : particleOfStr s with
  | error e => rw [hp] at this; cases this
  | ok p => rw [hp] at this; exact ⟨p, rfl, of_decide_eq_true this⟩

/-- C54 is false of `XR` (X-rays): an unknown symbol `R` is looked up. -/
theorem C54_XR_refuted : "XR".toList ∈ x4ZMap.keys ∧ particleOfStr "XR".toList = .error .keyError := by decide +kernel

/-- C54 is false of `B+` (positron): it is read as `B` and has charge -1. -/
theorem C54_Bplus_refuted : tabled "B+".toList = some (1, 0) ∧
    ∃ p, particleOfStr "B+".toList = .ok p ∧ chargeMass p = some (-1, 0) := by
  refine ⟨by decide +kernel, .particle (.num 1) ['B'] (-1) 0, by decide +kernel, by decide +kernel⟩

/-- charge and mass number of the particles, as physics has them: code, name, charge, mass number -/
def physicalParticles : List (Str × String × Int × Int) := [
  (chars!"N", "neutron", 0, 1), (chars!"P", "proton", 1, 1), (chars!"D", "deuteron", 1, 2), (chars!"T", "triton", 1, 3),
  (chars!"HE3", "helium-3", 2, 3), (chars!"A", "alpha", 2, 4), (chars!"HE2", "diproton", 2, 2), (chars!"G", "gamma", 0, 0),
  (chars!"E", "electron", -1, 0), (chars!"B-", "beta minus", -1, 0), (chars!"AP", "antiproton", -1, -1), (chars!"AN", "antineutron", 0, -1),
  (chars!"PIP", "positive pion", 1, 0), (chars!"PIN", "negative pion", -1, 0), (chars!"PI0", "neutral pion", 0, 0),
  (chars!"KP", "positive kaon", 1, 0), (chars!"KN", "negative kaon", -1, 0), (chars!"ETA", "eta", 0, 0)]

/-- C54: the light particles have their physical charge and mass number, in any letter case. -/
theorem C54_physical (s : Str) (name : String) (z a : Int) (h : (upper s, name, z, a) ∈ physicalParticles) :
    ∃ p, particleOfStr s = .ok p ∧ p.getZ = .ok z ∧ p.getA = .ok a := by
  have key : ∀ k ∈ physicalParticles, (match particleOfStr k.1 with
      | .ok p => (match p.getZ, p.getA with | .ok z, .ok a => decide (z = k.2.2.1 ∧ a = k.2.2.2) | _, _ => false) | .error _ => false) = true := by
    decide +kernel
  have := key _ h
  simp only [C54_case] at this
  cases hp : particleOfStr s with
  | error e => rw [hp] at this; cases this
  | ok p =>
    rw [hp] at this
    refine ⟨p, rfl, ?_⟩
    cases hz : p.getZ with
    | error e => simp only [hz] at this; cases this
    | ok z' =>
      cases ha : p.getA with
      | error e => simp only [hz, ha] at this; cases this
      | ok a' =>
        simp only [hz, ha, decide_eq_true_eq] at this
        rw [this.1, this.2]
        exact ⟨rfl, rfl⟩

/-- C54_physical applies to a triton written in lower case. -/
example : ∃ p, particleOfStr ['t'] = .ok p ∧ p.getZ = .ok 1 ∧ p.getA = .ok 3 := C54_physical ['t'] "triton" 1 3 (by decide)

example : (particleOfStr "he3".toList).toOption.bind chargeMass = some (2, 3) := by decide +kernel

/-! ### C53 -/

theorem pyInt_intStr (n : Int) : pyInt (intStr n) = some n := by
  cases n with
  | ofNat n => exact pyInt_natStr n
  | negSucc n =>
    obtain ⟨h1, h2, h3, _⟩ := natStr_spec (n + 1)
    change pyInt ('-' :: natStr (n + 1)) = _
    have hsp : ∀ c ∈ '-' :: natStr (n + 1), isSpace c = false := by
      intro c hc
      rcases List.mem_cons.1 hc with rfl | hc
      · decide
      · exact isSpace_false_of_isDig (h1 c hc)
    have hst : strip ('-' :: natStr (n + 1)) = '-' :: natStr (n + 1) :=
      strip_of_ok (fun c hc => hsp c (List.mem_of_mem_head? hc)) (fun c hc => hsp c (List.mem_of_getLast? hc))
    have hus : '_' ∉ '-' :: natStr (n + 1) := by
      intro hm
      rcases List.mem_cons.1 hm with h | hm
      · revert h; decide
      · have := h1 _ hm; revert this; decide
    have : (!(natStr (n + 1)).isEmpty && (natStr (n + 1)).all isDig) = true := by
      rw [Bool.and_eq_true, List.all_eq_true]
      exact ⟨by simp [h2], h1⟩
    simp only [pyInt, hst, usOk_of_no hus, rmUnderscore_of_no hus, takeSign, this, h3, if_true]
    rfl

/-- the particle with the given charge and mass that `residualNucleus` makes -/
theorem residualNucleus_balance {dZ dA : Int} {r : Product} (h : residualNucleus dZ dA = .ok (some r)) :
    r.charge = dZ ∧ r.mass = dA := by
  unfold residualNucleus at h
  split at h
  · injection h with h
    injection h with h
    subst h
    unfold Product.charge Product.mass Product.getZ Product.getA Particle.getZ Particle.getA pyIntE
    simp only [pyInt_intStr, and_self]
  · have hE : particleOfStr chars!"E" = .ok (.particle (.num 1) ['E'] (-1) 0) := by decide +kernel
    rw [hE] at h
    split_ifs at h with h1 h2 h3
    · simp only [Except.ok.injEq, Option.some.injEq] at h
      subst h
      exact ⟨h1.1.symm ▸ rfl, h1.2.symm ▸ rfl⟩
    · rename_i hn
      obtain ⟨rfl, -⟩ := h2
      have : endlZSymbol 1 ≠ none := by decide +kernel
      exact absurd hn this
    · cases h

theorem findChannel_iff (ps : List Product) (l : List Str) : findChannel ps l = none ↔ ∀ c ∈ l, .chan c ∉ ps := by
  induction l with
  | nil => simp [findChannel]
  | cons c r ih =>
    unfold findChannel
    split_ifs with h
    · simp [h]
    · simp [h, ih]

theorem findChannel_some {ps : List Product} {l : List Str} {c : Str} (h : findChannel ps l = some c) :
    c ∈ l ∧ .chan c ∈ ps := by
  induction l with
  | nil => cases h
  | cons d r ih =>
    unfold findChannel at h
    split_ifs at h with hm
    · injection h with h; subst h; exact ⟨by simp, hm⟩
    · obtain ⟨h1, h2⟩ := ih h; exact ⟨by simp [h1], h2⟩

/-- C53: elastic, inelastic, thermal and unspecified scattering have the target as residual,
and the channel is the only product left. -/
theorem C53_scattering (targ proj : Particle) (products : List Product) (a : Int) (ha : targ.getA = .ok a)
    (h : ∃ c ∈ ["EL".toList, "SCT".toList, "THS".toList, "INL".toList], .chan c ∈ products) :
    ∃ c ∈ ["EL".toList, "SCT".toList, "THS".toList, "INL".toList], .chan c ∈ products ∧
      setResidual targ proj products = .ok ([.chan c], some (.part targ)) := by
  have hl : ["EL".toList, "SCT".toList, "THS".toList, "INL".toList] = targetChannels := by decide
  rw [hl] at *
  cases hf : findChannel products targetChannels with
  | none =>
    obtain ⟨c, hc, hm⟩ := h
    exact absurd hm ((findChannel_iff _ _).1 hf c hc)
  | some c =>
    obtain ⟨h1, h2⟩ := findChannel_some hf
    refine ⟨c, h1, h2, ?_⟩
    unfold setResidual
    simp only [ha, hf]

theorem charge_chan (s : Str) : Product.charge (.chan s) = 0 := rfl
theorem mass_chan (s : Str) : Product.mass (.chan s) = 0 := rfl

/-- the sums of the loop -/
theorem residual_sums (ps : List Product) (hc : ∀ p ∈ ps, p.noCompound) (st st' : Int × Int × Bool)
    (h : foldE (residualStep true) st ps = .ok st') :
    st'.1 = st.1 + (ps.map Product.charge).sum ∧ st'.2.1 = st.2.1 + (ps.map Product.mass).sum := by
  induction ps generalizing st with
  | nil => injection h with h; subst h; simp
  | cons p r ih =>
    unfold foldE at h
    cases hs : residualStep true st p with
    | error e => rw [hs] at h; cases h
    | ok s1 =>
      rw [hs] at h
      obtain ⟨e1, e2⟩ := ih (fun q hq => hc q (by simp [hq])) s1 h
      have hp := hc p (by simp)
      have : s1.1 = st.1 + p.charge ∧ s1.2.1 = st.2.1 + p.mass := by
        unfold residualStep at hs
        cases p with
        | chan s =>
          simp only [Product.counts, Bool.false_and, Bool.false_eq_true, if_false] at hs
          injection hs with hs; subst hs
          simp [charge_chan, mass_chan]
        | part q =>
          have hcnt : (Product.part q).counts = true := by
            cases q <;> first | rfl | exact absurd hp id
          rw [hcnt] at hs
          simp only [Bool.and_self, if_true] at hs
          unfold Product.charge Product.mass
          cases hz : (Product.part q).getZ with
          | error e => rw [hz] at hs; cases hs
          | ok z =>
            rw [hz] at hs
            cases hA : (Product.part q).getA with
            | error e => rw [hA] at hs; cases hs
            | ok a => rw [hA] at hs; injection hs with hs; subst hs; exact ⟨rfl, rfl⟩
      rw [e1, e2, this.1, this.2]
      simp only [List.map_cons, List.sum_cons]
      constructor <;> omega

/-- without `Ain > Zin` nothing is added up -/
theorem residual_sums_false (ps : List Product) (st st' : Int × Int × Bool)
    (h : foldE (residualStep false) st ps = .ok st') :
    st'.1 = st.1 ∧ st'.2.1 = st.2.1 ∧ (ps ≠ [] → st'.2.2 = false) := by
  induction ps generalizing st with
  | nil => injection h with h; subst h; simp
  | cons p r ih =>
    unfold foldE at h
    have hs : residualStep false st p = .ok (st.1, st.2.1, false) := by
      unfold residualStep
      simp only [Bool.and_false, Bool.false_eq_true, if_false]
    rw [hs] at h
    obtain ⟨e1, e2, e3⟩ := ih _ h
    refine ⟨e1, e2, fun _ => ?_⟩
    cases r with
    | nil => injection h with h; subst h; rfl
    | cons q r => exact e3 (by simp)

theorem totalIn_spec {targ proj : Particle} {zin : Int × Int} (h : totalIn targ proj = .ok zin) :
    zin.1 = Product.charge (.part targ) + Product.charge (.part proj) ∧
    zin.2 = Product.mass (.part targ) + Product.mass (.part proj) := by
  unfold totalIn at h
  unfold Product.charge Product.mass Product.getZ Product.getA
  split at h
  · cases h
  · rename_i z1 hz1
    split at h
    · cases h
    · rename_i z2 hz2
      split at h
      · cases h
      · rename_i a1 ha1
        split at h
        · cases h
        · rename_i a2 ha2
          injection h with h
          subst h
          simp only [hz1, hz2, ha1, ha2, and_self]

theorem sum_erase_chan (f : Product → Int) (s : Str) (hf : f (.chan s) = 0) (l : List Product) :
    ((l.erase (.chan s)).map f).sum = (l.map f).sum := by
  induction l with
  | nil => rfl
  | cons a r ih =>
    rw [List.erase_cons]
    split_ifs with h
    · have : a = .chan s := by simpa using h
      subst this
      simp [hf]
    · simp [ih]

/-- C53: whenever there is a residual (other than for scattering channels), charge and mass
number are conserved, unless projectile and target annihilate (total charge and
mass number zero) or a product is a chemical compound. -/
theorem C53_partial (targ proj : Particle) (products ps : List Product) (r : Product)
    (hs : setResidual targ proj products = .ok (ps, some r))
    (hch : ∀ c ∈ ["EL".toList, "SCT".toList, "THS".toList, "INL".toList], .chan c ∉ products)
    (hcp : ∀ p ∈ products, p.noCompound)
    (hann : ¬ (Product.charge (.part targ) + Product.charge (.part proj) = 0 ∧
      Product.mass (.part targ) + Product.mass (.part proj) = 0)) :
    Balanced targ proj ps r := by
  unfold setResidual at hs
  have hl : ["EL".toList, "SCT".toList, "THS".toList, "INL".toList] = targetChannels := by decide
  rw [hl] at hch
  rw [(findChannel_iff products targetChannels).2 hch] at hs
  split at hs
  · cases hs
  · rename_i a ha
    simp only at hs
    split at hs
    · cases hs
    · rename_i zin hzin
      obtain ⟨hz1, hz2⟩ := totalIn_spec hzin
      split at hs
      · cases hs
      · rename_i st hst
        have hsum : zin.1 = st.1 ∧ zin.2 = st.2.1 ∨ st.2.2 = true → zin.1 < zin.2 ∨ products = [] := by
          intro hor
          by_contra hn
          rw [not_or] at hn
          rw [decide_eq_false hn.1] at hst
          obtain ⟨e1, e2, e3⟩ := residual_sums_false _ _ _ hst
          rcases hor with hor | hor
          · exact hann ⟨by rw [← hz1, hor.1, e1], by rw [← hz2, hor.2, e2]⟩
          · rw [e3 hn.2] at hor; cases hor
        unfold Balanced
        rw [← hz1, ← hz2]
        unfold chooseResidual at hs
        split_ifs at hs with hm hcan
        · -- the last product is the residual
          rcases hsum (.inl hm) with hlt | hnil
          · rw [decide_eq_true hlt] at hst
            obtain ⟨e1, e2⟩ := residual_sums products hcp _ _ hst
            simp only [zero_add] at e1 e2
            rw [hm.1, hm.2, e1, e2]
            split at hs
            · cases hs
            · rename_i s hlast
              injection hs with hs
              injection hs with h1 h2
              injection h2 with h2
              subst h1 h2
              obtain ⟨init, rfl⟩ := List.getLast?_eq_some_iff.1 hlast
              rw [List.dropLast_concat, sum_erase_chan _ _ (charge_chan s), sum_erase_chan _ _ (mass_chan s)]
              simp
            · rename_i p hlast
              injection hs with hs
              injection hs with h1 h2
              injection h2 with h2
              subst h1 h2
              obtain ⟨init, rfl⟩ := List.getLast?_eq_some_iff.1 hlast
              rw [List.dropLast_concat]
              simp
          · subst hnil
            cases hs
        · -- the residual is computed
          split at hs
          · cases hs
          · rename_i o ho
            injection hs with hs
            injection hs with h1 h2
            subst h1 h2
            obtain ⟨b1, b2⟩ := residualNucleus_balance ho
            rw [b1, b2]
            rcases hsum (.inr hcan) with hlt | hnil
            · rw [decide_eq_true hlt] at hst
              obtain ⟨e1, e2⟩ := residual_sums products hcp _ _ hst
              simp only [zero_add] at e1 e2
              rw [← e1, ← e2]
              constructor <;> omega
            · subst hnil
              injection hst with hst
              subst hst
              simp
        · cases hs

/-- nothing but channel names gets lost -/
theorem setResidual_mem {targ proj : Particle} {products ps : List Product} {r : Product}
    (hs : setResidual targ proj products = .ok (ps, some r))
    (hch : ∀ c ∈ ["EL".toList, "SCT".toList, "THS".toList, "INL".toList], .chan c ∉ products) :
    ∀ q ∈ products, q = r ∨ q ∈ ps ∨ ∃ s, q = .chan s := by
  intro q hq
  unfold setResidual at hs
  have hl : ["EL".toList, "SCT".toList, "THS".toList, "INL".toList] = targetChannels := by decide
  rw [hl] at hch
  rw [(findChannel_iff products targetChannels).2 hch] at hs
  split at hs
  · cases hs
  · simp only at hs
    split at hs
    · cases hs
    · split at hs
      · cases hs
      · unfold chooseResidual at hs
        split_ifs at hs with hm hcan
        · split at hs
          · cases hs
          · rename_i s hlast
            injection hs with hs
            injection hs with h1 h2
            injection h2 with h2
            subst h1 h2
            obtain ⟨init, rfl⟩ := List.getLast?_eq_some_iff.1 hlast
            rw [List.dropLast_concat]
            cases q with
            | chan t => exact .inr (.inr ⟨t, rfl⟩)
            | part x =>
              right; left
              rw [List.mem_erase_of_ne (by simp)]
              simpa using hq
          · rename_i x hlast
            injection hs with hs
            injection hs with h1 h2
            injection h2 with h2
            subst h1 h2
            obtain ⟨init, rfl⟩ := List.getLast?_eq_some_iff.1 hlast
            rw [List.dropLast_concat]
            rcases List.mem_append.1 hq with h | h
            · exact .inr (.inl h)
            · exact .inl (by simpa using h)
        · split at hs
          · cases hs
          · injection hs with hs
            injection hs with h1 h2
            subst h1
            exact .inr (.inl hq)
        · cases hs

/-- C53 for whole processes: a residual other than for scattering is balanced, with the
same two exceptions. -/
theorem C53_process_partial (names : Dict Str (List Str)) (xl : List Tok) (p : Process) (r : Product)
    (h : processOfToks names xl = .ok p) (hr : p.residual = some r)
    (hcp : ∀ q ∈ r :: p.products, q.noCompound)
    (hann : ¬ (Product.charge (.part p.targ) + Product.charge (.part p.proj) = 0 ∧
      Product.mass (.part p.targ) + Product.mass (.part p.proj) = 0)) :
    (∃ c ∈ ["EL".toList, "SCT".toList, "THS".toList, "INL".toList], p.products = [.chan c] ∧ r = .part p.targ) ∨
    Balanced p.targ p.proj p.products r := by
  unfold processOfToks at h
  split at h
  · rename_i t pj prods
    split at h
    · cases h
    · rename_i targ ht
      split at h
      · cases h
      · rename_i proj hp
        split at h
        · cases h
        · rename_i products hprods
          split at h
          · cases h
          · rename_i pr hpr
            split at h
            · cases h
            · injection h with h
              subst h
              simp only at hr hcp hann ⊢
              by_cases hch : ∃ c ∈ ["EL".toList, "SCT".toList, "THS".toList, "INL".toList], .chan c ∈ products
              · left
                cases ha : targ.getA with
                | error e => unfold setResidual at hpr; rw [ha] at hpr; cases hpr
                | ok a =>
                  obtain ⟨c, hc, -, he⟩ := C53_scattering targ proj products a ha hch
                  rw [he] at hpr
                  injection hpr with hpr
                  subst hpr
                  injection hr with hr
                  exact ⟨c, hc, rfl, hr.symm⟩
              · right
                have hch' : ∀ c ∈ ["EL".toList, "SCT".toList, "THS".toList, "INL".toList], .chan c ∉ products :=
                  fun c hc hm => hch ⟨c, hc, hm⟩
                obtain ⟨ps, res⟩ := pr
                simp only at hr hcp hann ⊢
                subst hr
                refine C53_partial targ proj products ps r hpr hch' (fun q hq => ?_) hann
                rcases setResidual_mem hpr hch' q hq with hm | hm | ⟨s, hm⟩
                · exact hcp q (by simp [hm])
                · exact hcp q (by simp [hm])
                · subst hm; trivial
  · cases h

theorem residual_can (ps : List Product) (hc : ∀ p ∈ ps, p.counts = true) (st st' : Int × Int × Bool)
    (h : foldE (residualStep true) st ps = .ok st') : st'.2.2 = st.2.2 := by
  induction ps generalizing st with
  | nil => injection h with h; subst h; rfl
  | cons p r ih =>
    unfold foldE at h
    cases hs : residualStep true st p with
    | error e => rw [hs] at h; cases h
    | ok s1 =>
      rw [hs] at h
      rw [ih (fun q hq => hc q (by simp [hq])) s1 h]
      unfold residualStep at hs
      rw [hc p (by simp)] at hs
      simp only [Bool.and_self, if_true] at hs
      split at hs
      · cases hs
      · split at hs
        · cases hs
        · injection hs with hs; subst hs; rfl

/-- C53: the residual is only left undefined if it cannot be known: if all products are
particles or nuclei, the target has a mass number, and the missing charge and mass number are
no larger than 1000 in size, there is a residual. -/
theorem C53_defined (targ proj : Particle) (products ps : List Product) (r : Option Product)
    (hs : setResidual targ proj products = .ok (ps, r)) (hc : ∀ p ∈ products, p.counts = true)
    (hm : Product.mass (.part targ) ≠ 0)
    (hlt : Product.charge (.part targ) + Product.charge (.part proj) < Product.mass (.part targ) + Product.mass (.part proj))
    (hz : (Product.charge (.part targ) + Product.charge (.part proj) - (products.map Product.charge).sum).natAbs ≤ 1000)
    (ha : (Product.mass (.part targ) + Product.mass (.part proj) - (products.map Product.mass).sum).natAbs ≤ 1000) :
    r ≠ none := by
  rintro rfl
  unfold setResidual at hs
  split at hs
  · cases hs
  · rename_i a hA
    have hA' : Product.mass (.part targ) = a := by
      change (match targ.getA with | .ok a => a | .error _ => 0) = a
      rw [hA]
    split at hs
    · injection hs with hs; injection hs with _ h2; cases h2
    · split at hs
      · cases hs
      · rename_i zin hzin
        obtain ⟨hz1, hz2⟩ := totalIn_spec hzin
        have hl : zin.1 < zin.2 := by rw [hz1, hz2]; exact hlt
        rw [decide_eq_true hl] at hs
        split at hs
        · cases hs
        · rename_i st hst
          have hcan := residual_can products hc _ _ hst
          have hsum := residual_sums products (fun p hp => by
            have := hc p hp
            cases p with
            | chan s => trivial
            | part q => cases q <;> first | trivial | cases this) _ _ hst
          simp only [zero_add] at hsum
          simp only at hcan
          rw [decide_eq_true (hA' ▸ hm)] at hcan
          unfold chooseResidual at hs
          rw [hcan] at hs
          split_ifs at hs with hmt
          · split at hs
            · cases hs
            · injection hs with hs; injection hs with _ h2; cases h2
            · injection hs with hs; injection hs with _ h2; cases h2
          · rw [hz1, hz2, hsum.1, hsum.2] at hs
            split at hs
            · cases hs
            · rename_i o ho
              injection hs with hs
              injection hs with _ h2
              subst h2
              unfold residualNucleus at ho
              split at ho
              · cases ho
              · split_ifs at ho with c1 c2 c3
                · split at ho
                  · cases ho
                  · cases ho
                · split at ho
                  · cases ho
                  · cases ho
                · omega
          · rename_i hf; exact hf rfl

/-- the process of a text and what it prints; for the examples -/
def processText (x : Str) : Except PyErr Process := processOfStr [] x

example : (match processText "94-PU-240(P,A+6-C-14+4N)".toList with
    | .ok p => (p.residual, p.products.length) | .error _ => (none, 0)) =
    (some (.part (.nucleus "87".toList "Fr".toList "219".toList)), 3) := by decide +kernel
example : (match processText "94-PU-239(N,2N)94-PU-238".toList with
    | .ok p => (p.residual, p.products.length) | .error _ => (none, 0)) =
    (some (.part (.nucleus "94".toList "Pu".toList "238".toList)), 1) := by decide +kernel

/-- C53: for a natural element or a chemical compound as target, and a projectile of mass number below 2000, no residual is made up (except
for the scattering channels). -/
theorem C53_natural (targ proj : Particle) (products : List Product)
    (ht : (∃ Z sym A, targ = .element Z sym A) ∨ ∃ Z sym code, targ = .compound Z sym code)
    {z1 z2 a2 : Int} (h1 : targ.getZ = .ok z1) (h2 : proj.getZ = .ok z2) (h3 : proj.getA = .ok a2) (hz : 0 ≤ z1) (hz2 : -1000 ≤ z2) (ha : a2 < 2000)
    (hne : products ≠ []) (hch : ∀ c ∈ ["EL".toList, "SCT".toList, "THS".toList, "INL".toList], .chan c ∉ products) :
    setResidual targ proj products = .ok (products, none) := by
  have hA : targ.getA = .ok (-3000) := by
    rcases ht with ⟨Z, sym, A, rfl⟩ | ⟨Z, sym, code, rfl⟩ <;> rfl
  have hl : ["EL".toList, "SCT".toList, "THS".toList, "INL".toList] = targetChannels := by decide
  rw [hl] at hch
  have htot : totalIn targ proj = .ok (z1 + z2, -3000 + a2) := by
    unfold totalIn; simp only [h1, h2, h3, hA]
  have hlt : decide (z1 + z2 < -3000 + a2) = false := by simp only [decide_eq_false_iff_not]; omega
  have hfold : ∀ (ps : List Product) (st : Int × Int × Bool), ps ≠ [] → foldE (residualStep false) st ps = .ok (st.1, st.2.1, false) := by
    intro ps
    induction ps with
    | nil => intro _ h; exact absurd rfl h
    | cons p r ih =>
      intro st _
      unfold foldE
      have hs : residualStep false st p = .ok (st.1, st.2.1, false) := by
        unfold residualStep
        simp only [Bool.and_false, Bool.false_eq_true, if_false]
      rw [hs]
      cases r with
      | nil => rfl
      | cons q r => exact ih _ (by simp)
  unfold setResidual
  rw [hA]
  simp only [(findChannel_iff products targetChannels).2 hch, htot, hlt, hfold products _ hne]
  unfold chooseResidual
  rw [if_neg (by omega), if_neg (by simp)]

/-- C53_natural applies: neutrons on natural iron, with a proton coming out. -/
example : setResidual (.element chars!"26" chars!"Fe" ['0']) (.particle (.num 1) ['N'] 0 1) [.part (.particle (.num 1) ['P'] 1 1)] =
    .ok ([.part (.particle (.num 1) ['P'] 1 1)], none) :=
  C53_natural _ _ _ (.inl ⟨_, _, _, rfl⟩) (z1 := 26) (z2 := 0) (a2 := 1) (by decide) (by decide) (by decide) (by decide) (by decide) (by decide)
    (by decide) (by decide)

theorem zSymbolIn_large {Z : Int} (h : 1000 < Z.natAbs) : endlZSymbol Z = none := by
  have : ∀ l : List (Int × Str × Str), (∀ i ∈ l, i.1.natAbs ≤ 1000) → zSymbolIn Z l = none := by
    intro l
    induction l with
    | nil => intro _; rfl
    | cons i r ih =>
      intro hl
      unfold zSymbolIn
      have := hl i (by simp)
      rw [if_neg (by rintro rfl; omega)]
      exact ih (fun j hj => hl j (by simp [hj]))
  exact this _ (by decide +kernel)

/-- C53: when the charges of the products are not known (they are then set to -3000, so that charge is missing on a large scale), there is no residual
and no error. -/
theorem C53_unknown (targ proj : Particle) (products : List Product) (hc : ∀ p ∈ products, p.counts = true)
    {a : Int} (ha : targ.getA = .ok a) (hch : ∀ c ∈ ["EL".toList, "SCT".toList, "THS".toList, "INL".toList], .chan c ∉ products)
    {zin : Int × Int} (hin : totalIn targ proj = .ok zin) (hlt : zin.1 < zin.2)
    (hok : ∀ p ∈ products, (∃ z, p.getZ = .ok z) ∧ ∃ a, p.getA = .ok a)
    (hbig : 1000 < (zin.1 - (products.map Product.charge).sum).natAbs) :
    setResidual targ proj products = .ok (products, none) := by
  have hl : ["EL".toList, "SCT".toList, "THS".toList, "INL".toList] = targetChannels := by decide
  rw [hl] at hch
  have hfold : ∀ (ps : List Product) (st : Int × Int × Bool), (∀ p ∈ ps, p.counts = true) → (∀ p ∈ ps, (∃ z, p.getZ = .ok z) ∧ ∃ a, p.getA = .ok a) →
      foldE (residualStep true) st ps = .ok (st.1 + (ps.map Product.charge).sum, st.2.1 + (ps.map Product.mass).sum, st.2.2) := by
    intro ps
    induction ps with
    | nil => intro st _ _; simp [foldE]
    | cons p r ih =>
      intro st hc ho
      obtain ⟨⟨z, hz⟩, b, hb⟩ := ho p (by simp)
      have hs : residualStep true st p = .ok (st.1 + z, st.2.1 + b, st.2.2) := by
        unfold residualStep
        simp only [hc p (by simp), Bool.and_self, if_true, hz, hb]
      unfold foldE
      rw [hs]
      simp only
      rw [ih _ (fun q hq => hc q (by simp [hq])) (fun q hq => ho q (by simp [hq]))]
      have e1 : p.charge = z := by unfold Product.charge; rw [hz]
      have e2 : p.mass = b := by unfold Product.mass; rw [hb]
      simp only [List.map_cons, List.sum_cons, e1, e2, add_assoc]
  unfold setResidual
  rw [ha]
  simp only [(findChannel_iff products targetChannels).2 hch, hin, decide_eq_true hlt, hfold products _ hc hok, zero_add]
  unfold chooseResidual
  have hne : ¬(zin.1 = (products.map Product.charge).sum ∧ zin.2 = (products.map Product.mass).sum) := by omega
  rw [if_neg hne]
  split
  · unfold residualNucleus
    rw [zSymbolIn_large hbig]
    simp only
    rw [if_neg (by omega), if_neg (by omega), if_pos (Or.inl hbig)]
  · rfl

/-- C53_unknown applies to fission with an unspecified element as product. -/
example : setResidual (.nucleus chars!"92" ['U'] chars!"235") (.particle (.num 1) ['N'] 0 1) [.part (.variable chars!"ELEM")] =
    .ok ([.part (.variable chars!"ELEM")], none) :=
  C53_unknown _ _ _ (by decide) (a := 235) (by decide) (by decide) (zin := (92, 236)) (by decide) (by decide)
    (by intro p hp; rw [List.mem_singleton.1 hp]; exact ⟨⟨-3000, rfl⟩, -3000, rfl⟩) (by decide)

/-- C53 is false when a product is a natural element: its mass number -3000 is used, and a helium nucleus of mass number 3059 remains. -/
theorem C53_element_refuted : ∃ p, processText "28-NI-58(N,26-FE-0)".toList = .ok p ∧
    p.residual = some (.part (.nucleus ['2'] chars!"He" chars!"3059")) := by
  refine ⟨{ targ := .nucleus chars!"28" chars!"Ni" chars!"58", proj := .particle (.num 1) ['N'] 0 1,
            products := [.part (.element chars!"26" chars!"Fe" ['0'])],
            residual := some (.part (.nucleus ['2'] chars!"He" chars!"3059")), processType := chars!"natFe" }, by decide +kernel, rfl⟩

/-- C53 is false when target and projectile annihilate: the last product, here a
neutron, is taken as residual although charge and mass number are not conserved. -/
theorem C53_annihilation_refuted : ∃ p r, processText "1-H-1(AP,N)".toList = .ok p ∧ p.residual = some r ∧
    ¬ Balanced p.targ p.proj p.products r := by
  refine ⟨{ targ := .nucleus ['1'] ['H'] ['1'], proj := .particle (.num 1) ['A', 'P'] (-1) (-1), products := [],
            residual := some (.part (.particle (.num 1) ['N'] 0 1)), processType := [] },
    .part (.particle (.num 1) ['N'] 0 1), by decide +kernel, rfl, ?_⟩
  unfold Balanced
  decide

/-- C53 is false when the text names a chemical compound as residual. -/
theorem C53_compound_refuted : ∃ p r, processText "1-H-1(N,P+N)1-H-WTR".toList = .ok p ∧ p.residual = some r ∧
    ¬ Balanced p.targ p.proj p.products r := by
  refine ⟨{ targ := .nucleus ['1'] ['H'] ['1'], proj := .particle (.num 1) ['N'] 0 1,
            products := [.part (.particle (.num 1) ['P'] 1 1), .part (.particle (.num 1) ['N'] 0 1)],
            residual := some (.part (.compound 1 ['H'] "1-H-WTR".toList)), processType := "p+n".toList },
    .part (.compound 1 ['H'] "1-H-WTR".toList), by decide +kernel, rfl, ?_⟩
  unfold Balanced
  decide

end X4
