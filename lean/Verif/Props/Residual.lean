import Verif.Props.Reaction
import Verif.Props.Isomers
import Verif.Props.Printing
/-! The residual written in a reaction text and the residual of the reaction object (C101). -/
namespace X4
open Parser

/-! ### what is written -/

/-- charge and mass number of the usual light particles (`PIP` is a positive pion) -/
def lightParticles : List (Str × Int × Int) := [
  (chars!"N", 0, 1), (chars!"P", 1, 1), (chars!"D", 1, 2), (chars!"T", 1, 3), (chars!"HE3", 2, 3), (chars!"A", 2, 4),
  (chars!"G", 0, 0), (chars!"PIP", 1, 0)]

/-- codes that stand for a channel and not for a particle -/
def channelCodes : List Str := [
  chars!"TOT", chars!"EL", chars!"ABS", chars!"INL", chars!"TCC", chars!"FUS", chars!"NON", chars!"SCT", chars!"F",
  chars!"PAI", chars!"THS", chars!"X"]

/-- channels that leave the target as it is, except for excitation -/
def scatteringCodes : List Str := [chars!"EL", chars!"SCT", chars!"THS", chars!"INL"]

/-- `q` is written as something with charge `z` and mass number `a`; channels carry nothing -/
def ProdText.Carries : ProdText → Int → Int → Prop
  | .nuc n, z, a => pyIntE n.Z = .ok z ∧ pyIntE n.A = .ok a ∧ n.A ≠ ['0']
  | .word w, z, a => (w, z, a) ∈ lightParticles ∨ (w ∈ channelCodes ∧ z = 0 ∧ a = 0)
  | .mult n w, z, a => ∃ k z' a', pyIntE n = .ok k ∧ (w, z', a') ∈ lightParticles ∧ z = k * z' ∧ a = k * a'
  | .zero, z, a => z = 0 ∧ a = 0

/-- the product is a channel -/
def ProdText.isChannel : ProdText → Prop
  | .word w => w ∈ channelCodes
  | .zero => True
  | _ => False

/-- the object for a nucleus, in the state that is written -/
def NucText.object (n : NucText) : Particle :=
  match n.mods with
  | [] => .nucleus n.Z (capitalize n.sym) n.A
  | m :: _ => .isomer n.Z (capitalize n.sym) n.A m.levels

/-- the residual is a nucleus, without modifier or in one state `G`, `M`, `M1`, ... -/
def NucText.oneState (n : NucText) : Prop :=
  n.mods = [] ∨ ∃ m, n.mods = [m] ∧ m.letter ∈ ['G', 'M', 'T'] ∧ (m.letter ≠ 'M' → m.digits = [])

/-! ### what is read -/

theorem nuc_object {n : NucText} (hn : n.wf) (h1 : n.oneState) (hA : n.A ≠ ['0']) : setParticleType (.grp n.toks) = .ok n.object := by
  rcases h1 with hm | ⟨m, hm, hl, hd⟩
  · unfold setParticleType NucText.object
    simp only
    rw [nucToks_eq, strToks_map, hm]
    obtain ⟨-, -, hA', -⟩ := hn
    simp [modStrs, isDigitStr_digitText hA', hA]
  · have := C79_states n hn m hm hl hd
    unfold NucText.object
    rw [hm]
    exact this

theorem setProduct_group {ts : List Tok} {p : Product} (h : setProduct (.grp ts) = .ok p) : ∃ q, p = .part q ∧ setParticleType (.grp ts) = .ok q := by
  unfold setProduct setProduct.particleOfTok at h
  simp only at h
  split at h
  · cases h
  · rename_i q hq
    injection h with h
    exact ⟨q, h.symm, hq⟩

theorem nuc_not_compound {n : NucText} {p : Particle} (h : setParticleType (.grp n.toks) = .ok p) : (Product.part p).counts = true := by
  unfold setParticleType at h
  simp only at h
  rw [nucToks_eq, strToks_map] at h
  simp only [List.cons_append, List.nil_append] at h
  cases hm : modStrs n.mods with
  | nil =>
    rw [hm] at h
    simp only at h
    split_ifs at h <;> (injection h with h; subst h; rfl)
  | cons m l =>
    rw [hm] at h
    simp only at h
    unfold isomerOfToks at h
    split_ifs at h
    injection h with h
    subst h
    rfl

/-- charge and mass number of the object made of a product -/
theorem product_carries {q : ProdText} (hq : q.wf) {z a : Int} (hc : q.Carries z a) {p : Product} (h : setProduct q.tok = .ok p) :
    p.charge = z ∧ p.mass = a ∧ p.noCompound ∧ (q.isChannel → p.counts = false) ∧ (¬ q.isChannel → p.counts = true) ∧
    (∀ c, p = .chan c ↔ q.text = c ∧ q.isChannel) := by
  cases q with
  | nuc n =>
    obtain ⟨r, rfl, hr⟩ := setProduct_group h
    obtain ⟨h1, h2⟩ := setParticleType_charge hq hr
    have h3 := nuc_not_compound hr
    obtain ⟨c1, c2, c3⟩ := hc
    refine ⟨?_, ?_, ?_, fun hf => hf.elim, fun _ => h3, fun c => ⟨fun hh => (by cases hh), fun hh => hh.2.elim⟩⟩
    · simp [Product.charge, Product.getZ, h1, c1]
    · simp [Product.mass, Product.getA, h2 (.inl c3), c2]
    · cases r <;> first | trivial | cases h3
  | word w =>
    rcases hc with hc | ⟨hc, rfl, rfl⟩
    · simp only [lightParticles, List.mem_cons, Prod.mk.injEq, List.not_mem_nil, or_false] at hc
      have hch : w ∉ channelCodes := by
        rcases hc with ⟨rfl, -⟩ | ⟨rfl, -⟩ | ⟨rfl, -⟩ | ⟨rfl, -⟩ | ⟨rfl, -⟩ | ⟨rfl, -⟩ | ⟨rfl, -⟩ | ⟨rfl, -⟩ <;> decide
      have key : ∀ p', setProduct (.str w) = .ok p' → p'.charge = z ∧ p'.mass = a ∧ p'.noCompound ∧ p'.counts = true ∧ ∀ c, p' ≠ .chan c := by
        intro p' hp'
        rcases hc with ⟨rfl, rfl, rfl⟩ | ⟨rfl, rfl, rfl⟩ | ⟨rfl, rfl, rfl⟩ | ⟨rfl, rfl, rfl⟩ | ⟨rfl, rfl, rfl⟩ | ⟨rfl, rfl, rfl⟩ | ⟨rfl, rfl, rfl⟩ | ⟨rfl, rfl, rfl⟩
        · rw [show setProduct (.str chars!"N") = .ok (.part (.particle (.num 1) chars!"N" 0 1)) by decide +kernel] at hp'
          injection hp' with hp'; subst hp'; exact ⟨rfl, rfl, trivial, rfl, by simp⟩
        · rw [show setProduct (.str chars!"P") = .ok (.part (.particle (.num 1) chars!"P" 1 1)) by decide +kernel] at hp'
          injection hp' with hp'; subst hp'; exact ⟨rfl, rfl, trivial, rfl, by simp⟩
        · rw [show setProduct (.str chars!"D") = .ok (.part (.particle (.num 1) chars!"D" 1 2)) by decide +kernel] at hp'
          injection hp' with hp'; subst hp'; exact ⟨rfl, rfl, trivial, rfl, by simp⟩
        · rw [show setProduct (.str chars!"T") = .ok (.part (.particle (.num 1) chars!"T" 1 3)) by decide +kernel] at hp'
          injection hp' with hp'; subst hp'; exact ⟨rfl, rfl, trivial, rfl, by simp⟩
        · rw [show setProduct (.str chars!"HE3") = .ok (.part (.particle (.num 1) chars!"HE3" 2 3)) by decide +kernel] at hp'
          injection hp' with hp'; subst hp'; exact ⟨rfl, rfl, trivial, rfl, by simp⟩
        · rw [show setProduct (.str chars!"A") = .ok (.part (.particle (.num 1) chars!"A" 2 4)) by decide +kernel] at hp'
          injection hp' with hp'; subst hp'; exact ⟨rfl, rfl, trivial, rfl, by simp⟩
        · rw [show setProduct (.str chars!"G") = .ok (.part (.particle (.num 1) chars!"G" 0 0)) by decide +kernel] at hp'
          injection hp' with hp'; subst hp'; exact ⟨rfl, rfl, trivial, rfl, by simp⟩
        · rw [show setProduct (.str chars!"PIP") = .ok (.part (.particle (.num 1) chars!"PIP" 1 0)) by decide +kernel] at hp'
          injection hp' with hp'; subst hp'; exact ⟨rfl, rfl, trivial, rfl, by simp⟩
      obtain ⟨k1, k2, k3, k4, k5⟩ := key p h
      exact ⟨k1, k2, k3, fun hf => absurd hf hch, fun _ => k4, fun c => ⟨fun hh => absurd hh (k5 c), fun hh => absurd hh.2 hch⟩⟩
    · have hm : x4ReactionMap.has w = true := by
        simp only [channelCodes, List.mem_cons, List.not_mem_nil, or_false] at hc
        rcases hc with rfl | rfl | rfl | rfl | rfl | rfl | rfl | rfl | rfl | rfl | rfl | rfl <;> decide
      simp only [ProdText.tok, setProduct, hm, if_true] at h
      injection h with h
      subst h
      exact ⟨rfl, rfl, trivial, fun _ => rfl, fun hf => absurd hc hf, fun c => by simp [ProdText.text, ProdText.isChannel, hc]⟩
  | mult n w =>
    obtain ⟨r, rfl, hr⟩ := setProduct_group h
    obtain ⟨k, z', a', hk, hw, rfl, rfl⟩ := hc
    obtain ⟨hd, -⟩ := hq
    have hlow : lower n = n := lower_digits hd.2
    simp only [setParticleType, strToks, Option.map_some, particleOfToks, List.map_cons, List.map_nil, hlow, multSym, hk] at hr
    have key : lookupParticle (.num k, lower w) = .ok (.particle (.num k) (lower w) z' a') := by
      simp only [lightParticles, List.mem_cons, Prod.mk.injEq, List.not_mem_nil, or_false] at hw
      rcases hw with ⟨rfl, rfl, rfl⟩ | ⟨rfl, rfl, rfl⟩ | ⟨rfl, rfl, rfl⟩ | ⟨rfl, rfl, rfl⟩ | ⟨rfl, rfl, rfl⟩ | ⟨rfl, rfl, rfl⟩ | ⟨rfl, rfl, rfl⟩ | ⟨rfl, rfl, rfl⟩ <;> rfl
    rw [key] at hr
    injection hr with hr
    subst hr
    exact ⟨rfl, rfl, trivial, fun hf => hf.elim, fun _ => rfl, fun c => ⟨fun hh => (by cases hh), fun hh => hh.2.elim⟩⟩
  | zero =>
    obtain ⟨rfl, rfl⟩ := hc
    rw [show setProduct (ProdText.zero.tok) = .ok (.chan ['0']) by decide] at h
    injection h with h
    subst h
    exact ⟨rfl, rfl, trivial, fun _ => rfl, fun hf => (hf trivial).elim, fun c => by simp [ProdText.text, ProdText.isChannel]⟩

theorem forall₂_append_split {α β} {r : α → β → Prop} {a b : List α} {l : List β} (h : List.Forall₂ r (a ++ b) l) :
    ∃ la lb, List.Forall₂ r a la ∧ List.Forall₂ r b lb ∧ l = la ++ lb := by
  induction a generalizing l with
  | nil => exact ⟨[], l, .nil, h, rfl⟩
  | cons x a ih =>
    cases h with
    | cons hx ht =>
      obtain ⟨la, lb, h1, h2, rfl⟩ := ih ht
      exact ⟨_ :: la, lb, .cons hx h1, h2, rfl⟩

/-- the products and the residual of a reaction read from its text come from what is written by
`setResidual` -/
theorem reaction_residual {names : Dict Str (List Str)} {x : ReactText} (hx : x.wf) {R : Reaction} (h : reactionOfStr names x.text = .ok R) :
    ∃ ps rs, List.Forall₂ (fun q p => setProduct q.tok = .ok p) (x.proc.prod :: x.proc.prods) ps ∧
      mapE setProduct (x.proc.resid.elim [] (fun r => [r.tok])) = .ok rs ∧
      setParticleType x.proc.targ.tok = .ok R.proc.targ ∧ setParticleType x.proc.proj.tok = .ok R.proc.proj ∧
      setResidual R.proc.targ R.proc.proj (ps ++ rs) = .ok (R.proc.products, R.proc.residual) := by
  rw [reactionOfStr_toks names x hx] at h
  obtain ⟨hp, -⟩ := reactionOfToks_grp h
  rw [ProcText.toks, List.cons_append, List.cons_append, List.cons_append] at hp
  obtain ⟨h1, h2⟩ := processOfToks_parts hp
  rw [List.cons_append] at hp
  unfold processOfToks at hp
  simp only [h1, h2] at hp
  split at hp
  · cases hp
  · rename_i l hl
    split at hp
    · cases hp
    · rename_i pr hpr
      split at hp
      · cases hp
      · injection hp with hp
        rw [mapE_ok_iff] at hl
        have hl' : List.Forall₂ (fun q p => setProduct q = .ok p) ((x.proc.prod.tok :: x.proc.prods.map ProdText.tok) ++ x.proc.resid.elim [] (fun r => [r.tok])) l := by
          simpa using hl
        obtain ⟨ps, rs, hps, hrs, rfl⟩ := forall₂_append_split hl'
        refine ⟨ps, rs, ?_, mapE_ok_iff.2 hrs, h1, h2, ?_⟩
        · have : x.proc.prod.tok :: x.proc.prods.map ProdText.tok = (x.proc.prod :: x.proc.prods).map ProdText.tok := rfl
          rw [this, List.forall₂_map_left_iff] at hps
          exact hps
        · rw [← hp]
          exact hpr


/-- a projectile that carries charge and mass -/
theorem proj_carries {q : ProdText} (hq : q.wfProj) (hn : ∀ w, q = .word w → w ∉ channelCodes) {z a : Int} (hc : q.Carries z a)
    {p : Particle} (h : setParticleType q.tok = .ok p) : Product.charge (.part p) = z ∧ Product.mass (.part p) = a := by
  cases q with
  | nuc n =>
    have : setProduct (ProdText.nuc n).tok = .ok (.part p) := by
      simp only [ProdText.tok, setProduct, setProduct.particleOfTok] at h ⊢
      rw [h]
    obtain ⟨h1, h2, -⟩ := product_carries (q := .nuc n) hq hc this
    exact ⟨h1, h2⟩
  | word w =>
    have hw := hn w rfl
    have hl : (w, z, a) ∈ lightParticles := by
      rcases hc with hc | ⟨hc, -⟩
      · exact hc
      · exact absurd hc hw
    have hX : w.head? = some 'X' → w = ['X'] := by
      simp only [lightParticles, List.mem_cons, Prod.mk.injEq, List.not_mem_nil, or_false] at hl
      rcases hl with ⟨rfl, -⟩ | ⟨rfl, -⟩ | ⟨rfl, -⟩ | ⟨rfl, -⟩ | ⟨rfl, -⟩ | ⟨rfl, -⟩ | ⟨rfl, -⟩ | ⟨rfl, -⟩ <;> decide
    have hm : x4ReactionMap.has w = false := by
      simp only [lightParticles, List.mem_cons, Prod.mk.injEq, List.not_mem_nil, or_false] at hl
      rcases hl with ⟨rfl, -⟩ | ⟨rfl, -⟩ | ⟨rfl, -⟩ | ⟨rfl, -⟩ | ⟨rfl, -⟩ | ⟨rfl, -⟩ | ⟨rfl, -⟩ | ⟨rfl, -⟩ <;> decide
    have : setProduct (ProdText.word w).tok = .ok (.part p) := by
      simp only [ProdText.tok, setProduct, setProduct.particleOfTok] at h ⊢
      rw [h, hm]
      rfl
    obtain ⟨h1, h2, -⟩ := product_carries (q := .word w) ⟨hq, hX⟩ hc this
    exact ⟨h1, h2⟩
  | mult n w => exact hq.elim
  | zero =>
    obtain ⟨rfl, rfl⟩ := hc
    rw [show setParticleType ProdText.zero.tok = .ok (.particle (.num 0) ['0'] 0 0) by decide] at h
    injection h with h
    subst h
    exact ⟨rfl, rfl⟩

theorem products_carry {qs : List ProdText} (hq : ∀ q ∈ qs, q.wf) {vs : List (Int × Int)} (hv : List.Forall₂ (fun q v => q.Carries v.1 v.2) qs vs)
    {ps : List Product} (h : List.Forall₂ (fun q p => setProduct q.tok = .ok p) qs ps) :
    ps.map Product.charge = vs.map Prod.fst ∧ ps.map Product.mass = vs.map Prod.snd ∧ (∀ p ∈ ps, p.noCompound) ∧
    ((∃ q ∈ qs, q.isChannel) → ∃ p ∈ ps, p.counts = false) ∧ (∀ c, .chan c ∈ ps ↔ ∃ q ∈ qs, q.text = c ∧ q.isChannel) := by
  induction h generalizing vs with
  | nil => cases hv; simp
  | cons hx ht ih =>
    cases hv with
    | cons hv1 hv2 =>
      obtain ⟨i1, i2, i3, i4, i5⟩ := ih (fun q hq' => hq q (by simp [hq'])) hv2
      obtain ⟨k1, k2, k3, k4, -, k6⟩ := product_carries (hq _ (by simp)) hv1 hx
      refine ⟨by simp [k1, i1], by simp [k2, i2], by simpa using ⟨k3, i3⟩, ?_, ?_⟩
      · rintro ⟨q, hq', hc⟩
        rcases List.mem_cons.1 hq' with rfl | hq'
        · exact ⟨_, by simp, k4 hc⟩
        · obtain ⟨p, hp, hpc⟩ := i4 ⟨q, hq', hc⟩
          exact ⟨p, by simp [hp], hpc⟩
      · intro c
        simp only [List.mem_cons, exists_eq_or_imp, ← i5 c]
        exact or_congr ⟨fun e => (k6 c).1 e.symm, fun e => ((k6 c).2 e).symm⟩ Iff.rfl

/-- products that do not count make the residual incomputable -/
theorem residual_cannot (b : Bool) (ps : List Product) (st st' : Int × Int × Bool) (h : foldE (residualStep b) st ps = .ok st')
    (hc : st.2.2 = false ∨ ∃ p ∈ ps, p.counts = false) : st'.2.2 = false := by
  induction ps generalizing st with
  | nil =>
    injection h with h
    subst h
    simpa using hc
  | cons p r ih =>
    unfold foldE at h
    cases hs : residualStep b st p with
    | error e => rw [hs] at h; cases h
    | ok s1 =>
      rw [hs] at h
      refine ih s1 h ?_
      unfold residualStep at hs
      split_ifs at hs with hcnt
      · split at hs
        · cases hs
        · split at hs
          · cases hs
          · injection hs with hs
            subst hs
            rcases hc with hc | ⟨q, hq, hqc⟩
            · exact .inl hc
            · rcases List.mem_cons.1 hq with rfl | hq
              · rw [hqc] at hcnt; cases hcnt
              · exact .inr ⟨q, hq, hqc⟩
      · injection hs with hs
        subst hs
        exact .inl rfl

/-- the parts of `setResidual` when no product is a scattering channel -/
theorem setResidual_split {targ proj : Particle} {ps : List Product} {o : List Product × Option Product}
    (hch : ∀ c ∈ scatteringCodes, Product.chan c ∉ ps) (h : setResidual targ proj ps = .ok o) :
    ∃ zin st b, totalIn targ proj = .ok zin ∧ foldE (residualStep (decide (zin.1 < zin.2))) (0, 0, b) ps = .ok st ∧
      chooseResidual zin.1 zin.2 st.1 st.2.1 st.2.2 ps = .ok o := by
  unfold setResidual at h
  have : scatteringCodes = targetChannels := rfl
  rw [this] at hch
  rw [(findChannel_iff ps targetChannels).2 hch] at h
  split at h
  · cases h
  · simp only at h
    split at h
    · cases h
    · rename_i zin hzin
      split at h
      · cases h
      · rename_i st hst
        exact ⟨zin, st, _, hzin, hst, h⟩

/-- what the theorems about written residuals share -/
structure WrittenResidual (x : ReactText) (T r : NucText) (zt at' zp ap : Int) (vs : List (Int × Int)) (zr ar : Int) : Prop where
  wf : x.wf
  targ : x.proc.targ = .nuc T
  resid : x.proc.resid = some (.nuc r)
  state : r.oneState
  ct : (ProdText.nuc T).Carries zt at'
  cp : x.proc.proj.Carries zp ap
  cpc : ∀ w, x.proc.proj = .word w → w ∉ channelCodes
  cv : List.Forall₂ (fun q v => q.Carries v.1 v.2) (x.proc.prod :: x.proc.prods) vs
  cr : (ProdText.nuc r).Carries zr ar
  noscat : ∀ q ∈ x.proc.prod :: x.proc.prods, q.isChannel → q.text ∉ scatteringCodes

theorem WrittenResidual.read {x : ReactText} {T r : NucText} {zt at' zp ap zr ar : Int} {vs : List (Int × Int)}
    (hw : WrittenResidual x T r zt at' zp ap vs zr ar) {names : Dict Str (List Str)} {R : Reaction} (h : reactionOfStr names x.text = .ok R) :
    ∃ ps b st, List.Forall₂ (fun q p => setProduct q.tok = .ok p) (x.proc.prod :: x.proc.prods) ps ∧
      foldE (residualStep (decide (zt + zp < at' + ap))) (0, 0, b) (ps ++ [.part r.object]) = .ok st ∧
      (zt + zp < at' + ap → st.1 = (vs.map Prod.fst).sum + zr ∧ st.2.1 = (vs.map Prod.snd).sum + ar) ∧
      chooseResidual (zt + zp) (at' + ap) st.1 st.2.1 st.2.2 (ps ++ [.part r.object]) = .ok (R.proc.products, R.proc.residual) := by
  obtain ⟨ps, rs, h1, h2, h3, h4, h5⟩ := reaction_residual hw.wf h
  obtain ⟨⟨w1, w2, w3, -, w5⟩, -⟩ := hw.wf
  rw [hw.targ] at h3 w1
  have hrw : r.wf := w5 (.nuc r) hw.resid
  have hobj := nuc_object hrw hw.state hw.cr.2.2
  have hrs : rs = [.part r.object] := by
    rw [hw.resid] at h2
    have h2' : mapE setProduct [.grp r.toks] = .ok rs := h2
    rw [mapE_ok_iff] at h2'
    cases h2' with
    | cons e1 e2 =>
      cases e2
      obtain ⟨q, rfl, hq⟩ := setProduct_group e1
      rw [hobj] at hq
      rw [← Except.ok.inj hq]
  subst hrs
  obtain ⟨c1, c2, c3, -, c5⟩ := products_carry w3 hw.cv h1
  have hT : Product.charge (.part R.proc.targ) = zt ∧ Product.mass (.part R.proc.targ) = at' := by
    have : setProduct (ProdText.nuc T).tok = .ok (.part R.proc.targ) := by
      simp only [ProdText.tok, TargText.tok, setProduct, setProduct.particleOfTok] at h3 ⊢
      rw [h3]
    obtain ⟨k1, k2, -⟩ := product_carries (q := .nuc T) w1 hw.ct this
    exact ⟨k1, k2⟩
  have hR : Product.charge (.part r.object) = zr ∧ Product.mass (.part r.object) = ar ∧ (Product.part r.object).noCompound := by
    have : setProduct (ProdText.nuc r).tok = .ok (.part r.object) := by
      simp only [ProdText.tok, setProduct, setProduct.particleOfTok]
      rw [hobj]
    obtain ⟨k1, k2, k3, -⟩ := product_carries (q := .nuc r) hrw hw.cr this
    exact ⟨k1, k2, k3⟩
  have hP := proj_carries w2 hw.cpc hw.cp h4
  have hch : ∀ c ∈ scatteringCodes, Product.chan c ∉ ps ++ [.part r.object] := by
    intro c hc hm
    simp only [List.mem_append, List.mem_cons, List.not_mem_nil, or_false, reduceCtorEq] at hm
    obtain ⟨q, hq, hqt, hqc⟩ := (c5 c).1 hm
    exact hw.noscat q hq hqc (hqt ▸ hc)
  obtain ⟨zin, st, b, e1, e2, e3⟩ := setResidual_split hch h5
  obtain ⟨z1, z2⟩ := totalIn_spec e1
  rw [hT.1, hP.1] at z1
  rw [hT.2, hP.2] at z2
  rw [z1, z2] at e2 e3
  refine ⟨ps, b, st, h1, e2, ?_, e3⟩
  intro hlt
  rw [decide_eq_true hlt] at e2
  obtain ⟨s1, s2⟩ := residual_sums _ (by
    intro p hp
    simp only [List.mem_append, List.mem_cons, List.not_mem_nil, or_false] at hp
    rcases hp with hp | rfl
    · exact c3 p hp
    · exact hR.2.2) _ _ e2
  simp only [zero_add, List.map_append, List.map_cons, List.map_nil, List.sum_append, List.sum_cons, List.sum_nil, add_zero, c1, c2, hR.1, hR.2.1] at s1 s2
  exact ⟨s1, s2⟩

/-- C101: if charges and mass numbers of products and residual add up to those of target and
projectile (and these are not only protons), the residual of the reaction is the nucleus written behind
the parentheses, in the state that is written, and the products are those in the parentheses. -/
theorem C101_balanced_partial (names : Dict Str (List Str)) (x : ReactText) (T r : NucText) (zt at' zp ap zr ar : Int) (vs : List (Int × Int))
    (hw : WrittenResidual x T r zt at' zp ap vs zr ar)
    (hZ : zt + zp = (vs.map Prod.fst).sum + zr) (hA : at' + ap = (vs.map Prod.snd).sum + ar) (hlt : zt + zp < at' + ap)
    (R : Reaction) (h : reactionOfStr names x.text = .ok R) :
    R.proc.residual = some (.part r.object) ∧
    List.Forall₂ (fun q p => setProduct q.tok = .ok p) (x.proc.prod :: x.proc.prods) R.proc.products := by
  obtain ⟨ps, b, st, h1, h2, h3, h4⟩ := hw.read h
  obtain ⟨s1, s2⟩ := h3 hlt
  unfold chooseResidual at h4
  rw [if_pos ⟨by rw [s1, hZ], by rw [s2, hA]⟩] at h4
  simp only [List.getLast?_concat, List.dropLast_concat] at h4
  injection h4 with h4
  injection h4 with h4 h5
  exact ⟨h5.symm, h4 ▸ h1⟩

/-- C101 is false: behind a channel that is no scattering, such as fission or unspecified products,
the written residual is only found if it has the charge and mass of target and projectile together;
in all other cases there is no residual, and the written one is listed with the products. -/
theorem C101_channel_refuted (names : Dict Str (List Str)) (x : ReactText) (T r : NucText) (zt at' zp ap zr ar : Int) (vs : List (Int × Int))
    (hw : WrittenResidual x T r zt at' zp ap vs zr ar) (hc : ∃ q ∈ x.proc.prod :: x.proc.prods, q.isChannel)
    (hne : ¬ (zt + zp = (vs.map Prod.fst).sum + zr ∧ at' + ap = (vs.map Prod.snd).sum + ar)) (hlt : zt + zp < at' + ap)
    (R : Reaction) (h : reactionOfStr names x.text = .ok R) :
    R.proc.residual = none ∧ ∃ ps, R.proc.products = ps ++ [.part r.object] ∧
      List.Forall₂ (fun q p => setProduct q.tok = .ok p) (x.proc.prod :: x.proc.prods) ps := by
  obtain ⟨ps, b, st, h1, h2, h3, h4⟩ := hw.read h
  obtain ⟨s1, s2⟩ := h3 hlt
  obtain ⟨-, -, -, c4, -⟩ := products_carry hw.wf.1.2.2.1 hw.cv h1
  obtain ⟨p, hp, hpc⟩ := c4 hc
  have hcan := residual_cannot _ _ _ _ h2 (.inr ⟨p, by simp [hp], hpc⟩)
  unfold chooseResidual at h4
  rw [if_neg (by rw [s1, s2]; exact hne), hcan] at h4
  simp only [Bool.false_eq_true, if_false] at h4
  injection h4 with h4
  injection h4 with h4 h5
  exact ⟨h5.symm, ps, h4.symm, h1⟩

/-- C101 is false: if target and projectile are only protons, there is no residual whatever is
written. -/
theorem C101_protons_refuted (names : Dict Str (List Str)) (x : ReactText) (T r : NucText) (zt at' zp ap zr ar : Int) (vs : List (Int × Int))
    (hw : WrittenResidual x T r zt at' zp ap vs zr ar) (hle : at' + ap ≤ zt + zp) (h0 : at' + ap ≠ 0)
    (R : Reaction) (h : reactionOfStr names x.text = .ok R) : R.proc.residual = none := by
  obtain ⟨ps, b, st, h1, h2, -, h4⟩ := hw.read h
  rw [decide_eq_false (not_lt.2 hle)] at h2
  obtain ⟨e1, e2, e3⟩ := residual_sums_false _ _ _ h2
  unfold chooseResidual at h4
  rw [e1, e2, e3 (by simp), if_neg (by rintro ⟨-, hh⟩; exact h0 hh)] at h4
  simp only [Bool.false_eq_true, if_false] at h4
  exact (congrArg Prod.snd (Except.ok.inj h4)).symm

/-- C101 is false for natural elements as targets: whatever is written behind the parentheses, there is no residual, and the written one
is listed with the products. -/
theorem C101_natural_refuted (names : Dict Str (List Str)) (x : ReactText) (hx : x.wf) (T r : NucText) (ht : x.proc.targ = .nuc T)
    (hA : T.A = ['0']) (hm : T.mods = []) (hr : x.proc.resid = some (.nuc r)) (zt zp ap : Int) (hz : pyIntE T.Z = .ok zt) (hz0 : 0 ≤ zt)
    (hp : x.proc.proj.Carries zp ap) (hpc : ∀ w, x.proc.proj = .word w → w ∉ channelCodes) (hzp : -1000 ≤ zp) (hap : ap < 2000)
    (vs : List (Int × Int)) (cv : List.Forall₂ (fun q v => q.Carries v.1 v.2) (x.proc.prod :: x.proc.prods) vs)
    (noscat : ∀ q ∈ x.proc.prod :: x.proc.prods, q.isChannel → q.text ∉ scatteringCodes)
    (R : Reaction) (h : reactionOfStr names x.text = .ok R) :
    R.proc.residual = none ∧ ∃ ps p, R.proc.products = ps ++ [.part p] ∧ setParticleType (.grp r.toks) = .ok p ∧
      List.Forall₂ (fun q p => setProduct q.tok = .ok p) (x.proc.prod :: x.proc.prods) ps := by
  obtain ⟨ps, rs, h1, h2, h3, h4, h5⟩ := reaction_residual hx h
  have hw := hx
  obtain ⟨⟨w1, w2, w3, -, w5⟩, -⟩ := hw
  obtain ⟨-, -, -, -, c5⟩ := products_carry w3 cv h1
  obtain ⟨p, rfl, hpr⟩ : ∃ p, rs = [.part p] ∧ setParticleType (.grp r.toks) = .ok p := by
    rw [hr] at h2
    have h2' : mapE setProduct [.grp r.toks] = .ok rs := h2
    rw [mapE_ok_iff] at h2'
    cases h2' with
    | cons e1 e2 =>
      cases e2
      obtain ⟨q, rfl, hq⟩ := setProduct_group e1
      exact ⟨q, rfl, hq⟩
  rw [ht] at h3 w1
  have hel : R.proc.targ = .element T.Z (capitalize T.sym) T.A := by
    have h3' : setParticleType (.grp T.toks) = .ok R.proc.targ := h3
    unfold setParticleType at h3'
    simp only at h3'
    rw [nucToks_eq, strToks_map, hm] at h3'
    simp only [hA] at h3'
    simp [modStrs, isDigitStr] at h3'
    rw [if_pos (by decide)] at h3'
    rw [hA]
    exact (Except.ok.inj h3').symm
  have hgz : R.proc.targ.getZ = .ok zt := by
    rw [hel]
    exact hz
  have hP := proj_carries w2 hpc hp h4
  have hch : ∀ c ∈ scatteringCodes, Product.chan c ∉ ps ++ [.part p] := by
    intro c hc hm
    simp only [List.mem_append, List.mem_cons, List.not_mem_nil, or_false, reduceCtorEq] at hm
    obtain ⟨q, hq, hqt, hqc⟩ := (c5 c).1 hm
    exact noscat q hq hqc (hqt ▸ hc)
  obtain ⟨zin, st, b, e1, e2, e3⟩ := setResidual_split hch h5
  have hpz : R.proc.proj.getZ = .ok zp ∧ R.proc.proj.getA = .ok ap := by
    obtain ⟨q1, q2⟩ := hP
    unfold totalIn at e1
    simp only [Product.charge, Product.mass, Product.getZ, Product.getA] at q1 q2
    cases g1 : R.proc.proj.getZ with
    | error e => rw [g1, hgz] at e1; cases e1
    | ok z =>
      cases g2 : R.proc.proj.getA with
      | error e => rw [g1, g2, hgz, hel] at e1; cases e1
      | ok a =>
        rw [g1] at q1
        rw [g2] at q2
        exact ⟨congrArg _ q1, congrArg _ q2⟩
  rw [show scatteringCodes = ["EL".toList, "SCT".toList, "THS".toList, "INL".toList] by decide] at hch
  have := C53_natural R.proc.targ R.proc.proj (ps ++ [.part p]) (.inl ⟨_, _, _, hel⟩) hgz hpz.1 hpz.2 hz0 hzp hap (by simp) hch
  rw [this] at h5
  have h6 := Prod.mk.inj (Except.ok.inj h5)
  exact ⟨h6.2.symm, ps, p, h6.1.symm, hpr, h1⟩

/-- C101 is false: behind a scattering channel the residual is the target, whatever is written. -/
theorem C101_scattering_refuted (names : Dict Str (List Str)) (x : ReactText) (hx : x.wf) (w : Str) (hw : w ∈ scatteringCodes)
    (hq : .word w ∈ x.proc.prod :: x.proc.prods) (R : Reaction) (h : reactionOfStr names x.text = .ok R) :
    R.proc.residual = some (.part R.proc.targ) ∧ ∃ c ∈ scatteringCodes, R.proc.products = [.chan c] := by
  obtain ⟨ps, rs, h1, h2, h3, h4, h5⟩ := reaction_residual hx h
  have hm : .chan w ∈ ps := by
    clear h5
    generalize x.proc.prod :: x.proc.prods = qs at h1 hq
    induction h1 with
    | nil => cases hq
    | cons hx' ht ih =>
      rcases List.mem_cons.1 hq with rfl | hq
      · have hm : x4ReactionMap.has w = true := by
          simp only [scatteringCodes, List.mem_cons, List.not_mem_nil, or_false] at hw
          rcases hw with rfl | rfl | rfl | rfl <;> decide
        simp only [ProdText.tok, setProduct, hm, if_true] at hx'
        injection hx' with hx'
        simp [hx']
      · exact List.mem_cons_of_mem _ (ih hq)
  unfold setResidual at h5
  cases hf : findChannel (ps ++ rs) targetChannels with
  | none => exact absurd (List.mem_append_left _ hm) ((findChannel_iff _ _).1 hf w hw)
  | some c =>
    rw [hf] at h5
    split at h5
    · cases h5
    · injection h5 with h5
      injection h5 with h5 h6
      exact ⟨h6.symm, c, (findChannel_some hf).1, h5.symm⟩

/-! ### examples -/

/-- the residual of the example reaction is the isomer that is written -/
theorem exampleReaction_written : WrittenResidual exampleReaction ⟨chars!"95", chars!"AM", chars!"241", []⟩
    ⟨chars!"95", chars!"AM", chars!"242", [⟨'-', 'M', []⟩]⟩ 95 241 0 1 [(0, 0)] 95 242 where
  wf := exampleReaction_wf
  targ := rfl
  resid := rfl
  state := .inr ⟨_, rfl, by decide, by decide⟩
  ct := ⟨by decide, by decide, by decide⟩
  cp := .inl (by decide)
  cpc := by rintro w ⟨⟩; decide
  cv := .cons (.inl (by decide)) .nil
  cr := ⟨by decide, by decide, by decide⟩
  noscat := by
    intro q hq hc
    simp only [exampleReaction, List.mem_cons, List.not_mem_nil, or_false] at hq
    subst hq
    decide

set_option maxRecDepth 20000 in
/-- C101_balanced_partial applies to neutron capture with an isomer. -/
example : ∃ R, reactionOfStr [] exampleReaction.text = .ok R ∧ R.proc.residual = some (.part (.isomer chars!"95" chars!"Am" chars!"242" [['1']])) := by
  have h : (reactionOfStr [] exampleReaction.text).isOk = true := by decide +kernel
  cases hR : reactionOfStr [] exampleReaction.text with
  | error e => rw [hR] at h; simp [Except.isOk, Except.toBool] at h
  | ok R => exact ⟨R, rfl, (C101_balanced_partial [] _ _ _ _ _ _ _ _ _ _ exampleReaction_written (by decide) (by decide) (by decide) R hR).1⟩

/-- a reaction of a target with neutrons and one product, `(92-U-235(N,F)56-BA-140,,SIG)` -/
def neutronReaction (targ resid : NucText) (prod : Str) : ReactText where
  proc := { targ := .nuc targ, proj := .word ['N'], prod := .word prod, prods := [], resid := some (.nuc resid) }
  fields := [.empty, .word chars!"SIG"]

/-- the fission yield `(92-U-235(N,F)56-BA-140,,SIG)` -/
def yieldReaction : ReactText := neutronReaction ⟨chars!"92", chars!"U", chars!"235", []⟩ ⟨chars!"56", chars!"BA", chars!"140", []⟩ ['F']
/-- the excitation of an isomer, `(49-IN-115(N,INL)49-IN-115-M,,SIG)` -/
def inelasticReaction : ReactText :=
  neutronReaction ⟨chars!"49", chars!"IN", chars!"115", []⟩ ⟨chars!"49", chars!"IN", chars!"115", [⟨'-', 'M', []⟩]⟩ chars!"INL"

theorem neutronReaction_wf {T r : NucText} {w : Str} (hT : T.wf) (hr : r.wf) (hw : ParticleWord w) (hX : w.head? = some 'X' → w = ['X']) :
    (neutronReaction T r w).wf := by
  refine ⟨⟨hT, ⟨['N'], [], rfl, by simp, by decide, by simp⟩, ?_, by simp [neutronReaction], ?_⟩, ?_⟩
  · intro q hq
    simp only [neutronReaction, List.mem_cons, List.not_mem_nil, or_false] at hq
    subst hq
    exact ⟨hw, hX⟩
  · intro q hq
    simp only [neutronReaction, Option.mem_some_iff] at hq
    subst hq
    exact hr
  · intro f hf
    simp only [neutronReaction, List.mem_cons, List.not_mem_nil, or_false] at hf
    rcases hf with rfl | rfl
    · trivial
    · exact ⟨by decide, by decide⟩

theorem yieldReaction_wf : yieldReaction.wf :=
  neutronReaction_wf ⟨⟨by decide, by decide⟩, ⟨'U', [], rfl, .inl (by decide), by decide, by decide⟩, ⟨by decide, by decide⟩, by simp⟩
    ⟨⟨by decide, by decide⟩, ⟨'B', ['A'], rfl, .inl (by decide), by decide, by decide⟩, ⟨by decide, by decide⟩, by simp⟩
    ⟨['F'], [], rfl, by simp, by decide, by simp⟩ (by decide)

theorem inelasticReaction_wf : inelasticReaction.wf :=
  neutronReaction_wf ⟨⟨by decide, by decide⟩, ⟨'I', ['N'], rfl, .inl (by decide), by decide, by decide⟩, ⟨by decide, by decide⟩, by simp⟩
    ⟨⟨by decide, by decide⟩, ⟨'I', ['N'], rfl, .inl (by decide), by decide, by decide⟩, ⟨by decide, by decide⟩, by
      intro m hm
      simp only [List.mem_cons, List.not_mem_nil, or_false] at hm
      subst hm
      exact ⟨by decide, by decide, by simp⟩⟩
    ⟨chars!"INL", [], rfl, by simp, by decide, by simp⟩ (by decide)

theorem yieldReaction_written : WrittenResidual yieldReaction ⟨chars!"92", chars!"U", chars!"235", []⟩ ⟨chars!"56", chars!"BA", chars!"140", []⟩
    92 235 0 1 [(0, 0)] 56 140 where
  wf := yieldReaction_wf
  targ := rfl
  resid := rfl
  state := .inl rfl
  ct := ⟨by decide, by decide, by decide⟩
  cp := .inl (by decide)
  cpc := by rintro w ⟨⟩; decide
  cv := .cons (.inr ⟨by decide, rfl, rfl⟩) .nil
  cr := ⟨by decide, by decide, by decide⟩
  noscat := by
    intro q hq hc
    simp only [yieldReaction, neutronReaction, List.mem_cons, List.not_mem_nil, or_false] at hq
    subst hq
    decide

set_option maxRecDepth 20000 in
/-- C101_channel_refuted applies to a fission yield. -/
example : yieldReaction.text = chars!"(92-U-235(N,F)56-BA-140,,SIG)" ∧
    ∃ R, reactionOfStr [] yieldReaction.text = .ok R ∧ R.proc.residual = none := by
  refine ⟨by decide, ?_⟩
  have h : (reactionOfStr [] yieldReaction.text).isOk = true := by decide +kernel
  cases hR : reactionOfStr [] yieldReaction.text with
  | error e => rw [hR] at h; simp [Except.isOk, Except.toBool] at h
  | ok R =>
    exact ⟨R, rfl, (C101_channel_refuted [] yieldReaction _ _ 92 235 0 1 56 140 [(0, 0)] yieldReaction_written
      ⟨.word ['F'], by decide, show ['F'] ∈ channelCodes by decide⟩ (by decide) (by decide) R hR).1⟩

set_option maxRecDepth 20000 in
/-- C101_scattering_refuted applies to the excitation of an isomer: the residual is in the ground state. -/
example : inelasticReaction.text = chars!"(49-IN-115(N,INL)49-IN-115-M,,SIG)" ∧
    ∃ R, reactionOfStr [] inelasticReaction.text = .ok R ∧ R.proc.residual = some (.part (.nucleus chars!"49" chars!"In" chars!"115")) := by
  refine ⟨by decide, ?_⟩
  have h : (reactionOfStr [] inelasticReaction.text).toOption.map (fun R => R.proc.targ) = some (.nucleus chars!"49" chars!"In" chars!"115") := by decide +kernel
  cases hR : reactionOfStr [] inelasticReaction.text with
  | error e => rw [hR] at h; simp [Except.toOption] at h
  | ok R =>
    rw [hR] at h
    simp only [Except.toOption, Option.map_some, Option.some.injEq] at h
    refine ⟨R, rfl, ?_⟩
    rw [(C101_scattering_refuted [] inelasticReaction inelasticReaction_wf chars!"INL" (by decide) (by decide) R hR).1, h]

/-- a reaction of natural iron, `(26-FE-0(N,P)25-MN-56,,SIG)` -/
def ironReaction : ReactText := neutronReaction ⟨chars!"26", chars!"FE", ['0'], []⟩ ⟨chars!"25", chars!"MN", chars!"56", []⟩ ['P']

theorem ironReaction_wf : ironReaction.wf :=
  neutronReaction_wf ⟨⟨by decide, by decide⟩, ⟨'F', ['E'], rfl, .inl (by decide), by decide, by decide⟩, ⟨by decide, by decide⟩, by simp⟩
    ⟨⟨by decide, by decide⟩, ⟨'M', ['N'], rfl, .inl (by decide), by decide, by decide⟩, ⟨by decide, by decide⟩, by simp⟩
    ⟨['P'], [], rfl, by simp, by decide, by simp⟩ (by decide)

set_option maxRecDepth 20000 in
/-- C101_natural_refuted applies to natural iron. -/
example : ironReaction.text = chars!"(26-FE-0(N,P)25-MN-56,,SIG)" ∧
    ∃ R, reactionOfStr [] ironReaction.text = .ok R ∧ R.proc.residual = none := by
  refine ⟨by decide, ?_⟩
  have h : (reactionOfStr [] ironReaction.text).isOk = true := by decide +kernel
  cases hR : reactionOfStr [] ironReaction.text with
  | error e => rw [hR] at h; simp [Except.isOk, Except.toBool] at h
  | ok R =>
    refine ⟨R, rfl, (C101_natural_refuted [] ironReaction ironReaction_wf _ _ rfl rfl rfl rfl 26 0 1 (by decide) (by decide) (.inl (by decide)) ?_
      (by decide) (by decide) [(1, 1)] (.cons (.inl (by decide)) .nil) ?_ R hR).1⟩
    · rintro w ⟨⟩; decide
    · intro q hq hc
      simp only [ironReaction, neutronReaction, List.mem_cons, List.not_mem_nil, or_false] at hq
      subst hq
      decide

/-- pion production, `(1-H-1(P,PIP)1-H-2,,SIG)` -/
def pionReaction : ReactText where
  proc := { targ := .nuc ⟨chars!"1", chars!"H", chars!"1", []⟩, proj := .word ['P'], prod := .word chars!"PIP", prods := [],
            resid := some (.nuc ⟨chars!"1", chars!"H", chars!"2", []⟩) }
  fields := [.empty, .word chars!"SIG"]

theorem pionReaction_written : WrittenResidual pionReaction ⟨chars!"1", chars!"H", chars!"1", []⟩ ⟨chars!"1", chars!"H", chars!"2", []⟩
    1 1 1 1 [(1, 0)] 1 2 where
  wf := by
    have hH : ∀ a : Str, DigitText a → NucText.wf ⟨chars!"1", chars!"H", a, []⟩ := fun a ha =>
      ⟨show DigitText ['1'] from ⟨by decide, by decide⟩, ⟨'H', [], rfl, .inl (by decide), by decide, by decide⟩, ha, by simp⟩
    refine ⟨⟨hH _ ⟨by decide, by decide⟩, ⟨['P'], [], rfl, by simp, by decide, by simp⟩, ?_, by simp [pionReaction], ?_⟩, ?_⟩
    · intro q hq
      simp only [pionReaction, List.mem_cons, List.not_mem_nil, or_false] at hq
      subst hq
      exact ⟨⟨chars!"PIP", [], rfl, by simp, by decide, by simp⟩, by decide⟩
    · intro q hq
      simp only [pionReaction, Option.mem_some_iff] at hq
      subst hq
      exact hH _ ⟨by decide, by decide⟩
    · intro f hf
      simp only [pionReaction, List.mem_cons, List.not_mem_nil, or_false] at hf
      rcases hf with rfl | rfl
      · trivial
      · exact ⟨by decide, by decide⟩
  targ := rfl
  resid := rfl
  state := .inl rfl
  ct := ⟨by decide, by decide, by decide⟩
  cp := .inl (by decide)
  cpc := by rintro w ⟨⟩; decide
  cv := .cons (.inl (by decide)) .nil
  cr := ⟨by decide, by decide, by decide⟩
  noscat := by
    intro q hq hc
    simp only [pionReaction, List.mem_cons, List.not_mem_nil, or_false] at hq
    subst hq
    decide

set_option maxRecDepth 20000 in
/-- C101_protons_refuted applies to pion production, although charge and mass number add up. -/
example : pionReaction.text = chars!"(1-H-1(P,PIP)1-H-2,,SIG)" ∧ ∃ R, reactionOfStr [] pionReaction.text = .ok R ∧ R.proc.residual = none := by
  refine ⟨by decide, ?_⟩
  have h : (reactionOfStr [] pionReaction.text).isOk = true := by decide +kernel
  cases hR : reactionOfStr [] pionReaction.text with
  | error e => rw [hR] at h; simp [Except.isOk, Except.toBool] at h
  | ok R => exact ⟨R, rfl, C101_protons_refuted [] _ _ _ _ _ _ _ _ _ _ pionReaction_written (by decide) (by decide) R hR⟩

end X4
