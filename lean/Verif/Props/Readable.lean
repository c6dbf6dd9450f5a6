import Verif.Props.Residual
import Verif.Props.Nuclei
import Verif.Props.ReprText
import Verif.Spec.Readable
/-! Property C106: readable texts of reactions (`str` of `X4Process` and `X4Reaction`, exfor_reactions.py:92-97, 198-204, 223-224). -/
namespace X4
open Parser

/-! ### the parts -/

theorem nuc_shown (names : Dict Str (List Str)) {n : NucText} (hn : n.wf) {t : Str} (ht : n.Shown t) {p : Particle}
    (h : setParticleType (.grp n.toks) = .ok p) : p.pretty names = .ok t := by
  have hiso : ∀ m : IsoMod, n.mods = [m] → m.letter ∈ ['G', 'M', 'T'] → (m.letter ≠ 'M' → m.digits = []) →
      p.pretty names = .ok (n.A ++ ['m'] ++ isomerTail [','] m.levels ++ capitalize n.sym) := by
    intro m hm hl hd
    rw [C79_states n hn m hm hl hd] at h
    rw [← Except.ok.inj h]
    rfl
  rcases ht with ⟨hm, hA, rfl⟩ | ⟨hm, hA, hN, rfl⟩ | ⟨m, hm, hl, hd, rfl⟩ | ⟨m, hm, hl, hd, rfl⟩ | ⟨m, hm, hl, hd, rfl⟩
  · rw [setParticleType_nuc hm (isDigitStr_digitText hn.2.2.1), if_pos hA] at h
    rw [← Except.ok.inj h]
    rfl
  · rw [setParticleType_nuc hm (isDigitStr_digitText hn.2.2.1), if_neg hA] at h
    rw [← Except.ok.inj h]
    simp only [Particle.pretty]
    rw [if_neg]
    intro e
    apply hN
    rw [← upper_capitalize, e]
    decide
  · rw [hiso m hm (by simp [hl]) (fun e => absurd hl e)]
    have e : isomerTail [','] m.levels = [] := by
      unfold IsoMod.levels
      rw [if_neg (by rw [hl]; decide), if_pos hl]
      simp only [List.mem_cons, List.not_mem_nil, or_false] at hd
      rcases hd with hd | hd <;> simp [hd, isomerTail]
    rw [e]
    simp
  · rw [hiso m hm (by simp [hl]) (fun e => absurd hl e)]
    have e : isomerTail [','] m.levels = m.digits := by
      unfold IsoMod.levels
      rw [if_neg (by rw [hl]; decide), if_pos hl]
      simp only [List.mem_cons, List.not_mem_nil, or_false, not_or] at hd
      simp [hd.1, hd.2, isomerTail, joinWith]
    rw [e]
    simp
  · rw [hiso m hm (by simp [hl]) (fun _ => hd)]
    have e : isomerTail [','] m.levels = ['0'] := by
      unfold IsoMod.levels
      rw [if_pos hl]
      rfl
    rw [e]
    simp

set_option maxRecDepth 20000 in
theorem compounds_read : (compoundKeys.all fun k => match setParticleType (.grp [.str k]) with
    | .ok (.compound _ _ c) => decide (c = k) | _ => false) = true := by decide +kernel

theorem particles_read : (particleTexts.all fun e => match setParticleType (.str e.1) with
    | .ok (.particle m s _ _) => (match prettyParticle m s with | .ok t => decide (t = e.2) | _ => false) | _ => false) = true := by decide +kernel

theorem particles_not_channels : ∀ e ∈ particleTexts, x4ReactionMap.has e.1 = false := by decide +kernel

theorem channels_read : ∀ e ∈ channelTexts, setProduct (.str e.1) = .ok (.chan e.1) ∧ (x4ReactionMap.get? e.1).getD e.1 = e.2 := by decide +kernel

theorem variables_read : ∀ e ∈ variableTexts, setParticleType (.str e.1) = .ok (.variable e.1) ∧ x4ReactionMap.has e.1 = false ∧
    prettyParticle (.num 1) e.1 = .ok e.2 := by decide +kernel

theorem particle_shown (names : Dict Str (List Str)) {w t : Str} (hw : (w, t) ∈ particleTexts) {p : Particle}
    (h : setParticleType (.str w) = .ok p) : p.pretty names = .ok t := by
  have := List.all_eq_true.1 particles_read _ hw
  rw [h] at this
  cases p with
  | particle m s Z A =>
    simp only at this
    simp only [Particle.pretty]
    cases hp : prettyParticle m s with
    | error e => rw [hp] at this; cases this
    | ok t' =>
      rw [hp] at this
      rw [of_decide_eq_true this]
  | _ => cases this

theorem targ_shown {names : Dict Str (List Str)} {vars : List Str} {q : TargText} (hq : q.wf vars) {t : Str} (ht : q.Shown names t) {p : Particle}
    (h : setParticleType q.tok = .ok p) : p.pretty names = .ok t := by
  cases q with
  | nuc n => exact nuc_shown names hq ht h
  | code k =>
    have := List.all_eq_true.1 compounds_read k hq
    change setParticleType (.grp [.str k]) = .ok p at h
    rw [h] at this
    cases p with
    | compound Z s c =>
      obtain ⟨more, hm⟩ := ht
      have hc : c = k := of_decide_eq_true this
      simp only [Particle.pretty, hc, Dict.get, hm]
      rfl
    | _ => cases this
  | var s =>
    obtain ⟨h1, -, h3⟩ := variables_read _ ht
    change setParticleType (.str s) = .ok p at h
    rw [h1] at h
    rw [← Except.ok.inj h]
    exact h3

theorem proj_shown (names : Dict Str (List Str)) {q : ProdText} (hq : q.wfProj) {t : Str} (ht : q.ShownProj t) {p : Particle}
    (h : setParticleType q.tok = .ok p) : p.pretty names = .ok t := by
  cases q with
  | nuc n => exact nuc_shown names hq ht h
  | mult n w => exact ht.elim
  | word w => exact particle_shown names ht h
  | zero =>
    rw [show setParticleType ProdText.zero.tok = .ok (.particle (.num 0) ['0'] 0 0) by decide] at h
    rw [← Except.ok.inj h, show t = chars!"None" from ht]
    change prettyParticle (.num 0) ['0'] = _
    decide

theorem setProduct_part {t : Tok} {p : Product} (h : setProduct t = .ok p) (hc : ∀ s, t = .str s → x4ReactionMap.has s = false) :
    ∃ q, p = .part q ∧ setParticleType t = .ok q := by
  cases t with
  | grp ts => exact setProduct_group h
  | str s =>
    unfold setProduct setProduct.particleOfTok at h
    simp only at h
    rw [hc s rfl] at h
    simp only [Bool.false_eq_true, if_false] at h
    split at h
    · cases h
    · rename_i q hq
      exact ⟨q, (Except.ok.inj h).symm, hq⟩

theorem prod_shown (names : Dict Str (List Str)) {q : ProdText} (hq : q.wf) {t : Str} (ht : q.Shown t) {p : Product}
    (h : setProduct q.tok = .ok p) : p.pretty names = .ok t := by
  cases q with
  | nuc n =>
    obtain ⟨r, rfl, hr⟩ := setProduct_group h
    exact nuc_shown names hq ht hr
  | mult n w =>
    obtain ⟨r, rfl, hr⟩ := setProduct_group h
    obtain ⟨h2, rfl⟩ := ht
    have hw : w ≠ ['0'] := by
      rintro rfl
      obtain ⟨-, l, d, e, hl, hl', -⟩ := hq
      cases l with
      | nil => exact hl rfl
      | cons c l =>
        have hc := hl' c (by simp)
        simp only [List.cons_append, List.cons.injEq] at e
        rw [← e.1] at hc
        revert hc
        decide
    exact (C83_count names n w r hq.1 h2 hw hr).1
  | word w =>
    rcases ht with ht | ht
    · obtain ⟨h1, h2⟩ := channels_read _ ht
      change setProduct (.str w) = .ok p at h
      rw [h1] at h
      rw [← Except.ok.inj h]
      simp only [Product.pretty, h2]
    · obtain ⟨r, rfl, hr⟩ := setProduct_part h (by rintro s ⟨⟩; exact particles_not_channels _ ht)
      exact particle_shown names ht hr
  | zero =>
    rw [show setProduct (ProdText.zero.tok) = .ok (.chan ['0']) by decide] at h
    rw [← Except.ok.inj h, show t = chars!"None" from ht]
    change Except.ok ((x4ReactionMap.get? ['0']).getD ['0']) = _
    decide

theorem resid_shown {names : Dict Str (List Str)} {vars : List Str} {q : TargText} (hq : q.wf vars) {t : Str} (ht : q.Shown names t) {p : Product}
    (h : setProduct q.tok = .ok p) : p.pretty names = .ok t := by
  obtain ⟨r, rfl, hr⟩ := setProduct_part h (by
    intro s hs
    cases q with
    | nuc n => cases hs
    | code k => cases hs
    | var v =>
      cases hs
      exact (variables_read _ ht).2.1)
  exact targ_shown hq ht hr

/-! ### the whole -/

/-- the readable names of the parts of a reaction -/
structure ReactText.ShownAs (compounds : Dict Str (List Str)) (x : ReactText) (T P : Str) (Q Rt : List Str) : Prop where
  targ : x.proc.targ.Shown compounds T
  proj : x.proc.proj.ShownProj P
  prods : List.Forall₂ ProdText.Shown (x.proc.prod :: x.proc.prods) Q
  resid : List.Forall₂ (TargText.Shown compounds) x.proc.resid.toList Rt

theorem reaction_processType {names : Dict Str (List Str)} {x : ReactText} (hx : x.wf) {R : Reaction} (h : reactionOfStr names x.text = .ok R) :
    setProcessType names R.proc.products = .ok R.proc.processType := by
  rw [reactionOfStr_toks names x hx] at h
  obtain ⟨hp, -⟩ := reactionOfToks_grp h
  rw [ProcText.toks, List.cons_append, List.cons_append, List.cons_append] at hp
  obtain ⟨-, -, -, -, -, h6⟩ := processOfToks_all hp
  exact h6

theorem str_of_parts {D : RxDicts} {x : ReactText} (hx : x.wf) {R : Reaction} (h : reactionOfStr D.compounds x.text = .ok R) {ty T P : Str}
    {Q Rt : List Str} (hs : x.ShownAs D.compounds T P Q Rt) (hty : R.getReactionType D = .ok ty) {Q' : List Str} {r : Str}
    (hQ : List.Forall₂ (fun p t => p.pretty D.compounds = .ok t) R.proc.products Q') (hr : residualText D.compounds R.proc.residual = .ok r) :
    R.str D = .ok (ty ++ chars!" for " ++ shownProcess T P Q' r) := by
  obtain ⟨ps, rs, -, -, h3, h4, -⟩ := reaction_residual hx h
  have hpt := reaction_processType hx h
  unfold setProcessType at hpt
  rw [mapE_ok_iff.2 hQ] at hpt
  unfold Reaction.str Process.str
  simp only [hty, targ_shown hx.1.1 hs.targ h3, proj_shown D.compounds hx.1.2.1 hs.proj h4, hr]
  rw [← Except.ok.inj hpt]
  rfl

/-- the objects of the products and of the residual are printed as the written ones are called -/
theorem written_shown {D : RxDicts} {x : ReactText} (hx : x.wf) {T P : Str} {Q Rt : List Str} (hs : x.ShownAs D.compounds T P Q Rt)
    {ps rs : List Product} (h1 : List.Forall₂ (fun q p => setProduct q.tok = .ok p) (x.proc.prod :: x.proc.prods) ps)
    (h2 : mapE setProduct (x.proc.resid.elim [] (fun r => [r.tok])) = .ok rs) :
    List.Forall₂ (fun p t => p.pretty D.compounds = .ok t) ps Q ∧ List.Forall₂ (fun p t => p.pretty D.compounds = .ok t) rs Rt := by
  constructor
  · have hw := hx.1.2.2.1
    have hp := hs.prods
    clear hs h2
    generalize x.proc.prod :: x.proc.prods = qs at h1 hw hp
    induction h1 generalizing Q with
    | nil => cases hp; exact .nil
    | cons a b ih =>
      cases hp with
      | cons c d => exact .cons (prod_shown D.compounds (hw _ (by simp)) c a) (ih (fun q hq => hw q (by simp [hq])) d)
  · have hr := hs.resid
    cases hres : x.proc.resid with
    | none =>
      rw [hres] at h2 hr
      cases hr
      rw [← Except.ok.inj h2]
      exact .nil
    | some r =>
      rw [hres] at h2 hr
      have h2' : mapE setProduct [r.tok] = .ok rs := h2
      rw [mapE_ok_iff] at h2'
      cases h2' with
      | cons e1 e2 =>
        cases e2
        cases hr with
        | cons f1 f2 =>
          cases f2
          exact .cons (resid_shown (hx.1.2.2.2.2 r hres) f1 e1) .nil

/-- a residual is left out of a text only if there is none, and then all products are there -/
theorem setResidual_none {targ proj : Particle} {ps ps' : List Product} (h : setResidual targ proj ps = .ok (ps', none)) : ps' = ps := by
  unfold setResidual at h
  split at h
  · cases h
  · split at h
    · cases h
    · split at h
      · cases h
      · split at h
        · cases h
        · unfold chooseResidual at h
          split_ifs at h
          · split at h <;> cases h
          · split at h
            · cases h
            · exact (Prod.mk.inj (Except.ok.inj h)).1.symm
          · exact (Prod.mk.inj (Except.ok.inj h)).1.symm

/-- C106: if the reaction has no residual (C101 and C53 tell when), its text names everything that is written, a written residual
with the products. -/
theorem C106_none (D : RxDicts) (x : ReactText) (hx : x.wf) (R : Reaction) (h : reactionOfStr D.compounds x.text = .ok R) (T P : Str)
    (Q Rt : List Str) (hs : x.ShownAs D.compounds T P Q Rt) (ty : Str) (hty : R.getReactionType D = .ok ty) (hr : R.proc.residual = none) :
    R.str D = .ok (ty ++ chars!" for " ++ shownProcess T P (Q ++ Rt) []) := by
  obtain ⟨ps, rs, h1, h2, -, -, h5⟩ := reaction_residual hx h
  obtain ⟨w1, w2⟩ := written_shown hx hs h1 h2
  rw [hr] at h5
  refine str_of_parts hx h hs hty ?_ (by rw [hr]; rfl)
  rw [setResidual_none h5]
  exact List.rel_append w1 w2

theorem scatteringCodes_shown : ∀ c ∈ scatteringCodes, ∃ e ∈ channelTexts, e.1 = c := by decide

/-- the channel names among the objects are among the words -/
theorem chan_written {qs : List ProdText} {ps : List Product} (h : List.Forall₂ (fun q p => setProduct q.tok = .ok p) qs ps) {c : Str}
    (hc : c ≠ ['0']) (hm : .chan c ∈ ps) : .word c ∈ qs := by
  induction h with
  | nil => cases hm
  | @cons q p _ _ hx _ ih =>
    rcases List.mem_cons.1 hm with rfl | hm
    · cases q with
      | nuc n => obtain ⟨r, hr, -⟩ := setProduct_group hx; cases hr
      | mult n w => obtain ⟨r, hr, -⟩ := setProduct_group hx; cases hr
      | word w =>
        have hx' : setProduct (.str w) = .ok (.chan c) := hx
        unfold setProduct setProduct.particleOfTok at hx'
        simp only at hx'
        split_ifs at hx'
        · cases hx'
          simp
        · split at hx' <;> cases hx'
      | zero =>
        rw [show setProduct (ProdText.zero.tok) = .ok (.chan ['0']) by decide] at hx
        cases hx
        exact absurd rfl hc
    · exact List.mem_cons_of_mem _ (ih hm)

/-- C106: the text of a scattering reaction names the channel, and the target as residual. -/
theorem C106_scattering (D : RxDicts) (x : ReactText) (hx : x.wf) (R : Reaction) (h : reactionOfStr D.compounds x.text = .ok R) (T P : Str)
    (Q Rt : List Str) (hs : x.ShownAs D.compounds T P Q Rt) (ty : Str) (hty : R.getReactionType D = .ok ty) (w : Str)
    (hw : w ∈ scatteringCodes) (hq : .word w ∈ x.proc.prod :: x.proc.prods) :
    ∃ c t, c ∈ scatteringCodes ∧ .word c ∈ x.proc.prod :: x.proc.prods ∧ (c, t) ∈ channelTexts ∧
      R.str D = .ok (ty ++ chars!" for " ++ shownProcess T P [t] T) := by
  obtain ⟨ps, rs, h1, h2, h3, -, h5⟩ := reaction_residual hx h
  obtain ⟨w1, w2⟩ := written_shown hx hs h1 h2
  have hwp : .chan w ∈ ps := by
    obtain ⟨e, he, rfl⟩ := scatteringCodes_shown w hw
    have hc := (channels_read e he).1
    clear h5 w1
    generalize x.proc.prod :: x.proc.prods = qs at h1 hq
    induction h1 with
    | nil => cases hq
    | cons hx' ht ih =>
      rcases List.mem_cons.1 hq with rfl | hq
      · have hx'' : setProduct (.str e.1) = .ok _ := hx'
        rw [hc] at hx''
        cases hx''
        simp
      · exact List.mem_cons_of_mem _ (ih hq)
  unfold setResidual at h5
  split at h5
  · cases h5
  · split at h5
    · rename_i c hf
      obtain ⟨hc, hcm⟩ := findChannel_some hf
      obtain ⟨h6, h7⟩ := Prod.mk.inj (Except.ok.inj h5)
      have hc0 : c ≠ ['0'] := by rintro rfl; revert hc; decide
      have hcm' : .chan c ∈ ps := by
        rcases List.mem_append.1 hcm with hcm | hcm
        · exact hcm
        · exfalso
          cases hres : x.proc.resid with
          | none =>
            rw [hres] at h2
            rw [← Except.ok.inj h2] at hcm
            cases hcm
          | some r =>
            have hrs := hs.resid
            rw [hres] at h2 hrs
            have h2' : mapE setProduct [r.tok] = .ok rs := h2
            rw [mapE_ok_iff] at h2'
            cases h2' with
            | cons e1 e2 =>
              cases e2
              cases hrs with
              | cons f1 _ =>
                obtain ⟨q, rfl, -⟩ := setProduct_part e1 (by
                  intro s hs
                  cases r with
                  | nuc n => cases hs
                  | code k => cases hs
                  | var v =>
                    cases hs
                    exact (variables_read _ f1).2.1)
                simp at hcm
      obtain ⟨⟨c', t⟩, he, rfl⟩ := scatteringCodes_shown c hc
      refine ⟨c', t, hc, chan_written h1 hc0 hcm', he, ?_⟩
      refine str_of_parts hx h hs hty ?_ ?_
      · rw [← h6]
        refine .cons ?_ .nil
        simp only [Product.pretty, (channels_read _ he).2]
      · rw [← h7]
        exact targ_shown hx.1.1 hs.targ h3
    · rename_i hf
      exact absurd (List.mem_append_left _ hwp) ((findChannel_iff _ _).1 hf w hw)

/-- C106: if charges and mass numbers add up, the text names the written residual behind the parentheses. -/
theorem C106_written_partial (D : RxDicts) (x : ReactText) (N r : NucText) (zt at' zp ap zr ar : Int) (vs : List (Int × Int))
    (hw : WrittenResidual x N r zt at' zp ap vs zr ar)
    (hZ : zt + zp = (vs.map Prod.fst).sum + zr) (hA : at' + ap = (vs.map Prod.snd).sum + ar) (hlt : zt + zp < at' + ap)
    (R : Reaction) (h : reactionOfStr D.compounds x.text = .ok R) (T P r' : Str)
    (Q : List Str) (hs : x.ShownAs D.compounds T P Q [r']) (ty : Str) (hty : R.getReactionType D = .ok ty) :
    R.str D = .ok (ty ++ chars!" for " ++ shownProcess T P Q r') := by
  obtain ⟨h1, h2⟩ := C101_balanced_partial D.compounds x N r zt at' zp ap zr ar vs hw hZ hA hlt R h
  have hrw : r.wf := hw.wf.1.2.2.2.2 (.nuc r) hw.resid
  have hobj := nuc_object hrw hw.state hw.cr.2.2
  have hr := hs.resid
  rw [hw.resid] at hr
  cases hr with
  | cons f1 _ =>
    refine str_of_parts hw.wf h hs hty (written_shown hw.wf hs h2 (rs := [.part r.object]) ?_).1 ?_
    · rw [hw.resid]
      change mapE setProduct [.grp r.toks] = _
      rw [mapE_ok_iff]
      refine .cons ?_ .nil
      simp only [setProduct, setProduct.particleOfTok, hobj]
    · rw [h1]
      exact nuc_shown D.compounds hrw f1 hobj

/-- no residual is written, and all products are particles and nuclei -/
structure OnlyParticles (x : ReactText) (N : NucText) (zt at' zp ap : Int) (vs : List (Int × Int)) : Prop where
  wf : x.wf
  targ : x.proc.targ = .nuc N
  resid : x.proc.resid = none
  ct : (ProdText.nuc N).Carries zt at'
  cp : x.proc.proj.Carries zp ap
  cpc : ∀ w, x.proc.proj = .word w → w ∉ channelCodes
  cv : List.Forall₂ (fun q v => q.Carries v.1 v.2) (x.proc.prod :: x.proc.prods) vs
  nochan : ∀ q ∈ x.proc.prod :: x.proc.prods, ¬ q.isChannel

theorem OnlyParticles.read {x : ReactText} {N : NucText} {zt at' zp ap : Int} {vs : List (Int × Int)}
    (hw : OnlyParticles x N zt at' zp ap vs) (hA : 0 < at') (hlt : zt + zp < at' + ap)
    {names : Dict Str (List Str)} {R : Reaction} (h : reactionOfStr names x.text = .ok R) :
    ∃ ps, List.Forall₂ (fun q p => setProduct q.tok = .ok p) (x.proc.prod :: x.proc.prods) ps ∧ (∀ c, .chan c ∉ ps) ∧
      chooseResidual (zt + zp) (at' + ap) (vs.map Prod.fst).sum (vs.map Prod.snd).sum true ps = .ok (R.proc.products, R.proc.residual) := by
  obtain ⟨ps, rs, h1, h2, h3, h4, h5⟩ := reaction_residual hw.wf h
  obtain ⟨⟨w1, w2, w3, -, -⟩, -⟩ := hw.wf
  rw [hw.targ] at h3 w1
  have hrs : rs = [] := by
    rw [hw.resid] at h2
    exact (Except.ok.inj h2).symm
  subst hrs
  rw [List.append_nil] at h5
  obtain ⟨c1, c2, c3, -, c5⟩ := products_carry w3 hw.cv h1
  have hT : Product.charge (.part R.proc.targ) = zt ∧ Product.mass (.part R.proc.targ) = at' := by
    have : setProduct (ProdText.nuc N).tok = .ok (.part R.proc.targ) := by
      simp only [ProdText.tok, TargText.tok, setProduct, setProduct.particleOfTok] at h3 ⊢
      rw [h3]
    obtain ⟨k1, k2, -⟩ := product_carries (q := .nuc N) w1 hw.ct this
    exact ⟨k1, k2⟩
  have hP := proj_carries w2 hw.cpc hw.cp h4
  have hch : ∀ c, Product.chan c ∉ ps := by
    intro c hm
    obtain ⟨q, hq, hqt, hqc⟩ := (c5 c).1 hm
    exact hw.nochan q hq hqc
  have hcnt : ∀ p ∈ ps, p.counts = true := by
    have hv := hw.cv
    have hn := hw.nochan
    clear c1 c2 c3 c5 h5 hch hw
    generalize x.proc.prod :: x.proc.prods = qs at h1 hv hn w3
    induction h1 generalizing vs with
    | nil => simp
    | cons a b ih =>
      cases hv with
      | cons v1 v2 =>
        intro p hp
        rcases List.mem_cons.1 hp with rfl | hp
        · exact (product_carries (w3 _ (by simp)) v1 a).2.2.2.2.1 (hn _ (by simp))
        · exact ih v2 (fun q hq => hn q (by simp [hq])) (fun q hq => w3 q (by simp [hq])) p hp
  refine ⟨ps, h1, hch, ?_⟩
  unfold setResidual at h5
  rw [(findChannel_iff ps targetChannels).2 (fun c _ => hch c)] at h5
  split at h5
  · cases h5
  · rename_i a ha
    have haa : a = at' := by
      have := hT.2
      simpa [Product.mass, Product.getA, ha] using this
    simp only at h5
    split at h5
    · cases h5
    · rename_i zin hzin
      obtain ⟨z1, z2⟩ := totalIn_spec hzin
      rw [hT.1, hP.1] at z1
      rw [hT.2, hP.2] at z2
      split at h5
      · cases h5
      · rename_i st hst
        rw [z1, z2, decide_eq_true hlt] at hst
        obtain ⟨s1, s2⟩ := residual_sums _ c3 _ _ hst
        have s3 := residual_can _ hcnt _ _ hst
        simp only [zero_add, c1, c2] at s1 s2
        simp only [haa] at s3
        rw [decide_eq_true (by omega)] at s3
        rw [z1, z2, s1, s2, s3] at h5
        exact h5

theorem zSymbolIn_mem {z : Int} {s : Str} {l : List (Int × Str × Str)} (h : zSymbolIn z l = some s) : ∃ e ∈ l, e.2.1 = s := by
  induction l with
  | nil => cases h
  | cons i r ih =>
    unfold zSymbolIn at h
    split_ifs at h
    · exact ⟨i, by simp, Option.some.inj h⟩
    · obtain ⟨e, he, hh⟩ := ih h
      exact ⟨e, by simp [he], hh⟩

theorem labels_capitalized : ∀ e ∈ endlZLabels, capitalize e.2.1 ≠ chars!"Nn" := by decide +kernel

/-- C106: if no residual is written, and the products are particles and nuclei, what is left of target and projectile is shown behind the
parentheses: the mass number missing in the products, and the symbol of the charge missing in the products. -/
theorem C106_computed_partial (D : RxDicts) (x : ReactText) (N : NucText) (zt at' zp ap : Int) (vs : List (Int × Int))
    (hw : OnlyParticles x N zt at' zp ap vs) (hA : 0 < at') (hlt : zt + zp < at' + ap)
    (z a : Int) (hz : z = zt + zp - (vs.map Prod.fst).sum) (ha : a = at' + ap - (vs.map Prod.snd).sum) (hza : ¬ (z = 0 ∧ a = 0))
    (sym : Str) (hsym : endlZSymbol z = some sym)
    (R : Reaction) (h : reactionOfStr D.compounds x.text = .ok R) (T P : Str)
    (Q : List Str) (hs : x.ShownAs D.compounds T P Q []) (ty : Str) (hty : R.getReactionType D = .ok ty) :
    R.str D = .ok (ty ++ chars!" for " ++ shownProcess T P Q (intStr a ++ capitalize sym)) := by
  obtain ⟨ps, h1, -, h3⟩ := hw.read hA hlt h
  unfold chooseResidual at h3
  rw [if_neg (by omega), if_pos rfl] at h3
  unfold residualNucleus at h3
  rw [← hz, ← ha, hsym] at h3
  simp only at h3
  obtain ⟨h4, h5⟩ := Prod.mk.inj (Except.ok.inj h3)
  refine str_of_parts hw.wf h hs hty ?_ ?_
  · rw [← h4]
    exact (written_shown hw.wf hs h1 (rs := []) (by rw [hw.resid]; rfl)).1
  · rw [← h5]
    simp only [residualText, Particle.pretty]
    rw [if_neg]
    obtain ⟨e, he, rfl⟩ := zSymbolIn_mem hsym
    exact labels_capitalized e he

/-- C106 is false: neutrons that are left over are shown with the symbol of nitrogen. -/
theorem C106_neutrons_refuted (D : RxDicts) (x : ReactText) (N : NucText) (zt at' zp ap : Int) (vs : List (Int × Int))
    (hw : OnlyParticles x N zt at' zp ap vs) (hA : 0 < at') (hlt : zt + zp < at' + ap)
    (a : Int) (hz : zt + zp = (vs.map Prod.fst).sum) (ha : a = at' + ap - (vs.map Prod.snd).sum) (hza : a ≠ 0)
    (R : Reaction) (h : reactionOfStr D.compounds x.text = .ok R) (T P : Str)
    (Q : List Str) (hs : x.ShownAs D.compounds T P Q []) (ty : Str) (hty : R.getReactionType D = .ok ty) :
    R.str D = .ok (ty ++ chars!" for " ++ shownProcess T P Q (intStr a ++ ['N'])) := by
  have := C106_computed_partial D x N zt at' zp ap vs hw hA hlt 0 a (by omega) ha (by simp [hza]) ['n'] (by decide +kernel) R h T P Q hs ty hty
  exact this

theorem forall₂_concat {α β} {r : α → β → Prop} {l : List α} {m : List β} {b : β} (h : List.Forall₂ r l (m ++ [b])) :
    ∃ l' a, l = l' ++ [a] ∧ List.Forall₂ r l' m ∧ r a b := by
  induction m generalizing l with
  | nil =>
    cases h with
    | cons h1 h2 => cases h2; exact ⟨[], _, rfl, .nil, h1⟩
  | cons c m ih =>
    cases h with
    | cons h1 h2 =>
      obtain ⟨l', a, rfl, e1, e2⟩ := ih h2
      exact ⟨_ :: l', a, rfl, .cons h1 e1, e2⟩

/-- C106: if no residual is written, and the products are particles and nuclei with all the charge and mass of target and projectile, the last of
them is shown behind the parentheses. -/
theorem C106_last_partial (D : RxDicts) (x : ReactText) (N : NucText) (zt at' zp ap : Int) (vs : List (Int × Int))
    (hw : OnlyParticles x N zt at' zp ap vs) (hA : 0 < at') (hlt : zt + zp < at' + ap)
    (hz : zt + zp = (vs.map Prod.fst).sum) (ha : at' + ap = (vs.map Prod.snd).sum)
    (R : Reaction) (h : reactionOfStr D.compounds x.text = .ok R) (T P q : Str)
    (Q : List Str) (hs : x.ShownAs D.compounds T P (Q ++ [q]) []) (ty : Str) (hty : R.getReactionType D = .ok ty) :
    R.str D = .ok (ty ++ chars!" for " ++ shownProcess T P Q q) := by
  obtain ⟨ps, h1, h2, h3⟩ := hw.read hA hlt h
  obtain ⟨ps', p, rfl, e1, e2⟩ := forall₂_concat (written_shown hw.wf hs h1 (rs := []) (by rw [hw.resid]; rfl)).1
  unfold chooseResidual at h3
  rw [if_pos ⟨hz, ha⟩] at h3
  simp only [List.getLast?_concat, List.dropLast_concat] at h3
  cases p with
  | chan c => exact absurd (by simp) (h2 c)
  | part p =>
    simp only at h3
    obtain ⟨h4, h5⟩ := Prod.mk.inj (Except.ok.inj h3)
    refine str_of_parts hw.wf h hs hty ?_ ?_
    · rw [← h4]
      exact e1
    · rw [← h5]
      exact e2

/-- C106 is false: the sum of ground state and isomers (`-T`) is shown as the first isomer (`-M`) is. -/
theorem C106_total_refuted (names : Dict Str (List Str)) (n : NucText) (hn : n.wf) (c : Char) (hm : n.mods = [⟨c, 'T', []⟩]) (p p' : Particle)
    (h : setParticleType (.grp n.toks) = .ok p) (h' : setParticleType (.grp { n with mods := [⟨c, 'M', []⟩] : NucText }.toks) = .ok p') :
    p.pretty names = p'.pretty names ∧ p ≠ p' := by
  have h1 := C79_states n hn _ hm (by simp) (by simp)
  rw [h1] at h
  have h2 := C79_states { n with mods := [⟨c, 'M', []⟩] : NucText } ⟨hn.1, hn.2.1, hn.2.2.1, by
    intro m hm'
    simp only [List.mem_cons, List.not_mem_nil, or_false] at hm'
    have := hn.2.2.2 ⟨c, 'T', []⟩ (by rw [hm]; simp)
    rw [hm']
    exact ⟨this.1, show isModifier 'M' = true by decide, by simp⟩⟩ _ rfl (by simp) (by simp)
  rw [h2] at h'
  rw [← Except.ok.inj h, ← Except.ok.inj h']
  refine ⟨rfl, ?_⟩
  intro e
  simp [IsoMod.levels] at e

/-! ### examples -/

theorem reads_with_type {D : RxDicts} {x : ReactText} {ty : Str} (h : (match reactionOfStr D.compounds x.text with
    | .ok R => decide (R.getReactionType D = .ok ty) | _ => false) = true) :
    ∃ R, reactionOfStr D.compounds x.text = .ok R ∧ R.getReactionType D = .ok ty := by
  split at h
  · rename_i R hR
    exact ⟨R, hR, of_decide_eq_true h⟩
  · cases h

/-- dictionaries for the examples -/
def readableDicts : RxDicts := ⟨[], [(chars!",SIG", [chars!"Cross section"])], []⟩

set_option maxRecDepth 20000 in
/-- C106_none applies to a fission yield. -/
example : ∃ R, reactionOfStr [] yieldReaction.text = .ok R ∧
    R.str readableDicts = .ok chars!"Cross section for 235U(n,Fission+140Ba)" := by
  obtain ⟨R, hR, hty⟩ := reads_with_type (D := readableDicts) (x := yieldReaction) (ty := chars!"Cross section") (by decide +kernel)
  refine ⟨R, hR, C106_none readableDicts yieldReaction yieldReaction_wf R hR chars!"235U" ['n'] [chars!"Fission"] [chars!"140Ba"]
    ⟨.inr (.inl ⟨rfl, by decide, by decide, by decide⟩), show _ ∈ particleTexts by decide, .cons (.inl (by decide)) .nil,
      .cons (.inr (.inl ⟨rfl, by decide, by decide, by decide⟩)) .nil⟩ _ hty
    (C101_channel_refuted [] yieldReaction _ _ 92 235 0 1 56 140 [(0, 0)] yieldReaction_written
      ⟨.word ['F'], by decide, show ['F'] ∈ channelCodes by decide⟩ (by decide) (by decide) R hR).1⟩

set_option maxRecDepth 20000 in
/-- C106_scattering applies to the excitation of an isomer. -/
example : ∃ R c t, reactionOfStr [] inelasticReaction.text = .ok R ∧ .word c ∈ [inelasticReaction.proc.prod] ∧ (c, t) ∈ channelTexts ∧
    R.str readableDicts = .ok (chars!"Cross section" ++ chars!" for " ++ shownProcess chars!"115In" ['n'] [t] chars!"115In") := by
  obtain ⟨R, hR, hty⟩ := reads_with_type (D := readableDicts) (x := inelasticReaction) (ty := chars!"Cross section") (by decide +kernel)
  obtain ⟨c, t, -, h2, h3, h4⟩ := C106_scattering readableDicts inelasticReaction inelasticReaction_wf R hR chars!"115In" ['n'] [chars!"Inelastic"] [chars!"115mIn"]
    ⟨.inr (.inl ⟨rfl, by decide, by decide, by decide⟩), show _ ∈ particleTexts by decide, .cons (.inl (by decide)) .nil,
      .cons (.inr (.inr (.inl ⟨_, rfl, by decide, by decide, by decide⟩))) .nil⟩ _ hty chars!"INL" (by decide) (by decide)
  exact ⟨R, c, t, hR, h2, h3, h4⟩

set_option maxRecDepth 20000 in
/-- C106_written_partial applies to neutron capture with an isomer. -/
example : ∃ R, reactionOfStr [] exampleReaction.text = .ok R ∧
    R.str readableDicts = .ok chars!"Cross section for 241Am(n,gamma)242mAm" := by
  obtain ⟨R, hR, hty⟩ := reads_with_type (D := readableDicts) (x := exampleReaction) (ty := chars!"Cross section") (by decide +kernel)
  refine ⟨R, hR, C106_written_partial readableDicts exampleReaction _ _ _ _ _ _ _ _ _ exampleReaction_written (by decide) (by decide) (by decide) R hR
    chars!"241Am" ['n'] chars!"242mAm" [chars!"gamma"]
    ⟨.inr (.inl ⟨rfl, by decide, by decide, by decide⟩), show _ ∈ particleTexts by decide, .cons (.inr (by decide)) .nil,
      .cons (.inr (.inr (.inl ⟨_, rfl, by decide, by decide, by decide⟩))) .nil⟩ _ hty⟩

/-- a reaction of lithium without residual, `(3-LI-6(N,T+A),,SIG)`, `(3-LI-6(N,T),,SIG)` -/
def lithiumReaction (ps : List ProdText) : ReactText where
  proc := { targ := .nuc ⟨['3'], chars!"LI", ['6'], []⟩, proj := .word ['N'], prod := .word ['T'], prods := ps, resid := none }
  fields := [.empty, .word chars!"SIG"]

theorem lithiumReaction_wf {ps : List ProdText} (h : ∀ p ∈ ps, p.wf) (hb : List.IsChain ProdText.before (.word ['T'] :: ps)) : (lithiumReaction ps).wf := by
  refine ⟨⟨⟨⟨by decide, by decide⟩, ⟨'L', ['I'], rfl, .inl (by decide), by decide, by decide⟩, ⟨by decide, by decide⟩, by simp⟩,
    ⟨['N'], [], rfl, by simp, by decide, by simp⟩, ?_, ?_, ?_⟩, ?_⟩
  · intro q hq
    rcases List.mem_cons.1 hq with rfl | hq
    · exact ⟨⟨['T'], [], rfl, by simp, by decide, by simp⟩, by decide⟩
    · exact h q hq
  · exact hb
  · intro q hq
    cases hq
  · intro f hf
    simp only [lithiumReaction, List.mem_cons, List.not_mem_nil, or_false] at hf
    rcases hf with rfl | rfl
    · trivial
    · exact ⟨by decide, by decide⟩

theorem alpha_wf : ∀ p ∈ [ProdText.word ['A']], p.wf := by
  intro p hp
  simp only [List.mem_cons, List.not_mem_nil, or_false] at hp
  subst hp
  exact ⟨⟨['A'], [], rfl, by simp, by decide, by simp⟩, by decide⟩

set_option maxRecDepth 20000 in
/-- C106_computed_partial applies to the production of tritium. -/
example : (lithiumReaction []).text = chars!"(3-LI-6(N,T),,SIG)" ∧ ∃ R, reactionOfStr [] (lithiumReaction []).text = .ok R ∧
    R.str readableDicts = .ok chars!"Cross section for 6Li(n,t)4He" := by
  refine ⟨by decide, ?_⟩
  obtain ⟨R, hR, hty⟩ := reads_with_type (D := readableDicts) (x := lithiumReaction []) (ty := chars!"Cross section") (by decide +kernel)
  refine ⟨R, hR, C106_computed_partial readableDicts (lithiumReaction []) ⟨['3'], chars!"LI", ['6'], []⟩ 3 6 0 1 [(1, 3)] ?_ (by decide) (by decide)
    2 4 (by decide) (by decide) (by decide) chars!"He" (by decide +kernel) R hR chars!"6Li" ['n'] [['t']]
    ⟨.inr (.inl ⟨rfl, by decide, by decide, by decide⟩), show _ ∈ particleTexts by decide, .cons (.inr (by decide)) .nil, .nil⟩ _ hty⟩
  exact ⟨lithiumReaction_wf (by simp) (by simp), rfl, rfl, ⟨by decide, by decide, by decide⟩, .inl (by decide), by rintro w ⟨⟩; decide,
    .cons (.inl (by decide)) .nil, by
      intro q hq
      simp only [lithiumReaction, List.mem_cons, List.not_mem_nil, or_false] at hq
      subst hq
      show ['T'] ∉ channelCodes
      decide⟩

set_option maxRecDepth 20000 in
/-- C106_last_partial applies if both products are written. -/
example : (lithiumReaction [.word ['A']]).text = chars!"(3-LI-6(N,T+A),,SIG)" ∧ ∃ R, reactionOfStr [] (lithiumReaction [.word ['A']]).text = .ok R ∧
    R.str readableDicts = .ok chars!"Cross section for 6Li(n,t)alpha" := by
  refine ⟨by decide, ?_⟩
  obtain ⟨R, hR, hty⟩ := reads_with_type (D := readableDicts) (x := lithiumReaction [.word ['A']]) (ty := chars!"Cross section") (by decide +kernel)
  refine ⟨R, hR, C106_last_partial readableDicts (lithiumReaction [.word ['A']]) ⟨['3'], chars!"LI", ['6'], []⟩ 3 6 0 1 [(1, 3), (2, 4)] ?_ (by decide) (by decide)
    (by decide) (by decide) R hR chars!"6Li" ['n'] chars!"alpha" [['t']]
    ⟨.inr (.inl ⟨rfl, by decide, by decide, by decide⟩), show _ ∈ particleTexts by decide, .cons (.inr (by decide)) (.cons (.inr (by decide)) .nil), .nil⟩ _ hty⟩
  exact ⟨lithiumReaction_wf alpha_wf (by simp [ProdText.before]), rfl, rfl, ⟨by decide, by decide, by decide⟩, .inl (by decide), by rintro w ⟨⟩; decide,
    .cons (.inl (by decide)) (.cons (.inl (by decide)) .nil), by
      intro q hq
      simp only [lithiumReaction, List.mem_cons, List.not_mem_nil, or_false] at hq
      rcases hq with rfl | rfl
      · show ['T'] ∉ channelCodes
        decide
      · show ['A'] ∉ channelCodes
        decide⟩

/-- a reaction of deuterium that leaves two neutrons, `(1-H-2(N,P),,SIG)` -/
def deuteronReaction : ReactText where
  proc := { targ := .nuc ⟨['1'], ['H'], ['2'], []⟩, proj := .word ['N'], prod := .word ['P'], prods := [], resid := none }
  fields := [.empty, .word chars!"SIG"]

set_option maxRecDepth 20000 in
/-- C106_neutrons_refuted applies to the breakup of deuterium. -/
example : (deuteronReaction).text = chars!"(1-H-2(N,P),,SIG)" ∧ ∃ R, reactionOfStr [] (deuteronReaction).text = .ok R ∧
    R.str readableDicts = .ok chars!"Cross section for 2H(n,p)2N" := by
  refine ⟨by decide, ?_⟩
  obtain ⟨R, hR, hty⟩ := reads_with_type (D := readableDicts) (x := deuteronReaction) (ty := chars!"Cross section") (by decide +kernel)
  refine ⟨R, hR, C106_neutrons_refuted readableDicts deuteronReaction ⟨['1'], ['H'], ['2'], []⟩ 1 2 0 1 [(1, 1)] ?_ (by decide) (by decide)
    2 (by decide) (by decide) (by decide) R hR chars!"2H" ['n'] [['p']]
    ⟨.inr (.inl ⟨rfl, by decide, by decide, by decide⟩), show _ ∈ particleTexts by decide, .cons (.inr (by decide)) .nil, .nil⟩ _ hty⟩
  refine ⟨⟨⟨⟨⟨by decide, by decide⟩, ⟨'H', [], rfl, .inl (by decide), by decide, by decide⟩, ⟨by decide, by decide⟩, by simp⟩,
    ⟨['N'], [], rfl, by simp, by decide, by simp⟩, ?_, by simp [deuteronReaction], by intro q hq; cases hq⟩, ?_⟩,
    rfl, rfl, ⟨by decide, by decide, by decide⟩, .inl (by decide), by rintro w ⟨⟩; decide, .cons (.inl (by decide)) .nil, ?_⟩
  · intro q hq
    simp only [deuteronReaction, List.mem_cons, List.not_mem_nil, or_false] at hq
    subst hq
    exact ⟨⟨['P'], [], rfl, by simp, by decide, by simp⟩, by decide⟩
  · intro f hf
    simp only [deuteronReaction, List.mem_cons, List.not_mem_nil, or_false] at hf
    rcases hf with rfl | rfl
    · trivial
    · exact ⟨by decide, by decide⟩
  · intro q hq
    simp only [deuteronReaction, List.mem_cons, List.not_mem_nil, or_false] at hq
    subst hq
    show ['P'] ∉ channelCodes
    decide

/-- C106_total_refuted applies to indium. -/
example : setParticleType (.grp (NucText.toks ⟨chars!"49", chars!"IN", chars!"116", [⟨'-', 'T', []⟩]⟩)) = .ok (.isomer chars!"49" chars!"In" chars!"116" []) ∧
    setParticleType (.grp (NucText.toks ⟨chars!"49", chars!"IN", chars!"116", [⟨'-', 'M', []⟩]⟩)) = .ok (.isomer chars!"49" chars!"In" chars!"116" [['1']]) ∧
    Particle.pretty [] (.isomer chars!"49" chars!"In" chars!"116" []) = .ok chars!"116mIn" := by decide +kernel

end X4
