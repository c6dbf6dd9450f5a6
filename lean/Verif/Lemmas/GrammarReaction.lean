import Verif.Lemmas.Grammar
/-! What the grammar of reactions does on well-formed texts: products, processes, reactions. -/
namespace X4
open Parser

/-! ### products -/

/-- the characters of the particle codes -/
theorem particleKeys_plus : ∀ k ∈ particleKeys, ')' ∉ k ∧ ('+' ∈ k → k = ['B', '+']) := by decide +kernel
theorem particleKeys_digit : ∀ k ∈ particleKeys, digitHead k = true → k = ['0'] := by decide +kernel
theorem particleKeys_head : ∀ k ∈ particleKeys, ∃ c s, k = c :: s ∧ isAlnumA c = true := by
  have : ∀ k ∈ particleKeys, (match k with | c :: _ => isAlnumA c | [] => false) = true := by decide +kernel
  intro k hk
  have h := this k hk
  cases k with
  | nil => cases h
  | cons c s => exact ⟨c, s, rfl, h⟩

theorem pParticleCode_none {s : Str} (hs : NW s) (h : ∀ c ∈ s.head?, isAlnumA c = false) : pParticleCode.impl s = none := by
  refine lits_none _ _ hs ?_
  intro k hk hp
  obtain ⟨c, u, rfl, hc⟩ := particleKeys_head k hk
  obtain ⟨v, rfl⟩ := hp
  have := h c (by simp)
  rw [hc] at this
  cases this

/-- what may follow a product -/
def ProdEnd (p : ProdText) (e : Str) : Prop :=
  ∃ c e', e = c :: e' ∧ (c = ')' ∨ (c = '+' ∧ ∃ q : ProdText, ∃ e'', e' = q.text ++ e'' ∧ q.wf ∧ p.before q))

theorem prod_descr {p : ProdText} (hp : p.wf) : p.text ≠ [] ∧ ∀ c ∈ p.text, isDescr c = true := by
  cases p with
  | nuc n => exact nuc_descr hp
  | mult n w =>
    obtain ⟨h1, h2⟩ := hp
    refine ⟨by simp [ProdText.text, h1.1], ?_⟩
    intro c hc
    rcases List.mem_append.1 hc with hc | hc
    · exact alnum_descr (dig_alnum (h1.2 c hc))
    · exact alnum_descr ((particle_alnum h2).2 c hc)
  | word w => exact ⟨(particle_alnum hp.1).1, fun x hx => alnum_descr ((particle_alnum hp.1).2 x hx)⟩
  | zero => exact ⟨by simp [ProdText.text], by decide⟩

theorem ProdEnd.not_alnum {p : ProdText} {e : Str} (h : ProdEnd p e) : ∀ c ∈ e.head?, isAlnumA c = false := by
  obtain ⟨c, e', rfl, rfl | ⟨rfl, -⟩⟩ := h <;> (intro x hx; simp at hx; subst hx; rfl)
theorem ProdEnd.nw {p : ProdText} {e : Str} (h : ProdEnd p e) : NW e := by
  obtain ⟨c, e', rfl, rfl | ⟨rfl, -⟩⟩ := h <;> exact NW_cons.2 rfl
theorem ProdEnd.nucEnd {n : NucText} {e : Str} (h : ProdEnd (.nuc n) e) : NucEnd e := by
  obtain ⟨c, e', rfl, rfl | ⟨rfl, q, e'', rfl, hq, hb⟩⟩ := h
  · exact NucEnd.of_sep (.inr (.inl rfl))
  · obtain ⟨h1, h2⟩ := prod_descr hq
    cases hx : q.text with
    | nil => exact absurd hx h1
    | cons d s =>
      refine ⟨'+', _, rfl, .inr ⟨rfl, d, s ++ e'', by simp, ?_, ?_⟩⟩
      · exact hb d (by rw [hx]; simp)
      · exact white_not_descr (h2 d (by rw [hx]; simp))
theorem ProdEnd.no_dash {p : ProdText} {e : Str} (h : ProdEnd p e) : ∃ c e', e = c :: e' ∧ c ≠ '-' := by
  obtain ⟨c, e', rfl, rfl | ⟨rfl, -⟩⟩ := h
  · exact ⟨_, _, rfl, by decide⟩
  · exact ⟨_, _, rfl, by decide⟩

theorem basic_digit {c : Char} {s : Str} (hc : isDig c = true) :
    pBasicParticle.impl (c :: s) = none ∨ (c = '0' ∧ pBasicParticle.impl (c :: s) = some ([.str ['0']], s)) := by
  have hnw : NW (c :: s) := NW_cons.2 (white_not_descr (alnum_descr (dig_alnum hc)))
  have hX : (opt (lit ['X'])).impl (c :: s) = some ([], c :: s) := by
    refine opt_none (lit_head_ne ?_)
    rintro rfl
    exact absurd hc (by decide)
  unfold pBasicParticle
  rcases lits_cases particleKeys (c :: s) hnw with h | ⟨k, r, hk, e, h⟩
  · left
    exact and_nw_none hX hnw h
  · right
    have hd : digitHead k = true := by
      obtain ⟨d, u, rfl, -⟩ := particleKeys_head k hk
      simp only [List.cons_append] at e
      injection e with e1 e2
      rw [← e1]
      exact hc
    have hk0 := particleKeys_digit k hk hd
    subst hk0
    simp only [List.cons_append, List.nil_append] at e
    injection e with e1 e2
    subst e1 e2
    exact ⟨rfl, and_nw (t := []) hX hnw h⟩

theorem basic_word {w e : Str} (hw : ParticleWord w) (hX : w.head? = some 'X' → w = ['X']) (he : ProdEnd (.word w) e) :
    pBasicParticle.impl (w ++ e) = some ([.str w], e) ∨ Shorter e (pBasicParticle.impl (w ++ e)) := by
  obtain ⟨a, s, hws, ha⟩ := particle_head hw
  have hnw : NW (w ++ e) := nw_descr (particle_alnum hw).1 (fun x hx => alnum_descr ((particle_alnum hw).2 x hx))
  unfold pBasicParticle
  by_cases hx : a = 'X'
  · have : w = ['X'] := hX (by rw [hws, hx]; rfl)
    right
    rw [this]
    have h1 : (opt (lit ['X'])).impl (['X'] ++ e) = some ([.str ['X']], e) := opt_some (lit_append _ _ _)
    rw [and_nw_none h1 he.nw (pParticleCode_none he.nw he.not_alnum)]
    exact shorter_none _
  · have h1 : (opt (lit ['X'])).impl (w ++ e) = some ([], w ++ e) := by
      rw [hws]
      exact opt_none (lit_head_ne (Ne.symm hx))
    rcases lits_cases particleKeys (w ++ e) hnw with h | ⟨k, r, hk, hkr, h⟩
    · right
      rw [and_nw_none (b := pParticleCode) h1 hnw h]
      exact shorter_none _
    · have h2 := and_nw (b := pParticleCode) h1 hnw h
      rw [List.nil_append] at h2
      rw [h2]
      have hlen : k.length ≤ w.length := by
        obtain ⟨c, e', rfl, rfl | ⟨rfl, q, e'', rfl, hq, hb⟩⟩ := he
        · exact prefix_len ⟨r, hkr.symm⟩ (particleKeys_plus k hk).1
        · by_cases hp : '+' ∈ k
          · have hkB := (particleKeys_plus k hk).2 hp
            rw [hkB, hws] at hkr
            simp only [List.cons_append, List.nil_append] at hkr
            injection hkr with e1 e2
            cases s with
            | nil => exact absurd (by rw [hws, e1]) hb
            | cons d s =>
              simp only [List.cons_append] at e2
              injection e2 with e3 _
              have := (particle_alnum hw).2 d (by rw [hws]; simp)
              rw [e3] at this
              exact absurd this (by decide)
          · exact prefix_len ⟨r, hkr.symm⟩ hp
      rcases Nat.lt_or_ge k.length w.length with hl | hl
      · right
        intro t' r' e3
        injection e3 with e3
        injection e3 with _ e3
        subst e3
        have := congrArg List.length hkr
        simp only [List.length_append] at this
        omega
      · left
        obtain ⟨e1, e2⟩ := List.append_inj hkr (by omega)
        rw [e1, e2]

theorem pNucleus_no_dash {n e : Str} (hn : DigitText n) {c : Char} (hc : isDig c = false) (hc' : c ≠ '-') (hw : isWhite c = false) :
    pNucleus.impl (n ++ c :: e) = none := by
  unfold pNucleus
  refine and_none_left (and_none_left (and_none_left (and_none_left ?_)))
  refine and_nw_none (pNums_some hn ?_) (NW_cons.2 hw) (pDash_ne hc')
  intro x hx; simp at hx; subst hx; exact hc

theorem length_pos_of_digitText {n : Str} (h : DigitText n) : 0 < n.length := List.length_pos_iff.2 h.1

theorem pProduct_some {p : ProdText} (hp : p.wf) {e : Str} (he : ProdEnd p e) : pProduct.impl (p.text ++ e) = some ([p.tok], e) := by
  have hd := prod_descr hp
  have hnw : NW (p.text ++ e) := nw_descr hd.1 hd.2
  unfold pProduct
  cases p with
  | nuc n =>
    obtain ⟨d, s, hds, hdig⟩ := nuc_head hp
    simp only [ProdText.text, ProdText.tok] at *
    refine orAll_win [] _ _ _ hnw (group_some (pNucleus_some hp he.nucEnd)) (by simp) ?_
    have hlen : e.length + 1 < (n.text ++ e).length := by
      have h1 := hd.1
      simp only [NucText.text, List.length_append, List.length_cons]
      omega
    intro q hq
    simp only [List.mem_cons, List.not_mem_nil, or_false] at hq
    rcases hq with rfl | rfl | rfl | rfl
    · rw [hds, List.cons_append]
      rcases basic_digit (s := s ++ e) hdig with h | ⟨-, h⟩
      · rw [h]; exact notLonger_none _
      · rw [h]
        intro t' r' e3
        injection e3 with e3
        injection e3 with _ e3
        subst e3
        simp
    · rw [pParticle_none]
      · exact notLonger_none _
      · intro x hx
        rw [hds] at hx
        simp at hx
        subst hx
        exact dig_not_alpha hdig
    · have : (and (opt pNums) pParticle).impl (n.text ++ e) = none := by
        have e1 : n.text ++ e = n.Z ++ ('-' :: (n.sym ++ '-' :: (n.A ++ n.mods.flatMap IsoMod.text)) ++ e) := by
          simp [NucText.text, List.append_assoc]
        rw [e1]
        refine and_nw_none (opt_some (pNums_some hp.1 ?_)) (NW_cons.2 rfl) (pParticle_none ?_)
        · intro x hx; simp at hx; subst hx; rfl
        · intro x hx; simp at hx; subst hx; rfl
      rw [group_none this]
      exact notLonger_none _
    · exact (lit_shorter (by simpa using hlen)).notLonger
  | mult n w =>
    obtain ⟨hn, hw⟩ := hp
    obtain ⟨a, s, hws, ha⟩ := particle_head hw
    obtain ⟨d, n', hn', hdig⟩ : ∃ d n', n = d :: n' ∧ isDig d = true := by
      cases hnn : n with
      | nil => exact absurd hnn hn.1
      | cons d n' => exact ⟨d, n', rfl, hn.2 d (by rw [hnn]; simp)⟩
    have ha1 : isDig a = false := alpha_not_dig ha
    have ha2 : isWhite a = false := white_not_descr (alnum_descr (alpha_alnum ha))
    have ha3 : a ≠ '-' := by rintro rfl; exact absurd ha (by decide)
    simp only [ProdText.text, ProdText.tok] at *
    have hlen : e.length + 1 < (n ++ w ++ e).length := by
      have h1 := length_pos_of_digitText hn
      rw [hws]
      simp only [List.length_append, List.length_cons]
      omega
    refine orAll_win [group pNucleus, pBasicParticle, pParticle] [lit ['0']] _ _ hnw
      (group_some (t := [.str n, .str w]) (and_nw (t := [.str n]) (r := w ++ e) (opt_some ?_) ?_ (pParticle_some hw he.not_alnum))) ?_ ?_
    · rw [List.append_assoc]
      refine pNums_some hn ?_
      intro x hx
      rw [hws] at hx
      simp at hx
      subst hx
      exact ha1
    · rw [hws]; exact NW_cons.2 ha2
    · intro q hq
      simp only [List.mem_cons, List.not_mem_nil, or_false] at hq
      rcases hq with rfl | rfl | rfl
      · rw [group_none]
        · exact shorter_none _
        · rw [hws, List.append_assoc, List.cons_append]
          exact pNucleus_no_dash hn ha1 ha3 ha2
      · rcases basic_digit (c := d) (s := n' ++ w ++ e) hdig with h | ⟨-, h⟩
        · rw [hn', List.cons_append, List.cons_append, h]; exact shorter_none _
        · rw [hn', List.cons_append, List.cons_append, h]
          intro t' r' e3
          injection e3 with e3
          injection e3 with _ e3
          subst e3
          rw [hws]
          simp
          omega
      · rw [pParticle_none]
        · exact shorter_none _
        · intro x hx
          rw [hn'] at hx
          simp at hx
          subst hx
          exact dig_not_alpha hdig
    · intro q hq
      simp only [List.mem_cons, List.not_mem_nil, or_false] at hq
      subst hq
      exact (lit_shorter (by simpa using hlen)).notLonger
  | word w =>
    obtain ⟨hw, hX⟩ := hp
    obtain ⟨a, s, hws, ha⟩ := particle_head hw
    have hdh : ∀ x ∈ (w ++ e).head?, isDig x = false := by
      intro x hx
      rw [hws] at hx
      simp at hx
      subst hx
      exact alpha_not_dig ha
    simp only [ProdText.text, ProdText.tok] at *
    have hP := pParticle_some hw he.not_alnum
    have hN : (group pNucleus).impl (w ++ e) = none := group_none (pNucleus_none hdh)
    have hG : (group (and (opt pNums) pParticle)).impl (w ++ e) = some ([.grp ([] ++ [.str w])], e) :=
      group_some (and_nw (opt_none (pNums_none hdh)) hnw hP)
    have h0 : (lit ['0']).impl (w ++ e) = none := by
      rw [hws]
      refine lit_head_ne ?_
      rintro rfl
      exact absurd ha (by decide)
    rcases basic_word hw hX he with h | h
    · refine orAll_win [group pNucleus] _ _ _ hnw h ?_ ?_
      · intro q hq
        simp only [List.mem_cons, List.not_mem_nil, or_false] at hq
        subst hq
        rw [hN]; exact shorter_none _
      · intro q hq
        simp only [List.mem_cons, List.not_mem_nil, or_false] at hq
        rcases hq with rfl | rfl | rfl
        · rw [hP]; exact notLonger_same
        · rw [hG]; exact notLonger_same
        · rw [h0]; exact notLonger_none _
    · refine orAll_win [group pNucleus, pBasicParticle] _ _ _ hnw hP ?_ ?_
      · intro q hq
        simp only [List.mem_cons, List.not_mem_nil, or_false] at hq
        rcases hq with rfl | rfl
        · rw [hN]; exact shorter_none _
        · exact h
      · intro q hq
        simp only [List.mem_cons, List.not_mem_nil, or_false] at hq
        rcases hq with rfl | rfl
        · rw [hG]; exact notLonger_same
        · rw [h0]; exact notLonger_none _
  | zero =>
    simp only [ProdText.text, ProdText.tok] at *
    obtain ⟨c, e', hc, hcd⟩ := he.no_dash
    have h0d : DigitText ['0'] := ⟨by simp, by simp [isDig]⟩
    have hdc : isDig c = false := not_alnum_dig (he.not_alnum c (by rw [hc]; simp))
    have hwc : isWhite c = false := NW_cons.1 (hc ▸ he.nw)
    have hB : pBasicParticle.impl (['0'] ++ e) = some ([.str ['0']], e) := by
      have hX : (opt (lit ['X'])).impl (['0'] ++ e) = some ([], ['0'] ++ e) := opt_none (lit_head_ne (by decide))
      unfold pBasicParticle
      refine and_nw (t := []) hX hnw ?_
      refine lits_some particleKeys _ hnw ['0'] e (by decide +kernel) rfl ?_
      intro k hk hpre
      have hdk : digitHead k = true := by
        obtain ⟨d, u, rfl, -⟩ := particleKeys_head k hk
        simp only [List.cons_append, List.cons_prefix_cons] at hpre
        rw [hpre.1]
        rfl
      rw [particleKeys_digit k hk hdk]
    refine orAll_win [group pNucleus] _ _ _ hnw hB ?_ ?_
    · intro q hq
      simp only [List.mem_cons, List.not_mem_nil, or_false] at hq
      subst hq
      rw [hc, group_none (pNucleus_no_dash h0d hdc hcd hwc)]
      exact shorter_none _
    · intro q hq
      simp only [List.mem_cons, List.not_mem_nil, or_false] at hq
      rcases hq with rfl | rfl | rfl
      · rw [pParticle_none (by intro x hx; simp at hx; subst hx; rfl)]
        exact notLonger_none _
      · rw [group_none]
        · exact notLonger_none _
        · refine and_nw_none (opt_some (pNums_some h0d (fun x hx => not_alnum_dig (he.not_alnum x hx)))) he.nw (pParticle_none ?_)
          exact fun x hx => not_alnum_alpha (he.not_alnum x hx)
      · rw [show (lit ['0']).impl (['0'] ++ e) = some ([.str ['0']], e) from lit_append _ _ _]
        exact notLonger_same

theorem prodEnd_list (q : ProdText) (l : List ProdText) (r : Str) (hl : ∀ x ∈ l, x.wf) (hch : List.IsChain ProdText.before (q :: l)) :
    ProdEnd q (l.flatMap (fun q => '+' :: q.text) ++ ')' :: r) := by
  cases l with
  | nil => exact ⟨')', r, rfl, .inl rfl⟩
  | cons x l =>
    refine ⟨'+', x.text ++ (l.flatMap (fun q => '+' :: q.text) ++ ')' :: r), by simp, .inr ⟨rfl, x, _, rfl, hl x (by simp), ?_⟩⟩
    exact (List.isChain_cons_cons.1 hch).1

theorem chain_suffix {l1 l2 : List ProdText} (h : l1 <:+ l2) (hc : List.IsChain ProdText.before l2) : List.IsChain ProdText.before l1 := by
  obtain ⟨u, rfl⟩ := h
  exact hc.right_of_append

theorem pProducts_some (p : ProdText) (l : List ProdText) (hl : ∀ x ∈ p :: l, x.wf) (hch : List.IsChain ProdText.before (p :: l)) (r : Str) :
    pProducts.impl (p.text ++ (l.flatMap (fun q => '+' :: q.text) ++ ')' :: r)) = some (p.tok :: l.map ProdText.tok, ')' :: r) := by
  unfold pProducts delimited
  have h1 := pProduct_some (hl p (by simp)) (prodEnd_list p l r (fun x hx => hl x (by simp [hx])) hch)
  have hp : (and (suppress (lit ['+'])) pProduct).impl (')' :: r) = none := and_none_left (suppress_none (lit_head_ne (by decide)))
  have h2 : (many (and (suppress (lit ['+'])) pProduct)).impl (l.flatMap (fun q => '+' :: q.text) ++ ')' :: r) =
      some (l.flatMap (fun q => [q.tok]), ')' :: r) := by
    refine many_list _ _ _ l _ (by simp) hp ?_ ?_
    · rw [parse_nw (NW_cons.2 rfl)]; exact hp
    · intro x m hm
      refine ⟨NW_cons.2 rfl, ?_⟩
      have hx : ∀ y ∈ x :: m, y.wf := fun y hy => hl y (by simp [hm.subset hy])
      have hch' : List.IsChain ProdText.before (x :: m) := chain_suffix (hm.trans (List.suffix_cons _ _)) hch
      have he := prodEnd_list x m r (fun y hy => hx y (by simp [hy])) hch'
      have hd := prod_descr (hx x (by simp))
      have h3 : (suppress (lit ['+'])).impl ('+' :: (x.text ++ (m.flatMap (fun q => '+' :: q.text) ++ ')' :: r))) = some ([], _) :=
        suppress_some (lit_cons _ _ _)
      exact and_nw (t := []) h3 (nw_descr hd.1 hd.2) (pProduct_some (hx x (by simp)) he)
  have hnw : NW (l.flatMap (fun q => '+' :: q.text) ++ ')' :: r) := by
    cases l with
    | nil => exact NW_cons.2 rfl
    | cons x l => exact NW_cons.2 rfl
  rw [and_nw h1 hnw h2]
  rw [← List.map_eq_flatMap]
  rfl

/-! ### processes -/

theorem targVars_shape : ∀ v ∈ targVars, varShape v = true := by decide
theorem residVars_shape : ∀ v ∈ residVars, varShape v = true := by decide

theorem pProcess_some {p : ProcText} (hp : p.wf) {c : Char} (hc : Sep c) (r : Str) :
    pProcess.impl (p.text ++ c :: r) = some (p.toks, c :: r) := by
  obtain ⟨h1, h2, h3, h4, h5⟩ := hp
  have hpj := proj_descr h2
  have hpr := prod_descr (h3 p.prod (by simp))
  have tl : ∃ tl, tl = p.resid.elim [] TargText.text ++ c :: r := ⟨_, rfl⟩
  obtain ⟨tl, htl⟩ := tl
  have e : p.text ++ c :: r = p.targ.text ++ '(' :: (p.proj.text ++ ',' :: (p.prod.text ++ (p.prods.flatMap (fun q => '+' :: q.text) ++ ')' :: tl))) := by
    rw [htl]
    simp [ProcText.text, List.append_assoc]
  have et : p.toks = ((((([p.targ.tok] ++ []) ++ [p.proj.tok]) ++ []) ++ (p.prod.tok :: p.prods.map ProdText.tok)) ++ []) ++
      p.resid.elim [] (fun r => [r.tok]) := by
    simp [ProcText.toks]
  rw [e, et]
  unfold pProcess
  have hres : NW tl ∧ (opt pResidual).impl tl = some (p.resid.elim [] (fun r => [r.tok]), c :: r) := by
    rw [htl]
    cases hr : p.resid with
    | none => exact ⟨sep_nw hc, opt_none (pResidual_none hc r)⟩
    | some t =>
      have ht := h5 t (by rw [hr]; rfl)
      have hd := targ_descr residVars_shape ht
      exact ⟨nw_descr hd.1 hd.2, opt_some (pResidual_some ht hc r)⟩
  refine and_nw (and_nw (and_nw (and_nw (and_nw (and_nw (pTarget_some h1 (.inl rfl) _) ?_ (pLpar_cons _)) ?_
    (pProjectile_some h2 (.inr (.inr rfl)) _)) ?_ (pComma_cons _)) ?_ (pProducts_some _ _ h3 h4 _)) ?_ (pRpar_cons _)) hres.1 hres.2
  · exact NW_cons.2 rfl
  · exact nw_descr hpj.1 hpj.2
  · exact NW_cons.2 rfl
  · exact nw_descr hpr.1 hpr.2
  · exact NW_cons.2 rfl

/-! ### descriptors -/

theorem pDescriptor_word {w : Str} (hne : w ≠ []) (hw : ∀ c ∈ w, isDescr c = true) {c : Char} (hc : Sep c) (r : Str) :
    pDescriptor.impl (w ++ c :: r) = some ([.str w], c :: r) := by
  have hnw : NW (w ++ c :: r) := nw_descr hne hw
  unfold pDescriptor
  rw [or_impl, parse_nw hnw, parse_nw hnw]
  have h1 : (word isDescr isDescr).impl (w ++ c :: r) = some ([.str w], c :: r) := by
    refine word_all hne hw ?_
    intro x hx; simp at hx; subst hx; exact sep_not_descr hc
  have h2 : (and (and pLpar (word isDescr isDescr)) pRpar).impl (w ++ c :: r) = none := by
    refine and_none_left (and_none_left ?_)
    cases w with
    | nil => exact absurd rfl hne
    | cons d w =>
      refine pLpar_ne ?_
      rintro rfl
      exact absurd (hw '(' (by simp)) (by decide)
  rw [h1, h2]
  rfl

theorem pDescriptor_lpar {w : Str} (hne : w ≠ []) (hw : ∀ c ∈ w, isDescr c = true) {c : Char} (hc : Sep c) (r : Str) :
    pDescriptor.impl ('(' :: (w ++ c :: r)) = if c = ')' then some ([.str w], r) else none := by
  have hnw : NW ('(' :: (w ++ c :: r)) := NW_cons.2 rfl
  unfold pDescriptor
  rw [or_impl, parse_nw hnw, parse_nw hnw]
  have h1 : (word isDescr isDescr).impl ('(' :: (w ++ c :: r)) = none := word_none (by intro x hx; simp at hx; subst hx; rfl)
  have h2 : (and pLpar (word isDescr isDescr)).impl ('(' :: (w ++ c :: r)) = some ([] ++ [.str w], c :: r) := by
    refine and_nw (pLpar_cons _) (nw_descr hne hw) (word_all hne hw ?_)
    intro x hx; simp at hx; subst hx; exact sep_not_descr hc
  rw [h1, longer_none_left]
  split_ifs with h
  · subst h
    exact and_nw h2 (NW_cons.2 rfl) (pRpar_cons r)
  · exact and_nw_none h2 (sep_nw hc) (pRpar_ne h)

theorem pDescriptor_sep {c : Char} (hc : c = ',' ∨ c = ')') (r : Str) : pDescriptor.impl (c :: r) = none := by
  have hs : Sep c := by rcases hc with rfl | rfl <;> simp [Sep]
  have hnw : NW (c :: r) := sep_nw hs
  unfold pDescriptor
  rw [or_impl, parse_nw hnw, parse_nw hnw, word_none, longer_none_left]
  · refine and_none_left (and_none_left (pLpar_ne ?_))
    rcases hc with rfl | rfl <;> decide
  · intro x hx; simp at hx; subst hx; exact sep_not_descr hs

theorem many_single {p : Parser} {s e : Str} {t : List Tok} (hs : s ≠ []) (hnw : NW s) (h : p.impl (s ++ e) = some (t, e)) (he : p.impl e = none)
    (hnwe : NW e) : (many p).impl (s ++ e) = some (t, e) := by
  have := many_list p (fun _ : Unit => s) (fun _ => t) [()] e (by simp [hs]) he (by rw [parse_nw hnwe]; exact he) (by
    intro x l hl
    have : l = [] := by
      have := hl.length_le
      simp at this
      exact this
    subst this
    exact ⟨hnw, by simpa using h⟩)
  simpa using this

theorem pField_many {f : DescrText} (hf : f.wf) {c : Char} (hc : c = ',' ∨ c = ')') (r : Str) :
    (many pDescriptor).impl (f.text ++ c :: r) = some (f.toks, c :: r) := by
  have hs : Sep c := by rcases hc with rfl | rfl <;> simp [Sep]
  have he := pDescriptor_sep hc r
  cases f with
  | empty => exact many_none he
  | word w =>
    have hnw := nw_descr (r := []) hf.1 hf.2
    rw [List.append_nil] at hnw
    exact many_single hf.1 hnw (pDescriptor_word hf.1 hf.2 hs r) he (sep_nw hs)
  | par w =>
    have h := pDescriptor_lpar (c := ')') hf.1 hf.2 (.inr (.inl rfl)) (c :: r)
    rw [if_pos rfl] at h
    refine many_single (s := '(' :: (w ++ [')'])) (by simp) (NW_cons.2 rfl) ?_ he (sep_nw hs)
    simpa [DescrText.toks] using h

/-! ### a field is no process -/

theorem within_nums (ws : Bool) : Within isDescr (pNums ws) :=
  Within.word (fun x h => alnum_descr (dig_alnum h)) (fun x h => alnum_descr (dig_alnum h))
theorem within_dash : Within isDescr pDash := (Within.lit _ _ (by decide)).suppress
theorem within_element : Within isDescr pElement := by
  refine Within.orAll _ ?_
  intro p hp
  simp only [List.mem_cons, List.not_mem_nil, or_false] at hp
  rcases hp with rfl | rfl | rfl | rfl | rfl | rfl
  · refine Within.wordMax ?_ (fun x h => alnum_descr (alpha_alnum h))
    intro x h
    simp only [Bool.or_eq_true, beq_iff_eq] at h
    rcases h with h | rfl
    · exact alnum_descr (alpha_alnum (cap_alpha h))
    · rfl
  all_goals exact Within.lit _ _ (by decide)
theorem within_mathop : Within isDescr pMathop :=
  ((Within.lit _ _ (by decide)).first (Within.lit _ _ (by decide))).first ((Within.lit _ _ (by decide)).first (Within.lit _ _ (by decide)))
theorem within_modifier : Within isDescr pIsomerModifier :=
  (Within.wordMax (fun x h => alnum_descr (alpha_alnum (modifier_alpha h))) (fun x h => alnum_descr (alpha_alnum (modifier_alpha h)))).and
    (within_nums _).opt
theorem within_nucleus : Within isDescr pNucleus :=
  (((((within_nums _).and within_dash).and within_element).and within_dash).and (within_nums _)).and (within_mathop.and within_modifier).many
theorem within_compound : Within isDescr pCompound := by
  refine Within.orAll _ ?_
  intro p hp
  obtain ⟨k, hk, rfl⟩ := List.mem_map.1 hp
  exact Within.lit _ _ (compoundKeys_descr k hk).2
theorem within_target : Within isDescr pTarget := by
  refine Within.orAll _ ?_
  intro p hp
  simp only [List.mem_cons, List.not_mem_nil, or_false] at hp
  rcases hp with rfl | rfl | rfl | rfl
  · exact (within_compound.first within_nucleus).group
  all_goals exact Within.lit _ _ (by decide)

/-- a text without an opening parenthesis before the next comma is no process -/
theorem pProcess_none_word {w : Str} (hw : ∀ c ∈ w, isDescr c = true) {c : Char} (hc : c = ',' ∨ c = ')') (r : Str) :
    pProcess.impl (w ++ c :: r) = none := by
  have hs : Sep c := by rcases hc with rfl | rfl <;> simp [Sep]
  unfold pProcess
  refine and_none_left (and_none_left (and_none_left (and_none_left (and_none_left ?_))))
  cases ht : pTarget.impl (w ++ c :: r) with
  | none => exact and_none_left ht
  | some m =>
    obtain ⟨t, r'⟩ := m
    obtain ⟨u, hu, hk⟩ := within_target _ _ _ ht
    -- the rest begins inside the word or with the separator
    have hlen : u.length ≤ w.length := by
      refine prefix_len ⟨r', hu.symm⟩ ?_
      intro h
      rcases hk c h with h | h
      · rw [sep_not_descr hs] at h; cases h
      · rcases hc with rfl | rfl <;> exact absurd h (by decide)
    obtain ⟨d, r'', hd, hd1⟩ : ∃ d r'', r' = d :: r'' ∧ (isDescr d = true ∨ d = c) := by
      obtain ⟨v, hv⟩ : ∃ v, w = u ++ v := by
        refine ⟨w.drop u.length, ?_⟩
        have h2 := congrArg (List.take u.length) hu
        rw [List.take_left, List.take_append_of_le_length hlen] at h2
        exact (List.take_append_drop u.length w).symm.trans (by rw [h2])
      rw [hv, List.append_assoc] at hu
      have h3 := List.append_cancel_left hu
      cases v with
      | nil => exact ⟨c, r, h3.symm, .inr rfl⟩
      | cons d v => exact ⟨d, v ++ c :: r, h3.symm, .inl (hw d (by rw [hv]; simp))⟩
    refine and_none_right ht ?_
    have hdw : isWhite d = false ∧ d ≠ '(' := by
      rcases hd1 with h | rfl
      · exact ⟨white_not_descr h, by rintro rfl; exact absurd h (by decide)⟩
      · rcases hc with rfl | rfl <;> decide
    rw [hd, parse_nw (NW_cons.2 hdw.1)]
    exact pLpar_ne hdw.2

theorem pTarget_lpar (r : Str) : pTarget.impl ('(' :: r) = none := by
  have hnw : NW ('(' :: r) := NW_cons.2 rfl
  have hh : ∀ x ∈ ('(' :: r).head?, isDig x = false := by intro x hx; simp at hx; subst hx; rfl
  unfold pTarget
  refine orAll_none _ _ hnw ?_
  intro p hp
  simp only [List.mem_cons, List.not_mem_nil, or_false] at hp
  rcases hp with rfl | rfl | rfl | rfl
  · refine group_none ?_
    rw [first_nw hnw, pCompound_none hnw hh, pNucleus_none hh]
    rfl
  all_goals exact lit_head_ne (by decide)

theorem pProcess_lpar (r : Str) : pProcess.impl ('(' :: r) = none := by
  unfold pProcess
  exact and_none_left (and_none_left (and_none_left (and_none_left (and_none_left (and_none_left (pTarget_lpar r))))))

theorem pField_some {f : DescrText} (hf : f.wf) {c : Char} (hc : c = ',' ∨ c = ')') (r : Str) :
    (or (group pProcess) (many pDescriptor)).impl (f.text ++ c :: r) = some (f.toks, c :: r) := by
  have hs : Sep c := by rcases hc with rfl | rfl <;> simp [Sep]
  have hnw : NW (f.text ++ c :: r) := by
    cases f with
    | empty => exact sep_nw hs
    | word w => exact nw_descr hf.1 hf.2
    | par w => exact NW_cons.2 rfl
  have hg : pProcess.impl (f.text ++ c :: r) = none := by
    cases f with
    | empty =>
      have := pProcess_none_word (w := []) (by simp) hc r
      simpa only [DescrText.text] using this
    | word w =>
      simp only [DescrText.text]
      exact pProcess_none_word hf.2 hc r
    | par w =>
      simp only [DescrText.text, List.cons_append]
      exact pProcess_lpar _
  rw [or_impl, parse_nw hnw, parse_nw hnw, pField_many hf hc r, group_none hg, longer_none_left]

theorem pProcess_field {p : ProcText} (hp : p.wf) {c : Char} (hc : Sep c) (r : Str) :
    (or (group pProcess) (many pDescriptor)).impl (p.text ++ c :: r) = some ([.grp p.toks], c :: r) := by
  have h := pProcess_some hp hc r
  obtain ⟨h1, h2, h3, h4, h5⟩ := hp
  have ht := targ_descr targVars_shape h1
  have hj := proj_descr h2
  obtain ⟨x, hx⟩ : ∃ x, x = p.prod.text ++ (p.prods.flatMap (fun q => '+' :: q.text) ++ ')' ::
    (p.resid.elim [] TargText.text ++ c :: r)) := ⟨_, rfl⟩
  have e : p.text ++ c :: r = p.targ.text ++ '(' :: (p.proj.text ++ ',' :: x) := by
    rw [hx]
    simp [ProcText.text, List.append_assoc]
  have hnw : NW (p.text ++ c :: r) := by rw [e]; exact nw_descr ht.1 ht.2
  have hm : (many pDescriptor).impl (p.text ++ c :: r) = some ([.str p.targ.text], '(' :: (p.proj.text ++ ',' :: x)) := by
    rw [e]
    have hnw' := nw_descr (r := []) ht.1 ht.2
    rw [List.append_nil] at hnw'
    refine many_single ht.1 hnw' (pDescriptor_word ht.1 ht.2 (.inl rfl) _) ?_ (NW_cons.2 rfl)
    have := pDescriptor_lpar (c := ',') hj.1 hj.2 (.inr (.inr rfl)) x
    rwa [if_neg (by decide)] at this
  rw [or_impl, parse_nw hnw, parse_nw hnw, group_some h, hm]
  refine longer_left ?_
  intro t' r' e3
  injection e3 with e3
  injection e3 with _ e3
  subst e3
  rw [hx]
  simp only [List.length_append, List.length_cons]
  omega

/-! ### reactions -/

/-- A reaction is read as the process and the words of its fields. -/
theorem pReaction_some {x : ReactText} (hx : x.wf) (r : Str) : pReaction.impl (x.text ++ r) = some (x.toks, r) := by
  obtain ⟨hp, hf⟩ := hx
  have e : x.text ++ r = '(' :: (x.proc.text ++ (x.fields.flatMap (fun f => ',' :: f.text) ++ ')' :: r)) := by
    simp [ReactText.text, List.append_assoc]
  have et : x.toks = ([] ++ ([.grp x.proc.toks] ++ x.fields.flatMap DescrText.toks)) ++ [] := by simp [ReactText.toks]
  rw [e, et]
  unfold pReaction delimited
  have hproc : x.proc.text ≠ [] ∧ NW (x.proc.text ++ (x.fields.flatMap (fun f => ',' :: f.text) ++ ')' :: r)) := by
    have ht := targ_descr targVars_shape hp.1
    refine ⟨by simp [ProcText.text], ?_⟩
    simp only [ProcText.text, List.append_assoc]
    exact nw_descr ht.1 ht.2
  have hnext : ∀ l : List DescrText, ∃ c r', l.flatMap (fun f => ',' :: f.text) ++ ')' :: r = c :: r' ∧ (c = ',' ∨ c = ')') := by
    intro l
    cases l with
    | nil => exact ⟨_, _, rfl, .inr rfl⟩
    | cons f l => exact ⟨_, _, rfl, .inl rfl⟩
  have hsep : ∀ {c}, (c = ',' ∨ c = ')') → Sep c := by
    intro c h
    rcases h with rfl | rfl <;> simp [Sep]
  have hfields : (many (and (suppress (lit [','])) (or (group pProcess) (many pDescriptor)))).impl
      (x.fields.flatMap (fun f => ',' :: f.text) ++ ')' :: r) = some (x.fields.flatMap DescrText.toks, ')' :: r) := by
    have hend : (and (suppress (lit [','])) (or (group pProcess) (many pDescriptor))).impl (')' :: r) = none :=
      and_none_left (suppress_none (lit_head_ne (by decide)))
    refine many_list _ _ _ x.fields _ (by simp) hend ?_ ?_
    · rw [parse_nw (NW_cons.2 rfl)]; exact hend
    · intro f l hl
      refine ⟨NW_cons.2 rfl, ?_⟩
      have hff := hf f (hl.subset (by simp))
      obtain ⟨c, r', e1, hc⟩ := hnext l
      rw [e1]
      have h3 : (suppress (lit [','])).impl (',' :: (f.text ++ c :: r')) = some ([], f.text ++ c :: r') := suppress_some (lit_cons _ _ _)
      have hnw : NW (f.text ++ c :: r') := by
        cases f with
        | empty => exact sep_nw (hsep hc)
        | word w => exact nw_descr hff.1 hff.2
        | par w => exact NW_cons.2 rfl
      exact and_nw (t := []) h3 hnw (pField_some hff hc r')
  obtain ⟨c, r', e1, hc⟩ := hnext x.fields
  refine and_nw (and_nw (pLpar_cons _) hproc.2 (and_nw ?_ ?_ hfields)) (NW_cons.2 rfl) (pRpar_cons r)
  · rw [e1]
    exact pProcess_field hp (hsep hc) r'
  · rw [e1]
    exact sep_nw (hsep hc)

end X4
