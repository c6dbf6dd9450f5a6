import Verif.Spec.ReprText
import Verif.Props.Isomers
import Verif.Props.Printing
import Verif.Props.Reaction
/-! C84: reactions printed in EXFOR form read back. -/
namespace X4
open Parser

theorem upper_digits {n : Str} (hn : ∀ c ∈ n, isDig c = true) : upper n = n := by
  unfold upper
  have : ∀ c ∈ n, c.toUpper = id c := by
    intro c hc
    have := hn c hc
    simp only [isDig, Bool.and_eq_true, decide_eq_true_eq] at this
    exact toUpper_of_not_lower (by omega)
  rw [List.map_congr_left this, List.map_id]

theorem upper_append (a b : Str) : upper (a ++ b) = upper a ++ upper b := by unfold upper; rw [List.map_append]
theorem upper_cons (c : Char) (b : Str) : upper (c :: b) = c.toUpper :: upper b := rfl

theorem digit_no_quote {n : Str} (hn : ∀ c ∈ n, isDig c = true) : '\'' ∉ n := fun h => absurd (hn _ h) (by decide)

theorem symbol_no_quote {s : Str} (h : SymbolText s) : '\'' ∉ s := by
  obtain ⟨c, w, rfl, h1, -, h2⟩ := h
  intro hm
  rcases List.mem_cons.1 hm with rfl | hm
  · rcases h1 with h | h
    · revert h; decide
    · cases h
  · exact absurd (h2 _ hm) (by decide)

theorem exforNucleus_text {Z sym A : Str} (hZ : DigitText Z) (hs : SymOk sym) (hA : DigitText A) :
    upper (exforNucleus Z sym A) = Z ++ '-' :: (upper sym ++ '-' :: A) ∧ '\'' ∉ exforNucleus Z sym A := by
  unfold exforNucleus
  rw [if_neg hs.2.2]
  constructor
  · simp only [upper_append, upper_digits hZ.2, upper_digits hA.2, upper_upper]
    simp [upper]
  · simp only [List.mem_append, List.mem_cons, List.not_mem_nil, or_false, not_or]
    exact ⟨⟨⟨⟨digit_no_quote hZ.2, by decide⟩, symbol_no_quote hs.1⟩, by decide⟩, digit_no_quote hA.2⟩

theorem isoMod_text {Z sym A l : Str} (hZ : DigitText Z) (hs : SymOk sym) (hA : DigitText A) (hl : DigitText l) :
    ∃ t, (Particle.isomer Z sym A [l]).exfor = .ok t ∧
      upper t = NucText.text ⟨Z, upper sym, A, [⟨'-', 'M', if l = ['1'] then [] else l⟩]⟩ ∧ '\'' ∉ t := by
  obtain ⟨h1, h2⟩ := exforNucleus_text hZ hs hA
  refine ⟨_, rfl, ?_, ?_⟩
  · rw [upper_append, upper_append, h1]
    unfold NucText.text isomerTail
    by_cases h : l = ['1']
    · subst h; simp [IsoMod.text, upper]
    · have hd : upper l = l := upper_digits hl.2
      simp [h, IsoMod.text, joinWith, hd]
      simp [upper]
  · simp only [List.mem_append, not_or]
    refine ⟨⟨h2, by decide⟩, ?_⟩
    unfold isomerTail
    split
    · simp
    · simp only [joinWith]; exact digit_no_quote hl.2

theorem nucText_wf {Z sym A : Str} (hZ : DigitText Z) (hs : SymOk sym) (hA : DigitText A) : NucText.wf ⟨Z, upper sym, A, []⟩ :=
  ⟨hZ, hs.1, hA, by simp⟩

theorem isoText_wf {Z sym A l : Str} (hZ : DigitText Z) (hs : SymOk sym) (hA : DigitText A) (hl : DigitText l) :
    NucText.wf ⟨Z, upper sym, A, [⟨'-', 'M', if l = ['1'] then [] else l⟩]⟩ := by
  refine ⟨hZ, hs.1, hA, ?_⟩
  intro m hm
  rw [List.mem_singleton.1 hm]
  refine ⟨by simp, rfl, ?_⟩
  dsimp only
  split
  · simp
  · exact hl.2

theorem isoText_read {Z sym A l : Str} (hZ : DigitText Z) (hs : SymOk sym) (hA : DigitText A) (hl : DigitText l) :
    setParticleType (.grp (NucText.toks ⟨Z, upper sym, A, [⟨'-', 'M', if l = ['1'] then [] else l⟩]⟩)) = .ok (.isomer Z sym A [l]) := by
  rw [C79_states _ (isoText_wf hZ hs hA hl) _ rfl (by simp) (by simp)]
  simp only [hs.2.1, IsoMod.levels]
  by_cases h : l = ['1']
  · subst h; rfl
  · simp [h, hl.1]

theorem compoundKeys_text : ∀ k ∈ compoundKeys, upper k = k ∧ '\'' ∉ k := by decide +kernel

/-- targets and residuals: they are written well, read back, and are printed as written -/
theorem targOf_spec {vars : List Str} (hv : ∀ s ∈ vars, s ∈ [chars!"ELEM/MASS", chars!"MASS", chars!"ELEM", chars!"NPART"]) {p : Particle} {t : TargText}
    (h : TargOf vars p t) : t.wf vars ∧ setParticleType t.tok = .ok p ∧ ∃ s, p.exfor = .ok s ∧ upper s = t.text ∧ '\'' ∉ s := by
  cases h with
  | nucleus hZ hs hA h0 =>
    obtain ⟨h1, h2⟩ := exforNucleus_text hZ hs hA
    refine ⟨nucText_wf hZ hs hA, ?_, _, rfl, ?_, h2⟩
    · rw [TargText.tok, setParticleType_nuc rfl (isDigitStr_digitText hA), if_neg h0, hs.2.1]
    · rw [h1]; simp [TargText.text, NucText.text]
  | element hZ hs =>
    have hA : DigitText ['0'] := ⟨by decide, by decide⟩
    obtain ⟨h1, h2⟩ := exforNucleus_text hZ hs hA
    refine ⟨nucText_wf hZ hs hA, ?_, _, rfl, ?_, h2⟩
    · rw [TargText.tok, setParticleType_nuc rfl (isDigitStr_digitText hA), if_pos rfl, hs.2.1]
    · rw [h1]; simp [TargText.text, NucText.text]
  | isomer hZ hs hA hl => exact ⟨isoText_wf hZ hs hA hl, isoText_read hZ hs hA hl, isoMod_text hZ hs hA hl⟩
  | compound hk h4 hc =>
    refine ⟨hk, ?_, _, rfl, compoundKeys_text _ hk⟩
    simp only [TargText.tok, setParticleType, strToks, Option.map_some, if_pos h4, hc]
  | @var s hs =>
    have := hv s hs
    refine ⟨hs, ?_, _, rfl, ?_⟩
    · simp only [TargText.tok, setParticleType]
      rw [if_pos]
      clear hs
      revert s; decide
    · show upper s = s ∧ '\'' ∉ s
      clear hs
      revert s; decide

theorem particleWord_no_quote {w : Str} (h : ParticleWord w) : '\'' ∉ w := by
  intro hm
  exact absurd ((particle_alnum h).2 _ hm) (by decide)

theorem partOf_spec {p : Particle} {t : ProdText} (h : PartOf p t) :
    t.wf ∧ t.wfProj ∧ setParticleType t.tok = .ok p ∧ ∃ s, p.exfor = .ok s ∧ upper s = t.text ∧ '\'' ∉ s := by
  cases h with
  | @word sym Z A hw hu hX h =>
    refine ⟨⟨hw, fun hx => absurd hx hX⟩, hw, ?_, sym, ?_, ?_, particleWord_no_quote hw⟩
    · simp only [ProdText.tok, setParticleType]
      rw [if_neg, h]
      intro hm
      have : ∀ w ∈ [chars!"ELEM", chars!"MASS", chars!"ELEM/MASS", chars!"X", chars!"NPART"],
        (match particleOfStr w with | .ok _ => false | .error _ => true) = true := by decide +kernel
      have := this _ hm
      rw [h] at this
      cases this
    · simp [Particle.exfor, multPrefix]
    · exact hu
  | nucleus hZ hs hA h0 =>
    obtain ⟨h1, h2⟩ := exforNucleus_text hZ hs hA
    refine ⟨nucText_wf hZ hs hA, nucText_wf hZ hs hA, ?_, _, rfl, ?_, h2⟩
    · rw [ProdText.tok, setParticleType_nuc rfl (isDigitStr_digitText hA), if_neg h0, hs.2.1]
    · rw [h1]; simp [ProdText.text, NucText.text]
  | isomer hZ hs hA hl => exact ⟨isoText_wf hZ hs hA hl, isoText_wf hZ hs hA hl, isoText_read hZ hs hA hl, isoMod_text hZ hs hA hl⟩

theorem projOf_spec {p : Particle} {t : ProdText} (h : ProjOf p t) :
    t.wfProj ∧ setParticleType t.tok = .ok p ∧ ∃ s, p.exfor = .ok s ∧ upper s = t.text ∧ '\'' ∉ s := by
  cases h with
  | part h => exact (partOf_spec h).2
  | zero => exact ⟨trivial, by decide +kernel, ['0'], by decide +kernel, by decide, by decide⟩

theorem setProduct_grp (ts : List Tok) : setProduct (.grp ts) = match setParticleType (.grp ts) with | .error e => .error e | .ok p => .ok (.part p) := rfl

theorem prodOf_spec {p : Product} {t : ProdText} (h : ProdOf p t) :
    t.wf ∧ setProduct t.tok = .ok p ∧ ∃ s, p.exfor = .ok s ∧ upper s = t.text ∧ '\'' ∉ s := by
  cases h with
  | @chan c h h0 =>
    have key : ∀ c ∈ x4ReactionMap.keys, c ≠ ['0'] → (upper c = c ∧ '\'' ∉ c ∧ x4ReactionMap.has c = true ∧ c ≠ [] ∧ (∀ x ∈ c, isAlphaA x = true) ∧
        (c.head? = some 'X' → c = ['X'])) := by decide +kernel
    obtain ⟨k1, k2, k3, k4, k5, k6⟩ := key c h h0
    refine ⟨⟨⟨c, [], by simp, k4, k5, by simp⟩, k6⟩, ?_, c, rfl, k1, k2⟩
    simp only [ProdText.tok, setProduct, k3, if_true]
  | nothing => exact ⟨trivial, by decide +kernel, ['0'], rfl, by decide, by decide⟩
  | @part p t h hc =>
    obtain ⟨h1, -, h2, h3⟩ := partOf_spec h
    refine ⟨h1, ?_, h3⟩
    cases t with
    | nuc n => rw [ProdText.tok, setProduct_grp]; rw [ProdText.tok] at h2; rw [h2]
    | mult n w => rw [ProdText.tok, setProduct_grp]; rw [ProdText.tok] at h2; rw [h2]
    | word w =>
      have hk := hc w rfl
      rw [Dict.mem_keys_iff] at hk
      have : x4ReactionMap.has w = false := by simpa [Dict.has] using hk
      rw [ProdText.tok] at h2
      simp only [ProdText.tok, setProduct, this, Bool.false_eq_true, if_false, setProduct.particleOfTok, h2]
    | zero => cases h
  | @several n sym Z A h2 hw hl hZ hA =>
    obtain ⟨d1, d2, d3, -⟩ := natStr_spec n
    have hpre : multPrefix (.num (n : Int)) = .ok (natStr n) := by
      simp only [multPrefix]; rw [if_pos (by omega)]; rfl
    refine ⟨⟨⟨d2, d1⟩, hw⟩, ?_, natStr n ++ sym, ?_, ?_, ?_⟩
    · have hlow : lower (upper sym) = sym := by rw [lower_upper, hl]
      rw [ProdText.tok, setProduct_grp]
      have : setParticleType (.grp [.str (natStr n), .str (upper sym)]) = .ok (.particle (.num n) sym Z A) := by
        simp only [setParticleType, strToks, Option.map_some, particleOfToks, List.map_cons, List.map_nil, lower_digits d1, hlow, multSym, pyIntE,
          pyInt_digits d1 d2, d3, lookupParticle, hZ, hA]
      rw [this]
    · simp only [Product.exfor, Particle.exfor, hpre]
    · rw [upper_append, upper_digits d1]; rfl
    · intro hm
      rcases List.mem_append.1 hm with h | h
      · exact digit_no_quote d1 h
      · have : '\'' ∈ upper sym := List.mem_map.2 ⟨_, h, by decide⟩
        exact particleWord_no_quote hw this

/-! ### the residual is found again -/

theorem findChannel_single {c : Str} (hc : c ∈ targetChannels) (p : Particle) : findChannel [.chan c, .part p] targetChannels = some c := by
  have h : ∀ l : List Str, c ∈ l → findChannel [.chan c, .part p] l = some c := by
    intro l
    induction l with
    | nil => intro h; cases h
    | cons a l ih =>
      intro h
      unfold findChannel
      by_cases ha : a = c
      · rw [if_pos (by simp [ha]), ha]
      · rw [if_neg (by simp [ha])]
        exact ih (by rcases List.mem_cons.1 h with h | h; exact absurd h.symm ha; exact h)
  exact h _ hc

theorem foldE_snoc {ε σ α} (f : σ → α → Except ε σ) (s t : σ) (l : List α) (a : α) (h : foldE f s l = .ok t) :
    foldE f s (l ++ [a]) = f t a := by
  induction l generalizing s with
  | nil =>
    injection h with h; subst h
    simp only [List.nil_append, foldE]
    cases f s a <;> rfl
  | cons b l ih =>
    simp only [List.cons_append, foldE] at h ⊢
    cases hb : f s b with
    | error e => rw [hb] at h; cases h
    | ok u => rw [hb] at h; exact ih u h

theorem residualNucleus_part {dZ dA : Int} {r : Product} (h : residualNucleus dZ dA = .ok (some r)) :
    ∃ p, r = .part p ∧ p.getZ = .ok dZ ∧ p.getA = .ok dA ∧ r.counts = true := by
  unfold residualNucleus at h
  split at h
  · injection h with h
    injection h with h
    subst h
    refine ⟨_, rfl, ?_, ?_, rfl⟩
    · simp only [Particle.getZ, pyIntE, pyInt_intStr]
    · simp only [Particle.getA, pyIntE, pyInt_intStr]
  · have hE : particleOfStr chars!"E" = .ok (.particle (.num 1) ['E'] (-1) 0) := by decide +kernel
    rw [hE] at h
    split_ifs at h with h1 h2 h3
    · simp only [Except.ok.injEq, Option.some.injEq] at h
      subst h
      exact ⟨_, rfl, h1.1.symm ▸ rfl, h1.2.symm ▸ rfl, rfl⟩
    · rename_i hn
      obtain ⟨rfl, -⟩ := h2
      have : endlZSymbol 1 ≠ none := by decide +kernel
      exact absurd hn this
    · cases h

/-- Reading the products together with the residual gives the same products and residual again. -/
theorem setResidual_again {targ proj : Particle} {l ps : List Product} {r : Option Product} (hl : l ≠ [])
    (h : setResidual targ proj l = .ok (ps, r)) (hr : ∀ s, r ≠ some (.chan s)) :
    setResidual targ proj (ps ++ r.toList) = .ok (ps, r) := by
  have h' := h
  unfold setResidual at h
  cases ha : targ.getA with
  | error e => rw [ha] at h; cases h
  | ok a =>
    rw [ha] at h
    simp only at h
    cases hf : findChannel l targetChannels with
    | some c =>
      rw [hf] at h
      simp only [Except.ok.injEq, Prod.mk.injEq] at h
      obtain ⟨rfl, rfl⟩ := h
      unfold setResidual
      simp only [ha, Option.toList, List.cons_append, List.nil_append, findChannel_single (findChannel_some hf).1]
    | none =>
      rw [hf] at h
      simp only at h
      cases hin : totalIn targ proj with
      | error e => rw [hin] at h; cases h
      | ok zin =>
        rw [hin] at h
        simp only at h
        cases hst : foldE (residualStep (decide (zin.1 < zin.2))) (0, 0, decide (a ≠ 0)) l with
        | error e => rw [hst] at h; cases h
        | ok st =>
          rw [hst] at h
          simp only at h
          unfold chooseResidual at h
          split_ifs at h with hbal hcan
          · cases hla : l.getLast? with
            | none => rw [hla] at h; cases h
            | some q =>
              rw [hla] at h
              cases q with
              | chan s =>
                simp only [Except.ok.injEq, Prod.mk.injEq] at h
                exact absurd h.2.symm (hr s)
              | part q =>
                simp only [Except.ok.injEq, Prod.mk.injEq] at h
                obtain ⟨rfl, rfl⟩ := h
                have : l.dropLast ++ [Product.part q] = l := by
                  rw [List.getLast?_eq_some_iff] at hla
                  obtain ⟨ys, rfl⟩ := hla
                  simp
                rw [Option.toList, this]
                exact h'
          · cases hrn : residualNucleus (zin.1 - st.1) (zin.2 - st.2.1) with
            | error e => rw [hrn] at h; cases h
            | ok o =>
              rw [hrn] at h
              simp only [Except.ok.injEq, Prod.mk.injEq] at h
              obtain ⟨rfl, rfl⟩ := h
              cases o with
              | none => rw [Option.toList, List.append_nil]; exact h'
              | some q =>
                obtain ⟨p, rfl, hz, hA, hc⟩ := residualNucleus_part hrn
                have hok : decide (zin.1 < zin.2) = true := by
                  by_contra hno
                  rw [Bool.not_eq_true] at hno
                  rw [hno] at hst
                  rw [(residual_sums_false l _ _ hst).2.2 hl] at hcan
                  cases hcan
                have hfc : findChannel (l ++ [Product.part p]) targetChannels = none := by
                  rw [findChannel_iff] at hf ⊢
                  intro c hc hm
                  rcases List.mem_append.1 hm with hm | hm
                  · exact hf c hc hm
                  · simp at hm
                have hstep : residualStep true st (.part p) = .ok (st.1 + (zin.1 - st.1), st.2.1 + (zin.2 - st.2.1), st.2.2) := by
                  unfold residualStep
                  simp only [hc, Bool.and_self, if_true, Product.getZ, Product.getA, hz, hA]
                rw [hok] at hst
                unfold setResidual
                simp only [ha, Option.toList, hfc, hin, hok]
                rw [foldE_snoc _ _ _ _ _ hst, hstep]
                simp only
                unfold chooseResidual
                rw [if_pos ⟨by omega, by omega⟩]
                simp
          · simp only [Except.ok.injEq, Prod.mk.injEq] at h
            obtain ⟨rfl, rfl⟩ := h
            rw [Option.toList, List.append_nil]
            exact h'

/-! ### C84 -/

theorem replaceChar_none {c : Char} {r s : Str} (h : c ∉ s) : replaceChar c r s = s := by
  unfold replaceChar
  induction s with
  | nil => rfl
  | cons a s ih =>
    simp only [List.mem_cons, not_or] at h
    rw [List.flatMap_cons, ih h.2, if_neg (by simpa using Ne.symm h.1)]
    rfl

theorem upper_joinWith (l : List Str) : upper (joinWith ['+'] l) = joinWith ['+'] (l.map upper) := by
  match l with
  | [] => rfl
  | [x] => simp [joinWith]
  | x :: y :: r => rw [joinWith, upper_append, upper_append, upper_joinWith (y :: r)]; simp [joinWith, upper]

theorem joinWith_no_quote {l : List Str} (h : ∀ s ∈ l, '\'' ∉ s) : '\'' ∉ joinWith ['+'] l := by
  match l with
  | [] => simp [joinWith]
  | [x] => simp only [joinWith]; exact h x (by simp)
  | x :: y :: r =>
    rw [joinWith]
    simp only [List.mem_append, not_or]
    exact ⟨⟨h x (by simp), by decide⟩, joinWith_no_quote (fun s hs => h s (by simp [List.mem_cons.1 hs]))⟩

theorem products_spec {l : List Product} {ts : List ProdText} (h : List.Forall₂ ProdOf l ts) :
    (∀ t ∈ ts, t.wf) ∧ mapE setProduct (ts.map ProdText.tok) = .ok l ∧
      ∃ ss, mapE Product.exfor l = .ok ss ∧ ss.map upper = ts.map ProdText.text ∧ ∀ s ∈ ss, '\'' ∉ s := by
  induction h with
  | nil => exact ⟨by simp, rfl, [], rfl, rfl, by simp⟩
  | @cons p t l ts h _ ih =>
    obtain ⟨a1, a2, s, a3, a4, a5⟩ := prodOf_spec h
    obtain ⟨b1, b2, ss, b3, b4, b5⟩ := ih
    refine ⟨?_, ?_, s :: ss, ?_, ?_, ?_⟩
    · intro u hu
      rcases List.mem_cons.1 hu with rfl | hu
      · exact a1
      · exact b1 u hu
    · simp only [List.map_cons, mapE, a2, b2]
    · simp only [mapE, a3, b3]
    · simp [a4, b4]
    · intro u hu
      rcases List.mem_cons.1 hu with rfl | hu
      · exact a5
      · exact b5 u hu

theorem setProduct_targ {vars : List Str} (hv : ∀ s ∈ vars, s ∈ [chars!"ELEM/MASS", chars!"MASS", chars!"ELEM", chars!"NPART"]) {p : Particle} {t : TargText}
    (h : TargOf vars p t) : setProduct t.tok = .ok (.part p) := by
  have h2 := (targOf_spec hv h).2.1
  cases t with
  | nuc n => rw [TargText.tok, setProduct_grp]; rw [TargText.tok] at h2; rw [h2]
  | code k => rw [TargText.tok, setProduct_grp]; rw [TargText.tok] at h2; rw [h2]
  | var s =>
    have hs : x4ReactionMap.has s = false := by
      cases h with
      | var hs =>
        have := hv s hs
        clear h2 hs
        revert s; decide
    rw [TargText.tok] at h2
    simp only [TargText.tok, setProduct, hs, Bool.false_eq_true, if_false, setProduct.particleOfTok, h2]

theorem processOfToks_all {names : Dict Str (List Str)} {t p : Tok} {l : List Tok} {x : Process}
    (h : processOfToks names (t :: p :: l) = .ok x) : setParticleType t = .ok x.targ ∧ setParticleType p = .ok x.proj ∧
      ∃ prods, mapE setProduct l = .ok prods ∧ setResidual x.targ x.proj prods = .ok (x.products, x.residual) ∧
        setProcessType names x.products = .ok x.processType := by
  unfold processOfToks at h
  simp only at h
  split at h
  · cases h
  · rename_i targ ht
    split at h
    · cases h
    · rename_i proj hp
      split at h
      · cases h
      · rename_i prods hm
        split at h
        · cases h
        · rename_i pr hpr
          split at h
          · cases h
          · rename_i ty hty
            injection h with h
            subst h
            exact ⟨ht, hp, prods, hm, hpr, hty⟩

theorem process_repr_of {p : Process} {ts ps rs : Str} {qs : List Str} (t : p.targ.exfor = .ok ts) (h : p.proj.exfor = .ok ps)
    (hq : mapE Product.exfor p.products = .ok qs) (hr : p.residual.elim (.ok []) Product.exfor = .ok rs) :
    p.repr = .ok (upper (replaceChar '\'' [] (ts ++ ['('] ++ ps ++ [','] ++ joinWith ['+'] qs ++ [')'] ++ rs))) := by
  unfold Process.repr
  rw [t, h, hq]
  obtain ⟨a, b, c, r, d⟩ := p
  cases r with
  | none => simp only [Option.elim, Except.ok.injEq] at hr ⊢; rw [← hr]
  | some r => simp only [Option.elim] at hr ⊢; rw [hr]

/-- C84 (partial): a reaction object that was read from a text, and for which there is a standard form, is printed in this form, and the printed text
reads back as the same object. -/
theorem C84_partial (names : Dict Str (List Str)) (x y : ReactText) (hx : x.wf) (R : Reaction) (h : reactionOfStr names x.text = .ok R)
    (hw : WrittenAs R y) : R.repr = .ok y.text ∧ reactionOfStr names y.text = .ok R := by
  have hv1 : ∀ s ∈ targVars, s ∈ [chars!"ELEM/MASS", chars!"MASS", chars!"ELEM", chars!"NPART"] := by decide
  have hv2 : ∀ s ∈ residVars, s ∈ [chars!"ELEM/MASS", chars!"MASS", chars!"ELEM", chars!"NPART"] := by decide
  obtain ⟨t1, t2, ts, t3, t4, t5⟩ := targOf_spec hv1 hw.targ
  obtain ⟨p1, p2, ps, p3, p4, p5⟩ := projOf_spec hw.proj
  obtain ⟨q1, q2, qs, q3, q4, q5⟩ := products_spec hw.products
  obtain ⟨q, w1, w2, w3, w4⟩ := hw.quantity
  have hres := hw.resid
  -- the residual
  have hr : (∀ t ∈ y.proc.resid, t.wf residVars) ∧ (∀ s, R.proc.residual ≠ some (.chan s)) ∧
      mapE setProduct (y.proc.resid.elim [] (fun r => [r.tok])) = .ok R.proc.residual.toList ∧
      ∃ rs, R.proc.residual.elim (.ok []) Product.exfor = .ok rs ∧ upper rs = y.proc.resid.elim [] TargText.text ∧ '\'' ∉ rs := by
    cases hR : R.proc.residual with
    | none =>
      rw [hR] at hres
      cases hy : y.proc.resid with
      | none => exact ⟨by simp, by simp, rfl, [], rfl, rfl, by simp⟩
      | some t => rw [hy] at hres; exact absurd hres id
    | some r =>
      rw [hR] at hres
      cases r with
      | chan s => exact absurd hres (by cases y.proc.resid <;> exact id)
      | part p =>
        cases hy : y.proc.resid with
        | none => rw [hy] at hres; exact absurd hres id
        | some t =>
          rw [hy] at hres
          simp only at hres
          obtain ⟨r1, r2, rs, r3, r4, r5⟩ := targOf_spec hv2 hres
          refine ⟨by simpa using r1, by simp, ?_, rs, r3, r4, r5⟩
          simp only [Option.elim, mapE, setProduct_targ hv2 hres, Option.toList]
  obtain ⟨r1, r2, r3, rs, r4, r5, r6⟩ := hr
  have hy : y.wf := by
    refine ⟨⟨t1, p1, q1, hw.chain, r1⟩, ?_⟩
    rw [w4]
    intro f hf
    obtain ⟨w, hw', rfl⟩ := List.mem_map.1 hf
    exact w1 w hw'
  constructor
  · have hproc : R.proc.repr = .ok y.proc.text := by
      have hnq : '\'' ∉ ts ++ ['('] ++ ps ++ [','] ++ joinWith ['+'] qs ++ [')'] ++ rs := by
        have := joinWith_no_quote q5
        simp only [List.mem_append, not_or]
        exact ⟨⟨⟨⟨⟨⟨t5, by decide⟩, p5⟩, by decide⟩, this⟩, by decide⟩, r6⟩
      have hup : upper (ts ++ ['('] ++ ps ++ [','] ++ joinWith ['+'] qs ++ [')'] ++ rs) = y.proc.text := by
        simp only [upper_append, t4, p4, upper_joinWith, q4, r5, joinWith_plus, ProcText.text]
        have e1 : upper ['('] = ['('] := by decide
        have e2 : upper [','] = [','] := by decide
        have e3 : upper [')'] = [')'] := by decide
        rw [e1, e2, e3]
        simp
      rw [process_repr_of t3 p3 q3 r4, replaceChar_none hnq, hup]
    unfold Reaction.repr
    rw [hproc, w2]
    simp only [strToks_map]
    refine congrArg Except.ok ?_
    rw [ReactText.text, w4]
    have hc : ∀ (l : List Str), l ≠ [] → (l.map DescrText.word).flatMap (fun f => ',' :: f.text) = ',' :: joinWith [','] l := by
      intro l hl
      induction l with
      | nil => exact absurd rfl hl
      | cons a l ih =>
        cases l with
        | nil => simp [joinWith, DescrText.text]
        | cons b l =>
          have := ih (by simp)
          rw [List.map_cons, List.flatMap_cons, this]
          simp [joinWith, DescrText.text]
    rw [hc q w3]
    simp
  · rw [reactionOfStr_toks names x hx] at h
    rw [reactionOfStr_toks names y hy]
    obtain ⟨hp, hq⟩ := reactionOfToks_grp h
    rw [ProcText.toks, List.append_assoc] at hp
    obtain ⟨a1, a2, prods, a3, a4, a5⟩ := processOfToks_all hp
    have hne : prods ≠ [] := by
      rintro rfl
      simp [mapE_ok_iff] at a3
    have again := setResidual_again hne a4 r2
    have hm : mapE setProduct (y.proc.prod.tok :: (y.proc.prods.map ProdText.tok ++ y.proc.resid.elim [] (fun r => [r.tok]))) =
        .ok (R.proc.products ++ R.proc.residual.toList) := mapE_append_ok q2 r3
    have hproc : processOfToks names y.proc.toks = .ok R.proc := by
      rw [ProcText.toks, List.append_assoc]
      unfold processOfToks
      simp only [List.cons_append, List.nil_append, t2, p2, hm, again, a5]
    unfold ReactText.toks reactionOfToks
    simp only [hproc, w4]
    have hf : (q.map DescrText.word).flatMap DescrText.toks = R.quantity := by
      rw [w2, List.flatMap_map]
      simp only [DescrText.toks]
      rw [List.map_eq_flatMap]
    rw [hf]


/-- What was read from a text, and what is read from its printed form. -/
def reprReads (names : Dict Str (List Str)) (s : Str) : Except PyErr (Reaction × Str × Except PyErr Reaction) :=
  match reactionOfStr names s with
  | .error e => .error e
  | .ok R => match R.repr with
    | .error e => .error e
    | .ok t => .ok (R, t, reactionOfStr names t)

theorem reprReads_ok {names : Dict Str (List Str)} {s : Str} {R : Reaction} {t : Str} {o : Except PyErr Reaction}
    (h : reprReads names s = .ok (R, t, o)) : reactionOfStr names s = .ok R ∧ R.repr = .ok t ∧ reactionOfStr names t = o := by
  unfold reprReads at h
  split at h
  · cases h
  · rename_i R' hR
    split at h
    · cases h
    · rename_i t' ht
      simp only [Except.ok.injEq, Prod.mk.injEq] at h
      obtain ⟨rfl, rfl, rfl⟩ := h
      exact ⟨hR, ht, rfl⟩

def reprUnread (s t : Str) : Bool :=
  match reprReads [] s with
  | .ok (_, u, .error _) => u == t
  | _ => false

theorem reprUnread_spec {s t : Str} (h : reprUnread s t = true) :
    ∃ R, reactionOfStr [] s = .ok R ∧ R.repr = .ok t ∧ ∀ R', reactionOfStr [] t ≠ .ok R' := by
  unfold reprUnread at h
  split at h
  · rename_i R u e he
    obtain ⟨h1, h2, h3⟩ := reprReads_ok he
    obtain rfl : u = t := by simpa using h
    exact ⟨R, h1, h2, fun R' h4 => by rw [h3] at h4; cases h4⟩
  · cases h

/-- C84 (refuted): a variable residual, and a light particle that takes the place of the residual, are printed where no text of this form can be read. -/
theorem C84_unreadable_refuted :
    (∃ R, reactionOfStr [] chars!"(92-U-235(N,F)ELEM/MASS,,FY)" = .ok R ∧ R.repr = .ok chars!"(92-U-235(N,F+ELEM/MASS),FY)" ∧
      ∀ R', reactionOfStr [] chars!"(92-U-235(N,F+ELEM/MASS),FY)" ≠ .ok R') ∧
    ∃ R, reactionOfStr [] chars!"(3-LI-6(N,T+A),,SIG)" = .ok R ∧ R.repr = .ok chars!"(3-LI-6(N,T)A,SIG)" ∧
      ∀ R', reactionOfStr [] chars!"(3-LI-6(N,T)A,SIG)" ≠ .ok R' :=
  ⟨reprUnread_spec (by decide +kernel), reprUnread_spec (by decide +kernel)⟩

/-- the isomeric states of the residual -/
def residStates (R : Reaction) : List Str :=
  match R.proc.residual with
  | some (.part (.isomer _ _ _ l)) => l
  | _ => []

def reprStates (s t : Str) (a b : List Str) : Bool :=
  match reprReads [] s with
  | .ok (R, u, .ok R') => u == t && residStates R == a && residStates R' == b
  | _ => false

theorem reprStates_spec {s t : Str} {a b : List Str} (h : reprStates s t a b = true) :
    ∃ R R', reactionOfStr [] s = .ok R ∧ R.repr = .ok t ∧ reactionOfStr [] t = .ok R' ∧ residStates R = a ∧ residStates R' = b := by
  unfold reprStates at h
  split at h
  · rename_i R u R' he
    obtain ⟨h1, h2, h3⟩ := reprReads_ok he
    simp only [Bool.and_eq_true, beq_iff_eq] at h
    obtain ⟨⟨rfl, ha⟩, hb⟩ := h
    exact ⟨R, R', h1, h2, h3, ha, hb⟩
  · cases h

/-- C84 (refuted): the sum over the isomeric states `-T` is printed as the first isomeric state. -/
theorem C84_total_refuted : ∃ R R', reactionOfStr [] chars!"(49-IN-115(N,G)49-IN-116-T,,SIG)" = .ok R ∧
    R.repr = .ok chars!"(49-IN-115(N,G)49-IN-116-M,SIG)" ∧ reactionOfStr [] chars!"(49-IN-115(N,G)49-IN-116-M,SIG)" = .ok R' ∧
    residStates R = [] ∧ residStates R' = [['1']] := reprStates_spec (by decide +kernel)

/-- `exampleReaction`, printed -/
def examplePrinted : ReactText := { exampleReaction with fields := [.word chars!"SIG"] }

theorem example_written {R : Reaction} (h : reactionOfStr [] exampleReaction.text = .ok R) : WrittenAs R examplePrinted := by
  have hR : (match reactionOfStr [] exampleReaction.text with
    | .ok R => decide (R.proc = ⟨.nucleus chars!"95" chars!"Am" chars!"241", .particle (.num 1) ['N'] 0 1, [.part (.particle (.num 1) ['G'] 0 0)],
        some (.part (.isomer chars!"95" chars!"Am" chars!"242" [['1']])), chars!"gamma"⟩)
    | .error _ => false) = true := by decide +kernel
  rw [h] at hR
  simp only [decide_eq_true_eq] at hR
  have hq : R.quantity = [Tok.str chars!"SIG"] := by
    rw [reactionOfStr_toks [] exampleReaction exampleReaction_wf] at h
    have := (reactionOfToks_grp h).2
    rw [this]
    rfl
  have hw : ∀ c : Char, isAlphaA c = true → ParticleWord [c] := fun c h => ⟨[c], [], rfl, by simp, by simpa using h, by simp⟩
  have hs : SymOk chars!"Am" := ⟨⟨'A', ['M'], by decide, .inl (by decide), by decide, by decide⟩, by decide, by decide⟩
  refine ⟨?_, ?_, ?_, by simp [examplePrinted, exampleReaction], ?_, ⟨[chars!"SIG"], ?_, hq, by decide, rfl⟩⟩
  · rw [hR]
    exact .nucleus (sym := chars!"Am") ⟨by decide, by decide⟩ hs ⟨by decide, by decide⟩ (by decide)
  · rw [hR]
    exact .part (.word (hw _ (by decide)) (by decide) (by decide) (by decide +kernel))
  · rw [hR]
    refine .cons (.part (.word (hw _ (by decide)) (by decide) (by decide) (by decide +kernel)) ?_) .nil
    intro w hw
    injection hw with hw
    subst hw
    decide
  · rw [hR]
    exact .isomer (sym := chars!"Am") (l := ['1']) ⟨by decide, by decide⟩ hs ⟨by decide, by decide⟩ ⟨by decide, by decide⟩
  · simp [DescrText.wf]
    decide

example : ∃ R, reactionOfStr [] exampleReaction.text = .ok R ∧ R.repr = .ok chars!"(95-AM-241(N,G)95-AM-242-M,SIG)" ∧
    reactionOfStr [] chars!"(95-AM-241(N,G)95-AM-242-M,SIG)" = .ok R := by
  obtain ⟨R, hR⟩ := ok_of_isOk (e := reactionOfStr [] exampleReaction.text) (by decide +kernel)
  have := C84_partial [] exampleReaction examplePrinted exampleReaction_wf R hR (example_written hR)
  exact ⟨R, hR, this⟩

end X4
