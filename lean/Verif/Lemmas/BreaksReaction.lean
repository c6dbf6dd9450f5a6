import Verif.Lemmas.Breaks
/-! The grammar of reactions reads texts with blanks next to parentheses and commas like the texts without them. -/
namespace X4
open Parser Spaced

theorem wordClass_of {body : Char → Bool} (h1 : body '(' = false) (h2 : body ')' = false) (h3 : body ',' = false) (h4 : body ' ' = false)
    (h5 : body '\n' = false) (h6 : body '\t' = false) (h7 : body '\r' = false) : WordClass body := by
  intro c hc
  constructor
  · cases hp : isPunct c with
    | false => rfl
    | true =>
      simp only [isPunct, Bool.or_eq_true, beq_iff_eq] at hp
      rcases hp with (rfl | rfl) | rfl
      · rw [h1] at hc; exact absurd hc (by decide)
      · rw [h2] at hc; exact absurd hc (by decide)
      · rw [h3] at hc; exact absurd hc (by decide)
  · cases hp : isWhite c with
    | false => rfl
    | true =>
      simp only [isWhite, Bool.or_eq_true, beq_iff_eq] at hp
      rcases hp with ((rfl | rfl) | rfl) | rfl
      · rw [h4] at hc; exact absurd hc (by decide)
      · rw [h5] at hc; exact absurd hc (by decide)
      · rw [h6] at hc; exact absurd hc (by decide)
      · rw [h7] at hc; exact absurd hc (by decide)

theorem wordClass_dig : WordClass isDig := wordClass_of rfl rfl rfl rfl rfl rfl rfl
theorem wordClass_alpha : WordClass isAlphaA := wordClass_of rfl rfl rfl rfl rfl rfl rfl
theorem wordClass_descr : WordClass isDescr := wordClass_of rfl rfl rfl rfl rfl rfl rfl
theorem wordClass_modifier : WordClass isModifier := wordClass_of rfl rfl rfl rfl rfl rfl rfl
theorem wordClass_element : WordClass (fun c => isCap c || c == '*') := wordClass_of rfl rfl rfl rfl rfl rfl rfl

/-- literals, as a computation -/
def isLitText (m : Str) : Bool := match m with
  | [] => false
  | [c] => !isWhite c
  | m => m.all fun c => !isPunct c && !isWhite c

theorem LitText.of {m : Str} (h : isLitText m = true) : LitText m := by
  match m, h with
  | [c], h => exact Or.inl ⟨c, rfl, by simpa [isLitText] using h⟩
  | c :: d :: m, h =>
    refine Or.inr ⟨by simp, fun x hx => ?_⟩
    have := List.all_eq_true.1 (show (c :: d :: m).all (fun c => !isPunct c && !isWhite c) = true from h) x hx
    simpa using this

theorem ReadsSpaced.litOf {m : Str} (h : isLitText m = true) (k : Nat) : ReadsSpaced k true true (Parser.lit m) (Parser.lit m) := ReadsSpaced.lit (LitText.of h) k

theorem ReadsSpaced.lits (l : List Str) (hne : l ≠ []) (h : l.all isLitText = true) (k : Nat) :
    ReadsSpaced k true true (Parser.orAll (l.map fun m => Parser.lit m)) (Parser.orAll (l.map fun m => Parser.lit m)) := by
  cases l with
  | nil => exact absurd rfl hne
  | cons m l =>
    rw [List.map_cons]
    rw [List.all_cons, Bool.and_eq_true] at h
    refine ReadsSpaced.orAll _ _ (ReadsSpaced.litOf h.1 k) fun p hp => ?_
    obtain ⟨m', hm, rfl⟩ := List.mem_map.1 hp
    exact ReadsSpaced.litOf (List.all_eq_true.1 h.2 m' hm) k

theorem reads_nums (k : Nat) : ReadsSpaced k true true (pNums) (pNums) := ReadsSpaced.word wordClass_dig wordClass_dig k
theorem reads_lpar (k : Nat) : ReadsSpaced k true true pLpar pLpar := (ReadsSpaced.litOf rfl k).suppress
theorem reads_rpar (k : Nat) : ReadsSpaced k true true pRpar pRpar := (ReadsSpaced.litOf rfl k).suppress
theorem reads_comma (k : Nat) : ReadsSpaced k true true pComma pComma := (ReadsSpaced.litOf rfl k).suppress
theorem reads_dash (k : Nat) : ReadsSpaced k true true pDash pDash := (ReadsSpaced.litOf rfl k).suppress
theorem reads_addop (k : Nat) : ReadsSpaced k true true pAddop pAddop := (ReadsSpaced.litOf rfl k).first (ReadsSpaced.litOf rfl k)
theorem reads_multop (k : Nat) : ReadsSpaced k true true pMultop pMultop := (ReadsSpaced.litOf rfl k).first (ReadsSpaced.litOf rfl k)
theorem reads_mathop (k : Nat) : ReadsSpaced k true true pMathop pMathop := (reads_addop k).first (reads_multop k)
theorem reads_altmultop (k : Nat) : ReadsSpaced k true true pAltmultop pAltmultop :=
  (((ReadsSpaced.litOf rfl k).first (ReadsSpaced.litOf rfl k)).first (ReadsSpaced.litOf rfl k)).first (ReadsSpaced.litOf rfl k)
theorem reads_isomer (k : Nat) : ReadsSpaced k false true pIsomerModifier pIsomerModifier :=
  (ReadsSpaced.wordMax wordClass_modifier wordClass_modifier 1 k).and (reads_nums k).opt

theorem particleKeys_lit : particleKeys.all isLitText = true := by decide +kernel
theorem compoundKeys_lit : compoundKeys.all isLitText = true := by decide +kernel
theorem particleKeys_ne : particleKeys ≠ [] := by decide +kernel
theorem compoundKeys_ne : compoundKeys ≠ [] := by decide +kernel

theorem reads_particleCode (k : Nat) : ReadsSpaced k true true pParticleCode pParticleCode := ReadsSpaced.lits _ particleKeys_ne particleKeys_lit k
theorem reads_compound (k : Nat) : ReadsSpaced k true true pCompound pCompound := ReadsSpaced.lits _ compoundKeys_ne compoundKeys_lit k
theorem reads_basicParticle (k : Nat) : ReadsSpaced k true true pBasicParticle pBasicParticle := (ReadsSpaced.litOf rfl k).opt.and (reads_particleCode k)

theorem particle_impl (s : Str) : pParticle.impl s = match (word isAlphaA isAlphaA false).impl s with
    | none => none
    | some (t, r) => match (word isDig isDig false).impl r with
      | none => some ([.str (flatStr (t ++ []))], r)
      | some (t2, r2) => some ([.str (flatStr (t ++ t2))], r2) := by
  have e : pParticle.impl s = match (match (word isAlphaA isAlphaA false).impl s with
      | none => none
      | some (t1, r) => match (match (word isDig isDig false).impl r with
          | none => some ([], r)
          | some m => some m) with
        | none => none
        | some (t2, r') => some (t1 ++ t2, r')) with
      | none => none
      | some (t, r) => some ([.str (flatStr t)], r) := rfl
  rw [e]
  cases (word isAlphaA isAlphaA false).impl s with
  | none => rfl
  | some x =>
    obtain ⟨t, r⟩ := x
    simp only
    cases (word isDig isDig false).impl r with
    | none => rfl
    | some y => rfl

theorem reads_particle (k : Nat) : ReadsSpaced k true true pParticle pParticle := by
  refine ReadsSpaced.ofImpl rfl rfl rfl rfl fun L h _ _ => ?_
  rw [particle_impl, particle_impl]
  rcases word_spaced wordClass_alpha wordClass_alpha false L h with ⟨e1, e2⟩ | ⟨x, pre, L2, e0, hx, e1, e2⟩
  · rw [e1, e2]
    trivial
  · rw [e1, e2]
    simp only
    have hL2 : ok L2 := ok_suffix (a := x :: pre) (e0 ▸ h)
    have hxw : isWhite x.1 = false := (wordClass_alpha _ hx).2
    by_cases hw : lastW x.2 pre = []
    · rw [hw, List.nil_append]
      rcases word_spaced wordClass_dig wordClass_dig false L2 hL2 with ⟨f1, f2⟩ | ⟨y, q, L3, f0, hy, f1, f2⟩
      · rw [f1, f2, e0]
        refine ⟨rfl, ?_⟩
        have := Left.token (t := true) (c := true) (w0 := []) (x := x) (pre := pre) (L2 := L2) hxw
        rwa [hw, List.nil_append] at this
      · rw [f1, f2, e0]
        refine ⟨rfl, ?_⟩
        have := Left.token (t := true) (c := true) (w0 := []) (x := x) (pre := pre ++ y :: q) (L2 := L3) hxw
        rw [show lastW x.2 (pre ++ y :: q) = lastW y.2 q from by rw [lastW_append x.2 [] pre _ (by simp), lastW_cons]] at this
        rw [f0]
        simpa using this
    · have hb : ∀ c ∈ lastW x.2 pre, c = ' ' := by
        have := lastW_blank (w0 := []) (pre := x :: pre) (L := L2) (by simp) (e0 ▸ h)
        rwa [lastW_cons] at this
      obtain ⟨v, hv⟩ : ∃ v, lastW x.2 pre = ' ' :: v := by
        cases hl : lastW x.2 pre with
        | nil => exact absurd hl hw
        | cons c v =>
          rw [hl] at hb
          exact ⟨v, by rw [hb c (by simp)]⟩
      -- nothing can be read behind the blanks, and nothing without them
      have f2 : (word isDig isDig false).impl (lastW x.2 pre ++ text L2) = none := by
        rw [hv]
        rfl
      have f1 : (word isDig isDig false).impl (plain L2) = none := by
        cases L2 with
        | nil => rfl
        | cons y L2 =>
          have hy : isPunct y.1 = true := by
            obtain ⟨z, hz, hzl⟩ : ∃ z, isPunct z.1 = false ∧ ∃ q, x :: pre = q ++ [z] := by
              refine ⟨(x :: pre).getLast (by simp), ?_, (x :: pre).dropLast, (List.dropLast_append_getLast _).symm⟩
              have hm := List.getLast_mem (l := x :: pre) (by simp)
              have htok : ∀ c ∈ plain (x :: pre), isAlphaA c = true := by
                have : (word isAlphaA isAlphaA false).impl (plain L) = some ([.str (plain (x :: pre))], plain (y :: L2)) := e1
                rw [e0, List.cons_append, plain_cons] at this
                simp only [word, hx, if_true, Option.some.injEq, Prod.mk.injEq, List.cons.injEq, and_true, Tok.str.injEq] at this
                intro c hc
                rw [← this.1] at hc
                rcases List.mem_cons.1 hc with rfl | hc
                · exact hx
                · exact List.all_eq_true.1 (List.all_takeWhile) c hc
              exact (wordClass_alpha _ (htok _ (List.mem_map.2 ⟨_, hm, rfl⟩))).1
            obtain ⟨q, hq⟩ := hzl
            have hlast : lastW x.2 pre = z.2 := by
              have : lastW [] (x :: pre) = z.2 := by
                rw [hq, lastW_append [] [] q [z] (by simp)]
                rfl
              rwa [lastW_cons] at this
            have h' : ok (q ++ ([z] ++ y :: L2)) := by
              rw [← List.append_assoc, ← hq, ← e0]
              exact h
            have := (ok_suffix h').2.1
            rcases this with h | h | h
            · rw [hlast] at hw
              exact absurd h hw
            · rw [hz] at h
              exact absurd h (by decide)
            · exact h
          have hd : isDig y.1 = false := by
            cases hd : isDig y.1 with
            | false => rfl
            | true =>
              rw [(wordClass_dig _ hd).1] at hy
              exact absurd hy (by decide)
          simp [word, hd]
      rw [f1, f2, e0]
      exact ⟨rfl, Left.token hxw⟩

theorem reads_element (k : Nat) : ReadsSpaced k true true pElement pElement := by
  refine ReadsSpaced.orAll _ _ (ReadsSpaced.wordMax wordClass_element wordClass_alpha 2 k) fun p hp => ?_
  simp only [List.mem_cons, List.not_mem_nil, or_false] at hp
  rcases hp with rfl | rfl | rfl | rfl | rfl <;> exact ReadsSpaced.litOf rfl k

theorem reads_nucleus (k : Nat) : ReadsSpaced k false true pNucleus pNucleus :=
  ((((((reads_nums k).and (reads_dash k)).and (reads_element k)).and (reads_dash k)).and (reads_nums k)).and
    ((reads_mathop k).and (reads_isomer k)).many)

theorem reads_projectile (k : Nat) : ReadsSpaced k false true pProjectile pProjectile := by
  refine ReadsSpaced.orAll _ _ (reads_nucleus k).group fun p hp => ?_
  simp only [List.mem_cons, List.not_mem_nil, or_false] at hp
  rcases hp with rfl | rfl
  · exact reads_particle k
  · exact ReadsSpaced.litOf rfl k

theorem reads_substance (k : Nat) : ReadsSpaced k false true (group (first pCompound pNucleus)) (group (first pCompound pNucleus)) :=
  (((reads_compound k).weaken (by simp) id).first (reads_nucleus k)).group

theorem reads_target (k : Nat) : ReadsSpaced k false true pTarget pTarget := by
  refine ReadsSpaced.orAll _ _ (reads_substance k) fun p hp => ?_
  simp only [List.mem_cons, List.not_mem_nil, or_false] at hp
  rcases hp with rfl | rfl | rfl <;> exact ReadsSpaced.litOf rfl k

theorem reads_residual (k : Nat) : ReadsSpaced k false true pResidual pResidual := by
  refine ReadsSpaced.orAll _ _ (reads_substance k) fun p hp => ?_
  simp only [List.mem_cons, List.not_mem_nil, or_false] at hp
  rcases hp with rfl | rfl | rfl | rfl <;> exact ReadsSpaced.litOf rfl k

theorem reads_product (k : Nat) : ReadsSpaced k false true pProduct pProduct := by
  refine ReadsSpaced.orAll _ _ (reads_nucleus k).group fun p hp => ?_
  simp only [List.mem_cons, List.not_mem_nil, or_false] at hp
  rcases hp with rfl | rfl | rfl | rfl
  · exact reads_basicParticle k
  · exact reads_particle k
  · exact ((reads_nums k).opt.and (reads_particle k)).group
  · exact ReadsSpaced.litOf rfl k

theorem reads_products (k : Nat) : ReadsSpaced k false true pProducts pProducts := (reads_product k).delimited (LitText.of rfl)

theorem reads_process (k : Nat) : ReadsSpaced k false true pProcess pProcess :=
  (((((((reads_target k).and (reads_lpar k)).and (reads_projectile k)).and (reads_comma k)).and (reads_products k)).and (reads_rpar k)).and
    (reads_residual k).opt)

theorem reads_descriptor (k : Nat) : ReadsSpaced k true true pDescriptor pDescriptor :=
  (ReadsSpaced.word wordClass_descr wordClass_descr k).or (((reads_lpar k).and (ReadsSpaced.word wordClass_descr wordClass_descr k)).and (reads_rpar k)) rfl rfl

/-- a reaction -/
theorem reads_reaction (k : Nat) : ReadsSpaced k true true pReaction pReaction :=
  ((reads_lpar k).and (((reads_process k).group.or (reads_descriptor k).many rfl rfl).delimited (LitText.of rfl))).and (reads_rpar k)

/-- Combinations of reactions; the number of unfoldings of the grammar does not matter if it exceeds the number of
characters. -/
theorem reads_expression : ∀ k n n' : Nat, k < n → k < n' → ReadsSpaced k false true (pExpression n) (pExpression n') := by
  intro k
  induction k using Nat.strongRecOn with
  | ind k ih =>
    intro n n' hn hn'
    obtain ⟨n, rfl⟩ : ∃ m, n = m + 1 := ⟨n - 1, by omega⟩
    obtain ⟨n', rfl⟩ : ∃ m, n' = m + 1 := ⟨n' - 1, by omega⟩
    have hfac : ReadsSpaced k true true (first (group pReaction) (and (and (lit ['(']) (pExpression n)) (lit [')'])))
        (first (group pReaction) (and (and (lit ['(']) (pExpression n')) (lit [')']))) := by
      refine (reads_reaction k).group.first ?_
      have hin : ReadsSpaced k (false && true) (true || true) (and (lit ['(']) (pExpression n)) (and (lit ['(']) (pExpression n')) :=
        (ReadsSpaced.litOf rfl k).and' fun j hj hlt => ih j (hlt rfl) n n' (by have := hlt rfl; omega) (by have := hlt rfl; omega)
      exact hin.and (ReadsSpaced.litOf rfl k)
    have hterm := hfac.and ((reads_altmultop k).and hfac).many
    exact (hterm.and ((reads_addop k).and hterm).many).forward

end X4
