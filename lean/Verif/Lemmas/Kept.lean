import Verif.Spec.Kept
import Verif.Model.TextGrammar
import Verif.Lemmas.Str
/-! The grammars keep every character that is no separator. -/
namespace X4
open Parser

/-- the characters that are not `lost` -/
abbrev keepOf (lost : Char → Bool) (s : Str) : Str := s.filter fun c => !lost c

/-- `p` consumes exactly what its tokens contain, but for the characters in `lost` -/
def Keeps (lost : Char → Bool) (p : Parser) : Prop :=
  ∀ s t r, p.impl s = some (t, r) → keepOf lost s = keepOf lost (flatStr t) ++ keepOf lost r

/-- white space is lost -/
def LosesWhite (lost : Char → Bool) : Prop := ∀ c, isWhite c = true → lost c = true

theorem flatStr_app (a b : List Tok) : flatStr (a ++ b) = flatStr a ++ flatStr b := by
  induction a with
  | nil => simp [flatStr]
  | cons x a ih => simp [flatStr, ih]

theorem keepOf_all {lost : Char → Bool} {s : Str} (h : ∀ c ∈ s, lost c = true) : keepOf lost s = [] := by
  simp only [keepOf, List.filter_eq_nil_iff]
  intro c hc
  simp [h c hc]

theorem keepOf_dropWhile {lost q : Char → Bool} (h : ∀ c, q c = true → lost c = true) (s : Str) :
    keepOf lost (s.dropWhile q) = keepOf lost s := by
  induction s with
  | nil => rfl
  | cons c s ih =>
    rw [List.dropWhile_cons]
    split
    · rename_i hq
      rw [ih]; simp [keepOf, h c hq]
    · rfl

variable {lost : Char → Bool}

theorem Keeps.parse (hw : LosesWhite lost) {p : Parser} (hp : Keeps lost p) {b : Bool} {s : Str} {t : List Tok} {r : Str}
    (h : p.parse b s = some (t, r)) : keepOf lost s = keepOf lost (flatStr t) ++ keepOf lost r := by
  unfold Parser.parse at h
  have h' := hp _ _ _ h
  rw [← h']
  split
  · exact (keepOf_dropWhile hw s).symm
  · rfl

theorem keeps_lit (m : Str) (ws : Bool) : Keeps lost (lit m ws) := by
  intro s t r h
  simp only [lit] at h
  split at h
  · rename_i hp
    obtain ⟨k, rfl⟩ := List.isPrefixOf_iff_prefix.1 hp
    obtain ⟨rfl, rfl⟩ := Prod.mk.inj (Option.some.inj h)
    simp [flatStr, tokFlat, keepOf]
  · cases h

theorem keeps_word (i b : Char → Bool) (ws : Bool) : Keeps lost (word i b ws) := by
  intro s t r h
  cases s with
  | nil => simp [word] at h
  | cons c cs =>
    simp only [word] at h
    split at h
    · obtain ⟨rfl, rfl⟩ := Prod.mk.inj (Option.some.inj h)
      simp only [flatStr, tokFlat, List.append_nil, keepOf, ← List.filter_append, List.cons_append, List.takeWhile_append_dropWhile]
    · cases h

theorem keeps_wordMax (i b : Char → Bool) (m : Nat) : Keeps lost (wordMax i b m) := by
  intro s t r h
  cases s with
  | nil => simp [wordMax] at h
  | cons c cs =>
    simp only [wordMax] at h
    split at h
    · have hpre : (cs.takeWhile b).take (m - 1) ++ cs.drop ((cs.takeWhile b).take (m - 1)).length = cs :=
        List.prefix_iff_eq_append.1 ((List.take_prefix _ _).trans (List.takeWhile_prefix _))
      split at h
      · rename_i hd
        obtain ⟨rfl, rfl⟩ := Prod.mk.inj (Option.some.inj h)
        rw [hd] at hpre
        simp only [flatStr, tokFlat, List.append_nil, keepOf, ← List.filter_append, List.cons_append]
        rw [List.append_nil] at hpre
        rw [hpre]
      · rename_i d r' hd
        split at h
        · cases h
        · obtain ⟨rfl, rfl⟩ := Prod.mk.inj (Option.some.inj h)
          rw [hd] at hpre
          simp only [flatStr, tokFlat, List.append_nil, keepOf, ← List.filter_append, List.cons_append]
          rw [hpre]
    · cases h

theorem keeps_restOfLine : Keeps lost restOfLine := by
  intro s t r h
  obtain ⟨rfl, rfl⟩ := Prod.mk.inj (Option.some.inj h)
  simp only [flatStr, tokFlat, List.append_nil, keepOf, ← List.filter_append, List.takeWhile_append_dropWhile]

theorem keeps_charNotIn (bad : Char → Bool) : Keeps lost (charNotIn bad) := by
  intro s t r h
  cases s with
  | nil => simp [charNotIn] at h
  | cons c cs =>
    simp only [charNotIn] at h
    split at h
    · cases h
    · obtain ⟨rfl, rfl⟩ := Prod.mk.inj (Option.some.inj h)
      simp only [flatStr, tokFlat, List.append_nil, keepOf, ← List.filter_append, List.singleton_append]

section
variable (hw : LosesWhite lost)
include hw

theorem Keeps.and {a b : Parser} (ha : Keeps lost a) (hb : Keeps lost b) : Keeps lost (Parser.and a b) := by
  intro s t r h
  simp only [Parser.and] at h
  split at h
  · cases h
  · rename_i t1 r1 h1
    split at h
    · cases h
    · rename_i t2 r2 h2
      obtain ⟨rfl, rfl⟩ := Prod.mk.inj (Option.some.inj h)
      rw [ha.parse hw h1, hb.parse hw h2, flatStr_app]
      simp [keepOf]

theorem Keeps.or {a b : Parser} (ha : Keeps lost a) (hb : Keeps lost b) : Keeps lost (Parser.or a b) := by
  intro s t r h
  simp only [Parser.or] at h
  cases h1 : a.parse true s with
  | none =>
    rw [h1] at h
    exact hb.parse hw h
  | some m =>
    cases h2 : b.parse true s with
    | none =>
      rw [h1, h2] at h
      obtain ⟨t1, r1⟩ := m
      rw [longer] at h
      · exact ha.parse hw (h1.trans h)
      · intro h; cases h
    | some m2 =>
      obtain ⟨t1, r1⟩ := m
      obtain ⟨t2, r2⟩ := m2
      rw [h1, h2, longer] at h
      split at h
      · exact hb.parse hw (h2.trans h)
      · exact ha.parse hw (h1.trans h)

theorem Keeps.first {a b : Parser} (ha : Keeps lost a) (hb : Keeps lost b) : Keeps lost (Parser.first a b) := by
  intro s t r h
  simp only [Parser.first] at h
  split at h
  · rename_i m h1
    exact ha.parse hw (h1.trans h)
  · exact hb.parse hw h

theorem keeps_orFrom : ∀ (l : List Parser) (acc : Parser), Keeps lost acc → (∀ p ∈ l, Keeps lost p) → Keeps lost (orAll.orFrom acc l)
  | [], _, h, _ => h
  | q :: r, _, h, hl => keeps_orFrom r _ (h.or hw (hl q (by simp))) fun p hp => hl p (by simp [hp])

theorem keeps_orAll {l : List Parser} (hl : ∀ p ∈ l, Keeps lost p) : Keeps lost (orAll l) := by
  match l, hl with
  | [], _ => intro s t r h; simp [orAll] at h
  | [p], hl => exact hl p (by simp)
  | p :: q :: r, hl =>
    exact keeps_orFrom hw r _ ((hl p (by simp)).or hw (hl q (by simp))) fun x hx => hl x (by simp [hx])

theorem keeps_manyLoop {p : Parser} (hp : Keeps lost p) : ∀ (n : Nat) (acc : List Tok) (s : Str),
    keepOf lost (flatStr acc) ++ keepOf lost s = keepOf lost (flatStr (manyLoop p n acc s).1) ++ keepOf lost (manyLoop p n acc s).2
  | 0, _, _ => rfl
  | n + 1, acc, s => by
    simp only [manyLoop]
    split
    · rfl
    · rename_i t r h
      rw [← keeps_manyLoop hp n (acc ++ t) r, flatStr_app, hp.parse hw h]
      simp [keepOf]

theorem Keeps.many1 {p : Parser} (hp : Keeps lost p) : Keeps lost (Parser.many1 p) := by
  intro s t r h
  simp only [Parser.many1] at h
  split at h
  · cases h
  · rename_i t1 r1 h1
    have := keeps_manyLoop hw hp (r1.length + 1) t1 r1
    rw [Option.some.inj h] at this
    rw [hp.parse hw h1, this]

theorem Keeps.many {p : Parser} (hp : Keeps lost p) : Keeps lost (Parser.many p) := by
  intro s t r h
  simp only [Parser.many] at h
  split at h
  · obtain ⟨rfl, rfl⟩ := Prod.mk.inj (Option.some.inj h)
    simp [flatStr]
  · rename_i m h1
    exact hp.many1 hw _ _ _ (h1.trans h)

theorem Keeps.opt {p : Parser} (hp : Keeps lost p) : Keeps lost (Parser.opt p) := by
  intro s t r h
  simp only [Parser.opt] at h
  split at h
  · obtain ⟨rfl, rfl⟩ := Prod.mk.inj (Option.some.inj h)
    simp [flatStr]
  · rename_i m h1
    exact hp.parse hw (h1.trans h)

theorem Keeps.optEmpty {p : Parser} (hp : Keeps lost p) : Keeps lost (Parser.optDefault p []) := by
  intro s t r h
  simp only [Parser.optDefault] at h
  split at h
  · obtain ⟨rfl, rfl⟩ := Prod.mk.inj (Option.some.inj h)
    simp [flatStr, tokFlat]
  · rename_i m h1
    exact hp.parse hw (h1.trans h)

theorem Keeps.group {p : Parser} (hp : Keeps lost p) : Keeps lost (Parser.group p) := by
  intro s t r h
  simp only [Parser.group] at h
  split at h
  · cases h
  · rename_i t1 r1 h1
    obtain ⟨rfl, rfl⟩ := Prod.mk.inj (Option.some.inj h)
    rw [hp.parse hw h1]
    simp [flatStr, tokFlat]

theorem Keeps.combine {p : Parser} (hp : Keeps lost p) : Keeps lost (Parser.combine p) := by
  intro s t r h
  simp only [Parser.combine] at h
  split at h
  · cases h
  · rename_i t1 r1 h1
    obtain ⟨rfl, rfl⟩ := Prod.mk.inj (Option.some.inj h)
    rw [hp.parse hw h1]
    simp [flatStr, tokFlat]

theorem Keeps.forward {p : Parser} (hp : Keeps lost p) : Keeps lost (Parser.forward p) := by
  intro s t r h
  exact hp.parse hw h

theorem Keeps.delimited {p : Parser} (hp : Keeps lost p) {d : Str} (hd : Keeps lost (suppress (lit d))) :
    Keeps lost (Parser.delimited p d) :=
  hp.and hw ((hd.and hw hp).many hw)

end

theorem keeps_notAny (p : Parser) : Keeps lost (notAny p) := by
  intro s t r h
  simp only [notAny] at h
  split at h
  · obtain ⟨rfl, rfl⟩ := Prod.mk.inj (Option.some.inj h)
    simp [flatStr]
  · cases h

theorem keeps_suppress (hw : LosesWhite lost) {m : Str} {ws : Bool} (hm : ∀ c ∈ m, lost c = true) : Keeps lost (suppress (lit m ws)) := by
  intro s t r h
  simp only [suppress] at h
  split at h
  · cases h
  · rename_i t1 r1 h1
    have e := (keeps_lit (lost := lost) m ws).parse hw h1
    obtain ⟨rfl, rfl⟩ := Prod.mk.inj (Option.some.inj h)
    rw [e]
    have : flatStr t1 = m := by
      have h2 : (if m.isPrefixOf s then some ([Tok.str m], s.drop m.length) else none) = some (t1, r1) := h1
      split at h2
      · obtain ⟨rfl, rfl⟩ := Prod.mk.inj (Option.some.inj h2)
        simp [flatStr, tokFlat]
      · cases h2
    rw [this, keepOf_all hm]
    simp [flatStr]

/-! ### the grammars -/

/-- what every grammar may lose -/
structure LosesSeparators (lost : Char → Bool) : Prop where
  space : ∀ c, isSpace c = true → lost c = true
  open_ : lost '(' = true
  close : lost ')' = true
  comma : lost ',' = true

/-- what the grammars of reactions may lose -/
structure LosesRxSeparators (lost : Char → Bool) : Prop extends LosesSeparators lost where
  dash : lost '-' = true
  plus : lost '+' = true

theorem losesSeparators : LosesSeparators isSeparator where
  space c h := by simp [isSeparator, h]
  open_ := rfl
  close := rfl
  comma := rfl

theorem losesRxSeparators : LosesRxSeparators isRxSeparator where
  space c h := by simp [isRxSeparator, isSeparator, h]
  open_ := rfl
  close := rfl
  comma := rfl
  dash := rfl
  plus := rfl

theorem isSpace_of_isWhite {c : Char} (h : isWhite c = true) : isSpace c = true := by
  simp only [isWhite, Bool.or_eq_true, beq_iff_eq] at h
  rcases h with ((rfl | rfl) | rfl) | rfl <;> decide

theorem LosesSeparators.white (L : LosesSeparators lost) : LosesWhite lost := fun c h => L.space c (isSpace_of_isWhite h)

section
variable (L : LosesSeparators lost)
include L

theorem keeps_pLpar : Keeps lost pLpar := keeps_suppress L.white (by simp [L.open_])
theorem keeps_pRpar : Keeps lost pRpar := keeps_suppress L.white (by simp [L.close])
theorem keeps_pComma : Keeps lost pComma := keeps_suppress L.white (by simp [L.comma])

end

section
variable (L : LosesRxSeparators lost)
include L

theorem keeps_pDash : Keeps lost pDash := keeps_suppress L.white (by simp [L.dash])

omit L in
theorem keeps_pAddop (hw : LosesWhite lost) : Keeps lost pAddop := (keeps_lit _ _).first hw (keeps_lit _ _)

theorem keeps_pMathop : Keeps lost pMathop :=
  (keeps_pAddop L.white).first L.white ((keeps_lit _ _).first L.white (keeps_lit _ _))

theorem keeps_pAltmultop : Keeps lost pAltmultop :=
  (((keeps_lit _ _).first L.white (keeps_lit _ _)).first L.white (keeps_lit _ _)).first L.white (keeps_lit _ _)

theorem keeps_pIsomerModifier : Keeps lost pIsomerModifier :=
  (keeps_wordMax _ _ _).and L.white ((keeps_word _ _ _).opt L.white)

theorem keeps_pBasicParticle : Keeps lost pBasicParticle :=
  ((keeps_lit _ _).opt L.white).and L.white (keeps_orAll L.white (by
    intro p hp
    obtain ⟨k, _, rfl⟩ := List.mem_map.1 hp
    exact keeps_lit _ _))

theorem keeps_pParticle : Keeps lost pParticle :=
  ((keeps_word _ _ _).and L.white ((keeps_word _ _ _).opt L.white)).combine L.white

theorem keeps_pElement : Keeps lost pElement :=
  keeps_orAll L.white (by
    intro p hp
    simp only [List.mem_cons, List.not_mem_nil, or_false] at hp
    rcases hp with rfl | rfl | rfl | rfl | rfl | rfl
    · exact keeps_wordMax _ _ _
    all_goals exact keeps_lit _ _)

theorem keeps_pNucleus : Keeps lost pNucleus :=
  ((((((keeps_word _ _ _).and L.white (keeps_pDash L)).and L.white (keeps_pElement L)).and L.white (keeps_pDash L)).and L.white
    (keeps_word _ _ _)).and L.white (((keeps_pMathop L).and L.white (keeps_pIsomerModifier L)).many L.white))

theorem keeps_pCompound : Keeps lost pCompound :=
  keeps_orAll L.white (by
    intro p hp
    obtain ⟨k, _, rfl⟩ := List.mem_map.1 hp
    exact keeps_lit _ _)

theorem keeps_pProjectile : Keeps lost pProjectile :=
  keeps_orAll L.white (by
    intro p hp
    simp only [List.mem_cons, List.not_mem_nil, or_false] at hp
    rcases hp with rfl | rfl | rfl
    · exact (keeps_pNucleus L).group L.white
    · exact keeps_pParticle L
    · exact keeps_lit _ _)

theorem keeps_pTarget : Keeps lost pTarget :=
  keeps_orAll L.white (by
    intro p hp
    simp only [List.mem_cons, List.not_mem_nil, or_false] at hp
    rcases hp with rfl | rfl | rfl | rfl
    · exact ((keeps_pCompound L).first L.white (keeps_pNucleus L)).group L.white
    all_goals exact keeps_lit _ _)

theorem keeps_pResidual : Keeps lost pResidual :=
  keeps_orAll L.white (by
    intro p hp
    simp only [List.mem_cons, List.not_mem_nil, or_false] at hp
    rcases hp with rfl | rfl | rfl | rfl | rfl
    · exact ((keeps_pCompound L).first L.white (keeps_pNucleus L)).group L.white
    all_goals exact keeps_lit _ _)

theorem keeps_pProduct : Keeps lost pProduct :=
  keeps_orAll L.white (by
    intro p hp
    simp only [List.mem_cons, List.not_mem_nil, or_false] at hp
    rcases hp with rfl | rfl | rfl | rfl | rfl
    · exact (keeps_pNucleus L).group L.white
    · exact keeps_pBasicParticle L
    · exact keeps_pParticle L
    · exact (((keeps_word _ _ _).opt L.white).and L.white (keeps_pParticle L)).group L.white
    · exact keeps_lit _ _)

theorem keeps_pProducts : Keeps lost pProducts :=
  (keeps_pProduct L).delimited L.white (keeps_suppress L.white (by simp [L.plus]))

theorem keeps_pProcess : Keeps lost pProcess :=
  ((((((keeps_pTarget L).and L.white (keeps_pLpar L.toLosesSeparators)).and L.white (keeps_pProjectile L)).and L.white
    (keeps_pComma L.toLosesSeparators)).and L.white (keeps_pProducts L)).and L.white (keeps_pRpar L.toLosesSeparators)).and L.white
    ((keeps_pResidual L).opt L.white)

theorem keeps_pDescriptor : Keeps lost pDescriptor :=
  (keeps_word _ _ _).or L.white (((keeps_pLpar L.toLosesSeparators).and L.white (keeps_word _ _ _)).and L.white
    (keeps_pRpar L.toLosesSeparators))

theorem keeps_pReaction : Keeps lost pReaction :=
  ((keeps_pLpar L.toLosesSeparators).and L.white
    ((((keeps_pProcess L).group L.white).or L.white ((keeps_pDescriptor L).many L.white)).delimited L.white
      (keeps_suppress L.white (by simp [L.comma])))).and L.white (keeps_pRpar L.toLosesSeparators)

theorem keeps_pExpression : ∀ n, Keeps lost (pExpression n)
  | 0 => by intro s t r h; simp [pExpression] at h
  | n + 1 => by
    have factor : Keeps lost (first (group pReaction) (Parser.and (Parser.and (lit ['(']) (pExpression n)) (lit [')']))) :=
      ((keeps_pReaction L).group L.white).first L.white
        (((keeps_lit _ _).and L.white (keeps_pExpression n)).and L.white (keeps_lit _ _))
    have term := factor.and L.white (((keeps_pAltmultop L).and L.white factor).many L.white)
    exact (term.and L.white (((keeps_pAddop L.white).and L.white term).many L.white)).forward L.white

theorem keeps_pReactionField (n : Nat) : Keeps lost (pReactionField n) := (keeps_pExpression L n).and L.white keeps_restOfLine

end

theorem quotedBody_prefix (q : Char) : ∀ s, quotedBody q s <+: s
  | [] => by simp [quotedBody]
  | [c] => by
    rw [quotedBody]
    split <;> simp
  | c :: d :: r => by
    rw [quotedBody.eq_def]
    simp only
    split
    · split
      · obtain ⟨k, hk⟩ := quotedBody_prefix q r
        exact ⟨k, by simp [hk]⟩
      · simp
    · split
      · simp
      · split
        · split
          · cases r with
            | nil => simp
            | cons h r' =>
              simp only
              split
              · obtain ⟨k, hk⟩ := quotedBody_prefix q r'
                exact ⟨k, by simp [hk]⟩
              · simp
          · obtain ⟨k, hk⟩ := quotedBody_prefix q r
            exact ⟨k, by simp [hk]⟩
        · obtain ⟨k, hk⟩ := quotedBody_prefix q (d :: r)
          exact ⟨k, by simp [hk]⟩
  termination_by s => s.length

theorem keeps_pQuoteOpen (q : Char) : Keeps lost (pQuoteOpen q) := by
  intro s t r h
  cases s with
  | nil => simp [pQuoteOpen] at h
  | cons c cs =>
    simp only [pQuoteOpen] at h
    split at h
    · rename_i hc
      obtain ⟨rfl, rfl⟩ := Prod.mk.inj (Option.some.inj h)
      simp only [flatStr, tokFlat, List.append_nil, keepOf, ← List.filter_append, List.cons_append]
      rw [List.prefix_iff_eq_append.1 (quotedBody_prefix q cs), hc]
    · cases h

theorem keepOf_strip (hs : ∀ c, isSpace c = true → lost c = true) (s : Str) : keepOf lost (strip s) = keepOf lost s := by
  obtain ⟨a, b, e, ha, hb⟩ := strip_decomp s
  conv_rhs => rw [e]
  have h1 := keepOf_all (lost := lost) fun c hc => hs c (ha c hc)
  have h2 := keepOf_all (lost := lost) fun c hc => hs c (hb c hc)
  simp only [keepOf] at h1 h2
  simp [keepOf, h1, h2]

section
variable (L : LosesSeparators lost)
include L

theorem keeps_pQuoted (ws : Bool) : Keeps lost (pQuoted ws) := by
  intro s t r h
  exact (((keeps_pQuoteOpen _).and L.white (keeps_lit _ _)).first L.white ((keeps_pQuoteOpen _).and L.white (keeps_lit _ _))).combine
    L.white s t r h

theorem Keeps.strip {p : Parser} (hp : Keeps lost p) : Keeps lost (Parser.action strip p) := by
  intro s t r h
  simp only [Parser.action] at h
  split at h
  · rename_i t1 r1 h1
    obtain ⟨rfl, rfl⟩ := Prod.mk.inj (Option.some.inj h)
    rw [hp.parse L.white h1]
    simp only [flatStr, tokFlat, List.append_nil]
    rw [keepOf_strip L.space]
  · exact hp.parse L.white h

theorem keeps_pContent : Keeps lost pContent :=
  ((((keeps_notAny _).and L.white (keeps_charNotIn _)).many1 L.white).combine L.white).strip L

theorem keeps_pNested : ∀ n, Keeps lost (pNested n)
  | 0 => by intro s t r h; simp [pNested] at h
  | n + 1 =>
    ((((keeps_pLpar L).and L.white ((((keeps_pQuoted L _).first L.white (keeps_pNested n)).first L.white (keeps_pContent L)).many
      L.white)).and L.white (keeps_pRpar L)).group L.white).forward L.white

theorem keeps_pCommaItem : Keeps lost pCommaItem :=
  (((keeps_word _ _ _).and L.white ((((keeps_word _ _ _).and L.white (keeps_notAny _)).and L.white (keeps_notAny _)).opt
    L.white)).many1 L.white).combine L.white

theorem keeps_pCommaList : Keeps lost pCommaList :=
  (((keeps_pQuoted L _).first L.white (keeps_pCommaItem L)).optEmpty L.white).delimited L.white
    (keeps_suppress L.white (by simp [L.comma]))

theorem keeps_pRefCode (n : Nat) : Keeps lost (pRefCode n) := (keeps_pNested L n).and L.white keeps_restOfLine

theorem keeps_pRefTautology (n : Nat) : Keeps lost (pRefTautology n) :=
  (((((keeps_pLpar L).and L.white (keeps_pNested L n)).and L.white (((keeps_lit _ _).and L.white (keeps_pNested L n)).many1 L.white)).and
    L.white (keeps_pRpar L)).and L.white keeps_restOfLine)

theorem keeps_pPhrase : Keeps lost pPhrase :=
  ((keeps_word _ _ _).first L.white (((keeps_pLpar L).and L.white (keeps_word _ _ _)).and L.white (keeps_pRpar L))).many1 L.white

theorem keeps_pCode : Keeps lost pCode := by
  have l := keeps_pLpar L
  have r := keeps_pRpar L
  have p := keeps_pPhrase L
  have w := L.white
  exact ((l.and w p).and w r).or w (((((((((l.and w l).and w p).and w r).and w (keeps_lit _ _)).and w l).and w p).and w r).and w r))

theorem keeps_pTextField : Keeps lost pTextField :=
  ((((keeps_pCode L).group L.white).and L.white ((keeps_word _ _ _).many L.white)).group L.white).many1 L.white

end

/-! ### whole texts -/

theorem keepOf_expandTabs (hs : ∀ c, isSpace c = true → lost c = true) : ∀ (col : Nat) (s : Str),
    keepOf lost (expandTabs col s) = keepOf lost s
  | _, [] => rfl
  | col, c :: cs => by
    simp only [expandTabs]
    split
    · rename_i hc
      have e : c = '\t' := by simpa using hc
      subst e
      have h1 : keepOf lost (List.replicate (8 - col % 8) ' ') = [] := keepOf_all fun x hx => by
        rw [List.eq_of_mem_replicate hx]; exact hs _ (by decide)
      have h2 : lost '\t' = true := hs _ (by decide)
      have h3 := keepOf_expandTabs hs 0 cs
      simp only [keepOf] at h1 h3
      simp [keepOf, h1, h2, h3]
    · have h3 := keepOf_expandTabs hs (if c == '\n' || c == '\r' then 0 else col + 1) cs
      simp only [keepOf] at h3
      simp only [keepOf, List.filter_cons, h3]

theorem parseString_keeps (L : LosesSeparators lost) {p : Parser} (hp : Keeps lost p) {s : Str} {ts : List Tok}
    (h : parseString p s = .ok ts) : keepOf lost (flatStr ts) <+: keepOf lost s := by
  unfold parseString at h
  split at h
  · cases h
  · rename_i t r h1
    have e := Except.ok.inj h
    subst e
    rw [← keepOf_expandTabs L.space 0 s, hp.parse L.white h1]
    exact List.prefix_append _ _

end X4
