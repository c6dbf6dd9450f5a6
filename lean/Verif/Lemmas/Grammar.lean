import Verif.Spec.ReactionText
import Verif.Lemmas.Parsing
import Verif.Lemmas.Str
/-! What the grammars of reactions do on well-formed texts. -/
namespace X4
open Parser

/-! ### characters -/

theorem isWhite_cases {c : Char} (h : isWhite c = true) : c = ' ' ∨ c = '\n' ∨ c = '\t' ∨ c = '\r' := by
  simpa [isWhite, or_assoc] using h

theorem white_not_descr {c : Char} (h : isDescr c = true) : isWhite c = false := by
  by_contra hw
  rw [Bool.not_eq_false] at hw
  rcases isWhite_cases hw with rfl | rfl | rfl | rfl <;> simp [isDescr, isAlnumA, isAlphaA, isCap, isDig] at h

theorem alnum_descr {c : Char} (h : isAlnumA c = true) : isDescr c = true := by simp [isDescr, h]
theorem alpha_alnum {c : Char} (h : isAlphaA c = true) : isAlnumA c = true := by simp [isAlnumA, h]
theorem dig_alnum {c : Char} (h : isDig c = true) : isAlnumA c = true := by simp [isAlnumA, h]
theorem cap_alpha {c : Char} (h : isCap c = true) : isAlphaA c = true := by simp [isAlphaA, h]
theorem modifier_alpha {c : Char} (h : isModifier c = true) : isAlphaA c = true := by
  simp only [isModifier, Bool.or_eq_true, beq_iff_eq] at h
  rcases h with ((((rfl | rfl) | rfl) | rfl) | rfl) | rfl <;> rfl
theorem dig_not_alpha {c : Char} (h : isDig c = true) : isAlphaA c = false := by
  simp only [isDig, Bool.and_eq_true, decide_eq_true_eq, isAlphaA, isCap] at *
  obtain ⟨h1, h2⟩ := h
  simp only [Bool.or_eq_false_iff, Bool.and_eq_false_iff, decide_eq_false_iff_not]
  have h1' : 48 ≤ c.toNat := h1
  have h2' : c.toNat ≤ 57 := h2
  constructor
  · left; omega
  · left; omega
theorem alpha_not_dig {c : Char} (h : isAlphaA c = true) : isDig c = false := by
  by_contra hd
  rw [Bool.not_eq_false] at hd
  rw [dig_not_alpha hd] at h
  cases h
/-- a separator is no word character -/
def Sep (c : Char) : Prop := c = '(' ∨ c = ')' ∨ c = ','
theorem sep_not_descr {c : Char} (h : Sep c) : isDescr c = false := by
  rcases h with rfl | rfl | rfl <;> rfl
theorem sep_nw {c : Char} {r : Str} (h : Sep c) : NW (c :: r) := by
  rcases h with rfl | rfl | rfl <;> exact NW_cons.2 rfl
theorem not_descr_alnum {c : Char} (h : isDescr c = false) : isAlnumA c = false := by
  by_contra hd
  rw [Bool.not_eq_false] at hd
  rw [alnum_descr hd] at h
  cases h
theorem not_alnum_dig {c : Char} (h : isAlnumA c = false) : isDig c = false := by
  simp only [isAlnumA, Bool.or_eq_false_iff] at h
  exact h.2
theorem not_alnum_alpha {c : Char} (h : isAlnumA c = false) : isAlphaA c = false := by
  simp only [isAlnumA, Bool.or_eq_false_iff] at h
  exact h.1
theorem nw_descr {s r : Str} (hne : s ≠ []) (h : ∀ c ∈ s, isDescr c = true) : NW (s ++ r) := by
  cases s with
  | nil => exact absurd rfl hne
  | cons c s => exact NW_cons.2 (white_not_descr (h c (by simp)))

/-- a prefix without the character after a text is no longer than the text -/
theorem prefix_len {k a r : Str} {c : Char} (h : k <+: a ++ c :: r) (hc : c ∉ k) : k.length ≤ a.length := by
  by_contra hl
  rw [Nat.not_le] at hl
  obtain ⟨u, hu⟩ := h
  apply hc
  have : (k ++ u)[a.length]? = some c := by rw [hu]; simp
  rw [List.getElem?_append_left hl] at this
  exact List.mem_of_getElem? this

theorem pLpar_cons (r : Str) : pLpar.impl ('(' :: r) = some ([], r) := suppress_some (lit_cons _ _ _)
theorem pRpar_cons (r : Str) : pRpar.impl (')' :: r) = some ([], r) := suppress_some (lit_cons _ _ _)
theorem pComma_cons (r : Str) : pComma.impl (',' :: r) = some ([], r) := suppress_some (lit_cons _ _ _)
theorem pDash_cons (r : Str) : pDash.impl ('-' :: r) = some ([], r) := suppress_some (lit_cons _ _ _)
theorem pDash_ne {c : Char} {r : Str} (h : c ≠ '-') : pDash.impl (c :: r) = none := suppress_none (lit_head_ne (Ne.symm h))
theorem pLpar_ne {c : Char} {r : Str} (h : c ≠ '(') : pLpar.impl (c :: r) = none := suppress_none (lit_head_ne (Ne.symm h))
theorem pRpar_ne {c : Char} {r : Str} (h : c ≠ ')') : pRpar.impl (c :: r) = none := suppress_none (lit_head_ne (Ne.symm h))
theorem pComma_ne {c : Char} {r : Str} (h : c ≠ ',') : pComma.impl (c :: r) = none := suppress_none (lit_head_ne (Ne.symm h))

theorem pNums_some {s r : Str} {ws : Bool} (h : DigitText s) (hr : ∀ c ∈ r.head?, isDig c = false) :
    (pNums ws).impl (s ++ r) = some ([.str s], r) := word_all h.1 h.2 hr
theorem pNums_none {s : Str} {ws : Bool} (h : ∀ c ∈ s.head?, isDig c = false) : (pNums ws).impl s = none := word_none h

theorem and_nw {a b : Parser} {s r r' : Str} {t t' : List Tok} (h1 : a.impl s = some (t, r)) (hr : NW r) (h2 : b.impl r = some (t', r')) :
    (and a b).impl s = some (t ++ t', r') := and_some h1 (by rw [parse_nw hr]; exact h2)
theorem and_nw_none {a b : Parser} {s r : Str} {t : List Tok} (h1 : a.impl s = some (t, r)) (hr : NW r) (h2 : b.impl r = none) :
    (and a b).impl s = none := and_none_right h1 (by rw [parse_nw hr]; exact h2)

/-! ### nuclei -/

/-- what may follow a nucleus: a separator, or a plus sign and something that is no isomer modifier -/
def NucEnd (r : Str) : Prop :=
  ∃ c r', r = c :: r' ∧ (Sep c ∨ (c = '+' ∧ ∃ d r'', r' = d :: r'' ∧ isModifier d = false ∧ isWhite d = false))

theorem NucEnd.nw {r : Str} (h : NucEnd r) : NW r := by
  obtain ⟨c, r', rfl, h | ⟨rfl, -⟩⟩ := h
  · exact sep_nw h
  · exact NW_cons.2 rfl
theorem NucEnd.not_alnum {r : Str} (h : NucEnd r) : ∀ c ∈ r.head?, isAlnumA c = false := by
  obtain ⟨c, r', rfl, h | ⟨rfl, -⟩⟩ := h
  · intro x hx; simp at hx; subst hx; exact not_descr_alnum (sep_not_descr h)
  · intro x hx; simp at hx; subst hx; rfl
theorem NucEnd.of_sep {c : Char} {r : Str} (h : Sep c) : NucEnd (c :: r) := ⟨c, r, rfl, .inl h⟩

theorem pMathop_op {c : Char} {r : Str} (h : c ∈ ['+', '-', '*', '/']) : pMathop.impl (c :: r) = some ([.str [c]], r) := by
  have hnw : NW (c :: r) := by
    simp only [List.mem_cons, List.not_mem_nil, or_false] at h
    rcases h with rfl | rfl | rfl | rfl <;> exact NW_cons.2 rfl
  have hf : ∀ (a b : Parser), (first a b).impl (c :: r) = (a.impl (c :: r)).or (b.impl (c :: r)) := fun a b => first_nw hnw
  unfold pMathop pAddop pMultop
  simp only [hf]
  simp only [List.mem_cons, List.not_mem_nil, or_false] at h
  rcases h with rfl | rfl | rfl | rfl <;> rfl

theorem pMathop_none {c : Char} {r : Str} (h : c ∉ ['+', '-', '*', '/']) (hnw : NW (c :: r)) : pMathop.impl (c :: r) = none := by
  have hf : ∀ (a b : Parser), (first a b).impl (c :: r) = (a.impl (c :: r)).or (b.impl (c :: r)) := fun a b => first_nw hnw
  simp only [List.mem_cons, List.not_mem_nil, or_false, not_or] at h
  unfold pMathop pAddop pMultop
  simp only [hf, lit_head_ne (Ne.symm h.1), lit_head_ne (Ne.symm h.2.1), lit_head_ne (Ne.symm h.2.2.1), lit_head_ne (Ne.symm h.2.2.2), Option.or_none]

theorem pIsoMod_end {r : Str} (h : NucEnd r) : (and pMathop pIsomerModifier).impl r = none := by
  obtain ⟨c, r', rfl, h | ⟨rfl, d, r'', rfl, hd, hw⟩⟩ := h
  · apply and_none_left
    apply pMathop_none _ (sep_nw h)
    rcases h with rfl | rfl | rfl <;> decide
  · refine and_nw_none (pMathop_op (by decide)) (NW_cons.2 hw) ?_
    apply and_none_left
    apply wordMax_none
    intro x hx; simp at hx; subst hx; exact hd

/-- what a nucleus is separated from: something that neither continues a word nor is an isomer modifier -/
structure NucTail (r : Str) : Prop where
  nw : NW r
  not_alnum : ∀ c ∈ r.head?, isAlnumA c = false
  no_mod : (and pMathop pIsomerModifier).impl r = none
theorem NucEnd.tail {r : Str} (h : NucEnd r) : NucTail r := ⟨h.nw, h.not_alnum, pIsoMod_end h⟩
theorem NucTail.nil : NucTail [] := ⟨NW_nil, by simp, by decide⟩

theorem pIsoMod_some {m : IsoMod} (hm : m.wf) {r : Str} (hr : ∀ c ∈ r.head?, isAlnumA c = false) (hnw : NW r) :
    (and pMathop pIsomerModifier).impl (m.text ++ r) = some (m.toks, r) := by
  obtain ⟨h1, h2, h3⟩ := hm
  unfold IsoMod.text IsoMod.toks
  have hl : NW (m.letter :: (m.digits ++ r)) := NW_cons.2 (white_not_descr (alnum_descr (alpha_alnum (modifier_alpha h2))))
  refine and_nw (t := [.str [m.op]]) (pMathop_op h1) hl ?_
  have hw : (wordMax isModifier isModifier 1).impl (m.letter :: (m.digits ++ r)) = some ([.str [m.letter]], m.digits ++ r) := by
    apply wordMax_append (w := []) (r := m.digits ++ r) h2 (by simp) (by simp)
    intro x hx
    have hx' : isAlphaA x = false := by
      cases hd : m.digits with
      | nil => rw [hd] at hx; exact not_alnum_alpha (hr x hx)
      | cons d ds =>
        rw [hd] at hx
        simp at hx
        subst hx
        exact dig_not_alpha (h3 d (by rw [hd]; simp))
    by_contra hb
    rw [Bool.not_eq_false] at hb
    rw [modifier_alpha hb] at hx'
    cases hx'
  by_cases hd : m.digits = []
  · rw [if_pos hd]
    refine and_nw (t := [.str [m.letter]]) (t' := []) hw (by rw [hd]; exact hnw) ?_
    rw [hd, List.nil_append]
    exact opt_none (pNums_none (fun c hc => not_alnum_dig (hr c hc)))
  · rw [if_neg hd]
    refine and_nw (t := [.str [m.letter]]) hw (nw_descr hd (fun c hc => alnum_descr (dig_alnum (h3 c hc)))) ?_
    exact opt_some (pNums_some ⟨hd, h3⟩ (fun c hc => not_alnum_dig (hr c hc)))

theorem isoMod_text_head {m : IsoMod} (hm : m.wf) : isAlnumA m.op = false ∧ isWhite m.op = false := by
  have := hm.1
  simp only [List.mem_cons, List.not_mem_nil, or_false] at this
  rcases this with h | h | h | h <;> rw [h] <;> decide

theorem mods_head (ms : List IsoMod) (hms : ∀ m ∈ ms, m.wf) {r : Str} (hr : NucTail r) :
    (∀ c ∈ (ms.flatMap IsoMod.text ++ r).head?, isAlnumA c = false) ∧ NW (ms.flatMap IsoMod.text ++ r) := by
  cases ms with
  | nil => exact ⟨hr.not_alnum, hr.nw⟩
  | cons m ms =>
    have hm := isoMod_text_head (hms m (by simp))
    refine ⟨?_, ?_⟩
    · intro c hc
      simp [IsoMod.text] at hc
      subst hc; exact hm.1
    · exact NW_cons.2 hm.2

theorem pMods {ms : List IsoMod} (hms : ∀ m ∈ ms, m.wf) {r : Str} (hr : NucTail r) :
    (many (and pMathop pIsomerModifier)).impl (ms.flatMap IsoMod.text ++ r) = some (ms.flatMap IsoMod.toks, r) := by
  refine many_list _ _ _ ms r ?_ (hr.no_mod) ?_ ?_
  · intro m _ h; simp [IsoMod.text] at h
  · rw [parse_nw hr.nw]; exact hr.no_mod
  · intro m l hl
    have hsub : ∀ x ∈ m :: l, x.wf := fun x hx => hms x (hl.subset hx)
    obtain ⟨h1, h2⟩ := mods_head l (fun x hx => hsub x (by simp [hx])) hr
    exact ⟨NW_cons.2 (isoMod_text_head (hsub m (by simp))).2, pIsoMod_some (hsub m (by simp)) h1 h2⟩

theorem dash_not_alnum : isAlnumA '-' = false := rfl

theorem pElement_some {s : Str} (hs : SymbolText s) (r : Str) : pElement.impl (s ++ '-' :: r) = some ([.str s], '-' :: r) := by
  obtain ⟨c, w, rfl, hc, hl, hw⟩ := hs
  have hnw : NW (c :: w ++ '-' :: r) := by
    refine NW_cons.2 ?_
    rcases hc with hc | rfl
    · exact white_not_descr (alnum_descr (alpha_alnum (cap_alpha hc)))
    · rfl
  unfold pElement
  refine orAll_win [] _ _ _ hnw ?_ (by simp) ?_
  · apply wordMax_append _ hw (by simpa using hl)
    · intro x hx; simp at hx; subst hx; rfl
    · rcases hc with hc | rfl
      · simp [hc]
      · rfl
  · intro q hq
    have : ∀ m : Str, '-' ∉ m → NotLonger ('-' :: r) ((lit m).impl (c :: w ++ '-' :: r)) := by
      intro m hm t' r' he
      obtain ⟨-, e⟩ := lit_eq_some he
      have := prefix_len ⟨r', e.symm⟩ hm
      have e2 := congrArg List.length e
      simp only [List.length_append, List.length_cons] at e2 this ⊢
      omega
    simp only [List.mem_cons, List.not_mem_nil, or_false] at hq
    rcases hq with rfl | rfl | rfl | rfl | rfl <;> exact this _ (by decide)

theorem symbol_descr {s : Str} (h : SymbolText s) : s ≠ [] ∧ ∀ c ∈ s, isDescr c = true := by
  obtain ⟨c, w, rfl, hc, hl, hw⟩ := h
  refine ⟨by simp, ?_⟩
  intro x hx
  rcases List.mem_cons.1 hx with rfl | hx
  · rcases hc with hc | rfl
    · exact alnum_descr (alpha_alnum (cap_alpha hc))
    · rfl
  · exact alnum_descr (alpha_alnum (hw x hx))
theorem digits_descr {s : Str} (h : DigitText s) : s ≠ [] ∧ ∀ c ∈ s, isDescr c = true :=
  ⟨h.1, fun c hc => alnum_descr (dig_alnum (h.2 c hc))⟩

/-- A nucleus is read as its parts. -/
theorem pNucleus_tail {n : NucText} (hn : n.wf) {r : Str} (hr : NucTail r) : pNucleus.impl (n.text ++ r) = some (n.toks, r) := by
  obtain ⟨hZ, hs, hA, hm⟩ := hn
  have e : n.text ++ r = n.Z ++ '-' :: (n.sym ++ '-' :: (n.A ++ (n.mods.flatMap IsoMod.text ++ r))) := by
    simp [NucText.text, List.append_assoc]
  have et : n.toks = ((((([.str n.Z] ++ []) ++ [.str n.sym]) ++ []) ++ [.str n.A]) ++ n.mods.flatMap IsoMod.toks) := by
    simp [NucText.toks]
  rw [e, et]
  obtain ⟨h1, h2⟩ := mods_head n.mods hm hr
  unfold pNucleus
  refine and_nw (and_nw (and_nw (and_nw (and_nw (pNums_some hZ ?_) ?_ (pDash_cons _)) ?_ (pElement_some hs _)) ?_ (pDash_cons _)) ?_
    (pNums_some hA ?_)) h2 (pMods hm hr)
  · intro c hc; simp at hc; subst hc; rfl
  · exact NW_cons.2 rfl
  · exact nw_descr (symbol_descr hs).1 (symbol_descr hs).2
  · exact NW_cons.2 rfl
  · exact nw_descr (digits_descr hA).1 (digits_descr hA).2
  · intro c hc; exact not_alnum_dig (h1 c hc)

theorem pNucleus_some {n : NucText} (hn : n.wf) {r : Str} (hr : NucEnd r) : pNucleus.impl (n.text ++ r) = some (n.toks, r) :=
  pNucleus_tail hn hr.tail

theorem nuc_descr {n : NucText} (hn : n.wf) : n.text ≠ [] ∧ ∀ c ∈ n.text, isDescr c = true := by
  obtain ⟨hZ, hs, hA, hm⟩ := hn
  refine ⟨by simp [NucText.text], ?_⟩
  intro c hc
  simp only [NucText.text, List.mem_append, List.mem_cons, List.mem_flatMap] at hc
  rcases hc with hc | rfl | hc | rfl | hc | ⟨m, hmm, hc⟩
  · exact (digits_descr hZ).2 c hc
  · rfl
  · exact (symbol_descr hs).2 c hc
  · rfl
  · exact (digits_descr hA).2 c hc
  · obtain ⟨h1, h2, h3⟩ := hm m hmm
    simp only [IsoMod.text, List.mem_cons] at hc
    rcases hc with rfl | rfl | hc
    · simp only [List.mem_cons, List.not_mem_nil, or_false] at h1
      rcases h1 with h | h | h | h <;> rw [h] <;> rfl
    · exact alnum_descr (alpha_alnum (modifier_alpha h2))
    · exact alnum_descr (dig_alnum (h3 c hc))

/-- the first character of a nucleus is a digit -/
theorem nuc_head {n : NucText} (hn : n.wf) : ∃ c s, n.text = c :: s ∧ isDig c = true := by
  obtain ⟨⟨hne, hd⟩, -⟩ := hn
  cases hZ : n.Z with
  | nil => exact absurd hZ hne
  | cons c s =>
    refine ⟨c, s ++ '-' :: (n.sym ++ '-' :: (n.A ++ n.mods.flatMap IsoMod.text)), ?_, hd c (by rw [hZ]; simp)⟩
    simp [NucText.text, hZ]

/-! ### chemical compounds -/

/-- codes of compounds have three parts, the last of which begins with no digit -/
def compoundShape (k : Str) : Bool :=
  match splitChar '-' k with
  | a :: b :: (c :: _) :: _ => !isDig c && !a.contains '-' && !b.contains '-'
  | _ => false

set_option maxRecDepth 20000 in
theorem compoundKeys_shape : ∀ k ∈ compoundKeys, compoundShape k = true := by decide +kernel
set_option maxRecDepth 20000 in
theorem compoundKeys_descr : ∀ k ∈ compoundKeys, k ≠ [] ∧ ∀ c ∈ k, isDescr c = true := by decide +kernel

theorem split_dash {a b x y : Str} (ha : '-' ∉ a) (hb : '-' ∉ b) (h : a ++ '-' :: x <+: b ++ '-' :: y) : a = b ∧ x <+: y := by
  induction a generalizing b with
  | nil =>
    cases b with
    | nil => exact ⟨rfl, by simpa using h⟩
    | cons c b =>
      simp at h hb
      exact absurd h.1 hb.1
  | cons c a ih =>
    cases b with
    | nil =>
      simp at h ha
      exact absurd h.1.symm ha.1
    | cons d b =>
      simp only [List.cons_append, List.cons_prefix_cons] at h
      simp only [List.mem_cons, not_or] at ha hb
      obtain ⟨h1, h2⟩ := ih ha.2 hb.2 h.2
      exact ⟨by rw [h.1, h1], h2⟩

theorem pCompound_nuc {n : NucText} (hn : n.wf) (r : Str) : pCompound.impl (n.text ++ r) = none := by
  refine lits_none _ _ (nw_descr (nuc_descr hn).1 (nuc_descr hn).2) ?_
  intro k hk hp
  have hs := compoundKeys_shape k hk
  unfold compoundShape at hs
  split at hs
  · rename_i a b c u rest he
    simp only [Bool.and_eq_true, Bool.not_eq_true', List.contains_eq_mem, decide_eq_false_iff_not] at hs
    obtain ⟨⟨hc, ha⟩, hb⟩ := hs
    have hj := joinWith_splitChar (c := '-') k
    rw [he] at hj
    obtain ⟨v, hv⟩ : ∃ v, joinWith ['-'] ((c :: u) :: rest) = c :: v := by
      cases rest with
      | nil => exact ⟨u, rfl⟩
      | cons x rest => exact ⟨_, rfl⟩
    have hk2 : k = a ++ '-' :: (b ++ '-' :: (c :: v)) := by
      rw [← hj, ← hv]
      simp [joinWith]
    obtain ⟨hZ, hS, hA, hm⟩ := hn
    have e : n.text ++ r = n.Z ++ '-' :: (n.sym ++ '-' :: (n.A ++ (n.mods.flatMap IsoMod.text ++ r))) := by
      simp [NucText.text, List.append_assoc]
    rw [e, hk2] at hp
    have hZd : '-' ∉ n.Z := fun h => by simpa [isDig] using hZ.2 _ h
    have hSd : '-' ∉ n.sym := by
      obtain ⟨d, w, e, hd, -, hw⟩ := hS
      rw [e]
      intro h
      rcases List.mem_cons.1 h with h | h
      · subst h
        rcases hd with hd | hd <;> simp [isCap] at hd
      · have := hw _ h
        simp [isAlphaA, isCap] at this
    obtain ⟨-, h2⟩ := split_dash ha hZd hp
    obtain ⟨-, h3⟩ := split_dash hb hSd h2
    obtain ⟨hAne, hAd⟩ := hA
    cases hA' : n.A with
    | nil => exact hAne hA'
    | cons d A =>
      rw [hA'] at h3 hAd
      simp only [List.cons_append, List.cons_prefix_cons] at h3
      have := hAd d (by simp)
      rw [← h3.1, hc] at this
      cases this
  · cases hs

/-- the first character of the code of a compound is a digit -/
def digitHead : Str → Bool
  | c :: _ => isDig c
  | [] => false
set_option maxRecDepth 20000 in
theorem compoundKeys_head : ∀ k ∈ compoundKeys, digitHead k = true := by decide +kernel

theorem pCompound_none {s : Str} (hs : NW s) (h : ∀ c ∈ s.head?, isDig c = false) : pCompound.impl s = none := by
  refine lits_none _ _ hs ?_
  intro k hk hp
  have h1 := compoundKeys_head k hk
  cases k with
  | nil => cases h1
  | cons c k =>
    obtain ⟨u, rfl⟩ := hp
    have := h c (by simp)
    simp only [digitHead, this] at h1
    cases h1

theorem pCompound_some {k : Str} (hk : k ∈ compoundKeys) {c : Char} (hc : Sep c) (r : Str) :
    pCompound.impl (k ++ c :: r) = some ([.str k], c :: r) := by
  have hd := compoundKeys_descr k hk
  refine lits_some _ _ (nw_descr hd.1 hd.2) k (c :: r) hk rfl ?_
  intro k' hk' hp
  refine prefix_len hp ?_
  intro h
  have := (compoundKeys_descr k' hk').2 c h
  rw [sep_not_descr hc] at this
  cases this

theorem pNucleus_none {s : Str} (h : ∀ c ∈ s.head?, isDig c = false) : pNucleus.impl s = none := by
  unfold pNucleus
  exact and_none_left (and_none_left (and_none_left (and_none_left (and_none_left (pNums_none h)))))

/-! ### targets and residuals -/

/-- a variable begins with a letter and consists of word characters -/
def varShape : Str → Bool
  | c :: s => isAlphaA c && s.all isDescr
  | [] => false

theorem varShape_spec {s : Str} (h : varShape s = true) : s ≠ [] ∧ (∀ c ∈ s, isDescr c = true) ∧ ∀ c ∈ s.head?, isDig c = false := by
  cases s with
  | nil => cases h
  | cons c s =>
    simp only [varShape, Bool.and_eq_true, List.all_eq_true] at h
    refine ⟨by simp, ?_, ?_⟩
    · intro x hx
      rcases List.mem_cons.1 hx with rfl | hx
      · exact alnum_descr (alpha_alnum h.1)
      · exact h.2 x hx
    · intro x hx
      simp at hx
      subst hx
      exact alpha_not_dig h.1

theorem head_append {s r : Str} {P : Char → Prop} (hne : s ≠ []) (h : ∀ c ∈ s.head?, P c) : ∀ c ∈ (s ++ r).head?, P c := by
  cases s with
  | nil => exact absurd rfl hne
  | cons c s => exact h

theorem targ_alternatives (vars : List Str) (hv : ∀ v ∈ vars, varShape v = true) {t : TargText} (ht : t.wf vars) {c : Char} (hc : Sep c) (r : Str) :
    (orAll (group (first pCompound pNucleus) :: vars.map (fun v => lit v))).impl (t.text ++ c :: r) = some ([t.tok], c :: r) := by
  have hnl : ∀ s : Str, ∀ q ∈ vars.map (fun v => lit v), NotLonger (c :: r) (q.impl (s ++ c :: r)) := by
    intro s q hq t' r' he
    obtain ⟨v, hv', rfl⟩ := List.mem_map.1 hq
    obtain ⟨-, e⟩ := lit_eq_some he
    have := prefix_len ⟨r', e.symm⟩ (fun h => by
      have := (varShape_spec (hv v hv')).2.1 c h
      rw [sep_not_descr hc] at this
      cases this)
    have e2 := congrArg List.length e
    simp only [List.length_append, List.length_cons] at e2 this ⊢
    omega
  cases t with
  | nuc n =>
    simp only [TargText.text, TargText.tok]
    have hnw : NW (n.text ++ c :: r) := nw_descr (nuc_descr ht).1 (nuc_descr ht).2
    refine orAll_win [] _ _ _ hnw ?_ (by simp) (hnl _)
    refine group_some ?_
    rw [first_nw hnw]
    simp only [pCompound_nuc ht, pNucleus_some ht (NucEnd.of_sep hc), Option.none_or]
  | code k =>
    simp only [TargText.text, TargText.tok]
    have hd := compoundKeys_descr k ht
    have hnw : NW (k ++ c :: r) := nw_descr hd.1 hd.2
    refine orAll_win [] _ _ _ hnw ?_ (by simp) (hnl _)
    refine group_some ?_
    rw [first_nw hnw]
    simp only [pCompound_some ht hc, Option.some_or]
  | var s =>
    simp only [TargText.text, TargText.tok]
    obtain ⟨h1, h2, h3⟩ := varShape_spec (hv s ht)
    have hnw : NW (s ++ c :: r) := nw_descr h1 h2
    have hh := head_append (r := c :: r) h1 h3
    rw [orAll_skip _ _ _ hnw]
    · refine lits_some vars _ hnw s (c :: r) ht rfl ?_
      intro k hk hp
      refine prefix_len hp ?_
      intro h
      have := (varShape_spec (hv k hk)).2.1 c h
      rw [sep_not_descr hc] at this
      cases this
    · refine group_none ?_
      rw [first_nw hnw]
      simp only [pCompound_none hnw hh, pNucleus_none hh, Option.none_or]
    · intro h
      have ht' : s ∈ vars := ht
      rw [List.map_eq_nil_iff.1 h] at ht'
      simp at ht'

theorem pTarget_some {t : TargText} (ht : t.wf targVars) {c : Char} (hc : Sep c) (r : Str) :
    pTarget.impl (t.text ++ c :: r) = some ([t.tok], c :: r) :=
  targ_alternatives targVars (by decide) ht hc r
theorem pResidual_some {t : TargText} (ht : t.wf residVars) {c : Char} (hc : Sep c) (r : Str) :
    pResidual.impl (t.text ++ c :: r) = some ([t.tok], c :: r) :=
  targ_alternatives residVars (by decide) ht hc r

theorem pResidual_none {c : Char} (hc : Sep c) (r : Str) : pResidual.impl (c :: r) = none := by
  have hnw := sep_nw (r := r) hc
  have hh : ∀ x ∈ (c :: r).head?, isDig x = false := by
    intro x hx; simp at hx; subst hx; exact not_alnum_dig (not_descr_alnum (sep_not_descr hc))
  unfold pResidual
  refine orAll_none _ _ hnw ?_
  intro p hp
  simp only [List.mem_cons, List.not_mem_nil, or_false] at hp
  have hne : ∀ d : Char, isDescr d = true → d ≠ c := by
    intro d hd e
    rw [e, sep_not_descr hc] at hd
    cases hd
  rcases hp with rfl | rfl | rfl | rfl | rfl
  · refine group_none ?_
    rw [first_nw hnw, pCompound_none hnw hh, pNucleus_none hh]
    rfl
  all_goals exact lit_head_ne (hne _ rfl)

theorem targ_descr {vars : List Str} (hv : ∀ v ∈ vars, varShape v = true) {t : TargText} (ht : t.wf vars) :
    t.text ≠ [] ∧ ∀ c ∈ t.text, isDescr c = true := by
  cases t with
  | nuc n => exact nuc_descr ht
  | code k => exact compoundKeys_descr k ht
  | var s => exact ⟨(varShape_spec (hv s ht)).1, (varShape_spec (hv s ht)).2.1⟩

/-! ### particles -/

theorem particle_alnum {w : Str} (h : ParticleWord w) : w ≠ [] ∧ ∀ c ∈ w, isAlnumA c = true := by
  obtain ⟨l, d, rfl, h1, h2, h3⟩ := h
  refine ⟨by simp [h1], ?_⟩
  intro c hc
  rcases List.mem_append.1 hc with hc | hc
  · exact alpha_alnum (h2 c hc)
  · exact dig_alnum (h3 c hc)

theorem particle_head {w : Str} (h : ParticleWord w) : ∃ c s, w = c :: s ∧ isAlphaA c = true := by
  obtain ⟨l, d, rfl, h1, h2, h3⟩ := h
  cases l with
  | nil => exact absurd rfl h1
  | cons c l => exact ⟨c, l ++ d, rfl, h2 c (by simp)⟩

theorem pParticle_some {w r : Str} (h : ParticleWord w) (hr : ∀ c ∈ r.head?, isAlnumA c = false) :
    pParticle.impl (w ++ r) = some ([.str w], r) := by
  obtain ⟨l, d, rfl, h1, h2, h3⟩ := h
  unfold pParticle
  have hd : ∀ x ∈ (d ++ r).head?, isAlphaA x = false := by
    intro x hx
    cases d with
    | nil => exact not_alnum_alpha (hr x hx)
    | cons y d =>
      simp at hx
      subst hx
      exact dig_not_alpha (h3 y (by simp))
  have hw : (word isAlphaA isAlphaA false).impl (l ++ d ++ r) = some ([.str l], d ++ r) := by
    rw [List.append_assoc]
    exact word_all h1 h2 hd
  have hrd : ∀ c ∈ r.head?, isDig c = false := fun c hc => not_alnum_dig (hr c hc)
  by_cases hdn : d = []
  · subst hdn
    have ho : (opt (pNums false)).parse true ([] ++ r) = some ([], r) := by
      rw [parse_nows rfl]
      exact opt_none (pNums_none hrd)
    rw [combine_some (and_some hw ho)]
    simp [flatStr, tokFlat]
  · have ho : (opt (pNums false)).parse true (d ++ r) = some ([.str d], r) := by
      rw [parse_nows rfl]
      exact opt_some (pNums_some ⟨hdn, h3⟩ hrd)
    rw [combine_some (and_some hw ho)]
    simp [flatStr, tokFlat]

theorem pParticle_none {s : Str} (h : ∀ c ∈ s.head?, isAlphaA c = false) : pParticle.impl s = none :=
  combine_none (and_none_left (word_none h))

theorem lit_shorter {m s r : Str} (h : r.length + m.length < s.length) : Shorter r ((lit m).impl s) := by
  intro t' r' he
  obtain ⟨-, e⟩ := lit_eq_some he
  have := congrArg List.length e
  rw [List.length_append] at this
  omega
theorem Shorter.notLonger {r : Str} {m : Option (List Tok × Str)} (h : Shorter r m) : NotLonger r m :=
  fun t r' e => Nat.le_of_lt (h t r' e)
theorem notLonger_same {r : Str} {t : List Tok} : NotLonger r (some (t, r)) := by
  intro t' r' e
  injection e with e
  injection e with _ e
  rw [e]

theorem pProjectile_some {p : ProdText} (hp : p.wfProj) {c : Char} (hc : Sep c) (r : Str) :
    pProjectile.impl (p.text ++ c :: r) = some ([p.tok], c :: r) := by
  have hr : ∀ x ∈ (c :: r).head?, isAlnumA x = false := by
    intro x hx; simp at hx; subst hx; exact not_descr_alnum (sep_not_descr hc)
  unfold pProjectile
  cases p with
  | nuc n =>
    have hd := nuc_descr hp
    refine orAll_win [] _ _ _ (nw_descr hd.1 hd.2) (group_some (pNucleus_some hp (NucEnd.of_sep hc))) (by simp) ?_
    intro q hq
    obtain ⟨d, s, e, hdig⟩ := nuc_head hp
    simp only [List.mem_cons, List.not_mem_nil, or_false] at hq
    rcases hq with rfl | rfl
    · rw [pParticle_none]
      · exact notLonger_none _
      · intro x hx
        simp only [ProdText.text, e] at hx
        simp at hx
        subst hx
        exact dig_not_alpha hdig
    · apply (lit_shorter _).notLonger
      simp only [ProdText.text, NucText.text, List.length_append, List.length_cons]
      simp
      omega
  | mult n w => exact hp.elim
  | word w =>
    obtain ⟨a, s, e, ha⟩ := particle_head hp
    have hnw : NW (w ++ c :: r) := nw_descr (particle_alnum hp).1 (fun x hx => alnum_descr ((particle_alnum hp).2 x hx))
    refine orAll_win [group pNucleus] [lit ['0']] _ _ hnw (pParticle_some hp hr) ?_ ?_
    · intro q hq
      simp only [List.mem_cons, List.not_mem_nil, or_false] at hq
      subst hq
      rw [group_none (pNucleus_none _)]
      · exact shorter_none _
      · intro x hx
        simp only [ProdText.text, e] at hx
        simp at hx
        subst hx
        exact alpha_not_dig ha
    · intro q hq
      simp only [List.mem_cons, List.not_mem_nil, or_false] at hq
      subst hq
      have : a ≠ '0' := by
        intro h0
        rw [h0] at ha
        exact absurd ha (by decide)
      simp only [ProdText.text, e, List.cons_append]
      rw [lit_head_ne (Ne.symm this)]
      exact notLonger_none _
  | zero =>
    have hnw : NW ('0' :: c :: r) := NW_cons.2 rfl
    refine orAll_win [group pNucleus, pParticle] [] (lit ['0']) _ hnw (lit_cons _ _ _) ?_ (by simp)
    intro q hq
    simp only [List.mem_cons, List.not_mem_nil, or_false] at hq
    rcases hq with rfl | rfl
    · rw [group_none]
      · exact shorter_none _
      · unfold pNucleus
        refine and_none_left (and_none_left (and_none_left (and_none_left ?_)))
        have h0 := pNums_some (s := ['0']) (r := c :: r) (ws := true) ⟨by simp, by simp [isDig]⟩ (fun x hx => not_alnum_dig (hr x hx))
        refine and_nw_none h0 (sep_nw hc) (pDash_ne ?_)
        rcases hc with rfl | rfl | rfl <;> decide
    · rw [pParticle_none]
      · exact shorter_none _
      · intro x hx
        simp [ProdText.text] at hx
        subst hx
        rfl

theorem proj_descr {p : ProdText} (hp : p.wfProj) : p.text ≠ [] ∧ ∀ c ∈ p.text, isDescr c = true := by
  cases p with
  | nuc n => exact nuc_descr hp
  | mult n w => exact hp.elim
  | word w => exact ⟨(particle_alnum hp).1, fun x hx => alnum_descr ((particle_alnum hp).2 x hx)⟩
  | zero => exact ⟨by simp [ProdText.text], by decide⟩

end X4
