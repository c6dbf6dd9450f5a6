import Verif.Spec.ExpressionText
import Verif.Lemmas.GrammarReaction
/-! What the grammar of combinations of reactions does on well-formed texts. -/
namespace X4
open Parser

theorem RestText.text_toList (l : RestText) : l.text = l.toList.flatMap (fun x => x.1 ++ x.2.text) := by
  match l with
  | .nil => rfl
  | .cons op f l => rw [RestText.text, RestText.toList, List.flatMap_cons, ← RestText.text_toList l, List.append_assoc]
theorem RestText.toks_toList (l : RestText) : l.toks = l.toList.flatMap (fun x => .str x.1 :: x.2.toks) := by
  match l with
  | .nil => rfl
  | .cons op f l => rw [RestText.toks, RestText.toList, List.flatMap_cons, ← RestText.toks_toList l, List.cons_append]
theorem RestText.wf_toList {l : RestText} (h : l.wf) : ∀ x ∈ l.toList, x.1 ∈ exprOps ∧ x.2.wf := by
  match l with
  | .nil => intro x hx; simp [RestText.toList] at hx
  | .cons op f l =>
    rw [RestText.wf] at h
    intro x hx
    rw [RestText.toList] at hx
    rcases List.mem_cons.1 hx with rfl | hx
    · exact ⟨h.1, h.2.1⟩
    · exact RestText.wf_toList h.2.2 x hx
theorem RestText.depth_toList (l : RestText) : ∀ x ∈ l.toList, x.2.depth ≤ l.depth := by
  match l with
  | .nil => intro x hx; simp [RestText.toList] at hx
  | .cons op f l =>
    intro x hx
    rw [RestText.toList] at hx
    rw [RestText.depth]
    rcases List.mem_cons.1 hx with rfl | hx
    · exact Nat.le_max_left _ _
    · exact Nat.le_trans (RestText.depth_toList l x hx) (Nat.le_max_right _ _)

/-- all factors begin with an opening parenthesis -/
theorem FactorText.head (f : FactorText) : ∃ s, f.text = '(' :: s := by
  cases f with
  | rx r => exact ⟨_, by rw [FactorText.text, ReactText.text]⟩
  | par f l => exact ⟨_, by rw [FactorText.text]⟩

/-- the end of a combination: no operator follows, not even after white space -/
def ExprEnd (e : Str) : Prop := ∀ c ∈ (skipWs e).head?, c ∉ ['+', '-', '*', '/', '=']

/-- a text whose first character after white space is not one of `bad` -/
def NoOp (bad : List Char) (e : Str) : Prop := ∀ c ∈ (skipWs e).head?, c ∉ bad

theorem lit_parse_noOp {bad : List Char} {e : Str} (h : NoOp bad e) {c : Char} (hc : c ∈ bad) (hw : isWhite c = false) (m : Str) (b : Bool) :
    (lit (c :: m)).parse b e = none := by
  have h1 : (lit (c :: m)).impl (skipWs e) = none := by
    cases hs : skipWs e with
    | nil => exact lit_nil
    | cons d s =>
      refine lit_head_ne ?_
      rintro rfl
      exact h c (by rw [hs]; simp) hc
  have h2 : (lit (c :: m)).impl e = none := by
    cases e with
    | nil => exact lit_nil
    | cons d s =>
      refine lit_head_ne ?_
      rintro rfl
      exact h c (by rw [skipWs_nw (NW_cons.2 hw)]; simp) hc
  unfold parse
  split_ifs
  · exact h1
  · exact h2

theorem skipWs_idem (s : Str) : skipWs (skipWs s) = skipWs s := by
  refine skipWs_nw ?_
  unfold NW skipWs
  intro c hc
  have := List.head?_dropWhile_not isWhite s
  rw [hc] at this
  simpa using this

theorem NoOp.skip {bad : List Char} {e : Str} (h : NoOp bad e) : NoOp bad (skipWs e) := by
  unfold NoOp
  rw [skipWs_idem]
  exact h

theorem altmult_none {e : Str} (h : NoOp ['*', '/', '='] e) : pAltmultop.impl e = none := by
  unfold pAltmultop
  rw [first_second, lit_parse_noOp h (by decide) (by decide)]
  change (first _ _).impl e = none
  rw [first_second, lit_parse_noOp h (by decide) (by decide)]
  change (first _ _).impl e = none
  rw [first_second, lit_parse_noOp h (by decide) (by decide)]
  exact lit_parse_noOp h (by decide) (by decide) _ _

theorem addop_none {e : Str} (h : NoOp ['+', '-'] e) : pAddop.impl e = none := by
  unfold pAddop
  rw [first_second, lit_parse_noOp h (by decide) (by decide)]
  exact lit_parse_noOp h (by decide) (by decide) _ _

theorem and_op_none {p q : Parser} {e : Str} (h1 : p.impl e = none) (h2 : p.impl (skipWs e) = none) :
    (and p q).impl e = none ∧ (and p q).parse true e = none := by
  refine ⟨and_none_left h1, ?_⟩
  unfold parse
  split_ifs
  · exact and_none_left h2
  · exact and_none_left h1

theorem altmult_some {op : Str} (h : op ∈ [['*'], ['/'], ['/', '/'], ['=']]) (s : Str) :
    pAltmultop.impl (op ++ '(' :: s) = some ([.str op], '(' :: s) := by
  simp only [List.mem_cons, List.not_mem_nil, or_false] at h
  unfold pAltmultop
  rcases h with rfl | rfl | rfl | rfl
  all_goals
    simp only [List.cons_append, List.nil_append]
    rw [first_nw (NW_cons.2 rfl), first_nw (NW_cons.2 rfl), first_nw (NW_cons.2 rfl)]
    rfl

theorem addop_some {op : Str} (h : op ∈ [['+'], ['-']]) (s : Str) : pAddop.impl (op ++ s) = some ([.str op], s) := by
  simp only [List.mem_cons, List.not_mem_nil, or_false] at h
  unfold pAddop
  rcases h with rfl | rfl
  all_goals
    simp only [List.cons_append, List.nil_append]
    rw [first_nw (NW_cons.2 rfl)]
    rfl

/-- operators and factors of a product -/
abbrev Muls := List (Str × FactorText)
def mulText (l : Muls) : Str := l.flatMap (fun x => x.1 ++ x.2.text)
def mulToks (l : Muls) : List Tok := l.flatMap (fun x => .str x.1 :: x.2.toks)

theorem op_nw {op : Str} (h : op ∈ exprOps) : op ≠ [] ∧ NW op := by
  simp only [exprOps, List.mem_cons, List.not_mem_nil, or_false] at h
  rcases h with rfl | rfl | rfl | rfl | rfl | rfl <;> exact ⟨by simp, NW_cons.2 rfl⟩

/-- a factor and what it is multiplied with -/
theorem term_some {F : Parser} (f : FactorText) (l : Muls) (e : Str) (hF : ∀ g, g = f ∨ (∃ op, (op, g) ∈ l) → ∀ e, F.impl (g.text ++ e) = some (g.toks, e))
    (hl : ∀ x ∈ l, x.1 ∈ [['*'], ['/'], ['/', '/'], ['=']]) (he : NoOp ['*', '/', '='] e) (hnwe : NW e) :
    (and F (many (and pAltmultop F))).impl (f.text ++ (mulText l ++ e)) = some (f.toks ++ mulToks l, e) := by
  have hop : ∀ x ∈ l, x.1 ∈ exprOps := by
    intro x hx
    have := hl x hx
    simp only [List.mem_cons, List.not_mem_nil, or_false] at this
    rcases this with h | h | h | h <;> rw [h] <;> decide
  have hend := and_op_none (q := F) (altmult_none he) (altmult_none he.skip)
  have hm : (many (and pAltmultop F)).impl (mulText l ++ e) = some (mulToks l, e) := by
    refine many_list _ _ _ l e ?_ hend.1 hend.2 ?_
    · intro x hx h
      have := (op_nw (hop x hx)).1
      simp at h
      exact this h.1
    · intro x m hm
      have hx := hm.subset (List.mem_cons_self ..)
      refine ⟨NW_append (op_nw (hop x hx)).1 (op_nw (hop x hx)).2, ?_⟩
      obtain ⟨s, hs⟩ := x.2.head
      have h1 := altmult_some (hl x hx) (s ++ (m.flatMap (fun x => x.1 ++ x.2.text) ++ e))
      have h2 := hF x.2 (.inr ⟨x.1, hx⟩) (m.flatMap (fun x => x.1 ++ x.2.text) ++ e)
      rw [hs] at h2 ⊢
      rw [List.append_assoc]
      simp only [List.cons_append] at h1 h2 ⊢
      exact and_nw (t := [.str x.1]) h1 (NW_cons.2 rfl) h2
  have hnw : NW (mulText l ++ e) := by
    cases l with
    | nil => exact hnwe
    | cons x l =>
      unfold mulText
      rw [List.flatMap_cons, List.append_assoc, List.append_assoc]
      exact NW_append (op_nw (hop x (by simp))).1 (op_nw (hop x (by simp))).2
  exact and_nw (hF f (.inl rfl) _) hnw hm

/-- a summand: the operator, a factor and what it is multiplied with -/
structure Summand where
  op : Str
  f : FactorText
  muls : Muls
def Summand.text (x : Summand) : Str := x.op ++ (x.f.text ++ mulText x.muls)
def Summand.toks (x : Summand) : List Tok := .str x.op :: (x.f.toks ++ mulToks x.muls)
def Summand.items (x : Summand) : Muls := (x.op, x.f) :: x.muls

/-- every list of operators and factors consists of factors and summands -/
theorem exists_summands (l : Muls) (hl : ∀ x ∈ l, x.1 ∈ exprOps) : ∃ (ms : Muls) (ss : List Summand), l = ms ++ ss.flatMap Summand.items ∧
    (∀ x ∈ ms, x.1 ∈ [['*'], ['/'], ['/', '/'], ['=']]) ∧
    (∀ s ∈ ss, s.op ∈ [['+'], ['-']] ∧ ∀ x ∈ s.muls, x.1 ∈ [['*'], ['/'], ['/', '/'], ['=']]) := by
  induction l with
  | nil => exact ⟨[], [], rfl, by simp, by simp⟩
  | cons x l ih =>
    obtain ⟨ms, ss, e, h1, h2⟩ := ih (fun y hy => hl y (by simp [hy]))
    have hx := hl x (by simp)
    by_cases hm : x.1 ∈ [['*'], ['/'], ['/', '/'], ['=']]
    · refine ⟨x :: ms, ss, by rw [e]; rfl, ?_, h2⟩
      intro y hy
      rcases List.mem_cons.1 hy with rfl | hy
      · exact hm
      · exact h1 y hy
    · refine ⟨[], ⟨x.1, x.2, ms⟩ :: ss, by rw [e, List.flatMap_cons]; rfl, by simp, ?_⟩
      intro s hs
      rcases List.mem_cons.1 hs with rfl | hs
      · refine ⟨?_, h1⟩
        simp only [exprOps, List.mem_cons, List.not_mem_nil, or_false] at hx hm ⊢
        tauto
      · exact h2 s hs

theorem flatMap_flatMap' {α β γ : Type} (l : List α) (f : α → List β) (g : β → List γ) : (l.flatMap f).flatMap g = l.flatMap (fun x => (f x).flatMap g) :=
  List.flatMap_assoc

/-- A sequence of factors connected by operators. -/
theorem sequence_some {F : Parser} (f : FactorText) (l : Muls) (e : Str)
    (hF : ∀ g, g = f ∨ (∃ op, (op, g) ∈ l) → ∀ e, F.impl (g.text ++ e) = some (g.toks, e))
    (hl : ∀ x ∈ l, x.1 ∈ exprOps) (he : NoOp ['+', '-', '*', '/', '='] e) (hnwe : NW e) :
    (and (and F (many (and pAltmultop F))) (many (and pAddop (and F (many (and pAltmultop F)))))).impl (f.text ++ (mulText l ++ e)) =
      some (f.toks ++ mulToks l, e) := by
  obtain ⟨ms, ss, rfl, h1, h2⟩ := exists_summands l hl
  have he1 : NoOp ['*', '/', '='] e := fun c hc h => he c hc (by
    simp only [List.mem_cons, List.not_mem_nil, or_false] at h ⊢
    tauto)
  have he2 : NoOp ['+', '-'] e := fun c hc h => he c hc (by
    simp only [List.mem_cons, List.not_mem_nil, or_false] at h ⊢
    tauto)
  -- after a summand comes the next one or the end
  have hnext : ∀ r : List Summand, (∀ s ∈ r, s.op ∈ [['+'], ['-']]) →
      NoOp ['*', '/', '='] (r.flatMap Summand.text ++ e) ∧ NW (r.flatMap Summand.text ++ e) := by
    intro r hr
    cases r with
    | nil => exact ⟨he1, hnwe⟩
    | cons s r =>
      have := hr s (by simp)
      simp only [List.mem_cons, List.not_mem_nil, or_false] at this
      have hc : ∃ c v, List.flatMap Summand.text (s :: r) ++ e = c :: v ∧ (c = '+' ∨ c = '-') := by
        rcases this with h | h
        · exact ⟨'+', _, by rw [List.flatMap_cons, Summand.text, h]; rfl, .inl rfl⟩
        · exact ⟨'-', _, by rw [List.flatMap_cons, Summand.text, h]; rfl, .inr rfl⟩
      obtain ⟨c, v, e1, hc⟩ := hc
      rw [e1]
      have hnw : NW (c :: v) := by rcases hc with rfl | rfl <;> exact NW_cons.2 rfl
      refine ⟨?_, hnw⟩
      intro d hd
      rw [skipWs_nw hnw] at hd
      simp at hd
      subst hd
      rcases hc with rfl | rfl <;> decide
  have hend := and_op_none (q := and F (many (and pAltmultop F))) (addop_none he2) (addop_none he2.skip)
  have hm : (many (and pAddop (and F (many (and pAltmultop F))))).impl (ss.flatMap Summand.text ++ e) = some (ss.flatMap Summand.toks, e) := by
    refine many_list _ _ _ ss e ?_ hend.1 hend.2 ?_
    · intro s hs h
      obtain ⟨v, hv⟩ := s.f.head
      simp [Summand.text, hv] at h
    · intro s r hr
      have hs := hr.subset (List.mem_cons_self ..)
      obtain ⟨ho, hmu⟩ := h2 s hs
      have hoe : s.op ∈ exprOps := by
        simp only [List.mem_cons, List.not_mem_nil, or_false] at ho
        rcases ho with h | h <;> rw [h] <;> decide
      refine ⟨NW_append (op_nw hoe).1 (op_nw hoe).2, ?_⟩
      obtain ⟨n1, n2⟩ := hnext r (fun x hx => (h2 x (hr.subset (by simp [hx]))).1)
      have ht := term_some (F := F) s.f s.muls (r.flatMap Summand.text ++ e) (by
        intro g hg
        refine hF g (.inr ?_)
        rcases hg with rfl | ⟨op, hop⟩
        · exact ⟨s.op, List.mem_append_right _ (List.mem_flatMap.2 ⟨s, hs, by simp [Summand.items]⟩)⟩
        · exact ⟨op, List.mem_append_right _ (List.mem_flatMap.2 ⟨s, hs, by simp [Summand.items, hop]⟩)⟩) hmu n1 n2
      obtain ⟨v, hv⟩ := s.f.head
      have ha := addop_some ho (s.f.text ++ (mulText s.muls ++ (r.flatMap Summand.text ++ e)))
      unfold Summand.text at *
      rw [List.append_assoc, List.append_assoc]
      refine and_nw (t := [.str s.op]) ha ?_ ht
      rw [hv]
      exact NW_cons.2 rfl
  obtain ⟨n1, n2⟩ := hnext ss (fun x hx => (h2 x hx).1)
  have ht := term_some (F := F) f ms (ss.flatMap Summand.text ++ e) (by
    intro g hg
    refine hF g ?_
    rcases hg with rfl | ⟨op, hop⟩
    · exact .inl rfl
    · exact .inr ⟨op, List.mem_append_left _ hop⟩) h1 n1 n2
  have e1 : mulText (ms ++ ss.flatMap Summand.items) = mulText ms ++ ss.flatMap Summand.text := by
    unfold mulText
    rw [List.flatMap_append, flatMap_flatMap']
    congr 1
    refine List.flatMap_congr fun s _ => ?_
    simp [Summand.items, Summand.text, mulText]
  have e2 : mulToks (ms ++ ss.flatMap Summand.items) = mulToks ms ++ ss.flatMap Summand.toks := by
    unfold mulToks
    rw [List.flatMap_append, flatMap_flatMap']
    congr 1
  rw [e1, e2, List.append_assoc, ← List.append_assoc f.toks]
  exact and_nw ht n2 hm

/-- the grammar of reactions refuses two opening parentheses -/
theorem pReaction_lpar2 (w : Str) (hne : w ≠ []) (hw : ∀ c ∈ w, isDescr c = true) (s : Str) : pReaction.impl ('(' :: '(' :: (w ++ '(' :: s)) = none := by
  have hd : pDescriptor.impl ('(' :: (w ++ '(' :: s)) = none := by
    have := pDescriptor_lpar (c := '(') hne hw (.inl rfl) s
    rwa [if_neg (by decide)] at this
  have hnw : NW ('(' :: (w ++ '(' :: s)) := NW_cons.2 rfl
  have h1 : (or (group pProcess) (many pDescriptor)).impl ('(' :: (w ++ '(' :: s)) = some ([], '(' :: (w ++ '(' :: s)) := by
    rw [or_impl, parse_nw hnw, parse_nw hnw, group_none (pProcess_lpar _), longer_none_left, many_none hd]
  unfold pReaction delimited
  have h2 : (many (and (suppress (lit [','])) (or (group pProcess) (many pDescriptor)))).impl ('(' :: (w ++ '(' :: s)) =
      some ([], '(' :: (w ++ '(' :: s)) := many_none (and_none_left (suppress_none (lit_head_ne (by decide))))
  exact and_nw_none (and_nw (pLpar_cons _) hnw (and_nw h1 hnw h2)) hnw (pRpar_ne (by decide))

theorem pReaction_lpar3 (s : Str) : pReaction.impl ('(' :: '(' :: '(' :: s) = none := by
  have hnw : NW ('(' :: '(' :: s) := NW_cons.2 rfl
  have hd : pDescriptor.impl ('(' :: '(' :: s) = none := by
    unfold pDescriptor
    rw [or_impl, parse_nw hnw, parse_nw hnw, word_none (by intro x hx; simp at hx; subst hx; rfl), longer_none_left]
    refine and_none_left (and_nw_none (pLpar_cons _) (NW_cons.2 rfl) (word_none ?_))
    intro x hx; simp at hx; subst hx; rfl
  have h1 : (or (group pProcess) (many pDescriptor)).impl ('(' :: '(' :: s) = some ([], '(' :: '(' :: s) := by
    rw [or_impl, parse_nw hnw, parse_nw hnw, group_none (pProcess_lpar _), longer_none_left, many_none hd]
  unfold pReaction delimited
  have h2 : (many (and (suppress (lit [','])) (or (group pProcess) (many pDescriptor)))).impl ('(' :: '(' :: s) =
      some ([], '(' :: '(' :: s) := many_none (and_none_left (suppress_none (lit_head_ne (by decide))))
  exact and_nw_none (and_nw (pLpar_cons _) hnw (and_nw h1 hnw h2)) hnw (pRpar_ne (by decide))

/-- a well-formed factor begins like a reaction or with two parentheses -/
theorem factor_start {f : FactorText} (hf : f.wf) (e : Str) :
    (∃ w s : Str, f.text ++ e = '(' :: (w ++ '(' :: s) ∧ w ≠ [] ∧ ∀ c ∈ w, isDescr c = true) ∨ ∃ s, f.text ++ e = '(' :: '(' :: s := by
  cases f with
  | rx r =>
    left
    rw [FactorText.wf] at hf
    have ht := targ_descr targVars_shape hf.1.1
    obtain ⟨s, hs⟩ : ∃ s, r.text ++ e = '(' :: (r.proc.targ.text ++ '(' :: s) := by
      simp only [ReactText.text, ProcText.text, List.append_assoc, List.cons_append]
      exact ⟨_, rfl⟩
    exact ⟨r.proc.targ.text, s, by rw [FactorText.text]; exact hs, ht.1, ht.2⟩
  | par g l =>
    right
    obtain ⟨s, hs⟩ := g.head
    exact ⟨_, by rw [FactorText.text, hs]; rfl⟩

/-- a combination in parentheses is no reaction -/
theorem pReaction_par {f : FactorText} (hf : f.wf) (e : Str) : pReaction.impl ('(' :: (f.text ++ e)) = none := by
  rcases factor_start hf e with ⟨w, s, h, h1, h2⟩ | ⟨s, h⟩
  · have := pReaction_lpar2 w h1 h2 s
    rw [h]
    exact this
  · rw [h]
    exact pReaction_lpar3 s

/-- the parser of factors -/
def pFactor (n : Nat) : Parser := first (group pReaction) (and (and (lit ['(']) (pExpression n)) (lit [')']))

theorem pExpression_succ (n : Nat) : pExpression (n + 1) =
    forward (and (and (pFactor n) (many (and pAltmultop (pFactor n)))) (many (and pAddop (and (pFactor n) (many (and pAltmultop (pFactor n))))))) := rfl

/-- Factors are read as what they are written from. -/
theorem pFactor_some (n : Nat) : ∀ (f : FactorText), f.wf → f.depth ≤ n → ∀ e, (pFactor n).impl (f.text ++ e) = some (f.toks, e) := by
  induction n with
  | zero =>
    intro f hf hd e
    cases f with
    | rx r =>
      rw [FactorText.wf] at hf
      rw [FactorText.text, FactorText.toks]
      unfold pFactor
      refine first_some ?_
      rw [parse_nw (by rw [ReactText.text]; exact NW_cons.2 rfl)]
      exact group_some (pReaction_some hf e)
    | par f l => rw [FactorText.depth] at hd; omega
  | succ n ih =>
    intro f hf hd e
    cases f with
    | rx r =>
      rw [FactorText.wf] at hf
      rw [FactorText.text, FactorText.toks]
      unfold pFactor
      refine first_some ?_
      rw [parse_nw (by rw [ReactText.text]; exact NW_cons.2 rfl)]
      exact group_some (pReaction_some hf e)
    | par f l =>
      rw [FactorText.wf] at hf
      rw [FactorText.depth] at hd
      have hnw : NW ((FactorText.par f l).text ++ e) := by rw [FactorText.text]; exact NW_cons.2 rfl
      have e1 : (FactorText.par f l).text ++ e = '(' :: (f.text ++ (mulText l.toList ++ ')' :: e)) := by
        rw [FactorText.text, RestText.text_toList]
        simp [mulText, List.append_assoc]
      unfold pFactor
      rw [first_nw hnw, e1, group_none (pReaction_par hf.1 _), Option.none_or, FactorText.toks, RestText.toks_toList]
      have hs : (pExpression (n + 1)).impl (f.text ++ (mulText l.toList ++ ')' :: e)) = some (f.toks ++ mulToks l.toList, ')' :: e) := by
        rw [pExpression_succ]
        unfold forward
        simp only [parse_false]
        refine sequence_some f l.toList (')' :: e) ?_ (fun x hx => (RestText.wf_toList hf.2 x hx).1) ?_ (NW_cons.2 rfl)
        · intro g hg e'
          rcases hg with rfl | ⟨op, hop⟩
          · exact ih g hf.1 (by omega) e'
          · refine ih g (RestText.wf_toList hf.2 _ hop).2 ?_ e'
            have := RestText.depth_toList l _ hop
            simp only at this
            omega
        · intro c hc
          rw [skipWs_nw (NW_cons.2 rfl)] at hc
          simp at hc
          subst hc
          decide
      have hnwf : NW (f.text ++ (mulText l.toList ++ ')' :: e)) := by
        obtain ⟨s, hs⟩ := f.head
        rw [hs]; exact NW_cons.2 rfl
      have := and_nw (and_nw (lit_cons '(' _ true) hnwf hs) (NW_cons.2 rfl) (lit_cons ')' e true)
      rw [this]
      simp [mulToks]

/-- The whole text of a combination: white space after it is skipped. -/
theorem pExpression_factor (n : Nat) (f : FactorText) (hf : f.wf) (hd : f.depth ≤ n) (e : Str) (he : NoOp ['+', '-', '*', '/', '='] e) :
    (pExpression (n + 1)).impl (f.text ++ e) = some (f.toks, skipWs e) := by
  have he1 : NoOp ['*', '/', '='] e := fun c hc h => he c hc (by
    simp only [List.mem_cons, List.not_mem_nil, or_false] at h ⊢
    tauto)
  have he2 : NoOp ['+', '-'] (skipWs e) := fun c hc h => he.skip c hc (by
    simp only [List.mem_cons, List.not_mem_nil, or_false] at h ⊢
    tauto)
  rw [pExpression_succ]
  unfold forward
  simp only [parse_false]
  have h1 : (many (and pAltmultop (pFactor n))).parse true e = some ([], skipWs e) :=
    many_none (and_none_left (altmult_none he1.skip))
  have h2 : (many (and pAddop (and (pFactor n) (many (and pAltmultop (pFactor n)))))).parse true (skipWs e) = some ([], skipWs e) := by
    have : (many (and pAddop (and (pFactor n) (many (and pAltmultop (pFactor n)))))).impl (skipWs (skipWs e)) = some ([], skipWs e) := by
      rw [skipWs_idem]
      exact many_none (and_none_left (addop_none he2))
    exact this
  have := and_some (and_some (pFactor_some n f hf hd e) h1) h2
  rw [this]
  simp

mutual
theorem FactorText.depth_le (f : FactorText) : f.depth ≤ f.text.length := by
  cases f with
  | rx r => rw [FactorText.depth]; exact Nat.zero_le _
  | par f l =>
    have h1 := FactorText.depth_le f
    have h2 := RestText.depth_le l
    rw [FactorText.depth, FactorText.text]
    simp only [List.length_cons, List.length_append]
    omega
theorem RestText.depth_le (l : RestText) : l.depth ≤ l.text.length := by
  cases l with
  | nil => rw [RestText.depth]; exact Nat.zero_le _
  | cons op f l =>
    have h1 := FactorText.depth_le f
    have h2 := RestText.depth_le l
    rw [RestText.depth, RestText.text]
    simp only [List.length_append]
    omega
end

end X4
