import Verif.Spec.Isomers
import Verif.Props.ReactionText
import Verif.Lemmas.Number
/-! Isomeric states and isomer arithmetic within combinations (C55, C79–C81). -/
namespace X4
open Parser

/-! ### C79: the states of a nucleus -/

theorem setParticleType_iso (n : NucText) (hm : n.mods ≠ []) :
    setParticleType (.grp n.toks) = isomerOfToks n.Z n.sym n.A (modStrs n.mods) := by
  rw [nucToks_eq]
  cases hs : modStrs n.mods with
  | nil =>
    cases hmm : n.mods with
    | nil => exact absurd hmm hm
    | cons m l => rw [hmm] at hs; simp [modStrs] at hs
  | cons a l =>
    simp only [setParticleType, strToks_map, List.cons_append, List.nil_append]

theorem digits_not_letter {d : Str} (hd : ∀ c ∈ d, isDig c = true) {c : Char} (hc : isDig c = false) : d ≠ [c] := by
  rintro rfl
  rw [hd c (by simp)] at hc
  cases hc

theorem lower_digits_ne {d : Str} (hd : ∀ c ∈ d, isDig c = true) {c : Char} (hc : isDig c = false) (hp : c ≠ '.') : lower d ≠ [c] := by
  refine lower_head_ne ?_ ⟨c, [], rfl, hc, hp⟩
  intro x hx
  exact Or.inl (hd x (by cases d with | nil => cases hx | cons y l => simp at hx; simp [hx]))

/-- C79: the object made from a nucleus with a single state `-G`, `-M`, `-M2`, ..., `-T` lists this state. -/
theorem C79_states (n : NucText) (hn : n.wf) (m : IsoMod) (hm : n.mods = [m]) (hl : m.letter ∈ ['G', 'M', 'T'])
    (hd : m.letter ≠ 'M' → m.digits = []) :
    setParticleType (.grp n.toks) = .ok (.isomer n.Z (capitalize n.sym) n.A m.levels) := by
  rw [setParticleType_iso n (by simp [hm]), hm]
  have hdig := (hn.2.2.2 m (by rw [hm]; simp)).2.2
  unfold isomerOfToks
  obtain ⟨op, c, d⟩ := m
  simp only at hl hd hdig
  simp only [List.mem_cons, List.not_mem_nil, or_false] at hl
  rcases hl with rfl | rfl | rfl
  · rw [hd (by decide)]; rfl
  · by_cases h0 : d = []
    · rw [h0]; rfl
    · have e : (modStrs [⟨op, 'M', d⟩]).drop 1 = [['M'], d] := by simp [modStrs, h0]
      rw [e]
      have a1 := digits_not_letter hdig (c := 'M') (by decide)
      have a2 := digits_not_letter hdig (c := 'G') (by decide)
      have a3 := digits_not_letter hdig (c := 'T') (by decide)
      have h1 : isIsomerMath [['M'], d] = false := by
        simp [isIsomerMath, a1, Ne.symm a2, Ne.symm a3]
      rw [h1]
      have h2 : isomerList [['M'], d] = [d] := by
        have b1 : lower d ≠ ['g'] := lower_digits_ne hdig (by decide) (by decide)
        have b2 : lower d ≠ ['m'] := lower_digits_ne hdig (by decide) (by decide)
        have b3 : lower ['M'] = ['m'] := by decide
        simp [isomerList, isomerItem, b1, b2, b3, isDigitStr_digitText ⟨h0, hdig⟩]
      rw [h2]
      simp [IsoMod.levels, h0]
  · rw [hd (by decide)]; rfl

/-- C79_states applies to the second isomer of hafnium 178. -/
example : setParticleType (.grp (NucText.toks ⟨chars!"72", chars!"HF", chars!"178", [⟨'-', 'M', ['2']⟩]⟩)) =
    .ok (.isomer chars!"72" chars!"Hf" chars!"178" [['2']]) :=
  C79_states ⟨chars!"72", chars!"HF", chars!"178", [⟨'-', 'M', ['2']⟩]⟩ ⟨⟨by decide, by decide⟩, ⟨'H', ['F'], rfl, by decide, by decide, by decide⟩, ⟨by decide, by decide⟩, by
    intro m hm; rw [List.mem_singleton.1 hm]; exact ⟨by decide, by decide, by decide⟩⟩ ⟨'-', 'M', ['2']⟩ rfl (by decide) (by decide)

theorem count_modStrs {c : Char} (hc : c ∈ ['G', 'M', 'T']) (l : List IsoMod) (hl : ∀ m ∈ l, m.wf) :
    (modStrs l).count [c] = (l.filter (fun m => m.letter == c)).length := by
  have hcd : isDig c = false ∧ c ∉ ['+', '-', '*', '/'] := by
    simp only [List.mem_cons, List.not_mem_nil, or_false] at hc
    rcases hc with rfl | rfl | rfl <;> decide
  induction l with
  | nil => rfl
  | cons m l ih =>
    obtain ⟨h1, -, h3⟩ := hl m (by simp)
    have e : modStrs (m :: l) = [m.op] :: [m.letter] :: ((if m.digits = [] then [] else [m.digits]) ++ modStrs l) := by simp [modStrs]
    have ho : ([m.op] : Str) ≠ [c] := by intro h; cases h; exact hcd.2 h1
    have hdg : (if m.digits = [] then [] else [m.digits]).count [c] = 0 := by
      split
      · rfl
      · have := digits_not_letter h3 hcd.1
        simp [this]
    rw [e, List.count_cons_of_ne ho, List.count_cons, List.count_append, hdg, ih (fun x hx => hl x (by simp [hx]))]
    by_cases hm : m.letter = c <;> simp [hm]

/-- C79: two or more states, one of them an isomer, are arithmetic and never read as one residual. -/
theorem C79_math (n : NucText) (hn : n.wf) (hl : ∀ m ∈ n.mods, m.letter ∈ ['G', 'M', 'T']) (h2 : 2 ≤ n.mods.length)
    (hM : ∃ m ∈ n.mods, m.letter = 'M') : setParticleType (.grp n.toks) = .error .isomerMathParsingError := by
  rw [setParticleType_iso n (by rintro h; rw [h] at h2; simp at h2)]
  have hwf := hn.2.2.2
  generalize hms : n.mods = ms at *
  have key : isIsomerMath ((modStrs ms).drop 1) = true := by
    have hcount : ∀ c ∈ ['G', 'M', 'T'], ((modStrs ms).drop 1).count [c] = (ms.filter (fun m => m.letter == c)).length := by
      intro c hc
      rw [← count_modStrs hc ms hwf]
      cases ms with
      | nil => simp at h2
      | cons m l =>
        have ho : ([m.op] : Str) ≠ [c] := by
          intro h; cases h
          have h1 := (hwf m (by simp)).1
          simp only [List.mem_cons, List.not_mem_nil, or_false] at h1 hc
          rcases hc with h | h | h <;> rw [h] at h1 <;> revert h1 <;> decide
        have e : modStrs (m :: l) = [m.op] :: [m.letter] :: ((if m.digits = [] then [] else [m.digits]) ++ modStrs l) := by simp [modStrs]
        rw [e, List.count_cons_of_ne ho]
        rfl
    have hmem : ∀ c ∈ ['G', 'M', 'T'], (((modStrs ms).drop 1).contains [c] = true ↔ ∃ m ∈ ms, m.letter = c) := by
      intro c hc
      rw [List.contains_iff_mem, ← List.count_pos_iff, hcount c hc, List.length_pos_iff_exists_mem]
      simp
    unfold isIsomerMath
    by_cases hgt : ∃ m ∈ ms, m.letter = 'G' ∨ m.letter = 'T'
    · have hm := (hmem 'M' (by decide)).2 hM
      have : ((modStrs ms).drop 1).contains ['G'] = true ∨ ((modStrs ms).drop 1).contains ['T'] = true := by
        obtain ⟨m, hm, h | h⟩ := hgt
        · exact Or.inl ((hmem 'G' (by decide)).2 ⟨m, hm, h⟩)
        · exact Or.inr ((hmem 'T' (by decide)).2 ⟨m, hm, h⟩)
      rcases this with h | h <;> simp only [h, hm, Bool.true_or, Bool.or_true, Bool.and_self]
    · have hall : ∀ m ∈ ms, m.letter = 'M' := by
        intro m hm
        have := hl m hm
        simp only [List.mem_cons, List.not_mem_nil, or_false] at this
        rcases this with h | h | h
        · exact absurd ⟨m, hm, Or.inl h⟩ hgt
        · exact h
        · exact absurd ⟨m, hm, Or.inr h⟩ hgt
      have : (ms.filter (fun m => m.letter == 'M')) = ms := by
        rw [List.filter_eq_self]; intro m hm; simp [hall m hm]
      have h3 := hcount 'M' (by decide)
      rw [this] at h3
      simp only [h3, Bool.or_eq_true, decide_eq_true_eq]
      exact Or.inr (by omega)
  unfold isomerOfToks
  rw [if_pos key]

/-- C79_math applies to the sum of two isomers. -/
example : setParticleType (.grp (NucText.toks ⟨chars!"72", chars!"HF", chars!"178", [⟨'-', 'M', ['1']⟩, ⟨'+', 'M', ['2']⟩]⟩)) =
    .error .isomerMathParsingError :=
  C79_math _ ⟨⟨by decide, by decide⟩, ⟨'H', ['F'], rfl, by decide, by decide, by decide⟩, ⟨by decide, by decide⟩, by
    intro m hm
    simp only [List.mem_cons, List.not_mem_nil, or_false] at hm
    rcases hm with rfl | rfl <;> exact ⟨by decide, by decide, by decide⟩⟩ (by decide) (by decide) ⟨_, List.mem_cons_self, rfl⟩

/-- C79 fails for a ratio without an isomer: `-G/T` is taken as one residual with the states 0 and 1, the operator
being counted as a state. -/
theorem C79_ratio_refuted (n : NucText) (hm : n.mods = [⟨'-', 'G', []⟩, ⟨'/', 'T', []⟩]) :
    setParticleType (.grp n.toks) = .ok (.isomer n.Z (capitalize n.sym) n.A [['0'], ['1']]) := by
  rw [setParticleType_iso n (by simp [hm]), hm]
  rfl

/-! ### C55: isomer arithmetic within combinations -/

theorem unfold_reads {names : Dict Str (List Str)} {x : ReactText} {n : NucText} {m : IsoMod} {ms : List IsoMod} {rd : ReactText → Reaction}
    (hrd : ∀ k ∈ m :: ms, reactionOfStr names (x.withIsomer n k).text = .ok (rd (x.withIsomer n k))) :
    ∀ y ∈ (unfoldIsomers x n m ms).reacts, reactionOfStr names y.text = .ok (rd y) := by
  have hrest : ∀ l : List IsoMod, (∀ k ∈ l, k ∈ m :: ms) → ∀ y ∈ (isomerRest x n l).reacts, reactionOfStr names y.text = .ok (rd y) := by
    intro l hl
    induction l with
    | nil => rw [isomerRest, RestText.reacts]; intro y hy; cases hy
    | cons k l ih =>
      rw [isomerRest, RestText.reacts, FactorText.reacts]
      intro y hy
      rcases List.mem_append.1 hy with hy | hy
      · rw [List.mem_singleton.1 hy]; exact hrd k (hl k (by simp))
      · exact ih (fun z hz => hl z (by simp [hz])) y hy
  rw [unfoldIsomers, FactorText.reacts, FactorText.reacts]
  intro y hy
  rcases List.mem_append.1 hy with hy | hy
  · rw [List.mem_singleton.1 hy]; exact hrd m (by simp)
  · exact hrest ms (fun k hk => by simp [hk]) y hy

/-- What a reaction in a combination stands for: itself, or the combination of the single isomers. -/
inductive Stands (names : Dict Str (List Str)) (x : ReactText) : Datum → Prop
  | rx {R : Reaction} (h : reactionOfStr names x.text = .ok R) : Stands names x (.rx R)
  | iso {n : NucText} {m : IsoMod} {ms : List IsoMod} {q : Str} {rd : ReactText → Reaction} (h : Repackable x n m ms q)
      (hiso : reactionOfStr names x.text = .error .isomerMathParsingError)
      (hrd : ∀ k ∈ m :: ms, reactionOfStr names (x.withIsomer n k).text = .ok (rd (x.withIsomer n k))) :
      Stands names x (.iso ((unfoldIsomers x n m ms).data rd))

theorem datumOf_stands {names : Dict Str (List Str)} {x : ReactText} {d : Datum} (hx : x.wf) (h : Stands names x d) (k : Nat) :
    datumOf names (combination names (k + 1)) (.grp x.toks) = .ok d := by
  cases h with
  | rx h =>
    rw [reactionOfStr_toks names x hx] at h
    simp only [datumOf, rxOrIso, h]
  | @iso n m ms q rd h hiso hrd =>
    rw [reactionOfStr_toks names x hx] at hiso
    have hu := unfoldIsomers_wf h
    have hc : combination names (k + 1) (unfoldIsomers x n m ms).toks = .ok ((unfoldIsomers x n m ms).data rd) := by
      unfold combination
      exact mapE_factor names _ rd _ hu (unfold_reads hrd)
    have hrep : repack x.toks = .ok (unfoldIsomers x n m ms).text :=
       C55_partial x n m ms q h
    simp only [datumOf, rxOrIso, hiso, isoWith, hrep, parseExpression_text _ hu, hc]

mutual
theorem mapE_factor_stands (names : Dict Str (List Str)) (k : Nat) (rd : ReactText → Datum) (f : FactorText) (hf : f.wf)
    (hrd : ∀ x ∈ f.reacts, Stands names x (rd x)) : mapE (datumOf names (combination names (k + 1))) f.toks = .ok (f.dataOf rd) := by
  cases f with
  | rx r =>
    rw [FactorText.wf] at hf
    have h := datumOf_stands hf (hrd r (by simp [FactorText.reacts])) k
    rw [FactorText.toks, FactorText.dataOf]
    simp only [mapE, h]
  | par f l =>
    rw [FactorText.wf] at hf
    rw [FactorText.reacts] at hrd
    have h1 := mapE_factor_stands names k rd f hf.1 (fun x hx => hrd x (by simp [hx]))
    have h2 := mapE_rest_stands names k rd l hf.2 (fun x hx => hrd x (by simp [hx]))
    have hl : mapE (datumOf names (combination names (k + 1))) [.str ['(']] = .ok [.op ['(']] := by
      simp only [mapE, datumOf_op names _ (op := ['(']) (by decide)]
    have hr : mapE (datumOf names (combination names (k + 1))) [.str [')']] = .ok [.op [')']] := by
      simp only [mapE, datumOf_op names _ (op := [')']) (by decide)]
    rw [FactorText.toks, FactorText.dataOf]
    exact mapE_append_ok hl (mapE_append_ok h1 (mapE_append_ok h2 hr))
theorem mapE_rest_stands (names : Dict Str (List Str)) (k : Nat) (rd : ReactText → Datum) (l : RestText) (hl : l.wf)
    (hrd : ∀ x ∈ l.reacts, Stands names x (rd x)) : mapE (datumOf names (combination names (k + 1))) l.toks = .ok (l.dataOf rd) := by
  cases l with
  | nil => rw [RestText.toks, RestText.dataOf]; rfl
  | cons op f l =>
    rw [RestText.wf] at hl
    rw [RestText.reacts] at hrd
    have h1 := mapE_factor_stands names k rd f hl.2.1 (fun x hx => hrd x (by simp [hx]))
    have h2 := mapE_rest_stands names k rd l hl.2.2 (fun x hx => hrd x (by simp [hx]))
    have hop : op ∈ combOps := by
      have := hl.1
      simp only [exprOps, List.mem_cons, List.not_mem_nil, or_false] at this
      rcases this with h | h | h | h | h | h <;> rw [h] <;> decide
    have ho : mapE (datumOf names (combination names (k + 1))) [.str op] = .ok [.op op] := by
      simp only [mapE, datumOf_op names _ hop]
    rw [RestText.toks, RestText.dataOf]
    exact mapE_append_ok ho (mapE_append_ok h1 h2)
end

/-- C55 (partial): isomer arithmetic inside a combination is unfolded in its place. -/
theorem C55_nested_partial (names : Dict Str (List Str)) (f : FactorText) (l : RestText) (hf : (FactorText.par f l).wf) (free : Str)
    (ht : '\t' ∉ free) (hop : NoOp ['+', '-', '*', '/', '='] free) (rd : ReactText → Datum)
    (hrd : ∀ x ∈ (FactorText.par f l).reacts, Stands names x (rd x)) :
    reactionFieldText names ((FactorText.par f l).text ++ free) = .ok (.comb ((FactorText.par f l).dataOf rd), freeLine free) := by
  have hp := C65_parse _ hf free ht hop
  have hm : getMeasurementType names (FactorText.par f l).toks = .ok (.comb ((FactorText.par f l).dataOf rd)) := by
    have hc : combination names maxDepth (FactorText.par f l).toks = .ok ((FactorText.par f l).dataOf rd) := by
      show mapE (datumOf names (combination names (98 + 1))) _ = _
      exact mapE_factor_stands names 98 rd _ hf hrd
    unfold getMeasurementType measurementTry
    rw [if_pos (toks_any_op f l), hc]
  unfold reactionFieldText
  rw [hp]
  simp only [List.dropLast_concat, hm, List.getLast?_concat]

/-! ### C80: the reactions of a combination -/

theorem reactionList_append (a b : List Datum) : reactionList (a ++ b) = reactionList a ++ reactionList b := by
  induction a with
  | nil => simp [reactionList]
  | cons d a ih => rw [List.cons_append, reactionList, reactionList, ih, List.append_assoc]

mutual
theorem reactionList_factor (rd : ReactText → Datum) (f : FactorText) :
    reactionList (f.dataOf rd) = f.reacts.flatMap (fun x => (rd x).reactions) := by
  cases f with
  | rx r => simp [FactorText.dataOf, FactorText.reacts, reactionList]
  | par f l =>
    rw [FactorText.dataOf, FactorText.reacts, reactionList, reactionList_append, reactionList_append, reactionList_factor rd f,
      reactionList_rest rd l, List.flatMap_append]
    simp [reactionList, Datum.reactions]
theorem reactionList_rest (rd : ReactText → Datum) (l : RestText) :
    reactionList (l.dataOf rd) = l.reacts.flatMap (fun x => (rd x).reactions) := by
  cases l with
  | nil => simp [RestText.dataOf, RestText.reacts, reactionList]
  | cons op f l =>
    rw [RestText.dataOf, RestText.reacts, reactionList, reactionList_append, reactionList_factor rd f, reactionList_rest rd l,
      List.flatMap_append]
    simp [Datum.reactions]
end

mutual
theorem dataOf_rx (rd : ReactText → Reaction) (f : FactorText) : f.dataOf (fun x => .rx (rd x)) = f.data rd := by
  cases f with
  | rx r => rw [FactorText.dataOf, FactorText.data]
  | par f l => rw [FactorText.dataOf, FactorText.data, dataOf_rx rd f, dataOf_rx_rest rd l]
theorem dataOf_rx_rest (rd : ReactText → Reaction) (l : RestText) : l.dataOf (fun x => .rx (rd x)) = l.data rd := by
  cases l with
  | nil => rw [RestText.dataOf, RestText.data]
  | cons op f l => rw [RestText.dataOf, RestText.data, dataOf_rx rd f, dataOf_rx_rest rd l]
end

theorem unfold_reactions (x : ReactText) (n : NucText) (m : IsoMod) (ms : List IsoMod) (rd : ReactText → Reaction) :
    (Datum.iso ((unfoldIsomers x n m ms).data rd)).reactions = (m :: ms).map (fun k => rd (x.withIsomer n k)) := by
  have hr : ∀ l, (isomerRest x n l).reacts = l.map (x.withIsomer n) := by
    intro l
    induction l with
    | nil => rw [isomerRest, RestText.reacts]; rfl
    | cons k l ih => rw [isomerRest, RestText.reacts, FactorText.reacts, ih]; rfl
  rw [Datum.reactions, ← dataOf_rx, reactionList_factor, unfoldIsomers, FactorText.reacts, FactorText.reacts, hr]
  simp only [List.cons_append, List.nil_append, List.flatMap_cons, Datum.reactions, List.map_cons, List.flatMap_map]
  rw [List.map_eq_flatMap]

/-- C80: `getReactionList` of a combination lists every reaction of the text in order, a reaction with isomer arithmetic
being replaced by the reactions for the single isomers. -/
theorem C80_all (f : FactorText) (rd : ReactText → Datum) (single : ReactText → List Reaction)
    (hrx : ∀ x ∈ f.reacts, (∃ R, rd x = .rx R ∧ single x = [R]) ∨
      ∃ n m ms rr, rd x = .iso ((unfoldIsomers x n m ms).data rr) ∧ single x = (m :: ms).map (fun k => rr (x.withIsomer n k))) :
    reactionList (f.dataOf rd) = f.reacts.flatMap single := by
  rw [reactionList_factor]
  refine List.flatMap_congr fun x hx => ?_
  rcases hrx x hx with ⟨R, h1, h2⟩ | ⟨n, m, ms, rr, h1, h2⟩
  · rw [h1, h2]; rfl
  · rw [h1, h2, unfold_reactions]

/-- C80_all applies to two plain reactions. -/
example (R : Reaction) (x y : ReactText) :
    reactionList ((FactorText.par (.rx x) (.cons ['+'] (.rx y) .nil)).dataOf (fun _ => .rx R)) = [R, R] := by
  rw [C80_all _ _ (fun _ => [R]) (fun x hx => Or.inl ⟨R, rfl, rfl⟩)]
  simp [FactorText.reacts, RestText.reacts]

/-- C80: a combination has a quantity exactly if one of its reactions has it. -/
theorem C80_quantity (data : List Datum) (i : Str) (hne : reactionList data ≠ []) :
    combHasQuantity data i = .ok true ↔ ∃ R ∈ reactionList data, Tok.str i ∈ R.quantity := by
  unfold combHasQuantity
  have hq : ∀ R : Reaction, R.hasQuantity i = true ↔ Tok.str i ∈ R.quantity := by
    intro R
    unfold Reaction.hasQuantity
    rw [List.any_eq_true]
    constructor
    · rintro ⟨t, ht, h⟩
      cases t with
      | str s => simp only [beq_iff_eq] at h; rw [← h]; exact ht
      | grp l => cases h
    · intro h
      exact ⟨_, h, by simp⟩
  cases h : reactionList data with
  | nil => exact absurd h hne
  | cons R l =>
    simp only [Except.ok.injEq, List.any_eq_true, hq]

/-- C80_quantity applies: the quantity of the second reaction counts. -/
example (p : Process) : combHasQuantity [.rx ⟨p, [.str chars!"SIG"]⟩, .op ['/'], .rx ⟨p, [.str chars!"DA"]⟩] chars!"DA" = .ok true :=
  (C80_quantity _ _ (by simp [reactionList, Datum.reactions])).2 ⟨⟨p, [.str chars!"DA"]⟩, by simp [reactionList, Datum.reactions], by simp⟩

/-- `((95-AM-241(N,G)95-AM-242-M/G,,SIG)//(95-AM-241(N,G)95-AM-242-M,,SIG))` -/
def nestedText : FactorText := .par (.rx isomerReaction) (.cons ['/', '/'] (.rx exampleReaction) .nil)

theorem nestedText_wf : nestedText.wf := by
  simp only [nestedText, FactorText.wf, RestText.wf]
  exact ⟨isomerReaction_repackable.wf, by decide, exampleReaction_wf, trivial⟩

theorem ok_of_isOk {ε α} {e : Except ε α} (h : e.isOk = true) : ∃ a, e = .ok a := by
  cases e with
  | error e => simp [Except.isOk, Except.toBool] at h
  | ok a => exact ⟨a, rfl⟩

set_option maxRecDepth 20000 in
theorem nestedText_stands : ∃ rd : ReactText → Datum, (∀ x ∈ nestedText.reacts, Stands [] x (rd x)) ∧
    (∃ R, rd exampleReaction = .rx R) ∧ ∃ d, rd isomerReaction = .iso d := by
  obtain ⟨R, hR⟩ := ok_of_isOk (e := reactionOfStr [] exampleReaction.text) (by decide +kernel)
  obtain ⟨S, hS⟩ := ok_of_isOk (e := reactionOfStr [] (isomerReaction.withIsomer ⟨chars!"95", chars!"AM", chars!"242", [⟨'-', 'M', []⟩, ⟨'/', 'G', []⟩]⟩ ⟨'-', 'M', []⟩).text) (by decide +kernel)
  obtain ⟨T, hT⟩ := ok_of_isOk (e := reactionOfStr [] (isomerReaction.withIsomer ⟨chars!"95", chars!"AM", chars!"242", [⟨'-', 'M', []⟩, ⟨'/', 'G', []⟩]⟩ ⟨'/', 'G', []⟩).text) (by decide +kernel)
  have hi : reactionOfStr [] isomerReaction.text = .error .isomerMathParsingError := by
    have : (match reactionOfStr [] isomerReaction.text with | .error .isomerMathParsingError => true | _ => false) = true := by decide +kernel
    revert this
    cases reactionOfStr [] isomerReaction.text with
    | ok a => intro h; cases h
    | error e => cases e <;> intro h <;> first | rfl | cases h
  have hne : exampleReaction ≠ isomerReaction := by decide
  classical
  let rr : ReactText → Reaction := fun y => if y = isomerReaction.withIsomer ⟨chars!"95", chars!"AM", chars!"242", [⟨'-', 'M', []⟩, ⟨'/', 'G', []⟩]⟩ ⟨'-', 'M', []⟩ then S else T
  have hst := Stands.iso (names := []) (rd := rr) isomerReaction_repackable hi (by
    intro k hk
    simp only [List.mem_cons, List.not_mem_nil, or_false] at hk
    rcases hk with rfl | rfl
    · rw [hS]; simp [rr]
    · rw [hT]; simp only [rr]; rw [if_neg (by decide)])
  refine ⟨fun y => if y = exampleReaction then .rx R else .iso ((unfoldIsomers isomerReaction ⟨chars!"95", chars!"AM", chars!"242", [⟨'-', 'M', []⟩, ⟨'/', 'G', []⟩]⟩
    ⟨'-', 'M', []⟩ [⟨'/', 'G', []⟩]).data rr), ?_, ⟨R, if_pos rfl⟩, _, if_neg (Ne.symm hne)⟩
  simp only [nestedText, FactorText.reacts, RestText.reacts]
  intro x hx
  simp only [List.cons_append, List.nil_append, List.append_nil, List.mem_cons, List.not_mem_nil, or_false] at hx
  rcases hx with rfl | rfl
  · rw [if_neg (Ne.symm hne)]; exact hst
  · rw [if_pos rfl]; exact .rx hR

/-- C55_nested_partial applies, and the first reaction is an isomer combination. -/
example : ∃ d R, reactionFieldText [] (nestedText.text ++ []) = .ok (.comb [.op ['('], .iso d, .op ['/', '/'], .rx R, .op [')']], []) := by
  obtain ⟨rd, h, ⟨R, hR⟩, d, hd⟩ := nestedText_stands
  refine ⟨d, R, ?_⟩
  have := C55_nested_partial [] (.rx isomerReaction) (.cons ['/', '/'] (.rx exampleReaction) .nil) nestedText_wf [] (by decide) (by intro c hc; cases hc) rd h
  rw [show nestedText = .par (.rx isomerReaction) (.cons ['/', '/'] (.rx exampleReaction) .nil) from rfl, this]
  simp only [FactorText.dataOf, RestText.dataOf, hR, hd]
  rfl

theorem listed_append (a b : List Datum) :
    Measurement.reactionList (.comb (a ++ b)) = Measurement.reactionList (.comb a) ++ Measurement.reactionList (.comb b) := by
  simp only [Measurement.reactionList, List.filterMap_append]
theorem listed_op (s : Str) (b : List Datum) : Measurement.reactionList (.comb (.op s :: b)) = Measurement.reactionList (.comb b) := rfl

mutual
theorem listed_factor (rd : ReactText → Datum) (f : FactorText) :
    Measurement.reactionList (.comb (f.dataOf rd)) = f.reacts.flatMap (fun x => match rd x with | .rx R => [R] | _ => []) := by
  cases f with
  | rx r =>
    rw [FactorText.dataOf, FactorText.reacts, List.flatMap_singleton]
    cases h : rd r <;> rfl
  | par f l =>
    rw [FactorText.dataOf, FactorText.reacts, listed_op, listed_append, listed_append, listed_factor rd f, listed_rest rd l, List.flatMap_append]
    simp [Measurement.reactionList]
theorem listed_rest (rd : ReactText → Datum) (l : RestText) :
    Measurement.reactionList (.comb (l.dataOf rd)) = l.reacts.flatMap (fun x => match rd x with | .rx R => [R] | _ => []) := by
  cases l with
  | nil => rw [RestText.dataOf, RestText.reacts]; rfl
  | cons op f l =>
    rw [RestText.dataOf, RestText.reacts, listed_op, listed_append, listed_factor rd f, listed_rest rd l, List.flatMap_append]
end

/-- C80 (partial): the list of reactions of the field (`getX4ReactionList`) has the plain reactions of the combination in order. -/
theorem C80_listed_partial (rd : ReactText → Datum) (f : FactorText) :
    Measurement.reactionList (.comb (f.dataOf rd)) = f.reacts.flatMap (fun x => match rd x with | .rx R => [R] | _ => []) :=
  listed_factor rd f

/-- C80 fails for the field: reactions with isomer arithmetic inside a combination are missing from its list of
reactions, although the combination itself lists them. -/
theorem C80_listed_refuted : ∃ data free R, reactionFieldText [] (nestedText.text ++ []) = .ok (.comb data, free) ∧
    R ∈ reactionList data ∧ (reactionList data).length = 3 ∧ (Measurement.reactionList (.comb data)).length = 1 := by
  obtain ⟨rd, h, ⟨R, hR⟩, d, hd⟩ := nestedText_stands
  have h1 := C55_nested_partial [] (.rx isomerReaction) (.cons ['/', '/'] (.rx exampleReaction) .nil) nestedText_wf [] (by decide) (by intro c hc; cases hc) rd h
  have hl : ∃ a b, reactionList d = [a, b] := by
    have hs := h isomerReaction (by simp [nestedText, FactorText.reacts])
    rw [hd] at hs
    cases hs with
    | @iso n m ms q rr hrep hiso hrd =>
      have hn := hrep.resid
      simp only [isomerReaction, Option.some.injEq, TargText.nuc.injEq] at hn
      have hm := hrep.mods
      rw [← hn] at hm
      simp only [List.cons.injEq] at hm
      have e := unfold_reactions isomerReaction n m ms rr
      rw [Datum.reactions] at e
      rw [e, ← hm.2]
      exact ⟨_, _, rfl⟩
  obtain ⟨a, b, hab⟩ := hl
  refine ⟨_, _, a, h1, ?_⟩
  simp only [FactorText.dataOf, RestText.dataOf, hR, hd, List.cons_append, List.nil_append, reactionList, Datum.reactions, hab]
  exact ⟨by simp, by simp, rfl⟩

/-- C80: a field with a reaction with isomer arithmetic lists the reactions for all the isomers, in order.
(The hypotheses are those of C55_field_partial, which `isomerReaction` meets.) -/
theorem C80_isomers (names : Dict Str (List Str)) (x : ReactText) (n : NucText) (m : IsoMod) (ms : List IsoMod) (q : Str)
    (h : Repackable x n m ms q) (free : Str) (ht : '\t' ∉ free) (hop : NoOp ['+', '-', '*', '/', '='] free)
    (hiso : reactionOfStr names x.text = .error .isomerMathParsingError) (rd : ReactText → Reaction)
    (hrd : ∀ k ∈ m :: ms, reactionOfStr names (x.withIsomer n k).text = .ok (rd (x.withIsomer n k))) :
    ∃ M, reactionFieldText names (x.text ++ free) = .ok (M, freeLine free) ∧ M.reactionList = (m :: ms).map (fun k => rd (x.withIsomer n k)) := by
  refine ⟨_, C55_field_partial names x n m ms q h free ht hop hiso rd hrd, ?_⟩
  have h1 := listed_factor (fun y => .rx (rd y)) (unfoldIsomers x n m ms)
  have h2 := unfold_reactions x n m ms rd
  rw [Datum.reactions, ← dataOf_rx, reactionList_factor] at h2
  rw [dataOf_rx] at h1
  have h3 : Measurement.reactionList (.iso ((unfoldIsomers x n m ms).data rd)) = Measurement.reactionList (.comb ((unfoldIsomers x n m ms).data rd)) := rfl
  rw [h3, h1, ← h2]
  rfl

/-! ### C81: the text of a combination -/

theorem printData_append {fr : Reaction → Except PyErr Str} {a b : List Datum} {s t : Str} (ha : printData fr a = .ok s) (hb : printData fr b = .ok t) :
    printData fr (a ++ b) = .ok (s ++ t) := by
  induction a generalizing s with
  | nil => rw [printData] at ha; cases ha; exact hb
  | cons d a ih =>
    rw [printData] at ha
    rw [List.cons_append, printData]
    cases hd : d.print fr with
    | error e => rw [hd] at ha; cases ha
    | ok u =>
      rw [hd] at ha
      cases hr : printData fr a with
      | error e => simp only [hr] at ha; cases ha
      | ok v =>
        simp only [hr, Except.ok.injEq] at ha
        simp only [ih hr, ← ha, List.append_assoc]

theorem printData_op (fr : Reaction → Except PyErr Str) {b : List Datum} {t op : Str} (hb : printData fr b = .ok t) :
    printData fr (.op op :: b) = .ok (op ++ t) := by
  rw [printData, Datum.print]; simp only [hb]

mutual
theorem print_factor (fr : Reaction → Except PyErr Str) (rd : ReactText → Datum) (t : ReactText → Str) (f : FactorText)
    (h : ∀ x ∈ f.reacts, (rd x).print fr = .ok (chars!"( " ++ t x ++ chars!" )")) : printData fr (f.dataOf rd) = .ok (f.printed t) := by
  cases f with
  | rx r =>
    rw [FactorText.dataOf, FactorText.printed, printData, h r (by simp [FactorText.reacts])]
    simp only [printData, List.append_nil]
  | par f l =>
    rw [FactorText.reacts] at h
    have h1 := print_factor fr rd t f (fun x hx => h x (by simp [hx]))
    have h2 := print_rest fr rd t l (fun x hx => h x (by simp [hx]))
    rw [FactorText.dataOf, FactorText.printed]
    have h3 : printData fr [.op [')']] = .ok [')'] := by simp only [printData, Datum.print, List.append_nil]
    rw [printData_op fr (printData_append h1 (printData_append h2 h3))]
    simp
theorem print_rest (fr : Reaction → Except PyErr Str) (rd : ReactText → Datum) (t : ReactText → Str) (l : RestText)
    (h : ∀ x ∈ l.reacts, (rd x).print fr = .ok (chars!"( " ++ t x ++ chars!" )")) : printData fr (l.dataOf rd) = .ok (l.printed t) := by
  cases l with
  | nil => rw [RestText.dataOf, RestText.printed, printData]
  | cons op f l =>
    rw [RestText.reacts] at h
    have h1 := print_factor fr rd t f (fun x hx => h x (by simp [hx]))
    have h2 := print_rest fr rd t l (fun x hx => h x (by simp [hx]))
    rw [RestText.dataOf, RestText.printed, printData_op fr (printData_append h1 h2)]
    simp
end

/-- C81: the text of a combination is the written combination with each reaction replaced by its own text in parentheses; the
text of a reaction with isomer arithmetic is that of the combination of the single isomers. -/
theorem C81_text (D : RxDicts) (f : FactorText) (rd : ReactText → Datum) (t : ReactText → Str)
    (h : ∀ x ∈ f.reacts, (∃ R, rd x = .rx R ∧ R.str D = .ok (t x)) ∨ ∃ n m ms rr tt, rd x = .iso ((unfoldIsomers x n m ms).data rr) ∧
      (∀ y ∈ (unfoldIsomers x n m ms).reacts, (rr y).str D = .ok (tt y)) ∧ t x = (unfoldIsomers x n m ms).printed tt) :
    Measurement.str D (.comb (f.dataOf rd)) = .ok (f.printed t) := by
  refine print_factor _ rd t f fun x hx => ?_
  rcases h x hx with ⟨R, h1, h2⟩ | ⟨n, m, ms, rr, tt, h1, h2, h3⟩
  · rw [h1, Datum.print, h2]
  · have : printData (Reaction.str D) ((unfoldIsomers x n m ms).data rr) = .ok ((unfoldIsomers x n m ms).printed tt) := by
      rw [← dataOf_rx]
      exact print_factor _ _ tt _ fun y hy => by rw [Datum.print, h2 y hy]
    rw [h1, Datum.print, this, h3]

set_option maxRecDepth 20000 in
/-- C81_text applies. -/
example : ∃ R, Measurement.str ⟨[], [], []⟩ (.comb ((FactorText.par (.rx exampleReaction) (.cons ['/', '/'] (.rx exampleReaction) .nil)).dataOf (fun _ => .rx R))) =
    .ok chars!"((  for 241Am(n,gamma)242mAm )//(  for 241Am(n,gamma)242mAm ))" := by
  obtain ⟨R, hR⟩ := ok_of_isOk (e := reactionOfStr [] exampleReaction.text) (by decide +kernel)
  have hs : (match reactionOfStr [] exampleReaction.text with | .ok R => R.str ⟨[], [], []⟩ | .error e => .error e) = .ok chars!" for 241Am(n,gamma)242mAm" := by
    decide +kernel
  rw [hR] at hs
  exact ⟨R, C81_text ⟨[], [], []⟩ _ (fun _ => .rx R) (fun _ => chars!" for 241Am(n,gamma)242mAm") fun x hx => Or.inl ⟨R, rfl, hs⟩⟩

/-- C81, for the formal text (`repr`). -/
theorem C81_repr (f : FactorText) (rd : ReactText → Datum) (t : ReactText → Str)
    (h : ∀ x ∈ f.reacts, (∃ R, rd x = .rx R ∧ R.repr = .ok (t x)) ∨ ∃ n m ms rr tt, rd x = .iso ((unfoldIsomers x n m ms).data rr) ∧
      (∀ y ∈ (unfoldIsomers x n m ms).reacts, (rr y).repr = .ok (tt y)) ∧ t x = (unfoldIsomers x n m ms).printed tt) :
    Measurement.repr (.comb (f.dataOf rd)) = .ok (f.printed t) := by
  refine print_factor _ rd t f fun x hx => ?_
  rcases h x hx with ⟨R, h1, h2⟩ | ⟨n, m, ms, rr, tt, h1, h2, h3⟩
  · rw [h1, Datum.print, h2]
  · have : printData Reaction.repr ((unfoldIsomers x n m ms).data rr) = .ok ((unfoldIsomers x n m ms).printed tt) := by
      rw [← dataOf_rx]
      exact print_factor _ _ tt _ fun y hy => by rw [Datum.print, h2 y hy]
    rw [h1, Datum.print, this, h3]

end X4
