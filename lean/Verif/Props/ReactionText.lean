import Verif.Lemmas.GrammarExpression
import Verif.Lemmas.DataSection
/-! Reaction texts are read as what they are written from (C64, C65), and isomer arithmetic is
unfolded into the equivalent combination (C55). -/
namespace X4
open Parser

theorem expandTabs_id (n : Nat) (s : Str) (h : '\t' ∉ s) : expandTabs n s = s := by
  induction s generalizing n with
  | nil => rfl
  | cons c s ih =>
    simp only [List.mem_cons, not_or] at h
    unfold expandTabs
    have : (c == '\t') = false := by simpa using Ne.symm h.1
    rw [this]
    simp only [Bool.false_eq_true, if_false]
    rw [ih _ h.2]

theorem no_tab_descr {s : Str} (h : ∀ c ∈ s, isDescr c = true) : '\t' ∉ s := fun ht => absurd (h _ ht) (by decide)

theorem procText_no_tab {p : ProcText} (hp : p.wf) : '\t' ∉ p.text := by
  obtain ⟨h1, h2, h3, -, h5⟩ := hp
  have t1 := no_tab_descr (targ_descr targVars_shape h1).2
  have t2 := no_tab_descr (proj_descr h2).2
  have t3 : ∀ q ∈ p.prod :: p.prods, '\t' ∉ q.text := fun q hq => no_tab_descr (prod_descr (h3 q hq)).2
  have t5 : '\t' ∉ p.resid.elim [] TargText.text := by
    cases hr : p.resid with
    | none => simp
    | some t => exact no_tab_descr (targ_descr residVars_shape (h5 t (by rw [hr]; rfl))).2
  intro h
  simp only [ProcText.text, List.mem_append, List.mem_cons, List.mem_flatMap] at h
  rcases h with h | h | h | h | h | ⟨q, hq, h⟩ | h | h
  · exact t1 h
  · exact absurd h (by decide)
  · exact t2 h
  · exact absurd h (by decide)
  · exact t3 p.prod (by simp) h
  · rcases h with h | h
    · exact absurd h (by decide)
    · exact t3 q (by simp [hq]) h
  · exact absurd h (by decide)
  · exact t5 h

theorem reactText_no_tab {x : ReactText} (hx : x.wf) : '\t' ∉ x.text := by
  obtain ⟨hp, hf⟩ := hx
  intro h
  simp only [ReactText.text, List.mem_append, List.mem_cons, List.mem_flatMap, List.not_mem_nil, or_false] at h
  rcases h with h | h | ⟨f, hff, h⟩ | h
  · exact absurd h (by decide)
  · exact procText_no_tab hp h
  · rcases h with h | h
    · exact absurd h (by decide)
    · have := hf f hff
      cases f with
      | empty => simp [DescrText.text] at h
      | word w => exact no_tab_descr this.2 h
      | par w =>
        simp only [DescrText.text, List.mem_append, List.mem_cons, List.not_mem_nil, or_false] at h
        rcases h with h | h | h
        · exact absurd h (by decide)
        · exact no_tab_descr this.2 h
        · exact absurd h (by decide)
  · exact absurd h (by decide)

mutual
theorem factorText_no_tab (f : FactorText) (hf : f.wf) : '\t' ∉ f.text := by
  cases f with
  | rx r =>
    rw [FactorText.wf] at hf
    rw [FactorText.text]
    exact reactText_no_tab hf
  | par f l =>
    rw [FactorText.wf] at hf
    rw [FactorText.text]
    have h1 := factorText_no_tab f hf.1
    have h2 := restText_no_tab l hf.2
    simp [h1, h2]
theorem restText_no_tab (l : RestText) (hl : l.wf) : '\t' ∉ l.text := by
  cases l with
  | nil => rw [RestText.text]; simp
  | cons op f l =>
    rw [RestText.wf] at hl
    rw [RestText.text]
    have h1 := factorText_no_tab f hl.2.1
    have h2 := restText_no_tab l hl.2.2
    have h3 : '\t' ∉ op := by
      have := hl.1
      simp only [exprOps, List.mem_cons, List.not_mem_nil, or_false] at this
      rcases this with h | h | h | h | h | h <;> rw [h] <;> decide
    simp [h1, h2, h3]
end

/-! ### C64 -/

/-- C64: the text of every well-formed reaction, whatever follows it, is read as the words it is
written from. -/
theorem C64_parse (x : ReactText) (hx : x.wf) (r : Str) (hr : '\t' ∉ r) : parseString pReaction (x.text ++ r) = .ok x.toks := by
  unfold parseString
  rw [expandTabs_id _ _ (by simp [reactText_no_tab hx, hr]), parse_nw (by rw [ReactText.text]; exact NW_cons.2 rfl), pReaction_some hx r]

/-- the reaction `(95-AM-241(N,G)95-AM-242-M,,SIG)` -/
def exampleReaction : ReactText where
  proc := {
    targ := .nuc ⟨chars!"95", chars!"AM", chars!"241", []⟩, proj := .word ['N'], prod := .word ['G'], prods := [],
    resid := some (.nuc ⟨chars!"95", chars!"AM", chars!"242", [⟨'-', 'M', []⟩]⟩) }
  fields := [.empty, .word chars!"SIG"]

theorem exampleReaction_wf : exampleReaction.wf := by
  have hN : ∀ c : Char, isAlphaA c = true → ParticleWord [c] := fun c h => ⟨[c], [], rfl, by simp, by simpa using h, by simp⟩
  refine ⟨⟨⟨⟨by decide, by decide⟩, ⟨'A', ['M'], rfl, .inl (by decide), by decide, by decide⟩, ⟨by decide, by decide⟩, by simp [exampleReaction]⟩,
    hN 'N' (by decide), ?_, by simp [exampleReaction], ?_⟩, ?_⟩
  · intro q hq
    simp only [exampleReaction, List.mem_cons, List.not_mem_nil, or_false] at hq
    subst hq
    exact ⟨hN 'G' (by decide), by decide⟩
  · intro r hr
    simp only [exampleReaction, Option.mem_some_iff] at hr
    subst hr
    refine ⟨⟨by decide, by decide⟩, ⟨'A', ['M'], rfl, .inl (by decide), by decide, by decide⟩, ⟨by decide, by decide⟩, ?_⟩
    intro m hm
    simp only [List.mem_cons, List.not_mem_nil, or_false] at hm
    subst hm
    exact ⟨by decide, by decide, by simp⟩
  · intro f hf
    simp only [exampleReaction, List.mem_cons, List.not_mem_nil, or_false] at hf
    rcases hf with rfl | rfl
    · trivial
    · exact ⟨by decide, by decide⟩

/-- C64_parse applies to a reaction with an isomer. -/
example : exampleReaction.text = chars!"(95-AM-241(N,G)95-AM-242-M,,SIG)" ∧
    parseString pReaction (exampleReaction.text ++ chars!" text") = .ok exampleReaction.toks :=
  ⟨by decide, C64_parse _ exampleReaction_wf _ (by decide)⟩

/-- Why C64 asks that no nucleus stands before a product beginning like an isomer modifier: the
text of the products carbon-14 and triton is also that of one product, carbon-14 in an isomeric
state, and is read as the latter. -/
theorem C64_ambiguous : ∃ x y : ReactText, x ≠ y ∧ x.text = chars!"(92-U-235(N,6-C-14+T),,SIG)" ∧ y.text = x.text ∧
    (∃ a b, x.proc.prod = .nuc a ∧ a.mods = [] ∧ x.proc.prods = [.word b]) ∧
    parseString pReaction x.text = .ok y.toks ∧ y.toks ≠ x.toks := by
  let y : ReactText := ⟨⟨.nuc ⟨chars!"92", ['U'], chars!"235", []⟩, .word ['N'], .nuc ⟨['6'], ['C'], chars!"14", [⟨'+', 'T', []⟩]⟩, [], none⟩,
    [.empty, .word chars!"SIG"]⟩
  have hy : y.wf := by
    have hN : ∀ c : Char, isAlphaA c = true → ParticleWord [c] := fun c h => ⟨[c], [], rfl, by simp, by simpa using h, by simp⟩
    refine ⟨⟨⟨⟨by decide, by decide⟩, ⟨'U', [], rfl, .inl (by decide), by decide, by decide⟩, ⟨by decide, by decide⟩, by simp⟩,
      hN 'N' (by decide), ?_, by simp [y], by simp [y]⟩, ?_⟩
    · intro q hq
      simp only [y, List.mem_cons, List.not_mem_nil, or_false] at hq
      subst hq
      refine ⟨⟨by decide, by decide⟩, ⟨'C', [], rfl, .inl (by decide), by decide, by decide⟩, ⟨by decide, by decide⟩, ?_⟩
      intro m hm
      simp only [List.mem_cons, List.not_mem_nil, or_false] at hm
      subst hm
      exact ⟨by decide, by decide, by simp⟩
    · intro f hf
      simp only [y, List.mem_cons, List.not_mem_nil, or_false] at hf
      rcases hf with rfl | rfl
      · trivial
      · exact ⟨by decide, by decide⟩
  have hp := C64_parse y hy [] (by simp)
  rw [List.append_nil] at hp
  refine ⟨⟨⟨.nuc ⟨chars!"92", ['U'], chars!"235", []⟩, .word ['N'], .nuc ⟨['6'], ['C'], chars!"14", []⟩, [.word ['T']], none⟩, [.empty, .word chars!"SIG"]⟩,
    y, by simp [y], by decide, by decide, ⟨_, _, rfl, rfl, rfl⟩, hp, ?_⟩
  simp [y, ReactText.toks, ProcText.toks]

/-- the quantity of a reaction object made from words: nothing but words -/
theorem fields_strToks (l : List DescrText) : strToks (l.flatMap DescrText.toks) = some (l.flatMap (fun f => match f with
    | .empty => [] | .word w => [w] | .par w => [w])) := by
  induction l with
  | nil => rfl
  | cons f l ih =>
    cases f with
    | empty => simpa [DescrText.toks] using ih
    | word w => simp [DescrText.toks, strToks, ih]
    | par w => simp [DescrText.toks, strToks, ih]

theorem setParticleType_nuc {n : NucText} (hm : n.mods = []) (hA : isDigitStr n.A = true) :
    setParticleType (.grp n.toks) = .ok (if n.A = ['0'] then .element n.Z (capitalize n.sym) n.A else .nucleus n.Z (capitalize n.sym) n.A) := by
  simp [NucText.toks, hm, setParticleType, strToks, hA]

theorem isDigitStr_digitText {s : Str} (h : DigitText s) : isDigitStr s = true := by
  obtain ⟨h1, h2⟩ := h
  unfold isDigitStr
  simp only [Bool.and_eq_true, Bool.not_eq_true', List.isEmpty_eq_false_iff, List.all_eq_true]
  refine ⟨h1, fun c hc => ?_⟩
  have := h2 c hc
  simp [isPyDigit, this]

theorem strToks_map (l : List Str) : strToks (l.map Tok.str) = some l := by
  induction l with
  | nil => rfl
  | cons s l ih => simp [strToks, ih]

/-- the words of the isomer modifiers -/
def modStrs (l : List IsoMod) : List Str := l.flatMap (fun m => [m.op] :: [m.letter] :: if m.digits = [] then [] else [m.digits])
theorem modToks_eq (l : List IsoMod) : l.flatMap IsoMod.toks = (modStrs l).map Tok.str := by
  unfold modStrs
  rw [List.map_flatMap]
  refine List.flatMap_congr fun m _ => ?_
  unfold IsoMod.toks
  split_ifs <;> rfl

theorem nucToks_eq (n : NucText) : n.toks = ([n.Z, n.sym, n.A] ++ modStrs n.mods).map Tok.str := by
  unfold NucText.toks
  rw [modToks_eq]
  rfl

/-- the object made of a nucleus has the charge and mass number written -/
theorem setParticleType_charge {n : NucText} (hn : n.wf) {p : Particle} (h : setParticleType (.grp n.toks) = .ok p) :
    p.getZ = pyIntE n.Z ∧ (n.A ≠ ['0'] ∨ n.mods ≠ [] → p.getA = pyIntE n.A) := by
  obtain ⟨-, -, hA, -⟩ := hn
  unfold setParticleType at h
  simp only at h
  rw [nucToks_eq, strToks_map] at h
  simp only [List.cons_append, List.nil_append] at h
  cases hm : modStrs n.mods with
  | nil =>
    have hm' : n.mods = [] := by
      cases hmm : n.mods with
      | nil => rfl
      | cons m l => rw [hmm] at hm; simp [modStrs] at hm
    rw [hm] at h
    simp only [isDigitStr_digitText hA, if_true] at h
    injection h with h
    subst h
    split_ifs with h0
    · refine ⟨rfl, fun hh => ?_⟩
      rcases hh with hh | hh
      · exact absurd h0 hh
      · exact absurd hm' hh
    · exact ⟨rfl, fun _ => rfl⟩
  | cons m l =>
    rw [hm] at h
    simp only at h
    unfold isomerOfToks at h
    split_ifs at h
    injection h with h
    subst h
    exact ⟨rfl, fun _ => rfl⟩

theorem processOfToks_parts {names : Dict Str (List Str)} {t p : Tok} {l : List Tok} {x : Process}
    (h : processOfToks names (t :: p :: l) = .ok x) : setParticleType t = .ok x.targ ∧ setParticleType p = .ok x.proj := by
  unfold processOfToks at h
  simp only at h
  split at h
  · cases h
  · rename_i targ ht
    split at h
    · cases h
    · rename_i proj hp
      split at h
      · cases h
      · split at h
        · cases h
        · split at h
          · cases h
          · injection h with h
            subst h
            exact ⟨ht, hp⟩

theorem reactionOfToks_grp {names : Dict Str (List Str)} {ts q : List Tok} {R : Reaction} (h : reactionOfToks names (.grp ts :: q) = .ok R) :
    processOfToks names ts = .ok R.proc ∧ R.quantity = q := by
  unfold reactionOfToks at h
  simp only at h
  split at h
  · cases h
  · rename_i p hp
    injection h with h
    subst h
    exact ⟨hp, rfl⟩

/-- C64: the object made from the text of a well-formed reaction has the target, the projectile
and the quantity that are written there. -/
theorem C64_object (names : Dict Str (List Str)) (x : ReactText) (hx : x.wf) (R : Reaction) (h : reactionOfStr names x.text = .ok R) :
    (∀ n, x.proc.targ = .nuc n → R.proc.targ.getZ = pyIntE n.Z ∧ (n.A ≠ ['0'] ∨ n.mods ≠ [] → R.proc.targ.getA = pyIntE n.A)) ∧
    (∀ n, x.proc.proj = .nuc n → R.proc.proj.getZ = pyIntE n.Z ∧ (n.A ≠ ['0'] ∨ n.mods ≠ [] → R.proc.proj.getA = pyIntE n.A)) ∧
    (∀ w, x.proc.proj = .word w → w ∉ [chars!"ELEM", chars!"MASS", chars!"X", chars!"NPART"] → particleOfStr w = .ok R.proc.proj) ∧
    R.quantity = (x.fields.flatMap (fun f => match f with | .empty => [] | .word w => [w] | .par w => [w])).map Tok.str := by
  unfold reactionOfStr at h
  have hparse : parseString pReaction x.text = .ok x.toks := by
    have := C64_parse x hx [] (by simp)
    rwa [List.append_nil] at this
  rw [hparse] at h
  obtain ⟨hp, hq⟩ := reactionOfToks_grp h
  · rw [ProcText.toks, List.cons_append, List.cons_append, List.cons_append] at hp
    obtain ⟨h1, h2⟩ := processOfToks_parts hp
    obtain ⟨⟨w1, w2, -⟩, -⟩ := hx
    refine ⟨?_, ?_, ?_, ?_⟩
    · intro n hn
      rw [hn] at h1 w1
      exact setParticleType_charge w1 h1
    · intro n hn
      rw [hn] at h2 w2
      exact setParticleType_charge w2 h2
    · intro w hw hnot
      rw [hw] at h2 w2
      simp only [ProdText.tok, setParticleType] at h2
      rw [if_neg] at h2
      · exact h2
      · simp only [List.mem_cons, List.not_mem_nil, or_false] at hnot ⊢
        have : w ≠ chars!"ELEM/MASS" := by
          intro e
          have := (particle_alnum w2).2 '/' (by rw [e]; decide)
          exact absurd this (by decide)
        simp only [not_or] at hnot ⊢
        exact ⟨hnot.1, hnot.2.1, this, hnot.2.2.1, hnot.2.2.2⟩
    · rw [hq]
      clear hp h1 h2 hparse w1 w2 hq h
      induction x.fields with
      | nil => rfl
      | cons f l ih =>
        rw [List.flatMap_cons, List.flatMap_cons, ih, List.map_append]
        cases f <;> rfl

set_option maxRecDepth 20000 in
/-- C64_object applies: the example reaction is constructed. -/
example : ∃ R, reactionOfStr [] exampleReaction.text = .ok R ∧ R.proc.targ.getZ = .ok 95 ∧ R.proc.targ.getA = .ok 241 := by
  have h : (reactionOfStr [] exampleReaction.text).isOk = true := by decide +kernel
  cases hR : reactionOfStr [] exampleReaction.text with
  | error e => rw [hR] at h; simp [Except.isOk, Except.toBool] at h
  | ok R =>
    obtain ⟨h1, -⟩ := C64_object [] exampleReaction exampleReaction_wf R hR
    obtain ⟨h2, h3⟩ := h1 _ rfl
    exact ⟨R, rfl, h2, h3 (.inl (by decide))⟩

/-! ### C65 -/

/-- the free text after the reaction: the rest of the line, white space removed in front -/
def freeLine (free : Str) : Str := (skipWs free).takeWhile (· != '\n')

/-- C65: a REACTION field is read as the words of the reaction or combination of reactions and the
free text. -/
theorem C65_parse (f : FactorText) (hf : f.wf) (free : Str) (ht : '\t' ∉ free) (hop : NoOp ['+', '-', '*', '/', '='] free) :
    parseString (pReactionField ((f.text ++ free).length + 1)) (f.text ++ free) = .ok (f.toks ++ [.str (freeLine free)]) := by
  have hnw : NW (f.text ++ free) := by
    obtain ⟨s, hs⟩ := f.head
    rw [hs]; exact NW_cons.2 rfl
  have hd : f.depth ≤ (f.text ++ free).length := by
    have := FactorText.depth_le f
    rw [List.length_append]
    omega
  have h1 := pExpression_factor _ f hf hd free hop
  have h2 : restOfLine.parse true (skipWs free) = some ([.str (freeLine free)], (skipWs free).dropWhile (· != '\n')) := by
    rw [parse_nows rfl]
    rfl
  unfold parseString pReactionField
  rw [expandTabs_id _ _ (by simp [factorText_no_tab f hf, ht]), parse_nw hnw, and_some h1 h2]

theorem parseExpression_text (f : FactorText) (hf : f.wf) : parseExpression f.text = .ok f.toks := by
  have hnw : NW f.text := by
    obtain ⟨s, hs⟩ := f.head
    rw [hs]; exact NW_cons.2 rfl
  have h1 := pExpression_factor _ f hf (FactorText.depth_le f) [] (by intro c hc; simp [skipWs] at hc)
  rw [List.append_nil] at h1
  unfold parseExpression parseString
  rw [expandTabs_id _ _ (factorText_no_tab f hf), parse_nw hnw, h1]

theorem reactionOfStr_toks (names : Dict Str (List Str)) (x : ReactText) (hx : x.wf) : reactionOfStr names x.text = reactionOfToks names x.toks := by
  have hparse : parseString pReaction x.text = .ok x.toks := by
    have := C64_parse x hx [] (by simp)
    rwa [List.append_nil] at this
  unfold reactionOfStr
  rw [hparse]

theorem mapE_append_ok {ε α β} {f : α → Except ε β} {a b : List α} {ra rb : List β} (ha : mapE f a = .ok ra) (hb : mapE f b = .ok rb) :
    mapE f (a ++ b) = .ok (ra ++ rb) := by
  rw [mapE_ok_iff] at *
  exact List.rel_append ha hb

theorem datumOf_op (names : Dict Str (List Str)) (comb : List Tok → Except PyErr (List Datum)) {op : Str} (h : op ∈ combOps) :
    datumOf names comb (.str op) = .ok (.op op) := by
  simp only [datumOf, h, if_true]

mutual
theorem mapE_factor (names : Dict Str (List Str)) (comb : List Tok → Except PyErr (List Datum)) (rd : ReactText → Reaction) (f : FactorText) (hf : f.wf)
    (hrd : ∀ x ∈ f.reacts, reactionOfStr names x.text = .ok (rd x)) : mapE (datumOf names comb) f.toks = .ok (f.data rd) := by
  cases f with
  | rx r =>
    rw [FactorText.wf] at hf
    have h := hrd r (by simp [FactorText.reacts])
    rw [reactionOfStr_toks names r hf] at h
    rw [FactorText.toks, FactorText.data]
    simp only [mapE, datumOf, rxOrIso, h]
  | par f l =>
    rw [FactorText.wf] at hf
    rw [FactorText.reacts] at hrd
    have h1 := mapE_factor names comb rd f hf.1 (fun x hx => hrd x (by simp [hx]))
    have h2 := mapE_rest names comb rd l hf.2 (fun x hx => hrd x (by simp [hx]))
    have hl : mapE (datumOf names comb) [.str ['(']] = .ok [.op ['(']] := by
      simp only [mapE, datumOf_op names comb (op := ['(']) (by decide)]
    have hr : mapE (datumOf names comb) [.str [')']] = .ok [.op [')']] := by
      simp only [mapE, datumOf_op names comb (op := [')']) (by decide)]
    rw [FactorText.toks, FactorText.data]
    exact mapE_append_ok hl (mapE_append_ok h1 (mapE_append_ok h2 hr))
theorem mapE_rest (names : Dict Str (List Str)) (comb : List Tok → Except PyErr (List Datum)) (rd : ReactText → Reaction) (l : RestText) (hl : l.wf)
    (hrd : ∀ x ∈ l.reacts, reactionOfStr names x.text = .ok (rd x)) : mapE (datumOf names comb) l.toks = .ok (l.data rd) := by
  cases l with
  | nil => rw [RestText.toks, RestText.data]; rfl
  | cons op f l =>
    rw [RestText.wf] at hl
    rw [RestText.reacts] at hrd
    have h1 := mapE_factor names comb rd f hl.2.1 (fun x hx => hrd x (by simp [hx]))
    have h2 := mapE_rest names comb rd l hl.2.2 (fun x hx => hrd x (by simp [hx]))
    have hop : op ∈ combOps := by
      have := hl.1
      simp only [exprOps, List.mem_cons, List.not_mem_nil, or_false] at this
      rcases this with h | h | h | h | h | h <;> rw [h] <;> decide
    have ho : mapE (datumOf names comb) [.str op] = .ok [.op op] := by
      simp only [mapE, datumOf_op names comb hop]
    rw [RestText.toks, RestText.data]
    exact mapE_append_ok ho (mapE_append_ok h1 h2)
end

/-- C65: a field with a single reaction gives that reaction and the free text. -/
theorem C65_reaction (names : Dict Str (List Str)) (x : ReactText) (hx : x.wf) (free : Str) (ht : '\t' ∉ free)
    (hop : NoOp ['+', '-', '*', '/', '='] free) (R : Reaction) (hR : reactionOfStr names x.text = .ok R) :
    reactionFieldText names (x.text ++ free) = .ok (.rx R, freeLine free) := by
  have hwf : (FactorText.rx x).wf := by rw [FactorText.wf]; exact hx
  have hp := C65_parse (.rx x) hwf free ht hop
  rw [FactorText.text, FactorText.toks] at hp
  rw [reactionOfStr_toks names x hx] at hR
  have hm : getMeasurementType names [.grp x.toks] = .ok (.rx R) := by
    unfold getMeasurementType measurementTry
    simp only [List.any_cons, List.any_nil, isOpTok, Bool.or_self, Bool.false_eq_true, if_false, hR]
  unfold reactionFieldText
  rw [hp]
  simp only [List.cons_append, List.nil_append, List.dropLast, List.getLast?_cons_cons, List.getLast?_singleton, hm]

theorem toks_any_op (f : FactorText) (l : RestText) : (FactorText.par f l).toks.any isOpTok = true := by
  rw [FactorText.toks, List.any_cons]
  rfl

/-- C65: a field with a combination gives its reactions, operators and parentheses in order, and
the free text. -/
theorem C65_combination (names : Dict Str (List Str)) (f : FactorText) (l : RestText) (hf : (FactorText.par f l).wf) (free : Str) (ht : '\t' ∉ free)
    (hop : NoOp ['+', '-', '*', '/', '='] free) (rd : ReactText → Reaction)
    (hrd : ∀ x ∈ (FactorText.par f l).reacts, reactionOfStr names x.text = .ok (rd x)) :
    reactionFieldText names ((FactorText.par f l).text ++ free) = .ok (.comb ((FactorText.par f l).data rd), freeLine free) := by
  have hp := C65_parse _ hf free ht hop
  have hm : getMeasurementType names (FactorText.par f l).toks = .ok (.comb ((FactorText.par f l).data rd)) := by
    have hc : combination names maxDepth (FactorText.par f l).toks = .ok ((FactorText.par f l).data rd) := by
      unfold maxDepth combination
      exact mapE_factor names _ rd _ hf hrd
    unfold getMeasurementType measurementTry
    rw [if_pos (toks_any_op f l), hc]
  unfold reactionFieldText
  rw [hp]
  simp only [List.dropLast_concat, hm, List.getLast?_concat]

set_option maxRecDepth 20000 in
/-- C65_reaction and C65_combination apply. -/
example : (∃ R, reactionFieldText [] (exampleReaction.text ++ chars!" text\nmore") = .ok (.rx R, chars!"text")) ∧
    ∃ R, reactionFieldText [] (chars!"((95-AM-241(N,G)95-AM-242-M,,SIG)//(95-AM-241(N,G)95-AM-242-M,,SIG))" ++ chars!" text") =
      .ok (.comb [.op ['('], .rx R, .op ['/', '/'], .rx R, .op [')']], chars!"text") := by
  have h : (reactionOfStr [] exampleReaction.text).isOk = true := by decide +kernel
  cases hR : reactionOfStr [] exampleReaction.text with
  | error e => rw [hR] at h; simp [Except.isOk, Except.toBool] at h
  | ok R =>
    have h0 := C65_reaction [] exampleReaction exampleReaction_wf chars!" text\nmore" (by decide) (by intro c hc; simp only [show skipWs chars!" text\nmore" = chars!"text\nmore" from rfl] at hc; revert c; decide) R hR
    have h1 := C65_combination [] (.rx exampleReaction) (.cons ['/', '/'] (.rx exampleReaction) .nil)
      (by simp only [FactorText.wf, RestText.wf]; exact ⟨exampleReaction_wf, by decide, exampleReaction_wf, trivial⟩)
      chars!" text" (by decide) (by intro c hc; simp only [show skipWs chars!" text" = chars!"text" from rfl] at hc; revert c; decide) (fun _ => R)
      (by
        simp only [FactorText.reacts, RestText.reacts]
        intro x hx
        simp only [List.append_nil, List.mem_append, List.mem_singleton, or_self] at hx
        rw [hx]
        exact hR)
    refine ⟨⟨R, ?_⟩, R, ?_⟩
    · rw [h0]; rfl
    · exact h1

/-- The reactions of the combination are those of the text, in order. -/
theorem C65_reactions (rd : ReactText → Reaction) (f : FactorText) (l : RestText) :
    Measurement.reactionList (.comb ((FactorText.par f l).data rd)) = (FactorText.par f l).reacts.map rd := by
  have hmut : (∀ f : FactorText, (f.data rd).filterMap (fun x => match x with | .rx r => some r | _ => none) = f.reacts.map rd) ∧
      (∀ l : RestText, (l.data rd).filterMap (fun x => match x with | .rx r => some r | _ => none) = l.reacts.map rd) := by
    refine ⟨fun f => ?_, fun l => ?_⟩
    · induction f using FactorText.rec (motive_2 := fun l => (l.data rd).filterMap (fun x => match x with | .rx r => some r | _ => none) = l.reacts.map rd) with
      | rx r => rw [FactorText.data, FactorText.reacts]; rfl
      | par f l h1 h2 =>
        rw [FactorText.data, FactorText.reacts, List.filterMap_cons, List.filterMap_append, List.filterMap_append, h1, h2, List.map_append]
        simp
      | nil => rw [RestText.data, RestText.reacts]; rfl
      | cons op f l h1 h2 =>
        rw [RestText.data, RestText.reacts, List.filterMap_cons, List.filterMap_append, h1, h2, List.map_append]
    · induction l using RestText.rec (motive_1 := fun f => (f.data rd).filterMap (fun x => match x with | .rx r => some r | _ => none) = f.reacts.map rd) with
      | rx r => rw [FactorText.data, FactorText.reacts]; rfl
      | par f l h1 h2 =>
        rw [FactorText.data, FactorText.reacts, List.filterMap_cons, List.filterMap_append, List.filterMap_append, h1, h2, List.map_append]
        simp
      | nil => rw [RestText.data, RestText.reacts]; rfl
      | cons op f l h1 h2 =>
        rw [RestText.data, RestText.reacts, List.filterMap_cons, List.filterMap_append, h1, h2, List.map_append]
  exact hmut.1 _

/-! ### C55 -/

/-- isomers that the code can tell apart: at most one digit, up to 5, and one of three operators -/
def IsoMod.simple (m : IsoMod) : Prop :=
  m.digits ∈ [[], ['0'], ['1'], ['2'], ['3'], ['4'], ['5']] ∧ m.op ∈ ['+', '-', '/']

theorem residStep_op (pre : List Str) (l : List ResidPart) {op : Char} (h : op ∈ ['+', '-', '/']) :
    residStep pre l [op] = .ok (l ++ [.op [op]]) := by
  unfold residStep
  rw [if_pos]
  simp only [List.mem_cons, List.not_mem_nil, or_false] at h ⊢
  rcases h with rfl | rfl | rfl <;> simp

theorem residStep_letter (pre : List Str) (l : List ResidPart) {c : Char} (h : isModifier c = true) :
    residStep pre l [c] = .ok (l ++ [.nuc (pre ++ [[c]])]) := by
  simp only [isModifier, Bool.or_eq_true, beq_iff_eq] at h
  unfold residStep
  rw [if_neg, if_neg]
  all_goals
    rcases h with ((((rfl | rfl) | rfl) | rfl) | rfl) | rfl <;> simp

theorem residStep_digit (pre : List Str) (l : List ResidPart) (parts : List Str) (m : Str) {d : Str} (h : d ∈ [['0'], ['1'], ['2'], ['3'], ['4'], ['5']]) :
    residStep pre (l ++ [.nuc (parts ++ [m])]) d = .ok (l ++ [.nuc (parts ++ [m ++ d])]) := by
  unfold residStep
  rw [if_neg, if_pos h]
  · simp only [appendDigit, List.getLast?_concat, List.dropLast_concat]
  · simp only [List.mem_cons, List.not_mem_nil, or_false] at h ⊢
    rcases h with rfl | rfl | rfl | rfl | rfl | rfl <;> simp

theorem foldE_append_parts {ε σ α} (f : σ → α → Except ε σ) (s : σ) (a b : List α) :
    foldE f s (a ++ b) = match foldE f s a with | .error e => .error e | .ok s' => foldE f s' b := by
  induction a generalizing s with
  | nil => rfl
  | cons x a ih =>
    simp only [List.cons_append, foldE]
    cases f s x with
    | error e => rfl
    | ok s' => exact ih s'

/-- the digits after an isomer letter -/
theorem foldE_digits (pre : List Str) (l : List ResidPart) (c : Str) (d : Str) (h : d ∈ [[], ['0'], ['1'], ['2'], ['3'], ['4'], ['5']]) :
    foldE (residStep pre) (l ++ [.nuc (pre ++ [c])]) (if d = [] then [] else [d]) = .ok (l ++ [.nuc (pre ++ [c ++ d])]) := by
  by_cases hd : d = []
  · subst hd
    simp [foldE]
  · rw [if_neg hd]
    have h' : d ∈ [['0'], ['1'], ['2'], ['3'], ['4'], ['5']] := by
      rcases List.mem_cons.1 h with h | h
      · exact absurd h hd
      · exact h
    simp only [foldE, residStep_digit pre l pre c h']

theorem residFold (pre : List Str) (ms : List IsoMod) (hm : ∀ m ∈ ms, m.wf ∧ m.simple) (l : List ResidPart) :
    foldE (residStep pre) l (modStrs ms) = .ok (l ++ ms.flatMap (fun m => [.op [m.op], .nuc (pre ++ [m.letter :: m.digits])])) := by
  induction ms generalizing l with
  | nil => simp [modStrs, foldE]
  | cons m ms ih =>
    obtain ⟨⟨-, h2, -⟩, h4, h5⟩ := hm m (by simp)
    have e : modStrs (m :: ms) = [[m.op]] ++ ([[m.letter]] ++ ((if m.digits = [] then [] else [m.digits]) ++ modStrs ms)) := by
      simp [modStrs]
    rw [e, foldE_append_parts]
    simp only [foldE, residStep_op pre l h5]
    rw [foldE_append_parts]
    simp only [foldE, residStep_letter pre _ h2]
    rw [foldE_append_parts, foldE_digits pre _ [m.letter] m.digits h4]
    simp only
    rw [ih (fun x hx => hm x (by simp [hx]))]
    simp

theorem residList_eq (n : NucText) (m : IsoMod) (ms : List IsoMod) (h0 : m.wf ∧ m.simple) (hm : ∀ x ∈ ms, x.wf ∧ x.simple) :
    residList ([n.Z, n.sym, n.A] ++ modStrs (m :: ms)) = .ok (.nuc ([n.Z, n.sym, n.A] ++ [m.letter :: m.digits]) ::
      ms.flatMap (fun m => [.op [m.op], .nuc ([n.Z, n.sym, n.A] ++ [m.letter :: m.digits])])) := by
  have e : [n.Z, n.sym, n.A] ++ modStrs (m :: ms) =
      [n.Z, n.sym, n.A, [m.op], [m.letter]] ++ ((if m.digits = [] then [] else [m.digits]) ++ modStrs ms) := by
    simp [modStrs]
  rw [e]
  unfold residList
  have e4 : ([n.Z, n.sym, n.A, [m.op], [m.letter]] ++ ((if m.digits = [] then [] else [m.digits]) ++ modStrs ms))[4]? = some [m.letter] := rfl
  have e3 : ([n.Z, n.sym, n.A, [m.op], [m.letter]] ++ ((if m.digits = [] then [] else [m.digits]) ++ modStrs ms)).take 3 = [n.Z, n.sym, n.A] := rfl
  have e5 : ([n.Z, n.sym, n.A, [m.op], [m.letter]] ++ ((if m.digits = [] then [] else [m.digits]) ++ modStrs ms)).drop 5 =
    (if m.digits = [] then [] else [m.digits]) ++ modStrs ms := rfl
  rw [e4, e3, e5]
  simp only
  rw [foldE_append_parts]
  have := foldE_digits [n.Z, n.sym, n.A] [] [m.letter] m.digits h0.2.1
  rw [List.nil_append] at this
  rw [this]
  simp only
  rw [residFold _ ms hm]
  simp

/-- what the code can repack: a target that is a nucleus (or a compound), no nucleus among the
products, the isomers in the residual, and a single quantity -/
structure Repackable (x : ReactText) (n : NucText) (m : IsoMod) (ms : List IsoMod) (q : Str) : Prop where
  wf : x.wf
  targ : (∃ k, x.proc.targ = .code k) ∨ ∃ t, x.proc.targ = .nuc t ∧ (t.mods = [] ∨ ∃ c d, t.mods = [⟨'-', c, d⟩])
  proj : (∃ w, x.proc.proj = .word w) ∨ x.proc.proj = .zero ∨ ∃ t, x.proc.proj = .nuc t ∧ t.mods = []
  prods : ∀ p ∈ x.proc.prod :: x.proc.prods, ∀ t, p ≠ .nuc t
  resid : x.proc.resid = some (.nuc n)
  mods : n.mods = m :: ms
  simple : ∀ k ∈ m :: ms, k.simple
  fields : x.fields = [.empty, .word q]

theorem strToks_join (sep : Str) (l : List Str) : joinToks sep (l.map Tok.str) = .ok (joinWith sep l) := by
  simp [joinToks, strToks_map]

theorem joinWith_nil (l : List Str) : joinWith [] l = l.flatten := by
  match l with
  | [] => rfl
  | [x] => simp [joinWith]
  | x :: y :: r => rw [joinWith, joinWith_nil (y :: r)]; simp

theorem repackTarget_ok {t : TargText} (h : (∃ k, t = .code k) ∨ ∃ n, t = .nuc n ∧ (n.mods = [] ∨ ∃ c d, n.mods = [⟨'-', c, d⟩])) :
    repackTarget t.tok = .ok t.text := by
  rcases h with ⟨k, rfl⟩ | ⟨n, rfl, h | ⟨c, d, h⟩⟩
  · simp [repackTarget, TargText.tok, tokSeq, joinToks, strToks, joinWith, TargText.text]
  · have : n.toks = [n.Z, n.sym, n.A].map Tok.str := by rw [nucToks_eq, h]; simp [modStrs]
    unfold repackTarget
    simp only [TargText.tok, tokSeq, this, strToks_join]
    simp [joinWith, TargText.text, NucText.text, h]
  · have : n.toks = ([n.Z, n.sym, n.A] ++ ([['-'], [c]] ++ if d = [] then [] else [d])).map Tok.str := by
      rw [nucToks_eq, h]; simp [modStrs]
    unfold repackTarget
    simp only [TargText.tok, tokSeq, this]
    rw [← List.map_take, ← List.map_drop, strToks_join, strToks_join]
    have e1 : ([n.Z, n.sym, n.A] ++ ([['-'], [c]] ++ if d = [] then [] else [d])).take 3 = [n.Z, n.sym, n.A] := rfl
    have e2 : ([n.Z, n.sym, n.A] ++ ([['-'], [c]] ++ if d = [] then [] else [d])).drop 4 = [c] :: if d = [] then [] else [d] := rfl
    rw [e1, e2, if_pos (by simp), joinWith_nil]
    by_cases hd : d = []
    · simp [joinWith, TargText.text, NucText.text, h, hd, IsoMod.text]
    · simp [joinWith, TargText.text, NucText.text, h, hd, IsoMod.text]

theorem projTok_ok {p : ProdText} (h : (∃ w, p = .word w) ∨ p = .zero ∨ ∃ t, p = .nuc t ∧ t.mods = []) :
    strOrJoin ['-'] p.tok = .ok p.text := by
  rcases h with ⟨w, rfl⟩ | rfl | ⟨n, rfl, h⟩
  · rfl
  · rfl
  · have : n.toks = [n.Z, n.sym, n.A].map Tok.str := by rw [nucToks_eq, h]; simp [modStrs]
    simp only [strOrJoin, ProdText.tok, this, strToks_join]
    simp [joinWith, ProdText.text, NucText.text, h]

theorem prodTok_ok {p : ProdText} (h : ∀ t, p ≠ .nuc t) : strOrJoin [] p.tok = .ok p.text := by
  cases p with
  | nuc n => exact absurd rfl (h n)
  | mult n w => simp [strOrJoin, ProdText.tok, joinToks, strToks, joinWith, ProdText.text]
  | word w => rfl
  | zero => rfl

theorem joinWith_plus (p : ProdText) (l : List ProdText) :
    joinWith ['+'] ((p :: l).map ProdText.text) = p.text ++ l.flatMap (fun q => '+' :: q.text) := by
  induction l generalizing p with
  | nil => simp [joinWith]
  | cons q l ih =>
    have : joinWith ['+'] ((p :: q :: l).map ProdText.text) = p.text ++ ['+'] ++ joinWith ['+'] ((q :: l).map ProdText.text) := rfl
    rw [this, ih q]
    simp

theorem residText_eq {x : ReactText} {n : NucText} {q : Str} (hf : x.fields = [.empty, .word q]) (m : IsoMod) :
    residText x.proc.targ.text x.proc.proj.text (x.proc.prod.text ++ x.proc.prods.flatMap (fun q => '+' :: q.text)) (',' :: q)
      (.nuc ([n.Z, n.sym, n.A] ++ [m.letter :: m.digits])) = (x.withIsomer n m).text := by
  simp [residText, ReactText.withIsomer, ReactText.text, ProcText.text, hf, DescrText.text, TargText.text, NucText.text, IsoMod.text, joinWith]

theorem isomerRest_text (x : ReactText) (n : NucText) {q : Str} (hf : x.fields = [.empty, .word q]) (ms : List IsoMod) :
    ((ms.flatMap (fun m => [ResidPart.op [m.op], .nuc ([n.Z, n.sym, n.A] ++ [m.letter :: m.digits])])).map (residText x.proc.targ.text x.proc.proj.text
      (x.proc.prod.text ++ x.proc.prods.flatMap (fun q => '+' :: q.text)) (',' :: q))).flatten = (isomerRest x n ms).text := by
  induction ms with
  | nil => rw [isomerRest, RestText.text]; rfl
  | cons m ms ih =>
    rw [isomerRest, RestText.text, FactorText.text, List.flatMap_cons, List.map_append, List.flatten_append, ih, ← residText_eq hf m]
    simp [residText]

/-- C55 (partial): repacking gives the text of the parenthesised combination with one reaction for
each isomer, in order, with the same operators between them; each reaction is the original one
with the residual's isomer replaced. Missing: further quantities, nuclei among the products,
isomer numbers above 5 (all refuted below). -/
theorem C55_partial (x : ReactText) (n : NucText) (m : IsoMod) (ms : List IsoMod) (q : Str) (h : Repackable x n m ms q) :
    repack x.toks = .ok (unfoldIsomers x n m ms).text := by
  obtain ⟨hwf, ht, hp, hpr, hr, hmods, hs, hf⟩ := h
  have hqc : ',' ∉ q := by
    intro hc
    have := hwf.2 (.word q) (by rw [hf]; simp)
    exact absurd (this.2 _ hc) (by decide)
  have hnwf : n.wf := hwf.1.2.2.2.2 (.nuc n) (by rw [hr]; rfl)
  have hmw : ∀ k ∈ m :: ms, k.wf ∧ k.simple := fun k hk => ⟨hnwf.2.2.2 k (by rw [hmods]; exact hk), hs k hk⟩
  have et : x.toks = [.grp x.proc.toks, .str q] := by
    simp [ReactText.toks, hf, DescrText.toks]
  have ep : x.proc.toks = x.proc.targ.tok :: x.proc.proj.tok :: ((x.proc.prod :: x.proc.prods).map ProdText.tok ++ [.grp n.toks]) := by
    simp [ProcText.toks, hr, TargText.tok]
  have eprods : mapE (strOrJoin []) ((x.proc.prod :: x.proc.prods).map ProdText.tok) = .ok ((x.proc.prod :: x.proc.prods).map ProdText.text) := by
    have : ∀ l : List ProdText, (∀ p ∈ l, ∀ t, p ≠ .nuc t) → mapE (strOrJoin []) (l.map ProdText.tok) = .ok (l.map ProdText.text) := by
      intro l hl
      induction l with
      | nil => rfl
      | cons p l ih => simp only [List.map_cons, mapE, prodTok_ok (hl p (by simp)), ih (fun y hy => hl y (by simp [hy]))]
    exact this _ hpr
  have hlast : (tokSeq (.grp x.proc.toks)).getLast? = some (.grp n.toks) := by
    simp only [tokSeq, ep]
    rw [show x.proc.targ.tok :: x.proc.proj.tok :: ((x.proc.prod :: x.proc.prods).map ProdText.tok ++ [Tok.grp n.toks]) =
      (x.proc.targ.tok :: x.proc.proj.tok :: (x.proc.prod :: x.proc.prods).map ProdText.tok) ++ [Tok.grp n.toks] by simp, List.getLast?_concat]
  have hres : repackResid (.grp n.toks) = .ok ([n.Z, n.sym, n.A] ++ modStrs (m :: ms)) := by
    simp only [repackResid, nucToks_eq, strToks_map, hmods]
  have hq : repackQuant (.str q) = .ok (',' :: q) := by simp [repackQuant, hqc]
  have hl2 : ((x.proc.prod :: x.proc.prods).map ProdText.tok ++ [Tok.grp n.toks]).dropLast = (x.proc.prod :: x.proc.prods).map ProdText.tok :=
    List.dropLast_concat
  unfold repack
  rw [et]
  simp only [repackUnwrap, hq, hlast, Option.getD_some, hres]
  simp only [tokSeq, ep, repackTarget_ok ht, projTok_ok hp, hl2, eprods, residList_eq n m ms (hmw m (by simp)) (fun k hk => hmw k (by simp [hk]))]
  rw [joinWith_plus, List.map_cons, List.flatten_cons, residText_eq hf m, isomerRest_text x n hf ms]
  simp [unfoldIsomers, FactorText.text]

theorem unfoldIsomers_wf {x : ReactText} {n : NucText} {m : IsoMod} {ms : List IsoMod} {q : Str} (h : Repackable x n m ms q) :
    (unfoldIsomers x n m ms).wf := by
  obtain ⟨hwf, -, -, -, hr, hmods, hs, -⟩ := h
  have hnwf : n.wf := hwf.1.2.2.2.2 (.nuc n) (by rw [hr]; rfl)
  have hx : ∀ k ∈ m :: ms, (x.withIsomer n k).wf := by
    intro k hk
    have hkw := hnwf.2.2.2 k (by rw [hmods]; exact hk)
    refine ⟨⟨hwf.1.1, hwf.1.2.1, hwf.1.2.2.1, hwf.1.2.2.2.1, ?_⟩, hwf.2⟩
    intro t ht
    simp only [ReactText.withIsomer, Option.mem_def, Option.some.injEq] at ht
    subst ht
    refine ⟨hnwf.1, hnwf.2.1, hnwf.2.2.1, ?_⟩
    intro k' hk'
    simp only [List.mem_singleton] at hk'
    subst hk'
    exact ⟨by simp, hkw.2.1, hkw.2.2⟩
  have hrest : ∀ l : List IsoMod, (∀ k ∈ l, k ∈ m :: ms) → (isomerRest x n l).wf := by
    intro l hl
    induction l with
    | nil => rw [isomerRest, RestText.wf]; trivial
    | cons k l ih =>
      rw [isomerRest, RestText.wf, FactorText.wf]
      refine ⟨?_, hx k (hl k (by simp)), ih (fun y hy => hl y (by simp [hy]))⟩
      have := (hs k (hl k (by simp))).2
      simp only [List.mem_cons, List.not_mem_nil, or_false] at this
      rcases this with h | h | h <;> rw [h] <;> decide
  rw [unfoldIsomers, FactorText.wf, FactorText.wf]
  exact ⟨hx m (by simp), hrest ms (fun k hk => by simp [hk])⟩

/-- C55 (partial): a field with such a reaction, which by itself is refused for its isomer math, gives
the combination of the reactions for the single isomers. -/
theorem C55_field_partial (names : Dict Str (List Str)) (x : ReactText) (n : NucText) (m : IsoMod) (ms : List IsoMod) (q : Str)
    (h : Repackable x n m ms q) (free : Str) (ht : '\t' ∉ free) (hop : NoOp ['+', '-', '*', '/', '='] free)
    (hiso : reactionOfStr names x.text = .error .isomerMathParsingError) (rd : ReactText → Reaction)
    (hrd : ∀ k ∈ m :: ms, reactionOfStr names (x.withIsomer n k).text = .ok (rd (x.withIsomer n k))) :
    reactionFieldText names (x.text ++ free) = .ok (.iso ((unfoldIsomers x n m ms).data rd), freeLine free) := by
  have hp := C65_parse (.rx x) (by rw [FactorText.wf]; exact h.wf) free ht hop
  rw [FactorText.text, FactorText.toks] at hp
  rw [reactionOfStr_toks names x h.wf] at hiso
  have hu := unfoldIsomers_wf h
  have hreacts : ∀ y ∈ (unfoldIsomers x n m ms).reacts, reactionOfStr names y.text = .ok (rd y) := by
    have hrest : ∀ l : List IsoMod, (∀ k ∈ l, k ∈ m :: ms) → ∀ y ∈ (isomerRest x n l).reacts, reactionOfStr names y.text = .ok (rd y) := by
      intro l hl
      induction l with
      | nil => rw [isomerRest, RestText.reacts]; intro y hy; cases hy
      | cons k l ih =>
        rw [isomerRest, RestText.reacts, FactorText.reacts]
        intro y hy
        rcases List.mem_append.1 hy with hy | hy
        · rw [List.mem_singleton.1 hy]; exact hrd k (hl k (by simp))
        · exact ih (fun z hz => hl z (by simp [hz])) y hy
    rw [unfoldIsomers, FactorText.reacts, FactorText.reacts]
    intro y hy
    rcases List.mem_append.1 hy with hy | hy
    · rw [List.mem_singleton.1 hy]; exact hrd m (by simp)
    · exact hrest ms (fun k hk => by simp [hk]) y hy
  have hc : combination names maxDepth (unfoldIsomers x n m ms).toks = .ok ((unfoldIsomers x n m ms).data rd) := by
    unfold maxDepth combination
    exact mapE_factor names _ rd _ hu hreacts
  have hrep : repack [.grp x.toks] = .ok (unfoldIsomers x n m ms).text := by
    rw [← C55_partial x n m ms q h]
    have : x.toks = [.grp x.proc.toks, .str q] := by simp [ReactText.toks, h.fields, DescrText.toks]
    rw [this]
    rfl
  have hiw : isoWith (combination names maxDepth) [.grp x.toks] = .ok (.iso ((unfoldIsomers x n m ms).data rd)) := by
    unfold isoWith
    rw [hrep]
    simp only [parseExpression_text _ hu, hc]
  have hm : getMeasurementType names [.grp x.toks] = .ok (.iso ((unfoldIsomers x n m ms).data rd)) := by
    have : measurementTry names [.grp x.toks] = .error .isomerMathParsingError := by
      unfold measurementTry
      simp only [List.any_cons, List.any_nil, isOpTok, Bool.or_self, Bool.false_eq_true, if_false, hiso]
    unfold getMeasurementType
    rw [this]
    simp only [hiw]
  unfold reactionFieldText
  rw [hp]
  simp only [List.cons_append, List.nil_append, List.dropLast, List.getLast?_cons_cons, List.getLast?_singleton, hm]

/-- `(95-AM-241(N,G)95-AM-242-M/G,,SIG)` -/
def isomerReaction : ReactText where
  proc := {
    targ := .nuc ⟨chars!"95", chars!"AM", chars!"241", []⟩, proj := .word ['N'], prod := .word ['G'], prods := [],
    resid := some (.nuc ⟨chars!"95", chars!"AM", chars!"242", [⟨'-', 'M', []⟩, ⟨'/', 'G', []⟩]⟩) }
  fields := [.empty, .word chars!"SIG"]

theorem isomerReaction_repackable : Repackable isomerReaction ⟨chars!"95", chars!"AM", chars!"242", [⟨'-', 'M', []⟩, ⟨'/', 'G', []⟩]⟩
    ⟨'-', 'M', []⟩ [⟨'/', 'G', []⟩] chars!"SIG" where
  wf := by
    have h := exampleReaction_wf
    refine ⟨⟨h.1.1, h.1.2.1, h.1.2.2.1, h.1.2.2.2.1, ?_⟩, h.2⟩
    intro r hr
    simp only [isomerReaction, Option.mem_some_iff] at hr
    subst hr
    refine ⟨⟨by decide, by decide⟩, ⟨'A', ['M'], rfl, .inl (by decide), by decide, by decide⟩, ⟨by decide, by decide⟩, ?_⟩
    intro m hm
    simp only [List.mem_cons, List.not_mem_nil, or_false] at hm
    rcases hm with rfl | rfl
    · exact ⟨by decide, by decide, by simp⟩
    · exact ⟨by decide, by decide, by simp⟩
  targ := .inr ⟨_, rfl, .inl rfl⟩
  proj := .inl ⟨_, rfl⟩
  prods := by
    intro p hp t
    simp only [isomerReaction, List.mem_cons, List.not_mem_nil, or_false] at hp
    subst hp
    simp
  resid := rfl
  mods := rfl
  simple := by
    intro k hk
    simp only [List.mem_cons, List.not_mem_nil, or_false] at hk
    rcases hk with rfl | rfl
    · exact ⟨by decide, by decide⟩
    · exact ⟨by decide, by decide⟩
  fields := rfl

set_option maxRecDepth 20000 in
/-- C55_partial and C55_field_partial apply to a ratio of isomers. -/
example : isomerReaction.text = chars!"(95-AM-241(N,G)95-AM-242-M/G,,SIG)" ∧
    repack isomerReaction.toks = .ok chars!"((95-AM-241(N,G)95-AM-242-M,,SIG)/(95-AM-241(N,G)95-AM-242-G,,SIG))" ∧
    ∃ a b, reactionFieldText [] (isomerReaction.text ++ chars!" text") = .ok (.iso [.op ['('], .rx a, .op ['/'], .rx b, .op [')']], chars!"text") := by
  refine ⟨by decide, ?_, ?_⟩
  · rw [C55_partial _ _ _ _ _ isomerReaction_repackable]
    decide +kernel
  · have h1 : (reactionOfStr [] (isomerReaction.withIsomer ⟨chars!"95", chars!"AM", chars!"242", [⟨'-', 'M', []⟩, ⟨'/', 'G', []⟩]⟩ ⟨'-', 'M', []⟩).text).isOk = true := by
      decide +kernel
    have h2 : (reactionOfStr [] (isomerReaction.withIsomer ⟨chars!"95", chars!"AM", chars!"242", [⟨'-', 'M', []⟩, ⟨'/', 'G', []⟩]⟩ ⟨'/', 'G', []⟩).text).isOk = true := by
      decide +kernel
    have h3 : reactionOfStr [] isomerReaction.text = .error .isomerMathParsingError := by
      have : (match reactionOfStr [] isomerReaction.text with | .error .isomerMathParsingError => true | _ => false) = true := by decide +kernel
      revert this
      cases reactionOfStr [] isomerReaction.text with
      | ok r => simp
      | error e => cases e <;> simp
    cases ha : reactionOfStr [] (isomerReaction.withIsomer ⟨chars!"95", chars!"AM", chars!"242", [⟨'-', 'M', []⟩, ⟨'/', 'G', []⟩]⟩ ⟨'-', 'M', []⟩).text with
    | error e => rw [ha] at h1; simp [Except.isOk, Except.toBool] at h1
    | ok a =>
      cases hb : reactionOfStr [] (isomerReaction.withIsomer ⟨chars!"95", chars!"AM", chars!"242", [⟨'-', 'M', []⟩, ⟨'/', 'G', []⟩]⟩ ⟨'/', 'G', []⟩).text with
      | error e => rw [hb] at h2; simp [Except.isOk, Except.toBool] at h2
      | ok b =>
        refine ⟨a, b, ?_⟩
        have := C55_field_partial [] isomerReaction _ _ _ _ isomerReaction_repackable chars!" text" (by decide) (by intro c hc; simp only [show skipWs chars!" text" = chars!"text" from rfl] at hc; revert c; decide) h3
          (fun y => match reactionOfStr [] y.text with | .ok r => r | .error _ => a)
          (by
            intro k hk
            simp only [List.mem_cons, List.not_mem_nil, or_false] at hk
            rcases hk with rfl | rfl
            · rw [ha]
            · rw [hb])
        rw [this]
        simp only [unfoldIsomers, isomerRest, FactorText.data, RestText.data, ha, hb, List.cons_append, List.nil_append, List.append_nil]
        rfl

/-- C55 is false when there are more than the first descriptor after the process: they are
dropped, so reactions with different descriptors are repacked to the same text. -/
theorem C55_descriptors_refuted (p : ProcText) (q : Str) (more : List DescrText) :
    repack (ReactText.mk p (.empty :: .word q :: more)).toks = repack (ReactText.mk p [.empty, .word q]).toks := by
  simp only [ReactText.toks, List.flatMap_cons, DescrText.toks, List.nil_append, List.cons_append, List.flatMap_nil]
  unfold repack
  simp only [repackUnwrap]

/-- non-vacuity: such texts repack successfully, and the spectrum average `MXW` is lost -/
example : repack (ReactText.mk isomerReaction.proc [.empty, .word chars!"SIG", .empty, .word chars!"MXW"]).toks =
    .ok chars!"((95-AM-241(N,G)95-AM-242-M,,SIG)/(95-AM-241(N,G)95-AM-242-G,,SIG))" := by
  rw [C55_descriptors_refuted]
  decide +kernel

/-- C55 is false when a product is a nucleus: its parts are joined without dashes. -/
theorem C55_nucleus_refuted : ∃ x : ReactText, x.text = chars!"(92-U-235(N,6-C-14)86-RN-222-M/G,,SIG)" ∧
    repack x.toks = .ok chars!"((92-U-235(N,6C14)86-RN-222-M,,SIG)/(92-U-235(N,6C14)86-RN-222-G,,SIG))" := by
  refine ⟨⟨⟨.nuc ⟨chars!"92", ['U'], chars!"235", []⟩, .word ['N'], .nuc ⟨['6'], ['C'], chars!"14", []⟩, [],
    some (.nuc ⟨chars!"86", chars!"RN", chars!"222", [⟨'-', 'M', []⟩, ⟨'/', 'G', []⟩]⟩)⟩, [.empty, .word chars!"SIG"]⟩, ?_, ?_⟩
  · decide
  · decide +kernel

/-- C55 is false for isomers numbered above 5: the number is taken for a state of its own, without
an operator between. -/
theorem C55_number_refuted : ∃ x : ReactText, x.text = chars!"(95-AM-241(N,G)95-AM-242-M6/G,,SIG)" ∧
    repack x.toks = .ok chars!"((95-AM-241(N,G)95-AM-242-M,,SIG)(95-AM-241(N,G)95-AM-242-6,,SIG)/(95-AM-241(N,G)95-AM-242-G,,SIG))" := by
  refine ⟨⟨⟨.nuc ⟨chars!"95", chars!"AM", chars!"241", []⟩, .word ['N'], .word ['G'], [],
    some (.nuc ⟨chars!"95", chars!"AM", chars!"242", [⟨'-', 'M', ['6']⟩, ⟨'/', 'G', []⟩]⟩)⟩, [.empty, .word chars!"SIG"]⟩, ?_, ?_⟩
  · decide
  · decide +kernel

end X4
