import Verif.Props.ReactionText
import Verif.Lemmas.Case
import Verif.Lemmas.Dict
/-! Printed particles and reactions (C82–C84). -/
namespace X4
open Parser

/-! ### C82: the type of a reaction -/

/-- C82 (partial): if the descriptors, joined by commas, are a code of the dictionary of quantities, the type is the text of this code. -/
theorem C82_code_partial (D : RxDicts) (R : Reaction) (q : List Str) (hq : R.quantity = q.map Tok.str) (text : Str) (more : List Str)
    (h : D.quantities.get? (joinWith [','] q) = some (text :: more)) : R.getReactionType D = .ok text := by
  unfold Reaction.getReactionType
  rw [hq, strToks_map]
  simp only [h]
  rfl

/-- C82 (partial): a single descriptor after an empty field, as in `,SIG`, gives the text of that code, with the text of the modifier
before it if the descriptor is one. -/
theorem C82_single_partial (D : RxDicts) (R : Reaction) (d : Str) (hq : R.quantity = [Tok.str d]) (text : Str) (more : List Str)
    (h0 : D.quantities.get? d = none) (h1 : D.modifiers.get? d = none) (h : D.quantities.get? (',' :: d) = some (text :: more)) :
    R.getReactionType D = .ok text := by
  unfold Reaction.getReactionType
  rw [hq]
  simp only [strToks, Option.map_some, joinWith, h0, firstEntry, h1, entryText, List.map_cons, List.map_nil, List.cons_append, List.nil_append, h]
  have : pyIdx (text :: more) 0 = .ok text := rfl
  simp only [this, List.append_nil]

/-- C82_single_partial applies to cross sections. -/
example (p : Process) : (Reaction.mk p [.str chars!"SIG"]).getReactionType ⟨[], [(chars!",SIG", [chars!"Cross section"])], []⟩ = .ok chars!"Cross section" :=
  C82_single_partial _ _ chars!"SIG" rfl _ [] (by decide) (by decide) (by decide)
/-- C82_code_partial applies. -/
example (p : Process) : (Reaction.mk p [.str chars!"CUM", .str chars!"FY"]).getReactionType
    ⟨[], [(chars!"CUM,FY", [chars!"Cumulative fission-product yield"])], []⟩ = .ok chars!"Cumulative fission-product yield" :=
  C82_code_partial _ _ [chars!"CUM", chars!"FY"] rfl _ [] (by decide)

theorem firstEntry_split (D : Dict Str (List Str)) (a b : List Str) (k : Str) (v : List Str) (ha : ∀ x ∈ a, D.get? x = none) (hk : D.get? k = some v) :
    firstEntry D (a ++ k :: b) = some v := by
  induction a with
  | nil => rw [List.nil_append, firstEntry, hk]
  | cons x a ih =>
    rw [List.cons_append, firstEntry, ha x (by simp)]
    exact ih fun y hy => ha y (by simp [hy])

/-- C82 (partial): if the dictionary does not have the code, the type is the text of the first modifier among the descriptors, followed by that of
the first descriptor which the dictionary has, alone or after an empty field. -/
theorem C82_modified_partial (D : RxDicts) (R : Reaction) (a b u v : List Str) (m k mtext text : Str) (mmore more : List Str)
    (hq : R.quantity = (a ++ m :: b).map Tok.str) (h0 : D.quantities.get? (joinWith [','] (a ++ m :: b)) = none)
    (ha : ∀ x ∈ a, D.modifiers.get? x = none) (hm : D.modifiers.get? m = some (mtext :: mmore))
    (hk : (a ++ m :: b) ++ (a ++ m :: b).map (',' :: ·) = u ++ k :: v)
    (hu : ∀ x ∈ u, D.quantities.get? x = none) (ht : D.quantities.get? k = some (text :: more)) :
    R.getReactionType D = .ok (mtext ++ chars!" " ++ text) := by
  unfold Reaction.getReactionType
  rw [hq, strToks_map]
  simp only [h0]
  rw [firstEntry_split _ _ _ _ _ ha hm, hk, firstEntry_split _ _ _ _ _ hu ht]
  have h1 : pyIdx (mtext :: mmore) 0 = .ok mtext := rfl
  have h2 : pyIdx (text :: more) 0 = .ok text := rfl
  simp only [entryText, h1, h2, List.append_nil]

/-- C82_modified_partial applies to averaged cross sections. -/
example (p : Process) : (Reaction.mk p [.str chars!"SIG", .str chars!"AV"]).getReactionType
    ⟨[], [(chars!",SIG", [chars!"Cross section"])], [(chars!"AV", [chars!"Average"])]⟩ = .ok chars!"Average Cross section" :=
  C82_modified_partial ⟨[], [(chars!",SIG", [chars!"Cross section"])], [(chars!"AV", [chars!"Average"])]⟩ _ [chars!"SIG"] []
    [chars!"SIG", chars!"AV"] [chars!",AV"] chars!"AV" chars!",SIG" chars!"Average" chars!"Cross section" [] [] rfl (by decide) (by decide) (by decide)
    (by decide) (by decide) (by decide)

/-- C82 fails for codes that differ in their empty fields: `(...,,SIG,,AV)` and `(...,SIG,AV)` give the same
object, hence the same type, whatever the dictionaries say about `,SIG,,AV` and `SIG,AV`. -/
theorem C82_empty_refuted (names : Dict Str (List Str)) (x y : ReactText) (hx : x.wf) (hy : y.wf) (hp : x.proc = y.proc)
    (hf : x.fields.filter (· ≠ .empty) = y.fields.filter (· ≠ .empty)) : reactionOfStr names x.text = reactionOfStr names y.text := by
  have h : ∀ l : List DescrText, l.flatMap DescrText.toks = (l.filter (· ≠ .empty)).flatMap DescrText.toks := by
    intro l
    induction l with
    | nil => rfl
    | cons f l ih => cases f <;> simp [DescrText.toks, ih]
  rw [reactionOfStr_toks names x hx, reactionOfStr_toks names y hy, ReactText.toks, ReactText.toks, hp, h x.fields, h y.fields, hf]

set_option maxRecDepth 20000 in
/-- C82_empty_refuted applies to two different quantities. -/
example : ∃ x y : ReactText, x.text = chars!"(95-AM-241(N,G)95-AM-242-M,,SIG,,AV)" ∧ y.text = chars!"(95-AM-241(N,G)95-AM-242-M,SIG,AV)" ∧
    reactionOfStr [] x.text = reactionOfStr [] y.text := by
  have hw : ∀ w : Str, w ∈ [chars!"SIG", chars!"AV"] → (DescrText.word w).wf := by
    intro w hw
    simp only [List.mem_cons, List.not_mem_nil, or_false] at hw
    rcases hw with rfl | rfl <;> exact ⟨by decide, by decide⟩
  refine ⟨{ exampleReaction with fields := [.empty, .word chars!"SIG", .empty, .word chars!"AV"] },
    { exampleReaction with fields := [.word chars!"SIG", .word chars!"AV"] }, by decide, by decide, ?_⟩
  refine C82_empty_refuted [] _ _ ⟨exampleReaction_wf.1, ?_⟩ ⟨exampleReaction_wf.1, ?_⟩ rfl (by decide)
  · intro f hf
    simp only [List.mem_cons, List.not_mem_nil, or_false] at hf
    rcases hf with rfl | rfl | rfl | rfl
    · trivial
    · exact hw _ (by simp)
    · trivial
    · exact hw _ (by simp)
  · intro f hf
    simp only [List.mem_cons, List.not_mem_nil, or_false] at hf
    rcases hf with rfl | rfl <;> exact hw _ (by simp)

/-! ### C83: several particles -/

theorem lower_digits {n : Str} (hn : ∀ c ∈ n, isDig c = true) : lower n = n := by
  unfold lower
  have : ∀ c ∈ n, c.toLower = id c := by
    intro c hc
    have := hn c hc
    simp only [isDig, Bool.and_eq_true, decide_eq_true_eq] at this
    rcases toLower_cases c with h | h
    · omega
    · exact h.2
  rw [List.map_congr_left this, List.map_id]

/-- C83: the product `2N`, `3P`, ... of a reaction is printed, in either form, with its number: in front
of the code in small letters, or (in the readable form of codes with several letters) in front of the
capitalized code. -/
theorem C83_count (names : Dict Str (List Str)) (n w : Str) (p : Particle) (hn : DigitText n) (h2 : 2 ≤ digitsVal n) (hw : w ≠ ['0'])
    (h : setParticleType (.grp [.str n, .str w]) = .ok p) :
    p.pretty names = .ok (natStr (digitsVal n) ++ if w.length = 1 then lower w else capitalize w) ∧
    p.exfor = .ok (natStr (digitsVal n) ++ lower w) := by
  have hl : lower n = n := lower_digits hn.2
  simp only [setParticleType, strToks, Option.map_some, particleOfToks, List.map_cons, List.map_nil, hl, multSym, pyIntE,
    pyInt_digits hn.2 hn.1] at h
  unfold lookupParticle at h
  simp only at h
  split at h
  · cases h
  · rename_i Z hZ
    split at h
    · cases h
    · rename_i A hA
      injection h with h
      subst h
      have hpre : multPrefix (.num (digitsVal n : Int)) = .ok (natStr (digitsVal n)) := by
        simp only [multPrefix]
        rw [if_pos (by omega)]
        rfl
      have hk : upper w ∈ x4ZMap.keys := by
        rw [upper_lower] at hZ
        rw [Dict.mem_keys_iff]
        unfold Dict.get at hZ
        cases hg : x4ZMap.get? (upper w) with
        | none => rw [hg] at hZ; cases hZ
        | some v => rfl
      have hlw : lower w = lower (upper w) := (lower_upper w).symm
      have key : ∀ k ∈ x4ZMap.keys, x4Hadrons.get? (lower k) = none ∧
          (k ≠ ['0'] → prettySym (lower k) = if k.length = 1 then lower k else capitalize k) := by decide +kernel
      obtain ⟨k1, k2⟩ := key _ hk
      have hlen : (upper w).length = w.length := by simp [upper]
      have hcap : capitalize (upper w) = capitalize w := by
        cases w with
        | nil => rfl
        | cons c r =>
          have := lower_upper r
          simp only [lower, upper] at this
          simp only [upper, List.map_cons, capitalize, this, toUpper_toUpper]
      have h0 : upper w ≠ ['0'] := by
        intro e
        have hl : w.length = 1 := by rw [← hlen, e]; rfl
        obtain ⟨c, rfl⟩ := List.length_eq_one_iff.1 hl
        simp only [upper, List.map_cons, List.map_nil, List.cons.injEq, and_true] at e
        exact hw (by rw [(toUpper_eq_iff (by decide)).1 e])
      have k3 := k2 h0
      rw [hlen, hcap, ← hlw] at k3
      rw [← hlw] at k1
      constructor
      · simp only [Particle.pretty, prettyParticle, hpre, k1, k3]
      · simp only [Particle.exfor, hpre]

/-- C83_count applies to two neutrons. -/
example : ∃ p, setParticleType (.grp [.str ['2'], .str ['N']]) = .ok p ∧ p.pretty [] = .ok ['2', 'n'] ∧ p.exfor = .ok ['2', 'n'] :=
  ⟨.particle (.num 2) ['n'] 0 1, by decide +kernel, by decide +kernel, by decide +kernel⟩

end X4
