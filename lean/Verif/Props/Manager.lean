import Verif.Lemmas.Manager
import Verif.Lemmas.Case
import Verif.Props.Entry
import Verif.Py.Chars
/-! C44–C48: queries of the database index and retrieval of entries. -/
namespace X4

/-! ### patterns -/

theorem mem_endings {s t : Str} : t ∈ endings s ↔ ∃ a, s = a ++ t := by
  induction s generalizing t with
  | nil => simp [endings]
  | cons c s ih =>
    simp only [endings, List.mem_cons, ih]
    constructor
    · rintro (rfl | ⟨a, rfl⟩)
      · exact ⟨[], rfl⟩
      · exact ⟨c :: a, rfl⟩
    · rintro ⟨a, h⟩
      cases a with
      | nil => exact .inl h.symm
      | cons x a => simp only [List.cons_append, List.cons.injEq] at h; exact .inr ⟨a, h.2⟩

theorem glob_star {p u : Str} : Glob ('*' :: p) u ↔ ∃ a t, u = a ++ t ∧ Glob p t := by
  constructor
  · intro h
    cases h with
    | star a h => exact ⟨a, _, rfl, h⟩
    | char c hc _ => exact absurd rfl hc
  · rintro ⟨a, t, rfl, h⟩
    exact .star a h

theorem glob_char {p u : Str} {c : Char} (hc : c ≠ '*') : Glob (c :: p) u ↔ ∃ t, u = c :: t ∧ Glob p t := by
  constructor
  · intro h
    cases h with
    | star a h => exact absurd rfl hc
    | char c _ h => exact ⟨_, rfl, h⟩
  · rintro ⟨t, rfl, h⟩
    exact .char c hc h

theorem toUpper_nat (c : Char) : (97 ≤ c.toNat ∧ c.toNat ≤ 122 ∧ c.toUpper.toNat + 32 = c.toNat) ∨
    (¬(97 ≤ c.toNat ∧ c.toNat ≤ 122) ∧ c.toUpper.toNat = c.toNat) :=
  (toUpper_cases c).imp id (fun h => ⟨h.1, by rw [h.2]⟩)
theorem toLower_nat (c : Char) : (65 ≤ c.toNat ∧ c.toNat ≤ 90 ∧ c.toLower.toNat = c.toNat + 32) ∨
    (¬(65 ≤ c.toNat ∧ c.toNat ≤ 90) ∧ c.toLower.toNat = c.toNat) :=
  (toLower_cases c).imp id (fun h => ⟨h.1, by rw [h.2]⟩)

theorem toLower_eq_iff (c d : Char) : c.toUpper.toLower = d.toLower ↔ c.toUpper = d.toUpper := by
  constructor
  · intro h
    have := congrArg Char.toUpper h
    rwa [toUpper_toLower, toUpper_toUpper, toUpper_toLower] at this
  · intro h
    rw [h, toLower_toUpper]

theorem toUpper_ne_underscore {c : Char} (h : c ≠ '_') : c.toUpper ≠ '_' := by
  intro e
  apply h
  apply char_ext_toNat
  have h1 := toUpper_nat c
  have h2 : c.toUpper.toNat = 95 := by rw [e]; rfl
  have h3 : ('_' : Char).toNat = 95 := rfl
  omega

theorem likeMatch_cons (p : Char) (ps s : Str) : likeMatch (p :: ps) s =
    if p = '%' then (endings s).any (fun t => likeMatch ps t)
    else match s with
      | [] => false
      | c :: cs => (p = '_' || p.toLower == c.toLower) && likeMatch ps cs := by
  cases s <;> rfl

theorem like_glob (r : Str) (h1 : '%' ∉ r) (h2 : '_' ∉ r) (s : Str) :
    likeMatch (upper (replaceChar '*' ['%'] r)) s = true ↔ Glob (upper r) (upper s) := by
  induction r generalizing s with
  | nil =>
    simp only [replaceChar, List.flatMap_nil, upper, List.map_nil, likeMatch]
    cases s with
    | nil => simp; exact .nil
    | cons c s => simp; intro h; cases h
  | cons c r ih =>
    have ih := ih (fun h => h1 (by simp [h])) (fun h => h2 (by simp [h]))
    by_cases hc : c = '*'
    · subst hc
      have e1 : upper (replaceChar '*' ['%'] ('*' :: r)) = '%' :: upper (replaceChar '*' ['%'] r) := by
        simp [replaceChar, upper]
      have e2 : upper ('*' :: r) = '*' :: upper r := rfl
      rw [e1, e2, glob_star, likeMatch_cons, if_pos rfl, List.any_eq_true]
      constructor
      · rintro ⟨t, ht, hm⟩
        obtain ⟨a, rfl⟩ := mem_endings.1 ht
        exact ⟨upper a, upper t, by simp [upper], (ih t).1 hm⟩
      · rintro ⟨a, t, hs, hg⟩
        obtain ⟨a', t', rfl, rfl, rfl⟩ := List.map_eq_append_iff.1 hs
        exact ⟨t', mem_endings.2 ⟨a', rfl⟩, (ih t').2 hg⟩
    · have e1 : upper (replaceChar '*' ['%'] (c :: r)) = c.toUpper :: upper (replaceChar '*' ['%'] r) := by
        simp [replaceChar, upper, hc]
      have e2 : upper (c :: r) = c.toUpper :: upper r := rfl
      have n1 : c.toUpper ≠ '%' := by
        rw [Ne, toUpper_eq_iff (by decide)]
        rintro rfl; exact h1 (by simp)
      have n2 : c.toUpper ≠ '_' := toUpper_ne_underscore (by rintro rfl; exact h2 (by simp))
      have n3 : c.toUpper ≠ '*' := by rw [Ne, toUpper_eq_iff (by decide)]; exact hc
      rw [e1, e2, glob_char n3, likeMatch_cons, if_neg n1]
      cases s with
      | nil => simp [upper]
      | cons d s =>
        simp only [n2, decide_false, Bool.false_or, Bool.and_eq_true, beq_iff_eq, toLower_eq_iff, ih s]
        constructor
        · rintro ⟨a, b⟩
          exact ⟨upper s, by simp [upper, a], b⟩
        · rintro ⟨t, e, g⟩
          simp only [upper, List.map_cons, List.cons.injEq] at e
          exact ⟨e.1.symm, by unfold upper; rw [e.2]; exact g⟩

/-! ### the condition means that all criteria hold -/

/-- the criteria as comparisons -/
def Criteria.crits (c : Criteria) : List (Crit × SqlCol) :=
  (c.author.map (fun a => (⟨"author".toList, false, capitalize a⟩, .author))).toList ++
  (c.target.map (fun t => (⟨"target".toList, false, upper t⟩, .target))).toList ++
  (c.reaction.map (fun r => if '*' ∈ r then (⟨"reaction".toList, true, upper (replaceChar '*' ['%'] r)⟩, .reaction)
    else (⟨"reaction".toList, false, upper r⟩, .reaction))).toList ++
  (c.projectile.map (fun p => (⟨"projectile".toList, false, upper p⟩, .projectile))).toList ++
  (c.quantity.map (fun q => (⟨"quantity".toList, false, if q = ['C', 'S'] then ['S', 'I', 'G'] else upper q⟩, .quantity))).toList ++
  (c.SUBENT.map (fun s => (⟨"subent".toList, false, s.text⟩, .subent))).toList ++
  (c.ENTRY.map (fun s => (⟨"entry".toList, false, s.text⟩, .entry))).toList

theorem conditions_eq (c : Criteria) : c.conditions = (c.crits.map Prod.fst).map Crit.render := by
  have hq : ∀ q, quantityCriterion q = Crit.render ⟨"quantity".toList, false, if q = ['C', 'S'] then ['S', 'I', 'G'] else upper q⟩ := by
    intro q
    unfold quantityCriterion Crit.render
    have : "CS".toList = ['C', 'S'] := rfl
    rw [this]
    split <;> rfl
  have hr : ∀ r, reactionCriterion r = Crit.render (if '*' ∈ r then ((⟨"reaction".toList, true, upper (replaceChar '*' ['%'] r)⟩, .reaction) : Crit × SqlCol)
      else (⟨"reaction".toList, false, upper r⟩, .reaction)).1 := by
    intro r
    unfold reactionCriterion Crit.render
    split <;> rfl
  have happ : ∀ {a a' b b' : List Str}, a = a' → b = b' → a ++ b = a' ++ b' := fun h1 h2 => by rw [h1, h2]
  unfold Criteria.conditions Criteria.crits
  iterate 6 rw [List.map_append, List.map_append]
  refine happ (happ (happ (happ (happ (happ ?_ ?_) ?_) ?_) ?_) ?_) ?_
  · cases c.author <;> rfl
  · cases c.target <;> rfl
  · cases c.reaction with
    | none => rfl
    | some r => exact congrArg (fun x => [x]) (hr r)
  · cases c.projectile <;> rfl
  · cases c.quantity with
    | none => rfl
    | some q => exact congrArg (fun x => [x]) (hq q)
  · cases c.SUBENT <;> rfl
  · cases c.ENTRY <;> rfl

theorem plain_map {s : Str} (f : Char → Char) (h : PlainText s) (h1 : ∀ c, f c = '\'' → c = '\'') (h2 : ∀ c, f c = Char.ofNat 0 → c = Char.ofNat 0) :
    PlainText (s.map f) := by
  constructor
  · intro hm
    obtain ⟨c, hc, e⟩ := List.mem_map.1 hm
    exact h.1 (h1 c e ▸ hc)
  · intro hm
    obtain ⟨c, hc, e⟩ := List.mem_map.1 hm
    exact h.2 (h2 c e ▸ hc)

theorem toLower_fix {c d : Char} (hd : ¬(65 ≤ d.toNat ∧ d.toNat ≤ 122)) (h : c.toLower = d) : c = d := by
  apply char_ext_toNat
  have h1 := toLower_nat c
  have h2 : c.toLower.toNat = d.toNat := by rw [h]
  omega

theorem plain_upper {s : Str} (h : PlainText s) : PlainText (upper s) :=
  plain_map _ h (fun _ e => (toUpper_eq_iff (by decide)).1 e) (fun _ e => (toUpper_eq_iff (by decide)).1 e)

theorem plain_lower {s : Str} (h : PlainText s) : PlainText (lower s) :=
  plain_map _ h (fun _ e => toLower_fix (by decide) e) (fun _ e => toLower_fix (by decide) e)

theorem plain_capitalize {s : Str} (h : PlainText s) : PlainText (capitalize s) := by
  cases s with
  | nil => exact h
  | cons c s =>
    have h1 : PlainText (upper [c]) := plain_upper ⟨fun hm => h.1 (by rw [List.mem_singleton] at hm; rw [← hm]; exact List.mem_cons_self ..), fun hm => h.2 (by rw [List.mem_singleton] at hm; rw [← hm]; exact List.mem_cons_self ..)⟩
    have h2 : PlainText (lower s) := plain_lower ⟨fun hm => h.1 (by simp [hm]), fun hm => h.2 (by simp [hm])⟩
    constructor
    · intro hm
      rcases List.mem_cons.1 hm with e | hm
      · exact h1.1 (by simp [upper, ← e])
      · exact h2.1 hm
    · intro hm
      rcases List.mem_cons.1 hm with e | hm
      · exact h1.2 (by simp [upper, ← e])
      · exact h2.2 hm

theorem plain_intStr (i : Int) : PlainText (intStr i) := by
  have hn : ∀ n c, c ∈ natStr n → c ≠ '\'' ∧ c ≠ Char.ofNat 0 := by
    intro n c hc
    have := (natStr_spec n).1 c hc
    constructor <;> rintro rfl <;> revert this <;> decide
  cases i with
  | ofNat n => exact ⟨fun h => (hn n _ h).1 rfl, fun h => (hn n _ h).2 rfl⟩
  | negSucc n =>
    constructor
    · intro h
      rcases List.mem_cons.1 h with h | h
      · revert h; decide
      · exact (hn _ _ h).1 rfl
    · intro h
      rcases List.mem_cons.1 h with h | h
      · revert h; decide
      · exact (hn _ _ h).2 rfl

theorem plain_replace {r : Str} (h : PlainText r) : PlainText (replaceChar '*' ['%'] r) := by
  have : replaceChar '*' ['%'] r = r.map (fun c => if c = '*' then '%' else c) := by
    unfold replaceChar
    induction r with
    | nil => rfl
    | cons c r ih =>
      rw [List.flatMap_cons, ih ⟨fun hm => h.1 (by simp [hm]), fun hm => h.2 (by simp [hm])⟩]
      by_cases hc : c = '*' <;> simp [hc]
  rw [this]
  refine plain_map _ h ?_ ?_
  · intro c e
    by_cases hc : c = '*'
    · rw [if_pos hc] at e; exact absurd e (by decide)
    · rwa [if_neg hc] at e
  · intro c e
    by_cases hc : c = '*'
    · rw [if_pos hc] at e; exact absurd e (by decide)
    · rwa [if_neg hc] at e

theorem crit_ok {name t : Str} {like : Bool} {col : SqlCol} (h1 : name ≠ []) (h2 : ∀ c ∈ name, isIdStart c = true) (h3 : sqlCol name = some col)
    (ht : PlainText t) : ((⟨name, like, t⟩, col) : Crit × SqlCol).1.ok ∧ sqlCol ((⟨name, like, t⟩, col) : Crit × SqlCol).1.name = some col :=
  ⟨⟨h1, h2, ht⟩, h3⟩

theorem crits_ok {c : Criteria} (h : Plain c) : ∀ x ∈ c.crits, x.1.ok ∧ sqlCol x.1.name = some x.2 := by
  intro x hx
  simp only [Criteria.crits, List.mem_append, Option.mem_toList, Option.map_eq_some_iff] at hx
  rcases hx with (((((⟨a, ha, rfl⟩ | ⟨t, ht, rfl⟩) | ⟨r, hr, rfl⟩) | ⟨p, hp, rfl⟩) | ⟨q, hq, rfl⟩) | ⟨s, hs, rfl⟩) | ⟨s, hs, rfl⟩
  · exact (crit_ok (by decide) (by decide) (by decide) (plain_capitalize (h.author a ha)))
  · exact (crit_ok (by decide) (by decide) (by decide) (plain_upper (h.target t ht)))
  · have hp := (h.reaction r hr).1
    split
    · exact (crit_ok (by decide) (by decide) (by decide) (plain_upper (plain_replace hp)))
    · exact (crit_ok (by decide) (by decide) (by decide) (plain_upper hp))
  · exact (crit_ok (by decide) (by decide) (by decide) (plain_upper (h.projectile p hp)))
  · refine crit_ok (by decide) (by decide) (by decide) ?_
    split
    · exact ⟨by decide, by decide⟩
    · exact plain_upper (h.quantity q hq)
  · refine crit_ok (by decide) (by decide) (by decide) ?_
    cases s with
    | int i => exact plain_intStr i
    | str s => exact h.subent s hs
  · refine crit_ok (by decide) (by decide) (by decide) ?_
    cases s with
    | int i => exact plain_intStr i
    | str s => exact h.entry s hs

theorem eq_holds (row : Row) (n t : Str) (col : SqlCol) : (Crit.cmp ⟨n, false, t⟩ col).holds row = true ↔ col.get row = some t := by
  simp only [Crit.cmp, Bool.false_eq_true, if_false, SqlCmp.holds, SqlOperand.value]
  cases col.get row <;> simp

theorem like_holds (row : Row) (n t : Str) (col : SqlCol) :
    (Crit.cmp ⟨n, true, t⟩ col).holds row = true ↔ ∃ s, col.get row = some s ∧ likeMatch t s = true := by
  simp only [Crit.cmp, if_true, SqlCmp.holds, SqlOperand.value]
  cases col.get row <;> simp

theorem crits_holds {c : Criteria} (h : ∀ r, c.reaction = some r → '*' ∈ r → '%' ∉ r ∧ '_' ∉ r) (row : Row) : (∀ x ∈ c.crits, (x.1.cmp x.2).holds row = true) ↔ Matches c row := by
  have hreact : ∀ r, c.reaction = some r → (((if '*' ∈ r then ((⟨"reaction".toList, true, upper (replaceChar '*' ['%'] r)⟩, .reaction) : Crit × SqlCol)
      else (⟨"reaction".toList, false, upper r⟩, .reaction)).1.cmp (if '*' ∈ r then ((⟨"reaction".toList, true, upper (replaceChar '*' ['%'] r)⟩, .reaction) : Crit × SqlCol)
      else (⟨"reaction".toList, false, upper r⟩, .reaction)).2).holds row = true ↔ ReactionMatches r row.reaction) := by
    intro r hr
    unfold ReactionMatches
    by_cases hs : '*' ∈ r
    · obtain ⟨h1, h2⟩ := h r hr hs
      simp only [hs, if_true, like_holds, like_glob r h1 h2, SqlCol.get]
    · simp only [hs, if_false, eq_holds, SqlCol.get]
  simp only [Criteria.crits, List.mem_append, Option.mem_toList, Option.map_eq_some_iff]
  constructor
  · intro H
    refine ⟨?_, ?_, ?_, ?_, ?_, ?_, ?_⟩
    · intro a ha
      exact (eq_holds row _ _ .author).1 (H _ (.inl (.inl (.inl (.inl (.inl (.inl ⟨a, ha, rfl⟩)))))))
    · intro a ha
      exact (eq_holds row _ _ .target).1 (H _ (.inl (.inl (.inl (.inl (.inl (.inr ⟨a, ha, rfl⟩)))))))
    · intro a ha
      exact (hreact a ha).1 (H _ (.inl (.inl (.inl (.inl (.inr ⟨a, ha, rfl⟩))))))
    · intro a ha
      exact (eq_holds row _ _ .projectile).1 (H _ (.inl (.inl (.inl (.inr ⟨a, ha, rfl⟩)))))
    · intro a ha
      exact (eq_holds row _ _ .quantity).1 (H _ (.inl (.inl (.inr ⟨a, ha, rfl⟩))))
    · intro a ha
      exact (eq_holds row _ _ .subent).1 (H _ (.inl (.inr ⟨a, ha, rfl⟩)))
    · intro a ha
      exact (eq_holds row _ _ .entry).1 (H _ (.inr ⟨a, ha, rfl⟩))
  · intro M x hx
    rcases hx with (((((⟨a, ha, rfl⟩ | ⟨t, ht, rfl⟩) | ⟨r, hr, rfl⟩) | ⟨p, hp, rfl⟩) | ⟨q, hq, rfl⟩) | ⟨s, hs, rfl⟩) | ⟨s, hs, rfl⟩
    · exact (eq_holds row _ _ .author).2 (M.author a ha)
    · exact (eq_holds row _ _ .target).2 (M.target t ht)
    · exact (hreact r hr).2 (M.reaction r hr)
    · exact (eq_holds row _ _ .projectile).2 (M.projectile p hp)
    · exact (eq_holds row _ _ .quantity).2 (M.quantity q hq)
    · exact (eq_holds row _ _ .subent).2 (M.subent s hs)
    · exact (eq_holds row _ _ .entry).2 (M.entry s hs)

theorem crits_ne_nil {c : Criteria} : c.crits ≠ [] ↔ c.given := by
  unfold Criteria.crits Criteria.given
  simp only [Ne, List.append_eq_nil_iff, Option.toList_eq_nil_iff, Option.map_eq_none_iff, ← Option.not_isSome_iff_eq_none, Option.isSome_map]
  tauto

theorem condition_ne_nil {c : Criteria} : c.condition ≠ [] ↔ c.given := by
  have hr : ∀ x : Crit, x.render ≠ [] := by
    intro x
    unfold Crit.render likeCriterion eqCriterion
    split <;> simp
  rw [← crits_ne_nil, Criteria.condition, conditions_eq]
  match c.crits with
  | [] => simp [joinWith]
  | [x] => simp [joinWith, hr]
  | x :: y :: r => simp [joinWith, hr]

/-- the rows found by SQL are those satisfying all criteria -/
theorem sqlWhere_plain (table : List Row) {c : Criteria} (hp : Plain c) (hg : c.given) :
    ∃ rows, sqlWhere table c.condition = some rows ∧ ∀ row, row ∈ rows ↔ row ∈ table ∧ Matches c row := by
  have hok := crits_ok hp
  have hl : lexSql .base c.condition = some (critToks (c.crits.map Prod.fst)) := by
    rw [Criteria.condition, conditions_eq]
    apply lex_crits
    intro x hx
    obtain ⟨y, hy, rfl⟩ := List.mem_map.1 hx
    exact (hok y hy).1
  have hparse := parse_crits c.crits (crits_ne_nil.2 hg) (fun x hx => (hok x hx).2)
  unfold sqlWhere
  rw [hl]
  simp only [hparse]
  refine ⟨_, rfl, ?_⟩
  intro row
  rw [List.mem_filter, ← crits_holds (fun r hr => (hp.reaction r hr).2) row]
  simp [condHolds]

/-! ### C44, C45 -/

theorem subentColumn_ok {rows : List Row} {l : List Str} (h : subentColumn rows = .ok l) (s : Str) : s ∈ l ↔ ∃ row ∈ rows, row.subent = some s := by
  unfold subentColumn at h
  induction rows generalizing l with
  | nil => simp only [mapE, Except.ok.injEq] at h; subst h; simp
  | cons r rows ih =>
    rw [mapE, rowSubent] at h
    cases hr : r.subent with
    | none => simp [hr] at h
    | some x =>
      simp only [hr] at h
      cases hm : mapE rowSubent rows with
      | error e => rw [hm] at h; simp at h
      | ok t =>
        rw [hm] at h
        simp only [Except.ok.injEq] at h
        subst h
        simp only [List.mem_cons, ih hm, exists_eq_or_imp, hr, Option.some.injEq]
        exact or_congr_left eq_comm

theorem subentColumn_some {rows : List Row} (h : ∀ row ∈ rows, row.subent ≠ none) : ∃ l, subentColumn rows = .ok l := by
  unfold subentColumn
  induction rows with
  | nil => exact ⟨[], rfl⟩
  | cons r rows ih =>
    obtain ⟨l, hl⟩ := ih (fun x hx => h x (by simp [hx]))
    rw [mapE, hl, rowSubent]
    cases hr : r.subent with
    | none => exact absurd hr (h r (by simp))
    | some s => exact ⟨s :: l, rfl⟩

/-- C44: whatever rows the condition selects, the result of a query groups their subentries by
entry; keys and lists are sorted and free of duplicates, and every list begins with the
documentation subentry. -/
theorem C44_query (table : List Row) (c : Criteria) (m : Dict Str (List Str)) (h : (query table c).2 = .ok m) :
    (¬ c.given ∧ m = []) ∨
    (c.given ∧ ∃ rows, sqlWhere table c.condition = some rows ∧ Grouped (fun s => ∃ row ∈ rows, row.subent = some s) m) := by
  unfold query at h
  by_cases hc : c.condition = []
  · rw [if_pos hc] at h
    simp only [Except.ok.injEq] at h
    exact .inl ⟨fun hg => condition_ne_nil.2 hg hc, h.symm⟩
  · rw [if_neg hc] at h
    refine .inr ⟨condition_ne_nil.1 hc, ?_⟩
    simp only at h
    cases hw : sqlWhere table c.condition with
    | none => rw [hw] at h; simp at h
    | some rows =>
      rw [hw] at h
      simp only at h
      cases hs : subentColumn rows with
      | error e => rw [hs] at h; simp at h
      | ok found =>
        rw [hs] at h
        simp only [Except.ok.injEq] at h
        subst h
        refine ⟨rows, rfl, ?_⟩
        have := groupSubents_grouped found
        have e : (fun s => s ∈ found) = (fun s => ∃ row ∈ rows, row.subent = some s) := funext fun s => propext (subentColumn_ok hs s)
        rwa [e] at this

/-- C44: the lists of a query result have no duplicates. -/
theorem C44_nodup (table : List Row) (c : Criteria) (m : Dict Str (List Str)) (h : (query table c).2 = .ok m) :
    m.keys.Nodup ∧ ∀ k l, (k, l) ∈ m → l.Nodup := by
  rcases C44_query table c m h with ⟨-, rfl⟩ | ⟨-, rows, -, hg⟩
  · simp [Dict.keys]
  · refine ⟨hg.increasing.imp (fun h => h.2), ?_⟩
    intro k l hkl
    obtain ⟨t, rfl, ht, hm⟩ := hg.lists k l hkl
    rw [List.nodup_cons]
    exact ⟨fun h => ((hm _).1 h).2.2 rfl, ht.imp (fun h => h.2)⟩

/-- C45 (partial): if the texts given contain no quotes, NUL characters or SQL wildcards, the query
succeeds and finds exactly the subentries with a row satisfying all criteria at once. -/
theorem C45_partial (table : List Row) (c : Criteria) (hp : Plain c) (hg : c.given) (hn : ∀ row ∈ table, row.subent ≠ none) :
    ∃ m, (query table c).2 = .ok m ∧ Grouped (fun s => ∃ row ∈ table, Matches c row ∧ row.subent = some s) m := by
  obtain ⟨rows, hw, hrows⟩ := sqlWhere_plain table hp hg
  obtain ⟨found, hf⟩ := subentColumn_some (rows := rows) (fun row hr => hn row ((hrows row).1 hr).1)
  have hq : (query table c).2 = .ok (groupSubents found) := by
    unfold query
    rw [if_neg (condition_ne_nil.2 hg)]
    simp only [hw, hf]
  refine ⟨_, hq, ?_⟩
  rcases C44_query table c _ hq with ⟨h, -⟩ | ⟨-, rows', hw', hgr⟩
  · exact absurd hg h
  · rw [hw] at hw'
    obtain rfl := Option.some.inj hw'
    have e : (fun s => ∃ row ∈ rows, row.subent = some s) = (fun s => ∃ row ∈ table, Matches c row ∧ row.subent = some s) :=
      funext fun s => propext ⟨fun ⟨row, h1, h2⟩ => ⟨row, ((hrows row).1 h1).1, ((hrows row).1 h1).2, h2⟩,
        fun ⟨row, h1, h2, h3⟩ => ⟨row, (hrows row).2 ⟨h1, h2⟩, h3⟩⟩
    rwa [e] at hgr

theorem Matches.mono {c c' : Criteria} (h : c.Le c') {row : Row} (hm : Matches c' row) : Matches c row :=
  ⟨fun x hx => hm.author x (h.author x hx), fun x hx => hm.target x (h.target x hx), fun x hx => hm.reaction x (h.reaction x hx),
   fun x hx => hm.projectile x (h.projectile x hx), fun x hx => hm.quantity x (h.quantity x hx), fun x hx => hm.subent x (h.subent x hx),
   fun x hx => hm.entry x (h.entry x hx)⟩

theorem Grouped.named_iff {S : Str → Prop} {m : Dict Str (List Str)} (h : Grouped S m) (s : Str) :
    Named m s ↔ S s ∨ ∃ r, S r ∧ s = r.take 5 ++ ['0', '0', '1'] := by
  constructor
  · rintro ⟨k, l, hkl, hs⟩
    obtain ⟨t, rfl, -, ht⟩ := h.lists k l hkl
    rcases List.mem_cons.1 hs with rfl | hs
    · have hk : k ∈ m.keys := List.mem_map_of_mem hkl
      obtain ⟨r, hr, e⟩ := (h.keys k).1 hk
      exact .inr ⟨r, hr, by rw [e]⟩
    · exact .inl ((ht s).1 hs).1
  · rintro (hs | ⟨r, hr, rfl⟩)
    · have hk : s.take 5 ∈ m.keys := (h.keys _).2 ⟨s, hs, rfl⟩
      obtain ⟨⟨k, l⟩, hkl, e⟩ := List.mem_map.1 hk
      simp only at e
      obtain ⟨t, rfl, -, ht⟩ := h.lists _ l hkl
      refine ⟨_, _, hkl, ?_⟩
      by_cases h1 : s = k ++ ['0', '0', '1']
      · rw [List.mem_cons]; exact .inl h1
      · rw [List.mem_cons]; exact .inr ((ht s).2 ⟨hs, e.symm, h1⟩)
    · have hk : r.take 5 ∈ m.keys := (h.keys _).2 ⟨r, hr, rfl⟩
      obtain ⟨⟨k, l⟩, hkl, e⟩ := List.mem_map.1 hk
      simp only at e
      obtain ⟨t, rfl, -, -⟩ := h.lists _ l hkl
      exact ⟨_, _, hkl, by rw [e]; simp⟩

/-- C45: adding criteria can only shrink the result. -/
theorem C45_shrink (table : List Row) (c c' : Criteria) (hp : Plain c) (hp' : Plain c') (hg : c.given) (hle : c.Le c')
    (m m' : Dict Str (List Str)) (h : (query table c).2 = .ok m) (h' : (query table c').2 = .ok m') (s : Str) (hs : Named m' s) : Named m s := by
  have hg' : c'.given := by
    have : ∀ {α : Type} {a b : Option α}, (∀ x, a = some x → b = some x) → a.isSome → b.isSome := by
      intro α a b hab ha
      obtain ⟨x, hx⟩ := Option.isSome_iff_exists.1 ha
      rw [hab x hx]; rfl
    unfold Criteria.given at hg ⊢
    exact hg.imp (this hle.author) (.imp (this hle.target) (.imp (this hle.reaction) (.imp (this hle.projectile) (.imp (this hle.quantity)
      (.imp (this hle.subent) (this hle.entry))))))
  have aux : ∀ (c : Criteria) (m : Dict Str (List Str)), Plain c → c.given → (query table c).2 = .ok m →
      Grouped (fun s => ∃ row ∈ table, Matches c row ∧ row.subent = some s) m := by
    intro c m hp hg h
    rcases C44_query table c m h with ⟨h1, -⟩ | ⟨-, rows', hw', hgr⟩
    · exact absurd hg h1
    · obtain ⟨rows, hw, hrows⟩ := sqlWhere_plain table hp hg
      rw [hw] at hw'
      obtain rfl := Option.some.inj hw'
      have e : (fun s => ∃ row ∈ rows, row.subent = some s) = (fun s => ∃ row ∈ table, Matches c row ∧ row.subent = some s) :=
        funext fun s => propext ⟨fun ⟨row, h1, h2⟩ => ⟨row, ((hrows row).1 h1).1, ((hrows row).1 h1).2, h2⟩,
          fun ⟨row, h1, h2, h3⟩ => ⟨row, (hrows row).2 ⟨h1, h2⟩, h3⟩⟩
      rwa [e] at hgr
  rw [(aux c m hp hg h).named_iff]
  rcases ((aux c' m' hp' hg' h').named_iff s).1 hs with ⟨row, h1, h2, h3⟩ | ⟨r, ⟨row, h1, h2, h3⟩, e⟩
  · exact .inl ⟨row, h1, h2.mono hle, h3⟩
  · exact .inr ⟨r, ⟨row, h1, h2.mono hle, h3⟩, e⟩

/-- two rows of an index -/
def demoIndex : List Row :=
  [⟨some chars!"10001", some chars!"10001003", some [' '], some chars!"Block", some chars!"N,G", some ['N'], some chars!"FE-0", some chars!"SIG"⟩,
   ⟨some chars!"10001", some chars!"10001002", some [' '], some chars!"Block", some chars!"N,TOT", some ['N'], some chars!"FE-54", some chars!"WID"⟩,
   ⟨some chars!"20002", some chars!"20002002", some [' '], some chars!"Moyer", some chars!"N,G", some ['N'], some chars!"FE-0", some chars!"SIG"⟩]

/-- The hypotheses of C45_partial and C45_shrink are met, and the results are not empty. -/
example : Plain { author := some chars!"block", reaction := some chars!"n,*" } ∧
    (query demoIndex { author := some chars!"block", reaction := some chars!"n,*" }).2 =
      .ok [(chars!"10001", [chars!"10001001", chars!"10001002", chars!"10001003"])] ∧
    (query demoIndex { reaction := some chars!"n,*" }).2 =
      .ok [(chars!"10001", [chars!"10001001", chars!"10001002", chars!"10001003"]), (chars!"20002", [chars!"20002001", chars!"20002002"])] := by
  refine ⟨⟨?_, ?_, ?_, ?_, ?_, ?_, ?_⟩, by decide +kernel, by decide +kernel⟩
  · rintro a ⟨⟩; exact ⟨by decide, by decide⟩
  · rintro a ⟨⟩
  · rintro a ⟨⟩; exact ⟨⟨by decide, by decide⟩, by decide⟩
  · rintro a ⟨⟩
  · rintro a ⟨⟩
  · rintro a ⟨⟩
  · rintro a ⟨⟩

/-- C45 is false for texts with quotes: this entry number selects every row of every index. -/
theorem C45_injection_refuted (table : List Row) :
    sqlWhere table (Criteria.condition { ENTRY := some (.str chars!"x' or '1' = '1") }) = some table := by
  have h : lexSql .base (Criteria.condition { ENTRY := some (.str chars!"x' or '1' = '1") }) =
      some [.ident "entry".toList, .eq, .lit ['x'], .ident "or".toList, .lit ['1'], .eq, .lit ['1']] := by decide +kernel
  have h2 : parseCond [.ident "entry".toList, .eq, .lit ['x'], .ident "or".toList, .lit ['1'], .eq, .lit ['1']] =
      some [[.eq (.col .entry) (.lit ['x'])], [.eq (.lit ['1']) (.lit ['1'])]] := by decide +kernel
  unfold sqlWhere
  rw [h]
  simp only [h2]
  rw [List.filter_eq_self.2]
  intro row _
  simp [condHolds, SqlCmp.holds, SqlOperand.value]

/-- C45 is false for names with an apostrophe: the query fails whatever the index contains. -/
theorem C45_apostrophe_refuted (table : List Row) : (query table { author := some chars!"O'Brien" }).2 = .error .operationalError := by
  have h : lexSql .base (Criteria.condition { author := some chars!"O'Brien" }) = none := by decide +kernel
  have h0 : Criteria.condition { author := some chars!"O'Brien" } ≠ [] := by decide +kernel
  unfold query
  rw [if_neg h0]
  simp only [sqlWhere, h]

/-- C45 is false for patterns containing the SQL wildcard `_`: it matches any character. -/
theorem C45_wildcard_refuted : ∃ m, (query demoIndex { reaction := some chars!"_,G*" }).2 = .ok m ∧
    Named m chars!"10001003" ∧ ¬ Matches { reaction := some chars!"_,G*" } demoIndex[0] := by
  refine ⟨[(chars!"10001", [chars!"10001001", chars!"10001003"]), (chars!"20002", [chars!"20002001", chars!"20002002"])], by decide +kernel,
    ⟨_, _, List.mem_cons_self .., by decide⟩, ?_⟩
  intro h
  obtain ⟨s, hs, hg⟩ := h.reaction _ rfl
  obtain rfl := Option.some.inj hs
  obtain ⟨t, e, -⟩ := (glob_char (p := chars!",G*") (c := '_') (by decide)).1 hg
  exact absurd (List.cons.inj e).1 (by decide)

/-! ### C46 -/

/-- C46: the criteria that are not supported have no influence. -/
theorem C46_ignored (table : List Row) (c : Criteria) (product MF MT C S I : Option Index) :
    query table { c with product := product, MF := MF, MT := MT, C := C, S := S, I := I } = query table c := rfl

/-- C46: without any supported criterion nothing is found and no SQL statement is run; with one,
exactly one statement is run. -/
theorem C46_empty (table : List Row) (c : Criteria) :
    (¬ c.given → query table c = ([], .ok [])) ∧ (c.given → (query table c).1.length = 1) := by
  unfold query
  constructor
  · intro h
    rw [if_pos (by_contra fun hc => h (condition_ne_nil.1 hc))]
  · intro h
    rw [if_neg (condition_ne_nil.2 h)]
    rfl

example : ¬ Criteria.given { product := some (.str ['N']), MT := some (.int 102) } := by simp [Criteria.given]

/-! ### C47 -/

/-- one entry of the result of `retrieve` -/
def retrieveStep (db : DB) (kv : Str × List Str) : Except PyErr (Str × List Str) :=
  match (entryFactoryRaw db kv.1 (some kv.2)).2 with
  | .error e => .error e
  | .ok l => .ok (kv.1, l)

theorem retrieveRaw_eq {table : List Row} {db : DB} {c : Criteria} {m : Dict Str (List Str)} (hq : (query table c).2 = .ok m) :
    retrieveRaw table db c = mapE (retrieveStep db) m := by
  unfold retrieveRaw
  rw [hq]
  rfl

theorem retrieveStep_ok {db : DB} {kv kv' : Str × List Str} (h : retrieveStep db kv = .ok kv') :
    kv'.1 = kv.1 ∧ kv.1.length = 5 ∧ ∃ lines, db.read (kv.1.take 3 ++ "/".toList ++ kv.1 ++ ".x4".toList) = .ok lines ∧ kv'.2 = splitEntryFile (some kv.2) lines := by
  unfold retrieveStep at h
  cases hf : (entryFactoryRaw db kv.1 (some kv.2)).2 with
  | error e => rw [hf] at h; simp at h
  | ok l =>
    rw [hf] at h
    simp only [Except.ok.injEq] at h
    subst h
    by_cases h5 : kv.1.length = 5
    · obtain ⟨lines, h1, h2⟩ := ((C11_reads_own_file db kv.1 (some kv.2) h5).2 l).1 hf
      exact ⟨rfl, h5, lines, h1, h2⟩
    · rw [C11_validated db _ _ h5] at hf; simp at hf

/-- C47: `retrieve` has the keys of `query`, in the same order, and gives for each exactly the
subentries of the entry's own file whose accession number the query listed, in file order, each
with all its lines. -/
theorem C47_retrieve (table : List Row) (db : DB) (c : Criteria) (m r : Dict Str (List Str)) (hq : (query table c).2 = .ok m)
    (hr : retrieveRaw table db c = .ok r) :
    r.keys = m.keys ∧ ∀ k l, (k, l) ∈ r → ∃ names lines, (k, names) ∈ m ∧ db.read (k.take 3 ++ "/".toList ++ k ++ ".x4".toList) = .ok lines ∧
      ∀ ss, EntryFile lines ss → l = (ss.filter (fun s => decide (s.accession ∈ names))).map (fun s => s.lines.flatten) := by
  rw [retrieveRaw_eq hq, mapE_ok_iff] at hr
  constructor
  · have : ∀ (m r : Dict Str (List Str)), List.Forall₂ (fun a b => retrieveStep db a = .ok b) m r → r.keys = m.keys := by
      intro m r h
      induction h with
      | nil => rfl
      | cons h1 _ ih => simp only [Dict.keys, List.map_cons] at ih ⊢; rw [ih, (retrieveStep_ok h1).1]
    exact this m r hr
  · intro k l hkl
    obtain ⟨kv, hkv, hs⟩ : ∃ kv ∈ m, retrieveStep db kv = .ok (k, l) := by
      clear hq
      induction hr with
      | nil => cases hkl
      | cons h1 _ ih =>
        rcases List.mem_cons.1 hkl with rfl | h
        · exact ⟨_, List.mem_cons_self .., h1⟩
        · obtain ⟨kv, h2, h3⟩ := ih h
          exact ⟨kv, List.mem_cons_of_mem _ h2, h3⟩
    obtain ⟨e, -, lines, h1, h2⟩ := retrieveStep_ok hs
    simp only at e h2
    subst e
    refine ⟨kv.2, lines, hkv, h1, ?_⟩
    intro ss hss
    rw [h2, C10_lossless lines ss hss]
    rfl

/-- C47: `retrieve` succeeds exactly when every key is an entry number (five characters) whose file
can be read. -/
theorem C47_succeeds (table : List Row) (db : DB) (c : Criteria) (m : Dict Str (List Str)) (hq : (query table c).2 = .ok m) :
    (∃ r, retrieveRaw table db c = .ok r) ↔ ∀ k ∈ m.keys, k.length = 5 ∧ ∃ lines, db.read (k.take 3 ++ "/".toList ++ k ++ ".x4".toList) = .ok lines := by
  rw [retrieveRaw_eq hq]
  constructor
  · rintro ⟨r, hr⟩ k hk
    rw [mapE_ok_iff] at hr
    obtain ⟨kv, hkv, rfl⟩ := List.mem_map.1 hk
    obtain ⟨kv', -, hs⟩ : ∃ kv' ∈ r, retrieveStep db kv = .ok kv' := by
      clear hq hk
      induction hr with
      | nil => cases hkv
      | cons h1 _ ih =>
        rcases List.mem_cons.1 hkv with rfl | h
        · exact ⟨_, List.mem_cons_self .., h1⟩
        · obtain ⟨kv', h2, h3⟩ := ih h
          exact ⟨kv', List.mem_cons_of_mem _ h2, h3⟩
    obtain ⟨-, h5, lines, h1, -⟩ := retrieveStep_ok hs
    exact ⟨h5, lines, h1⟩
  · intro h
    clear hq
    induction m with
    | nil => exact ⟨[], rfl⟩
    | cons kv m ih =>
      obtain ⟨r, hr⟩ := ih (fun k hk => h k (by simp only [Dict.keys, List.map_cons, List.mem_cons] at hk ⊢; exact .inr hk))
      obtain ⟨h5, lines, hl⟩ := h kv.1 (by simp [Dict.keys])
      have := ((C11_reads_own_file db kv.1 (some kv.2) h5).2 _).2 ⟨lines, hl, rfl⟩
      refine ⟨(kv.1, splitEntryFile (some kv.2) lines) :: r, ?_⟩
      have hs : retrieveStep db kv = .ok (kv.1, splitEntryFile (some kv.2) lines) := by
        unfold retrieveStep
        rw [this]
      simp only [mapE, hs, hr]

/-- C47: without `rawEntry` the result has the entries built from exactly the subentries of the raw result, key by key. -/
theorem C47_parsed {ρ : Type} (P : FieldParsers ρ) (table : List Row) (db : DB) (c : Criteria) (r : Dict Str (Entry ρ)) :
    retrieve P table db c = .ok r ↔
      ∃ raw, retrieveRaw table db c = .ok raw ∧ List.Forall₂ (fun a b => a.1 = b.1 ∧ Entry.build P a.2 = .ok b.2) raw r := by
  unfold retrieve retrieveRaw
  cases hq : (query table c).2 with
  | error e => simp
  | ok m =>
    simp only
    clear hq
    induction m generalizing r with
    | nil =>
      simp only [mapE, Except.ok.injEq]
      constructor
      · rintro rfl; exact ⟨[], rfl, .nil⟩
      · rintro ⟨_, rfl, h⟩; cases h; rfl
    | cons kv m ih =>
      simp only [mapE]
      cases hf : (entryFactoryRaw db kv.1 (some kv.2)).2 with
      | error e => simp
      | ok l =>
        simp only
        constructor
        · intro h
          cases hb : Entry.build P l with
          | error e => rw [hb] at h; cases h
          | ok x =>
            rw [hb] at h
            simp only at h
            split at h
            · cases h
            · rename_i r' hr'
              injection h with h
              subst h
              obtain ⟨raw, h1, h2⟩ := (ih r').1 hr'
              refine ⟨(kv.1, l) :: raw, ?_, .cons ⟨rfl, hb⟩ h2⟩
              rw [h1]
        · rintro ⟨raw, h1, h2⟩
          split at h1
          · cases h1
          · rename_i raw' hraw'
            injection h1 with h1
            subst h1
            cases h2 with
            | @cons a b l1 l2 h3 h4 =>
              obtain ⟨b1, b2⟩ := b
              obtain ⟨rfl, h3⟩ := h3
              simp only at h3
              rw [h3]
              simp only [(ih l2).2 ⟨raw', hraw', h4⟩]

/-- a database with one file -/
def demoDB : DB := ⟨fun p => if p = chars!"100/10001.x4" then .ok demoFile else .error .ioError⟩

/-- C47 applies: the documentation subentry and the one found are returned. -/
example : retrieveRaw demoIndex demoDB { target := some chars!"fe-0", author := some chars!"BLOCK" } =
    .ok [(chars!"10001", demoSubs.map (fun s => s.lines.flatten))] := by decide +kernel

/-- a database with one file that can be parsed -/
def demoRawDB : DB := ⟨fun p => if p = chars!"100/10001.x4" then .ok ((demoRaw.flatMap (splitChar '\n')).map (· ++ ['\n'])) else .error .ioError⟩

set_option maxRecDepth 20000 in
/-- C47_parsed applies: one entry with two subentries is found. -/
example : ∃ r, retrieve noParsers demoIndex demoRawDB { author := some chars!"BLOCK" } = .ok r ∧
    r.map (fun k : Str × Entry Unit => (k.1, k.2.accnum, k.2.subs.keys)) =
      [(chars!"10001", chars!"10001", [some chars!"10001001", some chars!"10001002"])] :=
  ⟨_, rfl, by decide +kernel⟩

/-! ### C48 -/

/-- C48: five characters mean an entry, eight a subentry; numbers are written out first, and every
other key is a `KeyError`. -/
theorem C48_getitem {ρ : Type} (P : FieldParsers ρ) (table : List Row) (db : DB) (i : Index) :
    (i.text.length = 5 → managerGetItem P table db i = retrieve P table db { ENTRY := some i }) ∧
    (i.text.length = 8 → managerGetItem P table db i = retrieve P table db { SUBENT := some i }) ∧
    (i.text.length ≠ 5 → i.text.length ≠ 8 → managerGetItem P table db i = .error .keyError) := by
  have hE : retrieve P table db { ENTRY := some (.str i.text) } = retrieve P table db { ENTRY := some i } := by
    have : query table { ENTRY := some (.str i.text) } = query table { ENTRY := some i } := by
      unfold query Criteria.condition Criteria.conditions
      rfl
    unfold retrieve
    rw [this]
  have hS : retrieve P table db { SUBENT := some (.str i.text) } = retrieve P table db { SUBENT := some i } := by
    have : query table { SUBENT := some (.str i.text) } = query table { SUBENT := some i } := by
      unfold query Criteria.condition Criteria.conditions
      rfl
    unfold retrieve
    rw [this]
  refine ⟨?_, ?_, ?_⟩
  · intro h
    simp only [managerGetItem, fixKey, h, List.mem_cons, true_or, if_true]
    exact hE
  · intro h
    have hf : fixKey i = .ok i.text := by simp [fixKey, h]
    unfold managerGetItem
    rw [hf]
    simp only [h]
    rw [if_neg (by decide), hS]
  · intro h1 h2
    simp [managerGetItem, fixKey, h1, h2]

example : (Index.int 10001).text.length = 5 ∧ (Index.str chars!"10001003").text.length = 8 ∧ (Index.int 7).text.length = 1 := by decide

/-- C48 (partial): for entries, membership tells whether an index row has that entry number. -/
theorem C48_contains_partial (table : List Row) (i : Index) (h5 : i.text.length = 5) (hp : PlainText i.text) (hn : ∀ row ∈ table, row.subent ≠ none) :
    ∃ b, managerContains table i = .ok b ∧ (b = true ↔ ∃ row ∈ table, row.entry = some i.text) := by
  have hplain : Plain { ENTRY := some (.str i.text) } := by
    refine ⟨?_, ?_, ?_, ?_, ?_, ?_, ?_⟩
    · rintro a ⟨⟩
    · rintro a ⟨⟩
    · rintro a ⟨⟩
    · rintro a ⟨⟩
    · rintro a ⟨⟩
    · rintro a ⟨⟩
    · rintro a ⟨⟩; exact hp
  obtain ⟨m, hm, hg⟩ := C45_partial table { ENTRY := some (.str i.text) } hplain (by simp [Criteria.given]) hn
  refine ⟨decide (0 < m.length), ?_, ?_⟩
  · simp only [managerContains, fixKey, h5, List.mem_cons, true_or, if_true, hm]
  · rw [decide_eq_true_eq]
    constructor
    · intro h
      obtain ⟨kv, hkv⟩ := List.exists_mem_of_length_pos h
      obtain ⟨r, ⟨row, h1, h2, -⟩, -⟩ := (hg.keys kv.1).1 (List.mem_map_of_mem hkv)
      exact ⟨row, h1, h2.entry (.str i.text) rfl⟩
    · rintro ⟨row, h1, h2⟩
      obtain ⟨r, hr⟩ := Option.ne_none_iff_exists'.1 (hn row h1)
      have hM : Matches { ENTRY := some (.str i.text) } row := by
        refine ⟨?_, ?_, ?_, ?_, ?_, ?_, ?_⟩
        · rintro a ⟨⟩
        · rintro a ⟨⟩
        · rintro a ⟨⟩
        · rintro a ⟨⟩
        · rintro a ⟨⟩
        · rintro a ⟨⟩
        · rintro a ⟨⟩; exact h2
      have hk := (hg.keys (r.take 5)).2 ⟨r, ⟨row, h1, hM, hr⟩, rfl⟩
      exact List.length_pos_of_mem (List.mem_map.1 hk).choose_spec.1

/-- C48 is false for subentries: the membership test never succeeds, whatever the index contains. -/
theorem C48_contains_refuted (table : List Row) (i : Index) (h8 : i.text.length = 8) (b : Bool) : managerContains table i ≠ .ok b := by
  have hf : fixKey i = .ok i.text := by simp [fixKey, h8]
  unfold managerContains
  rw [hf]
  simp only [h8]
  rw [if_neg (by decide)]
  cases (query table { SUBENT := some (.str i.text) }).2 <;> simp

/-- The error is a `TypeError` even if the subentry is there. -/
example : managerContains demoIndex (.str chars!"10001003") = .error .typeError ∧ managerContains demoIndex (.int 10001) = .ok true := by
  decide +kernel

/-- C48: assignment is always refused. -/
theorem C48_setitem (i : Index) : managerSetItem i = if i.text.length = 5 ∨ i.text.length = 8 then .notImplementedError else .keyError := by
  unfold managerSetItem fixKey
  by_cases h5 : i.text.length = 5
  · simp [h5]
  · by_cases h8 : i.text.length = 8
    · simp [h8]
    · simp [h5, h8]

end X4
