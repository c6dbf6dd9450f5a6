import Verif.Spec.Wildcards
import Verif.Props.Quotes
import Verif.Props.Retrieval
/-! C124: wildcards in search texts. -/
namespace X4

theorem wild_text {p u : Str} {w : Char} (hw : w = '*' ∨ w = '%') : Wild (w :: p) u ↔ ∃ a t, u = a ++ t ∧ Wild p t := by
  constructor
  · intro h
    cases h with
    | text a _ h => exact ⟨a, _, rfl, h⟩
    | one c h => rcases hw with hw | hw <;> exact absurd hw (by decide)
    | char c h1 h2 _ _ => rcases hw with hw | hw; exacts [absurd hw h1, absurd hw h2]
  · rintro ⟨a, t, rfl, h⟩
    exact .text a hw h

theorem wild_one {p u : Str} : Wild ('_' :: p) u ↔ ∃ c t, u = c :: t ∧ Wild p t := by
  constructor
  · intro h
    cases h with
    | text a hw h => rcases hw with hw | hw <;> exact absurd hw (by decide)
    | one c h => exact ⟨c, _, rfl, h⟩
    | char c _ _ h3 _ => exact absurd rfl h3
  · rintro ⟨c, t, rfl, h⟩
    exact .one c h

theorem wild_char {p u : Str} {c : Char} (h1 : c ≠ '*') (h2 : c ≠ '%') (h3 : c ≠ '_') : Wild (c :: p) u ↔ ∃ t, u = c :: t ∧ Wild p t := by
  constructor
  · intro h
    cases h with
    | text a hw h => rcases hw with hw | hw; exacts [absurd hw h1, absurd hw h2]
    | one c h => exact absurd rfl h3
    | char c _ _ _ h => exact ⟨_, rfl, h⟩
  · rintro ⟨t, rfl, h⟩
    exact .char c h1 h2 h3 h

theorem like_wild (r s : Str) : likeMatch (upper (replaceChar '*' ['%'] r)) s = true ↔ Wild (upper r) (upper s) := by
  induction r generalizing s with
  | nil =>
    simp only [replaceChar, List.flatMap_nil, upper, List.map_nil, likeMatch]
    cases s with
    | nil => simp; exact .nil
    | cons c s => simp; intro h; cases h
  | cons c r ih =>
    have e2 : upper (c :: r) = c.toUpper :: upper r := rfl
    by_cases hc : c = '*' ∨ c = '%'
    · have e1 : upper (replaceChar '*' ['%'] (c :: r)) = '%' :: upper (replaceChar '*' ['%'] r) := by
        rcases hc with rfl | rfl <;> simp [replaceChar, upper]
      have hu : c.toUpper = '*' ∨ c.toUpper = '%' := by rcases hc with rfl | rfl <;> decide
      rw [e1, e2, wild_text hu, likeMatch_cons, if_pos rfl, List.any_eq_true]
      constructor
      · rintro ⟨t, ht, hm⟩
        obtain ⟨a, rfl⟩ := mem_endings.1 ht
        exact ⟨upper a, upper t, by simp [upper], (ih t).1 hm⟩
      · rintro ⟨a, t, hs, hg⟩
        obtain ⟨a', t', rfl, rfl, rfl⟩ := List.map_eq_append_iff.1 hs
        exact ⟨t', mem_endings.2 ⟨a', rfl⟩, (ih t').2 hg⟩
    · rw [not_or] at hc
      have e1 : upper (replaceChar '*' ['%'] (c :: r)) = c.toUpper :: upper (replaceChar '*' ['%'] r) := by
        simp [replaceChar, upper, hc.1]
      have n1 : c.toUpper ≠ '%' := by rw [Ne, toUpper_eq_iff (by decide)]; exact hc.2
      have n3 : c.toUpper ≠ '*' := by rw [Ne, toUpper_eq_iff (by decide)]; exact hc.1
      rw [e1, e2, likeMatch_cons, if_neg n1]
      by_cases hu : c = '_'
      · have n2 : c.toUpper = '_' := by subst hu; decide
        rw [n2, wild_one]
        cases s with
        | nil => simp [upper]
        | cons d s =>
          simp only [decide_true, Bool.true_or, Bool.true_and, ih s]
          constructor
          · exact fun h => ⟨d.toUpper, upper s, rfl, h⟩
          · rintro ⟨x, t, e, g⟩
            obtain ⟨-, rfl⟩ := List.cons.inj e
            exact g
      · have n2 : c.toUpper ≠ '_' := toUpper_ne_underscore hu
        rw [wild_char n3 n1 n2]
        cases s with
        | nil => simp [upper]
        | cons d s =>
          simp only [n2, decide_false, Bool.false_or, Bool.and_eq_true, beq_iff_eq, toLower_eq_iff, ih s]
          constructor
          · rintro ⟨a, b⟩
            exact ⟨upper s, by simp [upper, a], b⟩
          · rintro ⟨t, e, g⟩
            obtain ⟨e1, rfl⟩ := List.cons.inj e
            exact ⟨e1.symm, g⟩

theorem crits_wild (c : Criteria) (row : Row) : (∀ x ∈ c.crits, (x.1.cmp x.2).holds row = true) ↔ WildMatches c row := by
  have hsplit : (∀ x ∈ c.crits, (x.1.cmp x.2).holds row = true) ↔
      (∀ x ∈ ({ c with reaction := none } : Criteria).crits, (x.1.cmp x.2).holds row = true) ∧
      ∀ r, c.reaction = some r → ((if '*' ∈ r then ((⟨"reaction".toList, true, upper (replaceChar '*' ['%'] r)⟩, .reaction) : Crit × SqlCol)
        else (⟨"reaction".toList, false, upper r⟩, .reaction)).1.cmp (if '*' ∈ r then ((⟨"reaction".toList, true, upper (replaceChar '*' ['%'] r)⟩, .reaction) : Crit × SqlCol)
        else (⟨"reaction".toList, false, upper r⟩, .reaction)).2).holds row = true := by
    constructor
    · intro H
      refine ⟨fun x hx => H x ?_, fun r hr => H _ ?_⟩
      · unfold Criteria.crits at hx ⊢
        simp only [List.mem_append] at hx ⊢
        rcases hx with (((((h | h) | h) | h) | h) | h) | h
        · exact .inl (.inl (.inl (.inl (.inl (.inl h)))))
        · exact .inl (.inl (.inl (.inl (.inl (.inr h)))))
        · cases h
        · exact .inl (.inl (.inl (.inr h)))
        · exact .inl (.inl (.inr h))
        · exact .inl (.inr h)
        · exact .inr h
      · unfold Criteria.crits
        simp only [List.mem_append]
        exact .inl (.inl (.inl (.inl (.inr (by rw [hr]; exact List.mem_cons_self)))))
    · rintro ⟨H1, H2⟩ x hx
      unfold Criteria.crits at hx
      simp only [List.mem_append] at hx
      have key : ∀ y ∈ ({ c with reaction := none } : Criteria).crits, (y.1.cmp y.2).holds row = true := H1
      unfold Criteria.crits at key
      simp only [List.mem_append] at key
      rcases hx with (((((h | h) | h) | h) | h) | h) | h
      · exact key x (.inl (.inl (.inl (.inl (.inl (.inl h))))))
      · exact key x (.inl (.inl (.inl (.inl (.inl (.inr h))))))
      · rw [Option.mem_toList, Option.map_eq_some_iff] at h
        obtain ⟨r, hr, rfl⟩ := h
        exact H2 r hr
      · exact key x (.inl (.inl (.inl (.inr h))))
      · exact key x (.inl (.inl (.inr h)))
      · exact key x (.inl (.inr h))
      · exact key x (.inr h)
  rw [hsplit, crits_holds (c := { c with reaction := none }) (fun r hr => nomatch hr) row]
  constructor
  · rintro ⟨M, H⟩
    refine ⟨M.author, M.target, fun r hr hs => ?_, fun r hr hs => ?_, M.projectile, M.quantity, M.subent, M.entry⟩
    · have := H r hr
      simp only [hs, if_true, like_holds, like_wild, SqlCol.get] at this
      exact this
    · have := H r hr
      simp only [hs, if_false, eq_holds, SqlCol.get] at this
      exact this
  · intro M
    refine ⟨⟨M.author, M.target, fun r hr => (nomatch hr), M.projectile, M.quantity, M.subent, M.entry⟩, fun r hr => ?_⟩
    by_cases hs : '*' ∈ r
    · simp only [hs, if_true, like_holds, like_wild, SqlCol.get]
      exact M.pattern r hr hs
    · simp only [hs, if_false, eq_holds, SqlCol.get]
      exact M.reaction r hr hs

/-- C124: for all texts (without NUL characters, quotes written twice) the query finds exactly the subentries with a row that satisfies all criteria, where in a
reaction with `*` also `%` stands for any text and `_` for any character. -/
theorem C124_query (table : List Row) (c : Criteria) (h0 : ∀ t ∈ c.texts, Char.ofNat 0 ∉ t) (hg : c.given) (hn : ∀ row ∈ table, row.subent ≠ none) :
    ∃ m, (query table c.doubled).2 = .ok m ∧ Grouped (fun s => ∃ row ∈ table, WildMatches c row ∧ row.subent = some s) m := by
  have hok := crits_ok0 h0
  have hl : lexSql .base c.doubled.condition = some (critToks (c.crits.map Prod.fst)) := by
    rw [Criteria.condition, conditions_eq, crits_doubled]
    have : (c.crits.map fun x => (x.1.doubled, x.2)).map Prod.fst = (c.crits.map Prod.fst).map Crit.doubled := by
      rw [List.map_map, List.map_map]
      rfl
    rw [this]
    apply lex_crits_dbl
    intro x hx
    obtain ⟨y, hy, rfl⟩ := List.mem_map.1 hx
    exact (hok y hy).1
  have hparse := parse_crits c.crits (crits_ne_nil.2 hg) (fun x hx => (hok x hx).2)
  obtain ⟨rows, hwh, hrows⟩ : ∃ rows, sqlWhere table c.doubled.condition = some rows ∧ ∀ row, row ∈ rows ↔ row ∈ table ∧ WildMatches c row := by
    unfold sqlWhere
    rw [hl]
    simp only [hparse]
    refine ⟨_, rfl, fun row => ?_⟩
    rw [List.mem_filter, ← crits_wild c row]
    simp [condHolds]
  obtain ⟨found, hf⟩ := subentColumn_some (rows := rows) (fun row hr => hn row ((hrows row).1 hr).1)
  have hq : (query table c.doubled).2 = .ok (groupSubents found) := by
    unfold query
    rw [if_neg (condition_ne_nil.2 (doubled_given.2 hg))]
    simp only [hwh, hf]
  refine ⟨_, hq, ?_⟩
  rcases C44_query table c.doubled _ hq with ⟨h, -⟩ | ⟨-, rows', hw', hgr⟩
  · exact absurd (doubled_given.2 hg) h
  · rw [hwh] at hw'
    obtain rfl := Option.some.inj hw'
    have e : (fun s => ∃ row ∈ rows, row.subent = some s) = (fun s => ∃ row ∈ table, WildMatches c row ∧ row.subent = some s) :=
      funext fun s => propext ⟨fun ⟨row, h1, h2⟩ => ⟨row, ((hrows row).1 h1).1, ((hrows row).1 h1).2, h2⟩,
        fun ⟨row, h1, h2, h3⟩ => ⟨row, (hrows row).2 ⟨h1, h2⟩, h3⟩⟩
    rwa [e] at hgr

/-- criteria without quotes are their own doubled form -/
theorem doubled_self {c : Criteria} (h : ∀ t ∈ c.texts, '\'' ∉ t) : c.doubled = c := by
  simp only [Criteria.texts, List.mem_append, Option.mem_toList, Option.map_eq_some_iff] at h
  have hs : ∀ (o : Option Str), (∀ t, o = some t → '\'' ∉ t) → o.map dbl = o := by
    intro o ho
    cases o with
    | none => rfl
    | some t => rw [Option.map_some, dbl_plain (ho t rfl)]
  have hi : ∀ (o : Option Index), (∀ t, o = some t → '\'' ∉ t.text) → o.map dblIndex = o := by
    intro o ho
    cases o with
    | none => rfl
    | some i =>
      cases i with
      | int n => rfl
      | str t => rw [Option.map_some, show dblIndex (.str t) = .str (dbl t) from rfl, dbl_plain (s := t) (ho _ rfl)]
  unfold Criteria.doubled
  rw [hs c.author (fun t ht => h t (by simp [ht])), hs c.target (fun t ht => h t (by simp [ht])), hs c.reaction (fun t ht => h t (by simp [ht])),
    hs c.projectile (fun t ht => h t (by simp [ht])), hs c.quantity (fun t ht => h t (by simp [ht])), hi c.SUBENT (fun t ht => h t.text (by simp [ht])),
    hi c.ENTRY (fun t ht => h t.text (by simp [ht]))]

/-- C124: the same for texts without quotes, as they are. -/
theorem C124_plain (table : List Row) (c : Criteria) (hp : ∀ t ∈ c.texts, PlainText t) (hg : c.given) (hn : ∀ row ∈ table, row.subent ≠ none) :
    ∃ m, (query table c).2 = .ok m ∧ Grouped (fun s => ∃ row ∈ table, WildMatches c row ∧ row.subent = some s) m := by
  have := C124_query table c (fun t ht => (hp t ht).2) hg hn
  rwa [doubled_self fun t ht => (hp t ht).1] at this

/-- C124: what is retrieved with such criteria from a directory of files in EXFOR format. -/
theorem C124_retrieve (P : FieldParsers ρ) (docs : List EntryDoc) (db : DB) (table : List Row) (hA : Archive P docs db table) (c : Criteria)
    (h0 : ∀ t ∈ c.texts, Char.ofNat 0 ∉ t) (hg : c.given) :
    ∃ r, retrieve P table db c.doubled = .ok r ∧ r.keys.Pairwise StrLt ∧
      (∀ D ∈ docs, D.acc ∈ r.keys ↔ ∃ s ∈ D.subs, ∃ row ∈ table, WildMatches c row ∧ row.subent = some s.acc) ∧
      ∀ k e, (k, e) ∈ r → ∃ D ∈ docs, D.acc = k ∧ ∃ subs, EntryHolds P D subs e ∧ subs.Sublist D.subs ∧
        ∀ s ∈ D.subs, s ∈ subs ↔ s.acc = D.acc ++ "001".toList ∨ ∃ row ∈ table, WildMatches c row ∧ row.subent = some s.acc := by
  obtain ⟨m, hm, hgr⟩ := C124_query table c h0 hg (fun row hrow => by
    obtain ⟨D, -, s, -, hs⟩ := hA.index row hrow
    rw [hs]
    simp)
  exact retrieve_grouped P docs db table hA c.doubled hm hgr fun acc ⟨row, hrow, _, hsub⟩ => ⟨row, hrow, hsub⟩

/-- C124: in reactions without `*`, and where neither `%` nor `_` stands beside it, these are the criteria of C45. -/
theorem C124_ordinary {c : Criteria} {row : Row} (h : ∀ r, c.reaction = some r → '*' ∈ r → '%' ∉ r ∧ '_' ∉ r) : WildMatches c row ↔ Matches c row := by
  rw [← crits_wild, crits_holds h]

/-- C124_plain applies to a pattern with all three wildcards and finds something; without `*` the same characters find nothing. -/
example : (∀ t ∈ ({ reaction := some chars!"_,%o*", author := some chars!"block" } : Criteria).texts, PlainText t) ∧
    (query demoIndex { reaction := some chars!"_,%o*", author := some chars!"block" }).2 = .ok [(chars!"10001", [chars!"10001001", chars!"10001002"])] ∧
    WildMatches { reaction := some chars!"_,%o*", author := some chars!"block" } demoIndex[1] ∧
    (query demoIndex { reaction := some chars!"_,%" }).2 = .ok [] := by
  refine ⟨?_, by decide +kernel, ⟨?_, ?_, ?_, ?_, ?_, ?_, ?_, ?_⟩, by decide +kernel⟩
  · intro t ht
    have ht : t ∈ [chars!"block", chars!"_,%o*"] := ht
    simp only [List.mem_cons, List.not_mem_nil, or_false] at ht
    rcases ht with rfl | rfl <;> exact ⟨by decide, by decide⟩
  · rintro a ⟨⟩; rfl
  · rintro a ⟨⟩
  · rintro a ⟨⟩ -
    exact ⟨_, rfl, .one 'N' (.char ',' (by decide) (by decide) (by decide) (.text ['T'] (.inr rfl) (.char 'O' (by decide) (by decide) (by decide) (.text ['T'] (.inl rfl) .nil))))⟩
  · rintro a ⟨⟩ h; exact absurd h (by decide)
  · rintro a ⟨⟩
  · rintro a ⟨⟩
  · rintro a ⟨⟩
  · rintro a ⟨⟩

/-- C124_retrieve applies to the database with the entry docEntry. -/
example : ∃ r, retrieve (x4Parsers metaDicts) [docRow1] docDb ({ target := some chars!"am-241", reaction := some chars!"*" } : Criteria).doubled = .ok r ∧ docEntry.acc ∈ r.keys := by
  obtain ⟨r, h1, -, h3, -⟩ := C124_retrieve _ [docEntry] docDb [docRow1] docArchive { target := some chars!"am-241", reaction := some chars!"*" } (by decide) (.inr (.inl rfl))
  refine ⟨r, h1, (h3 docEntry (by simp)).2 ⟨docSub, by simp [docEntry], docRow1, by simp, ?_, rfl⟩⟩
  refine ⟨?_, ?_, ?_, ?_, ?_, ?_, ?_, ?_⟩
  · rintro a ⟨⟩
  · rintro a ⟨⟩; rfl
  · rintro a ⟨⟩ -
    exact ⟨_, rfl, (wild_text (.inl rfl)).2 ⟨_, [], (List.append_nil _).symm, .nil⟩⟩
  · rintro a ⟨⟩ h; exact absurd h (by decide)
  · rintro a ⟨⟩
  · rintro a ⟨⟩
  · rintro a ⟨⟩
  · rintro a ⟨⟩

end X4
