import Verif.Props.Manager
import Verif.Spec.Quotes
/-! Queries for texts with quotes. -/
namespace X4

theorem dbl_cons (c : Char) (s : Str) : dbl (c :: s) = (if c = '\'' then ['\'', '\''] else [c]) ++ dbl s := rfl

theorem dbl_map {f : Char → Char} (h : ∀ c, f c = '\'' ↔ c = '\'') (s : Str) : (dbl s).map f = dbl (s.map f) := by
  induction s with
  | nil => rfl
  | cons c s ih =>
    rw [dbl_cons, List.map_append, ih, List.map_cons, dbl_cons]
    by_cases hc : c = '\''
    · have := (h c).2 hc
      subst hc
      simp [this]
    · have : f c ≠ '\'' := fun e => hc ((h c).1 e)
      simp [hc, this]

theorem upper_quote (c : Char) : c.toUpper = '\'' ↔ c = '\'' := toUpper_eq_iff (by decide)
theorem lower_quote (c : Char) : c.toLower = '\'' ↔ c = '\'' :=
  ⟨toLower_fix (by decide), by rintro rfl; decide⟩

theorem dbl_upper (s : Str) : upper (dbl s) = dbl (upper s) := dbl_map upper_quote s
theorem dbl_capitalize (s : Str) : capitalize (dbl s) = dbl (capitalize s) := by
  cases s with
  | nil => rfl
  | cons c s =>
    rw [dbl_cons]
    by_cases hc : c = '\''
    · subst hc
      rw [if_pos rfl]
      have : capitalize ('\'' :: s) = '\'' :: s.map Char.toLower := rfl
      rw [this, dbl_cons, if_pos rfl, ← dbl_map lower_quote]
      rfl
    · rw [if_neg hc]
      have : capitalize (c :: s) = c.toUpper :: s.map Char.toLower := rfl
      rw [this, dbl_cons, if_neg (fun e => hc ((upper_quote c).1 e)), ← dbl_map lower_quote]
      rfl

theorem mem_dbl {c : Char} {s : Str} : c ∈ dbl s ↔ c ∈ s := by
  unfold dbl
  rw [List.mem_flatMap]
  constructor
  · rintro ⟨a, ha, h⟩
    split at h
    · rename_i e; subst e; simp at h; exact h ▸ ha
    · simp at h; exact h ▸ ha
  · intro h
    refine ⟨c, h, ?_⟩
    split
    · rename_i e; simp [e]
    · simp

theorem replace_map (r : Str) : replaceChar '*' ['%'] r = r.map fun c => if c = '*' then '%' else c := by
  unfold replaceChar
  induction r with
  | nil => rfl
  | cons c r ih =>
    rw [List.flatMap_cons, ih]
    by_cases hc : c = '*' <;> simp [hc]

theorem replace_quote (c : Char) : (if c = '*' then '%' else c) = '\'' ↔ c = '\'' := by
  by_cases h : c = '*'
  · subst h; decide
  · rw [if_neg h]

theorem dbl_replace (s : Str) : replaceChar '*' ['%'] (dbl s) = dbl (replaceChar '*' ['%'] s) := by
  rw [replace_map, replace_map, dbl_map replace_quote]

theorem dbl_plain {s : Str} (hs : '\'' ∉ s) : dbl s = s := by
  induction s with
  | nil => rfl
  | cons c s ih =>
    rw [dbl_cons, if_neg (fun e => hs (by simp [e])), ih (fun hm => hs (by simp [hm]))]
    rfl

theorem dbl_cs {q : Str} : dbl q = ['C', 'S'] ↔ q = ['C', 'S'] := by
  constructor
  · intro h
    have hq : '\'' ∉ q := fun hm => by
      have := mem_dbl.2 hm
      rw [h] at this
      revert this
      decide
    rwa [dbl_plain hq] at h
  · rintro rfl; rfl

theorem dblIndex_text (i : Index) : (dblIndex i).text = dbl i.text := by
  cases i with
  | str s => rfl
  | int n => exact (dbl_plain (plain_intStr n).1).symm

/-- a criterion with doubled quotes -/
def Crit.doubled (x : Crit) : Crit := { x with text := dbl x.text }

theorem crits_doubled (c : Criteria) : c.doubled.crits = c.crits.map fun x => (x.1.doubled, x.2) := by
  have happ : ∀ {a a' b b' : List (Crit × SqlCol)}, a = a' → b = b' → a ++ b = a' ++ b' := fun h1 h2 => by rw [h1, h2]
  have key : ∀ (n : Str) (l : Bool) (col : SqlCol) {t t' : Str}, t = t' → [((⟨n, l, t⟩, col) : Crit × SqlCol)] = [(⟨n, l, t'⟩, col)] := by
    intro n l col t t' h
    rw [h]
  unfold Criteria.crits Criteria.doubled
  rw [List.map_append, List.map_append, List.map_append, List.map_append, List.map_append, List.map_append]
  refine happ (happ (happ (happ (happ (happ ?_ ?_) ?_) ?_) ?_) ?_) ?_
  · cases c.author with
    | none => rfl
    | some a => exact key _ _ _ (dbl_capitalize a)
  · cases c.target with
    | none => rfl
    | some a => exact key _ _ _ (dbl_upper a)
  · cases c.reaction with
    | none => rfl
    | some r =>
      rw [Option.map_some, Option.map_some, Option.map_some, Option.toList_some, Option.toList_some, List.map_cons, List.map_nil]
      by_cases hs : '*' ∈ r
      · rw [if_pos hs, if_pos (mem_dbl.2 hs), dbl_replace, dbl_upper]
        rfl
      · rw [if_neg hs, if_neg (fun h => hs (mem_dbl.1 h)), dbl_upper]
        rfl
  · cases c.projectile with
    | none => rfl
    | some a => exact key _ _ _ (dbl_upper a)
  · cases c.quantity with
    | none => rfl
    | some q =>
      rw [Option.map_some, Option.map_some, Option.map_some, Option.toList_some, Option.toList_some, List.map_cons, List.map_nil]
      by_cases hq : q = ['C', 'S']
      · subst hq; rfl
      · rw [if_neg hq, if_neg (fun h => hq (dbl_cs.1 h)), dbl_upper]
        rfl
  · cases c.SUBENT with
    | none => rfl
    | some i => exact key _ _ _ (dblIndex_text i)
  · cases c.ENTRY with
    | none => rfl
    | some i => exact key _ _ _ (dblIndex_text i)

theorem lex_str_dbl (s txt rest : Str) (h : Char.ofNat 0 ∉ txt) :
    lexSql (.str s) (dbl txt ++ '\'' :: ' ' :: rest) = (lexSql .base rest).map (SqlTok.lit (s ++ txt) :: ·) := by
  induction txt generalizing s with
  | nil => exact lex_str s [] rest ⟨by simp, by simp⟩
  | cons c txt ih =>
    have h' : Char.ofNat 0 ∉ txt := fun hx => h (by simp [hx])
    rw [dbl_cons]
    by_cases hc : c = '\''
    · subst hc
      have h1 : lexStep (.str s) '\'' = some ([], .quote s) := by simp [lexStep]
      have h2 : lexStep (.quote s) '\'' = some ([], .str (s ++ ['\''])) := by simp [lexStep]
      simp only [if_true, List.cons_append, List.nil_append, lexSql, h1, h2]
      rw [ih _ h']
      cases lexSql .base rest <;> simp
    · have hn : c.toNat ≠ 0 := fun e => h (by
        have : c = Char.ofNat 0 := char_ext_toNat (by rw [e]; rfl)
        simp [this])
      have h1 : lexStep (.str s) c = some ([], .str (s ++ [c])) := by simp [lexStep, hc, hn]
      simp only [hc, if_false, List.cons_append, List.nil_append, lexSql, h1]
      rw [ih _ h']
      cases lexSql .base rest <;> simp

/-- a criterion whose text has no NUL character -/
def Crit.ok0 (x : Crit) : Prop := x.name ≠ [] ∧ (∀ c ∈ x.name, isIdStart c = true) ∧ Char.ofNat 0 ∉ x.text

theorem lex_crit_dbl (x : Crit) (h : x.ok0) (rest : Str) :
    lexSql .base (x.doubled.render ++ rest) = (lexSql .base rest).map (x.toks ++ ·) := by
  obtain ⟨hne, hid, ht⟩ := h
  cases x with
  | mk name like text =>
  simp only at hne hid ht
  cases like with
  | false =>
    have e : (Crit.mk name false text).doubled.render ++ rest = name ++ ' ' :: '=' :: ' ' :: '\'' :: (dbl text ++ '\'' :: ' ' :: rest) := by
      simp [Crit.render, Crit.doubled, eqCriterion]
    rw [e, lex_name hne hid, lex_eq, lex_space, lex_quote, lex_str_dbl [] text rest ht]
    cases lexSql .base rest <;> simp [Crit.toks]
  | true =>
    have e : (Crit.mk name true text).doubled.render ++ rest = name ++ ' ' :: ("LIKE".toList ++ ' ' :: '\'' :: (dbl text ++ '\'' :: ' ' :: rest)) := by
      simp [Crit.render, Crit.doubled, likeCriterion]
    rw [e, lex_name hne hid, lex_name (by decide) (by decide), lex_quote, lex_str_dbl [] text rest ht]
    cases lexSql .base rest <;> simp [Crit.toks]

theorem lex_crits_dbl (l : List Crit) (h : ∀ x ∈ l, x.ok0) :
    lexSql .base (joinWith " and ".toList ((l.map Crit.doubled).map Crit.render)) = some (critToks l) := by
  match l, h with
  | [], _ => rfl
  | [x], h =>
    have := lex_crit_dbl x (h x (by simp)) []
    rw [List.append_nil] at this
    simp only [List.map_cons, List.map_nil, joinWith, this]
    simp [lexSql, lexEnd, critToks]
  | x :: y :: r, h =>
    have ih := lex_crits_dbl (y :: r) (fun z hz => h z (by simp only [List.mem_cons] at hz ⊢; exact .inr hz))
    have e : joinWith " and ".toList (((x :: y :: r).map Crit.doubled).map Crit.render) =
        x.doubled.render ++ (' ' :: ("and".toList ++ ' ' :: joinWith " and ".toList (((y :: r).map Crit.doubled).map Crit.render))) := by
      simp [joinWith]
    rw [e, lex_crit_dbl x (h x (by simp)), lex_space, lex_name (by decide) (by decide), ih]
    simp [critToks]

theorem nul_map {f : Char → Char} (h : ∀ c, f c = Char.ofNat 0 → c = Char.ofNat 0) {s : Str} (hs : Char.ofNat 0 ∉ s) : Char.ofNat 0 ∉ s.map f := by
  intro hm
  obtain ⟨c, hc, e⟩ := List.mem_map.1 hm
  exact hs (h c e ▸ hc)

theorem nul_upper {s : Str} (hs : Char.ofNat 0 ∉ s) : Char.ofNat 0 ∉ upper s := nul_map (fun _ e => (toUpper_eq_iff (by decide)).1 e) hs

theorem nul_capitalize {s : Str} (hs : Char.ofNat 0 ∉ s) : Char.ofNat 0 ∉ capitalize s := by
  cases s with
  | nil => exact hs
  | cons c s =>
    intro hm
    rcases List.mem_cons.1 hm with e | hm
    · exact hs (by simp [(toUpper_eq_iff (c := c) (d := Char.ofNat 0) (by decide)).1 e.symm])
    · exact nul_map (fun _ e => toLower_fix (by decide) e) (fun h => hs (by simp [h])) hm

theorem crits_ok0 {c : Criteria} (h : ∀ t ∈ c.texts, Char.ofNat 0 ∉ t) : ∀ x ∈ c.crits, x.1.ok0 ∧ sqlCol x.1.name = some x.2 := by
  intro x hx
  have key : ∀ {name t : Str} {like : Bool} {col : SqlCol}, name ≠ [] → (∀ c ∈ name, isIdStart c = true) → sqlCol name = some col → Char.ofNat 0 ∉ t →
      ((⟨name, like, t⟩, col) : Crit × SqlCol).1.ok0 ∧ sqlCol ((⟨name, like, t⟩, col) : Crit × SqlCol).1.name = some col := fun h1 h2 h3 ht => ⟨⟨h1, h2, ht⟩, h3⟩
  simp only [Criteria.crits, List.mem_append, Option.mem_toList, Option.map_eq_some_iff] at hx
  simp only [Criteria.texts, List.mem_append, Option.mem_toList, Option.map_eq_some_iff] at h
  rcases hx with (((((⟨a, ha, rfl⟩ | ⟨t, ht, rfl⟩) | ⟨r, hr, rfl⟩) | ⟨p, hp, rfl⟩) | ⟨q, hq, rfl⟩) | ⟨s, hs, rfl⟩) | ⟨s, hs, rfl⟩
  · exact key (by decide) (by decide) (by decide) (nul_capitalize (h a (by simp [ha])))
  · exact key (by decide) (by decide) (by decide) (nul_upper (h t (by simp [ht])))
  · have := h r (by simp [hr])
    split
    · refine key (by decide) (by decide) (by decide) (nul_upper ?_)
      rw [replace_map]
      refine nul_map (fun c e => ?_) this
      by_cases hc : c = '*'
      · rw [if_pos hc] at e; exact absurd e (by decide)
      · rwa [if_neg hc] at e
    · exact key (by decide) (by decide) (by decide) (nul_upper this)
  · exact key (by decide) (by decide) (by decide) (nul_upper (h p (by simp [hp])))
  · refine key (by decide) (by decide) (by decide) ?_
    split
    · decide
    · exact nul_upper (h q (by simp [hq]))
  · exact key (by decide) (by decide) (by decide) (h s.text (by simp [hs]))
  · exact key (by decide) (by decide) (by decide) (h s.text (by simp [hs]))

theorem doubled_given {c : Criteria} : c.doubled.given ↔ c.given := by
  simp [Criteria.doubled, Criteria.given]

/-- C122: if every quote in the texts is written twice, the query finds exactly the subentries that satisfy the criteria with the texts as they are meant. -/
theorem C122_doubled (table : List Row) (c : Criteria) (h0 : ∀ t ∈ c.texts, Char.ofNat 0 ∉ t) (hw : ∀ r, c.reaction = some r → '*' ∈ r → '%' ∉ r ∧ '_' ∉ r)
    (hg : c.given) (hn : ∀ row ∈ table, row.subent ≠ none) :
    ∃ m, (query table c.doubled).2 = .ok m ∧ Grouped (fun s => ∃ row ∈ table, Matches c row ∧ row.subent = some s) m := by
  have hok := crits_ok0 h0
  have hl : lexSql .base c.doubled.condition = some (critToks (c.crits.map Prod.fst)) := by
    rw [Criteria.condition, conditions_eq, crits_doubled]
    have : (c.crits.map fun x => (x.1.doubled, x.2)).map Prod.fst = (c.crits.map Prod.fst).map Crit.doubled := by
      rw [List.map_map, List.map_map]
      rfl
    rw [this]
    apply lex_crits_dbl
    intro x hx
    obtain ⟨y, hy, rfl⟩ := List.mem_map.1 hx
    exact (hok y hy).1
  have hparse := parse_crits c.crits (crits_ne_nil.2 hg) (fun x hx => (hok x hx).2)
  obtain ⟨rows, hwh, hrows⟩ : ∃ rows, sqlWhere table c.doubled.condition = some rows ∧ ∀ row, row ∈ rows ↔ row ∈ table ∧ Matches c row := by
    unfold sqlWhere
    rw [hl]
    simp only [hparse]
    refine ⟨_, rfl, fun row => ?_⟩
    rw [List.mem_filter, ← crits_holds hw row]
    simp [condHolds]
  obtain ⟨found, hf⟩ := subentColumn_some (rows := rows) (fun row hr => hn row ((hrows row).1 hr).1)
  have hq : (query table c.doubled).2 = .ok (groupSubents found) := by
    unfold query
    rw [if_neg (condition_ne_nil.2 (doubled_given.2 hg))]
    simp only [hwh, hf]
  refine ⟨_, hq, ?_⟩
  rcases C44_query table c.doubled _ hq with ⟨h, -⟩ | ⟨-, rows', hw', hgr⟩
  · exact absurd (doubled_given.2 hg) h
  · rw [hwh] at hw'
    obtain rfl := Option.some.inj hw'
    have e : (fun s => ∃ row ∈ rows, row.subent = some s) = (fun s => ∃ row ∈ table, Matches c row ∧ row.subent = some s) :=
      funext fun s => propext ⟨fun ⟨row, h1, h2⟩ => ⟨row, ((hrows row).1 h1).1, ((hrows row).1 h1).2, h2⟩,
        fun ⟨row, h1, h2, h3⟩ => ⟨row, (hrows row).2 ⟨h1, h2⟩, h3⟩⟩
    rwa [e] at hgr

/-! ### an odd number of quotes -/

/-- inside a text -/
def LexMode.inText : LexMode → Nat
  | .str _ => 1
  | _ => 0

theorem lexStep_parity {m m' : LexMode} {c : Char} {ts : List SqlTok} (h : lexStep m c = some (ts, m')) :
    (m.inText + if c = '\'' then 1 else 0) % 2 = m'.inText % 2 := by
  have hs : ∀ {ts m'}, lexStart c = some (ts, m') → (if c = '\'' then 1 else 0) % 2 = m'.inText % 2 := by
    intro ts m' h
    unfold lexStart at h
    by_cases hc : c = '\''
    · subst hc
      have h0 : isSqlSpace '\'' = false := by decide
      rw [h0, if_neg (by decide), if_pos (by decide)] at h
      obtain ⟨-, rfl⟩ := Prod.mk.inj (Option.some.inj h)
      rfl
    · have hb : ¬ (c == '\'') = true := by simpa using hc
      rw [if_neg hb] at h
      rw [if_neg hc]
      split at h
      · obtain ⟨-, rfl⟩ := Prod.mk.inj (Option.some.inj h); rfl
      · split at h
        · obtain ⟨-, rfl⟩ := Prod.mk.inj (Option.some.inj h); rfl
        · split at h
          · obtain ⟨-, rfl⟩ := Prod.mk.inj (Option.some.inj h); rfl
          · cases h
  have ha : ∀ {t ts m'}, lexAfter t c = some (ts, m') → (if c = '\'' then 1 else 0) % 2 = m'.inText % 2 := by
    intro t ts m' h
    unfold lexAfter at h
    split at h
    · cases h
    · rename_i h'; cases h; exact hs h'
  cases m with
  | base => simpa [LexMode.inText] using hs h
  | ident s =>
    have h' : (if isIdChar c then some ([], .ident (s ++ [c])) else lexAfter (.ident s) c) = some (ts, m') := h
    show (0 + _) % 2 = _
    rw [Nat.zero_add]
    split at h'
    · rename_i hi
      obtain ⟨-, rfl⟩ := Prod.mk.inj (Option.some.inj h')
      rw [if_neg (by rintro rfl; revert hi; decide)]
      rfl
    · exact ha h'
  | str s =>
    have h' : (if c == '\'' then some ([], .quote s) else if c.toNat == 0 then none else some ([], .str (s ++ [c]))) = some (ts, m') := h
    show (1 + _) % 2 = _
    by_cases hc : c = '\''
    · rw [if_pos (by simpa using hc)] at h'
      obtain ⟨-, rfl⟩ := Prod.mk.inj (Option.some.inj h')
      rw [if_pos hc]
      exact (by decide : (1 + 1) % 2 = 0 % 2)
    · rw [if_neg (by simpa using hc)] at h'
      rw [if_neg hc]
      split at h'
      · cases h'
      · obtain ⟨-, rfl⟩ := Prod.mk.inj (Option.some.inj h')
        rfl
  | quote s =>
    have h' : (if c == '\'' then some ([], .str (s ++ ['\''])) else lexAfter (.lit s) c) = some (ts, m') := h
    show (0 + _) % 2 = _
    rw [Nat.zero_add]
    by_cases hc : c = '\''
    · rw [if_pos (by simpa using hc)] at h'
      obtain ⟨-, rfl⟩ := Prod.mk.inj (Option.some.inj h')
      rw [if_pos hc]
      rfl
    · rw [if_neg (by simpa using hc)] at h'
      exact ha h'

theorem lexSql_parity {m : LexMode} {s : Str} {ts : List SqlTok} (h : lexSql m s = some ts) : (m.inText + s.count '\'') % 2 = 0 := by
  induction s generalizing m ts with
  | nil =>
    cases m <;> simp_all [lexSql, lexEnd, LexMode.inText]
  | cons c s ih =>
    unfold lexSql at h
    cases hst : lexStep m c with
    | none => simp [hst] at h
    | some p =>
      obtain ⟨t, m'⟩ := p
      rw [hst] at h
      cases hr : lexSql m' s with
      | none => simp [hr] at h
      | some r =>
        have h1 := lexStep_parity hst
        have h2 := ih hr
        rw [List.count_cons]
        simp only [beq_iff_eq]
        omega

theorem count_map {f : Char → Char} (h : ∀ c, f c = '\'' ↔ c = '\'') (s : Str) : (s.map f).count '\'' = s.count '\'' := by
  induction s with
  | nil => rfl
  | cons c s ih =>
    rw [List.map_cons, List.count_cons, List.count_cons, ih]
    simp only [beq_iff_eq, h c]

theorem count_capitalize (s : Str) : (capitalize s).count '\'' = s.count '\'' := by
  cases s with
  | nil => rfl
  | cons c s =>
    show (c.toUpper :: s.map Char.toLower).count '\'' = _
    rw [List.count_cons, List.count_cons, count_map lower_quote]
    simp only [beq_iff_eq, upper_quote c]

theorem count_render {x : Crit} (h : '\'' ∉ x.name) : x.render.count '\'' = 2 + x.text.count '\'' := by
  have h1 := List.count_eq_zero.2 h
  cases x with
  | mk name like text =>
  simp only at h1
  cases like <;> simp [Crit.render, eqCriterion, likeCriterion, h1] <;> omega

theorem count_condition (l : List Crit) (h : ∀ x ∈ l, '\'' ∉ x.name) :
    ((joinWith " and ".toList (l.map Crit.render)).count '\'') % 2 = ((l.map fun x => x.text.count '\'').sum) % 2 := by
  match l, h with
  | [], _ => rfl
  | [x], h =>
    have := count_render (h x (by simp))
    simp only [List.map_cons, List.map_nil, joinWith, this, List.sum_cons, List.sum_nil]
    omega
  | x :: y :: r, h =>
    have ih := count_condition (y :: r) (fun z hz => h z (List.mem_cons_of_mem _ hz))
    have e : joinWith " and ".toList ((x :: y :: r).map Crit.render) = x.render ++ (" and ".toList ++ joinWith " and ".toList ((y :: r).map Crit.render)) := by
      simp [joinWith]
    have ha : " and ".toList.count '\'' = 0 := by decide
    have es : ((x :: y :: r).map fun x => x.text.count '\'').sum = x.text.count '\'' + ((y :: r).map fun x => x.text.count '\'').sum := by
      rw [List.map_cons, List.sum_cons]
    rw [e, List.count_append, List.count_append, ha, count_render (h x (by simp)), es]
    omega

theorem crits_count (c : Criteria) : (c.crits.map fun x => x.1.text.count '\'') = c.texts.map (·.count '\'') := by
  have happ : ∀ {a a' b b' : List Nat}, a = a' → b = b' → a ++ b = a' ++ b' := fun h1 h2 => by rw [h1, h2]
  have key : ∀ {n m : Nat}, n = m → [n] = [m] := fun h => by rw [h]
  have hup : ∀ s : Str, (upper s).count '\'' = s.count '\'' := count_map upper_quote
  unfold Criteria.crits Criteria.texts
  rw [List.map_append, List.map_append, List.map_append, List.map_append, List.map_append, List.map_append, List.map_append, List.map_append,
    List.map_append, List.map_append, List.map_append, List.map_append]
  refine happ (happ (happ (happ (happ (happ ?_ ?_) ?_) ?_) ?_) ?_) ?_
  · cases c.author with
    | none => rfl
    | some a => exact key (count_capitalize a)
  · cases c.target with
    | none => rfl
    | some a => exact key (hup a)
  · cases c.reaction with
    | none => rfl
    | some r =>
      rw [Option.map_some, Option.toList_some, Option.toList_some, List.map_cons, List.map_nil]
      by_cases hs : '*' ∈ r
      · rw [if_pos hs]
        refine key ((hup _).trans ?_)
        rw [replace_map, count_map replace_quote]
      · rw [if_neg hs]
        exact key (hup r)
  · cases c.projectile with
    | none => rfl
    | some a => exact key (hup a)
  · cases c.quantity with
    | none => rfl
    | some q =>
      rw [Option.map_some, Option.toList_some, Option.toList_some, List.map_cons, List.map_nil]
      by_cases hq : q = ['C', 'S']
      · subst hq; rfl
      · rw [if_neg hq]
        exact key (hup q)
  · cases c.SUBENT <;> rfl
  · cases c.ENTRY <;> rfl

/-- C122: with an odd number of quotes in the texts, as in names with an apostrophe, every query fails, whatever the index contains.
(`NoSql` is not needed for the model, which knows no comments and no quoted names, but for SQLite, where a quote could stand in one of them.) -/
theorem C122_odd (table : List Row) (c : Criteria) (_hs : ∀ t ∈ c.texts, NoSql t) (h : c.quotes % 2 = 1) : (query table c).2 = .error .operationalError := by
  have hg : c.given := by
    by_contra hg
    have hc := mt crits_ne_nil.1 hg
    rw [not_ne_iff] at hc
    have := crits_count c
    rw [hc] at this
    unfold Criteria.quotes at h
    rw [← this] at h
    simp at h
  have hl : lexSql .base c.condition = none := by
    cases hlx : lexSql .base c.condition with
    | none => rfl
    | some ts =>
      have h1 := lexSql_parity hlx
      have h0 : LexMode.base.inText = 0 := rfl
      rw [Criteria.condition, conditions_eq, h0, Nat.zero_add, count_condition, List.map_map] at h1
      · have e : ((fun x : Crit => x.text.count '\'') ∘ Prod.fst) = fun x : Crit × SqlCol => x.1.text.count '\'' := rfl
        rw [e, crits_count] at h1
        unfold Criteria.quotes at h
        omega
      · intro x hx
        obtain ⟨y, hy, rfl⟩ := List.mem_map.1 hx
        simp only [Criteria.crits, List.mem_append, Option.mem_toList, Option.map_eq_some_iff] at hy
        rcases hy with (((((⟨a, ha, rfl⟩ | ⟨t, ht, rfl⟩) | ⟨r, hr, rfl⟩) | ⟨p, hp, rfl⟩) | ⟨q, hq, rfl⟩) | ⟨s, hs, rfl⟩) | ⟨s, hs, rfl⟩
        · exact (by decide : '\'' ∉ "author".toList)
        · exact (by decide : '\'' ∉ "target".toList)
        · split
          · exact (by decide : '\'' ∉ "reaction".toList)
          · exact (by decide : '\'' ∉ "reaction".toList)
        · exact (by decide : '\'' ∉ "projectile".toList)
        · exact (by decide : '\'' ∉ "quantity".toList)
        · exact (by decide : '\'' ∉ "subent".toList)
        · exact (by decide : '\'' ∉ "entry".toList)
  unfold query
  rw [if_neg (condition_ne_nil.2 hg)]
  simp only [sqlWhere, hl]

/-! ### non-vacuity -/

/-- an index with names that have an apostrophe -/
def quoteIndex : List Row :=
  [⟨some chars!"10001", some chars!"10001003", some [' '], some chars!"O'brien", some chars!"N,G", some ['N'], some chars!"FE-0", some chars!"SIG"⟩,
   ⟨some chars!"20002", some chars!"20002002", some [' '], some chars!"O''brien", some chars!"N,G", some ['N'], some chars!"FE-0", some chars!"SIG"⟩,
   ⟨some chars!"20003", some chars!"20003002", some [' '], some chars!"Obrien", some chars!"N,G", some ['N'], some chars!"FE-0", some chars!"SIG"⟩]

theorem single_texts {a : Str} {P : Str → Prop} (h : P a) : ∀ t ∈ Criteria.texts { author := some a }, P t := by
  intro t ht
  rw [show Criteria.texts { author := some a } = [a] from rfl, List.mem_singleton] at ht
  exact ht ▸ h

/-- C122_doubled applies to `O'Brien`, written `O''Brien`: the first row is found and no other one. -/
example : (∃ m, (query quoteIndex (Criteria.doubled { author := some chars!"O'Brien" })).2 = .ok m ∧
      Grouped (fun s => ∃ row ∈ quoteIndex, Matches { author := some chars!"O'Brien" } row ∧ row.subent = some s) m) ∧
    Criteria.doubled { author := some chars!"O'Brien" } = { author := some chars!"O''Brien" } ∧
    (query quoteIndex { author := some chars!"O''Brien" }).2 = .ok [(chars!"10001", [chars!"10001001", chars!"10001003"])] :=
  ⟨C122_doubled _ _ (single_texts (by decide)) (by rintro r ⟨⟩) (.inl (by simp)) (by decide), rfl, by decide +kernel⟩

/-- C122_odd applies to the name as it is. -/
example : (query quoteIndex { author := some chars!"O'Brien" }).2 = .error .operationalError := by
  refine C122_odd _ _ (single_texts ⟨by decide, fun a b => ⟨fun h => ?_, fun h => ?_⟩⟩) rfl
  · have : '-' ∈ chars!"O'Brien" := by rw [h]; simp
    exact absurd this (by decide)
  · have : '/' ∈ chars!"O'Brien" := by rw [h]; simp
    exact absurd this (by decide)

end X4
