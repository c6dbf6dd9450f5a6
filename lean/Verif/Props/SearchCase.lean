import Verif.Spec.SearchCase
import Verif.Props.Manager
import Verif.Lemmas.Case
import Mathlib.Tactic.IntervalCases
/-! C123: searches and the case of letters. -/
namespace X4

theorem char_of_toNat {c : Char} {n : Nat} (h : c.toNat = n) : c = Char.ofNat n := by
  rw [← h, Char.ofNat_toNat]

theorem letters_case {a b : Char} (h1 : 65 ≤ a.toNat) (h2 : a.toNat ≤ 90) (h3 : b.toNat = a.toNat + 32) :
    a.toUpper = a ∧ b.toUpper = a ∧ a.toLower = b ∧ b.toLower = b := by
  obtain ⟨n, hn⟩ : ∃ n, a.toNat = n := ⟨_, rfl⟩
  rw [hn] at h1 h2 h3
  have ha := char_of_toNat hn
  have hb := char_of_toNat h3
  subst ha hb
  clear hn h3
  interval_cases n <;> decide

theorem SameLetter.toUpper {a b : Char} (h : SameLetter a b) : a.toUpper = b.toUpper := by
  rcases h with rfl | ⟨h1, h2, h3⟩ | ⟨h1, h2, h3⟩
  · rfl
  · rw [(letters_case h1 h2 h3).1, (letters_case h1 h2 h3).2.1]
  · rw [(letters_case h1 h2 h3).1, (letters_case h1 h2 h3).2.1]

theorem SameLetter.toLower {a b : Char} (h : SameLetter a b) : a.toLower = b.toLower := by
  rcases h with rfl | ⟨h1, h2, h3⟩ | ⟨h1, h2, h3⟩
  · rfl
  · rw [(letters_case h1 h2 h3).2.2.1, (letters_case h1 h2 h3).2.2.2]
  · rw [(letters_case h1 h2 h3).2.2.1, (letters_case h1 h2 h3).2.2.2]

theorem SameLetter.star {a b : Char} (h : SameLetter a b) : a = '*' ↔ b = '*' := by
  rcases h with rfl | ⟨h1, h2, h3⟩ | ⟨h1, h2, h3⟩
  · rfl
  · constructor <;> (rintro rfl; simp at h1 h2 h3 <;> omega)
  · constructor <;> (rintro rfl; simp at h1 h2 h3 <;> omega)

theorem SameText.upper_eq {s t : Str} (h : SameText s t) : upper s = upper t := by
  unfold SameText at h
  induction h with
  | nil => rfl
  | cons hx _ ih =>
    show _ :: _ = _ :: _
    rw [hx.toUpper]
    exact congrArg _ ih

theorem SameText.lower_eq {s t : Str} (h : SameText s t) : s.map Char.toLower = t.map Char.toLower := by
  unfold SameText at h
  induction h with
  | nil => rfl
  | cons hx _ ih => rw [List.map_cons, List.map_cons, hx.toLower, ih]

theorem SameText.capitalize_eq {s t : Str} (h : SameText s t) : capitalize s = capitalize t := by
  unfold SameText at h
  cases h with
  | nil => rfl
  | cons hx h =>
    show _ :: _ = _ :: _
    rw [hx.toUpper, SameText.lower_eq h]

theorem SameText.star_eq {s t : Str} (h : SameText s t) : '*' ∈ s ↔ '*' ∈ t := by
  unfold SameText at h
  induction h with
  | nil => rfl
  | cons hx _ ih =>
    have := hx.star
    rw [List.mem_cons, List.mem_cons, ih]
    constructor
    · rintro (h | h)
      · exact .inl (this.1 h.symm).symm
      · exact .inr h
    · rintro (h | h)
      · exact .inl (this.2 h.symm).symm
      · exact .inr h

theorem SameText.starred_eq {s t : Str} (h : SameText s t) : upper (replaceChar '*' ['%'] s) = upper (replaceChar '*' ['%'] t) := by
  unfold SameText at h
  induction h with
  | nil => rfl
  | @cons a b l₁ l₂ hx _ ih =>
    have e : ∀ (x : Char) (l : Str), upper (replaceChar '*' ['%'] (x :: l)) = (if x = '*' then '%' else x.toUpper) :: upper (replaceChar '*' ['%'] l) := by
      intro x l
      unfold upper replaceChar
      rw [List.flatMap_cons]
      by_cases hx : x = '*'
      · subst hx; rfl
      · rw [if_neg hx]
        have : (x == '*') = false := by simpa using hx
        rw [this]; rfl
    rw [e, e, ih]
    by_cases ha : a = '*'
    · rw [if_pos ha, if_pos (hx.star.1 ha)]
    · rw [if_neg ha, if_neg (fun h => ha (hx.star.2 h)), hx.toUpper]

theorem sameOpt_map {a b : Option Str} (h : SameOpt a b) {f : Str → Str} (hf : ∀ s t, a = some s → b = some t → SameText s t → f s = f t) :
    a.map f = b.map f := by
  cases h with
  | none => rfl
  | some h => exact congrArg some (hf _ _ rfl rfl h)

theorem SameText.reaction_eq {s t : Str} (h : SameText s t) : reactionCriterion s = reactionCriterion t := by
  unfold reactionCriterion
  rw [h.starred_eq, h.upper_eq]
  by_cases hs : '*' ∈ s
  · rw [if_pos hs, if_pos (h.star_eq.1 hs)]
  · rw [if_neg hs, if_neg (fun ht => hs (h.star_eq.2 ht))]

theorem upper_cs : upper ['C', 'S'] = ['C', 'S'] := by decide

theorem SameText.quantity_eq {s t : Str} (h : SameText s t) (hs : upper s ≠ ['C', 'S']) : quantityCriterion s = quantityCriterion t := by
  have h1 : s ≠ "CS".toList := by rintro rfl; exact hs (by decide)
  have h2 : t ≠ "CS".toList := by
    rintro rfl
    exact hs (h.upper_eq.trans (by decide))
  unfold quantityCriterion
  rw [if_neg h1, if_neg h2, h.upper_eq]

theorem same_conditions {c c' : Criteria} (h : SameCriteria c c') (hq : ∀ q, c.quantity = some q → upper q = ['C', 'S'] → c'.quantity = some q) :
    c.conditions = c'.conditions := by
  unfold Criteria.conditions
  rw [sameOpt_map h.author (f := fun a => eqCriterion "author".toList (capitalize a)) (fun s t _ _ hst => by rw [hst.capitalize_eq]),
    sameOpt_map h.target (f := fun a => eqCriterion "target".toList (upper a)) (fun s t _ _ hst => by rw [hst.upper_eq]),
    sameOpt_map h.reaction (f := reactionCriterion) (fun s t _ _ hst => hst.reaction_eq),
    sameOpt_map h.projectile (f := fun a => eqCriterion "projectile".toList (upper a)) (fun s t _ _ hst => by rw [hst.upper_eq]),
    sameOpt_map h.quantity (f := quantityCriterion) (fun s t hs ht hst => by
      by_cases hu : upper s = ['C', 'S']
      · have := hq s hs hu
        rw [ht] at this
        rw [Option.some.inj this]
      · exact hst.quantity_eq hu), h.subent, h.entry]

/-- C123: searches do not depend on the case of the letters in the names, reactions and quantities asked for: the same SQL statement
is executed, with the same result, whatever the texts contain. (The quantity `CS` must be written in capital letters.) -/
theorem C123_case_partial (table : List Row) (c c' : Criteria) (h : SameCriteria c c')
    (hq : ∀ q, c.quantity = some q → upper q = ['C', 'S'] → c'.quantity = some q) : query table c = query table c' := by
  unfold query Criteria.condition
  rw [same_conditions h hq]

/-- C123: the same for the entries retrieved. -/
theorem C123_retrieve_partial {ρ : Type} (P : FieldParsers ρ) (table : List Row) (db : DB) (c c' : Criteria) (h : SameCriteria c c')
    (hq : ∀ q, c.quantity = some q → upper q = ['C', 'S'] → c'.quantity = some q) :
    retrieve P table db c = retrieve P table db c' ∧ retrieveRaw table db c = retrieveRaw table db c' := by
  unfold retrieve retrieveRaw
  rw [C123_case_partial table c c' h hq]
  exact ⟨rfl, rfl⟩

theorem upper_of_noSmall {s : Str} (h : NoSmall s) : upper s = s := by
  unfold upper
  exact (List.map_congr_left fun c hm => toUpper_of_not_lower (h c hm)).trans (List.map_id s)

theorem toLower_of_not_capital {c : Char} (h : ¬ (65 ≤ c.toNat ∧ c.toNat ≤ 90)) : c.toLower = c := by
  rcases toLower_cases c with h1 | h1
  · exact absurd ⟨h1.1, h1.2.1⟩ h
  · exact h1.2

theorem toLower_not_capital (c : Char) : ¬ (65 ≤ c.toLower.toNat ∧ c.toLower.toNat ≤ 90) := by
  by_cases h : 65 ≤ c.toNat ∧ c.toNat ≤ 90
  · obtain ⟨n, hn⟩ : ∃ n, c.toNat = n := ⟨_, rfl⟩
    rw [hn] at h
    have hc := char_of_toNat hn
    subst hc
    clear hn
    obtain ⟨h1, h2⟩ := h
    interval_cases n <;> decide
  · rw [toLower_of_not_capital h]; exact h

theorem toUpper_not_small (c : Char) : ¬ (97 ≤ c.toUpper.toNat ∧ c.toUpper.toNat ≤ 122) := by
  by_cases h : 97 ≤ c.toNat ∧ c.toNat ≤ 122
  · obtain ⟨n, hn⟩ : ∃ n, c.toNat = n := ⟨_, rfl⟩
    rw [hn] at h
    have hc := char_of_toNat hn
    subst hc
    clear hn
    obtain ⟨h1, h2⟩ := h
    interval_cases n <;> decide
  · rw [toUpper_of_not_lower h]; exact h

/-- what `capitalize` gives is capitalized, and capitalized texts stay as they are -/
theorem capitalized_iff (s : Str) : Capitalized s ↔ capitalize s = s := by
  cases s with
  | nil => exact ⟨fun _ => rfl, fun _ => trivial⟩
  | cons c s =>
    constructor
    · rintro ⟨h1, h2⟩
      show _ :: _ = _ :: _
      rw [toUpper_of_not_lower h1]
      congr 1
      exact (List.map_congr_left fun d hd => toLower_of_not_capital (h2 d hd)).trans (List.map_id s)
    · intro h
      have h' : c.toUpper :: s.map Char.toLower = c :: s := h
      injection h' with h1 h2
      constructor
      · rw [← h1]; exact toUpper_not_small c
      · intro d hd
        rw [← h2] at hd
        obtain ⟨e, _, rfl⟩ := List.mem_map.1 hd
        exact toLower_not_capital e

theorem capitalize_capitalized (s : Str) : Capitalized (capitalize s) := by
  cases s with
  | nil => trivial
  | cons c s =>
    refine ⟨toUpper_not_small c, fun d hd => ?_⟩
    obtain ⟨e, _, rfl⟩ := List.mem_map.1 hd
    exact toLower_not_capital e

theorem ofRow_matches {row : Row} {c : Criteria} (hf : Findable row) (ho : OfRow row c) : Matches c row := by
  refine ⟨?_, ?_, ?_, ?_, ?_, ho.subent, ho.entry⟩
  · intro a ha
    obtain ⟨v, hv, hs⟩ := ho.author a ha
    rw [hv, hs.capitalize_eq, (capitalized_iff v).1 (hf.author v hv)]
  · intro a ha
    obtain ⟨v, hv, hs⟩ := ho.target a ha
    rw [hv, hs.upper_eq, upper_of_noSmall (hf.target v hv)]
  · intro a ha
    obtain ⟨v, hv, hs⟩ := ho.reaction a ha
    unfold ReactionMatches
    rw [if_neg (fun h => (hf.reaction v hv).2 (hs.star_eq.1 h)), hv, hs.upper_eq, upper_of_noSmall (hf.reaction v hv).1]
  · intro a ha
    obtain ⟨v, hv, hs⟩ := ho.projectile a ha
    rw [hv, hs.upper_eq, upper_of_noSmall (hf.projectile v hv)]
  · intro a ha
    obtain ⟨v, hv, hs⟩ := ho.quantity a ha
    have hu : upper a = v := by rw [hs.upper_eq, upper_of_noSmall (hf.quantity v hv).1]
    rw [if_neg (by rintro rfl; exact (hf.quantity v hv).2 (hu ▸ upper_cs)), hu, hv]

theorem grouped_named {S : Str → Prop} {m : Dict Str (List Str)} (h : Grouped S m) {s : Str} (hs : S s) : Named m s := by
  have hk := (h.keys (s.take 5)).2 ⟨s, hs, rfl⟩
  obtain ⟨⟨k, l⟩, hm, rfl⟩ := List.mem_map.1 hk
  obtain ⟨t, rfl, -, ht⟩ := h.lists _ _ hm
  refine ⟨_, _, hm, ?_⟩
  by_cases he : s = s.take 5 ++ ['0', '0', '1']
  · rw [List.mem_cons]; exact .inl he
  · exact List.mem_cons_of_mem _ ((ht s).2 ⟨hs, rfl, he⟩)

/-- C123: a row whose values are written as `query` looks for them is found by any of its values, or several of them at once, in
whatever case they are given. -/
theorem C123_found_partial (table : List Row) (row : Row) (c : Criteria) (hr : row ∈ table) (hf : Findable row) (ho : OfRow row c) (hp : Plain c)
    (hg : c.given) (hn : ∀ row ∈ table, row.subent ≠ none) :
    ∃ m s, (query table c).2 = .ok m ∧ row.subent = some s ∧ Named m s := by
  obtain ⟨m, hm, hgr⟩ := C45_partial table c hp hg hn
  obtain ⟨s, hs⟩ := Option.ne_none_iff_exists'.1 (hn row hr)
  exact ⟨m, s, hm, hs, grouped_named hgr ⟨row, hr, ofRow_matches hf ho, hs⟩⟩

/-- C123 is false for names with a capital letter further on, as `Le Brun`: a subentry whose authors are all written so is in no result
of a search by author, whatever name is asked for (except the first subentries, which are always included). -/
theorem C123_author_refuted (table : List Row) (c : Criteria) (hp : Plain c) (a : Str) (ha : c.author = some a) (m : Dict Str (List Str))
    (hm : (query table c).2 = .ok m) (s : Str) (hs : ∀ row ∈ table, row.subent = some s → ∀ v, row.author = some v → ∃ x y, v = x :: y ∧ ¬ NoCapitals y)
    (h8 : s.length = 8) (h1 : s.drop 5 ≠ ['0', '0', '1']) : ¬ Named m s := by
  have hg : c.given := .inl (by rw [ha]; rfl)
  rintro ⟨k, l, hkl, hsl⟩
  rcases C44_query table c m hm with ⟨h, -⟩ | ⟨-, rows, hw, hgr⟩
  · exact h hg
  · obtain ⟨rows', hw', hrows⟩ := sqlWhere_plain table hp hg
    rw [hw] at hw'
    obtain rfl := Option.some.inj hw'
    have hlen : ∀ r : Str, (∃ row ∈ rows, row.subent = some r) → r = s → False := by
      rintro r ⟨row, hrow, hrs⟩ rfl
      obtain ⟨ht, hmat⟩ := (hrows row).1 hrow
      obtain ⟨x, y, hxy, hcap⟩ := hs row ht hrs _ (hmat.author a ha)
      have := capitalize_capitalized a
      rw [hxy] at this
      exact hcap this.2
    obtain ⟨t, rfl, -, ht⟩ := hgr.lists k l hkl
    rcases List.mem_cons.1 hsl with he | he
    · have h5 : k.length = 5 := by
        have := congrArg List.length he
        rw [h8, List.length_append] at this
        simpa using this.symm
      apply h1
      rw [he, List.drop_left' h5]
    · exact hlen s ((ht s).1 he).1 rfl

/-- C123 is false for the quantity `cs`: in small letters it is not the other name of `SIG`. -/
theorem C123_quantity_refuted : SameCriteria { quantity := some chars!"CS" } { quantity := some chars!"cs" } ∧
    (query demoIndex { quantity := some chars!"CS" }).2 ≠ (query demoIndex { quantity := some chars!"cs" }).2 ∧
    (query demoIndex { quantity := some chars!"cs" }).2 = .ok [] := by
  refine ⟨⟨.none, .none, .none, .none, .some (.cons ?_ (.cons ?_ .nil)), rfl, rfl⟩, by decide +kernel, by decide +kernel⟩
  · exact .inr (.inl (by decide))
  · exact .inr (.inl (by decide))

/-- two authors of a subentry, as in the index of the tests -/
def namesIndex : List Row :=
  [⟨some chars!"22831", some chars!"22831002", some chars!" ", some chars!"Le Brun", some chars!"N,EL", some chars!"N", some chars!"C-12", some chars!"DA"⟩,
   ⟨some chars!"22831", some chars!"22831003", some chars!" ", some chars!"Blomgren", some chars!"N,EL", some chars!"N", some chars!"C-12", some chars!"DA"⟩]

/-- C123 is false for `Le Brun`, whom the search for that very name does not find; `blomgren` is found. -/
theorem C123_name_refuted : namesIndex[0].author = some chars!"Le Brun" ∧ (query namesIndex { author := some chars!"Le Brun" }).2 = .ok [] ∧
    (query namesIndex { author := some chars!"blomgren" }).2 = .ok [(chars!"22831", [chars!"22831001", chars!"22831003"])] := by
  refine ⟨rfl, by decide +kernel, by decide +kernel⟩

/-- The hypotheses of C123_case_partial are met by different criteria. -/
example : SameCriteria { author := some chars!"blomGREN", reaction := some chars!"n,*" } { author := some chars!"BLOMgren", reaction := some chars!"N,*" } ∧
    (query namesIndex { author := some chars!"blomGREN", reaction := some chars!"n,*" }).2 = .ok [(chars!"22831", [chars!"22831001", chars!"22831003"])] := by
  have same : ∀ a b : Char, (a = b ∨ (65 ≤ a.toNat ∧ a.toNat ≤ 90 ∧ b.toNat = a.toNat + 32) ∨ (65 ≤ b.toNat ∧ b.toNat ≤ 90 ∧ a.toNat = b.toNat + 32)) → SameLetter a b :=
    fun _ _ h => h
  refine ⟨⟨.some ?_, .none, .some ?_, .none, .none, rfl, rfl⟩, by decide +kernel⟩
  · unfold SameText
    repeat (first | exact List.Forall₂.nil | refine List.Forall₂.cons (same _ _ (by decide)) ?_)
  · unfold SameText
    repeat (first | exact List.Forall₂.nil | refine List.Forall₂.cons (same _ _ (by decide)) ?_)

/-- The second row can be found by its own values. -/
example : Findable namesIndex[1] ∧ OfRow namesIndex[1] { author := some chars!"Blomgren", target := some chars!"C-12", SUBENT := some (.str chars!"22831003") } := by
  have small : ∀ s : Str, s.all (fun c => !(97 ≤ c.toNat && c.toNat ≤ 122)) = true → NoSmall s := by
    intro s h c hc hb
    have := List.all_eq_true.1 h c hc
    simp [hb.1, hb.2] at this
  have same : ∀ s : Str, SameText s s := fun s => List.forall₂_same.2 fun _ _ => .inl rfl
  refine ⟨⟨?_, ?_, ?_, ?_, ?_⟩, ⟨?_, ?_, ?_, ?_, ?_, ?_, ?_⟩⟩
  · rintro v ⟨⟩; exact (capitalized_iff _).2 (by decide)
  · rintro v ⟨⟩; exact small _ (by decide)
  · rintro v ⟨⟩; exact ⟨small _ (by decide), by decide⟩
  · rintro v ⟨⟩; exact small _ (by decide)
  · rintro v ⟨⟩; exact ⟨small _ (by decide), by decide⟩
  · rintro a ⟨⟩; exact ⟨_, rfl, same _⟩
  · rintro a ⟨⟩; exact ⟨_, rfl, same _⟩
  · rintro a ⟨⟩
  · rintro a ⟨⟩
  · rintro a ⟨⟩
  · rintro a ⟨⟩; rfl
  · rintro a ⟨⟩

/-- The hypotheses of C123_author_refuted are met by the first row. -/
example : ∀ row ∈ namesIndex, row.subent = some chars!"22831002" → ∀ v, row.author = some v → ∃ x y, v = x :: y ∧ ¬ NoCapitals y := by
  intro row hr hs v hv
  rcases List.mem_cons.1 hr with rfl | hr
  · obtain rfl := Option.some.inj hv
    exact ⟨_, _, rfl, fun h => h 'B' (by decide) (by decide)⟩
  · rcases List.mem_cons.1 hr with rfl | hr
    · exact absurd hs (by decide)
    · exact absurd hr (List.not_mem_nil)

end X4
