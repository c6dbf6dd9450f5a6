import Verif.Model.Base
import Verif.Props.Manager
import Verif.Props.Tables
/-! Property C111: the settings of a manager, its base class, and the tables of letters. -/
namespace X4

/-- C111: a manager reads the files below the given directory and the given index, and the installed ones where nothing is given; all other settings
reach SQLite as they are, and only they. It cannot be made exactly if SQLite refuses the index. -/
theorem C111_settings {α : Type} (dir index : α) (connect : α → Dict Str α → Except PyErr (List Row)) (kw : Dict Str α) :
    ∃ rest : Dict Str α, (∀ k, rest.get? k = if k = chars!"datapath" ∨ k = chars!"database" then none else kw.get? k) ∧ rest.Sublist kw ∧
      (∀ e, PlainFS.init dir index connect kw = .error e ↔ connect ((kw.get? chars!"database").getD index) rest = .error e) ∧
      ∀ m, PlainFS.init dir index connect kw = .ok m ↔ m.datapath = (kw.get? chars!"datapath").getD dir ∧
        m.database = (kw.get? chars!"database").getD index ∧ connect m.database rest = .ok m.table := by
  have hf : ∀ (d : Dict Str α) (a k : Str), Dict.get? (d.filter fun kv => kv.1 ≠ a) k = if k = a then none else d.get? k := by
    intro d a k
    induction d with
    | nil => simp [Dict.get?]
    | cons kv d ih =>
      by_cases h1 : kv.1 = a
      · rw [List.filter_cons_of_neg (by simpa using h1), ih]
        by_cases h2 : k = a
        · simp [h2]
        · rw [if_neg h2, if_neg h2]
          have : kv.1 ≠ k := fun h => h2 (h.symm.trans h1)
          simp [Dict.get?, this]
      · rw [List.filter_cons_of_pos (by simpa using h1)]
        by_cases h3 : kv.1 = k
        · have : k ≠ a := fun h => h1 (h3.trans h)
          simp [Dict.get?, h3, this]
        · by_cases h2 : k = a
          · rw [if_pos h2] at ih ⊢
            simpa [Dict.get?, h3] using ih
          · rw [if_neg h2] at ih ⊢
            simpa [Dict.get?, h3] using ih
  obtain ⟨rest, hrest⟩ : ∃ r, r = (popKw (popKw kw chars!"datapath" dir).2 chars!"database" index).2 := ⟨_, rfl⟩
  have hb : (popKw (popKw kw chars!"datapath" dir).2 chars!"database" index).1 = (kw.get? chars!"database").getD index := by
    unfold popKw
    simp only
    rw [hf, if_neg (by decide)]
  have hi : PlainFS.init dir index connect kw = (connect ((kw.get? chars!"database").getD index) rest).map
      fun t => ⟨(kw.get? chars!"datapath").getD dir, (kw.get? chars!"database").getD index, t⟩ := by
    rw [hrest, ← hb]
    unfold PlainFS.init
    simp only [show "datapath".toList = chars!"datapath" from rfl, show "database".toList = chars!"database" from rfl]
    cases connect (popKw (popKw kw chars!"datapath" dir).2 chars!"database" index).1 (popKw (popKw kw chars!"datapath" dir).2 chars!"database" index).2 <;> rfl
  refine ⟨rest, fun k => ?_, ?_, ?_, ?_⟩
  · rw [hrest]
    unfold popKw
    simp only
    rw [hf, hf]
    by_cases h1 : k = chars!"database" <;> by_cases h2 : k = chars!"datapath" <;> simp [h1, h2]
  · rw [hrest]
    exact List.filter_sublist.trans List.filter_sublist
  · intro e
    rw [hi]
    cases connect ((kw.get? chars!"database").getD index) rest <;> simp [Except.map]
  · rintro ⟨a, b, t⟩
    rw [hi]
    constructor
    · intro h
      cases hc : connect ((kw.get? chars!"database").getD index) rest with
      | error e => rw [hc] at h; cases h
      | ok u =>
        rw [hc] at h
        cases h
        exact ⟨rfl, rfl, hc⟩
    · rintro ⟨h1, h2, h3⟩
      simp only at h1 h2 h3
      rw [h2] at h3
      rw [h3, h1, h2]
      rfl

example : PlainFS.init chars!"data/db" chars!"data/index.tbl" (fun f _ => if f = chars!"my.tbl" then .ok [] else .error .operationalError)
    [(chars!"timeout", chars!"5"), (chars!"database", chars!"my.tbl")] = .ok ⟨chars!"data/db", chars!"my.tbl", []⟩ := by rfl

/-- C111: what is retrieved depends on the settings only through the index and the directory: the index decides what is found, the directory what is
read. -/
theorem C111_retrieve {α ρ : Type} (P : FieldParsers ρ) (files : α → DB) (dir index : α) (connect : α → Dict Str α → Except PyErr (List Row))
    (p q : α) (t : List Row) (hc : connect q [] = .ok t) (c : Criteria) :
    ∃ m, PlainFS.init dir index connect [(chars!"datapath", p), (chars!"database", q)] = .ok m ∧
      PlainFS.retrieve P files m c = retrieve P t (files p) c := by
  refine ⟨⟨p, q, t⟩, ?_, rfl⟩
  rw [show (PlainFS.init dir index connect [(chars!"datapath", p), (chars!"database", q)]) =
    match connect q [] with | .error e => .error e | .ok t => .ok ⟨p, q, t⟩ from rfl, hc]

/-- C111: the base class answers no request: a number of a wrong length is a KeyError, everything else NotImplementedError. -/
theorem C111_base (ρ : Type) (c : Criteria) (i : Index) :
    baseQuery c = .error .notImplementedError ∧ baseRetrieve ρ c = .error .notImplementedError ∧
    (i.text.length = 5 ∨ i.text.length = 8 → baseGetItem ρ i = .error .notImplementedError ∧ baseContains i = .error .notImplementedError) ∧
    (¬ (i.text.length = 5 ∨ i.text.length = 8) → baseGetItem ρ i = .error .keyError ∧ baseContains i = .error .keyError) := by
  refine ⟨rfl, rfl, ?_, ?_⟩
  · intro h
    have hf : fixKey i = .ok i.text := by simp [fixKey, h]
    unfold baseGetItem baseContains
    rw [hf]
    rcases h with h | h <;> simp [h, baseRetrieve, baseQuery]
  · intro h
    have hf : fixKey i = .error .keyError := by simp [fixKey, h]
    unfold baseGetItem baseContains
    rw [hf]
    exact ⟨rfl, rfl⟩

/-- C111: the two tables of the letters that stand for the first two digits of an accession number are inverse to each other. -/
theorem C111_letters (n l : Str) : entryLetters.get? n = some l ↔ revEntryLetters.get? l = some n := by
  have h1 : entryLetters.keys.Nodup := by decide +kernel
  have h2 : revEntryLetters.keys.Nodup := by decide +kernel
  have h3 : revEntryLetters = entryLetters.map fun kv => (kv.2, kv.1) := by decide +kernel
  constructor
  · intro h
    refine Dict.get?_eq_some_of_mem h2 ?_
    rw [h3]
    exact List.mem_map.2 ⟨_, Dict.mem_of_get? h, rfl⟩
  · intro h
    have := Dict.mem_of_get? h
    rw [h3] at this
    obtain ⟨kv, hkv, he⟩ := List.mem_map.1 this
    cases he
    exact Dict.get?_eq_some_of_mem h1 hkv

/-- C58: `endl_nZs` is the number of charges with a symbol. -/
theorem C58_count (Z : Int) : (∃ s, endlZSymbol Z = some s) ↔ 0 ≤ Z ∧ Z < endlNZs := by
  rw [C58_range]
  unfold endlNZs
  omega

end X4
