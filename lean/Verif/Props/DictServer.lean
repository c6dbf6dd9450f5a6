import Verif.Props.Dicts
/-! Property C103: the dictionary server and `getAllDictionaries`. -/
namespace X4

/-- C103: a listed dictionary is read from the file with its number, whether it is asked for by number or by name; a missing file gives
`None`, and everything that is not listed is a `TypeError`. -/
theorem C103_server (fs : DictFiles) (n : Int) (s : Str) (h : (n, s) ∈ dictionaryNames) :
    serverGetDictionary fs (.str s) = serverGetDictionary fs (.int n) ∧
    (fs ("dict".toList ++ zfill (intStr n) 2 ++ ".txt".toList) = none → serverGetDictionary fs (.int n) = .ok none) ∧
    ∀ lines, fs ("dict".toList ++ zfill (intStr n) 2 ++ ".txt".toList) = some lines →
      (∀ d, serverGetDictionary fs (.int n) = .ok (some d) ↔ getDictionary lines = .ok d) ∧
      ∀ e, serverGetDictionary fs (.int n) = .error e ↔ getDictionary lines = .error e := by
  have hn : getDictionaryName (.int n) = some s := (nameIn_iff dictNums_nodup n s).2 h
  obtain ⟨h1, h2⟩ := (C56_filename n s).1 hn
  refine ⟨by simp only [serverGetDictionary, h2], fun hf => by simp only [serverGetDictionary, h1, hf], fun lines hl => ?_⟩
  simp only [serverGetDictionary, h1, hl]
  cases getDictionary lines <;> simp

/-- C103: what is not listed is refused. -/
theorem C103_unknown (fs : DictFiles) (x : DictKey) (hn : ∀ n s, x = .int n → (n, s) ∉ dictionaryNames)
    (hs : ∀ n s, x = .str s → (n, s) ∉ dictionaryNames) : serverGetDictionary fs x = .error .typeError := by
  have : getDictionaryFilename x = none := by
    cases x with
    | int n => exact (C56_filename n []).2.1 ((C56_none (.int n)).1.2 hn)
    | str s => exact (C56_filename 0 s).2.2 ((C56_none (.str s)).2.2 hs)
    | other => rfl
  simp only [serverGetDictionary, this]

theorem server_listed (fs : DictFiles) (i : Int × Str) (h : i ∈ dictionaryNames) :
    serverGetDictionary fs (.int i.1) = match fs ("dict".toList ++ zfill (intStr i.1) 2 ++ ".txt".toList) with
      | none => .ok none
      | some lines => match getDictionary lines with
        | .error e => .error e
        | .ok d => .ok (some d) := by
  have hn : getDictionaryName (.int i.1) = some i.2 := (nameIn_iff dictNums_nodup _ _).2 h
  simp only [serverGetDictionary, ((C56_filename i.1 i.2).1 hn).1]
  rfl

/-- the loop, from any point -/
theorem allLoop (fs : DictFiles) (l : List (Int × Str)) (hl : ∀ i ∈ l, i ∈ dictionaryNames) (hnd : (l.map Prod.snd).Nodup)
    (dm r : Dict Str (Dict Str (List Str))) (h : foldE (allStep fs) dm l = .ok r) (name : Str) (d : Dict Str (List Str)) :
    r.get? name = some d ↔ (∃ n lines, (n, name) ∈ l ∧ fs ("dict".toList ++ zfill (intStr n) 2 ++ ".txt".toList) = some lines ∧
      getDictionary lines = .ok d) ∨
      ((∀ n, (n, name) ∈ l → fs ("dict".toList ++ zfill (intStr n) 2 ++ ".txt".toList) = none) ∧ dm.get? name = some d) := by
  induction l generalizing dm with
  | nil => simp only [foldE, Except.ok.injEq] at h; subst h; simp
  | cons i l ih =>
    obtain ⟨m, s⟩ := i
    rw [List.map_cons, List.nodup_cons] at hnd
    have hnot : ∀ n, (n, s) ∉ l := fun n hn => hnd.1 (List.mem_map.2 ⟨(n, s), hn, rfl⟩)
    rw [foldE] at h
    simp only [allStep, server_listed fs (m, s) (hl _ (by simp))] at h
    cases hf : fs ("dict".toList ++ zfill (intStr m) 2 ++ ".txt".toList) with
    | none =>
      simp only [hf] at h
      rw [ih (fun i hi => hl i (by simp [hi])) hnd.2 dm h]
      constructor
      · rintro (⟨n, lines, h1, h2⟩ | ⟨h1, h2⟩)
        · exact .inl ⟨n, lines, by simp [h1], h2⟩
        · refine .inr ⟨fun n hn => ?_, h2⟩
          rcases List.mem_cons.1 hn with e | hn
          · cases e; exact hf
          · exact h1 n hn
      · rintro (⟨n, lines, h1, h2⟩ | ⟨h1, h2⟩)
        · rcases List.mem_cons.1 h1 with e | h1
          · cases e; rw [hf] at h2; simp at h2
          · exact .inl ⟨n, lines, h1, h2⟩
        · exact .inr ⟨fun n hn => h1 n (by simp [hn]), h2⟩
    | some lines0 =>
      simp only [hf] at h
      cases hg : getDictionary lines0 with
      | error e => simp [hg] at h
      | ok d0 =>
        simp only [hg] at h
        rw [ih (fun i hi => hl i (by simp [hi])) hnd.2 _ h, Dict.get?_set]
        constructor
        · rintro (⟨n, lines, h1, h2⟩ | ⟨h1, h2⟩)
          · exact .inl ⟨n, lines, by simp [h1], h2⟩
          · split at h2
            · rename_i e
              subst e
              simp only [Option.some.injEq] at h2
              subst h2
              exact .inl ⟨m, lines0, by simp, hf, hg⟩
            · rename_i e
              refine .inr ⟨fun n hn => ?_, h2⟩
              rcases List.mem_cons.1 hn with e' | hn
              · cases e'; exact absurd rfl e
              · exact h1 n hn
        · rintro (⟨n, lines, h1, h2, h3⟩ | ⟨h1, h2⟩)
          · rcases List.mem_cons.1 h1 with e | h1
            · cases e
              rw [hf] at h2
              cases h2
              rw [hg] at h3
              cases h3
              exact .inr ⟨fun n hn => absurd hn (hnot n), by simp⟩
            · exact .inl ⟨n, lines, h1, h2, h3⟩
          · right
            refine ⟨fun n hn => h1 n (by simp [hn]), ?_⟩
            rw [if_neg]
            · exact h2
            · rintro rfl
              rw [h1 m (by simp)] at hf
              simp at hf

/-- C103: `getAllDictionaries` holds, under the name of each listed dictionary whose file is there, what that file contains, and nothing
else. -/
theorem C103_all (fs : DictFiles) (dm : Dict Str (Dict Str (List Str))) (h : getAllDictionaries fs = .ok dm) (name : Str)
    (d : Dict Str (List Str)) :
    dm.get? name = some d ↔ ∃ n lines, (n, name) ∈ dictionaryNames ∧
      fs ("dict".toList ++ zfill (intStr n) 2 ++ ".txt".toList) = some lines ∧ getDictionary lines = .ok d := by
  rw [allLoop fs dictionaryNames (fun _ h => h) dictNames_nodup [] dm h name d]
  simp [Dict.get?]

theorem allLoop_fails (fs : DictFiles) (l : List (Int × Str)) (hl : ∀ i ∈ l, i ∈ dictionaryNames) (dm : Dict Str (Dict Str (List Str)))
    (e : PyErr) :
    foldE (allStep fs) dm l = .error e ↔ ∃ pre i post lines, l = pre ++ i :: post ∧
      fs ("dict".toList ++ zfill (intStr i.1) 2 ++ ".txt".toList) = some lines ∧ getDictionary lines = .error e ∧
      ∀ j ∈ pre, ∀ lines, fs ("dict".toList ++ zfill (intStr j.1) 2 ++ ".txt".toList) = some lines → ∃ d, getDictionary lines = .ok d := by
  induction l generalizing dm with
  | nil => simp [foldE]
  | cons i l ih =>
    have hl' : ∀ i ∈ l, i ∈ dictionaryNames := fun i hi => hl i (by simp [hi])
    -- a first file without failure changes nothing
    have hstep : (∀ lines, fs ("dict".toList ++ zfill (intStr i.1) 2 ++ ".txt".toList) = some lines → ∃ d, getDictionary lines = .ok d) →
        ((∃ pre j post lines, i :: l = pre ++ j :: post ∧
          fs ("dict".toList ++ zfill (intStr j.1) 2 ++ ".txt".toList) = some lines ∧ getDictionary lines = .error e ∧
          ∀ j ∈ pre, ∀ lines, fs ("dict".toList ++ zfill (intStr j.1) 2 ++ ".txt".toList) = some lines → ∃ d, getDictionary lines = .ok d) ↔
        ∃ pre j post lines, l = pre ++ j :: post ∧
          fs ("dict".toList ++ zfill (intStr j.1) 2 ++ ".txt".toList) = some lines ∧ getDictionary lines = .error e ∧
          ∀ j ∈ pre, ∀ lines, fs ("dict".toList ++ zfill (intStr j.1) 2 ++ ".txt".toList) = some lines → ∃ d, getDictionary lines = .ok d) := by
      intro hok
      constructor
      · rintro ⟨pre, j, post, lines, h1, h2, h3, h4⟩
        cases pre with
        | nil =>
          simp only [List.nil_append, List.cons.injEq] at h1
          obtain ⟨rfl, rfl⟩ := h1
          obtain ⟨d, hd⟩ := hok _ h2
          rw [h3] at hd
          cases hd
        | cons p pre =>
          simp only [List.cons_append, List.cons.injEq] at h1
          exact ⟨pre, j, post, lines, h1.2, h2, h3, fun k hk => h4 k (by simp [hk])⟩
      · rintro ⟨pre, j, post, lines, h1, h2, h3, h4⟩
        refine ⟨i :: pre, j, post, lines, by simp [h1], h2, h3, ?_⟩
        intro k hk
        rcases List.mem_cons.1 hk with rfl | hk
        · exact hok
        · exact h4 k hk
    rw [foldE]
    simp only [allStep, server_listed fs i (hl _ (by simp))]
    cases hf : fs ("dict".toList ++ zfill (intStr i.1) 2 ++ ".txt".toList) with
    | none =>
      refine (ih hl' dm).trans (hstep ?_).symm
      intro lines hl
      rw [hf] at hl
      cases hl
    | some lines0 =>
      cases hg : getDictionary lines0 with
      | error e' =>
        simp only [hg, Except.error.injEq]
        constructor
        · rintro rfl
          exact ⟨[], i, l, lines0, rfl, hf, hg, by simp⟩
        · rintro ⟨pre, j, post, lines, h1, h2, h3, h4⟩
          cases pre with
          | nil =>
            simp only [List.nil_append, List.cons.injEq] at h1
            obtain ⟨rfl, rfl⟩ := h1
            rw [hf] at h2
            cases h2
            rw [hg] at h3
            cases h3
            rfl
          | cons p pre =>
            simp only [List.cons_append, List.cons.injEq] at h1
            obtain ⟨rfl, rfl⟩ := h1
            obtain ⟨d, hd⟩ := h4 i (by simp) _ hf
            rw [hg] at hd
            cases hd
      | ok d0 =>
        simp only [hg]
        refine (ih hl' _).trans (hstep ?_).symm
        intro lines hl
        rw [hf] at hl
        cases hl
        exact ⟨d0, hg⟩

/-- C103: it fails exactly if one of the files that are there cannot be read, with the exception of the first such file; in particular
missing files do not matter. -/
theorem C103_fails (fs : DictFiles) (e : PyErr) :
    getAllDictionaries fs = .error e ↔ ∃ pre i post lines, dictionaryNames = pre ++ i :: post ∧
      fs ("dict".toList ++ zfill (intStr i.1) 2 ++ ".txt".toList) = some lines ∧ getDictionary lines = .error e ∧
      ∀ j ∈ pre, ∀ lines, fs ("dict".toList ++ zfill (intStr j.1) 2 ++ ".txt".toList) = some lines → ∃ d, getDictionary lines = .ok d :=
  allLoop_fails fs dictionaryNames (fun _ h => h) [] e

/-- a directory with two files -/
def demoDicts : DictFiles := fun f =>
  if f = chars!"dict04.txt" then some [chars!"Title = t", chars!"NumFields = 2", chars!"FieldBreaks = [ 2 ]", chars!"J Journal"]
  else if f = chars!"dict09.txt" then some [chars!"Title = t", chars!"NumFields = 2", chars!"FieldBreaks = [ 4 ]", chars!"ACT acetone"]
  else none

example : getAllDictionaries demoDicts = .ok [(chars!"ReferenceTypes", [(chars!"J", [chars!"Journal"])]),
    (chars!"Compounds", [(chars!"ACT", [chars!"acetone"])])] ∧
    serverGetDictionary demoDicts (.str chars!"Compounds") = .ok (some [(chars!"ACT", [chars!"acetone"])]) ∧
    serverGetDictionary demoDicts (.int 3) = .ok none ∧ serverGetDictionary demoDicts (.int 10) = .error .typeError :=
  ⟨by decide +kernel, by decide +kernel, by decide +kernel, by decide +kernel⟩
example : getAllDictionaries (fun _ => some [chars!"Title", chars!"NumFields = x"]) = .error .valueError :=
  (C103_fails _ _).2 ⟨[], (3, "Institutes".toList), _, _, rfl, rfl, by decide +kernel, by simp⟩

end X4
