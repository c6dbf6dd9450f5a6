import Verif.Model.Dataset
import Verif.Lemmas.Case
import Verif.Lemmas.DataSets
import Verif.Props.Field
import Verif.Props.Entry
/-! The texts of titles and free text fields: the written words, line by line (C93). -/
namespace X4

/-- a text in title case: letters after letters in lower case, the others in upper case -/
def inTitleCase (w : Str) : Str :=
  List.zipWith (fun (prev : Option Char) c => if prev.any Char.isAlpha then c.toLower else c.toUpper) (none :: w.map some) w

theorem titleLoop_zip (s : Str) : ∀ (b : Bool) (o : Option Char), o.any Char.isAlpha = b →
    titleLoop b s = List.zipWith (fun (prev : Option Char) c => if prev.any Char.isAlpha then c.toLower else c.toUpper) (o :: s.map some) s := by
  induction s with
  | nil => intro b o _; rfl
  | cons c s ih =>
    intro b o h
    rw [titleLoop, ih c.isAlpha (some c) rfl, List.map_cons, List.zipWith_cons_cons, h]

theorem pyTitle_spec (s : Str) : pyTitle s = inTitleCase s := titleLoop_zip s false none rfl

theorem space_chars {c : Char} (h : isSpace c = true) : c.toUpper = c ∧ c.toLower = c ∧ c.isAlpha = false := by
  have hn : ¬ (97 ≤ c.toNat ∧ c.toNat ≤ 122) ∧ ¬ (65 ≤ c.toNat ∧ c.toNat ≤ 90) := by
    simp only [isSpace, Bool.or_eq_true, Bool.and_eq_true, decide_eq_true_eq, beq_iff_eq] at h
    omega
  refine ⟨toUpper_of_not_lower hn.1, ?_, ?_⟩
  · rcases toLower_cases c with h1 | h1
    · exact absurd ⟨h1.1, h1.2.1⟩ hn.2
    · exact h1.2
  · have e1 : c.isUpper = false := by
      have h2 := hn.2
      by_contra h3
      rw [Bool.not_eq_false] at h3
      simp only [Char.isUpper, Bool.and_eq_true, decide_eq_true_eq, UInt32.le_iff_toNat_le, ge_iff_le] at h3
      exact h2 h3
    have e2 : c.isLower = false := by
      have h2 := hn.1
      by_contra h3
      rw [Bool.not_eq_false] at h3
      simp only [Char.isLower, Bool.and_eq_true, decide_eq_true_eq, UInt32.le_iff_toNat_le, ge_iff_le] at h3
      exact h2 h3
    simp [Char.isAlpha, e1, e2]

theorem notSpace_chars {c : Char} (h : isSpace c = false) : isSpace c.toUpper = false ∧ isSpace c.toLower = false := by
  constructor
  · rcases toUpper_cases c with h1 | h1
    · simp only [isSpace, Bool.or_eq_false_iff, Bool.and_eq_false_iff, decide_eq_false_iff_not, beq_eq_false_iff_ne]
      omega
    · rw [h1.2]; exact h
  · rcases toLower_cases c with h1 | h1
    · simp only [isSpace, Bool.or_eq_false_iff, Bool.and_eq_false_iff, decide_eq_false_iff_not, beq_eq_false_iff_ne]
      omega
    · rw [h1.2]; exact h

theorem titleLoop_append (w : Str) {c : Char} (hc : isSpace c = true) (s : Str) (b : Bool) :
    titleLoop b (w ++ c :: s) = titleLoop b w ++ c :: titleLoop false s := by
  induction w generalizing b with
  | nil =>
    obtain ⟨h1, h2, h3⟩ := space_chars hc
    simp [titleLoop, h1, h2, h3]
  | cons a w ih => simp only [List.cons_append, titleLoop, ih]

theorem titleLoop_noSpace {w : Str} (hw : ∀ c ∈ w, isSpace c = false) (b : Bool) : ∀ c ∈ titleLoop b w, isSpace c = false := by
  induction w generalizing b with
  | nil => simp [titleLoop]
  | cons a w ih =>
    intro c hc
    rw [titleLoop, List.mem_cons] at hc
    rcases hc with rfl | hc
    · have := notSpace_chars (hw a (by simp))
      split <;> simp [this]
    · exact ih (fun c h => hw c (by simp [h])) _ c hc

theorem titleLoop_length (w : Str) (b : Bool) : (titleLoop b w).length = w.length := by
  induction w generalizing b with
  | nil => rfl
  | cons a w ih => simp [titleLoop, ih]

theorem splitWs_noSpace {w : Str} (hw : ∀ c ∈ w, isSpace c = false) : splitWs w = if w = [] then [] else [w] := by
  split
  · rename_i h; subst h; rfl
  · rename_i h; exact splitWs_last hw h

theorem space_split (s : Str) : (∀ c ∈ s, isSpace c = false) ∨ ∃ w c r, s = w ++ c :: r ∧ (∀ x ∈ w, isSpace x = false) ∧ isSpace c = true := by
  induction s with
  | nil => left; simp
  | cons a s ih =>
    by_cases ha : isSpace a = true
    · exact .inr ⟨[], a, s, rfl, by simp, ha⟩
    · rw [Bool.not_eq_true] at ha
      rcases ih with h | ⟨w, c, r, rfl, hw, hc⟩
      · left
        intro c hc
        rcases List.mem_cons.1 hc with rfl | hc
        · exact ha
        · exact h c hc
      · refine .inr ⟨a :: w, c, r, rfl, ?_, hc⟩
        intro x hx
        rcases List.mem_cons.1 hx with rfl | hx
        · exact ha
        · exact hw x hx

/-- the words of a text in title case -/
theorem words_pyTitle (s : Str) : splitWs (pyTitle s) = (splitWs s).map inTitleCase := by
  obtain ⟨n, hn⟩ : ∃ n, s.length = n := ⟨_, rfl⟩
  induction n using Nat.strong_induction_on generalizing s with
  | _ n ih =>
    rcases space_split s with h | ⟨w, c, r, rfl, hw, hc⟩
    · rw [splitWs_noSpace h, splitWs_noSpace (w := pyTitle s) (titleLoop_noSpace h false)]
      have hl := titleLoop_length s false
      by_cases hs : s = []
      · subst hs; rfl
      · have : pyTitle s ≠ [] := by
          intro h0
          unfold pyTitle at h0
          rw [h0] at hl
          exact hs (List.length_eq_zero_iff.1 hl.symm)
        rw [if_neg hs, if_neg this, List.map_cons, List.map_nil, pyTitle_spec]
    · unfold pyTitle
      rw [titleLoop_append w hc, splitWs_append_space _ _ hc, splitWs_append_space _ _ hc, List.map_append]
      have hr := ih r.length (by rw [← hn]; simp; omega) r rfl
      unfold pyTitle at hr
      rw [hr]
      congr 1
      have hw' := ih w.length (by rw [← hn]; simp) w rfl
      exact hw'

theorem words_join (l : List Str) : splitWs (joinWith [' '] l) = l.flatMap splitWs := by
  induction l with
  | nil => rfl
  | cons a l ih =>
    cases l with
    | nil => simp [joinWith]
    | cons b l =>
      show splitWs (a ++ [' '] ++ joinWith [' '] (b :: l)) = _
      rw [List.append_assoc, List.singleton_append, splitWs_append_space _ _ (by decide), ih]
      rfl

theorem words_subStr (l : List Str) : splitWs (subStr l) = l.flatMap splitWs := by
  rw [subStr, words_join, List.flatMap_map]
  congr 1
  funext x
  exact splitWs_strip x

/-- the pointers of a field, in order -/
theorem sortedKeys_spec {raw : List Str} {f : PlainField} (h : PlainField.build raw = .ok f) :
    f.sortedKeys.Pairwise (fun a b : Char => a.toNat < b.toNat) ∧ ∀ p, p ∈ f.sortedKeys ↔ textUnder raw p ≠ [] := by
  refine ⟨?_, fun p => ?_⟩
  · have hnd : f.sortedKeys.Nodup := (sortBy_perm _ _).nodup_iff.2 (nodup_build_field h)
    have hs : f.sortedKeys.Pairwise (fun a b => charLe a b = true) := sortBy_sorted (le := charLe) (fun a b h => by simp only [charLe, decide_eq_false_iff_not, decide_eq_true_eq] at h ⊢; omega) (fun a b c h h' => by simp only [charLe, decide_eq_true_eq] at h h' ⊢; omega) _
    refine List.Pairwise.imp₂ ?_ hs hnd
    intro a b h1 h2
    simp only [charLe, decide_eq_true_eq] at h1
    have : a.toNat ≠ b.toNat := fun h => h2 (char_ext_toNat h)
    omega
  · rw [PlainField.sortedKeys, mem_sortBy]
    exact (C39_pointer_in_force raw f h p).2

/-- C93: a printed title consists of the words written in the field, in title case: those of the lines of the first pointer, line by
line, then those of the second, and so on. -/
theorem C93_title (raw : List Str) (f : PlainField) (h : PlainField.build raw = .ok f) :
    ∃ ps : List Char, ps.Pairwise (fun a b : Char => a.toNat < b.toNat) ∧ (∀ p, p ∈ ps ↔ textUnder raw p ≠ []) ∧
      splitWs (titleText f) = ps.flatMap fun p => (textUnder raw p).flatMap fun line => (splitWs line).map inTitleCase := by
  refine ⟨f.sortedKeys, (sortedKeys_spec h).1, (sortedKeys_spec h).2, ?_⟩
  rw [titleText, words_join, List.flatMap_map]
  congr 1
  funext p
  rw [splitWs_strip, words_pyTitle, words_subStr, (C39_pointer_in_force raw f h p).1, List.map_flatMap]

theorem pointerInForce_blank {ls : List Str} (h : ∀ l ∈ ls, explicitPointer l = none) : pointerInForce ls = ' ' := by
  unfold pointerInForce
  rw [List.filterMap_eq_nil_iff.2 h]
  rfl

theorem textUnder_blank {raw : List Str} (h : ∀ l ∈ raw, explicitPointer l = none) (p : Char) :
    textUnder raw p = if p = ' ' then raw.map textArea else [] := by
  unfold textUnder
  have hp : ∀ k, pointerInForce (raw.take (k + 1)) = ' ' := fun k => pointerInForce_blank fun l hl => h l (List.mem_of_mem_take hl)
  simp only [hp]
  by_cases hb : p = ' '
  · subst hb
    simp only [if_true]
    conv_rhs => rw [show raw = (List.range raw.length).filterMap fun k => raw[k]? from by
      clear h hp
      induction raw with
      | nil => rfl
      | cons a l ih => simp only [List.length_cons, List.range_succ_eq_map, List.filterMap_cons, List.getElem?_cons_zero, List.filterMap_map, Function.comp_def, List.getElem?_cons_succ]; rw [← ih]]
    rw [List.map_filterMap]
  · have hb' : ¬ ' ' = p := fun h => hb h.symm
    simp [hb, hb']

/-- C93 for a field without pointers: the words of the lines (columns 12 to 66), in title case. -/
theorem C93_title_plain (raw : List Str) (f : PlainField) (h : PlainField.build raw = .ok f) (hp : ∀ l ∈ raw, explicitPointer l = none) :
    splitWs (titleText f) = raw.flatMap fun line => (splitWs ((line.drop 11).take 55)).map inTitleCase := by
  have hne : raw ≠ [] := (C39_fails_iff_empty raw).1 ⟨f, h⟩
  obtain ⟨ps, h1, h2, h3⟩ := C93_title raw f h
  have hps : ps = [' '] := by
    have hm : ∀ p, p ∈ ps ↔ p = ' ' := by
      intro p
      rw [h2, textUnder_blank hp]
      by_cases hb : p = ' ' <;> simp [hb, hne]
    cases ps with
    | nil => simpa using (hm ' ').2 rfl
    | cons a l =>
      have ha := (hm a).1 (by simp)
      cases l with
      | nil => rw [ha]
      | cons b l =>
        have hb := (hm b).1 (by simp)
        have := (List.pairwise_cons.1 h1).1 b (by simp)
        subst ha hb
        omega
  rw [h3, hps, List.flatMap_singleton, textUnder_blank hp, if_pos rfl, List.flatMap_map]
  congr 1
  funext line
  congr 1
  have : ∀ s : Str, splitWs (rstrip s) = splitWs s := by
    intro s
    obtain ⟨b, hb, hs⟩ := rstrip_decomp s
    conv_rhs => rw [hb]
    have := splitWs_trim (a := []) (s := rstrip s) (b := b) (by simp) hs
    simpa using this.symm
  exact this _

/-- C93: a printed free text has one item for each pointer, in increasing order, separated by semicolons: the pointer in brackets, if it
is not blank, and the lines written under it, without the blanks around them, separated by single blanks; so the words of each
item are the words of its lines. -/
theorem C93_text (raw : List Str) (f : PlainField) (h : PlainField.build raw = .ok f) :
    ∃ (ps : List Char) (item : Char → Str), ps.Pairwise (fun a b : Char => a.toNat < b.toNat) ∧ (∀ p, p ∈ ps ↔ textUnder raw p ≠ []) ∧
      f.str = joinWith chars!"; " (ps.map fun p => if p = ' ' then item p else ['[', p, ']', ' '] ++ item p) ∧
      ∀ p, item p = joinWith [' '] ((textUnder raw p).map strip) ∧ splitWs (item p) = (textUnder raw p).flatMap splitWs := by
  refine ⟨f.sortedKeys, fun p => subStr ((f.subs.get? p).getD []), (sortedKeys_spec h).1, (sortedKeys_spec h).2, ?_, fun p => ⟨?_, ?_⟩⟩
  · unfold PlainField.str
    congr 1
    apply List.map_congr_left
    intro p _
    by_cases hp : p = ' ' <;> simp [hp]
  · show subStr _ = _
    rw [(C39_pointer_in_force raw f h p).1, subStr]
  · show splitWs (subStr _) = _
    rw [words_subStr, (C39_pointer_in_force raw f h p).1]

/-- C93 for free text without pointers, as printed: the words of the lines. -/
theorem C93_text_plain (raw : List Str) (f : PlainField) (h : PlainField.build raw = .ok f) (hp : ∀ l ∈ raw, explicitPointer l = none) :
    splitWs f.str = raw.flatMap fun line => splitWs (textArea line) := by
  have hk := sortedKeys_spec h
  have hne : raw ≠ [] := (C39_fails_iff_empty raw).1 ⟨f, h⟩
  have hm : ∀ p, p ∈ f.sortedKeys ↔ p = ' ' := by
    intro p
    rw [hk.2, textUnder_blank hp]
    by_cases hb : p = ' ' <;> simp [hb, hne]
  have hps : f.sortedKeys = [' '] := by
    cases hs : f.sortedKeys with
    | nil => rw [hs] at hm; simpa using (hm ' ').2 rfl
    | cons a l =>
      rw [hs] at hm hk
      have ha := (hm a).1 (by simp)
      cases l with
      | nil => rw [ha]
      | cons b l =>
        have hb := (hm b).1 (by simp)
        have := (List.pairwise_cons.1 hk.1).1 b (by simp)
        subst ha hb
        omega
  unfold PlainField.str
  rw [hps]
  simp only [List.map_cons, List.map_nil, ne_eq, not_true_eq_false, if_false, joinWith]
  rw [words_subStr, (C39_pointer_in_force raw f h ' ').1, textUnder_blank hp, if_pos rfl, List.flatMap_map]

example : ∃ f, PlainField.build [chars!"TITLE      ON THE (N,2N) REACTION", chars!"            OF  U-235"] = .ok f ∧
    titleText f = chars!"On The (N,2N) Reaction Of  U-235" ∧
    splitWs (titleText f) = [chars!"On", chars!"The", chars!"(N,2N)", chars!"Reaction", chars!"Of", chars!"U-235"] :=
  ⟨_, rfl, by decide +kernel, by decide +kernel⟩
example : ∀ l ∈ [chars!"TITLE      ON THE (N,2N) REACTION", chars!"            OF  U-235"], explicitPointer l = none := by decide +kernel
example : ∃ f, PlainField.build [chars!"TITLE     2SECOND", chars!"          1FIRST", chars!"           PART"] = .ok f ∧ titleText f = chars!"First Part Second" :=
  ⟨_, rfl, by decide +kernel⟩
example : ∃ f, PlainField.build [chars!"COMMENT   2SECOND", chars!"          1 FIRST", chars!"             PART"] = .ok f ∧ f.str = chars!"[1] FIRST PART; [2] SECOND" :=
  ⟨_, rfl, by decide +kernel⟩

end X4
