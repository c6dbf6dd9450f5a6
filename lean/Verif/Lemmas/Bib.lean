import Verif.Model.Bib
import Verif.Spec.Bib
import Verif.Lemmas.Field
/-! Lemmas about BIB sections. -/
namespace X4

theorem tag_slice (l : Str) : strip (slice l 0 10) = tagOf l := rfl

theorem bibLoop_false (field : List Str) (sec : List (List Str)) (ls : List Str) :
    ∃ fs, bibLoop false field sec ls = sec ++ fs ∧ fs.flatten = field ++ ls.filter (fun l => !isBibFrame l) ∧
      (∀ l fr, field = l :: fr → (∀ m ∈ fr, ¬ hasTag m) → ∀ f ∈ fs, IsField f) ∧
      (∀ f ∈ fs.tail, ∀ l ∈ f.head?, hasTag l) := by
  induction ls generalizing field sec with
  | nil =>
    refine ⟨[field], by simp [bibLoop], by simp, ?_, by simp⟩
    intro l fr h1 h2 f hf
    simp at hf; subst hf
    exact ⟨l, fr, h1, h2⟩
  | cons x ls ih =>
    simp only [bibLoop]
    by_cases hb : strip (slice x 0 10) = "BIB".toList ∨ strip (slice x 0 10) = "ENDBIB".toList
    · rw [if_pos hb]
      have : isBibFrame x = true := by simpa [isBibFrame, ← tag_slice] using hb
      obtain ⟨fs, h1, h2, h3⟩ := ih field sec
      exact ⟨fs, h1, by rw [h2]; simp [this], h3⟩
    · rw [if_neg hb]
      have hf : isBibFrame x = false := by
        have : ¬ isBibFrame x = true := by simpa [isBibFrame, ← tag_slice] using hb
        simpa using this
      simp only [Bool.false_eq_true, if_false]
      by_cases ht : strip (slice x 0 10) = []
      · rw [if_neg (by simp [ht])]
        obtain ⟨fs, h1, h2, h3, h4⟩ := ih (field ++ [x]) sec
        refine ⟨fs, h1, by rw [h2]; simp [hf], ?_, h4⟩
        intro l fr e hfr
        apply h3 l (fr ++ [x]) (by rw [e]; simp)
        intro m hm
        rw [List.mem_append] at hm
        rcases hm with hm | hm
        · exact hfr m hm
        · simp at hm; subst hm; simp [hasTag, ← tag_slice, ht]
      · rw [if_pos (by simpa using ht)]
        obtain ⟨fs, h1, h2, h3, h4⟩ := ih [x] (sec ++ [field])
        have hne : fs ≠ [] := by rintro rfl; simp at h2
        obtain ⟨f, fs, rfl⟩ := List.exists_cons_of_ne_nil hne
        refine ⟨field :: f :: fs, by simp [h1], ?_, ?_, ?_⟩
        · simp only [List.flatten_cons] at h2 ⊢
          rw [h2]; simp [hf]
        · intro l fr e hfr g hg
          rcases List.mem_cons.1 hg with rfl | hg
          · exact ⟨l, fr, e, hfr⟩
          · exact h3 x [] rfl (by simp) g hg
        · intro g hg l hl
          simp only [List.tail_cons, List.mem_cons] at hg
          rcases hg with rfl | hg
          · obtain ⟨y, ys, rfl, -⟩ := h3 x [] rfl (by simp) g (by simp)
            simp at hl; subst hl
            simp at h2
            rw [h2.1]; exact ht
          · exact h4 g (by simpa using hg) l hl

theorem bibLoop_true (ls : List Str) :
    (ls.filter (fun l => !isBibFrame l) = [] ∧ bibLoop true [] [] ls = [[]]) ∨
    FieldCut (ls.filter fun l => !isBibFrame l) (bibLoop true [] [] ls) := by
  induction ls with
  | nil => left; simp [bibLoop]
  | cons x ls ih =>
    simp only [bibLoop]
    by_cases hb : strip (slice x 0 10) = "BIB".toList ∨ strip (slice x 0 10) = "ENDBIB".toList
    · rw [if_pos hb]
      have : isBibFrame x = true := by simpa [isBibFrame, ← tag_slice] using hb
      simpa [this] using ih
    · rw [if_neg hb]
      have hf : isBibFrame x = false := by
        have : ¬ isBibFrame x = true := by simpa [isBibFrame, ← tag_slice] using hb
        simpa using this
      right
      simp only [if_true, List.nil_append]
      obtain ⟨fs, h1, h2, h3, h4⟩ := bibLoop_false [x] [] ls
      rw [h1]
      exact ⟨by simp [h2, hf], by simpa using h3 x [] rfl (by simp), by simpa using h4⟩

/-- the cut is determined by the content -/
theorem FieldCut.unique {c : List Str} {f g : List (List Str)} (hf : FieldCut c f) (hg : FieldCut c g) : f = g := by
  have key : ∀ (f g : List (List Str)), f.flatten = g.flatten → (∀ x ∈ f, IsField x) → (∀ x ∈ g, IsField x) →
      (∀ x ∈ f.tail, ∀ l ∈ x.head?, hasTag l) → (∀ x ∈ g.tail, ∀ l ∈ x.head?, hasTag l) → f = g := by
    intro f
    induction f with
    | nil =>
      intro g h _ hg _ _
      cases g with
      | nil => rfl
      | cons y g => obtain ⟨l, ls, rfl, -⟩ := hg y (by simp); simp at h
    | cons x f ih =>
      intro g h hF hG tF tG
      cases g with
      | nil => obtain ⟨l, ls, rfl, -⟩ := hF x (by simp); simp at h
      | cons y g =>
        obtain ⟨l, ls, rfl, h1⟩ := hF x (by simp)
        obtain ⟨m, ms, rfl, h2⟩ := hG y (by simp)
        simp only [List.flatten_cons, List.cons_append, List.cons.injEq] at h
        obtain ⟨rfl, h⟩ := h
        have hd : ∀ {fs : List (List Str)}, (∀ x ∈ fs, IsField x) → (∀ x ∈ fs, ∀ l ∈ x.head?, hasTag l) →
            ∀ z ∈ fs.flatten.head?, hasTag z := by
          intro fs a b z hz
          cases fs with
          | nil => simp at hz
          | cons w fs =>
            obtain ⟨q, qs, rfl, -⟩ := a w (by simp)
            simp at hz; subst hz
            exact b _ (List.mem_cons_self) q (by simp)
        have hdF := hd (fs := f) (fun x hx => hF x (by simp [hx])) (fun x hx => tF x (by simpa using hx))
        have hdG := hd (fs := g) (fun x hx => hG x (by simp [hx])) (fun x hx => tG x (by simpa using hx))
        have cut : ∀ (a b r s : List Str), a ++ r = b ++ s → (∀ m ∈ a, ¬ hasTag m) → (∀ m ∈ b, ¬ hasTag m) →
            (∀ z ∈ r.head?, hasTag z) → (∀ z ∈ s.head?, hasTag z) → a = b ∧ r = s := by
          intro a
          induction a with
          | nil =>
            intro b r s e ha hb hr hs
            cases b with
            | nil => exact ⟨rfl, by simpa using e⟩
            | cons z b => simp at e; subst e; exact absurd (hr z (by simp)) (hb z (by simp))
          | cons z a ih =>
            intro b r s e ha hb hr hs
            cases b with
            | nil => simp at e; subst e; exact absurd (hs z (by simp)) (ha z (by simp))
            | cons w b =>
              simp at e
              obtain ⟨rfl, e⟩ := e
              obtain ⟨rfl, rfl⟩ := ih b r s e (fun m hm => ha m (by simp [hm])) (fun m hm => hb m (by simp [hm])) hr hs
              exact ⟨rfl, rfl⟩
        obtain ⟨rfl, e⟩ := cut _ _ _ _ h h1 h2 hdF hdG
        rw [ih g e (fun x hx => hF x (by simp [hx])) (fun x hx => hG x (by simp [hx]))
          (fun x hx => tF x (by simpa using List.mem_of_mem_tail hx))
          (fun x hx => tG x (by simpa using List.mem_of_mem_tail hx))]
  exact key f g (hf.all.trans hg.all.symm) hf.isField hg.isField hf.tagged hg.tagged

/-! ### printing -/

theorem length_canon {tag : Str} {bs : List (Char × List Str)} :
    (canonLines tag bs).length = (bs.map fun b => b.2.length).sum := by
  have : (bs.flatMap blockLines).length = (bs.map fun b => b.2.length).sum := by
    rw [List.length_flatMap]
    congr 1
    apply List.map_congr_left
    intro b _
    unfold blockLines
    cases b.2 <;> simp
  unfold canonLines
  cases h : bs.flatMap blockLines with
  | nil => rw [h] at this; simpa using this
  | cons l ls => rw [h] at this; simpa using this

theorem sum_sortedSubs {f : PlainField} (hn : f.subs.keys.Nodup) :
    (f.sortedSubs.map fun b => b.2.length).sum = f.totalLen := by
  have h1 : (f.sortedSubs.map fun b => b.2.length) =
      (sortBy charLe f.subs.keys).map fun p => ((f.subs.get? p).getD []).length := by
    simp [PlainField.sortedSubs, PlainField.sortedKeys, Function.comp_def]
  rw [h1, ((sortBy_perm charLe f.subs.keys).map _).sum_nat]
  unfold PlainField.totalLen Dict.keys
  rw [List.map_map]
  congr 1
  apply List.map_congr_left
  intro kv hkv
  simp [Dict.get?_eq_some_of_mem hn (show (kv.1, kv.2) ∈ f.subs from hkv)]

theorem totalLen_build (raw : List Str) (f : PlainField) (h : PlainField.build raw = .ok f) :
    f.totalLen = raw.length := by
  cases raw with
  | nil => simp [PlainField.build, pyIdx] at h
  | cons l0 ls =>
    simp only [PlainField.build, pyIdx, List.getElem?_cons_zero, Except.ok.injEq] at h
    rw [← h]
    simp only [PlainField.totalLen]
    generalize l0 :: ls = xs
    suffices ((xs.foldl plainStep (' ', [])).2.keys.Nodup ∧
        ((xs.foldl plainStep (' ', [])).2.map fun kv => kv.2.length).sum = xs.length) from this.2
    induction xs using List.reverseRecOn with
    | nil => simp [Dict.keys]
    | append_singleton xs l ih =>
      rw [List.foldl_append]
      simp only [List.foldl_cons, List.foldl_nil, plainStep]
      refine ⟨Dict.nodup_keys_set ih.1 _ _, ?_⟩
      rw [Dict.sum_set_getD _ ih.1, ih.2]; simp

/-- The printed form of a field has as many lines as its source. -/
theorem repr_lines {raw : List Str} {f : PlainField} (h : PlainField.build raw = .ok f)
    (hnl : ∀ l ∈ raw, '\n' ∉ l) :
    ∃ ls : List Str, f.repr = joinWith ['\n'] ls ∧ ls.length = raw.length ∧ ls ≠ [] ∧ ∀ l ∈ ls, '\n' ∉ l := by
  have hlen := totalLen_build raw f h
  cases raw with
  | nil => simp [PlainField.build, pyIdx] at h
  | cons l0 ls =>
    simp only [PlainField.build, pyIdx, List.getElem?_cons_zero, Except.ok.injEq] at h
    obtain ⟨hi1, hi2, hi3⟩ := fold_inv (l0 :: ls) hnl
    have hne := nonempty_fold (ls := l0 :: ls) (by simp)
    have hsubs : f.subs = ((l0 :: ls).foldl plainStep (' ', [])).2 := by rw [← h]
    have hkeys : ∀ k ∈ f.subs.keys, k ≠ '\n' := by
      intro k hk
      rw [Dict.mem_keys_iff, hsubs] at hk
      have := (fold_textUnder (l0 :: ls) k).2.2.1 hk
      obtain ⟨x, hx⟩ := List.exists_mem_of_ne_nil _ this
      simp only [textUnder, List.mem_filterMap] at hx
      obtain ⟨i, hi, hx⟩ := hx
      split at hx
      · rename_i hpk
        rw [← hpk, pointerInForce]
        cases hl : (List.filterMap explicitPointer (List.take (i + 1) (l0 :: ls))).getLast? with
        | none => simp
        | some c =>
          have := List.mem_of_getLast? hl
          rw [List.mem_filterMap] at this
          obtain ⟨l, hl', hc⟩ := this
          rintro rfl
          unfold explicitPointer at hc
          split at hc
          · split at hc
            · simp at hc
            · simp at hc; subst hc
              rename_i _ h10 _
              exact hnl l (List.mem_of_mem_take hl') (List.mem_of_getElem? h10)
          · simp at hc
      · simp at hx
    rw [← hsubs] at hi2 hi3 hne
    have hblock : ∀ b ∈ f.sortedSubs, b ∈ f.subs := by
      intro b hb
      simp only [PlainField.sortedSubs, List.mem_map] at hb
      obtain ⟨p, hp, rfl⟩ := hb
      rw [PlainField.sortedKeys, mem_sortBy, Dict.keys, List.mem_map] at hp
      obtain ⟨kv, hkv, rfl⟩ := hp
      simpa [Dict.get?_eq_some_of_mem hi2 (show (kv.1, kv.2) ∈ f.subs from hkv)] using hkv
    have hl : (canonLines f.tag f.sortedSubs).length = (l0 :: ls).length := by
      rw [length_canon, sum_sortedSubs hi2, hlen]
    refine ⟨canonLines f.tag f.sortedSubs, repr_eq hne (fun kv hkv => (hi3 kv hkv).1) hi2, hl, ?_, ?_⟩
    · intro e; rw [e] at hl; simp at hl
    · have hftnl : '\n' ∉ f.tag := by
        rw [← h]; simp only
        intro hm
        have := mem_strip hm
        simp only [slice, List.drop_zero] at this
        exact hnl l0 (by simp) (List.mem_of_mem_take this)
      have hbl : ∀ l ∈ f.sortedSubs.flatMap blockLines, '\n' ∉ l := by
        intro l hl
        rw [List.mem_flatMap] at hl
        obtain ⟨⟨p, xs⟩, hb, hl⟩ := hl
        have hb' := hblock _ hb
        have hpn : p ≠ '\n' := hkeys p (List.mem_map.2 ⟨_, hb', rfl⟩)
        have hx := (hi3 _ hb').2
        cases xs with
        | nil => simp [blockLines] at hl
        | cons x xs =>
          simp only [blockLines, List.mem_cons, List.mem_map] at hl
          rcases hl with rfl | ⟨y, hy, rfl⟩
          · have := (hx x (by simp)).2.2
            simp [this, hpn.symm]
          · have := (hx y (by simp [hy])).2.2
            simp [this]
      intro l hl
      unfold canonLines at hl
      cases hc : f.sortedSubs.flatMap blockLines with
      | nil => simp [hc] at hl
      | cons a as =>
        rw [hc] at hl hbl
        simp only [List.mem_cons] at hl
        rcases hl with rfl | hl
        · have := hbl a (by simp)
          simp only [List.mem_append, not_or]
          refine ⟨?_, fun hm => this (List.mem_of_mem_drop hm)⟩
          simp [ljust, hftnl]
        · exact hbl l (by simp [hl])

variable {ρ : Type}

theorem finishField_ok {α} {plain : Except PyErr PlainField} {more : PlainField → Except PyErr α}
    {mk : PlainField → α → BibField ρ} {v : BibField ρ} (h : finishField plain more mk = .ok v) :
    ∃ f a, plain = .ok f ∧ v = mk f a := by
  unfold finishField at h
  split at h
  · simp at h
  · split at h
    · simp at h
    · simp at h; exact ⟨_, _, rfl, h.symm⟩

/-- what a stored field is, as far as printing is concerned -/
theorem buildField_ok {P : FieldParsers ρ} {t : Option Str} {raw : List Str} {v : BibField ρ}
    (h : buildField P t raw = .ok v) :
    v = .noAuthor ∨ ∃ f, PlainField.build raw = .ok f ∧ v.totalLen = .ok f.totalLen ∧ v.repr = .ok f.repr ∧
      v.subs = f.subs := by
  unfold buildField at h
  split at h
  · obtain ⟨f, a, h1, rfl⟩ := finishField_ok h; exact .inr ⟨f, h1, rfl, rfl, rfl⟩
  split at h
  · obtain ⟨f, a, h1, rfl⟩ := finishField_ok h; exact .inr ⟨f, h1, rfl, rfl, rfl⟩
  split at h
  · obtain ⟨f, a, h1, rfl⟩ := finishField_ok h; exact .inr ⟨f, h1, rfl, rfl, rfl⟩
  split at h
  · split at h
    · simp at h; exact .inl h.symm
    · obtain ⟨f, a, h1, rfl⟩ := finishField_ok h; exact .inr ⟨f, h1, rfl, rfl, rfl⟩
  split at h
  · obtain ⟨f, a, h1, rfl⟩ := finishField_ok h; exact .inr ⟨f, h1, rfl, rfl, rfl⟩
  · obtain ⟨f, a, h1, rfl⟩ := finishField_ok h; exact .inr ⟨f, h1, rfl, rfl, rfl⟩

/-- The fields of a section with distinct tags, one per chunk. -/
theorem foldE_bib {P : FieldParsers ρ} (cs : List (List Str)) (b0 b : BibSection ρ)
    (h : foldE (bibStep P) b0 cs = .ok b) (h0 : b0.fields.keys = b0.sortedKeys) (hn : b.sortedKeys.Nodup) :
    ∃ new : List (Option Str × BibField ρ), b.fields = b0.fields ++ new ∧ b.sortedKeys = b0.sortedKeys ++ new.map Prod.fst ∧
      List.Forall₂ (fun c kv => extractX4FieldType c = .ok kv.1 ∧ buildField P kv.1 c = .ok kv.2) cs new := by
  induction cs generalizing b0 with
  | nil => simp [foldE] at h; subst h; exact ⟨[], by simp, by simp, .nil⟩
  | cons c cs ih =>
    simp only [foldE] at h
    split at h
    · simp at h
    · rename_i b1 hb1
      unfold bibStep at hb1
      split at hb1
      · simp at hb1
      · rename_i t ht
        split at hb1
        · simp at hb1
        · rename_i v hv
          simp at hb1
          -- the tag is new
          have hmono : ∀ (cs : List (List Str)) (b1 : BibSection ρ), foldE (bibStep P) b1 cs = .ok b →
              ∃ r, b.sortedKeys = b1.sortedKeys ++ r := by
            intro cs
            induction cs with
            | nil => intro b1 h; simp [foldE] at h; subst h; exact ⟨[], by simp⟩
            | cons c cs ih' =>
              intro b1 h
              simp only [foldE] at h
              split at h
              · simp at h
              · rename_i b2 hb2
                obtain ⟨r, hr⟩ := ih' b2 h
                unfold bibStep at hb2
                split at hb2
                · simp at hb2
                · split at hb2
                  · simp at hb2
                  · simp at hb2; subst hb2; exact ⟨_, by rw [hr]; simp only [List.append_assoc]; rfl⟩
          obtain ⟨r, hr⟩ := hmono cs b1 h
          have hnew : t ∉ b0.fields.keys := by
            rw [h0]
            subst hb1
            rw [hr, List.nodup_append] at hn
            have := hn.1
            simp only at this
            rw [List.nodup_append] at this
            intro hm
            exact this.2.2 t hm t (by simp) rfl
          have hset : b1.fields = b0.fields ++ [(t, v)] := by
            rw [← hb1]; exact Dict.set_append_new hnew v
          obtain ⟨new, e1, e2, e3⟩ := ih b1 h (by
            rw [hset, ← hb1]
            simp only [Dict.keys, List.map_append, List.map_cons, List.map_nil]
            rw [← h0]; rfl)
          refine ⟨(t, v) :: new, by rw [e1, hset]; simp, by rw [e2, ← hb1]; simp, .cons ⟨ht, hv⟩ e3⟩

end X4
