import Verif.Model.FieldText
import Verif.Lemmas.DataSets
import Verif.Lemmas.Simplify
import Verif.Props.Field
/-! The texts of reaction and monitor fields (C90). -/
namespace X4

/-! ### C90: reaction fields -/

theorem build_textUnder {raw : List Str} {f : PlainField} (h : PlainField.build raw = .ok f) {p : Char} {ls : List Str}
    (hp : f.subs.get? p = some ls) : ls = textUnder raw p := by
  have := (C39_pointer_in_force raw f h p).1
  rw [hp] at this
  exact this

/-- one measurement of a printed reaction field: after a pointer the text of the measurement is followed by the free text -/
def shownReaction (p : Char) (t free : Str) : Str :=
  if p = ' ' then t else ['[', p, ']', ' '] ++ t ++ (if free = [] then [] else [',', ' '] ++ free)

/-- C90: a REACTION field is printed as the list of its measurements, one for each pointer under which there is text, in the order of the
pointers; each is the printed form of what is read from that text, after a (non-blank) pointer with the free text. -/
theorem C90_reactions_partial (D : RxDicts) (P : FieldParsers Measurement) (raw : List Str) (f : PlainField) (rs : Dict Char (Measurement × Str))
    (hb : buildField P (some chars!"REACTION") raw = .ok (.reaction f rs)) (t : Char → Str)
    (ht : ∀ p m s, P.reaction (subStr (textUnder raw p)) = .ok (m, s) → m.str D = .ok (t p)) :
    ∃ ps its, ps.Pairwise (fun a b : Char => a.toNat < b.toNat) ∧ (∀ p, p ∈ ps ↔ textUnder raw p ≠ []) ∧
      (BibField.reaction f rs).str D = .ok (joinWith [';', ' '] its) ∧
      List.Forall₂ (fun p it => ∃ m s, P.reaction (subStr (textUnder raw p)) = .ok (m, s) ∧ it = shownReaction p (t p) s) ps its := by
  unfold buildField at hb
  rw [if_pos (by decide)] at hb
  unfold finishField at hb
  split at hb
  · simp at hb
  rename_i f' hf
  split at hb
  · simp at hb
  rename_i rs0 hrs
  obtain ⟨rs', hrs'⟩ : ∃ r : Dict Char (Measurement × Str), r = rs0 := ⟨_, rfl⟩
  subst hrs'
  simp only [Except.ok.injEq, BibField.reaction.injEq] at hb
  obtain ⟨rfl, e⟩ := hb
  subst e
  simp only at hrs
  have hnd := nodup_build_field hf
  have hone : ∀ p m s, rs'.get? p = some (m, s) → P.reaction (subStr (textUnder raw p)) = .ok (m, s) := by
    intro p m s h
    have hm := Dict.mem_of_get? h
    rw [mapE_ok_iff] at hrs
    obtain ⟨i, hi, he⟩ := List.mem_iff_getElem.1 hm
    have hi' : i < f'.subs.length := by rw [hrs.length_eq]; exact hi
    have := (List.forall₂_iff_get.1 hrs).2 i hi' hi
    simp only [List.get_eq_getElem, he, reactionOf] at this
    split at this
    · simp at this
    · rename_i r hr
      simp only [Except.ok.injEq, Prod.mk.injEq] at this
      obtain ⟨h1, h2, h3⟩ := this
      have hk : f'.subs.get? p = some (f'.subs[i]).2 :=
        Dict.get?_eq_some_of_mem hnd (by rw [← h1]; exact List.getElem_mem hi')
      rw [build_textUnder hf hk] at hr
      unfold reraise at hr
      split at hr
      · simp at hr
      · rw [hr, ← h2, ← h3]
  have hkeys : rs'.keys = f'.subs.keys := mapE_keys (by
    intro kv r h
    unfold reactionOf at h
    split at h
    · simp at h
    · simp only [Except.ok.injEq] at h; rw [← h]) hrs
  have hsome : ∀ p ∈ f'.sortedKeys, ∃ m s, rs'.get? p = some (m, s) := by
    intro p hp
    rw [PlainField.sortedKeys, mem_sortBy, ← hkeys, Dict.mem_keys_iff] at hp
    cases h : rs'.get? p with
    | none => simp [h] at hp
    | some r => exact ⟨r.1, r.2, rfl⟩
  have hne : rs' ≠ [] := by
    intro h0
    have : f'.subs.keys = [] := by rw [← hkeys, h0]; rfl
    cases raw with
    | nil => simp [PlainField.build, pyIdx] at hf
    | cons l ls =>
      have h1 := (C39_pointer_in_force (l :: ls) f' hf (pointerInForce [l])).2
      rw [this] at h1
      have h2 : textUnder (l :: ls) (pointerInForce [l]) ≠ [] := by
        rw [textUnder]
        have : some (textArea l) ∈ (List.range (l :: ls).length).map fun k =>
            if pointerInForce ((l :: ls).take (k + 1)) = pointerInForce [l] then ((l :: ls)[k]?).map textArea else none :=
          List.mem_map.2 ⟨0, by simp, by simp⟩
        intro h0
        rw [List.filterMap_eq_nil_iff] at h0
        have := h0 0 (by simp)
        simp at this
      exact absurd (h1.2 h2) (by simp)
  let its := f'.sortedKeys.map fun p => shownReaction p (t p) (((rs'.get? p).map Prod.snd).getD [])
  refine ⟨f'.sortedKeys, its, ?_, ?_, ?_, ?_⟩
  · have h1 := sortBy_sorted charLe_total charLe_trans f'.subs.keys
    have h2 : f'.sortedKeys.Nodup := (sortBy_perm charLe f'.subs.keys).nodup_iff.2 hnd
    refine List.Pairwise.imp₂ ?_ h1 h2
    intro a b hab hne
    simp only [charLe, decide_eq_true_eq] at hab
    have : a.toNat ≠ b.toNat := fun e => hne (char_toNat_inj e)
    omega
  · intro p
    rw [PlainField.sortedKeys, mem_sortBy]
    exact (C39_pointer_in_force raw f' hf p).2
  · show reactionFieldStr D f' rs' = _
    unfold reactionFieldStr
    rw [if_neg hne]
    have : mapE (reactionItem D rs') f'.sortedKeys = .ok its := by
      refine mapE_all_ok fun p hp => ?_
      obtain ⟨m, s, hms⟩ := hsome p hp
      unfold reactionItem
      simp only [hms, ht p m s (hone p m s hms), Option.map_some, Option.getD_some, shownReaction]
      rfl
    rw [this]
  · simp only [its]
    rw [List.forall₂_map_right_iff, List.forall₂_same]
    intro p hp
    obtain ⟨m, s, hms⟩ := hsome p hp
    exact ⟨m, s, hone p m s hms, by rw [hms]; rfl⟩

/-- C90 fails for fields without pointers: whatever the free text is, it is not printed. -/
theorem C90_free_text_refuted (D : RxDicts) (f : PlainField) (hf : f.subs.keys = [' ']) (m : Measurement) (s : Str) (hs : s ≠ [])
    (t : Str) (ht : m.str D = .ok t) :
    (BibField.reaction f [(' ', m, s)]).str D = .ok t := by
  show reactionFieldStr D f [(' ', m, s)] = _
  have hk : f.sortedKeys = [' '] := by rw [PlainField.sortedKeys, hf]; rfl
  simp [reactionFieldStr, hk, mapE, reactionItem, Dict.get?, ht, joinWith]

/-! ### C90: monitor fields -/

/-- `p` is in force before `q` in a field -/
def SeenBefore (raw : List Str) (p q : Char) : Prop :=
  ∃ k < raw.length, pointerInForce (raw.take (k + 1)) = p ∧ ∀ j ≤ k, pointerInForce (raw.take (j + 1)) ≠ q

theorem SeenBefore.snoc {raw : List Str} {l : Str} {p q : Char} (h : SeenBefore raw p q) : SeenBefore (raw ++ [l]) p q := by
  obtain ⟨k, hk, h1, h2⟩ := h
  refine ⟨k, by simp; omega, ?_, ?_⟩
  · rw [List.take_append_of_le_length (by omega)]; exact h1
  · intro j hj
    rw [List.take_append_of_le_length (by omega)]; exact h2 j hj

theorem textUnder_ne_nil {raw : List Str} {p : Char} : textUnder raw p ≠ [] ↔ ∃ k < raw.length, pointerInForce (raw.take (k + 1)) = p := by
  constructor
  · intro h
    obtain ⟨x, hx⟩ := List.exists_mem_of_ne_nil _ h
    simp only [textUnder, List.mem_filterMap, List.mem_range] at hx
    obtain ⟨k, hk, hx⟩ := hx
    split at hx
    · rename_i h; exact ⟨k, hk, h⟩
    · simp at hx
  · rintro ⟨k, hk, rfl⟩ h0
    simp only [textUnder, List.filterMap_eq_nil_iff, List.mem_range] at h0
    have := h0 k hk
    simp [List.getElem?_eq_getElem hk] at this

theorem fold_order (ls : List Str) : (ls.foldl plainStep (' ', [])).2.keys.Pairwise (SeenBefore ls) := by
  induction ls using List.reverseRecOn with
  | nil => simp [Dict.keys]
  | append_singleton ls l ih =>
    have hmem := fun p => (fold_textUnder ls p)
    have hp : (plainStep (ls.foldl plainStep (' ', [])) l).1 = pointerInForce (ls ++ [l]) := by
      have := (fold_textUnder (ls ++ [l]) ' ').1
      rwa [List.foldl_append] at this
    rw [List.foldl_append]
    simp only [List.foldl_cons, List.foldl_nil]
    generalize ls.foldl plainStep (' ', []) = st at *
    simp only [plainStep] at hp ⊢
    rw [hp]
    rw [Dict.keys_set]
    split
    · exact ih.imp fun h => h.snoc
    · rename_i hn
      rw [List.pairwise_append]
      refine ⟨ih.imp fun h => h.snoc, List.pairwise_singleton _ _, ?_⟩
      intro p hpk q hq
      rw [List.mem_singleton.1 hq]
      rw [Dict.mem_keys_iff, (hmem p).2.2, textUnder_ne_nil] at hpk
      obtain ⟨k, hk, hpk⟩ := hpk
      refine ⟨k, by simp; omega, by rw [List.take_append_of_le_length (by omega)]; exact hpk, ?_⟩
      intro j hj e
      rw [List.take_append_of_le_length (by omega)] at e
      apply hn
      rw [Dict.mem_keys_iff, (hmem _).2.2, textUnder_ne_nil]
      exact ⟨j, by omega, e⟩

/-- one pointer of a printed monitor field -/
def shownMonitors (p : Char) (t : Str) : Str := if p = ' ' then t else ['[', p, ']', ' '] ++ t

/-- C90: a MONITOR field is printed as the list of the monitors of each pointer under which there is text, in the order in which the
pointers are written. -/
theorem C90_monitors (D : RxDicts) (P : FieldParsers Measurement) (raw : List Str) (f : PlainField) (ms : Dict Char (List (Monitor Measurement)))
    (hb : buildField P (some chars!"MONITOR") raw = .ok (.monitor f ms)) (hr : ∀ kv ∈ ms, ∀ m ∈ kv.2, ∃ t, m.tupleRepr = .ok t) :
    ∃ ps its, ps.Pairwise (SeenBefore raw) ∧ (∀ p, p ∈ ps ↔ textUnder raw p ≠ []) ∧
      (BibField.monitor f ms).str D = .ok (joinWith [';', ' '] its) ∧
      List.Forall₂ (fun p it => ∃ ds mons ts, monitorSplit (textUnder raw p) = .ok ds ∧ List.Forall₂ (fun d m => monitorOf P d = .ok m) ds mons ∧
        List.Forall₂ (fun m t => Monitor.tupleRepr m = .ok t) mons ts ∧
        it = shownMonitors p (['['] ++ joinWith [',', ' '] ts ++ [']'])) ps its := by
  unfold buildField at hb
  rw [if_neg (by decide), if_pos (by decide)] at hb
  unfold finishField at hb
  split at hb
  · simp at hb
  rename_i f' hf
  split at hb
  · simp at hb
  rename_i ms0 hms
  obtain ⟨ms', hms'⟩ : ∃ r : Dict Char (List (Monitor Measurement)), r = ms0 := ⟨_, rfl⟩
  subst hms'
  simp only [Except.ok.injEq, BibField.monitor.injEq] at hb
  obtain ⟨rfl, rfl⟩ := hb
  have hnd := nodup_build_field hf
  rw [mapE_ok_iff] at hms
  have hne : ms' ≠ [] := by
    intro h0
    rw [h0, List.forall₂_nil_right_iff] at hms
    cases raw with
    | nil => simp [PlainField.build, pyIdx] at hf
    | cons l ls =>
      have h1 := (C39_pointer_in_force (l :: ls) f' hf (pointerInForce [l])).2
      rw [hms] at h1
      exact absurd (h1.2 (textUnder_ne_nil.2 ⟨0, by simp, by simp⟩)) (by simp [Dict.keys])
  have hitem : ∀ kv ∈ ms', ∃ ts, List.Forall₂ (fun m t => Monitor.tupleRepr m = .ok t) kv.2 ts ∧
      monitorItem kv = .ok (shownMonitors kv.1 (['['] ++ joinWith [',', ' '] ts ++ [']'])) := by
    intro kv hkv
    obtain ⟨ts, hts⟩ := (mapE_ok_or Monitor.tupleRepr kv.2).2 (hr kv hkv)
    refine ⟨ts, mapE_ok_iff.1 hts, ?_⟩
    unfold monitorItem monitorsRepr
    simp only [hts, shownMonitors]
    rfl
  obtain ⟨its, hits⟩ : ∃ its, mapE monitorItem ms' = .ok its := (mapE_ok_or _ _).2 fun kv hkv => by
    obtain ⟨ts, -, h⟩ := hitem kv hkv
    exact ⟨_, h⟩
  refine ⟨f'.subs.keys, its, ?_, fun p => (C39_pointer_in_force raw f' hf p).2, ?_, ?_⟩
  · have : f'.subs = (raw.foldl plainStep (' ', [])).2 := by
      unfold PlainField.build at hf
      split at hf
      · simp at hf
      · simp only [Except.ok.injEq] at hf; rw [← hf]
    rw [this]
    exact fold_order raw
  · show monitorFieldStr ms' = _
    unfold monitorFieldStr
    rw [if_neg hne, hits]
  · rw [mapE_ok_iff] at hits
    rw [Dict.keys, List.forall₂_map_left_iff]
    rw [List.forall₂_iff_get] at hms hits ⊢
    refine ⟨hms.1.trans hits.1, fun i h1 h2 => ?_⟩
    have h3 : i < ms'.length := by rw [← hms.1]; exact h1
    have e1 := hms.2 i h1 h3
    have e2 := hits.2 i h3 h2
    obtain ⟨ts, hts, hit⟩ := hitem _ (List.get_mem ms' ⟨i, h3⟩)
    rw [hit] at e2
    simp only [Except.ok.injEq] at e2
    unfold monitorsOf at e1
    split at e1
    · simp at e1
    · rename_i ds hds
      split at e1
      · simp at e1
      · rename_i mons hmons
        simp only [Except.ok.injEq] at e1
        have hk : Dict.get? f'.subs (List.get f'.subs ⟨i, h1⟩).1 = some (List.get f'.subs ⟨i, h1⟩).2 :=
          Dict.get?_eq_some_of_mem hnd (List.get_mem _ _)
        rw [build_textUnder hf hk] at hds
        refine ⟨ds, mons, ts, hds, mapE_ok_iff.1 hmons, ?_, ?_⟩
        · rw [← e1] at hts; exact hts
        · rw [← e2, ← e1]

/-! ### C90: the texts in a printed monitor can be read back -/

/-- value of a hexadecimal digit -/
def hexVal (c : Char) : Nat := if c.toNat < 58 then c.toNat - 48 else c.toNat - 87

/-- reading a quoted Python string up to its closing quote: the text and what follows the quote -/
def readQuoted (q : Char) : Str → Option (Str × Str)
  | [] => none
  | '\\' :: 'x' :: a :: b :: r => (readQuoted q r).map fun x => (Char.ofNat (16 * hexVal a + hexVal b) :: x.1, x.2)
  | '\\' :: c :: r => (readQuoted q r).map fun x =>
    ((if c = 'n' then '\n' else if c = 'r' then '\r' else if c = 't' then '\t' else c) :: x.1, x.2)
  | c :: r => if c = q then some ([], r) else (readQuoted q r).map fun x => (c :: x.1, x.2)

theorem hexVal_hexDigit {n : Nat} (h : n < 16) : hexVal (hexDigit n) = n := by
  have : ∀ m : Fin 16, hexVal (hexDigit m.1) = m.1 := by decide
  exact this ⟨n, h⟩

theorem readQuoted_char {q c : Char} (hq : q = '\'' ∨ q = '"') (r : Str) :
    readQuoted q (reprChar q c ++ r) = (readQuoted q r).map fun x => (c :: x.1, x.2) := by
  unfold reprChar
  by_cases h1 : c = q ∨ c = '\\'
  · have hc : (c = q || c = '\\') = true := by simpa using h1
    rw [if_pos hc]
    rcases h1 with h1 | h1
    · rcases hq with hq | hq <;> subst h1 hq <;> rfl
    · subst h1; rfl
  · have hc : (c = q || c = '\\') = false := by simpa using h1
    rw [if_neg (by simp [hc])]
    push_neg at h1
    by_cases h2 : c = '\n'
    · subst h2; rfl
    rw [if_neg h2]
    by_cases h3 : c = '\r'
    · subst h3; rfl
    rw [if_neg h3]
    by_cases h4 : c = '\t'
    · subst h4; rfl
    rw [if_neg h4]
    split
    · rename_i h5
      have hlt : c.toNat < 256 := by
        simp only [Bool.or_eq_true, Bool.and_eq_true, decide_eq_true_eq] at h5; omega
      simp only [List.cons_append, List.nil_append, readQuoted]
      rw [hexVal_hexDigit (by omega), hexVal_hexDigit (by omega)]
      congr 1
      funext x
      have : 16 * (c.toNat / 16) + c.toNat % 16 = c.toNat := by omega
      rw [this, Char.ofNat_toNat]
    · simp only [List.cons_append, List.nil_append]
      rw [readQuoted.eq_def]
      split
      · simp at *
      · rename_i heq; simp only [List.cons.injEq] at heq; exact absurd heq.1 h1.2
      · rename_i heq; simp only [List.cons.injEq] at heq; exact absurd heq.1 h1.2
      · rename_i heq
        simp only [List.cons.injEq] at heq
        obtain ⟨rfl, rfl⟩ := heq
        rw [if_neg h1.1]

theorem readQuoted_repr {q : Char} (hq : q = '\'' ∨ q = '"') (s u : Str) :
    readQuoted q (s.flatMap (reprChar q) ++ q :: u) = some (s, u) := by
  induction s with
  | nil => rcases hq with rfl | rfl <;> rfl
  | cons c s ih =>
    rw [List.flatMap_cons, List.append_assoc, readQuoted_char hq, ih]
    rfl

/-- C90: a text printed in quotes can be read back, wherever it stands. -/
theorem C90_quoted (s u : Str) : ∃ q r, strRepr s ++ u = q :: r ∧ (q = '\'' ∨ q = '"') ∧ readQuoted q r = some (s, u) := by
  have hq : reprQuote s = '\'' ∨ reprQuote s = '"' := by
    unfold reprQuote; split
    · exact Or.inr rfl
    · exact Or.inl rfl
  refine ⟨reprQuote s, s.flatMap (reprChar (reprQuote s)) ++ reprQuote s :: u, ?_, hq, readQuoted_repr hq s u⟩
  simp [strRepr]

theorem strRepr_append_inj {s s' u u' : Str} (h : strRepr s ++ u = strRepr s' ++ u') : s = s' ∧ u = u' := by
  obtain ⟨q, r, e, -, hr⟩ := C90_quoted s u
  obtain ⟨q', r', e', -, hr'⟩ := C90_quoted s' u'
  rw [e, e'] at h
  simp only [List.cons.injEq] at h
  obtain ⟨rfl, rfl⟩ := h
  rw [hr] at hr'
  simpa using hr'

/-- C90: the printed form of a monitor determines its free text and the heading of its data: two monitors of the same reaction that
are printed alike are equal. -/
theorem C90_monitor_determined (m m' : Monitor Measurement) (hr : m.reaction = m'.reaction) (t : Str)
    (h : m.tupleRepr = .ok t) (h' : m'.tupleRepr = .ok t) : m = m' := by
  unfold Monitor.tupleRepr at h h'
  rw [hr] at h
  split at h
  · simp at h
  rename_i r hrr
  simp only [hrr, Except.ok.injEq] at h h'
  rw [← h'] at h
  simp only [List.append_assoc] at h
  have h := List.append_cancel_left (List.append_cancel_left (List.append_cancel_left h))
  obtain ⟨h1, h⟩ := strRepr_append_inj h
  have h := List.append_cancel_left h
  have h2 : m.heading = m'.heading := by
    have := List.append_cancel_right h
    have hd : ∀ s : Str, strRepr s ≠ chars!"None" := by
      intro s e
      obtain ⟨q, r, e', hq, -⟩ := C90_quoted s []
      rw [List.append_nil, e] at e'
      have : q = 'N' := by
        have := congrArg List.head? e'
        simpa using this.symm
      rcases hq with rfl | rfl <;> simp at this
    cases hh : m.heading with
    | none => cases hh' : m'.heading with
      | none => rfl
      | some s => rw [hh, hh'] at this; exact absurd this.symm (hd s)
    | some s => cases hh' : m'.heading with
      | none => rw [hh, hh'] at this; exact absurd this (hd s)
      | some s' =>
        rw [hh, hh'] at this
        have := strRepr_append_inj (u := []) (u' := []) (by simpa [optStrRepr] using this)
        rw [this.1]
  cases m; cases m'
  simp only at hr h1 h2
  rw [hr, h1, h2]

/-- The theorems apply to a REACTION field with two pointers and to a MONITOR field. -/
def fieldDicts : RxDicts := ⟨[], [(chars!"SIG", [chars!"Cross section"])], []⟩
def fieldParsers : FieldParsers Measurement := x4Parsers ⟨[], [], [(chars!"N", [chars!"n"])]⟩
example : (match buildField fieldParsers (some chars!"REACTION")
      [chars!"REACTION  2(1-H-1(N,TOT),,SIG) first", chars!"          1(1-H-1(N,EL)1-H-1,,SIG)"] with
    | .ok b => b.str fieldDicts
    | .error e => .error e) =
    .ok chars!"[1] Cross section for 1H(n,Elastic)1H; [2] Cross section for 1H(n,Total), first" := by decide +kernel
example : (match buildField fieldParsers (some chars!"REACTION") [chars!"REACTION   (1-H-1(N,TOT),,SIG) not shown"] with
    | .ok b => b.str fieldDicts
    | .error e => .error e) = .ok chars!"Cross section for 1H(n,Total)" := by decide +kernel
example : (match buildField fieldParsers (some chars!"MONITOR")
      [chars!"MONITOR   2((MONIT1)1-H-1(N,EL)1-H-1,,SIG)", chars!"          1it's"] with
    | .ok b => b.str fieldDicts
    | .error e => .error e) =
    .ok chars!"[2] [((1-H-1(N,EL)1-H-1,SIG), '', 'MONIT1')]; [1] [(None, \"it's\", None)]" := by decide +kernel
example : strRepr chars!"it's \"so\"" = chars!"'it\\'s \"so\"'" := by decide
example : readQuoted '\'' chars!"it\\'s \"so\"', None)" = some (chars!"it's \"so\"", chars!", None)") := by decide
example : (Monitor.mk (ρ := Measurement) none chars!"text" (some chars!"MONIT1")).tupleRepr = .ok chars!"(None, 'text', 'MONIT1')" := by decide

end X4
