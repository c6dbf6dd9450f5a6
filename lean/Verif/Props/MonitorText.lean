import Verif.Spec.MonitorText
import Verif.Lemmas.MonRef
import Verif.Lemmas.TextGrammar
import Verif.Props.FieldText
import Verif.Props.ReactionText
import Verif.Props.Unreadable
/-! C98: a MONITOR field is read as the monitors written in it. -/
namespace X4

/-! ### cutting the lines -/

theorem strip_paren (s : Str) : ∃ t, strip ('(' :: s) = '(' :: t ∧ ∀ d u, s = d :: u → isSpace d = false → ∃ v, t = d :: v := by
  have h0 : isSpace '(' = false := by decide
  refine ⟨rstrip s, ?_, ?_⟩
  · show rstrip (lstrip ('(' :: s)) = _
    rw [show lstrip ('(' :: s) = '(' :: s from by simp [lstrip, h0], rstrip_cons h0]
  · rintro d u rfl hd
    exact ⟨rstrip u, rstrip_cons hd u⟩

theorem opens_cons (s : Str) : startsWith (strip ('(' :: s)) "(".toList = true := by
  obtain ⟨t, ht, -⟩ := strip_paren s
  rw [ht]; simp [startsWith]

theorem monitorLoop_code (ds : List Str) (s : Str) (hb : balanced ('(' :: s)) (q : List Str) :
    monitorLoop ds (('(' :: s) :: q) = monitorLoop (ds ++ ['(' :: s]) q := by
  rw [monitorLoop.eq_def]
  simp only [opens_cons, if_true]
  have hb' : ¬ (List.count '(' ('(' :: s) ≠ List.count ')' ('(' :: s)) := by simpa [balanced] using hb
  rw [if_neg hb']
  split <;> rfl

theorem monitorLoop_two (ds : List Str) (s : Str) (h2 : s.take 1 = ['(']) (hb : ¬ balanced ('(' :: s)) (t : Str) (q : List Str) :
    monitorLoop ds (('(' :: s) :: t :: q) = monitorLoop (ds ++ ['(' :: s ++ t]) q := by
  rw [monitorLoop.eq_def]
  have hs : startsWith (strip ('(' :: s)) "((".toList = true := by
    cases s with
    | nil => simp at h2
    | cons d u =>
      simp only [List.take_succ_cons, List.take_zero, List.cons.injEq, and_true] at h2
      subst h2
      obtain ⟨t, ht, h⟩ := strip_paren ('(' :: u)
      obtain ⟨v, rfl⟩ := h _ _ rfl (by decide)
      rw [ht]; simp [startsWith]
  simp only [hs, if_true]
  rw [if_pos (by simpa [balanced] using hb)]

theorem monitorLoop_more (ds : List Str) (x : Str) (more : List Str) (h : ∀ l ∈ more, ¬ opensParen l) (q : List Str) :
    monitorLoop (ds ++ [x]) (more ++ q) = monitorLoop (ds ++ [x ++ more.flatMap fun l => ' ' :: strip l]) q := by
  induction more generalizing x with
  | nil => simp
  | cons l r ih =>
    have h1 : ¬ startsWith (strip l) "(".toList = true := h l (by simp)
    have h2 : ¬ startsWith (strip l) "((".toList = true := by
      intro hc
      apply h1
      simp only [startsWith, List.isPrefixOf_iff_prefix] at *
      exact List.IsPrefix.trans (by decide) hc
    rw [List.cons_append, monitorLoop.eq_def]
    simp only [h1, h2, if_false]
    rw [if_neg (by simp), appendLast_snoc, ih _ (fun l hl => h l (by simp [hl]))]
    simp

theorem MonEntry.first_paren (m : MonEntry) : ∃ s, m.first = '(' :: s := by
  unfold MonEntry.first
  split
  · exact ⟨_, rfl⟩
  · exact ⟨_, rfl⟩

theorem monitorLoop_entry (ds : List Str) (m : MonEntry) (h : m.wf) (q : List Str) :
    monitorLoop ds (m.lines ++ q) = monitorLoop (ds ++ [m.first ++ m.free]) q := by
  obtain ⟨s, hs⟩ := m.first_paren
  have hc := h.code
  unfold MonEntry.lines MonEntry.free
  cases hk : m.cut with
  | none =>
    simp only [hk] at hc ⊢
    rw [hs] at hc ⊢
    rw [List.append_assoc, List.singleton_append, monitorLoop_code ds s hc, monitorLoop_more _ _ _ h.more]
  | some k =>
    simp only [hk] at hc ⊢
    obtain ⟨h1, h2⟩ := hc
    obtain ⟨u, hu⟩ : ∃ u, m.first.take k = '(' :: u := by
      cases hf : m.first.take k with
      | nil => rw [hf] at h1; simp at h1
      | cons c u =>
        rw [hf] at h1
        simp only [List.take_succ_cons, List.cons.injEq] at h1
        exact ⟨u, by rw [h1.1]⟩
    rw [show m.first ++ _ = (m.first.take k ++ m.first.drop k) ++ _ from by rw [List.take_append_drop], hu]
    rw [hu] at h1 h2
    have h1' : u.take 1 = ['('] := by simpa using h1
    rw [List.append_assoc, List.cons_append, List.cons_append, List.nil_append, monitorLoop_two ds u h1' h2, monitorLoop_more _ _ _ h.more]

theorem monitorLoop_monEntries (ds : List Str) (es : List MonEntry) (h : ∀ m ∈ es, m.wf) :
    monitorLoop ds (es.flatMap MonEntry.lines) = .ok (ds ++ es.map fun m => m.first ++ m.free) := by
  induction es generalizing ds with
  | nil => simp [monitorLoop]
  | cons m r ih =>
    rw [List.flatMap_cons, monitorLoop_entry _ _ (h m (by simp)), ih _ (fun m hm => h m (by simp [hm]))]
    simp

theorem monitorSplit_block (intro : List Str) (hi : IntroWf intro) (es : List MonEntry) (h : ∀ m ∈ es, m.wf) :
    monitorSplit (intro ++ es.flatMap MonEntry.lines) =
      .ok ((if intro = [] then [] else [introText intro]) ++ es.map fun m => m.first ++ m.free) := by
  unfold monitorSplit
  cases intro with
  | nil => simpa using monitorLoop_monEntries [] es h
  | cons l r =>
    have h1 : ¬ startsWith (strip l) "(".toList = true := hi.1 l (by simp)
    have h2 : ¬ startsWith (strip l) "((".toList = true := by
      intro hc
      apply h1
      simp only [startsWith, List.isPrefixOf_iff_prefix] at *
      exact List.IsPrefix.trans (by decide) hc
    rw [List.cons_append, monitorLoop.eq_def]
    simp only [h1, h2, if_false]
    show monitorLoop ([] ++ [strip l]) _ = _
    rw [monitorLoop_more _ _ _ (fun l hl => hi.1 l (by simp [hl])), monitorLoop_monEntries _ _ h]
    simp [introText]

/-! ### headings -/

theorem splitStrAux_none (sep : Str) (n : Nat) (acc s : Str) (hn : s.length < n) (h : hasSub sep s = false) (hs : sep ≠ []) :
    splitStrAux sep n acc s = [acc ++ s] := by
  induction s generalizing n acc with
  | nil =>
    cases n with
    | zero => simp [splitStrAux]
    | succ n => simp [splitStrAux]
  | cons c r ih =>
    cases n with
    | zero => simp [splitStrAux]
    | succ n =>
      simp only [hasSub, Bool.or_eq_false_iff] at h
      rw [splitStrAux]
      simp only [h.1, Bool.false_eq_true, if_false]
      rw [ih n (acc ++ [c]) (by simpa using hn) h.2]
      simp

/-- a text in which the heading does not occur -/
theorem monitorOf_plain {ρ : Type} (P : FieldParsers ρ) (d : Str) (h : hasSub chars!"((MONIT" d = false) :
    monitorOf P d = if startsWith d "(".toList then
      match reraise .reactionParsingError (P.reaction d) with
      | .error e => .error e
      | .ok r => .ok { reaction := some r.1, text := r.2, heading := Option.none }
    else .ok { reaction := Option.none, text := d, heading := Option.none } := by
  unfold monitorOf
  have : (splitStr "((MONIT".toList d).drop 1 = [] := by
    unfold splitStr
    rw [splitStrAux_none "((MONIT".toList _ _ _ (by omega) h (by decide)]
    rfl
  rw [this]
  simp only [foldE]
  rw [show (if hasSub "MONIT".toList d then (Except.ok (d, Option.none) : Except PyErr (Str × Option Str)) else .ok (d, Option.none)) =
    .ok (d, Option.none) from by split <;> rfl]
  simp only
  split <;> rfl

/-- a text that begins with a heading -/
theorem monitorOf_headed {ρ : Type} (P : FieldParsers ρ) (a r : Str) (ha : ')' ∉ a) (h : hasSub chars!"((MONIT" (a ++ ')' :: r) = false) :
    monitorOf P (chars!"((MONIT" ++ (a ++ ')' :: r)) =
      match reraise .reactionParsingError (P.reaction ('(' :: r)) with
      | .error e => .error e
      | .ok v => .ok { reaction := some v.1, text := v.2, heading := some (chars!"MONIT" ++ a) } := by
  have h1 : hasSub "MONIT".toList (chars!"((MONIT" ++ (a ++ ')' :: r)) = true := rfl
  have h2 : splitStr "((MONIT".toList (chars!"((MONIT" ++ (a ++ ')' :: r)) = [[], a ++ ')' :: r] := by
    unfold splitStr
    rw [show chars!"((MONIT" ++ (a ++ ')' :: r) = '(' :: (chars!"(MONIT" ++ (a ++ ')' :: r)) from rfl, List.length_cons, splitStrAux]
    rw [if_pos (by rfl), show (('(' :: (chars!"(MONIT" ++ (a ++ ')' :: r))).drop "((MONIT".toList.length) = a ++ ')' :: r from rfl,
      splitStrAux_none "((MONIT".toList _ _ _ (by simp; omega) h (by decide)]
    rfl
  have h3 : (a ++ ')' :: r).takeWhile (· ≠ ')') = a := by
    rw [List.takeWhile_append_of_pos]
    · simp
    · intro c hc
      simp only [ne_eq, decide_not, Bool.not_eq_eq_eq_not, Bool.not_true, decide_eq_false_iff_not]
      rintro rfl; exact ha hc
  unfold monitorOf
  rw [if_pos h1, h2]
  simp only [List.drop_succ_cons, List.drop_zero, foldE, monitHeading]
  rw [if_pos (by simp), h3]
  have h4 : (a ++ ')' :: r).drop (a.length + 1) = r := by
    rw [show a ++ ')' :: r = (a ++ [')']) ++ r from by simp]
    exact List.drop_left' (by simp)
  simp only [h4]
  rw [if_pos (by simp [startsWith])]
  rfl

theorem monitorOf_entry {ρ : Type} (P : FieldParsers ρ) (m : MonEntry) (h : m.wf) : monitorOf P (m.first ++ m.free) = m.read P.reaction := by
  have ho := h.once
  have key : ∀ (x : Except PyErr (ρ × Str)) (o : Option Str), (match reraise PyErr.reactionParsingError x with
      | .error e => .error e
      | .ok v => .ok { reaction := some v.1, text := v.2, heading := o } : Except PyErr (Monitor ρ)) =
      match x with
      | .ok r => .ok ⟨some r.1, r.2, o⟩
      | .error .parseException => .error .reactionParsingError
      | .error e => .error e := by
    intro x o
    cases x with
    | ok v => rfl
    | error e => cases e <;> rfl
  unfold MonEntry.read
  cases hh : m.head with
  | none =>
    simp only [hh] at ho
    have e : m.first ++ m.free = m.text := by simp [MonEntry.first, hh, MonEntry.text]
    rw [e, monitorOf_plain P _ ho, if_pos (by simp [MonEntry.text, startsWith]), key]
    rfl
  | some a =>
    simp only [hh] at ho
    have e : m.first ++ m.free = chars!"((MONIT" ++ (a ++ ')' :: (m.rest ++ m.free)) := by simp [MonEntry.first, hh]
    rw [e, monitorOf_headed P _ _ (h.head a (by simp [hh])) ho, key]
    rfl

theorem intro_start (l : Str) (r : List Str) (h : ¬ opensParen l) : startsWith (introText (l :: r)) "(".toList = false := by
  unfold introText
  unfold opensParen at h
  cases hs : strip l with
  | nil => cases r <;> simp [startsWith, hs, List.isPrefixOf]
  | cons c u =>
    rw [hs] at h
    simpa [startsWith, hs, List.isPrefixOf] using h

/-- C98: the text under one pointer is read as the monitors written there, in order: the free text before the first code as a monitor
without reaction, every code with its heading, its reaction and its free text. The first code that cannot be read makes the reading fail;
with ReactionParsingError if it does not follow the grammar. -/
theorem C98_pointer {ρ : Type} (P : FieldParsers ρ) (p : Char) (intro : List Str) (hi : IntroWf intro) (es : List MonEntry) (h : ∀ m ∈ es, m.wf) :
    monitorsOf P (p, intro ++ es.flatMap MonEntry.lines) = (mapE (MonEntry.read P.reaction) es).map fun ms => (p, introMonitor intro ++ ms) := by
  have h1 : mapE (monitorOf P) (es.map fun m => m.first ++ m.free) = mapE (MonEntry.read P.reaction) es := by
    clear hi
    induction es with
    | nil => rfl
    | cons m r ih =>
      simp only [List.map_cons, mapE, monitorOf_entry P m (h m (by simp)), ih (fun m hm => h m (by simp [hm]))]
  unfold monitorsOf
  simp only [monitorSplit_block intro hi es h]
  cases intro with
  | nil =>
    simp only [if_true, List.nil_append, h1, introMonitor]
    cases mapE (MonEntry.read P.reaction) es <;> rfl
  | cons l r =>
    have h2 : monitorOf P (introText (l :: r)) = .ok ⟨none, introText (l :: r), none⟩ := by
      rw [monitorOf_plain P _ hi.2, if_neg (by rw [intro_start l r (hi.1 l (by simp))]; simp)]
    simp only [reduceCtorEq, if_false, List.singleton_append, mapE, h2, h1, introMonitor]
    cases mapE (MonEntry.read P.reaction) es <;> rfl

/-- the field without the parsing of its monitors -/
theorem buildMonitor {ρ : Type} (P : FieldParsers ρ) (raw : List Str) (f : PlainField) (hf : PlainField.build raw = .ok f) :
    buildField P (some chars!"MONITOR") raw = (mapE (monitorsOf P) f.subs).map fun d => .monitor f d := by
  unfold buildField
  rw [if_neg (by decide), if_pos (by decide)]
  unfold finishField
  rw [hf]
  simp only
  cases mapE (monitorsOf P) f.subs <;> rfl

/-- the lines of a MONITOR field are those of monitors, under every pointer -/
def MonitorLines (raw : List Str) (intro : Char → List Str) (es : Char → List MonEntry) : Prop :=
  ∀ p, textUnder raw p = intro p ++ (es p).flatMap MonEntry.lines ∧ IntroWf (intro p) ∧ ∀ m ∈ es p, m.wf

theorem subs_textUnder {raw : List Str} {f : PlainField} (hf : PlainField.build raw = .ok f) {p : Char} {ls : List Str} (h : (p, ls) ∈ f.subs) :
    ls = textUnder raw p := by
  have h1 := Dict.get?_eq_some_of_mem (nodup_build_field hf) h
  have h2 := (C39_pointer_in_force raw f hf p).1
  rw [h1] at h2
  exact h2

/-- C98: a MONITOR field whose reactions can be read has under every pointer the monitors that are written there. -/
theorem C98_field {ρ : Type} (P : FieldParsers ρ) (raw : List Str) (f : PlainField) (hf : PlainField.build raw = .ok f)
    (intro : Char → List Str) (es : Char → List MonEntry) (hw : MonitorLines raw intro es)
    (ms : Char → List (Monitor ρ)) (hms : ∀ p, List.Forall₂ (fun m v => m.read P.reaction = .ok v) (es p) (ms p)) :
    ∃ d, buildField P (some chars!"MONITOR") raw = .ok (.monitor f d) ∧
      ∀ p, d.get? p = if textUnder raw p = [] then none else some (introMonitor (intro p) ++ ms p) := by
  have h1 : ∀ kv ∈ f.subs, monitorsOf P kv = .ok (kv.1, introMonitor (intro kv.1) ++ ms kv.1) := by
    rintro ⟨p, ls⟩ hkv
    rw [subs_textUnder hf hkv, (hw p).1, C98_pointer P p _ (hw p).2.1 _ (hw p).2.2, mapE_ok_iff.2 (hms p)]
    rfl
  refine ⟨f.subs.map fun kv => (kv.1, introMonitor (intro kv.1) ++ ms kv.1), ?_, fun p => ?_⟩
  · have h2 : mapE (monitorsOf P) f.subs = .ok (f.subs.map fun kv => (kv.1, introMonitor (intro kv.1) ++ ms kv.1)) := by
      rw [mapE_ok_iff, List.forall₂_map_right_iff, List.forall₂_same]
      exact h1
    rw [buildMonitor P raw f hf, h2]
    rfl
  · have hk : Dict.keys (f.subs.map fun kv => (kv.1, introMonitor (intro kv.1) ++ ms kv.1)) = f.subs.keys := by
      simp [Dict.keys, Function.comp_def]
    split
    · rename_i h
      rw [Dict.get?_eq_none_iff, hk, (C39_pointer_in_force raw f hf p).2]
      simpa using h
    · rename_i h
      have hm := (C39_pointer_in_force raw f hf p).2.2 h
      apply Dict.get?_eq_some_of_mem
      · rw [hk]; exact nodup_build_field hf
      · simp only [Dict.keys, List.mem_map] at hm
        obtain ⟨kv, hkv, rfl⟩ := hm
        exact List.mem_map_of_mem hkv

/-- C98: and it fails exactly if some monitor cannot be read. -/
theorem C98_fails {ρ : Type} (P : FieldParsers ρ) (raw : List Str) (f : PlainField) (hf : PlainField.build raw = .ok f)
    (intro : Char → List Str) (es : Char → List MonEntry) (hw : MonitorLines raw intro es) :
    (∃ e, buildField P (some chars!"MONITOR") raw = .error e) ↔ ∃ p, ∃ m ∈ es p, ∃ e, m.read P.reaction = .error e := by
  rw [buildMonitor P raw f hf]
  have hsub : ∀ p ls, (p, ls) ∈ f.subs → monitorsOf P (p, ls) = (mapE (MonEntry.read P.reaction) (es p)).map fun ms => (p, introMonitor (intro p) ++ ms) := by
    intro p ls h
    rw [subs_textUnder hf h, (hw p).1, C98_pointer P p _ (hw p).2.1 _ (hw p).2.2]
  have herr : ∀ {α β : Type} (x : Except PyErr α) (g : α → β), (∃ e, x.map g = .error e) ↔ ∃ e, x = .error e := by
    intro α β x g; cases x <;> simp [Except.map]
  rw [herr]
  constructor
  · rintro ⟨e, he⟩
    obtain ⟨pre, ⟨p, ls⟩, post, e1, -, e3⟩ := mapE_error_iff.1 he
    have h1 := hsub p ls (by rw [e1]; simp)
    rw [h1] at e3
    obtain ⟨e', he'⟩ := (herr _ _).1 ⟨e, e3⟩
    obtain ⟨pre', m, post', e4, -, e5⟩ := mapE_error_iff.1 he'
    exact ⟨p, m, by rw [e4]; simp, e', e5⟩
  · rintro ⟨p, m, hm, e, he⟩
    cases hx : mapE (monitorsOf P) f.subs with
    | error e => exact ⟨e, rfl⟩
    | ok d =>
      exfalso
      have hne : textUnder raw p ≠ [] := by
        rw [(hw p).1]
        intro h0
        have h1 : (es p).flatMap MonEntry.lines = [] := (List.append_eq_nil_iff.1 h0).2
        rw [List.flatMap_eq_nil_iff] at h1
        have := h1 m hm
        unfold MonEntry.lines at this
        split at this <;> simp at this
      have hk := (C39_pointer_in_force raw f hf p).2.2 hne
      simp only [Dict.keys, List.mem_map] at hk
      obtain ⟨⟨q, ls⟩, hkv, rfl⟩ := hk
      obtain ⟨v, hv⟩ := (mapE_ok_or _ _).1 ⟨d, hx⟩ _ hkv
      rw [hsub q ls hkv] at hv
      cases hy : mapE (MonEntry.read P.reaction) (es q) with
      | error e => rw [hy] at hv; simp [Except.map] at hv
      | ok w =>
        obtain ⟨b, hb⟩ := (mapE_ok_or _ _).1 ⟨w, hy⟩ _ hm
        rw [he] at hb; simp at hb

/-! ### with the grammar of reactions -/

/-- C98: a monitor whose code is a reaction, with free text behind it. -/
theorem C98_reaction (names : Dict Str (List Str)) (m : MonEntry) (x : ReactText) (hx : x.wf) (free : Str) (hr : '(' :: m.rest = x.text ++ free)
    (ht : '\t' ∉ free ++ m.free) (hop : NoOp ['+', '-', '*', '/', '='] (free ++ m.free)) (R : Reaction) (hR : reactionOfStr names x.text = .ok R) :
    m.read (reactionFieldText names) = .ok ⟨some (.rx R), freeLine (free ++ m.free), m.head.map (chars!"MONIT" ++ ·)⟩ := by
  unfold MonEntry.read
  rw [show m.text = x.text ++ (free ++ m.free) from by rw [← List.append_assoc, ← hr]; rfl, C65_reaction names x hx _ ht hop R hR]

/-- C98: a monitor whose code is a combination of reactions. -/
theorem C98_combination (names : Dict Str (List Str)) (m : MonEntry) (c : FactorText) (l : RestText) (hc : (FactorText.par c l).wf) (free : Str)
    (hr : '(' :: m.rest = (FactorText.par c l).text ++ free) (ht : '\t' ∉ free ++ m.free) (hop : NoOp ['+', '-', '*', '/', '='] (free ++ m.free))
    (rd : ReactText → Reaction) (hrd : ∀ x ∈ (FactorText.par c l).reacts, reactionOfStr names x.text = .ok (rd x)) :
    m.read (reactionFieldText names) =
      .ok ⟨some (.comb ((FactorText.par c l).data rd)), freeLine (free ++ m.free), m.head.map (chars!"MONIT" ++ ·)⟩ := by
  unfold MonEntry.read
  rw [show m.text = (FactorText.par c l).text ++ (free ++ m.free) from by rw [← List.append_assoc, ← hr]; rfl,
    C65_combination names c l hc _ ht hop rd hrd]

/-- C98 is false for codes that do not begin in the first column of the text: the code is taken for free text, however it reads without the
blanks. (In REACTION fields such blanks are ignored.) -/
theorem C98_indented_refuted {ρ : Type} (P : FieldParsers ρ) (p : Char) (n : Nat) (s : Str) (hb : balanced ('(' :: s))
    (h2 : s.take 1 ≠ ['(']) (hm : hasSub chars!"((MONIT" s = false) :
    monitorsOf P (p, ['(' :: s]) = (MonEntry.read P.reaction ⟨none, s, none, []⟩).map (fun m => (p, [m])) ∧
    monitorsOf P (p, [List.replicate (n + 1) ' ' ++ '(' :: s]) = .ok (p, [⟨none, List.replicate (n + 1) ' ' ++ '(' :: s, none⟩]) := by
  have hs : hasSub chars!"((MONIT" ('(' :: s) = false := by
    rw [hasSub, hm, Bool.or_false]
    cases s with
    | nil => rfl
    | cons d u =>
      have : ('(' == d) = false := by
        simp only [List.take_succ_cons, List.take_zero, ne_eq, List.cons.injEq, and_true] at h2
        simpa using fun h => h2 h.symm
      simp [List.isPrefixOf, this]
  constructor
  · have h := C98_pointer P p [] ⟨by simp, rfl⟩ [⟨none, s, none, []⟩] (by
      intro m h
      rw [List.mem_singleton] at h
      subst h
      exact ⟨by simp, hb, by simp, by simpa [MonEntry.text, MonEntry.free] using hs⟩)
    have e : [] ++ [(⟨none, s, none, []⟩ : MonEntry)].flatMap MonEntry.lines = ['(' :: s] := by simp [MonEntry.lines, MonEntry.first]
    rw [e] at h
    rw [h]
    simp only [mapE, introMonitor, if_true, List.nil_append]
    cases MonEntry.read P.reaction ⟨none, s, none, []⟩ <;> rfl
  · have hstrip : strip (List.replicate (n + 1) ' ' ++ '(' :: s) = strip ('(' :: s) := by
      have : lstrip (List.replicate (n + 1) ' ' ++ '(' :: s) = lstrip ('(' :: s) := by
        unfold lstrip
        rw [List.dropWhile_append_of_pos]
        intro c hc
        rw [List.eq_of_mem_replicate hc]
        rfl
      unfold strip
      rw [this]
    have hcount : ¬ (List.count '(' (List.replicate (n + 1) ' ' ++ '(' :: s) ≠ List.count ')' (List.replicate (n + 1) ' ' ++ '(' :: s)) := by
      have hb' : List.count '(' ('(' :: s) = List.count ')' ('(' :: s) := hb
      rw [List.count_append, List.count_append, hb', List.count_replicate, List.count_replicate]
      simp
    have hsplit : monitorSplit [List.replicate (n + 1) ' ' ++ '(' :: s] = .ok [List.replicate (n + 1) ' ' ++ '(' :: s] := by
      unfold monitorSplit
      rw [monitorLoop.eq_def]
      simp only [hstrip, opens_cons, if_true]
      rw [if_neg hcount]
      simp [monitorLoop]
    have hsub : ∀ k, hasSub chars!"((MONIT" (List.replicate k ' ' ++ '(' :: s) = false := by
      intro k
      induction k with
      | zero => exact hs
      | succ k ih =>
        rw [List.replicate_succ, List.cons_append, hasSub, ih]
        rfl
    unfold monitorsOf
    simp only [hsplit, mapE, monitorOf_plain P _ (hsub (n + 1))]
    rw [if_neg (by simp [List.replicate_succ, startsWith])]

/-! ### an example -/

theorem monitorLines_of {raw : List Str} {f : PlainField} (hf : PlainField.build raw = .ok f) (intro : Char → List Str) (es : Char → List MonEntry)
    (h1 : ∀ kv ∈ f.subs, kv.2 = intro kv.1 ++ (es kv.1).flatMap MonEntry.lines)
    (h2 : ∀ p ∉ f.subs.keys, intro p = [] ∧ es p = []) (h3 : ∀ p, IntroWf (intro p) ∧ ∀ m ∈ es p, m.wf) : MonitorLines raw intro es := by
  intro p
  refine ⟨?_, h3 p⟩
  rw [← (C39_pointer_in_force raw f hf p).1]
  cases h : f.subs.get? p with
  | none =>
    obtain ⟨e1, e2⟩ := h2 p (Dict.get?_eq_none_iff.1 h)
    simp [e1, e2]
  | some ls => simpa using h1 _ (Dict.mem_of_get? h)

/-- a MONITOR field with free text, two monitors with headings, one of them on two lines, and a monitor without heading -/
def monRaw : List Str := [chars!"MONITOR    values from (1)", chars!"           and own measurement", chars!"          1((MONIT1)1-H-1(N,EL)1-H-1,,SIG) first",
  chars!"            line", chars!"           ((MONIT2)1-H-1(N,", chars!"           EL)1-H-1,,SIG)", chars!"          2(1-H-1(N,TOT),,SIG)"]
def monEntry1 : MonEntry := ⟨some ['1'], chars!"1-H-1(N,EL)1-H-1,,SIG) first", none, [chars!" line"]⟩
def monEntry2 : MonEntry := ⟨some ['2'], chars!"1-H-1(N,EL)1-H-1,,SIG)", some 17, []⟩
def monEntry3 : MonEntry := ⟨none, chars!"1-H-1(N,TOT),,SIG)", none, []⟩
def monIntro (p : Char) : List Str := if p = ' ' then [chars!"values from (1)", chars!"and own measurement"] else []
def monEs (p : Char) : List MonEntry := if p = '1' then [monEntry1, monEntry2] else if p = '2' then [monEntry3] else []

theorem monRaw_lines : MonitorLines monRaw monIntro monEs := by
  have hf : PlainField.build monRaw = .ok ⟨chars!"MONITOR", [(' ', [chars!"values from (1)", chars!"and own measurement"]),
    ('1', [chars!"((MONIT1)1-H-1(N,EL)1-H-1,,SIG) first", chars!" line", chars!"((MONIT2)1-H-1(N,", chars!"EL)1-H-1,,SIG)"]),
    ('2', [chars!"(1-H-1(N,TOT),,SIG)"])]⟩ := by decide +kernel
  refine monitorLines_of hf _ _ (by decide +kernel) ?_ ?_
  · intro p hp
    simp only [Dict.keys, List.map_cons, List.map_nil, List.mem_cons, List.not_mem_nil, or_false, not_or] at hp
    simp [monIntro, monEs, hp]
  · intro p
    refine ⟨?_, ?_⟩
    · unfold monIntro
      split
      · exact ⟨by unfold opensParen; decide +kernel, by decide +kernel⟩
      · exact ⟨by simp, rfl⟩
    · unfold monEs
      have w1 : monEntry1.wf := ⟨by decide, by unfold monEntry1 balanced; decide +kernel, by unfold opensParen; decide +kernel, by unfold monEntry1; decide +kernel⟩
      have w2 : monEntry2.wf := ⟨by decide, by unfold monEntry2 balanced; decide +kernel, by unfold opensParen; decide +kernel, by unfold monEntry2; decide +kernel⟩
      have w3 : monEntry3.wf := ⟨by decide, by unfold monEntry3 balanced; decide +kernel, by unfold opensParen; decide +kernel, by unfold monEntry3; decide +kernel⟩
      split
      · simp [w1, w2]
      · split
        · simp [w3]
        · simp

example : ∃ ms : Char → List (Monitor Measurement), (∀ p, List.Forall₂ (fun m v => m.read fieldParsers.reaction = .ok v) (monEs p) (ms p)) ∧
    (ms '1').map (fun m => (m.text, m.heading)) = [(chars!"first line", some chars!"MONIT1"), ([], some chars!"MONIT2")] := by
  have h : ∀ m ∈ [monEntry1, monEntry2, monEntry3], ∃ v, m.read fieldParsers.reaction = .ok v ∧ v.text = (if m.more = [] then [] else chars!"first line") ∧
      v.heading = m.head.map (chars!"MONIT" ++ ·) := by
    have : ∀ m ∈ [monEntry1, monEntry2, monEntry3], (m.read fieldParsers.reaction).toOption.map (fun v => (v.text, v.heading)) =
        some ((if m.more = [] then [] else chars!"first line"), m.head.map (chars!"MONIT" ++ ·)) := by decide +kernel
    intro m hm
    have := this m hm
    cases hr : m.read fieldParsers.reaction with
    | error e => rw [hr] at this; simp [Except.toOption] at this
    | ok v => rw [hr] at this; simp [Except.toOption] at this; exact ⟨v, rfl, this⟩
  obtain ⟨v1, h1, t1⟩ := h monEntry1 (by simp)
  obtain ⟨v2, h2, t2⟩ := h monEntry2 (by simp)
  obtain ⟨v3, h3, -⟩ := h monEntry3 (by simp)
  refine ⟨fun p => if p = '1' then [v1, v2] else if p = '2' then [v3] else [], fun p => ?_, ?_⟩
  · unfold monEs
    simp only
    split
    · exact .cons h1 (.cons h2 .nil)
    · split
      · exact .cons h3 .nil
      · exact .nil
  · simp [t1, t2, monEntry1, monEntry2]

example : balanced chars!"(1-H-1(N,TOT),,SIG)" ∧ (chars!"1-H-1(N,TOT),,SIG)").take 1 ≠ ['('] ∧ hasSub chars!"((MONIT" chars!"1-H-1(N,TOT),,SIG)" = false := by
  unfold balanced; decide +kernel

end X4
