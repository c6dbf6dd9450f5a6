import Verif.Model.Grammar
import Mathlib.Data.List.Basic
/-! Texts with blanks inserted next to parentheses and commas, and parsers which read them like
the texts without these blanks. A text together with the blanks inserted into it is a list of characters,
each with the blanks that follow it. -/
namespace X4
open Parser

/-- a text, and after each of its characters the blanks inserted there -/
abbrev Spaced := List (Char × Str)

/-- the characters next to which blanks may be inserted -/
def isPunct (c : Char) : Bool := c == '(' || c == ')' || c == ','

namespace Spaced

/-- the text without the inserted blanks -/
def plain (L : Spaced) : Str := L.map Prod.fst
/-- the text with the inserted blanks -/
def text (L : Spaced) : Str := L.flatMap fun x => x.1 :: x.2

/-- only blanks are inserted, and only next to a parenthesis or a comma -/
def ok : Spaced → Prop
  | [] => True
  | [x] => (∀ c ∈ x.2, c = ' ') ∧ (x.2 = [] ∨ isPunct x.1 = true)
  | x :: y :: r => (∀ c ∈ x.2, c = ' ') ∧ (x.2 = [] ∨ isPunct x.1 = true ∨ isPunct y.1 = true) ∧ ok (y :: r)

@[simp] theorem plain_nil : plain [] = [] := rfl
@[simp] theorem text_nil : text [] = [] := rfl
@[simp] theorem plain_cons (x : Char × Str) (L : Spaced) : plain (x :: L) = x.1 :: plain L := rfl
@[simp] theorem text_cons (x : Char × Str) (L : Spaced) : text (x :: L) = x.1 :: (x.2 ++ text L) := rfl
theorem plain_append (a b : Spaced) : plain (a ++ b) = plain a ++ plain b := by simp [plain]
theorem text_append (a b : Spaced) : text (a ++ b) = text a ++ text b := by simp [text]
theorem plain_length (L : Spaced) : (plain L).length = L.length := by simp [plain]
theorem length_le_text (L : Spaced) : L.length ≤ (text L).length := by
  induction L with
  | nil => simp
  | cons x L ih => simp; omega

theorem ok_tail {x : Char × Str} {L : Spaced} (h : ok (x :: L)) : ok L := by
  cases L with
  | nil => trivial
  | cons y r => exact h.2.2

theorem ok_head {x : Char × Str} {L : Spaced} (h : ok (x :: L)) : ∀ c ∈ x.2, c = ' ' := by
  cases L with
  | nil => exact h.1
  | cons y r => exact h.1

theorem ok_suffix {a b : Spaced} (h : ok (a ++ b)) : ok b := by
  induction a with
  | nil => exact h
  | cons x a ih => exact ih (ok_tail h)

theorem ok_blank {L : Spaced} (h : ok L) : ∀ x ∈ L, ∀ c ∈ x.2, c = ' ' := by
  induction L with
  | nil => intro x hx; simp at hx
  | cons y L ih =>
    intro x hx
    rcases List.mem_cons.1 hx with rfl | hx
    · exact ok_head h
    · exact ih (ok_tail h) x hx

/-- the blanks after the last character, `w0` if there is no character -/
def lastW (w0 : Str) (pre : Spaced) : Str := (pre.getLast?.map Prod.snd).getD w0

@[simp] theorem lastW_nil (w0 : Str) : lastW w0 [] = w0 := rfl
theorem lastW_append (w0 w1 : Str) (a b : Spaced) (h : b ≠ []) : lastW w0 (a ++ b) = lastW w1 b := by
  simp only [lastW, List.getLast?_append]
  cases hb : b.getLast? with
  | none => simp [List.getLast?_eq_none_iff] at hb; exact absurd hb h
  | some x => rfl
theorem lastW_append' (w0 : Str) (a b : Spaced) : lastW w0 (a ++ b) = lastW (lastW w0 a) b := by
  cases b with
  | nil => simp
  | cons x b => exact lastW_append _ _ _ _ (by simp)
theorem lastW_ne (w0 w1 : Str) (a : Spaced) (h : a ≠ []) : lastW w0 a = lastW w1 a := lastW_append w0 w1 [] a h

theorem lastW_blank {w0 : Str} {pre L : Spaced} (h0 : ∀ c ∈ w0, c = ' ') (h : ok (pre ++ L)) : ∀ c ∈ lastW w0 pre, c = ' ' := by
  unfold lastW
  cases hp : pre.getLast? with
  | none => simpa using h0
  | some x => simpa using ok_blank h x (List.mem_append_left _ (List.mem_of_getLast? hp))

/-- the rest after leading white space -/
def skip (L : Spaced) : Spaced := L.dropWhile fun x => isWhite x.1

theorem skip_suffix (L : Spaced) : ∃ pre, L = pre ++ skip L ∧ ∀ x ∈ pre, isWhite x.1 = true := by
  refine ⟨L.takeWhile fun x => isWhite x.1, (List.takeWhile_append_dropWhile).symm, ?_⟩
  intro x hx
  have := List.all_takeWhile (l := L) (p := fun x => isWhite x.1)
  exact List.all_eq_true.1 this x hx

theorem skip_length (L : Spaced) : (skip L).length ≤ L.length := by
  obtain ⟨pre, h, _⟩ := skip_suffix L
  calc (skip L).length ≤ (pre ++ skip L).length := by simp
    _ = L.length := by rw [← h]

theorem skip_skip (L : Spaced) : skip (skip L) = skip L := by
  unfold skip
  induction L with
  | nil => rfl
  | cons x L ih => by_cases hx : isWhite x.1 = true <;> simp [hx, ih]

theorem skipWs_blanks {w : Str} (h : ∀ c ∈ w, c = ' ') (s : Str) : skipWs (w ++ s) = skipWs s := by
  induction w with
  | nil => rfl
  | cons c w ih =>
    have : c = ' ' := h c (by simp)
    subst this
    simpa [skipWs, isWhite] using ih fun c hc => h c (by simp [hc])

theorem skipWs_plain (L : Spaced) : skipWs (plain L) = plain (skip L) := by
  induction L with
  | nil => rfl
  | cons x L ih =>
    simp only [skipWs, plain_cons, skip, List.dropWhile_cons]
    split
    · exact ih
    · rfl

theorem skipWs_text {L : Spaced} (h : ok L) : skipWs (text L) = text (skip L) := by
  induction L with
  | nil => rfl
  | cons x L ih =>
    by_cases hx : isWhite x.1 = true
    · have : skipWs (text (x :: L)) = skipWs (x.2 ++ text L) := by simp [skipWs, hx]
      rw [this, skipWs_blanks (ok_head h), ih (ok_tail h)]
      simp [skip, hx]
    · simp [skipWs, skip, hx]

end Spaced
open Spaced

/-- What two runs leave, one on the text without and one on the text with blanks: the same rest, except for the blanks
after what has been read. `t`: if something other than white space was read, these blanks are left.
`c`: something other than white space was read. -/
def Left (t c : Bool) (w0 : Str) (L : Spaced) (r r' : Str) : Prop :=
  ∃ pre L2, L = pre ++ L2 ∧ r = plain L2 ∧ (r' = lastW w0 pre ++ text L2 ∨ r' = text L2) ∧
    (t = true → (∀ x ∈ pre, isWhite x.1 = true) ∨ r' = lastW w0 pre ++ text L2) ∧
    (c = true → ∃ x ∈ pre, isWhite x.1 = false)

/-- the outcomes of two runs, one on the text without and one on the text with blanks -/
def Same (t c : Bool) (w0 : Str) (L : Spaced) : Option (List Tok × Str) → Option (List Tok × Str) → Prop
  | none, none => True
  | some (a, r), some (a', r') => a = a' ∧ Left t c w0 L r r'
  | _, _ => False

/-- The parser `p` reads texts of up to `k` characters like `p'` reads them with blanks inserted. -/
structure ReadsSpaced (k : Nat) (t c : Bool) (p p' : Parser) : Prop where
  ws : p.ws = true
  ws' : p'.ws = true
  pre : p.pre = p'.pre
  impl : ∀ L, ok L → L.length ≤ k → skip L = L → Same t c [] L (p.impl (plain L)) (p'.impl (text L))
  parse : ∀ L, ok L → L.length ≤ k → ∀ w0 : Str, (∀ x ∈ w0, x = ' ') →
    Same t c w0 L (p.parse true (plain L)) (p'.parse true (w0 ++ text L))

theorem Left.weaken {t c : Bool} {w0 : Str} {L : Spaced} {r r' : Str} (h : Left t c w0 L r r') {t1 c1 : Bool} (ht : t1 = true → t = true)
    (hc : c1 = true → c = true) : Left t1 c1 w0 L r r' := by
  obtain ⟨pre, L2, h1, h2, h3, h4, h5⟩ := h
  exact ⟨pre, L2, h1, h2, h3, fun h => h4 (ht h), fun h => h5 (hc h)⟩

theorem Same.weaken {t c : Bool} {w0 : Str} {L : Spaced} {o o' : Option (List Tok × Str)} (h : Same t c w0 L o o') {t1 c1 : Bool}
    (ht : t1 = true → t = true) (hc : c1 = true → c = true) : Same t1 c1 w0 L o o' := by
  match o, o', h with
  | none, none, _ => trivial
  | some (a, r), some (a', r'), h => exact ⟨h.1, h.2.weaken ht hc⟩

theorem ReadsSpaced.weaken {k : Nat} {t c : Bool} {p p' : Parser} (h : ReadsSpaced k t c p p') {t1 c1 : Bool} (ht : t1 = true → t = true)
    (hc : c1 = true → c = true) : ReadsSpaced k t1 c1 p p' where
  ws := h.ws
  ws' := h.ws'
  pre := h.pre
  impl L h1 h2 h3 := (h.impl L h1 h2 h3).weaken ht hc
  parse L h1 h2 w0 h3 := (h.parse L h1 h2 w0 h3).weaken ht hc

theorem ReadsSpaced.le {k j : Nat} {t c : Bool} {p p' : Parser} (h : ReadsSpaced k t c p p') (hj : j ≤ k) : ReadsSpaced j t c p p' where
  ws := h.ws
  ws' := h.ws'
  pre := h.pre
  impl L h1 h2 h3 := h.impl L h1 (Nat.le_trans h2 hj) h3
  parse L h1 h2 w0 h3 := h.parse L h1 (Nat.le_trans h2 hj) w0 h3

/-- skipping white space first -/
theorem Same.skip {t c : Bool} {L : Spaced} {o o' : Option (List Tok × Str)} (w0 : Str) (h : Same t c [] (skip L) o o') :
    Same t c w0 L o o' := by
  match o, o', h with
  | none, none, _ => trivial
  | some (a, r), some (a', r'), h =>
    obtain ⟨ha, pre, L2, h1, h2, h3, h4, h5⟩ := h
    obtain ⟨ps, hs, hw⟩ := skip_suffix L
    refine ⟨ha, ps ++ pre, L2, by rw [List.append_assoc, ← h1, ← hs], h2, ?_, ?_, ?_⟩
    · by_cases hp : pre = []
      · subst hp
        right
        simpa using h3
      · rw [lastW_append w0 [] ps pre hp]
        exact h3
    · intro ht
      by_cases hp : pre = []
      · subst hp
        left
        simpa using hw
      · rw [lastW_append w0 [] ps pre hp]
        rcases h4 ht with h4 | h4
        · left
          intro x hx
          rcases List.mem_append.1 hx with hx | hx
          · exact hw x hx
          · exact h4 x hx
        · right
          exact h4
    · intro hc
      obtain ⟨x, hx, hxw⟩ := h5 hc
      exact ⟨x, List.mem_append_right _ hx, hxw⟩

/-- parsers which skip white space themselves -/
theorem ReadsSpaced.ofImpl {k : Nat} {t c : Bool} {p p' : Parser} (hw : p.ws = true) (hw' : p'.ws = true) (hp : p.pre = true) (hp' : p'.pre = true)
    (h : ∀ L, ok L → L.length ≤ k → skip L = L → Same t c [] L (p.impl (plain L)) (p'.impl (text L))) : ReadsSpaced k t c p p' where
  ws := hw
  ws' := hw'
  pre := hp.trans hp'.symm
  impl := h
  parse L hL hk w0 h0 := by
    have e1 : p.parse true (plain L) = p.impl (plain (skip L)) := by simp [Parser.parse, hw, hp, skipWs_plain]
    have e2 : p'.parse true (w0 ++ text L) = p'.impl (text (skip L)) := by
      simp [Parser.parse, hw', hp', skipWs_blanks h0, skipWs_text hL]
    rw [e1, e2]
    obtain ⟨ps, hs, _⟩ := skip_suffix L
    exact (h (skip L) (ok_suffix (hs ▸ hL)) (Nat.le_trans (skip_length L) hk) (skip_skip L)).skip w0

/-- parsers which leave skipping to their parts -/
theorem ReadsSpaced.ofParse {k : Nat} {t c : Bool} {p p' : Parser} (hw : p.ws = true) (hw' : p'.ws = true) (hp : p.pre = false) (hp' : p'.pre = false)
    (h : ∀ L, ok L → L.length ≤ k → ∀ w0 : Str, (∀ x ∈ w0, x = ' ') → Same t c w0 L (p.impl (plain L)) (p'.impl (w0 ++ text L))) :
    ReadsSpaced k t c p p' where
  ws := hw
  ws' := hw'
  pre := hp.trans hp'.symm
  impl L h1 h2 _ := h L h1 h2 [] (by simp)
  parse L h1 h2 w0 h3 := by
    simpa [Parser.parse, hp, hp'] using h L h1 h2 w0 h3

/-! ## Tokens -/

theorem white_not_punct {c : Char} (h : isPunct c = true) : isWhite c = false := by
  simp only [isPunct, Bool.or_eq_true, beq_iff_eq] at h
  rcases h with (rfl | rfl) | rfl <;> rfl

/-- the characters of a class of which words are made -/
theorem takeWhile_spaced (body : Char → Bool) (hb : ∀ c, body c = true → isPunct c = false ∧ isWhite c = false) :
    ∀ (L : Spaced) (c : Char) (w : Str), isPunct c = false → ok ((c, w) :: L) → ∃ pre L2, L = pre ++ L2 ∧
      (plain L).takeWhile body = plain pre ∧ (plain L).dropWhile body = plain L2 ∧
      (w ++ text L).takeWhile body = plain pre ∧ (w ++ text L).dropWhile body = lastW w pre ++ text L2 := by
  have hblank : body ' ' = false := by
    by_contra h
    exact absurd (hb ' ' (by simpa using h)).2 (by decide)
  intro L
  induction L with
  | nil =>
    intro c w hc h
    have hw : w = [] := by
      rcases h.2 with h | h
      · exact h
      · rw [hc] at h
        exact absurd h (by decide)
    subst hw
    exact ⟨[], [], rfl, rfl, rfl, rfl, rfl⟩
  | cons x L ih =>
    obtain ⟨d, v⟩ := x
    intro c w hc h
    by_cases hd : body d = true
    · have hdp := (hb d hd).1
      have hw : w = [] := by
        rcases h.2.1 with h | h | h
        · exact h
        · rw [hc] at h
          exact absurd h (by decide)
        · rw [hdp] at h
          exact absurd h (by decide)
      subst hw
      obtain ⟨pre, L2, e1, e2, e3, e4, e5⟩ := ih d v hdp (ok_tail h)
      refine ⟨(d, v) :: pre, L2, by rw [e1]; rfl, ?_, ?_, ?_, ?_⟩
      · simp [hd, e2]
      · simp [hd, e3]
      · simp [hd, e4]
      · have : lastW ([] : Str) ((d, v) :: pre) = lastW v pre := by
          cases pre with
          | nil => rfl
          | cons y pre => exact lastW_append _ _ [(d, v)] _ (by simp)
        simp [hd, e5, this]
    · have hd : body d = false := by simpa using hd
      refine ⟨[], (d, v) :: L, rfl, by simp [hd], by simp [hd], ?_, ?_⟩
      · cases w with
        | nil => simp [hd]
        | cons e w =>
          have : e = ' ' := h.1 e (by simp)
          subst this
          simp [hblank]
      · cases w with
        | nil => simp [hd]
        | cons e w =>
          have : e = ' ' := h.1 e (by simp)
          subst this
          simp [hblank]

/-- classes of which words are made contain neither white space nor parentheses and commas -/
def WordClass (body : Char → Bool) : Prop := ∀ c, body c = true → isPunct c = false ∧ isWhite c = false

theorem word_spaced {init body : Char → Bool} (hi : WordClass init) (hb : WordClass body) (ws : Bool) (L : Spaced) (h : ok L) :
    (((word init body ws).impl (plain L) = none ∧ (word init body ws).impl (text L) = none) ∨
      ∃ x pre L2, L = x :: pre ++ L2 ∧ init x.1 = true ∧ (word init body ws).impl (plain L) = some ([.str (plain (x :: pre))], plain L2) ∧
        (word init body ws).impl (text L) = some ([.str (plain (x :: pre))], lastW x.2 pre ++ text L2)) := by
  cases L with
  | nil => left; exact ⟨rfl, rfl⟩
  | cons x L =>
    by_cases hx : init x.1 = true
    · right
      obtain ⟨pre, L2, e1, e2, e3, e4, e5⟩ := takeWhile_spaced body hb L x.1 x.2 (hi _ hx).1 h
      exact ⟨x, pre, L2, by rw [e1]; rfl, hx, by simp [word, hx, e2, e3], by simp [word, hx, e4, e5]⟩
    · left
      simp [word, hx]

theorem lastW_cons (w0 : Str) (x : Char × Str) (pre : Spaced) : lastW w0 (x :: pre) = lastW x.2 pre := by
  have := lastW_append' w0 [x] pre
  exact this

/-- what a token leaves -/
theorem Left.token {t c : Bool} {w0 : Str} {x : Char × Str} {pre L2 : Spaced} (hx : isWhite x.1 = false) :
    Left t c w0 (x :: pre ++ L2) (plain L2) (lastW x.2 pre ++ text L2) :=
  ⟨x :: pre, L2, rfl, rfl, Or.inl (by rw [lastW_cons]), fun _ => Or.inr (by rw [lastW_cons]), fun _ => ⟨x, by simp, hx⟩⟩

theorem ReadsSpaced.word {init body : Char → Bool} (hi : WordClass init) (hb : WordClass body) (k : Nat) :
    ReadsSpaced k true true (Parser.word init body) (Parser.word init body) := by
  refine ReadsSpaced.ofImpl rfl rfl rfl rfl fun L h _ _ => ?_
  rcases word_spaced hi hb true L h with ⟨e1, e2⟩ | ⟨x, pre, L2, e0, hx, e1, e2⟩
  · rw [e1, e2]
    trivial
  · rw [e1, e2, e0]
    exact ⟨rfl, Left.token (hi _ hx).2⟩

theorem wordMax_eq (init body : Char → Bool) (m : Nat) (s : Str) :
    (wordMax init body m).impl s = match s with
      | [] => none
      | c :: cs => if init c then (if (cs.takeWhile body).length ≤ m - 1 then (Parser.word init body).impl (c :: cs) else none) else none := by
  cases s with
  | nil => rfl
  | cons c cs =>
    by_cases hc : init c = true
    · simp only [wordMax, Parser.word, hc, if_true]
      have hsplit : cs = cs.takeWhile body ++ cs.dropWhile body := (List.takeWhile_append_dropWhile).symm
      generalize ht : cs.takeWhile body = u at hsplit ⊢
      have hu : ∀ d ∈ u, body d = true := by
        intro d hd
        rw [← ht] at hd
        exact List.all_eq_true.1 (List.all_takeWhile (l := cs) (p := body)) d hd
      by_cases hl : u.length ≤ m - 1
      · rw [if_pos hl, List.take_of_length_le hl]
        have : cs.drop u.length = cs.dropWhile body := by
          conv_lhs => rw [hsplit]
          simp
        rw [this]
        cases hd : cs.dropWhile body with
        | nil => rfl
        | cons d r =>
          have hbd : body d = false := by
            have := List.head_dropWhile_not body (l := cs) (by rw [hd]; simp)
            simpa [hd] using this
          simp [hbd]
      · rw [if_neg hl]
        have hl' : m - 1 < u.length := by omega
        have e1 : (u.take (m - 1)).length = m - 1 := by rw [List.length_take]; omega
        rw [e1]
        have : cs.drop (m - 1) = u[m - 1] :: (u.drop m.pred.succ ++ cs.dropWhile body) ∨ ∃ r, cs.drop (m - 1) = u[m - 1] :: r := by
          right
          refine ⟨u.drop (m - 1 + 1) ++ cs.dropWhile body, ?_⟩
          conv_lhs => rw [hsplit]
          rw [List.drop_append_of_le_length (by omega), List.drop_eq_getElem_cons hl']
          rfl
        obtain ⟨r, hr⟩ : ∃ r, cs.drop (m - 1) = u[m - 1] :: r := by
          rcases this with h | h
          · exact ⟨_, h⟩
          · exact h
        rw [hr]
        simp [hu _ (List.getElem_mem hl')]
    · simp [wordMax, hc]

theorem ReadsSpaced.wordMax {init body : Char → Bool} (hi : WordClass init) (hb : WordClass body) (m k : Nat) :
    ReadsSpaced k true true (Parser.wordMax init body m) (Parser.wordMax init body m) := by
  refine ReadsSpaced.ofImpl rfl rfl rfl rfl fun L h _ _ => ?_
  rw [wordMax_eq, wordMax_eq]
  cases L with
  | nil => trivial
  | cons x L =>
    by_cases hx : init x.1 = true
    · obtain ⟨pre, L2, e1, e2, e3, e4, e5⟩ := takeWhile_spaced body hb L x.1 x.2 (hi _ hx).1 h
      by_cases hl : (plain pre).length ≤ m - 1
      · have hw := word_spaced hi hb true (x :: L) h
        simp only [plain_cons, text_cons, hx, if_true, e2, e4, hl]
        simp only [Parser.word, hx, if_true, e2, e3, e4, e5]
        rw [e1]
        exact ⟨rfl, Left.token (hi _ hx).2⟩
      · simp only [plain_cons, text_cons, hx, if_true, e2, e4, hl, if_false]
        trivial
    · simp only [plain_cons, text_cons, hx]
      trivial

/-- literals: a single character that is not white, or without white space, parentheses and commas -/
def LitText (m : Str) : Prop := (∃ c, m = [c] ∧ isWhite c = false) ∨ (m ≠ [] ∧ ∀ c ∈ m, isPunct c = false ∧ isWhite c = false)

theorem isPrefixOf_ne {c d : Char} (h : c ≠ d) (m s : Str) : (c :: m).isPrefixOf (d :: s) = false := by
  simp [List.isPrefixOf, h]

theorem lit_spaced : ∀ (m : Str), m ≠ [] → (∀ c ∈ m, isPunct c = false ∧ isWhite c = false) → ∀ L : Spaced, ok L →
    (m.isPrefixOf (plain L) = false ∧ m.isPrefixOf (text L) = false) ∨
      ∃ x pre L2, L = x :: pre ++ L2 ∧ plain (x :: pre) = m ∧ text L = m ++ (lastW x.2 pre ++ text L2)
  | [], h, _, _, _ => absurd rfl h
  | [c], _, _, L, _ => by
    cases L with
    | nil => left; exact ⟨rfl, rfl⟩
    | cons x L =>
      by_cases hx : c = x.1
      · subst hx
        right
        exact ⟨x, [], L, rfl, rfl, by simp⟩
      · left
        exact ⟨isPrefixOf_ne hx _ _, isPrefixOf_ne hx _ _⟩
  | c :: d :: m, _, hm, L, h => by
    cases L with
    | nil => left; exact ⟨rfl, rfl⟩
    | cons x L =>
      by_cases hx : c = x.1
      · subst hx
        cases L with
        | nil =>
          left
          have hw : x.2 = [] := by
            rcases h.2 with h | h
            · exact h
            · rw [(hm x.1 (by simp)).1] at h
              exact absurd h (by decide)
          simp [hw]
        | cons y L =>
          by_cases hw : x.2 = []
          · rcases lit_spaced (d :: m) (by simp) (fun c hc => hm c (by simp at hc ⊢; right; exact hc)) (y :: L) (ok_tail h) with
              ⟨e1, e2⟩ | ⟨z, pre, L2, e0, e1, e2⟩
            · left
              rw [plain_cons, text_cons, hw]
              exact ⟨by rw [List.isPrefixOf_cons₂_self]; exact e1, by rw [List.isPrefixOf_cons₂_self]; exact e2⟩
            · right
              refine ⟨x, z :: pre, L2, by rw [e0]; rfl, by rw [plain_cons, e1], ?_⟩
              rw [text_cons, hw, lastW_cons, e2]
              rfl
          · left
            have hy : isPunct y.1 = true := by
              rcases h.2.1 with h | h | h
              · exact absurd h hw
              · rw [(hm x.1 (by simp)).1] at h
                exact absurd h (by decide)
              · exact h
            have hd := hm d (by simp)
            have h1 : d ≠ y.1 := by
              intro e
              rw [e, hy] at hd
              exact absurd hd.1 (by decide)
            constructor
            · rw [plain_cons, List.isPrefixOf_cons₂_self]
              exact isPrefixOf_ne h1 _ _
            · rw [text_cons]
              cases hv : x.2 with
              | nil => exact absurd hv hw
              | cons e v =>
                have he : e = ' ' := h.1 e (by rw [hv]; simp)
                subst he
                have h2 : d ≠ ' ' := by
                  intro e
                  rw [e] at hd
                  exact absurd hd.2 (by decide)
                rw [List.isPrefixOf_cons₂_self]
                exact isPrefixOf_ne h2 _ _
      · left
        exact ⟨isPrefixOf_ne hx _ _, isPrefixOf_ne hx _ _⟩

theorem ReadsSpaced.lit {m : Str} (hm : LitText m) (k : Nat) : ReadsSpaced k true true (Parser.lit m) (Parser.lit m) := by
  refine ReadsSpaced.ofImpl rfl rfl rfl rfl fun L h _ _ => ?_
  have key : (m.isPrefixOf (plain L) = false ∧ m.isPrefixOf (text L) = false) ∨
      ∃ x pre L2, L = x :: pre ++ L2 ∧ plain (x :: pre) = m ∧ text L = m ++ (lastW x.2 pre ++ text L2) ∧ isWhite x.1 = false := by
    rcases hm with ⟨c, rfl, hc⟩ | ⟨h0, hm⟩
    · cases L with
      | nil => left; exact ⟨rfl, rfl⟩
      | cons x L =>
        by_cases hx : c = x.1
        · subst hx
          right
          exact ⟨x, [], L, rfl, rfl, by simp, hc⟩
        · left
          exact ⟨isPrefixOf_ne hx _ _, isPrefixOf_ne hx _ _⟩
    · rcases lit_spaced m h0 hm L h with h | ⟨x, pre, L2, e0, e1, e2⟩
      · exact Or.inl h
      · exact Or.inr ⟨x, pre, L2, e0, e1, e2, (hm x.1 (by rw [← e1]; simp)).2⟩
  rcases key with ⟨e1, e2⟩ | ⟨x, pre, L2, e0, e1, e2, hx⟩
  · simp only [Parser.lit, e1, e2]
    trivial
  · have p1 : plain L = m ++ plain L2 := by rw [e0, plain_append, e1]
    have b1 : m.isPrefixOf (m ++ plain L2) = true := List.isPrefixOf_iff_prefix.2 (List.prefix_append _ _)
    have b2 : m.isPrefixOf (m ++ (lastW x.2 pre ++ text L2)) = true := List.isPrefixOf_iff_prefix.2 (List.prefix_append _ _)
    simp only [Parser.lit, e2, p1, b1, b2, if_true, List.drop_left]
    rw [e0]
    exact ⟨rfl, Left.token hx⟩

/-! ## Combinators -/

theorem Same.cases {t c : Bool} {w0 : Str} {L : Spaced} {o o' : Option (List Tok × Str)} (h : Same t c w0 L o o') :
    (o = none ∧ o' = none) ∨ ∃ a r r', o = some (a, r) ∧ o' = some (a, r') ∧ Left t c w0 L r r' := by
  match o, o', h with
  | none, none, _ => exact Or.inl ⟨rfl, rfl⟩
  | some (a, r), some (a', r'), h =>
    obtain ⟨rfl, h⟩ := h
    exact Or.inr ⟨a, r, r', rfl, rfl, h⟩

theorem Left.rest {t c : Bool} {w0 : Str} {L : Spaced} {r r' : Str} (h : Left t c w0 L r r') (hL : ok L) (h0 : ∀ x ∈ w0, x = ' ') :
    ∃ pre L2 w, L = pre ++ L2 ∧ r = plain L2 ∧ r' = w ++ text L2 ∧ (∀ x ∈ w, x = ' ') ∧ (w = lastW w0 pre ∨ w = []) ∧
      (c = true → ∃ x ∈ pre, isWhite x.1 = false) := by
  obtain ⟨pre, L2, h1, h2, h3, h4, h5⟩ := h
  rcases h3 with h3 | h3
  · exact ⟨pre, L2, lastW w0 pre, h1, h2, h3, lastW_blank h0 (h1 ▸ hL), Or.inl rfl, h5⟩
  · exact ⟨pre, L2, [], h1, h2, h3, by simp, Or.inr rfl, h5⟩

/-- one parser after another -/
theorem Left.trans {t c : Bool} {w0 w : Str} {pre L2 : Spaced} {r r' : Str} (hw : w = lastW w0 pre ∨ w = []) {ca : Bool}
    (hc : ca = true → ∃ x ∈ pre, isWhite x.1 = false) (h : Left t c w L2 r r') : Left (t && c) (ca || c) w0 (pre ++ L2) r r' := by
  obtain ⟨pre2, L3, h1, h2, h3, h4, h5⟩ := h
  refine ⟨pre ++ pre2, L3, by rw [h1, List.append_assoc], h2, ?_, ?_, ?_⟩
  · by_cases hp : pre2 = []
    · subst hp
      rw [List.append_nil]
      rcases h3 with h3 | h3
      · rw [lastW_nil] at h3
        rcases hw with hw | hw
        · left; rw [h3, hw]
        · right; rw [h3, hw]; rfl
      · exact Or.inr h3
    · rw [lastW_append w0 w pre pre2 hp]
      exact h3
  · intro ht
    obtain ⟨ht, hcc⟩ := Bool.and_eq_true_iff.1 ht
    obtain ⟨x, hx, hxw⟩ := h5 hcc
    right
    rw [lastW_append w0 w pre pre2 (by intro e; rw [e] at hx; simp at hx)]
    rcases h4 ht with h4 | h4
    · rw [h4 x hx] at hxw
      exact absurd hxw (by decide)
    · exact h4
  · intro hcc
    rcases Bool.or_eq_true_iff.1 hcc with h | h
    · obtain ⟨x, hx, hxw⟩ := hc h
      exact ⟨x, List.mem_append_left _ hx, hxw⟩
    · obtain ⟨x, hx, hxw⟩ := h5 h
      exact ⟨x, List.mem_append_right _ hx, hxw⟩

theorem ReadsSpaced.and' {k : Nat} {ta ca tb cb : Bool} {a a' b b' : Parser} (ha : ReadsSpaced k ta ca a a')
    (hb : ∀ j, j ≤ k → (ca = true → j < k) → ReadsSpaced j tb cb b b') : ReadsSpaced k (tb && cb) (ca || cb) (Parser.and a b) (Parser.and a' b') := by
  refine ReadsSpaced.ofImpl ha.ws ha.ws' rfl rfl fun L hL hk hs => ?_
  have hA := ha.impl L hL hk hs
  have i1 : (Parser.and a b).impl (plain L) = match a.impl (plain L) with
      | none => none
      | some (t1, r) => match b.parse true r with
        | none => none
        | some (t2, r') => some (t1 ++ t2, r') := rfl
  have i2 : (Parser.and a' b').impl (text L) = match a'.impl (text L) with
      | none => none
      | some (t1, r) => match b'.parse true r with
        | none => none
        | some (t2, r') => some (t1 ++ t2, r') := rfl
  rw [i1, i2]
  rcases hA.cases with ⟨e1, e2⟩ | ⟨t1, r, r', e1, e2, hl⟩
  · rw [e1, e2]
    trivial
  · rw [e1, e2]
    obtain ⟨pre, L2, w, h1, h2, h3, h4, h5, h6⟩ := hl.rest hL (by simp)
    subst h2 h3
    have hl2 : ca = true → L2.length < k := by
      intro hc
      obtain ⟨x, hx, _⟩ := h6 hc
      have : 0 < pre.length := List.length_pos_of_mem hx
      rw [h1, List.length_append] at hk
      omega
    have hl1 : L2.length ≤ k := by
      rw [h1, List.length_append] at hk
      omega
    have hB := (hb L2.length hl1 hl2).parse L2 (ok_suffix (h1 ▸ hL)) (Nat.le_refl _) w h4
    rcases hB.cases with ⟨e1, e2⟩ | ⟨t2, s, s', e1, e2, hB⟩
    · simp only [e1, e2]
      trivial
    · simp only [e1, e2]
      refine ⟨rfl, ?_⟩
      rw [h1]
      exact hB.trans h5 h6

theorem ReadsSpaced.and {k : Nat} {ta ca tb cb : Bool} {a a' b b' : Parser} (ha : ReadsSpaced k ta ca a a') (hb : ReadsSpaced k tb cb b b') :
    ReadsSpaced k (tb && cb) (ca || cb) (Parser.and a b) (Parser.and a' b') :=
  ha.and' fun _ hj _ => hb.le hj

theorem ReadsSpaced.first {k : Nat} {t c : Bool} {a a' b b' : Parser} (ha : ReadsSpaced k t c a a') (hb : ReadsSpaced k t c b b') :
    ReadsSpaced k t c (Parser.first a b) (Parser.first a' b') := by
  refine ReadsSpaced.ofParse rfl rfl rfl rfl fun L hL hk w0 h0 => ?_
  have i1 : (Parser.first a b).impl (plain L) = match a.parse true (plain L) with
      | some m => some m
      | none => b.parse true (plain L) := rfl
  have i2 : (Parser.first a' b').impl (w0 ++ text L) = match a'.parse true (w0 ++ text L) with
      | some m => some m
      | none => b'.parse true (w0 ++ text L) := rfl
  rw [i1, i2]
  rcases (ha.parse L hL hk w0 h0).cases with ⟨e1, e2⟩ | ⟨t1, r, r', e1, e2, hl⟩
  · rw [e1, e2]
    exact hb.parse L hL hk w0 h0
  · rw [e1, e2]
    exact ⟨rfl, hl⟩

/-- The longest match is the same in both texts: the second alternative leaves the blanks after what it has read. -/
theorem Same.longer {w0 : Str} {L : Spaced} {ta ca tb cb : Bool} {o1 o1' o2 o2' : Option (List Tok × Str)} (h1 : Same ta ca w0 L o1 o1')
    (h2 : Same tb cb w0 L o2 o2') (htb : tb = true) (hc : (ca || cb) = true) :
    Same (ta && tb) (ca && cb) w0 L (Parser.longer o1 o2) (Parser.longer o1' o2') := by
  rcases h1.cases with ⟨rfl, rfl⟩ | ⟨a, r, r', rfl, rfl, hl⟩
  · exact h2.weaken (fun h => (Bool.and_eq_true_iff.1 h).2) fun h => (Bool.and_eq_true_iff.1 h).2
  · have h1 := h1.weaken (t1 := ta && tb) (c1 := ca && cb) (fun h => (Bool.and_eq_true_iff.1 h).1) fun h => (Bool.and_eq_true_iff.1 h).1
    rcases h2.cases with ⟨rfl, rfl⟩ | ⟨b, s, s', rfl, rfl, hm⟩
    · exact h1
    · have h2 := h2.weaken (t1 := ta && tb) (c1 := ca && cb) (fun h => (Bool.and_eq_true_iff.1 h).2) fun h => (Bool.and_eq_true_iff.1 h).2
      suffices hlt : s.length < r.length ↔ s'.length < r'.length by
        simp only [Parser.longer]
        by_cases hd : s.length < r.length
        · rw [if_pos hd, if_pos (hlt.1 hd)]
          exact h2
        · rw [if_neg hd, if_neg fun h => hd (hlt.2 h)]
          exact h1
      obtain ⟨p, L1, a1, a2, a3, a4, a5⟩ := hl
      obtain ⟨q, L2, b1, b2, b3, b4, b5⟩ := hm
      subst a2 b2
      rw [plain_length, plain_length]
      -- the later of two positions
      have far : ∀ (p q : Spaced) (L1 L2 : Spaced) (r' s' : Str), p ++ L1 = q ++ L2 → L2.length < L1.length →
          (r' = lastW w0 p ++ text L1 ∨ r' = text L1) → (s' = lastW w0 q ++ text L2 ∨ s' = text L2) → s'.length < r'.length := by
        intro p q L1 L2 r' s' e hlen hr hs
        have hpq : p.length ≤ q.length := by
          have := congrArg List.length e
          rw [List.length_append, List.length_append] at this
          omega
        obtain ⟨m, hm⟩ : ∃ m, q = p ++ m := by
          have : p <+: q := List.prefix_of_prefix_length_le (l₃ := q ++ L2) (e ▸ List.prefix_append _ _) (List.prefix_append _ _) hpq
          obtain ⟨m, hm⟩ := this
          exact ⟨m, hm.symm⟩
        subst hm
        rw [List.append_assoc] at e
        have e := List.append_cancel_left e
        subst e
        have hm : m ≠ [] := by
          intro h
          subst h
          simp at hlen
        rw [lastW_append w0 w0 p m hm] at hs
        have hmt : (lastW w0 m).length + 1 ≤ (text m).length := by
          obtain ⟨m0, x, rfl⟩ : ∃ m0 x, m = m0 ++ [x] := ⟨m.dropLast, m.getLast hm, (List.dropLast_append_getLast hm).symm⟩
          rw [text_append, lastW_append w0 w0 m0 [x] (by simp)]
          simp [lastW]
        have h1 : s'.length ≤ (lastW w0 m).length + (text L2).length := by
          rcases hs with rfl | rfl
          · simp
          · simp
        have h2 : (text m).length + (text L2).length ≤ r'.length := by
          rcases hr with rfl | rfl
          · rw [text_append, List.length_append, List.length_append]; omega
          · rw [text_append, List.length_append]; omega
        omega
      have e : p ++ L1 = q ++ L2 := a1.symm.trans b1
      rcases Nat.lt_trichotomy L2.length L1.length with h | h | h
      · exact ⟨fun _ => far p q L1 L2 r' s' e h a3 b3, fun _ => h⟩
      · have hpq : p = q ∧ L1 = L2 := List.append_inj' e h.symm
        obtain ⟨rfl, rfl⟩ := hpq
        have hs' : s' = lastW w0 p ++ text L1 := by
          have hnw : ∃ x ∈ p, isWhite x.1 = false := by
            rcases Bool.or_eq_true_iff.1 hc with h | h
            · exact a5 h
            · exact b5 h
          rcases b4 htb with h | h
          · obtain ⟨x, hx, hxw⟩ := hnw
            rw [h x hx] at hxw
            exact absurd hxw (by decide)
          · exact h
        have : r'.length ≤ s'.length := by
          rcases a3 with rfl | rfl
          · rw [hs']; exact Nat.le_refl _
          · rw [hs', List.length_append]; omega
        constructor
        · intro h; omega
        · intro h; omega
      · have := far q p L2 L1 s' r' e.symm h b3 a3
        constructor
        · intro h; omega
        · intro h; omega

theorem ReadsSpaced.or {k : Nat} {ta ca tb cb : Bool} {a a' b b' : Parser} (ha : ReadsSpaced k ta ca a a') (hb : ReadsSpaced k tb cb b b') (htb : tb = true)
    (hc : (ca || cb) = true) : ReadsSpaced k (ta && tb) (ca && cb) (Parser.or a b) (Parser.or a' b') := by
  refine ReadsSpaced.ofParse rfl rfl rfl rfl fun L hL hk w0 h0 => ?_
  exact (ha.parse L hL hk w0 h0).longer (hb.parse L hL hk w0 h0) htb hc

theorem ReadsSpaced.orFrom {k : Nat} {t : Bool} (ps : List Parser) (hps : ∀ p ∈ ps, ReadsSpaced k true true p p) : ∀ acc, ReadsSpaced k t true acc acc →
    ReadsSpaced k t true (orAll.orFrom acc ps) (orAll.orFrom acc ps) := by
  induction ps with
  | nil => intro acc h; exact h
  | cons q r ih =>
    intro acc h
    refine ih (fun p hp => hps p (by simp [hp])) _ ?_
    have := h.or (hps q (by simp)) rfl rfl
    simpa using this

/-- alternatives: all but the first one are to leave the blanks after what they have read -/
theorem ReadsSpaced.orAll {k : Nat} {t : Bool} (p : Parser) (ps : List Parser) (hp : ReadsSpaced k t true p p) (hps : ∀ p ∈ ps, ReadsSpaced k true true p p) :
    ReadsSpaced k t true (Parser.orAll (p :: ps)) (Parser.orAll (p :: ps)) := by
  cases ps with
  | nil => exact hp
  | cons q r => exact ReadsSpaced.orFrom (q :: r) hps p hp

theorem ReadsSpaced.map {k : Nat} {t c : Bool} {p p' : Parser} (h : ReadsSpaced k t c p p') (f : List Tok → List Tok) {q q' : Parser}
    (hq : q.ws = p.ws ∧ q.pre = p.pre ∧ ∀ s, q.impl s = (p.impl s).map fun x => (f x.1, x.2))
    (hq' : q'.ws = p'.ws ∧ q'.pre = p'.pre ∧ ∀ s, q'.impl s = (p'.impl s).map fun x => (f x.1, x.2)) : ReadsSpaced k t c q q' := by
  have hm : ∀ {w0 : Str} {L : Spaced} {o o' : Option (List Tok × Str)}, Same t c w0 L o o' →
      Same t c w0 L (o.map fun x => (f x.1, x.2)) (o'.map fun x => (f x.1, x.2)) := by
    intro w0 L o o' h
    rcases h.cases with ⟨rfl, rfl⟩ | ⟨a, r, r', rfl, rfl, hl⟩
    · trivial
    · exact ⟨rfl, hl⟩
  have e1 : ∀ s, q.parse true s = (p.parse true s).map fun x => (f x.1, x.2) := by
    intro s
    simp only [Parser.parse, hq.1, hq.2.1]
    exact hq.2.2 _
  have e2 : ∀ s, q'.parse true s = (p'.parse true s).map fun x => (f x.1, x.2) := by
    intro s
    simp only [Parser.parse, hq'.1, hq'.2.1]
    exact hq'.2.2 _
  exact
    { ws := hq.1.trans h.ws
      ws' := hq'.1.trans h.ws'
      pre := hq.2.1.trans (h.pre.trans hq'.2.1.symm)
      impl := fun L a b d => by rw [hq.2.2, hq'.2.2]; exact hm (h.impl L a b d)
      parse := fun L a b w0 d => by rw [e1, e2]; exact hm (h.parse L a b w0 d) }

theorem ReadsSpaced.group {k : Nat} {t c : Bool} {p p' : Parser} (h : ReadsSpaced k t c p p') : ReadsSpaced k t c (Parser.group p) (Parser.group p') := by
  refine h.map (fun x => [.grp x]) ⟨rfl, rfl, fun s => ?_⟩ ⟨rfl, rfl, fun s => ?_⟩
  · simp only [Parser.group, Parser.parse, Bool.false_and, Bool.false_eq_true, if_false]
    cases p.impl s <;> rfl
  · simp only [Parser.group, Parser.parse, Bool.false_and, Bool.false_eq_true, if_false]
    cases p'.impl s <;> rfl

theorem ReadsSpaced.suppress {k : Nat} {t c : Bool} {p p' : Parser} (h : ReadsSpaced k t c p p') :
    ReadsSpaced k t c (Parser.suppress p) (Parser.suppress p') := by
  refine h.map (fun _ => []) ⟨rfl, rfl, fun s => ?_⟩ ⟨rfl, rfl, fun s => ?_⟩
  · simp only [Parser.suppress, Parser.parse, Bool.false_and, Bool.false_eq_true, if_false]
    cases p.impl s <;> rfl
  · simp only [Parser.suppress, Parser.parse, Bool.false_and, Bool.false_eq_true, if_false]
    cases p'.impl s <;> rfl

theorem ReadsSpaced.forward {k : Nat} {t c : Bool} {p p' : Parser} (h : ReadsSpaced k t c p p') : ReadsSpaced k t c (Parser.forward p) (Parser.forward p') :=
  ReadsSpaced.ofImpl h.ws h.ws' rfl rfl h.impl

/-- where an unsuccessful attempt of an optional part leaves the text -/
theorem Left.stay {t : Bool} {p p' : Parser} (hpre : p.pre = p'.pre) (hw : p.ws = true) (hw' : p'.ws = true) {w0 : Str} {L : Spaced} (hL : ok L)
    (h0 : ∀ x ∈ w0, x = ' ') : Left t false w0 L (if true && p.pre && p.ws then skipWs (plain L) else plain L)
      (if true && p'.pre && p'.ws then skipWs (w0 ++ text L) else w0 ++ text L) := by
  rw [hw, hw', ← hpre]
  cases p.pre with
  | true =>
    obtain ⟨ps, hs, hps⟩ := skip_suffix L
    exact ⟨ps, skip L, hs, by simp [skipWs_plain], Or.inr (by simp [skipWs_blanks h0, skipWs_text hL]), fun _ => Or.inl hps, by simp⟩
  | false => exact ⟨[], L, rfl, rfl, Or.inl rfl, fun _ => Or.inl (by simp), by simp⟩

theorem ReadsSpaced.opt {k : Nat} {t c : Bool} {p p' : Parser} (h : ReadsSpaced k t c p p') : ReadsSpaced k t false (Parser.opt p) (Parser.opt p') := by
  have e1 : ∀ s, (Parser.opt p).parse true s = match p.parse true s with
      | none => some ([], if true && p.pre && p.ws then skipWs s else s)
      | some m => some m := fun s => rfl
  have e2 : ∀ s, (Parser.opt p').parse true s = match p'.parse true s with
      | none => some ([], if true && p'.pre && p'.ws then skipWs s else s)
      | some m => some m := fun s => rfl
  have i1 : ∀ s, (Parser.opt p).impl s = match p.impl s with
      | none => some ([], s)
      | some m => some m := fun s => rfl
  have i2 : ∀ s, (Parser.opt p').impl s = match p'.impl s with
      | none => some ([], s)
      | some m => some m := fun s => rfl
  refine ⟨h.ws, h.ws', h.pre, fun L hL hk hs => ?_, fun L hL hk w0 h0 => ?_⟩
  · rw [i1, i2]
    rcases (h.impl L hL hk hs).cases with ⟨a, b⟩ | ⟨x, r, r', a, b, hl⟩
    · rw [a, b]
      exact ⟨rfl, [], L, rfl, rfl, Or.inr rfl, fun _ => Or.inr rfl, by simp⟩
    · rw [a, b]
      exact ⟨rfl, hl.weaken id (by simp)⟩
  · rw [e1, e2]
    rcases (h.parse L hL hk w0 h0).cases with ⟨a, b⟩ | ⟨x, r, r', a, b, hl⟩
    · rw [a, b]
      exact ⟨rfl, Left.stay h.pre h.ws h.ws' hL h0⟩
    · rw [a, b]
      exact ⟨rfl, hl.weaken id (by simp)⟩

/-- repeating a parser which reads something every time -/
theorem ReadsSpaced.loop {k : Nat} {t : Bool} {p p' : Parser} (h : ReadsSpaced k t true p p') : ∀ (len : Nat) (L : Spaced), L.length ≤ len → ok L →
    L.length ≤ k → ∀ w0 : Str, (∀ x ∈ w0, x = ' ') → ∀ n n' : Nat, L.length < n → L.length < n' → ∀ acc, ∃ a r r',
      manyLoop p n acc (plain L) = (a, r) ∧ manyLoop p' n' acc (w0 ++ text L) = (a, r') ∧
      ∃ pre L2, L = pre ++ L2 ∧ r = plain L2 ∧ (r' = lastW w0 pre ++ text L2 ∨ r' = text L2) ∧ (t = true → r' = lastW w0 pre ++ text L2) := by
  intro len
  induction len with
  | zero =>
    intro L hlen hL hk w0 h0 n n' hn hn' acc
    obtain ⟨n, rfl⟩ : ∃ m, n = m + 1 := ⟨n - 1, by omega⟩
    obtain ⟨n', rfl⟩ : ∃ m, n' = m + 1 := ⟨n' - 1, by omega⟩
    have hnil : L = [] := List.length_eq_zero_iff.1 (by omega)
    subst hnil
    have hP := h.parse [] hL hk w0 h0
    rcases hP.cases with ⟨a, b⟩ | ⟨x, r, r', a, b, hl⟩
    · exact ⟨acc, [], w0, by simp only [manyLoop, a]; rfl, by simp only [manyLoop, b]; simp, [], [], rfl, rfl, Or.inl (by simp), by simp⟩
    · obtain ⟨pre, L2, h1, _, _, _, h5⟩ := hl
      obtain ⟨y, hy, _⟩ := h5 rfl
      have : pre = [] := by
        have := congrArg List.length h1
        simp only [List.length_nil, List.length_append] at this
        exact List.length_eq_zero_iff.1 (by omega)
      rw [this] at hy
      simp at hy
  | succ len ih =>
    intro L hlen hL hk w0 h0 n n' hn hn' acc
    obtain ⟨n, rfl⟩ : ∃ m, n = m + 1 := ⟨n - 1, by omega⟩
    obtain ⟨n', rfl⟩ : ∃ m, n' = m + 1 := ⟨n' - 1, by omega⟩
    have hP := h.parse L hL hk w0 h0
    rcases hP.cases with ⟨a, b⟩ | ⟨x, r, r', a, b, hl⟩
    · refine ⟨acc, plain L, w0 ++ text L, by simp only [manyLoop, a], by simp only [manyLoop, b], [], L, rfl, rfl, Or.inl rfl, fun _ => rfl⟩
    · have htight := hl
      obtain ⟨pre, L2, h1, h2, h3, h4, h5⟩ := hl
      obtain ⟨y, hy, hyw⟩ := h5 rfl
      have hpos : 0 < pre.length := List.length_pos_of_mem hy
      have hne : pre ≠ [] := by
        intro e
        rw [e] at hy
        simp at hy
      have hlen2 : L2.length < L.length := by
        rw [h1, List.length_append]
        omega
      obtain ⟨w, hw, hwb, hr'⟩ : ∃ w, (w = lastW w0 pre ∨ (t = false ∧ w = [])) ∧ (∀ x ∈ w, x = ' ') ∧ r' = w ++ text L2 := by
        rcases h3 with h3 | h3
        · exact ⟨_, Or.inl rfl, lastW_blank h0 (h1 ▸ hL), h3⟩
        · cases t with
          | false => exact ⟨[], Or.inr ⟨rfl, rfl⟩, by simp, h3⟩
          | true =>
            rcases h4 rfl with h | h
            · rw [h y hy] at hyw
              exact absurd hyw (by decide)
            · exact ⟨_, Or.inl rfl, lastW_blank h0 (h1 ▸ hL), h⟩
      subst h2 hr'
      obtain ⟨a', r2, r2', m1, m2, q, L3, g1, g2, g3, g4⟩ :=
        ih L2 (by omega) (ok_suffix (h1 ▸ hL)) (by omega) w hwb n n' (by omega) (by omega) (acc ++ x)
      refine ⟨a', r2, r2', by simp only [manyLoop, a]; exact m1, by simp only [manyLoop, b]; exact m2, pre ++ q, L3, by rw [h1, g1, List.append_assoc], g2, ?_, ?_⟩
      · by_cases hq : q = []
        · subst hq
          rw [List.append_nil]
          rw [lastW_nil] at g3
          rcases g3 with g3 | g3
          · rcases hw with hw | ⟨_, hw⟩
            · left; rw [g3, hw]
            · right; rw [g3, hw]; rfl
          · exact Or.inr g3
        · rw [lastW_append w0 w pre q hq]
          exact g3
      · intro ht
        have g4 := g4 ht
        have hw : w = lastW w0 pre := by
          rcases hw with hw | ⟨hf, _⟩
          · exact hw
          · rw [ht] at hf
            exact absurd hf (by decide)
        rw [lastW_append', ← hw]
        exact g4

theorem ReadsSpaced.many {k : Nat} {t : Bool} {p p' : Parser} (h : ReadsSpaced k t true p p') : ReadsSpaced k t false (Parser.many p) (Parser.many p') := by
  have key : ∀ (w0 : Str) (L : Spaced), ok L → L.length ≤ k → (∀ x ∈ w0, x = ' ') → ∀ o o', Same t true w0 L o o' →
      ∀ s s', Left t false w0 L s s' → Same t false w0 L
        (match (match o with | none => none | some (x, r) => some (manyLoop p (r.length + 1) x r)) with | none => some ([], s) | some m => some m)
        (match (match o' with | none => none | some (x, r) => some (manyLoop p' (r.length + 1) x r)) with | none => some ([], s') | some m => some m) := by
    intro w0 L hL hk h0 o o' ho s s' hs
    rcases ho.cases with ⟨rfl, rfl⟩ | ⟨x, r, r', rfl, rfl, hl⟩
    · exact ⟨rfl, hs⟩
    · obtain ⟨pre, L2, h1, h2, h3, h4, h5⟩ := hl
      obtain ⟨y, hy, hyw⟩ := h5 rfl
      obtain ⟨w, hw, hwb, hr'⟩ : ∃ w, (w = lastW w0 pre ∨ (t = false ∧ w = [])) ∧ (∀ x ∈ w, x = ' ') ∧ r' = w ++ text L2 := by
        rcases h3 with h3 | h3
        · exact ⟨_, Or.inl rfl, lastW_blank h0 (h1 ▸ hL), h3⟩
        · cases t with
          | false => exact ⟨[], Or.inr ⟨rfl, rfl⟩, by simp, h3⟩
          | true =>
            rcases h4 rfl with h | h
            · rw [h y hy] at hyw
              exact absurd hyw (by decide)
            · exact ⟨_, Or.inl rfl, lastW_blank h0 (h1 ▸ hL), h⟩
      subst h2 hr'
      have hk2 : L2.length ≤ k := by
        rw [h1, List.length_append] at hk
        omega
      obtain ⟨a, r2, r2', m1, m2, q, L3, g1, g2, g3, g4⟩ := h.loop L2.length L2 (Nat.le_refl _) (ok_suffix (h1 ▸ hL)) hk2 w hwb
        ((plain L2).length + 1) ((w ++ text L2).length + 1) (by rw [plain_length]; omega)
        (by have := length_le_text L2; rw [List.length_append]; omega) x
      simp only [m1, m2]
      refine ⟨rfl, pre ++ q, L3, by rw [h1, g1, List.append_assoc], g2, ?_, ?_, by simp⟩
      · by_cases hq : q = []
        · subst hq
          rw [List.append_nil]
          rw [lastW_nil] at g3
          rcases g3 with g3 | g3
          · rcases hw with hw | ⟨_, hw⟩
            · left; rw [g3, hw]
            · right; rw [g3, hw]; rfl
          · exact Or.inr g3
        · rw [lastW_append w0 w pre q hq]
          exact g3
      · intro ht
        right
        have hw : w = lastW w0 pre := by
          rcases hw with hw | ⟨hf, _⟩
          · exact hw
          · rw [ht] at hf
            exact absurd hf (by decide)
        rw [lastW_append', ← hw]
        exact g4 ht
  refine ⟨h.ws, h.ws', h.pre, fun L hL hk hs => ?_, fun L hL hk w0 h0 => ?_⟩
  · exact key [] L hL hk (by simp) _ _ (h.impl L hL hk hs) _ _ ⟨[], L, rfl, rfl, Or.inr rfl, fun _ => Or.inr rfl, by simp⟩
  · exact key w0 L hL hk h0 _ _ (h.parse L hL hk w0 h0) _ _ (Left.stay h.pre h.ws h.ws' hL h0)

theorem ReadsSpaced.delimited {k : Nat} {t c : Bool} {p p' : Parser} (h : ReadsSpaced k t c p p') {d : Str} (hd : LitText d) :
    ReadsSpaced k false c (Parser.delimited p d) (Parser.delimited p' d) := by
  have h1 := (h.and ((ReadsSpaced.lit hd k).suppress.and h).many).weaken (t1 := false) (c1 := c) (by simp) (by simp)
  exact h1

end X4
