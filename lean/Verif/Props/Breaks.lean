import Verif.Props.MonitorText
import Verif.Lemmas.BreaksReaction
import Verif.Props.ReactionText
import Verif.Model.TextFields
import Verif.Spec.MonitorText
/-! C102: where the code of a reaction may be continued on the next line.

The lines of a field are stripped and put together with blanks in between, so that a code of more than one line is read with blanks
inside. -/
namespace X4
open Parser Spaced

/-- without blanks -/
def unblanked (s : Str) : Str := s.filter (· != ' ')

/-- the readings of a text without and with additional blanks: the same failure, or the same measurement and the same free text up to
blanks -/
def SameReading (a b : Except PyErr (Measurement × Str)) : Prop :=
  match a, b with
  | .error e, .error e' => e = e'
  | .ok (m, s), .ok (m', s') => m = m' ∧ unblanked s = unblanked s'
  | _, _ => False

theorem unblanked_blanks {w : Str} (h : ∀ c ∈ w, c = ' ') (s : Str) : unblanked (w ++ s) = unblanked s := by
  unfold unblanked
  rw [List.filter_append, List.filter_eq_nil_iff.2 (by intro c hc; simp [h c hc]), List.nil_append]

theorem takeWhile_blanks {w : Str} (h : ∀ c ∈ w, c = ' ') (s : Str) : (w ++ s).takeWhile (· != '\n') = w ++ s.takeWhile (· != '\n') := by
  induction w with
  | nil => rfl
  | cons c w ih =>
    have : c = ' ' := h c (by simp)
    subst this
    simpa using ih fun c hc => h c (by simp [hc])

theorem line_blanks {L : Spaced} (h : ok L) :
    unblanked ((plain L).takeWhile (· != '\n')) = unblanked ((text L).takeWhile (· != '\n')) := by
  induction L with
  | nil => rfl
  | cons x L ih =>
    by_cases hx : x.1 = '\n'
    · simp [hx]
    · have e1 : (plain (x :: L)).takeWhile (· != '\n') = x.1 :: (plain L).takeWhile (· != '\n') := by simp [hx]
      have e2 : (text (x :: L)).takeWhile (· != '\n') = x.1 :: (x.2 ++ (text L).takeWhile (· != '\n')) := by
        rw [text_cons, List.takeWhile_cons, if_pos (by simp [hx]), takeWhile_blanks (ok_head h)]
      rw [e1, e2]
      have := ih (ok_tail h)
      have hb := unblanked_blanks (ok_head h) ((text L).takeWhile (· != '\n'))
      unfold unblanked at *
      rw [List.filter_cons, List.filter_cons, hb, this]

theorem text_no_tab {L : Spaced} (h : ok L) (ht : '\t' ∉ plain L) : '\t' ∉ text L := by
  induction L with
  | nil => simp
  | cons x L ih =>
    simp only [plain_cons, List.mem_cons, not_or] at ht
    simp only [text_cons, List.mem_cons, List.mem_append, not_or]
    refine ⟨ht.1, fun hx => ?_, ih (ok_tail h) ht.2⟩
    exact absurd (ok_head h _ hx) (by decide)

/-- how the two texts are read by the grammar of fields -/
theorem field_parse (L : Spaced) (h : ok L) (ht : '\t' ∉ plain L) :
    (parseString (pReactionField ((plain L).length + 1)) (plain L) = .error .parseException ∧
      parseString (pReactionField ((text L).length + 1)) (text L) = .error .parseException) ∨
    ∃ a r r', parseString (pReactionField ((plain L).length + 1)) (plain L) = .ok (a ++ [.str (r.takeWhile (· != '\n'))]) ∧
      parseString (pReactionField ((text L).length + 1)) (text L) = .ok (a ++ [.str (r'.takeWhile (· != '\n'))]) ∧ Left false true [] L r r' := by
  have hE := reads_expression L.length ((plain L).length + 1) ((text L).length + 1) (by rw [plain_length]; omega)
    (by have := length_le_text L; omega)
  have hsplit : ∀ (n : Nat) (s : Str), (pExpression (n + 1)).parse true s = (pExpression (n + 1)).impl (skipWs s) := by
    intro n s
    rfl
  have hF : ∀ (n : Nat) (s : Str), (pReactionField (n + 1)).parse true s = match (pExpression (n + 1)).parse true s with
      | none => none
      | some (t, r) => some (t ++ [.str (r.takeWhile (· != '\n'))], r.dropWhile (· != '\n')) := by
    intro n s
    rw [hsplit]
    rfl
  have hP := hE.parse L h (Nat.le_refl _) [] (by simp)
  rw [List.nil_append] at hP
  unfold parseString
  rw [expandTabs_id _ _ ht, expandTabs_id _ _ (text_no_tab h ht), hF, hF]
  rcases hP.cases with ⟨e1, e2⟩ | ⟨a, r, r', e1, e2, hl⟩
  · left
    rw [e1, e2]
    exact ⟨rfl, rfl⟩
  · right
    rw [e1, e2]
    exact ⟨a, r, r', rfl, rfl, hl⟩

theorem reactionFieldText_of {names : Dict Str (List Str)} {d : Str} {a : List Tok} {s : Str}
    (h : parseString (pReactionField (d.length + 1)) d = .ok (a ++ [.str s])) :
    reactionFieldText names d = (getMeasurementType names a).map fun m => (m, s) := by
  unfold reactionFieldText
  rw [h]
  simp only [List.dropLast_concat, List.getLast?_concat]
  cases getMeasurementType names a <;> rfl

/-- C102: blanks inserted next to parentheses and commas do not change how the text of a REACTION or MONITOR field is read, whatever
the text (without tabs): it fails in the same way, or gives the same measurement and the same free text up to blanks. -/
theorem C102_blanks (names : Dict Str (List Str)) (L : Spaced) (h : ok L) (ht : '\t' ∉ plain L) :
    SameReading (reactionFieldText names (plain L)) (reactionFieldText names (text L)) := by
  rcases field_parse L h ht with ⟨e1, e2⟩ | ⟨a, r, r', e1, e2, hl⟩
  · unfold reactionFieldText
    rw [e1, e2]
    exact rfl
  · rw [reactionFieldText_of e1, reactionFieldText_of e2]
    cases getMeasurementType names a with
    | error e => exact rfl
    | ok m =>
      refine ⟨rfl, ?_⟩
      obtain ⟨pre, L2, w, h1, h2, h3, h4, -, -⟩ := hl.rest h (by simp)
      subst h2 h3
      rw [takeWhile_blanks h4, unblanked_blanks h4]
      exact line_blanks (ok_suffix (h1 ▸ h))

/-- the characters of a text without blanks inserted -/
def unspaced (s : Str) : Spaced := s.map fun c => (c, [])

theorem plain_unspaced (s : Str) : plain (unspaced s) = s := by
  induction s with
  | nil => rfl
  | cons c s ih => simp only [unspaced, List.map_cons, plain_cons, List.cons.injEq, true_and]; exact ih
theorem text_unspaced (s : Str) : text (unspaced s) = s := by
  induction s with
  | nil => rfl
  | cons c s ih => simp only [unspaced, List.map_cons, text_cons, List.nil_append, List.cons.injEq, true_and]; exact ih

theorem ok_unspaced (s : Str) : ok (unspaced s) := by
  induction s with
  | nil => trivial
  | cons c s ih =>
    cases s with
    | nil => exact ⟨by simp, Or.inl rfl⟩
    | cons d s => exact ⟨by simp, Or.inl rfl, ih⟩

theorem ok_append_unspaced {L : Spaced} (h : ok L) (hl : lastW [] L = []) (s : Str) : ok (L ++ unspaced s) := by
  induction L with
  | nil => exact ok_unspaced s
  | cons x L ih =>
    cases L with
    | nil =>
      have hx : x.2 = [] := hl
      cases s with
      | nil => exact ⟨by simp [hx], Or.inl hx⟩
      | cons c s => exact ⟨by simp [hx], Or.inl hx, ok_unspaced (c :: s)⟩
    | cons y L =>
      have hl' : lastW [] (y :: L) = [] := by
        rw [← lastW_append [] [] [x] (y :: L) (by simp)]
        exact hl
      exact ⟨h.1, h.2.1, ih h.2.2 hl'⟩

theorem text_of_unspaced {L : Spaced} (h : ∀ x ∈ L, x.2 = []) : text L = plain L := by
  induction L with
  | nil => rfl
  | cons x L ih =>
    rw [text_cons, plain_cons, h x (by simp), ih fun y hy => h y (by simp [hy])]
    rfl

/-- The unfoldings of the grammar in the model (`pExpression`) do not matter, if there are more than the text has characters: the
grammar has the same outcome on every text. -/
theorem expression_unfoldings (s : Str) (n n' : Nat) (hn : s.length < n) (hn' : s.length < n') :
    (pExpression n).parse true s = (pExpression n').parse true s := by
  have hlen : (unspaced s).length = s.length := by simp [unspaced]
  have h := (reads_expression s.length n n' hn hn').parse (unspaced s) (ok_unspaced s) (by omega) [] (by simp)
  rw [List.nil_append, plain_unspaced, text_unspaced] at h
  rcases h.cases with ⟨e1, e2⟩ | ⟨a, r, r', e1, e2, hl⟩
  · rw [e1, e2]
  · obtain ⟨pre, L2, h1, h2, h3, -, -⟩ := hl
    have hall : ∀ x ∈ unspaced s, x.2 = [] := by
      intro x hx
      obtain ⟨c, _, rfl⟩ := List.mem_map.1 hx
      rfl
    have hT : text L2 = plain L2 := text_of_unspaced fun x hx => hall x (by rw [h1]; simp [hx])
    have hw : lastW [] pre = [] := by
      unfold lastW
      cases hg : pre.getLast? with
      | none => rfl
      | some x => simpa using hall x (by rw [h1]; exact List.mem_append_left _ (List.mem_of_getLast? hg))
    rw [hw, List.nil_append, or_self, hT, ← h2] at h3
    rw [e1, e2, h3]

/-- C102: a reaction or combination of reactions with blanks inserted next to its parentheses and commas, and with free text behind
it, is read exactly as without these blanks. -/
theorem C102_code (names : Dict Str (List Str)) (f : FactorText) (hf : f.wf) (free : Str) (ht : '\t' ∉ free)
    (hop : NoOp ['+', '-', '*', '/', '='] free) (L : Spaced) (hL : ok L) (hp : plain L = f.text) (hl : lastW [] L = []) :
    reactionFieldText names (text L ++ free) = reactionFieldText names (f.text ++ free) := by
  have hok : ok (L ++ unspaced free) := ok_append_unspaced hL hl free
  have hpl : plain (L ++ unspaced free) = f.text ++ free := by rw [plain_append, hp, plain_unspaced]
  have htl : text (L ++ unspaced free) = text L ++ free := by rw [text_append, text_unspaced]
  have hC := C65_parse f hf free ht hop
  have hk := field_parse (L ++ unspaced free) hok (by rw [hpl]; simp [factorText_no_tab f hf, ht])
  rw [hpl, htl] at hk
  -- where the grammar stops in the text without blanks
  have hstop : (pExpression ((f.text ++ free).length + 1)).parse true (f.text ++ free) = some (f.toks, skipWs free) := by
    have hnw : NW (f.text ++ free) := by
      obtain ⟨s, hs⟩ := f.head
      rw [hs]; exact NW_cons.2 rfl
    have hd : f.depth ≤ (f.text ++ free).length := by
      have := FactorText.depth_le f
      rw [List.length_append]
      omega
    rw [parse_nw hnw]
    exact pExpression_factor _ f hf hd free hop
  have hE := reads_expression (L ++ unspaced free).length ((f.text ++ free).length + 1) ((text L ++ free).length + 1)
    (by rw [← hpl, plain_length]; omega) (by have := length_le_text (L ++ unspaced free); rw [htl] at this; omega)
  have hP := hE.parse (L ++ unspaced free) hok (Nat.le_refl _) [] (by simp)
  rw [List.nil_append, hpl, htl, hstop] at hP
  rcases hP.cases with ⟨e1, _⟩ | ⟨a, r, r', e1, e2, hleft⟩
  · exact absurd e1 (by simp)
  · obtain ⟨rfl, rfl⟩ : f.toks = a ∧ skipWs free = r := by simpa using e1
    have hr' : r' = skipWs free := by
      obtain ⟨pre, L2, h1, h2, h3, -, -⟩ := hleft
      -- what is left is a part of the free text
      have hlen : L2.length ≤ (unspaced free).length := by
        rw [← plain_length, ← h2]
        unfold unspaced skipWs
        rw [List.length_map]
        exact (List.dropWhile_sublist _).length_le
      obtain ⟨q, hq⟩ : ∃ q, unspaced free = q ++ L2 := by
        have h4 : L2 <:+ L ++ unspaced free := ⟨pre, h1.symm⟩
        obtain ⟨q, hq⟩ := List.suffix_of_suffix_length_le h4 (List.suffix_append _ _) hlen
        exact ⟨q, hq.symm⟩
      have hpre : pre = L ++ q := by
        rw [hq, ← List.append_assoc] at h1
        exact (List.append_cancel_right h1).symm
      have hall : ∀ x ∈ unspaced free, x.2 = [] := by
        intro x hx
        obtain ⟨c, _, rfl⟩ := List.mem_map.1 hx
        rfl
      have hTL : text L2 = plain L2 := text_of_unspaced fun x hx => hall x (by rw [hq]; simp [hx])
      have hlast : lastW [] pre = [] := by
        rw [hpre]
        by_cases hqn : q = []
        · rw [hqn, List.append_nil]
          exact hl
        · rw [lastW_append [] [] L q hqn]
          unfold lastW
          cases hg : q.getLast? with
          | none => rfl
          | some x => simpa using hall x (by rw [hq]; exact List.mem_append_left _ (List.mem_of_getLast? hg))
      rw [hlast, List.nil_append, or_self, hTL, ← h2] at h3
      exact h3
    subst hr'
    have hF : ∀ (n : Nat) (s : Str), (pReactionField (n + 1)).parse true s = match (pExpression (n + 1)).parse true s with
        | none => none
        | some (t, r) => some (t ++ [.str (r.takeWhile (· != '\n'))], r.dropWhile (· != '\n')) := fun n s => rfl
    have hsame : parseString (pReactionField ((text L ++ free).length + 1)) (text L ++ free) = .ok (f.toks ++ [.str (freeLine free)]) := by
      unfold parseString
      have htab : '\t' ∉ text L ++ free := by
        simp only [List.mem_append, not_or]
        exact ⟨text_no_tab hL (by rw [hp]; exact factorText_no_tab f hf), ht⟩
      rw [expandTabs_id _ _ htab, hF, e2]
      rfl
    rw [reactionFieldText_of hsame, reactionFieldText_of hC]

/-! ### lines -/

/-- the lines of a code are cut next to parentheses and commas -/
def CutAtPunct : List Str → Prop
  | [] => False
  | [a] => a ≠ []
  | a :: b :: r => (∃ c d, a.getLast? = some c ∧ b.head? = some d ∧ (isPunct c = true ∨ isPunct d = true)) ∧ CutAtPunct (b :: r)

/-- the text of a code written on several lines, with the blanks between the lines -/
def spacedLines : List Str → Spaced
  | [] => []
  | [a] => unspaced a
  | a :: b :: r => unspaced a.dropLast ++ (a.getLast?.map fun c => (c, [' '])).toList ++ spacedLines (b :: r)

theorem spacedLines_spec : ∀ ls : List Str, CutAtPunct ls → plain (spacedLines ls) = ls.flatten ∧ text (spacedLines ls) = joinWith [' '] ls ∧
    ok (spacedLines ls) ∧ lastW [] (spacedLines ls) = [] ∧ (plain (spacedLines ls)).head? = (ls.head?.bind List.head?) ∧ spacedLines ls ≠ []
  | [], h => absurd h (by simp [CutAtPunct])
  | [a], h => by
    have hl : lastW [] (unspaced a) = [] := by
      unfold lastW
      cases hg : (unspaced a).getLast? with
      | none => rfl
      | some x =>
        obtain ⟨c, _, rfl⟩ := List.mem_map.1 (List.mem_of_getLast? hg)
        rfl
    refine ⟨by simp [spacedLines, plain_unspaced], by simp [spacedLines, text_unspaced, joinWith], ok_unspaced a, hl, by simp [spacedLines, plain_unspaced], ?_⟩
    have h : a ≠ [] := h
    simpa [spacedLines, unspaced] using h
  | a :: b :: r, h => by
    obtain ⟨⟨c, d, hc, hd, hcd⟩, hr⟩ := h
    obtain ⟨e1, e2, e3, e4, e5, e6⟩ := spacedLines_spec (b :: r) hr
    have ha : a = a.dropLast ++ [c] := by
      have hne : a ≠ [] := by
        intro e
        rw [e] at hc
        simp at hc
      have := List.dropLast_append_getLast hne
      rw [List.getLast?_eq_getLast_of_ne_nil hne] at hc
      rw [Option.some.inj hc] at this
      exact this.symm
    have hs : spacedLines (a :: b :: r) = unspaced a.dropLast ++ ((c, [' ']) :: spacedLines (b :: r)) := by
      show unspaced a.dropLast ++ (a.getLast?.map fun c => (c, [' '])).toList ++ spacedLines (b :: r) = _
      rw [hc]
      simp
    obtain ⟨y, M, hM⟩ : ∃ y M, spacedLines (b :: r) = y :: M := by
      cases hM : spacedLines (b :: r) with
      | nil => exact absurd hM e6
      | cons y M => exact ⟨y, M, rfl⟩
    have hy : y.1 = d := by
      rw [hM] at e5
      simpa [hd] using e5
    have hmid : ok ((c, [' ']) :: spacedLines (b :: r)) := by
      rw [hM] at e3 ⊢
      refine ⟨by simp, Or.inr ?_, e3⟩
      rw [hy]
      exact hcd
    rw [hs]
    refine ⟨?_, ?_, ?_, ?_, ?_, by simp⟩
    · rw [plain_append, plain_unspaced, plain_cons, e1]
      conv_rhs => rw [List.flatten_cons, ha]
      simp
    · rw [text_append, text_unspaced, text_cons, e2]
      conv_rhs => rw [joinWith, ha]
      simp
    · generalize a.dropLast = u
      induction u with
      | nil => exact hmid
      | cons x u ih =>
        cases u with
        | nil => exact ⟨by simp, Or.inl rfl, ih⟩
        | cons z u => exact ⟨by simp, Or.inl rfl, ih⟩
    · rw [lastW_append [] [] _ _ (by simp), lastW_cons, hM, lastW_ne [' '] [] _ (by simp), ← hM]
      exact e4
    · rw [plain_append, plain_unspaced, plain_cons]
      conv_rhs => rw [List.head?_cons, Option.bind_some, ha]
      cases a.dropLast <;> simp

theorem joinWith_blank_append (a b : List Str) (ha : a ≠ []) (hb : b ≠ []) : joinWith [' '] (a ++ b) = joinWith [' '] a ++ ' ' :: joinWith [' '] b := by
  induction a with
  | nil => exact absurd rfl ha
  | cons x a ih =>
    cases a with
    | nil =>
      cases b with
      | nil => exact absurd rfl hb
      | cons y b => simp [joinWith]
    | cons z a =>
      have := ih (by simp)
      simp only [List.cons_append, joinWith] at this ⊢
      rw [this]
      simp

theorem joinWith_last (a : List Str) (b fr : Str) (ms : List Str) :
    joinWith [' '] (a ++ (b ++ fr) :: ms) = joinWith [' '] (a ++ [b]) ++ joinWith [' '] (fr :: ms) := by
  have h1 : joinWith [' '] ((b ++ fr) :: ms) = b ++ joinWith [' '] (fr :: ms) := by
    cases ms with
    | nil => rfl
    | cons m ms => simp [joinWith]
  cases a with
  | nil =>
    rw [List.nil_append, List.nil_append, h1]
    rfl
  | cons x a =>
    rw [joinWith_blank_append _ _ (by simp) (by simp), joinWith_blank_append _ _ (by simp) (by simp), h1]
    simp [joinWith]

/-- C102: in a REACTION field, the code may be written on any number of lines, cut next to parentheses and commas: with free text
behind it, on the last of these lines and on any lines after it, the field is read exactly as if the code stood on one line. -/
theorem C102_lines (D : TextDicts) (p : Char) (f : FactorText) (hf : f.wf) (ls : List Str) (l last free one : Str) (ms : List Str)
    (hcut : CutAtPunct (ls.map strip ++ [last])) (hcode : (ls.map strip ++ [last]).flatten = f.text) (hlast : strip l = last ++ free)
    (hone : strip one = f.text ++ free) (ht : '\t' ∉ joinWith [' '] (free :: ms.map strip))
    (hop : NoOp ['+', '-', '*', '/', '='] (joinWith [' '] (free :: ms.map strip))) :
    reactionOf (x4Parsers D) (p, ls ++ l :: ms) = reactionOf (x4Parsers D) (p, one :: ms) := by
  have e1 : subStr (ls ++ l :: ms) = joinWith [' '] (ls.map strip ++ [last]) ++ joinWith [' '] (free :: ms.map strip) := by
    unfold subStr
    rw [List.map_append, List.map_cons, hlast, joinWith_last]
  have e2 : subStr (one :: ms) = f.text ++ joinWith [' '] (free :: ms.map strip) := by
    unfold subStr
    rw [List.map_cons, hone]
    exact joinWith_last [] f.text free (ms.map strip)
  obtain ⟨h1, h2, h3, h4, -, -⟩ := spacedLines_spec _ hcut
  have h := C102_code D.names f hf _ ht hop _ h3 (h1.trans hcode) h4
  rw [h2, ← e1, ← e2] at h
  have h' : (x4Parsers D).reaction (subStr (ls ++ l :: ms)) = (x4Parsers D).reaction (subStr (one :: ms)) := h
  unfold reactionOf
  simp only [h']

/-- C102: in a MONITOR field, where the first two lines of a code are put together without and further lines with a blank: a code with
blanks inside, next to parentheses and commas, gives the same monitor as without them. -/
theorem C102_monitor (names : Dict Str (List Str)) (m m' : MonEntry) (f : FactorText) (hf : f.wf) (free : Str) (ht : '\t' ∉ free)
    (hop : NoOp ['+', '-', '*', '/', '='] free) (L : Spaced) (hL : ok L) (hp : plain L = f.text) (hl : lastW [] L = [])
    (hm : m.text = text L ++ free) (hm' : m'.text = f.text ++ free) (hh : m.head = m'.head) :
    m.read (reactionFieldText names) = m'.read (reactionFieldText names) := by
  unfold MonEntry.read
  rw [hm, hm', hh, C102_code names f hf free ht hop L hL hp hl]

/-- the code of the first monitor is written on three or more lines, cut next to parentheses and commas (the first two lines in any
place), the other one is written with the code up to its end on the first two lines -/
def ContinuedLike (m m' : MonEntry) : Prop :=
  ∃ (f : FactorText) (ls : List Str) (l last free : Str), f.wf ∧ m.head = m'.head ∧ m.more = ls ++ l :: m'.more ∧
    CutAtPunct (('(' :: m.rest) :: (ls.map strip ++ [last])) ∧ (('(' :: m.rest) :: (ls.map strip ++ [last])).flatten = f.text ∧
    strip l = last ++ free ∧ '(' :: m'.rest = f.text ++ free ∧
    '\t' ∉ free ++ m'.free ∧ NoOp ['+', '-', '*', '/', '='] (free ++ m'.free)

theorem joinWith_blank_flatMap (a : Str) (b : List Str) : joinWith [' '] (a :: b) = a ++ b.flatMap (fun l => ' ' :: l) := by
  induction b generalizing a with
  | nil => simp [joinWith]
  | cons x b ih => rw [joinWith, ih]; simp

theorem ContinuedLike.read {m m' : MonEntry} (h : ContinuedLike m m') (names : Dict Str (List Str)) :
    m.read (reactionFieldText names) = m'.read (reactionFieldText names) := by
  obtain ⟨f, ls, l, last, free, hf, h1, h2, h3, h4, h5, h6, h7, h8⟩ := h
  obtain ⟨s1, s2, s3, s4, -, -⟩ := spacedLines_spec _ h3
  refine C102_monitor names m m' f hf _ h7 h8 _ s3 (s1.trans h4) s4 ?_ ?_ h1
  · rw [s2, joinWith_blank_flatMap]
    unfold MonEntry.text MonEntry.free
    rw [h2]
    simp [List.flatMap_append, List.flatMap_map, h5]
  · unfold MonEntry.text
    rw [← List.cons_append, h6, List.append_assoc]

/-- C98: codes that are continued on a third and further lines, cut next to parentheses and commas, are read like codes that end on the
first or second line. -/
theorem C98_continued (D : TextDicts) (p : Char) (intro : List Str) (hi : IntroWf intro) (es es' : List MonEntry)
    (h : ∀ m ∈ es, m.wf) (h' : ∀ m ∈ es', m.wf) (hs : List.Forall₂ (fun m m' => m = m' ∨ ContinuedLike m m') es es') :
    monitorsOf (x4Parsers D) (p, intro ++ es.flatMap MonEntry.lines) = monitorsOf (x4Parsers D) (p, intro ++ es'.flatMap MonEntry.lines) := by
  rw [C98_pointer _ p intro hi es h, C98_pointer _ p intro hi es' h']
  congr 1
  clear h h'
  induction hs with
  | nil => rfl
  | cons hx ht ih =>
    have : MonEntry.read (x4Parsers D).reaction _ = MonEntry.read (x4Parsers D).reaction _ :=
      hx.elim (fun e => congrArg _ e) (fun c => c.read D.names)
    simp only [mapE, this, ih]

/-- a dictionary of no particles, as in the examples below -/
def noDicts : TextDicts := ⟨[], [], []⟩

/-- the words of the quantity of a single reaction that was read -/
def readQuantity : Except PyErr (Measurement × Str) → Option (List Str)
  | .ok (.rx r, _) => some (quantTexts r.quantity)
  | _ => none

set_option maxRecDepth 20000 in
/-- C102 does not extend to cuts within words: a blank there makes two words of a word of the quantity, and makes the reading fail in
a mass number. -/
theorem C102_word_refuted : (∃ a b : Str, readQuantity (reactionFieldText [] (a ++ b)) = some [chars!"SIG"] ∧
      readQuantity (reactionFieldText [] (a ++ ' ' :: b)) = some [chars!"SI", ['G']]) ∧
    ∃ a b : Str, (readQuantity (reactionFieldText [] (a ++ b))).isSome = true ∧
      (reactionFieldText [] (a ++ ' ' :: b)).toOption.isNone = true :=
  ⟨⟨chars!"(95-AM-241(N,G)95-AM-242-M,,SI", chars!"G)", by decide +kernel, by decide +kernel⟩,
    chars!"(95-AM-2", chars!"41(N,G)95-AM-242-M,,SIG)", by decide +kernel, by decide +kernel⟩

set_option maxRecDepth 20000 in
/-- C102_lines applies: a code on three lines, with free text. -/
example : reactionOf (x4Parsers noDicts) (' ', [chars!"(95-AM-241(N,  ", chars!"  G)95-AM-242-M", chars!",,SIG) free", chars!"text"]) =
    reactionOf (x4Parsers noDicts) (' ', [chars!"(95-AM-241(N,G)95-AM-242-M,,SIG) free", chars!"text"]) :=
  C102_lines noDicts ' ' (.rx exampleReaction) (by rw [FactorText.wf]; exact exampleReaction_wf) [chars!"(95-AM-241(N,  ", chars!"  G)95-AM-242-M"]
    chars!",,SIG) free" chars!",,SIG)" chars!" free" _ [chars!"text"]
    ⟨⟨',', 'G', by decide +kernel, by decide +kernel, by decide⟩, ⟨'M', ',', by decide +kernel, by decide +kernel, by decide⟩, by simp [CutAtPunct]⟩
    (by decide +kernel) (by decide +kernel) (by decide +kernel) (by decide +kernel) (by unfold NoOp; decide +kernel)

set_option maxRecDepth 20000 in
/-- … and the code is read. -/
example : (reactionOf (x4Parsers noDicts) (' ', [chars!"(95-AM-241(N,  ", chars!"  G)95-AM-242-M", chars!",,SIG) free", chars!"text"])).toOption.isSome = true := by
  decide +kernel

/-- a monitor whose code stands on three lines -/
def threeLines : MonEntry where
  head := some []
  rest := chars!"95-AM-241(N,G)95-AM-242-M,"
  cut := some 15
  more := [chars!"   ,SIG) text"]

theorem threeLines_wf : threeLines.wf where
  head := by decide
  code := by
    show (threeLines.first.take 15).take 2 = ['(', '('] ∧ ¬ balanced (threeLines.first.take 15)
    unfold balanced
    decide +kernel
  more := by unfold opensParen; decide +kernel
  once := by
    show hasSub chars!"((MONIT" ([] ++ ')' :: (threeLines.rest ++ threeLines.free)) = false
    decide +kernel

/-- C102_monitor applies. -/
example : threeLines.lines = [chars!"((MONIT)95-AM-2", chars!"41(N,G)95-AM-242-M,", chars!"   ,SIG) text"] ∧
    threeLines.read (reactionFieldText []) =
      MonEntry.read (reactionFieldText []) ⟨some [], chars!"95-AM-241(N,G)95-AM-242-M,,SIG) text", none, []⟩ :=
  ⟨by decide +kernel, C102_monitor [] _ _ (.rx exampleReaction) (by rw [FactorText.wf]; exact exampleReaction_wf) chars!" text" (by decide)
    (by unfold NoOp; decide +kernel) (spacedLines [chars!"(95-AM-241(N,G)95-AM-242-M,", chars!",SIG)"])
    (spacedLines_spec [chars!"(95-AM-241(N,G)95-AM-242-M,", chars!",SIG)"] ⟨⟨',', ',', by decide +kernel, by decide +kernel, by decide⟩, by simp [CutAtPunct]⟩).2.2.1
    (by decide +kernel) (by decide +kernel) (by decide +kernel) (by decide +kernel) (by decide +kernel)⟩

/-- the same monitor with its code on two lines -/
def twoLines : MonEntry := ⟨some [], chars!"95-AM-241(N,G)95-AM-242-M,,SIG) text", some 15, []⟩

/-- C98_continued applies. -/
example (D : TextDicts) : monitorsOf (x4Parsers D) (' ', [chars!"((MONIT)95-AM-2", chars!"41(N,G)95-AM-242-M,", chars!"   ,SIG) text"]) =
    monitorsOf (x4Parsers D) (' ', [chars!"((MONIT)95-AM-2", chars!"41(N,G)95-AM-242-M,,SIG) text"]) := by
  have h2 : twoLines.wf :=
    { head := by decide
      code := by
        show (twoLines.first.take 15).take 2 = ['(', '('] ∧ ¬ balanced (twoLines.first.take 15)
        unfold balanced
        decide +kernel
      more := by unfold opensParen; decide
      once := by
        show hasSub chars!"((MONIT" ([] ++ ')' :: (twoLines.rest ++ twoLines.free)) = false
        decide +kernel }
  have := C98_continued D ' ' [] ⟨by simp, by decide⟩ [threeLines] [twoLines] (by simpa using threeLines_wf) (by simpa using h2)
    (.cons (.inr ⟨.rx exampleReaction, [], chars!"   ,SIG) text", chars!",SIG)", chars!" text", by rw [FactorText.wf]; exact exampleReaction_wf, rfl, rfl,
      ⟨⟨',', ',', by decide +kernel, by decide +kernel, by decide⟩, by simp [CutAtPunct]⟩, by decide +kernel, by decide +kernel, by decide +kernel,
      by decide +kernel, by unfold NoOp; decide +kernel⟩) .nil)
  exact this

set_option maxRecDepth 20000 in
/-- C102_blanks applies to texts that are no codes as well. -/
example : SameReading (reactionFieldText [] chars!"(A(N,X)),)(") (reactionFieldText [] chars!"( A (N,   X ) ) , )(") :=
  C102_blanks [] [('(', [' ']), ('A', [' ']), ('(', []), ('N', []), (',', chars!"   "), ('X', [' ']), (')', [' ']), (')', [' ']), (',', [' ']), (')', []), ('(', [])]
    (by simp [Spaced.ok, isPunct]) (by decide)

end X4
