import Verif.Spec.Manager
import Verif.Lemmas.Dict
import Verif.Lemmas.Sort
import Verif.Lemmas.Case
import Verif.Lemmas.DataSection
import Verif.Props.Utilities
/-! Lemmas about conditions and the grouping of subentries. -/
namespace X4

/-! ### grouping -/

theorem strLe_take (a b : Str) (h : strLe a b = true) (n : Nat) : strLe (a.take n) (b.take n) = true := by
  induction a generalizing b n with
  | nil => cases n <;> simp [strLe]
  | cons x a ih =>
    cases n with
    | zero => simp [strLe]
    | succ n =>
      cases b with
      | nil => simp [strLe] at h
      | cons y b =>
        simp only [List.take_succ_cons]
        rw [strLe] at h ⊢
        split
        · rfl
        · rename_i h1
          rw [if_neg h1] at h
          split
          · rename_i h2
            rw [if_pos h2] at h
            exact h
          · rename_i h2
            rw [if_neg h2] at h
            exact ih b h n

/-- what the loop has built after the subentries `P` -/
structure GroupInv (P : List Str) (m : Dict Str (List Str)) : Prop where
  keys : ∀ k, k ∈ m.keys ↔ ∃ r ∈ P, r.take 5 = k
  increasing : m.keys.Pairwise StrLt
  lists : ∀ k l, m.get? k = some l → l = (k ++ ['0', '0', '1']) :: P.filter (fun r => decide (r.take 5 = k ∧ r ≠ k ++ ['0', '0', '1']))

theorem groupStep_inv {P : List Str} {m : Dict Str (List Str)} (h : GroupInv P m) (r : Str) (hr : r ∉ P) (hle : ∀ x ∈ P, strLe x r = true) :
    GroupInv (P ++ [r]) (groupStep m r) := by
  have hslice : slice r 0 5 = r.take 5 := by simp [slice]
  have h001 : "001".toList = ['0', '0', '1'] := rfl
  -- the dictionary with the key present
  have key : ∀ m' : Dict Str (List Str), (∀ k, k ∈ m'.keys ↔ k ∈ m.keys ∨ k = r.take 5) → m'.keys.Pairwise StrLt →
      (∀ k l, m'.get? k = some l → l = (k ++ ['0', '0', '1']) :: P.filter (fun x => decide (x.take 5 = k ∧ x ≠ k ++ ['0', '0', '1']))) →
      GroupInv (P ++ [r]) (match m'.get? (r.take 5) with
        | none => m'
        | some l => if r ∈ l then m' else m'.set (r.take 5) (l ++ [r])) := by
    intro m' hk hp hl
    have hmem : r.take 5 ∈ m'.keys := (hk _).2 (.inr rfl)
    have hkeys : ∀ k, k ∈ m'.keys ↔ ∃ x ∈ P ++ [r], x.take 5 = k := by
      intro k
      rw [hk, h.keys]
      constructor
      · rintro (⟨x, hx, e⟩ | rfl)
        · exact ⟨x, by simp [hx], e⟩
        · exact ⟨r, by simp, rfl⟩
      · rintro ⟨x, hx, e⟩
        rcases List.mem_append.1 hx with hx | hx
        · exact .inl ⟨x, hx, e⟩
        · rw [List.mem_singleton.1 hx] at e
          exact .inr e.symm
    obtain ⟨l, hget⟩ := Option.isSome_iff_exists.1 ((Dict.mem_keys_iff m' _).1 hmem)
    rw [hget]
    have hlr := hl _ _ hget
    have hrl : r ∈ l ↔ r = r.take 5 ++ ['0', '0', '1'] := by
      rw [hlr]
      simp [hr]
    by_cases hin : r ∈ l
    · simp only [hin, if_true]
      refine ⟨hkeys, hp, ?_⟩
      intro k l' hk'
      rw [hl k l' hk', List.filter_append]
      have : List.filter (fun x => decide (x.take 5 = k ∧ x ≠ k ++ ['0', '0', '1'])) [r] = [] := by
        have e := hrl.1 hin
        simp only [List.filter_cons, List.filter_nil]
        rw [if_neg]
        simp only [decide_eq_true_eq, not_and, not_not]
        intro e2
        rw [← e2]
        exact e
      rw [this, List.append_nil]
    · simp only [hin, if_false]
      have hks : (m'.set (r.take 5) (l ++ [r])).keys = m'.keys := by
        rw [Dict.keys_set, if_pos hmem]
      refine ⟨?_, ?_, ?_⟩
      · intro k; rw [hks]; exact hkeys k
      · rw [hks]; exact hp
      · intro k l' hk'
        rw [Dict.get?_set] at hk'
        rw [List.filter_append]
        by_cases hkk : k = r.take 5
        · rw [if_pos hkk] at hk'
          obtain rfl := Option.some.inj hk'
          subst hkk
          have : List.filter (fun x => decide (x.take 5 = r.take 5 ∧ x ≠ r.take 5 ++ ['0', '0', '1'])) [r] = [r] := by
            simp only [List.filter_cons, List.filter_nil]
            rw [if_pos]
            simp only [decide_eq_true_eq, true_and]
            exact fun e => hin (hrl.2 e)
          rw [this]
          conv_lhs => rw [hlr]
          rfl
        · rw [if_neg hkk] at hk'
          have : List.filter (fun x => decide (x.take 5 = k ∧ x ≠ k ++ ['0', '0', '1'])) [r] = [] := by
            simp only [List.filter_cons, List.filter_nil]
            rw [if_neg]
            simp only [decide_eq_true_eq, not_and]
            exact fun e => absurd e.symm hkk
          rw [this, List.append_nil]
          exact hl k l' hk'
  unfold groupStep
  simp only [hslice, h001]
  by_cases hm : r.take 5 ∈ m.keys
  · have hhas : m.has (r.take 5) = true := by rw [Dict.has, ← Dict.mem_keys_iff]; exact hm
    rw [if_pos hhas]
    exact key m (fun k => ⟨.inl, fun hk => hk.elim id (fun e => e ▸ hm)⟩) h.increasing h.lists
  · have hhas : ¬ m.has (r.take 5) = true := by rw [Dict.has, ← Dict.mem_keys_iff]; exact hm
    rw [if_neg hhas]
    have hks : (m.set (r.take 5) [r.take 5 ++ ['0', '0', '1']]).keys = m.keys ++ [r.take 5] := by
      rw [Dict.keys_set, if_neg hm]
    refine key _ ?_ ?_ ?_
    · intro k; rw [hks]; simp
    · rw [hks, List.pairwise_append]
      refine ⟨h.increasing, by simp, ?_⟩
      intro a ha b hb
      rw [List.mem_singleton] at hb
      subst hb
      refine ⟨?_, fun e => hm (e ▸ ha)⟩
      obtain ⟨x, hx, e⟩ := (h.keys a).1 ha
      rw [← e]
      exact strLe_take _ _ (hle x hx) 5
    · intro k l hk
      rw [Dict.get?_set] at hk
      by_cases hkk : k = r.take 5
      · rw [if_pos hkk] at hk
        obtain rfl := Option.some.inj hk
        subst hkk
        have : P.filter (fun x => decide (x.take 5 = r.take 5 ∧ x ≠ r.take 5 ++ ['0', '0', '1'])) = [] := by
          rw [List.filter_eq_nil_iff]
          intro x hx
          simp only [decide_eq_true_eq, not_and]
          intro e
          exact absurd ((h.keys _).2 ⟨x, hx, e⟩) hm
        rw [this]
      · rw [if_neg hkk] at hk
        exact h.lists k l hk

theorem foldl_group {L P : List Str} {m : Dict Str (List Str)} (h : GroupInv P m) (hs : (P ++ L).Pairwise StrLt) :
    GroupInv (P ++ L) (L.foldl groupStep m) := by
  induction L generalizing P m with
  | nil => simpa using h
  | cons r L ih =>
    rw [List.foldl_cons]
    have hP : ∀ x ∈ P, StrLt x r := by
      intro x hx
      exact (List.pairwise_append.1 hs).2.2 x hx r (by simp)
    have := groupStep_inv h r (fun hr => (hP r hr).2 rfl) (fun x hx => (hP x hx).1)
    have e : P ++ r :: L = (P ++ [r]) ++ L := by simp
    rw [e] at hs ⊢
    exact ih this hs

theorem sorted_unique_lt (l : List Str) : (sortBy strLe (unique l)).Pairwise StrLt := by
  have h1 := sortBy_sorted (le := strLe) strLe_total strLe_trans (unique l)
  have h2 : (sortBy strLe (unique l)).Nodup := (sortBy_perm strLe (unique l)).nodup_iff.2 (C60_nodup l)
  exact (List.Pairwise.and h1 h2).imp (fun h => ⟨h.1, h.2⟩)

theorem groupSubents_grouped (found : List Str) : Grouped (· ∈ found) (groupSubents found) := by
  have hlt := sorted_unique_lt found
  have h : GroupInv (sortBy strLe (unique found)) (groupSubents found) := by
    have := foldl_group (L := sortBy strLe (unique found)) (P := []) (m := []) ⟨by simp [Dict.keys], by simp [Dict.keys], by simp [Dict.get?]⟩ (by simpa using hlt)
    simpa [groupSubents] using this
  have hmem : ∀ r, r ∈ sortBy strLe (unique found) ↔ r ∈ found := fun r => by rw [mem_sortBy, C60_mem]
  have hnd : (groupSubents found).keys.Nodup := h.increasing.imp (fun h => h.2)
  refine ⟨?_, h.increasing, ?_⟩
  · intro k
    rw [h.keys]
    simp only [hmem]
  · intro k l hkl
    have := h.lists k l (Dict.get?_eq_some_of_mem hnd hkl)
    refine ⟨_, this, hlt.filter _, ?_⟩
    intro r
    simp only [List.mem_filter, hmem, decide_eq_true_eq]

/-! ### conditions -/

theorem lex_ident (s cs rest : Str) (h : ∀ c ∈ cs, isIdChar c = true) :
    lexSql (.ident s) (cs ++ ' ' :: rest) = (lexSql .base rest).map (SqlTok.ident (s ++ cs) :: ·) := by
  induction cs generalizing s with
  | nil =>
    have h1 : lexStep (.ident s) ' ' = some ([.ident s], .base) := by
      simp [lexStep, isIdChar, isIdStart, isDig, lexAfter, lexStart, isSqlSpace]
    simp only [List.nil_append, lexSql, h1]
    cases lexSql .base rest <;> simp
  | cons c cs ih =>
    have h1 : lexStep (.ident s) c = some ([], .ident (s ++ [c])) := by
      simp [lexStep, h c (by simp)]
    simp only [List.cons_append, lexSql, h1]
    rw [ih (s ++ [c]) (fun x hx => h x (by simp [hx]))]
    cases lexSql .base rest <;> simp

theorem lex_str (s txt rest : Str) (h : PlainText txt) :
    lexSql (.str s) (txt ++ '\'' :: ' ' :: rest) = (lexSql .base rest).map (SqlTok.lit (s ++ txt) :: ·) := by
  induction txt generalizing s with
  | nil =>
    have h1 : lexStep (.str s) '\'' = some ([], .quote s) := by simp [lexStep]
    have h2 : lexStep (.quote s) ' ' = some ([.lit s], .base) := by
      simp [lexStep, lexAfter, lexStart, isSqlSpace]
    simp only [List.nil_append, lexSql, h1, h2]
    cases lexSql .base rest <;> simp
  | cons c txt ih =>
    have hc : c ≠ '\'' := fun e => h.1 (by simp [e])
    have hn : c.toNat ≠ 0 := fun e => h.2 (by
      have : c = Char.ofNat 0 := char_ext_toNat (by rw [e]; rfl)
      simp [this])
    have h1 : lexStep (.str s) c = some ([], .str (s ++ [c])) := by simp [lexStep, hc, hn]
    simp only [List.cons_append, lexSql, h1]
    rw [ih (s ++ [c]) ⟨fun hx => h.1 (by simp [hx]), fun hx => h.2 (by simp [hx])⟩]
    cases lexSql .base rest <;> simp

/-- a criterion: column name, `=` or `LIKE`, text -/
structure Crit where
  name : Str
  like : Bool
  text : Str

def Crit.render (x : Crit) : Str := if x.like then likeCriterion x.name x.text else eqCriterion x.name x.text
def Crit.toks (x : Crit) : List SqlTok := [.ident x.name, if x.like then .ident "LIKE".toList else .eq, .lit x.text]

def Crit.ok (x : Crit) : Prop := x.name ≠ [] ∧ (∀ c ∈ x.name, isIdStart c = true) ∧ PlainText x.text

theorem isIdStart_ne {c : Char} (h : isIdStart c = true) : isSqlSpace c = false ∧ c ≠ '\'' ∧ c ≠ '=' := by
  refine ⟨?_, ?_, ?_⟩
  · cases hs : isSqlSpace c with
    | false => rfl
    | true =>
      simp only [isSqlSpace, Bool.or_eq_true, beq_iff_eq] at hs
      rcases hs with (((rfl | rfl) | rfl) | rfl) | rfl <;> revert h <;> decide
  · rintro rfl; revert h; decide
  · rintro rfl; revert h; decide

theorem lex_name {name : Str} (hne : name ≠ []) (h : ∀ c ∈ name, isIdStart c = true) (rest : Str) :
    lexSql .base (name ++ ' ' :: rest) = (lexSql .base rest).map (SqlTok.ident name :: ·) := by
  cases name with
  | nil => exact absurd rfl hne
  | cons c cs =>
    have hc := h c (by simp)
    obtain ⟨a1, a2, a3⟩ := isIdStart_ne hc
    have h1 : lexStep .base c = some ([], .ident [c]) := by
      simp [lexStep, lexStart, a1, a2, a3, hc]
    simp only [List.cons_append, lexSql, h1]
    rw [lex_ident [c] cs rest (fun x hx => by simp [isIdChar, h x (by simp [hx])])]
    cases lexSql .base rest <;> simp

theorem lex_space (rest : Str) : lexSql .base (' ' :: rest) = lexSql .base rest := by
  have h1 : lexStep .base ' ' = some ([], .base) := by simp [lexStep, lexStart, isSqlSpace]
  simp only [lexSql, h1]
  cases lexSql .base rest <;> simp

theorem lex_quote (rest : Str) : lexSql .base ('\'' :: rest) = lexSql (.str []) rest := by
  have h1 : lexStep .base '\'' = some ([], .str []) := by simp [lexStep, lexStart, isSqlSpace]
  simp only [lexSql, h1]
  cases lexSql (.str []) rest <;> simp

theorem lex_eq (rest : Str) : lexSql .base ('=' :: rest) = (lexSql .base rest).map (SqlTok.eq :: ·) := by
  have h1 : lexStep .base '=' = some ([.eq], .base) := by simp [lexStep, lexStart, isSqlSpace]
  simp only [lexSql, h1]
  cases lexSql .base rest <;> simp

theorem lex_crit (x : Crit) (h : x.ok) (rest : Str) :
    lexSql .base (x.render ++ rest) = (lexSql .base rest).map (x.toks ++ ·) := by
  obtain ⟨hne, hid, ht⟩ := h
  cases x with
  | mk name like text =>
  simp only at hne hid ht
  cases like with
  | false =>
    have e : (Crit.mk name false text).render ++ rest = name ++ ' ' :: '=' :: ' ' :: '\'' :: (text ++ '\'' :: ' ' :: rest) := by
      simp [Crit.render, eqCriterion]
    rw [e, lex_name hne hid, lex_eq, lex_space, lex_quote, lex_str [] text rest ht]
    cases lexSql .base rest <;> simp [Crit.toks]
  | true =>
    have e : (Crit.mk name true text).render ++ rest = name ++ ' ' :: ("LIKE".toList ++ ' ' :: '\'' :: (text ++ '\'' :: ' ' :: rest)) := by
      simp [Crit.render, likeCriterion]
    rw [e, lex_name hne hid, lex_name (by decide) (by decide), lex_quote, lex_str [] text rest ht]
    cases lexSql .base rest <;> simp [Crit.toks]

def critToks : List Crit → List SqlTok
  | [] => []
  | [x] => x.toks
  | x :: y :: r => x.toks ++ [.ident "and".toList] ++ critToks (y :: r)

theorem lex_crits (l : List Crit) (h : ∀ x ∈ l, x.ok) :
    lexSql .base (joinWith " and ".toList (l.map Crit.render)) = some (critToks l) := by
  match l, h with
  | [], _ => rfl
  | [x], h =>
    have := lex_crit x (h x (by simp)) []
    rw [List.append_nil] at this
    simp only [List.map_cons, List.map_nil, joinWith, this]
    simp [lexSql, lexEnd, critToks]
  | x :: y :: r, h =>
    have ih := lex_crits (y :: r) (fun z hz => h z (by simp only [List.mem_cons] at hz ⊢; exact .inr hz))
    have e : joinWith " and ".toList ((x :: y :: r).map Crit.render) =
        x.render ++ (' ' :: ("and".toList ++ ' ' :: joinWith " and ".toList ((y :: r).map Crit.render))) := by
      simp [joinWith]
    rw [e, lex_crit x (h x (by simp)), lex_space, lex_name (by decide) (by decide), ih]
    simp [critToks]

/-- the comparison of a criterion -/
def Crit.cmp (x : Crit) (col : SqlCol) : SqlCmp := if x.like then .like (.col col) (.lit x.text) else .eq (.col col) (.lit x.text)

theorem sqlCmp_crit (x : Crit) {col : SqlCol} (h : sqlCol x.name = some col) :
    sqlCmp (.ident x.name) (if x.like then .ident "LIKE".toList else .eq) (.lit x.text) = some (x.cmp col) := by
  cases x with
  | mk name like text =>
  simp only at h
  cases like with
  | false => simp [sqlCmp, sqlOperand, h, Crit.cmp]
  | true =>
    have : lower "LIKE".toList = "like".toList := by decide
    simp only [sqlCmp, sqlOperand, h, Option.map_some, if_true, this, Crit.cmp]

theorem parse_crits (l : List (Crit × SqlCol)) (hne : l ≠ []) (h : ∀ x ∈ l, sqlCol x.1.name = some x.2) :
    parseCond (critToks (l.map Prod.fst)) = some [l.map (fun x => x.1.cmp x.2)] := by
  match l, hne, h with
  | [x], _, h =>
    simp only [List.map_cons, List.map_nil, critToks, Crit.toks, parseCond, sqlCmp_crit x.1 (h x (by simp))]
  | x :: y :: r, _, h =>
    have ih := parse_crits (y :: r) (by simp) (fun z hz => h z (by simp only [List.mem_cons] at hz ⊢; exact .inr hz))
    have e : critToks ((x :: y :: r).map Prod.fst) =
        SqlTok.ident x.1.name :: (if x.1.like then .ident "LIKE".toList else .eq) :: SqlTok.lit x.1.text :: SqlTok.ident "and".toList ::
          critToks ((y :: r).map Prod.fst) := by
      simp [critToks, Crit.toks]
    have hand : lower "and".toList = "and".toList := by decide
    rw [e, parseCond, sqlCmp_crit x.1 (h x (by simp)), ih]
    simp only [List.map_cons, hand, if_true]

end X4
