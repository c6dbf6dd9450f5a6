import Verif.Model.EndlZ
import Verif.Model.Abundance
import Verif.Spec.Abundance
import Verif.Lemmas.Dict
import Mathlib.Algebra.Order.Field.Rat
import Mathlib.Tactic.Linarith
import Mathlib.Tactic.NormNum
import Mathlib.Tactic.Push
import Mathlib.Tactic.Ring
/-! Element symbols (C58) and natural abundances (C59). -/
namespace X4

/-! ### C58 -/

theorem zSymbolIn_iff {l : List (Int × Str × Str)} (h : (l.map Prod.fst).Nodup) (Z : Int) (s : Str) :
    zSymbolIn Z l = some s ↔ ∃ n, (Z, s, n) ∈ l := by
  induction l with
  | nil => simp [zSymbolIn]
  | cons i r ih =>
    obtain ⟨z, t, n⟩ := i
    rw [List.map_cons, List.nodup_cons] at h
    unfold zSymbolIn
    split_ifs with hz
    · simp only at hz
      subst hz
      constructor
      · intro he; exact ⟨n, by simp at he; simp [he]⟩
      · rintro ⟨m, hm⟩
        rcases List.mem_cons.1 hm with hm | hm
        · simp at hm; simp [hm.1]
        · exact absurd (List.mem_map_of_mem (f := Prod.fst) hm) h.1
    · rw [ih h.2]
      refine exists_congr fun m => ?_
      rw [List.mem_cons]
      refine ⟨.inr, fun hm => hm.resolve_left fun e => hz ?_⟩
      rw [Prod.mk.injEq] at e; exact e.1.symm

theorem symbolZIn_iff {l : List (Int × Str × Str)} (h : (l.map (fun i => i.2.1)).Nodup) (Z : Int) (s : Str) :
    symbolZIn s l = some Z ↔ ∃ n, (Z, s, n) ∈ l := by
  induction l with
  | nil => simp [symbolZIn]
  | cons i r ih =>
    obtain ⟨z, t, n⟩ := i
    rw [List.map_cons, List.nodup_cons] at h
    unfold symbolZIn
    split_ifs with hz
    · simp only at hz
      subst hz
      constructor
      · intro he; exact ⟨n, by simp at he; simp [he]⟩
      · rintro ⟨m, hm⟩
        rcases List.mem_cons.1 hm with hm | hm
        · simp at hm; simp [hm.1]
        · exact absurd (List.mem_map_of_mem (f := fun i => i.2.1) hm) h.1
    · rw [ih h.2]
      refine exists_congr fun m => ?_
      rw [List.mem_cons]
      refine ⟨.inr, fun hm => hm.resolve_left fun e => hz ?_⟩
      simp only [Prod.mk.injEq] at e; exact e.2.1.symm

theorem zs_eq : endlZLabels.map Prod.fst = (List.range 119).map Int.ofNat := by decide +kernel
theorem zs_nodup : (endlZLabels.map Prod.fst).Nodup := by decide +kernel
theorem syms_nodup : (endlZLabels.map (fun i => i.2.1)).Nodup := by decide +kernel

/-- C58: symbol and charge determine each other, for every integer and every string. -/
theorem C58_inverse (Z : Int) (s : Str) : endlZSymbol Z = some s ↔ endlSymbolZ s = some Z :=
  (zSymbolIn_iff zs_nodup Z s).trans (symbolZIn_iff syms_nodup Z s).symm

/-- C58: precisely the charges 0..118 have a symbol. -/
theorem C58_range (Z : Int) : (∃ s, endlZSymbol Z = some s) ↔ 0 ≤ Z ∧ Z ≤ 118 := by
  have h1 : (∃ s, endlZSymbol Z = some s) ↔ Z ∈ endlZLabels.map Prod.fst := by
    rw [List.mem_map]
    constructor
    · rintro ⟨s, hs⟩
      obtain ⟨n, hn⟩ := (zSymbolIn_iff zs_nodup Z s).1 hs
      exact ⟨_, hn, rfl⟩
    · rintro ⟨⟨z, s, n⟩, hm, rfl⟩
      exact ⟨s, (zSymbolIn_iff zs_nodup z s).2 ⟨n, hm⟩⟩
  rw [h1, zs_eq, List.mem_map]
  constructor
  · rintro ⟨n, hn, rfl⟩
    rw [List.mem_range] at hn
    exact ⟨Int.natCast_nonneg n, by simp; omega⟩
  · rintro ⟨h0, h1⟩
    exact ⟨Z.toNat, List.mem_range.2 (by omega), by simp [h0]⟩

/-- C58: other charges give `None`. -/
theorem C58_none (Z : Int) (h : Z < 0 ∨ 118 < Z) : endlZSymbol Z = none := by
  cases hs : endlZSymbol Z with
  | none => rfl
  | some s => have := (C58_range Z).1 ⟨s, hs⟩; omega

/-- C58: strings that are the symbol of no charge give `None`. -/
theorem C58_symbol_none (s : Str) (h : ∀ Z : Int, 0 ≤ Z → Z ≤ 118 → endlZSymbol Z ≠ some s) : endlSymbolZ s = none := by
  cases hs : endlSymbolZ s with
  | none => rfl
  | some Z =>
    have h1 := (C58_inverse Z s).2 hs
    have h2 := (C58_range Z).1 ⟨s, h1⟩
    exact absurd h1 (h Z h2.1 h2.2)

/-- C58: charges that have a symbol are the ones that have a name. -/
theorem C58_label (Z : Int) : (endlZLabel Z).isSome = (endlZSymbol Z).isSome := by
  unfold endlZLabel endlZSymbol
  induction endlZLabels with
  | nil => rfl
  | cons i r ih =>
    unfold zLabelIn zSymbolIn
    split_ifs
    · rfl
    · exact ih

example : endlZSymbol 92 = some "U".toList ∧ endlSymbolZ "U".toList = some 92 ∧ endlZLabel 92 = some "Uranium".toList ∧
    endlZSymbol 0 = some "n".toList ∧ endlSymbolZ "N".toList = some 7 ∧ endlSymbolZ "u".toList = none ∧ endlZSymbol (-1) = none := by
  decide +kernel

/-- Capitalising the symbol (as `X4Nucleus.__init__` does) is not one to one:
the neutron becomes nitrogen. -/
theorem C58_capitalized : (endlZSymbol 0).map capitalize = (endlZSymbol 7).map capitalize ∧
    (endlZSymbol 0).map capitalize = some "N".toList := by decide +kernel

/-! ### C59 -/

/-- the rational number denoted by a literal -/
def litRat : FloatLit → ℚ
  | .fin neg m e => (if neg then -1 else 1) * (m : ℚ) * (10 : ℚ) ^ e
  | _ => 0

/-- the lines of the table -/
def abundanceLines : List Str := (abundanceData.drop 5).dropLast

/-- a row of the table as the code reads it -/
def rowTuple (r : Int × Int × Nat × Nat) : (Int × Int) × (FloatLit × FloatLit) :=
  ((r.1, r.2.1), (.fin false r.2.2.1 (-6), .fin false r.2.2.2 (-6)))

/-- the tuples of the table -/
def abundanceTuples : List ((Int × Int) × (FloatLit × FloatLit)) := abundanceTable.map rowTuple

/-- C59: the lines of the text are read as the table. -/
theorem mapE_lines : mapE getAbundanceTuple abundanceLines = .ok abundanceTuples := by decide +kernel

/-- shape of a tuple: `mant·10⁻⁶` with `0 < mant ≤ 10⁸` -/
def goodTuple (t : (Int × Int) × (FloatLit × FloatLit)) : Bool :=
  match t.2.1 with
  | .fin false m e => e == -6 && (0 < m) && (m ≤ 100000000)
  | _ => false

/-- mantissa of the abundance -/
def mantOf (t : (Int × Int) × (FloatLit × FloatLit)) : Nat :=
  match t.2.1 with
  | .fin _ m _ => m
  | _ => 0

theorem tuples_good : abundanceTuples.all goodTuple = true := by decide +kernel

/-- strictly increasing -/
def incr : List Int → Bool
  | [] => true
  | x :: r => (match r with | [] => true | y :: _ => decide (x < y)) && incr r

theorem pairwise_of_incr {l : List Int} (h : incr l = true) : l.Pairwise (· < ·) := by
  induction l with
  | nil => exact List.Pairwise.nil
  | cons x r ih =>
    unfold incr at h
    rw [Bool.and_eq_true] at h
    have ihr := ih h.2
    refine List.Pairwise.cons ?_ ihr
    cases r with
    | nil => simp
    | cons y s =>
      have hxy : x < y := by simpa using h.1
      intro z hz
      rcases List.mem_cons.1 hz with rfl | hz
      · exact hxy
      · exact lt_trans hxy (List.rel_of_pairwise_cons ihr hz)

theorem tuples_incr : incr (abundanceTuples.map (fun t => 1000 * t.1.1 + t.1.2)) = true := by decide +kernel
theorem tuples_nodup : (abundanceTuples.map Prod.fst).Nodup := by
  have h := pairwise_of_incr tuples_incr
  have h2 : (abundanceTuples.map (fun t => 1000 * t.1.1 + t.1.2)) = (abundanceTuples.map Prod.fst).map (fun k => 1000 * k.1 + k.2) := by
    rw [List.map_map]; rfl
  rw [h2, List.pairwise_map] at h
  exact h.imp (fun hlt he => by rw [he] at hlt; exact lt_irrefl _ hlt)

/-- sum of the mantissas for one charge -/
def mantSum (z : Int) : Nat := ((abundanceTuples.filter (fun t => t.1.1 == z)).map mantOf).sum

theorem tuples_range : abundanceTuples.all (fun t => decide (0 ≤ t.1.1 ∧ t.1.1 < 93)) = true := by decide +kernel
theorem sums_check : (List.range 93).all (fun z => mantSum (z : Int) == 0 && !(abundanceTuples.any (fun t => t.1.1 == (z : Int)))
    || (decide (mantSum (z : Int) ≤ 100100000) && decide (99900000 ≤ mantSum (z : Int)))) = true := by decide +kernel

theorem tuples_sum (z : Int) (hz : z ∈ abundanceTuples.map (fun t => t.1.1)) :
    ((abundanceTuples.filter (fun t => t.1.1 == z)).map mantOf).sum ≤ 100100000 ∧
    99900000 ≤ ((abundanceTuples.filter (fun t => t.1.1 == z)).map mantOf).sum := by
  obtain ⟨t, ht, rfl⟩ := List.mem_map.1 hz
  have hr := List.all_eq_true.1 tuples_range t ht
  rw [decide_eq_true_eq] at hr
  have hs := List.all_eq_true.1 sums_check t.1.1.toNat (List.mem_range.2 (by omega))
  have hc : ((t.1.1.toNat : Nat) : Int) = t.1.1 := by omega
  rw [hc] at hs
  have hany : abundanceTuples.any (fun u => u.1.1 == t.1.1) = true := List.any_eq_true.2 ⟨t, ht, by simp⟩
  rw [hany] at hs
  rw [Bool.not_true, Bool.and_false, Bool.false_or, Bool.and_eq_true] at hs
  exact ⟨of_decide_eq_true hs.1, of_decide_eq_true hs.2⟩

theorem litRat_good {t : (Int × Int) × (FloatLit × FloatLit)} (h : goodTuple t = true) :
    litRat t.2.1 = (mantOf t : ℚ) / 1000000 ∧ 0 < mantOf t ∧ mantOf t ≤ 100000000 := by
  unfold goodTuple at h
  unfold mantOf litRat
  split at h
  · rename_i m e he
    rw [he]
    simp only [Bool.and_eq_true, beq_iff_eq, decide_eq_true_eq] at h
    refine ⟨?_, h.1.2, h.2⟩
    rw [h.1.1]; norm_num; ring
  · exact Bool.noConfusion h

theorem getAbundance_eq (Z A : Int) :
    getAbundance Z A = .ok ((Dict.get? abundanceTuples (Z, A)).getD (.fin false 0 (-1), .fin false 0 (-1))) := by
  unfold getAbundance abundances
  have h0 : mapE getAbundanceTuple ((abundanceData.drop 5).dropLast) = .ok abundanceTuples := mapE_lines
  rw [h0]
  change Except.ok ((Dict.get? (dictOf abundanceTuples) (Z, A)).getD _) = _
  rw [dictOf_nodup tuples_nodup]

/-- C59: every line `Z A symbol abundance uncertainty` of the table is found. -/
theorem C59_listed (line : Str) (h : line ∈ abundanceLines) :
    ∃ Z A ab dab, getAbundanceTuple line = .ok ((Z, A), (ab, dab)) ∧ getAbundance Z A = .ok (ab, dab) := by
  obtain ⟨t, ht, hm⟩ : ∃ t, getAbundanceTuple line = .ok t ∧ t ∈ abundanceTuples := by
    have : ∀ (ls : List Str) (ts), mapE getAbundanceTuple ls = .ok ts → ∀ line ∈ ls, ∃ t, getAbundanceTuple line = .ok t ∧ t ∈ ts := by
      intro ls
      induction ls with
      | nil => simp
      | cons l r ih =>
        intro ts hts line hl
        unfold mapE at hts
        cases h1 : getAbundanceTuple l with
        | error e => rw [h1] at hts; cases hts
        | ok t =>
          cases h2 : mapE getAbundanceTuple r with
          | error e => rw [h1, h2] at hts; cases hts
          | ok ts' =>
            rw [h1, h2] at hts
            cases hts
            rcases List.mem_cons.1 hl with rfl | hl
            · exact ⟨t, h1, by simp⟩
            · obtain ⟨t', h3, h4⟩ := ih ts' h2 line hl
              exact ⟨t', h3, by simp [h4]⟩
    exact this _ _ mapE_lines line h
  obtain ⟨⟨Z, A⟩, ab, dab⟩ := t
  refine ⟨Z, A, ab, dab, ht, ?_⟩
  rw [getAbundance_eq, Dict.get?_eq_some_of_mem (d := abundanceTuples) tuples_nodup hm]
  rfl

/-- C59: `getAbundance` never fails, and is (0,0) precisely when the abundance is
not in the table. -/
theorem C59_zero_iff (Z A : Int) : ∃ ab dab, getAbundance Z A = .ok (ab, dab) ∧
    ((litRat ab = 0 ∧ litRat dab = 0) ↔ ∀ line ∈ abundanceLines, ∀ v, getAbundanceTuple line ≠ .ok ((Z, A), v)) := by
  cases hg : Dict.get? abundanceTuples (Z, A) with
  | none =>
    refine ⟨_, _, by rw [getAbundance_eq, hg], ?_⟩
    refine iff_of_true ⟨by simp [litRat], by simp [litRat]⟩ ?_
    intro line hl v hv
    obtain ⟨Z', A', ab, dab, h1, h2⟩ := C59_listed line hl
    rw [h1] at hv
    have hm : ((Z, A), v) ∈ abundanceTuples := by
      have : ∀ (ls : List Str) (ts), mapE getAbundanceTuple ls = .ok ts → ∀ line ∈ ls, ∀ t, getAbundanceTuple line = .ok t → t ∈ ts := by
        intro ls
        induction ls with
        | nil => simp
        | cons l r ih =>
          intro ts hts line hl t ht
          unfold mapE at hts
          cases h1 : getAbundanceTuple l with
          | error e => rw [h1] at hts; cases hts
          | ok t' =>
            cases h2 : mapE getAbundanceTuple r with
            | error e => rw [h1, h2] at hts; cases hts
            | ok ts' =>
              rw [h1, h2] at hts
              cases hts
              rcases List.mem_cons.1 hl with rfl | hl
              · rw [h1] at ht; cases ht; simp
              · exact List.mem_cons_of_mem _ (ih ts' h2 line hl t ht)
      exact this _ _ mapE_lines line hl _ (h1.trans hv)
    have := Dict.get?_eq_some_of_mem (d := abundanceTuples) tuples_nodup hm
    rw [hg] at this; cases this
  | some v =>
    obtain ⟨ab, dab⟩ := v
    refine ⟨ab, dab, by rw [getAbundance_eq, hg]; rfl, ?_⟩
    have hm := Dict.mem_of_get? (d := abundanceTuples) hg
    have hgood := litRat_good (List.all_eq_true.1 tuples_good _ hm)
    refine iff_of_false ?_ ?_
    · rintro ⟨h0, -⟩
      have h1 := hgood.1
      simp only at h1
      rw [h0] at h1
      have : (mantOf ((Z, A), ab, dab) : ℚ) = 0 := by linarith
      have : mantOf ((Z, A), ab, dab) = 0 := by exact_mod_cast this
      omega
    · intro hall
      have : ∀ (ls : List Str) (ts), mapE getAbundanceTuple ls = .ok ts → ∀ t ∈ ts, ∃ line ∈ ls, getAbundanceTuple line = .ok t := by
        intro ls
        induction ls with
        | nil => intro ts hts; cases hts; simp
        | cons l r ih =>
          intro ts hts t ht
          unfold mapE at hts
          cases h1 : getAbundanceTuple l with
          | error e => rw [h1] at hts; cases hts
          | ok t' =>
            cases h2 : mapE getAbundanceTuple r with
            | error e => rw [h1, h2] at hts; cases hts
            | ok ts' =>
              rw [h1, h2] at hts
              cases hts
              rcases List.mem_cons.1 ht with rfl | ht
              · exact ⟨l, by simp, h1⟩
              · obtain ⟨line, hl, he⟩ := ih ts' h2 t ht
                exact ⟨line, by simp [hl], he⟩
      obtain ⟨line, hl, he⟩ := this _ _ mapE_lines _ hm
      exact hall line hl _ he

/-- C59: the abundance of an isotope is at most 100 percent, and positive if listed. -/
theorem C59_bounds (Z A : Int) : ∃ ab dab, getAbundance Z A = .ok (ab, dab) ∧ 0 ≤ litRat ab ∧ litRat ab ≤ 100 ∧
    ((Z, A) ∈ abundanceTuples.map Prod.fst → 0 < litRat ab) := by
  cases hg : Dict.get? abundanceTuples (Z, A) with
  | none =>
    refine ⟨_, _, by rw [getAbundance_eq, hg], by simp [litRat], by simp [litRat], fun h => ?_⟩
    exact absurd h ((Dict.get?_eq_none_iff (d := abundanceTuples)).1 hg)
  | some v =>
    obtain ⟨ab, dab⟩ := v
    have hm := Dict.mem_of_get? (d := abundanceTuples) hg
    obtain ⟨h1, h2, h3⟩ := litRat_good (List.all_eq_true.1 tuples_good _ hm)
    have h2' : (0 : ℚ) < (mantOf ((Z, A), ab, dab) : ℚ) := by exact_mod_cast h2
    have h3' : (mantOf ((Z, A), ab, dab) : ℚ) ≤ 100000000 := by exact_mod_cast h3
    simp only at h1
    refine ⟨ab, dab, by rw [getAbundance_eq, hg]; rfl, ?_, ?_, fun _ => ?_⟩ <;> rw [h1] <;> linarith

/-- the abundance as a rational number -/
def abundanceOf (Z A : Int) : ℚ :=
  match getAbundance Z A with
  | .ok v => litRat v.1
  | .error _ => 0

/-- the mass numbers listed for an element -/
def massNumbers (Z : Int) : List Int := (abundanceTuples.filter (fun t => t.1.1 == Z)).map (fun t => t.1.2)

/-- C59: the abundances of every listed element add up to 100 percent, within 0.1 percent. -/
theorem C59_sum (Z : Int) (h : massNumbers Z ≠ []) :
    |((massNumbers Z).map (abundanceOf Z)).sum - 100| ≤ 1 / 10 := by
  have hz : Z ∈ abundanceTuples.map (fun t => t.1.1) := by
    by_contra hn
    refine h ?_
    unfold massNumbers
    rw [List.map_eq_nil_iff, List.filter_eq_nil_iff]
    intro t ht he
    rw [beq_iff_eq] at he
    exact hn (List.mem_map.2 ⟨t, ht, he⟩)
  obtain ⟨hu, hl⟩ := tuples_sum Z hz
  have key : ∀ l : List ((Int × Int) × (FloatLit × FloatLit)), (∀ t ∈ l, t ∈ abundanceTuples) →
      (((l.filter (fun t => t.1.1 == Z)).map (fun t => t.1.2)).map (abundanceOf Z)).sum
        = (((l.filter (fun t => t.1.1 == Z)).map mantOf).sum : ℚ) / 1000000 := by
    intro l
    induction l with
    | nil => simp
    | cons t r ih =>
      intro hmem
      have ih := ih (fun x hx => hmem x (by simp [hx]))
      rw [List.filter_cons]
      split_ifs with hc
      · have ht := hmem t (by simp)
        obtain ⟨⟨z, a⟩, ab, dab⟩ := t
        have hz : z = Z := by simpa using hc
        subst hz
        have e1 : abundanceOf z a = (mantOf ((z, a), ab, dab) : ℚ) / 1000000 := by
          unfold abundanceOf
          rw [getAbundance_eq, Dict.get?_eq_some_of_mem (d := abundanceTuples) tuples_nodup ht]
          exact (litRat_good (List.all_eq_true.1 tuples_good _ ht)).1
        simp only [List.map_cons, List.sum_cons, Nat.cast_add] at ih ⊢
        rw [ih, e1]; ring
      · exact ih
  unfold massNumbers
  rw [key abundanceTuples (fun _ h => h)]
  have hu' : (((abundanceTuples.filter (fun t => t.1.1 == Z)).map mantOf).sum : ℚ) ≤ 100100000 := by exact_mod_cast hu
  have hl' : (99900000 : ℚ) ≤ (((abundanceTuples.filter (fun t => t.1.1 == Z)).map mantOf).sum : ℚ) := by exact_mod_cast hl
  rw [abs_le]
  constructor <;> linarith

/-- the table starts with hydrogen -/
example : massNumbers 1 = [1, 2] ∧ getAbundance 92 238 = .ok (.fin false 99274200 (-6), .fin false 1000 (-6)) ∧
    getAbundance 94 239 = .ok (.fin false 0 (-1), .fin false 0 (-1)) := by
  decide +kernel

end X4
