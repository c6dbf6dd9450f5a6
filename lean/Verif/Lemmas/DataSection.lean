import Verif.Model.DataSection
import Verif.Lemmas.Str
import Verif.Lemmas.Number
import Verif.Spec.DataTable
/-! Lemmas about data sections. -/
namespace X4

theorem slice_append {α} (x y : List α) (a b : Nat) :
    slice (x ++ y) a b = slice x a b ++ slice y (a - x.length) (b - x.length) := by
  unfold slice
  rw [List.take_append, List.drop_append]
  congr 1
  by_cases hb : b ≤ x.length
  · have : b - x.length = 0 := by omega
    simp [this]
  · have : min b x.length = x.length := by omega
    simp [this]

theorem slice_eq_drop_take {α} (x : List α) (a n : Nat) : slice x a (a + n) = (x.drop a).take n := by
  unfold slice
  rw [List.drop_take]; congr 1; omega

theorem length_slice {α} (x : List α) (a b : Nat) : (slice x a b).length = min b x.length - a := by
  unfold slice; simp

theorem mem_slice {α} {x : List α} {a b : Nat} {c : α} (h : c ∈ slice x a b) : c ∈ x := by
  unfold slice at h
  exact List.mem_of_mem_take (List.mem_of_mem_drop h)

theorem flatten_slice {ls : List Str} (h : ∀ l ∈ ls, l.length = 66) {q m : Nat} (hq : q < ls.length) (hm : m < 6) :
    slice ls.flatten (66 * q + 11 * m) (66 * q + 11 * m + 11) = slice ls[q] (11 * m) (11 * m + 11) := by
  induction ls generalizing q with
  | nil => simp at hq
  | cons l ls ih =>
    have hl := h l (by simp)
    cases q with
    | zero =>
      simp only [List.flatten_cons, List.getElem_cons_zero]
      rw [slice_append_left (by omega)]; simp
    | succ q =>
      simp only [List.flatten_cons, List.getElem_cons_succ]
      rw [slice_append_right (by omega), hl]
      have := ih (fun l hl => h l (by simp [hl])) (q := q) (by simpa using hq)
      rw [← this]
      congr 1 <;> omega

theorem fitLine_of_no_nl {l : Str} (h : '\n' ∉ l) : fitLine l = ljust (l.take 67) 66 := by
  unfold fitLine
  rw [replaceChar_nil, List.filter_eq_self.2]
  · simp [slice]
  · intro c hc
    simp
    rintro rfl
    simp [ljust, slice] at hc
    exact h (List.mem_of_mem_take hc)

theorem fitLine_short {l : Str} (h : '\n' ∉ l) (hl : l.length ≤ 66) : fitLine l = ljust l 66 := by
  rw [fitLine_of_no_nl h, List.take_of_length_le (by omega)]

theorem no_nl_fitLine (l : Str) : '\n' ∉ fitLine l := by
  unfold fitLine; rw [replaceChar_nil]; simp

theorem strip_slice_ljust (l : Str) (n a b : Nat) : strip (slice (ljust l n) a b) = strip (slice l a b) := by
  unfold ljust
  rw [slice_append]
  have := strip_surround_eq (a := []) (s := slice l a b)
    (b := slice (List.replicate (n - l.length) ' ') (a - l.length) (b - l.length)) (by simp) (by
      intro x hx
      have := mem_slice hx
      simp at this; rw [this.2]; rfl)
  simpa using this

/-- a field of the first physical line -/
theorem field11_fitLine {l : Str} (h : '\n' ∉ l) {m : Nat} (hm : m < 6) :
    field11 (fitLine l) m = strip ((l.drop (11 * m)).take 11) := by
  unfold field11
  rw [fitLine_of_no_nl h, strip_slice_ljust, ← slice_eq_drop_take]
  congr 1
  unfold slice
  rw [List.take_take]
  congr 2; omega

theorem field11_flatten {ls : List Str} (h : ∀ l ∈ ls, '\n' ∉ l ∧ l.length ≤ 66) {j : Nat} (hj : j / 6 < ls.length) :
    field11 (ls.map fitLine).flatten j = strip ((ls[j / 6].drop (11 * (j % 6))).take 11) := by
  have hlen : ∀ l ∈ ls.map fitLine, l.length = 66 := by
    intro l hl
    simp at hl
    obtain ⟨l', hl', rfl⟩ := hl
    rw [fitLine_short (h l' hl').1 (h l' hl').2]
    have := (h l' hl').2
    simp; omega
  have := flatten_slice hlen (q := j / 6) (m := j % 6) (by simpa using hj) (Nat.mod_lt _ (by omega))
  unfold field11
  have e : 11 * j = 66 * (j / 6) + 11 * (j % 6) := by omega
  have e' : 11 * (j + 1) = 66 * (j / 6) + 11 * (j % 6) + 11 := by omega
  rw [e', e, this]
  have hl' := h ls[j / 6] (List.getElem_mem hj)
  simp only [List.getElem_map]
  rw [fitLine_short hl'.1 hl'.2, strip_slice_ljust, slice_eq_drop_take]

theorem collapseRow_ok {sec : List Str} {start lpr : Nat} {row : Str} (h : collapseRow sec start lpr = .ok row) :
    ∃ ls : List Str, row = (ls.map fitLine).flatten ∧ ls.length = lpr ∧ ∀ q, q < lpr → ls[q]? = sec[start + q]? ∧ start + q < sec.length := by
  unfold collapseRow at h
  split at h
  · simp at h
  · rename_i ls hls
    simp at h
    refine ⟨ls, h.symm, by simpa using mapE_length hls, ?_⟩
    intro q hq
    obtain ⟨y, hy, hy'⟩ := mapE_get hls q q (by simp [hq])
    simp at hy'
    refine ⟨by rw [hy, hy'], ?_⟩
    exact (List.getElem?_eq_some_iff.1 hy').1

theorem collapse_ok {sec : List Str} {lpr : Int} (hpos : 0 < lpr) {c : List Str} (h : collapse sec lpr = .ok c) :
    c.length = (sec.length - 2 + (lpr.toNat - 1)) / lpr.toNat ∧
    ∀ r row, c[r]? = some row → collapseRow sec (1 + r * lpr.toNat) lpr.toNat = .ok row := by
  unfold collapse at h
  rw [if_neg (by omega), if_neg (by omega)] at h
  refine ⟨by simpa using mapE_length h, ?_⟩
  intro r row hr
  have hlt : r < c.length := (List.getElem?_eq_some_iff.1 hr).1
  rw [mapE_length h] at hlt
  obtain ⟨y, hy, hy'⟩ := mapE_get h r r (by rw [List.getElem?_range]; simpa using hlt)
  rw [hr] at hy
  simp at hy
  rw [hy]; exact hy'

theorem linesPerRow_pos {n : Int} (h : 1 ≤ n) : linesPerRow n = (physLines n.toNat : Nat) ∧ 0 < linesPerRow n := by
  unfold linesPerRow physLines
  rw [Int.fdiv_eq_ediv_of_nonneg _ (by omega)]
  omega

/-- the header of a section that is accepted -/
structure Built (tag : Str) (sec : List Str) (d : DataSection) (announced : Int) (c : List Str)
    (hs : List (Str × Str)) (rows : List (List Str × List (Option FloatLit))) : Prop where
  hdr : headerCounts sec = .ok (d.numcols, announced)
  recon : reconcile sec.length announced (linesPerRow d.numcols) = .ok d.numrows
  col : collapse sec (linesPerRow d.numcols) = .ok c
  hea : headings c d.numcols.toNat = .ok hs
  row : mapE (dataRow c d.numcols.toNat) (List.range d.numrows.toNat) = .ok rows
  eq : d = { tag, numcols := d.numcols, numrows := d.numrows, lpr := linesPerRow d.numcols,
             labels := hs.map Prod.fst, units := hs.map Prod.snd, pointers := pointersOf (hs.map Prod.fst),
             rawData := rows.map Prod.fst, data := rows.map Prod.snd }

theorem build_ok {tag : Str} {sec : List Str} {d : DataSection} (h : DataSection.build tag sec = .ok d) :
    ∃ n c hs rows, Built tag sec d n c hs rows := by
  unfold DataSection.build at h
  split at h
  · simp at h
  · rename_i numcols announced hhdr
    simp only at h
    split at h
    · simp at h
    · rename_i numrows hrec
      split at h
      · simp at h
      · rename_i c hc
        split at h
        · simp at h
        · rename_i hs hhs
          split at h
          · simp at h
          · rename_i rows hrows
            simp at h
            subst h
            exact ⟨announced, c, hs, rows, hhdr, hrec, hc, hhs, hrows, rfl⟩

theorem build_of_Built {tag : Str} {sec : List Str} {d : DataSection} {n c hs rows}
    (b : Built tag sec d n c hs rows) : DataSection.build tag sec = .ok d := by
  unfold DataSection.build
  rw [b.hdr]
  simp only [b.recon, b.col, b.hea, b.row]
  rw [← b.eq]

theorem rowField_ok {c : List Str} {r j : Nat} {x : Str} (h : rowField c r j = .ok x) :
    ∃ row, c[r]? = some row ∧ x = field11 row j := by
  unfold rowField at h
  split at h
  · simp at h
  · rename_i row hrow
    simp at h hrow
    exact ⟨row, hrow, h.symm⟩

theorem rowField_of {c : List Str} {r j : Nat} {row : Str} (h : c[r]? = some row) :
    rowField c r j = .ok (field11 row j) := by
  have : pyIdx c r = .ok row := by simpa using h
  simp [rowField, this]

theorem dataRow_ok {c : List Str} {n i : Nat} {raw : List Str} {vals : List (Option FloatLit)}
    (h : dataRow c n i = .ok (raw, vals)) :
    raw.length = n ∧ vals.length = n ∧
    (∀ j, j < n → ∃ row, c[2 + i]? = some row ∧ raw[j]? = some (field11 row j)) ∧
    (∀ (j : Nat) x, raw[j]? = some x → ∃ v, vals[j]? = some v ∧ parseFORTRANNumber x = .ok v) := by
  unfold dataRow at h
  split at h
  · simp at h
  · rename_i raw' hraw
    split at h
    · simp at h
    · rename_i vals' hvals
      simp at h
      obtain ⟨rfl, rfl⟩ := h
      have hl := mapE_length hraw
      have hl2 := mapE_length hvals
      simp at hl
      refine ⟨hl, by omega, ?_, ?_⟩
      · intro j hj
        obtain ⟨y, hy, hy'⟩ := mapE_get hraw j j (by simp [hj])
        obtain ⟨row, hrow, rfl⟩ := rowField_ok hy'
        exact ⟨row, hrow, hy⟩
      · intro j x hx
        exact mapE_get hvals j x hx

theorem headings_ok {c : List Str} {n : Nat} {hs : List (Str × Str)} (h : headings c n = .ok hs) :
    hs.length = n ∧ ∀ j, j < n → ∃ r0 r1, c[0]? = some r0 ∧ c[1]? = some r1 ∧ hs[j]? = some (field11 r0 j, field11 r1 j) := by
  unfold headings at h
  have hl := mapE_length h
  simp at hl
  refine ⟨hl, ?_⟩
  intro j hj
  obtain ⟨y, hy, hy'⟩ := mapE_get h j j (by simp [hj])
  split at hy'
  · simp at hy'
  · rename_i r0 h0
    split at hy'
    · simp at hy'
    · rename_i r1 h1
      simp at hy'
      obtain ⟨row0, hr0, rfl⟩ := rowField_ok h0
      obtain ⟨row1, hr1, rfl⟩ := rowField_ok h1
      exact ⟨row0, row1, hr0, hr1, by rw [hy, hy']⟩

/-- A column of a collapsed row is the physical cell. -/
theorem collapsed_cell {sec c : List Str} {numcols : Int} (hpos : 1 ≤ numcols)
    (hc : collapse sec (linesPerRow numcols) = .ok c)
    (hnl : ∀ l ∈ sec, '\n' ∉ l) (hw : numcols ≤ 6 ∨ ∀ l ∈ sec, l.length ≤ 66)
    {r j : Nat} {row : Str} (hr : c[r]? = some row) (hj : j < numcols.toNat) :
    tableCell sec (physLines numcols.toNat) r j = some (field11 row j) := by
  obtain ⟨hlpr, hlpos⟩ := linesPerRow_pos hpos
  have hk : (linesPerRow numcols).toNat = physLines numcols.toNat := by omega
  have hcr := (collapse_ok hlpos hc).2 r row hr
  obtain ⟨ls, hrow, hlen, hls⟩ := collapseRow_ok hcr
  rw [hk] at hls hlen
  have hq : j / 6 < physLines numcols.toNat := by unfold physLines; omega
  obtain ⟨h1, h2⟩ := hls (j / 6) hq
  have hmem : ∀ l ∈ ls, l ∈ sec := by
    intro l hl
    obtain ⟨q, hq, rfl⟩ := List.mem_iff_getElem.1 hl
    obtain ⟨h1, h2⟩ := hls q (by omega)
    rw [List.getElem?_eq_getElem hq] at h1
    exact List.mem_of_getElem? h1.symm
  unfold tableCell
  have hq' : j / 6 < ls.length := by omega
  rw [← h1, List.getElem?_eq_getElem hq', hrow]
  simp only [Option.map_some, Option.some.injEq]
  by_cases h6 : numcols ≤ 6
  · have hone : physLines numcols.toNat = 1 := by unfold physLines; omega
    rw [hone] at hlen
    rcases ls with _ | ⟨l, _ | _⟩
    · simp at hlen
    · have hj6 : j < 6 := by omega
      have hj0 : j / 6 = 0 := by omega
      have hjm : j % 6 = j := by omega
      simp only [hj0, hjm, List.map_cons, List.map_nil, List.flatten_cons, List.flatten_nil, List.append_nil,
        List.getElem_cons_zero]
      rw [field11_fitLine (hnl l (hmem l (by simp))) hj6]
    · simp at hlen
  · have hw' : ∀ l ∈ sec, l.length ≤ 66 := by tauto
    rw [field11_flatten (fun l hl => ⟨hnl l (hmem l hl), hw' l (hmem l hl)⟩) hq']

end X4

namespace X4

theorem collapse_one {sec : List Str} (h : 2 ≤ sec.length) :
    collapse sec 1 = .ok (((sec.drop 1).take (sec.length - 2)).map fitLine) := by
  unfold collapse
  rw [if_neg (by omega), if_neg (by omega)]
  simp only [Int.toNat_one]
  rw [mapE_all_ok (g := fun r => fitLine (sec[1 + r]?.getD []))]
  · congr 1
    apply List.ext_getElem
    · simp; omega
    · intro i h1 h2
      simp at h1 h2
      simp
      rw [List.getElem?_eq_getElem (by omega)]
      simp only [Option.getD_some, Nat.add_comm]
  · intro r hr
    simp at hr
    unfold collapseRow
    have : pyIdx sec (1 + r * 1 + 0) = .ok sec[1 + r] := by
      simp
    simp only [List.range_one, mapE, this, List.map_cons, List.map_nil, List.flatten_cons, List.flatten_nil,
      List.append_nil]
    rw [List.getElem?_eq_getElem (by omega)]
    rfl

/-- all cells of an accepted section are stripped, at most 11 long, without newline -/
def CellOk (c : Str) : Prop := strip c = c ∧ c.length ≤ 11 ∧ '\n' ∉ c

theorem CellOk_field11 {row : Str} (h : '\n' ∉ row) (j : Nat) : CellOk (field11 row j) := by
  unfold field11
  refine ⟨strip_strip _, ?_, ?_⟩
  · refine le_trans (length_strip_le _) ?_
    rw [length_slice]; omega
  · intro hn; exact h (mem_slice (mem_strip hn))

theorem collapse_no_nl {sec c : List Str} {lpr : Int} (h : collapse sec lpr = .ok c) {row : Str} (hr : row ∈ c) :
    '\n' ∉ row := by
  by_cases hpos : 0 < lpr
  · obtain ⟨i, hi, rfl⟩ := List.mem_iff_getElem.1 hr
    obtain ⟨ls, hrow, _, _⟩ := collapseRow_ok ((collapse_ok hpos h).2 i _ (List.getElem?_eq_getElem hi))
    rw [hrow]
    simp
    intro l _; exact no_nl_fitLine l
  · unfold collapse at h
    split at h
    · simp at h
    · rw [if_pos (by omega)] at h
      split at h
      · simp at h; subst h; simp at hr; subst hr; simp
      · simp at h; subst h; simp at hr

theorem build_cells {tag : Str} {sec : List Str} {d : DataSection} (h : DataSection.build tag sec = .ok d) :
    (∀ c ∈ d.labels, CellOk c) ∧ (∀ c ∈ d.units, CellOk c) ∧ ∀ r ∈ d.rawData, ∀ c ∈ r, CellOk c := by
  obtain ⟨n, c, hs, rows, b⟩ := build_ok h
  obtain ⟨hl, hh⟩ := headings_ok b.hea
  have hmem : ∀ (i : Nat) row, c[i]? = some row → '\n' ∉ row :=
    fun i row hi => collapse_no_nl b.col (List.mem_of_getElem? hi)
  have key : ∀ x ∈ hs, CellOk x.1 ∧ CellOk x.2 := by
    intro x hx
    obtain ⟨i, hi, rfl⟩ := List.mem_iff_getElem.1 hx
    obtain ⟨r0, r1, h0, h1, h2⟩ := hh i (by omega)
    rw [List.getElem?_eq_getElem hi] at h2
    simp at h2
    rw [h2]
    exact ⟨CellOk_field11 (hmem _ _ h0) i, CellOk_field11 (hmem _ _ h1) i⟩
  rw [b.eq]
  refine ⟨?_, ?_, ?_⟩
  · intro x hx; simp at hx; obtain ⟨y, hy⟩ := hx; exact (key _ hy).1
  · intro x hx; simp at hx; obtain ⟨y, hy⟩ := hx; exact (key _ hy).2
  · intro r hr x hx
    simp at hr
    obtain ⟨vals, hrv⟩ := hr
    obtain ⟨i, hi, he⟩ := List.mem_iff_getElem.1 hrv
    have hlen := mapE_length b.row
    simp at hlen
    obtain ⟨y, hy, hy'⟩ := mapE_get b.row i i (by rw [List.getElem?_range]; omega)
    rw [List.getElem?_eq_getElem hi, he] at hy
    simp at hy; subst hy
    obtain ⟨k1, k2, k3, k4⟩ := dataRow_ok hy'
    obtain ⟨j, hj, rfl⟩ := List.mem_iff_getElem.1 hx
    obtain ⟨row, hrow, hcell⟩ := k3 j (by omega)
    rw [List.getElem?_eq_getElem hj] at hcell
    simp at hcell; rw [hcell]
    exact CellOk_field11 (hmem _ _ hrow) j

/-- a printed row -/
def rowText (cells : List Str) : Str := (cells.map fun c => ljust c 11).flatten

theorem block_slice {w : Nat} {ls : List Str} (h : ∀ l ∈ ls, l.length = w) {q : Nat} (hq : q < ls.length) :
    ((ls.flatten).drop (w * q)).take w = ls[q] := by
  induction ls generalizing q with
  | nil => simp at hq
  | cons l ls ih =>
    have hl := h l (by simp)
    cases q with
    | zero => simp [hl]
    | succ q =>
      simp only [List.flatten_cons, List.getElem_cons_succ]
      rw [List.drop_append, List.drop_eq_nil_of_le (by rw [hl, Nat.mul_succ]; omega), List.nil_append, hl]
      have : w * (q + 1) - w = w * q := by rw [Nat.mul_succ]; omega
      rw [this]
      exact ih (fun l hl => h l (by simp [hl])) (by simpa using hq)

theorem no_nl_rowText {cells : List Str} (h : ∀ c ∈ cells, CellOk c) : '\n' ∉ rowText cells := by
  unfold rowText
  simp
  intro c hc
  unfold ljust
  simp
  exact (h c hc).2.2

theorem field11_rowText {cells : List Str} (h : ∀ c ∈ cells, CellOk c) (h6 : cells.length ≤ 6) {j : Nat}
    (hj : j < cells.length) : field11 (fitLine (rowText cells)) j = cells[j] := by
  rw [field11_fitLine (no_nl_rowText h) (by omega)]
  unfold rowText
  rw [block_slice (w := 11) (ls := cells.map fun c => ljust c 11) _ (by simpa using hj)]
  · simp only [List.getElem_map]
    rw [strip_ljust]
    exact (h _ (List.getElem_mem hj)).1
  · intro l hl
    simp at hl
    obtain ⟨c, hc, rfl⟩ := hl
    have := (h c hc).2.1
    simp; omega

/-! ### decimal printing -/

theorem isDig_digChar {d : Nat} (h : d < 10) : isDig (digChar d) = true ∧ digVal (digChar d) = d := by
  have : ∀ d, d < 10 → (isDig (digChar d) = true ∧ digVal (digChar d) = d) := by decide
  exact this d h

theorem natDigitsRev_spec (fuel n : Nat) (h : n < fuel) :
    (∀ c ∈ natDigitsRev fuel n, isDig c) ∧ natDigitsRev fuel n ≠ [] ∧
    digitsVal (natDigitsRev fuel n).reverse = n ∧
    ∀ k, 0 < k → n < 10 ^ k → (natDigitsRev fuel n).length ≤ k := by
  induction fuel generalizing n with
  | zero => omega
  | succ f ih =>
    unfold natDigitsRev
    split
    · rename_i hn
      have := isDig_digChar hn
      refine ⟨by simpa using this.1, by simp, by simp [digitsVal, this.2], ?_⟩
      intro k hk _; simp; omega
    · rename_i hn
      have hd := isDig_digChar (Nat.mod_lt n (show 0 < 10 by omega))
      obtain ⟨h1, h2, h3, h4⟩ := ih (n / 10) (by omega)
      refine ⟨by simpa [hd.1] using h1, by simp, ?_, ?_⟩
      · rw [List.reverse_cons, digitsVal_append, h3]
        simp [digitsVal, hd.2]; omega
      · intro k hk hlt
        have hk2 : 1 < k := by
          by_contra hc
          have : k = 1 := by omega
          subst this; omega
        have := h4 (k - 1) (by omega) (by
          rw [Nat.div_lt_iff_lt_mul (by omega), ← Nat.pow_succ]
          have : k - 1 + 1 = k := by omega
          rw [Nat.succ_eq_add_one, this]; exact hlt)
        simp; omega

theorem natStr_spec (n : Nat) : (∀ c ∈ natStr n, isDig c) ∧ natStr n ≠ [] ∧ digitsVal (natStr n) = n ∧
    ∀ k, 0 < k → n < 10 ^ k → (natStr n).length ≤ k := by
  obtain ⟨h1, h2, h3, h4⟩ := natDigitsRev_spec (n + 1) n (by omega)
  unfold natStr
  refine ⟨by simpa using h1, by simpa using h2, h3, by simpa using h4⟩

theorem pyInt_digits {s : Str} (h : ∀ c ∈ s, isDig c) (hne : s ≠ []) : pyInt s = some (digitsVal s : Int) := by
  have hsp : ∀ c ∈ s, isSpace c = false := fun c hc => isSpace_false_of_isDig (h c hc)
  have hst : strip s = s := strip_of_ok (fun c hc => hsp c (List.mem_of_mem_head? hc))
    (fun c hc => hsp c (List.mem_of_getLast? hc))
  have hus : '_' ∉ s := by intro hm; have := h _ hm; revert this; decide
  have hsg : takeSign s = (false, s) := by
    apply takeSign_body
    intro c hc
    have := h c (List.mem_of_mem_head? hc)
    exact ⟨isDig_ne this (by decide), isDig_ne this (by decide)⟩
  simp only [pyInt, hst, usOk_of_no hus, rmUnderscore_of_no hus, hsg]
  have : (!s.isEmpty && s.all isDig) = true := by simp [hne]; exact h
  simp [this]

theorem pyInt_natStr (n : Nat) : pyInt (natStr n) = some (n : Int) := by
  obtain ⟨h1, h2, h3, _⟩ := natStr_spec n
  rw [pyInt_digits h1 h2, h3]

theorem splitWs_space {c : Char} (h : isSpace c) (s : Str) : splitWs (c :: s) = splitWs s := by
  simp [splitWs, splitOnP, h]
theorem splitWs_spaces {a : Str} (h : ∀ c ∈ a, isSpace c) (s : Str) : splitWs (a ++ s) = splitWs s := by
  induction a with
  | nil => rfl
  | cons c a ih =>
    rw [List.cons_append, splitWs_space (h c (by simp)), ih (fun x hx => h x (by simp [hx]))]
theorem splitWs_word {w : Str} (h : ∀ c ∈ w, isSpace c = false) (hne : w ≠ []) {c : Char} (hc : isSpace c) (s : Str) :
    splitWs (w ++ c :: s) = w :: splitWs s := by
  unfold splitWs
  rw [splitOnP_append_sep h hc]
  simp [hne]
theorem splitWs_last {w : Str} (h : ∀ c ∈ w, isSpace c = false) (hne : w ≠ []) : splitWs w = [w] := by
  unfold splitWs
  rw [splitOnP_none h]; simp [hne]

/-- the header printed by `repr` is read back -/
theorem headerCounts_repr {tag : Str} (ht : ∀ c ∈ tag, isSpace c = false) (htne : tag ≠ []) (htl : tag.length < 11)
    {nc nr : Nat} (hc : nc < 10 ^ 10) (hr : nr < 10 ^ 10) (rest : List Str) :
    headerCounts ((ljust tag 11 ++ rjust (intStr nc) 11 ++ rjust (intStr nr) 11) :: rest) = .ok ((nc : Int), (nr : Int)) := by
  obtain ⟨c1, c2, c3, c4⟩ := natStr_spec nc
  obtain ⟨r1, r2, r3, r4⟩ := natStr_spec nr
  have hlc := c4 10 (by omega) hc
  have hlr := r4 10 (by omega) hr
  have hin : ∀ n : Nat, intStr (n : Int) = natStr n := fun n => rfl
  rw [hin, hin]
  have hlen : (ljust tag 11 ++ rjust (natStr nc) 11 ++ rjust (natStr nr) 11).length = 33 := by
    simp; omega
  have hsp : isSpace ' ' = true := by decide
  have hrep : ∀ n, 0 < n → List.replicate n ' ' = ' ' :: List.replicate (n - 1) ' ' := by
    intro n hn; rw [← List.replicate_succ]; congr 1; omega
  have hrepsp : ∀ n, ∀ c ∈ List.replicate n ' ', isSpace c := by
    intro n c hc; simp at hc; rw [hc.2]; exact hsp
  have hcs : ∀ c ∈ natStr nc, isSpace c = false := fun c h => isSpace_false_of_isDig (c1 c h)
  have hrs : ∀ c ∈ natStr nr, isSpace c = false := fun c h => isSpace_false_of_isDig (r1 c h)
  have hsplit : splitWs (ljust tag 11 ++ rjust (natStr nc) 11 ++ rjust (natStr nr) 11) = [tag, natStr nc, natStr nr] := by
    unfold ljust rjust
    rw [hrep (11 - tag.length) (by omega), hrep (11 - (natStr nr).length) (by omega)]
    simp only [List.append_assoc, List.cons_append]
    rw [splitWs_word ht htne hsp, splitWs_spaces (hrepsp _), splitWs_spaces (hrepsp _),
      splitWs_word hcs c2 hsp, splitWs_spaces (hrepsp _), splitWs_last hrs r2]
  have hidx : ∀ (l : List Str) i x, l[i]? = some x → pyIdx l i = .ok x := by intro l i x h; simpa using h
  unfold headerCounts
  rw [hidx _ 0 (ljust tag 11 ++ rjust (natStr nc) 11 ++ rjust (natStr nr) 11) (by simp)]
  simp only
  rw [List.take_of_length_le (by omega), hsplit, hidx _ 1 (natStr nc) (by simp)]
  simp only [pyIntE, pyInt_natStr]
  rw [hidx _ 2 (natStr nr) (by simp)]
  simp only [pyInt_natStr]

/-- a printed integer is one line -/
theorem no_nl_intStr (z : Int) : '\n' ∉ intStr z := by
  have key : ∀ m : Nat, '\n' ∉ natStr m := by
    intro m hm
    have := (natStr_spec m).1 _ hm
    revert this; decide
  intro hm
  cases z with
  | ofNat m => exact key m hm
  | negSucc m =>
    simp [intStr] at hm
    exact key _ hm

theorem mapE_comp {ε α β γ} (f : β → Except ε γ) (g : α → β) (l : List α) : mapE f (l.map g) = mapE (fun x => f (g x)) l := by
  induction l with
  | nil => rfl
  | cons a l ih => simp only [List.map_cons, mapE, ih]

theorem mapE_paired {ε α β} (f : α → Except ε β) (l : List α) :
    mapE (fun r => (f r).map fun v => (r, v)) l = (mapE f l).map fun vs => l.zip vs := by
  induction l with
  | nil => rfl
  | cons a l ih =>
    simp only [mapE, ih]
    cases f a with
    | error e => rfl
    | ok v => cases mapE f l <;> rfl

/-- What is read from a printed table of at most six columns: its cells, parsed again. -/
theorem build_printed_cells (tag : Str) (htag : tag = "DATA".toList ∨ tag = "COMMON".toList) (d : DataSection) (htag' : d.tag = tag)
    (hlpr : d.lpr = linesPerRow d.numcols) (hp : d.pointers = pointersOf d.labels)
    (q1 : d.labels.length = d.numcols.toNat) (q2 : d.units.length = d.numcols.toNat) (q3 : d.rawData.length = d.numrows.toNat)
    (q5 : ∀ r ∈ d.rawData, r.length = d.numcols.toNat)
    (cl : ∀ c ∈ d.labels, CellOk c) (cu : ∀ c ∈ d.units, CellOk c) (cr : ∀ r ∈ d.rawData, ∀ c ∈ r, CellOk c)
    (hcols : 1 ≤ d.numcols) (h6 : d.numcols ≤ 6) (hnn : 0 ≤ d.numrows) (hrows : d.numrows < 10 ^ 10) :
    splitChar '\n' d.repr = d.reprLines ∧
    DataSection.build tag d.reprLines = (mapE (mapE parseFORTRANNumber) d.rawData).map fun vals => { d with data := vals } := by
  have ht : ∀ c ∈ tag, isSpace c = false ∧ c ≠ '\n' := by rcases htag with rfl | rfl <;> decide
  have htne : tag ≠ [] := by rcases htag with rfl | rfl <;> decide
  have htl : tag.length ≤ 6 := by rcases htag with rfl | rfl <;> decide
  have hnl : ∀ l ∈ d.reprLines, '\n' ∉ l := by
    intro l hl
    simp only [DataSection.reprLines, List.mem_append, List.mem_cons, List.mem_map, List.not_mem_nil, or_false] at hl
    have hljust : ∀ (s : Str) k, '\n' ∉ s → '\n' ∉ ljust s k := by
      intro s k hs; simp [ljust, hs]
    have hrjust : ∀ (s : Str) k, '\n' ∉ s → '\n' ∉ rjust s k := by
      intro s k hs; simp [rjust, hs]
    have htn : '\n' ∉ tag := fun hm => (ht _ hm).2 rfl
    rcases hl with ((rfl | rfl | rfl) | ⟨r, hr, rfl⟩) | rfl
    · rw [htag']
      simp only [List.mem_append, not_or]
      exact ⟨⟨hljust _ _ htn, hrjust _ _ (no_nl_intStr _)⟩, hrjust _ _ (no_nl_intStr _)⟩
    · exact no_nl_rowText cl
    · exact no_nl_rowText cu
    · exact no_nl_rowText (cr r hr)
    · rw [htag']
      simp only [List.mem_append, not_or]
      refine ⟨hljust _ _ ?_, hrjust _ _ (no_nl_intStr _)⟩
      simp only [List.mem_append, not_or]
      exact ⟨by decide, htn⟩
  refine ⟨splitChar_joinWith hnl (by simp [DataSection.reprLines]), ?_⟩
  obtain ⟨nr, hnr⟩ : ∃ m : Nat, d.numrows = m := ⟨d.numrows.toNat, by omega⟩
  obtain ⟨nc, hnc⟩ : ∃ m : Nat, d.numcols = m := ⟨d.numcols.toNat, by omega⟩
  have hL : linesPerRow d.numcols = 1 := by
    obtain ⟨hL, _⟩ := linesPerRow_pos hcols
    have : physLines d.numcols.toNat = 1 := by unfold physLines; omega
    rw [hL, this]; rfl
  set body : List Str := rowText d.labels :: rowText d.units :: d.rawData.map rowText with hbody
  have hlines : d.reprLines = (ljust tag 11 ++ rjust (intStr nc) 11 ++ rjust (intStr nr) 11) :: (body ++
      [ljust ("END".toList ++ tag) 11 ++ rjust (intStr (d.numrows + 2)) 11]) := by
    rw [← hnr, ← hnc, ← htag']; rfl
  have hlen : d.reprLines.length = nr + 4 := by
    rw [hlines]; simp [hbody, q3, hnr]
  have hcol : collapse d.reprLines 1 = .ok (body.map fitLine) := by
    rw [collapse_one (by omega), hlen, hlines]
    simp only [List.drop_succ_cons, List.drop_zero]
    congr 2
    rw [show nr + 4 - 2 = body.length by simp [hbody, q3, hnr]]
    simp
  have h1 : headerCounts d.reprLines = .ok (d.numcols, d.numrows) := by
    rw [hlines, hnc, hnr]
    exact headerCounts_repr (fun c hc => (ht c hc).1) htne (by omega) (by omega) (by omega) _
  have h2 : reconcile d.reprLines.length d.numrows (linesPerRow d.numcols) = .ok d.numrows := by
    rw [hL, hlen]
    unfold reconcile
    rw [if_neg (by push_cast; omega), hnr]
  have h4 : headings (body.map fitLine) d.numcols.toNat = .ok (d.labels.zip d.units) := by
    unfold headings
    have hhs : d.labels.zip d.units = (List.range d.numcols.toNat).map fun j => (d.labels[j]?.getD [], d.units[j]?.getD []) := by
      apply List.ext_getElem
      · simp [q1, q2]
      · intro i h1 h2
        simp at h1 h2
        simp [h1.1, h1.2]
    rw [hhs]
    apply mapE_all_ok
    intro j hj
    simp at hj
    rw [rowField_of (row := fitLine (rowText d.labels)) (by simp [hbody]),
      rowField_of (row := fitLine (rowText d.units)) (by simp [hbody])]
    simp only
    rw [field11_rowText cl (by omega) (by omega), field11_rowText cu (by omega) (by omega),
      List.getElem?_eq_getElem (by omega), List.getElem?_eq_getElem (by omega)]
    rfl
  have h5 : mapE (dataRow (body.map fitLine) d.numcols.toNat) (List.range d.numrows.toNat) =
      (mapE (mapE parseFORTRANNumber) d.rawData).map fun vs => d.rawData.zip vs := by
    have hr : d.rawData = (List.range d.numrows.toNat).map fun i => d.rawData[i]?.getD [] := by
      apply List.ext_getElem
      · simpa using q3
      · intro i h1 h2; simp [h1]
    rw [← mapE_paired]
    conv => rhs; rw [hr]
    rw [mapE_comp]
    apply mapE_congr
    intro i hi
    simp at hi
    have hi1 : i < d.rawData.length := by omega
    rw [List.getElem?_eq_getElem hi1]
    simp only [Option.getD_some]
    have hrawmem : d.rawData[i] ∈ d.rawData := List.getElem_mem hi1
    have hrawlen := q5 _ hrawmem
    have hci : (body.map fitLine)[2 + i]? = some (fitLine (rowText d.rawData[i])) := by
      simp only [List.getElem?_map, hbody]
      rw [Nat.add_comm]
      simp [hi1]
    unfold dataRow
    have hcells : mapE (rowField (body.map fitLine) (2 + i)) (List.range d.numcols.toNat) = .ok d.rawData[i] := by
      have : d.rawData[i] = (List.range d.numcols.toNat).map fun j => d.rawData[i][j]?.getD [] := by
        apply List.ext_getElem
        · simpa using hrawlen
        · intro i h1 h2; simp [h1]
      conv => rhs; rw [this]
      apply mapE_all_ok
      intro j hj
      simp at hj
      rw [rowField_of hci, field11_rowText (cr _ hrawmem) (by omega) (by omega), List.getElem?_eq_getElem (by omega)]
      rfl
    rw [hcells]
    simp only
    cases mapE parseFORTRANNumber d.rawData[i] <;> rfl
  unfold DataSection.build
  rw [h1]
  rw [hL] at h2
  simp only [hL, h2, hcol, h4, h5]
  cases hm : mapE (mapE parseFORTRANNumber) d.rawData with
  | error e => rfl
  | ok vs =>
    have hvl := mapE_length hm
    have e1 : (d.labels.zip d.units).map Prod.fst = d.labels := List.map_fst_zip (by omega)
    have e2 : (d.labels.zip d.units).map Prod.snd = d.units := List.map_snd_zip (by omega)
    have e3 : (d.rawData.zip vs).map Prod.fst = d.rawData := List.map_fst_zip (by omega)
    have e4 : (d.rawData.zip vs).map Prod.snd = vs := List.map_snd_zip (by omega)
    simp only [e1, e2, e3, e4, Except.map, ← hp, ← htag']
    rw [hL] at hlpr
    rw [← hlpr]

/-- A printed table of at most six columns is read back. -/
theorem build_printed (tag : Str) (htag : tag = "DATA".toList ∨ tag = "COMMON".toList) (d : DataSection) (htag' : d.tag = tag)
    (hlpr : d.lpr = linesPerRow d.numcols) (hp : d.pointers = pointersOf d.labels)
    (q1 : d.labels.length = d.numcols.toNat) (q2 : d.units.length = d.numcols.toNat) (q3 : d.rawData.length = d.numrows.toNat)
    (q5 : ∀ r ∈ d.rawData, r.length = d.numcols.toNat)
    (cl : ∀ c ∈ d.labels, CellOk c) (cu : ∀ c ∈ d.units, CellOk c) (cr : ∀ r ∈ d.rawData, ∀ c ∈ r, CellOk c)
    (hv : List.Forall₂ (fun r v => mapE parseFORTRANNumber r = .ok v) d.rawData d.data)
    (hcols : 1 ≤ d.numcols) (h6 : d.numcols ≤ 6) (hnn : 0 ≤ d.numrows) (hrows : d.numrows < 10 ^ 10) :
    splitChar '\n' d.repr = d.reprLines ∧ DataSection.build tag d.reprLines = .ok d := by
  obtain ⟨h1, h2⟩ := build_printed_cells tag htag d htag' hlpr hp q1 q2 q3 q5 cl cu cr hcols h6 hnn hrows
  refine ⟨h1, ?_⟩
  rw [h2, mapE_ok_iff.2 hv]
  rfl

/-- every row of a section that was read is the row of its numbers -/
theorem build_parsed {tag : Str} {sec : List Str} {d : DataSection} (h : DataSection.build tag sec = .ok d) :
    List.Forall₂ (fun r v => mapE parseFORTRANNumber r = .ok v) d.rawData d.data := by
  obtain ⟨n, c, hs, rows, b⟩ := build_ok h
  rw [b.eq, List.forall₂_map_left_iff, List.forall₂_map_right_iff, List.forall₂_same]
  rintro ⟨raw, vals⟩ hx
  obtain ⟨i, hi, he⟩ := List.mem_iff_getElem.1 hx
  have hlen := mapE_length b.row
  simp at hlen
  obtain ⟨y, hy, hy'⟩ := mapE_get b.row i i (by rw [List.getElem?_range]; omega)
  rw [List.getElem?_eq_getElem hi, he] at hy
  simp at hy; subst hy
  obtain ⟨k1, k2, k3, k4⟩ := dataRow_ok hy'
  simp only
  rw [mapE_ok_iff]
  apply List.forall₂_iff_get.2
  refine ⟨by omega, ?_⟩
  intro i h1 h2
  obtain ⟨v, hv, hv'⟩ := k4 i _ (List.getElem?_eq_getElem h1)
  rw [List.getElem?_eq_getElem h2] at hv
  simp at hv
  simp [hv, hv']

end X4
