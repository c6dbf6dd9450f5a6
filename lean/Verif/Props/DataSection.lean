import Verif.Lemmas.DataSection
import Verif.Lemmas.Dict
/-! Properties C01-C06 of DATA/COMMON sections. -/
namespace X4

/-- a 2-column table used as a witness -/
def demoSec : List Str :=
  ["DATA                 2          2".toList, "EN         DATA      1".toList, "MEV        B         ".toList,
   " 1.0       2.0-3".toList, "           3".toList, "ENDDATA".toList]
/-- a table with 7 columns: two physical lines per row -/
def demoWide : List Str :=
  ["DATA                 7          1".toList,
   "C1         C2         C3         C4         C5         C6         ".toList, "C7".toList,
   "U1         U2         U3         U4         U5         U6         ".toList, "U7".toList,
   "1          2          3          4          5          6          ".toList, "7".toList, "ENDDATA".toList]

/-- C01: every label, unit and cell is the text of its own 11-column field, and every
value is the number in that field. -/
theorem C01_cells (tag : Str) (sec : List Str) (d : DataSection) (h : DataSection.build tag sec = .ok d)
    (hcols : 1 ≤ d.numcols) (hnl : ∀ l ∈ sec, '\n' ∉ l) (hw : ∀ l ∈ sec, l.length ≤ 66)
    (j : Nat) (hj : (j : Int) < d.numcols) :
    d.labels[j]? = tableCell sec (physLines d.numcols.toNat) 0 j ∧
    d.units[j]? = tableCell sec (physLines d.numcols.toNat) 1 j ∧
    ∀ i : Nat, (i : Int) < d.numrows → ∃ raw vals, d.rawData[i]? = some raw ∧ d.data[i]? = some vals ∧
      ∃ text, tableCell sec (physLines d.numcols.toNat) (2 + i) j = some text ∧ raw[j]? = some text ∧
      ∃ v, vals[j]? = some v ∧ parseFORTRANNumber text = .ok v := by
  obtain ⟨n, c, hs, rows, b⟩ := build_ok h
  obtain ⟨hl, hh⟩ := headings_ok b.hea
  have hj' : j < d.numcols.toNat := by omega
  obtain ⟨r0, r1, h0, h1, h2⟩ := hh j hj'
  have cell := fun r row hr => collapsed_cell hcols b.col hnl (Or.inr hw) (r := r) (row := row) hr hj'
  refine ⟨?_, ?_, ?_⟩
  · rw [b.eq, cell 0 r0 h0]; simp [h2]
  · rw [b.eq, cell 1 r1 h1]; simp [h2]
  · intro i hi
    obtain ⟨y, hy, hy'⟩ := mapE_get b.row i i (by rw [List.getElem?_range]; omega)
    obtain ⟨raw, vals⟩ := y
    obtain ⟨k1, k2, k3, k4⟩ := dataRow_ok hy'
    obtain ⟨row, hrow, hcell⟩ := k3 j hj'
    refine ⟨raw, vals, by rw [b.eq]; simp [hy], by rw [b.eq]; simp [hy], field11 row j, cell _ row hrow, hcell, ?_⟩
    exact k4 j _ hcell

example : ∃ d, DataSection.build "DATA".toList demoWide = .ok d ∧ d.numcols = 7 ∧ d.numrows = 1 ∧
    (∀ l ∈ demoWide, '\n' ∉ l) ∧ (∀ l ∈ demoWide, l.length ≤ 66) ∧ d.labels[6]? = some "C7".toList :=
  ⟨_, rfl, by decide +kernel⟩

/-- C02: an accepted table is rectangular. (`numrows` can be negative for some
inconsistent headers, see `C02_negative_numrows`; then there are no rows.) -/
theorem C02_rectangular (tag : Str) (sec : List Str) (d : DataSection) (h : DataSection.build tag sec = .ok d) :
    d.labels.length = d.numcols.toNat ∧ d.units.length = d.numcols.toNat ∧
    d.rawData.length = d.numrows.toNat ∧ d.data.length = d.numrows.toNat ∧
    (∀ r ∈ d.rawData, r.length = d.numcols.toNat) ∧ (∀ r ∈ d.data, r.length = d.numcols.toNat) := by
  obtain ⟨n, c, hs, rows, b⟩ := build_ok h
  obtain ⟨hl, hh⟩ := headings_ok b.hea
  have hlen := mapE_length b.row
  simp at hlen
  have key : ∀ x ∈ rows, x.1.length = d.numcols.toNat ∧ x.2.length = d.numcols.toNat := by
    intro x hx
    obtain ⟨i, hi, he⟩ := List.mem_iff_getElem.1 hx
    obtain ⟨y, hy, hy'⟩ := mapE_get b.row i i (by rw [List.getElem?_range]; omega)
    rw [List.getElem?_eq_getElem hi, he] at hy
    simp at hy; subst hy
    obtain ⟨k1, k2, _, _⟩ := dataRow_ok (raw := x.1) (vals := x.2) hy'
    exact ⟨k1, k2⟩
  have e := b.eq
  refine ⟨by rw [e]; simpa using hl, by rw [e]; simpa using hl, by rw [e]; simpa using hlen,
    by rw [e]; simpa using hlen, ?_, ?_⟩
  · intro r hr; rw [e] at hr; simp at hr; obtain ⟨y, hy⟩ := hr; exact (key _ hy).1
  · intro r hr; rw [e] at hr; simp at hr; obtain ⟨y, hy⟩ := hr; exact (key _ hy).2

/-- C03: an accepted table with at least one column matches one of the three ways of
counting rows, tried in this order. -/
theorem C03_accepted (tag : Str) (sec : List Str) (d : DataSection) (n : Int) (h : DataSection.build tag sec = .ok d)
    (hh : headerCounts sec = .ok (d.numcols, n)) (hcols : 1 ≤ d.numcols) :
    let L : Int := physLines d.numcols.toNat
    ((sec.length : Int) = 2 + (n + 2) * L ∧ d.numrows = n) ∨
    ((sec.length : Int) ≠ 2 + (n + 2) * L ∧ (sec.length : Int) = 2 + n * L ∧ d.numrows = n - 2) ∨
    ((sec.length : Int) ≠ 2 + (n + 2) * L ∧ (sec.length : Int) ≠ 2 + n * L ∧ (sec.length : Int) = 2 + n ∧
      d.numrows = n / L - 2) := by
  intro L
  obtain ⟨m, c, hs, rows, b⟩ := build_ok h
  have hm : m = n := by
    have := b.hdr; rw [hh] at this; simp at this; exact this.symm
  subst hm
  obtain ⟨hL, hpos⟩ := linesPerRow_pos hcols
  have hrec := b.recon
  rw [hL] at hrec hpos
  change reconcile sec.length m L = _ at hrec
  change 0 < L at hpos
  unfold reconcile at hrec
  split at hrec
  · rename_i h1
    split at hrec
    · rename_i h2
      simp at hrec
      exact Or.inr (Or.inl ⟨h1, h2, hrec.symm⟩)
    · rename_i h2
      split at hrec
      · rename_i h3
        rw [if_neg (by omega)] at hrec
        simp at hrec
        rw [Int.fdiv_eq_ediv_of_nonneg _ (by omega)] at hrec
        exact Or.inr (Or.inr ⟨h1, h2, h3, hrec.symm⟩)
      · simp at hrec
  · rename_i h1
    simp at hrec h1
    exact Or.inl ⟨h1, hrec.symm⟩

/-- C03: any other number of lines is rejected with `IndexError`. -/
theorem C03_rejected (tag : Str) (sec : List Str) (nc n : Int) (hh : headerCounts sec = .ok (nc, n)) (hcols : 1 ≤ nc)
    (h1 : (sec.length : Int) ≠ 2 + (n + 2) * physLines nc.toNat)
    (h2 : (sec.length : Int) ≠ 2 + n * physLines nc.toNat)
    (h3 : (sec.length : Int) ≠ 2 + n) : DataSection.build tag sec = .error .indexError := by
  obtain ⟨hL, hpos⟩ := linesPerRow_pos hcols
  unfold DataSection.build
  rw [hh]
  simp only [hL]
  have : reconcile sec.length n (physLines nc.toNat) = .error .indexError := by
    unfold reconcile
    rw [if_pos h1, if_neg h2, if_neg h3]
  rw [this]

/-- C02/C03: with a single physical line per row, the number of rows is never negative. -/
theorem C02_numrows_nonneg (tag : Str) (sec : List Str) (d : DataSection) (h : DataSection.build tag sec = .ok d)
    (hcols : 1 ≤ d.numcols) (h6 : d.numcols ≤ 6) : 0 ≤ d.numrows := by
  obtain ⟨n, c, hs, rows, b⟩ := build_ok h
  obtain ⟨hl, hh⟩ := headings_ok b.hea
  obtain ⟨r0, r1, h0, h1, h2⟩ := hh 0 (by omega)
  obtain ⟨hL, hpos⟩ := linesPerRow_pos hcols
  have hone : physLines d.numcols.toNat = 1 := by unfold physLines; omega
  have hc := (collapse_ok hpos b.col).1
  rw [hL, hone] at hc
  simp at hc
  have h1' := (List.getElem?_eq_some_iff.1 h1).1
  have := C03_accepted tag sec d n h b.hdr hcols
  simp only [hone] at this
  omega

/-- an inconsistent header (7 columns, 3 announced rows, 5 lines) for which the third
convention gives a negative number of rows -/
theorem C02_negative_numrows : ∃ sec d, DataSection.build "DATA".toList sec = .ok d ∧ d.numrows = -1 :=
  ⟨["DATA                 7          3".toList, [], [], [], "ENDDATA".toList], _, rfl, by decide +kernel⟩

/-- C04 (partial: at most six columns): the lines of `repr` parse to the same section.
For wider tables see `C04_wide_refuted`. -/
theorem C04_roundtrip_partial (tag : Str) (htag : tag = "DATA".toList ∨ tag = "COMMON".toList)
    (sec : List Str) (d : DataSection) (h : DataSection.build tag sec = .ok d)
    (hcols : 1 ≤ d.numcols) (h6 : d.numcols ≤ 6) (hrows : d.numrows < 10 ^ 10) :
    DataSection.build tag (splitChar '\n' d.repr) = .ok d := by
  have hnn := C02_numrows_nonneg tag sec d h hcols h6
  obtain ⟨q1, q2, q3, q4, q5, q6⟩ := C02_rectangular tag sec d h
  obtain ⟨cl, cu, cr⟩ := build_cells h
  obtain ⟨n, c, hs, rows, b⟩ := build_ok h
  obtain ⟨h1, h2⟩ := build_printed tag htag d (by rw [b.eq]) (by rw [b.eq]) (by rw [b.eq]) q1 q2 q3 q5 cl cu cr (build_parsed h)
    hcols h6 hnn hrows
  rw [h1, h2]

example : ∃ d, DataSection.build "DATA".toList demoSec = .ok d ∧ d.numcols = 2 ∧ d.numrows = 2 ∧
    d.rawData = [["1.0".toList, "2.0-3".toList], ["".toList, "3".toList]] := ⟨_, rfl, by decide +kernel⟩

/-- C04 is false for tables of more than six columns: the printed text is never parsed
back to the same section. -/
theorem C04_wide_refuted (tag : Str) (htag : tag = "DATA".toList ∨ tag = "COMMON".toList)
    (sec : List Str) (d : DataSection) (h : DataSection.build tag sec = .ok d)
    (hcols : 7 ≤ d.numcols) (hcols' : d.numcols < 10 ^ 10) (hrows0 : 0 ≤ d.numrows) (hrows : d.numrows < 10 ^ 10) :
    DataSection.build tag d.reprLines ≠ .ok d := by
  intro h'
  obtain ⟨q1, q2, q3, q4, q5, q6⟩ := C02_rectangular tag sec d h
  obtain ⟨n, c, hs, rows, b⟩ := build_ok h
  have htag' : d.tag = tag := by rw [b.eq]
  have ht : ∀ c ∈ tag, isSpace c = false ∧ c ≠ '\n' := by rcases htag with rfl | rfl <;> decide
  have htne : tag ≠ [] := by rcases htag with rfl | rfl <;> decide
  have htl : tag.length ≤ 6 := by rcases htag with rfl | rfl <;> decide
  obtain ⟨nr, hnr⟩ : ∃ m : Nat, d.numrows = m := ⟨d.numrows.toNat, by omega⟩
  obtain ⟨nc, hnc⟩ : ∃ m : Nat, d.numcols = m := ⟨d.numcols.toNat, by omega⟩
  have hlines : d.reprLines = (ljust tag 11 ++ rjust (intStr nc) 11 ++ rjust (intStr nr) 11) :: (d.reprLines.drop 1) := by
    rw [← hnr, ← hnc, ← htag']; rfl
  have hhdr : headerCounts d.reprLines = .ok (d.numcols, d.numrows) := by
    rw [hlines, hnc, hnr]
    exact headerCounts_repr (fun c hc => (ht c hc).1) htne (by omega) (by omega) (by omega) _
  have hlen : (d.reprLines.length : Int) = d.numrows + 4 := by
    simp [DataSection.reprLines, q3]; omega
  have := C03_accepted tag _ d d.numrows h' hhdr (by omega)
  simp only at this
  have hL : (2 : Int) ≤ physLines d.numcols.toNat := by unfold physLines; omega
  rw [hlen] at this
  rcases this with ⟨h1, _⟩ | ⟨_, _, h2⟩ | ⟨_, _, h3, _⟩
  · nlinarith
  · omega
  · omega

example : ∃ d, DataSection.build "DATA".toList demoWide = .ok d ∧ 7 ≤ d.numcols ∧ 0 ≤ d.numrows :=
  ⟨_, rfl, by decide +kernel⟩

/-- C05 (partial: at most six columns): cutting every physical line after column 66
changes nothing, be it the result or the exception. -/
theorem C05_columns_past_66_partial (tag : Str) (sec : List Str) (hnl : ∀ l ∈ sec, '\n' ∉ l)
    (h6 : ∀ nc n, headerCounts sec = .ok (nc, n) → nc ≤ 6) :
    DataSection.build tag (sec.map fun l => l.take 66) = DataSection.build tag sec := by
  have hhdr : headerCounts (sec.map fun l => l.take 66) = headerCounts sec := by
    unfold headerCounts pyIdx
    cases sec with
    | nil => rfl
    | cons l sec => simp [List.take_take]
  unfold DataSection.build
  rw [hhdr]
  rcases hc : headerCounts sec with e | ⟨nc, n⟩
  · rfl
  simp only [List.length_map]
  rcases hr : reconcile sec.length n (linesPerRow nc) with e | numrows
  · rfl
  simp only
  have h6' := h6 nc n hc
  by_cases hpos : 1 ≤ nc
  · have hone : linesPerRow nc = 1 := by
      obtain ⟨hL, _⟩ := linesPerRow_pos hpos
      have : physLines nc.toNat = 1 := by unfold physLines; omega
      rw [hL, this]; rfl
    rw [hone]
    by_cases h2 : 2 ≤ sec.length
    · rw [collapse_one h2, collapse_one (by simpa using h2)]
      simp only [List.length_map]
      set body := (sec.drop 1).take (sec.length - 2) with hb
      have hmem : ∀ l ∈ body, '\n' ∉ l := fun l hl => hnl l (List.mem_of_mem_drop (List.mem_of_mem_take hl))
      have hbody : (((sec.map fun l => l.take 66).drop 1).take (sec.length - 2)).map fitLine
          = body.map fun l => fitLine (l.take 66) := by
        rw [hb, ← List.map_drop, ← List.map_take, List.map_map]; rfl
      rw [hbody]
      have hf : ∀ l ∈ body, ∀ j, j < nc.toNat → field11 (fitLine (l.take 66)) j = field11 (fitLine l) j := by
        intro l hl j hj
        have h1 := hmem l hl
        have h1' : '\n' ∉ l.take 66 := fun hm => h1 (List.mem_of_mem_take hm)
        rw [field11_fitLine h1 (by omega), field11_fitLine h1' (by omega)]
        rw [List.drop_take, List.take_take]
        congr 2; omega
      have hrf : ∀ r j, j < nc.toNat →
          rowField (body.map fun l => fitLine (l.take 66)) r j = rowField (body.map fitLine) r j := by
        intro r j hj
        unfold rowField pyIdx
        simp only [List.getElem?_map]
        rcases hbi : body[r]? with _ | l
        · rfl
        · simp [hf l (List.mem_of_getElem? hbi) j hj]
      have hhead : headings (body.map fun l => fitLine (l.take 66)) nc.toNat = headings (body.map fitLine) nc.toNat := by
        unfold headings
        apply mapE_congr
        intro j hj
        simp at hj
        rw [hrf 0 j (by omega), hrf 1 j (by omega)]
      have hrow : ∀ i, dataRow (body.map fun l => fitLine (l.take 66)) nc.toNat i = dataRow (body.map fitLine) nc.toNat i := by
        intro i
        unfold dataRow
        rw [mapE_congr (f := rowField (body.map fun l => fitLine (l.take 66)) (2 + i))
          (g := rowField (body.map fitLine) (2 + i)) (fun j hj => hrf _ j (by simpa using hj))]
      simp only [hhead]
      rw [mapE_congr (fun i _ => hrow i)]
    · unfold collapse
      have : sec.length - 2 = 0 := by omega
      simp [this, mapE]
  · have hle : linesPerRow nc ≤ 0 := by
      unfold linesPerRow
      rw [Int.fdiv_eq_ediv_of_nonneg _ (by omega)]
      omega
    have : collapse (sec.map fun l => l.take 66) (linesPerRow nc) = collapse sec (linesPerRow nc) := by
      unfold collapse
      by_cases h0 : linesPerRow nc = 0
      · simp [h0]
      · have hlt : linesPerRow nc < 0 := by omega
        simp [h0, hlt]
    rw [this]

/-- C05: consequently two sections that agree up to column 66 parse alike. -/
theorem C05_two_runs_partial (tag : Str) (sec sec' : List Str) (hnl : ∀ l ∈ sec, '\n' ∉ l) (hnl' : ∀ l ∈ sec', '\n' ∉ l)
    (heq : sec.map (fun l => l.take 66) = sec'.map (fun l => l.take 66))
    (h6 : ∀ nc n, headerCounts sec = .ok (nc, n) → nc ≤ 6) (h6' : ∀ nc n, headerCounts sec' = .ok (nc, n) → nc ≤ 6) :
    DataSection.build tag sec = DataSection.build tag sec' := by
  rw [← C05_columns_past_66_partial tag sec hnl h6, ← C05_columns_past_66_partial tag sec' hnl' h6', heq]

/-- C05 is false for more than six columns: with a sequence number in columns 67-80
column 7 is read from the wrong place. -/
theorem C05_wide_refuted :
    ∃ sec d d', (∀ l ∈ sec, '\n' ∉ l) ∧ DataSection.build "DATA".toList sec = .ok d ∧
      DataSection.build "DATA".toList (sec.map fun l => l.take 66) = .ok d' ∧ d.data ≠ d'.data := by
  refine ⟨["DATA                 7          1".toList,
    "C1         C2         C3         C4         C5         C6         ".toList, "C7".toList,
    "U1         U2         U3         U4         U5         U6         ".toList, "U7".toList,
    "1          2          3          4          5          6          40001".toList, "7".toList, "ENDDATA".toList],
    _, _, by decide +kernel, rfl, rfl, by decide +kernel⟩

/-- the pointer carried by a label: its 11th character, if there is one -/
def labelPointer (l : Str) : Option Char := if l.length = 11 then l[10]? else none
/-- the column indices whose 11-character label ends in `p`, in order -/
def pointerColumns (labels : List Str) (p : Char) : List Nat :=
  (List.range labels.length).filter fun j => labels[j]?.bind labelPointer = some p

/-- C06 (partial: labels are distinct): the pointer map lists exactly the columns
carrying each pointer. -/
theorem C06_pointers_partial (tag : Str) (sec : List Str) (d : DataSection) (h : DataSection.build tag sec = .ok d)
    (hdist : d.labels.Nodup) (p : Char) :
    d.pointers.get? p = if pointerColumns d.labels p = [] then none else some (pointerColumns d.labels p) := by
  obtain ⟨n, c, hs, rows, b⟩ := build_ok h
  have e : d.pointers = pointersOf d.labels := by rw [b.eq]
  rw [e]
  generalize d.labels = labels at hdist
  unfold pointersOf pointerColumns
  have key : ∀ m, m ≤ labels.length → ((List.range m).foldl (pointerStep labels) []).get? p =
      if (List.range m).filter (fun j => labels[j]?.bind labelPointer = some p) = [] then none
      else some ((List.range m).filter (fun j => labels[j]?.bind labelPointer = some p)) := by
    intro m hm
    induction m with
    | zero => simp [Dict.get?]
    | succ m ih =>
      have ih := ih (by omega)
      rw [List.range_succ, List.foldl_append, List.filter_append]
      simp only [List.foldl_cons, List.foldl_nil]
      generalize (List.range m).foldl (pointerStep labels) [] = D at ih
      generalize (List.range m).filter (fun j => labels[j]?.bind labelPointer = some p) = F at ih
      have hget : labels[m]? = some labels[m] := List.getElem?_eq_getElem (by omega)
      have hidx : (labels.take (m + 1)).idxOf labels[m] = m := by
        have hnd : (labels.take (m + 1)).Nodup := hdist.sublist (List.take_sublist _ _)
        have := List.Nodup.idxOf_getElem hnd m (by simp; omega)
        simpa using this
      have hfil : List.filter (fun j => decide (labels[j]?.bind labelPointer = some p)) [m] =
          if labelPointer labels[m] = some p then [m] else [] := by
        by_cases hq : labelPointer labels[m] = some p <;> simp [hget, hq]
      rw [hfil]
      unfold pointerStep
      rw [hget]
      simp only
      by_cases h11 : labels[m].length = 11
      · rw [if_pos h11]
        have h10 : labels[m][10]? = some labels[m][10] := List.getElem?_eq_getElem (by omega)
        have hlp : labelPointer labels[m] = some labels[m][10] := by unfold labelPointer; rw [if_pos h11, h10]
        rw [h10, hlp]
        simp only
        rw [Dict.get?_set, hidx]
        by_cases hp : p = labels[m][10]
        · rw [if_pos hp, ← hp, ih]
          by_cases h0 : F = [] <;> simp [h0]
        · rw [if_neg hp, ih]
          simp [Ne.symm hp]
      · have hlp : labelPointer labels[m] = none := by unfold labelPointer; rw [if_neg h11]
        rw [if_neg h11, ih, hlp]
        simp
  exact key labels.length (le_refl _)

example : ∃ d, DataSection.build "DATA".toList demoSec = .ok d ∧ d.labels.Nodup ∧ d.pointers = [('1', [1])] :=
  ⟨_, rfl, by decide +kernel⟩

/-- C06 is false when two columns have the same label and pointer: the first of the two is
listed twice and the second is never listed. -/
theorem C06_refuted : ∃ sec d, DataSection.build "DATA".toList sec = .ok d ∧
    d.pointers.get? '1' = some [0, 0] ∧ pointerColumns d.labels '1' = [0, 1] :=
  ⟨["DATA                 2          0".toList, "DATA      1DATA      1".toList, [], "ENDDATA".toList], _, rfl,
    by decide +kernel⟩

end X4
