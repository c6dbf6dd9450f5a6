import Verif.Spec.Layout
import Verif.Props.EntryDoc
import Verif.Props.EntryRepr
/-! C120: the entry object does not depend on the layout of the file. -/
namespace X4
variable {ρ : Type}

/-! ### lines with a keyword -/

theorem keyword_pad {w l : Str} (h : KeywordLine w l) (hw : w.length ≤ 11) : ∃ r, ljust l 11 = ljust w 11 ++ r := by
  obtain ⟨-, r, rfl, hr⟩ := h
  have e : r = List.replicate (min (11 - w.length) r.length) ' ' ++ r.drop (11 - w.length) := by
    conv_lhs => rw [← List.take_append_drop (11 - w.length) r]
    congr 1
    rw [List.eq_replicate_iff]
    exact ⟨by simp, hr⟩
  rcases Nat.lt_or_ge r.length (11 - w.length) with hl | hl
  · refine ⟨[], ?_⟩
    have : r = List.replicate r.length ' ' := by
      rw [List.eq_replicate_iff]
      refine ⟨rfl, fun c hc => hr c ?_⟩
      rwa [List.take_of_length_le (by omega)]
    rw [this]
    simp only [ljust, List.append_assoc, List.length_append, List.length_replicate, List.append_nil, List.replicate_append_replicate]
    congr 2
    omega
  · refine ⟨r.drop (11 - w.length), ?_⟩
    rw [Nat.min_eq_left hl] at e
    have : 11 - (w ++ r).length = 0 := by simp; omega
    unfold ljust
    rw [this]
    simp only [List.replicate_zero, List.append_nil, List.append_assoc]
    rw [← e]

theorem keyword_tag11 {w l : Str} (h : KeywordLine w l) (hw : strip w = w) (hl : w.length ≤ 11) : tag11 l = w := by
  obtain ⟨r, hr⟩ := keyword_pad h hl
  unfold tag11
  rw [← strip_slice_ljust l 11, hr]
  exact tag11_ljust hw hl r

theorem keyword_tag10 {w l : Str} (h : KeywordLine w l) (hw : strip w = w) (hl : w.length ≤ 10) : strip (slice l 0 10) = w := by
  obtain ⟨r, hr⟩ := keyword_pad h (by omega)
  rw [← strip_slice_ljust l 11, hr]
  have h1 : ljust w 11 = ljust w 10 ++ [' '] := by
    unfold ljust
    rw [show 11 - w.length = (10 - w.length) + 1 by omega, List.replicate_succ', List.append_assoc]
  have h2 : (ljust w 10).length = 10 := by rw [length_ljust]; omega
  unfold slice
  rw [List.drop_zero, h1, List.append_assoc, List.take_append_of_le_length (by omega), List.take_of_length_le (by omega), strip_ljust, hw]

theorem keyword_starts {w l : Str} (h : KeywordLine w l) (hl : w.length ≤ 11) {v : Str} (hv : ' ' ∉ v) (hv2 : v.length ≤ 11) :
    startsWith l v = startsWith w v := by
  obtain ⟨r, hr⟩ := keyword_pad h hl
  have := startsWith_ljust l [] v 11 hv hv2
  rw [List.append_nil, hr, startsWith_ljust w r v 11 hv hv2] at this
  exact this.symm

theorem keyword_take3 {w l : Str} (h : KeywordLine w l) (hl : 3 ≤ w.length) : slice l 0 3 = w.take 3 := by
  obtain ⟨-, r, rfl, -⟩ := h
  unfold slice
  rw [List.drop_zero, List.take_append_of_le_length hl]

theorem keyword_inner {w l : Str} (h : KeywordLine w l) (hl : w.length ≤ 11)
    (hv : ∀ v ∈ [chars!"ENTRY", chars!"ENDENTRY", chars!"NOSUBENT", chars!"SUBENT", chars!"ENDSUBENT"], startsWith w v = false) : Inner (l ++ ['\n']) := by
  refine inner_of fun v hv' => ?_
  have : ' ' ∉ v ∧ v.length ≤ 11 := by clear hv; revert v; decide
  rw [keyword_starts h hl this.1 this.2]
  exact hv v hv'

/-! ### lines with the same columns -/

theorem same_tag {l l' : Str} (h : SameColumns l l') : tagOf l = tagOf l' := by
  have key : ∀ x : Str, tagOf x = tagOf ((ljust x 66).take 66) := by
    intro x
    unfold tagOf
    have := strip_slice_ljust x 66 0 10
    simp only [slice, List.drop_zero] at this
    rw [List.take_take, Nat.min_eq_left (by omega), this]
  rw [key l, key l', h]

theorem same_col {l l' : Str} (h : SameColumns l l') : col10 l = col10 l' := by
  have key : ∀ x : Str, col10 x = (((ljust x 66).take 66)[10]?).getD ' ' := by
    intro x
    unfold col10
    rw [List.getElem?_take_of_lt (by omega)]
  rw [key l, key l', h]

theorem same_text {l l' : Str} (h : SameColumns l l') : lineText l = lineText l' := by
  unfold lineText slice
  rw [h]

theorem same_starts {l l' : Str} (h : SameColumns l l') {v : Str} (hv : ' ' ∉ v) (hv2 : v.length ≤ 66) : startsWith l v = startsWith l' v := by
  have key : ∀ x : Str, startsWith x v = startsWith ((ljust x 66).take 66) v := by
    intro x
    have := startsWith_ljust x [] v 66 hv hv2
    rw [List.append_nil] at this
    rw [← this]
    unfold startsWith
    rw [Bool.eq_iff_iff, List.isPrefixOf_iff_prefix, List.isPrefixOf_iff_prefix]
    constructor
    · intro h
      rw [List.prefix_take_iff]
      exact ⟨h, hv2⟩
    · exact fun h => h.trans (List.take_prefix _ _)
  rw [key l, key l', h]

theorem same_noKeyword {l l' : Str} (h : SameColumns l l') (hl : NoKeyword l) : NoKeyword l' := by
  intro w hw
  have : ' ' ∉ w ∧ w.length ≤ 66 := by clear hl; revert w; decide
  rw [← same_starts h this.1 this.2]
  exact hl w hw

theorem foldl_same {ls ls' : List Str} (h : List.Forall₂ SameColumns ls ls') (st : Char × Dict Char (List Str)) :
    ls.foldl plainStep st = ls'.foldl plainStep st := by
  induction h generalizing st with
  | nil => rfl
  | @cons a b _ _ h _ ih =>
    have : plainStep st a = plainStep st b := by
      unfold plainStep
      rw [same_col h, same_text h]
    rw [List.foldl_cons, List.foldl_cons, this]
    exact ih _

theorem plainField_same {ls ls' : List Str} (h : List.Forall₂ SameColumns ls ls') : PlainField.build ls = PlainField.build ls' := by
  unfold PlainField.build
  rw [foldl_same h]
  cases h with
  | nil => rfl
  | cons h _ =>
    have := same_tag h
    unfold tagOf at this
    simp only [pyIdx, List.getElem?_cons_zero, slice, List.drop_zero]
    rw [this]

theorem infix_blanks {p t : Str} {a : Nat} (hp : ∀ c ∈ p.getLast?, c ≠ ' ') (h : p <:+: t ++ List.replicate a ' ') : p <:+: t := by
  induction a with
  | zero => simpa using h
  | succ a ih =>
    apply ih
    rw [List.replicate_succ', ← List.append_assoc] at h
    rcases List.infix_concat_iff.1 h with h | h
    · obtain ⟨u, hu⟩ := h
      rcases List.eq_nil_or_concat p with rfl | ⟨q, c, rfl⟩
      · exact List.nil_infix
      · exfalso
        rw [List.concat_eq_append, ← List.append_assoc] at hu
        have := (List.append_inj' hu rfl).2
        simp only [List.cons.injEq, and_true] at this
        exact hp c (by simp) this
    · exact h

theorem blanks_infix {p l l' : Str} (hp : ∀ c ∈ p.getLast?, c ≠ ' ') (h : UpToBlanks l l') : p <:+: l ↔ p <:+: l' := by
  obtain ⟨t, a, b, rfl, rfl⟩ := h
  exact ⟨fun h => (infix_blanks hp h).trans (List.prefix_append _ _).isInfix, fun h => (infix_blanks hp h).trans (List.prefix_append _ _).isInfix⟩

theorem isNoAuthor_same {ls ls' : List Str} (h : List.Forall₂ UpToBlanks ls ls') : isNoAuthor ls = isNoAuthor ls' := by
  rw [Bool.eq_iff_iff, isNoAuthor_iff, isNoAuthor_iff]
  have h1 : ∀ l l', UpToBlanks l l' → (("No author given".toList <:+: l ∨ ".NOT GIVEN.".toList <:+: l) ↔ ("No author given".toList <:+: l' ∨ ".NOT GIVEN.".toList <:+: l')) := by
    intro l l' hl
    rw [blanks_infix (p := "No author given".toList) (by decide) hl, blanks_infix (p := ".NOT GIVEN.".toList) (by decide) hl]
  generalize (fun l => "No author given".toList <:+: l ∨ ".NOT GIVEN.".toList <:+: l) = Q at h1
  induction h with
  | nil => simp
  | cons h _ ih => simp only [List.mem_cons, exists_eq_or_imp, h1 _ _ h, ih]

theorem field_same (P : FieldParsers ρ) {f : FieldDoc} {ls : List Str} (h : FieldLayout f ls) :
    extractX4FieldType f.lines = extractX4FieldType ls ∧ buildField P (some f.tag) f.lines = buildField P (some f.tag) ls := by
  have h1 : List.Forall₂ SameColumns f.lines ls := List.Forall₂.imp (fun _ _ h => h.2.1) h
  refine ⟨?_, buildField_congr P (plainField_same h1) ?_⟩
  · unfold extractX4FieldType
    rw [FieldDoc.lines] at h1 ⊢
    cases h1 with
    | cons h1 _ =>
      have := same_tag h1
      unfold tagOf at this
      simp only [pyIdx, List.getElem?_cons_zero, slice, List.drop_zero]
      rw [this]
  · intro hk
    exact isNoAuthor_same (List.Forall₂.imp (fun _ _ h => h.2.2 (Option.some.inj hk)) h)

/-! ### BIB sections -/

theorem foldE_forall₂ {ε σ α β} {f : σ → α → Except ε σ} {g : σ → β → Except ε σ} {l : List α} {l' : List β}
    (h : List.Forall₂ (fun a b => ∀ s, f s a = g s b) l l') (s : σ) : foldE f s l = foldE g s l' := by
  induction h generalizing s with
  | nil => rfl
  | cons h _ ih =>
    rw [foldE, foldE, h s]
    cases g s _ with
    | error e => rfl
    | ok s' => exact ih s'

theorem forall₂_mem_right {α β} {R : α → β → Prop} {l : List α} {l' : List β} (h : List.Forall₂ R l l') {b : β} (hb : b ∈ l') : ∃ a ∈ l, R a b := by
  induction h with
  | nil => exact nomatch hb
  | cons h _ ih =>
    rcases List.mem_cons.1 hb with rfl | hb
    · exact ⟨_, by simp, h⟩
    · obtain ⟨a, ha, h⟩ := ih hb
      exact ⟨a, by simp [ha], h⟩

theorem field_line {f : FieldDoc} (hf : f.wf) {ls : List Str} (h : FieldLayout f ls) {l : Str} (hl : l ∈ ls) :
    '\n' ∉ l ∧ NoKeyword l ∧ isBibFrame l = false := by
  obtain ⟨m, hm, h1, h2, -⟩ := forall₂_mem_right h hl
  refine ⟨h1, same_noKeyword h2 (noKeyword_field hf m hm), ?_⟩
  have := bib_frame_field hf m hm
  unfold isBibFrame at this ⊢
  rwa [← same_tag h2]

theorem field_cons {f : FieldDoc} {ls : List Str} (h : FieldLayout f ls) :
    ∃ l r, ls = l :: r ∧ tagOf l = tagOf (ljust f.tag 10 ++ f.first.1 :: f.first.2) ∧ ∀ m ∈ r, tagOf m = [] := by
  unfold FieldLayout at h
  rw [FieldDoc.lines] at h
  cases h with
  | cons h1 h2 =>
    refine ⟨_, _, rfl, (same_tag h1.2.1).symm, fun m hm => ?_⟩
    obtain ⟨x, hx, -, h3, -⟩ := forall₂_mem_right h2 hm
    obtain ⟨y, -, rfl⟩ := List.mem_map.1 hx
    rw [← same_tag h3, tagOf_rest]

theorem bib_lines_layout {fs : List FieldDoc} (hw : ∀ f ∈ fs, f.wf) {fields : List (List Str)} (h : List.Forall₂ FieldLayout fs fields) :
    ∀ l ∈ fields.flatten, '\n' ∉ l ∧ NoKeyword l ∧ isBibFrame l = false := by
  intro l hl
  obtain ⟨ls, h1, h2⟩ := List.mem_flatten.1 hl
  obtain ⟨f, hf, h3⟩ := forall₂_mem_right h h1
  exact field_line (hw f hf) h3 h2

theorem bib_chunks_layout {s : SubDoc} (hs : s.wf) {head last : Str} {fields : List (List Str)} (h1 : KeywordLine chars!"BIB" head)
    (h2 : List.Forall₂ FieldLayout s.bib fields) (h3 : KeywordLine chars!"ENDBIB" last) :
    bibChunkify (head :: (fields.flatten ++ [last])) = fields := by
  have hb : isBibFrame head = true := by
    have := keyword_tag10 h1 (by decide) (by decide)
    simp only [slice, List.drop_zero] at this
    unfold isBibFrame tagOf
    rw [this]
    decide
  have he : isBibFrame last = true := by
    have := keyword_tag10 h3 (by decide) (by decide)
    simp only [slice, List.drop_zero] at this
    unfold isBibFrame tagOf
    rw [this]
    decide
  have hlines := bib_lines_layout hs.fields h2
  have hfilter : (head :: (fields.flatten ++ [last])).filter (fun l => !isBibFrame l) = fields.flatten := by
    rw [List.filter_cons_of_neg (by rw [hb]; decide), List.filter_append,
      List.filter_cons_of_neg (by rw [he]; decide), List.filter_nil, List.append_nil, List.filter_eq_self]
    intro l hl
    rw [(hlines l hl).2.2]
    rfl
  symm
  apply C40_unique
  · obtain ⟨f, fs, hf⟩ := List.exists_cons_of_ne_nil hs.some
    rw [hf] at h2
    cases h2 with
    | cons h4 h5 =>
      obtain ⟨l, r, rfl, -, -⟩ := field_cons h4
      exact ⟨l, by simp, (field_line (hs.fields f (by simp [hf])) h4 (by simp)).2.2⟩
  · rw [hfilter]
    refine ⟨rfl, ?_, ?_⟩
    · intro g hg
      obtain ⟨f, hf, h4⟩ := forall₂_mem_right h2 hg
      obtain ⟨l, r, rfl, -, h5⟩ := field_cons h4
      refine ⟨l, r, rfl, fun m hm => ?_⟩
      rw [hasTag, h5 m hm]
      simp
    · intro g hg l hl
      obtain ⟨f, hf, h4⟩ := forall₂_mem_right h2 (List.mem_of_mem_tail hg)
      obtain ⟨l', r, rfl, h5, -⟩ := field_cons h4
      simp only [List.head?_cons, Option.mem_some_iff] at hl
      subst hl
      rw [hasTag, h5, tagOf_first (hs.fields f hf)]
      exact (hs.fields f hf).tag.1

theorem bib_same (P : FieldParsers ρ) {s : SubDoc} (hs : s.wf) {ls : List Str} (h : BibLayout s.bib ls) :
    BibSection.build P s.bibLines = BibSection.build P ls := by
  obtain ⟨head, fields, last, rfl, h1, h2, h3⟩ := h
  unfold BibSection.build
  rw [bib_chunks hs, bib_chunks_layout hs h1 h2 h3]
  refine foldE_forall₂ ?_ _
  rw [List.forall₂_map_left_iff]
  have hw := hs.fields
  generalize s.bib = fs at h2 hw
  induction h2 with
  | nil => exact .nil
  | @cons f g _ _ h _ ih =>
    refine .cons (fun b => ?_) (ih fun x hx => hw x (by simp [hx]))
    obtain ⟨h4, h5⟩ := field_same P h
    have h6 := fieldType_doc (hw f (by simp))
    unfold bibStep
    rw [← h4, h6]
    simp only [h5]

/-! ### tables -/

theorem nl_showsRow {cells ls : List Str} (h : ShowsRow cells ls) {l : Str} (hl : l ∈ ls) : '\n' ∉ l := by
  obtain ⟨k, hk⟩ := List.mem_iff_getElem?.1 hl
  exact (h.shows k l hk).1

theorem field11_showsRow {cells ls : List Str} (h : ShowsRow cells ls) {j : Nat} (hj : j < cells.length) :
    field11 (ls.map fitLine).flatten j = cells[j] := by
  have hk : j / 6 < ls.length := by rw [h.count, physLines]; omega
  have h1 := (h.shows (j / 6) ls[j / 6] (List.getElem?_eq_getElem hk)).2 (j % 6) cells[j] (by
    rw [List.getElem?_take_of_lt (Nat.mod_lt _ (by omega)), List.getElem?_drop, show 6 * (j / 6) + j % 6 = j by omega, List.getElem?_eq_getElem hj])
  rcases h.short with hs | hs
  · have hL : ls.length = 1 := by rw [h.count, physLines]; omega
    obtain ⟨l, rfl⟩ := List.length_eq_one_iff.1 hL
    have hj6 : j < 6 := by omega
    have e1 : j / 6 = 0 := by omega
    have e2 : j % 6 = j := by omega
    simp only [e1, e2, List.getElem_cons_zero] at h1
    simp only [List.map_cons, List.map_nil, List.flatten_cons, List.flatten_nil, List.append_nil]
    rw [field11_fitLine (nl_showsRow h (by simp)) hj6, h1]
  · rw [field11_flatten (fun l hl => ⟨nl_showsRow h hl, hs l hl⟩) hk, h1]

theorem flatten_get {β : Type} (L : Nat) (l : List (List β)) (h : ∀ a ∈ l, a.length = L) (r j : Nat) (hj : j < L) :
    l.flatten[r * L + j]? = (l[r]?).bind (fun a => a[j]?) := by
  have := flatMap_get (fun a : List β => a) L l h r j hj
  rwa [List.flatMap_id'] at this

/-- all ways of counting rows are understood -/
theorem reconcile_rowCount {k m L : Nat} (hL : 1 ≤ L) (hm : m = k ∨ m = k + 2 ∨ m = (k + 2) * L) :
    reconcile (2 + (k + 2) * L) m L = .ok (k : Int) := by
  unfold reconcile
  rcases hm with rfl | rfl | rfl
  · rw [if_neg (by push_cast; omega)]
  · rw [if_pos, if_pos (by push_cast; rfl)]
    · rw [show ((k + 2 : Nat) : Int) - 2 = k by push_cast; omega]
    · push_cast
      intro h
      have : ((k : Int) + 2 + 2) * L = (k + 2) * L + 2 * L := by ring
      omega
  · have h1 : (k + 2) * L ≤ ((k + 2) * L + 2) * L := by
      calc (k + 2) * L ≤ (k + 2) * L * L := Nat.le_mul_of_pos_right _ hL
        _ ≤ ((k + 2) * L + 2) * L := Nat.mul_le_mul_right _ (by omega)
    have h2 : (k + 2) * L < ((k + 2) * L + 2) * L := by
      have : ((k + 2) * L + 2) * L = (k + 2) * L * L + 2 * L := by ring
      have := Nat.le_mul_of_pos_right ((k + 2) * L) hL
      omega
    rw [if_pos (by intro h; have h' := Int.ofNat.inj (show ((2 + (k + 2) * L : Nat) : Int) = ((2 + ((k + 2) * L + 2) * L : Nat) : Int) by rw [h]; push_cast; ring); omega)]
    by_cases hL2 : L = 1
    · subst hL2
      rw [if_pos (by push_cast; ring)]
      simp
    · have h3 : (k + 2) * L < (k + 2) * L * L := by
        have : (k + 2) * L * 2 ≤ (k + 2) * L * L := Nat.mul_le_mul_left _ (by omega)
        have : 0 < (k + 2) * L := Nat.mul_pos (by omega) hL
        omega
      rw [if_neg (by intro h; have h' := Int.ofNat.inj (show ((2 + (k + 2) * L : Nat) : Int) = ((2 + (k + 2) * L * L : Nat) : Int) by rw [h]; push_cast; ring); omega),
        if_pos (by push_cast; ring), if_neg (by omega)]
      have : Int.fdiv (((k + 2) * L : Nat) : Int) (L : Int) = k + 2 := by
        rw [Int.fdiv_eq_ediv_of_nonneg _ (by omega)]
        push_cast
        exact Int.mul_ediv_cancel _ (by omega)
      rw [this]
      simp

theorem table_parts_layout {tag : Str} {t : TableDoc} (ht : t.wf) {ls : List Str} (h : TableLayout tag t ls) :
    ∃ (coll : List Str) (m : Int), headerCounts ls = .ok ((t.labels.length : Int), m) ∧
      reconcile ls.length m (linesPerRow t.labels.length) = .ok (t.rows.length : Int) ∧
      collapse ls (linesPerRow t.labels.length) = .ok coll ∧
      headings coll t.labels.length = .ok (t.labels.zip t.units) ∧
      ∀ i, (hi : i < t.rows.length) → mapE (rowField coll (2 + i)) (List.range t.labels.length) = .ok t.rows[i] := by
  obtain ⟨hdr, m, body, fin, hlines, -, hwords, hm, hrows, -⟩ := h
  set n := t.labels.length with hn
  have hn1 : 1 ≤ n := by have := List.length_pos_of_ne_nil ht.cols; omega
  set L := physLines n with hL
  have hL1 : 1 ≤ L := by rw [hL, physLines]; omega
  obtain ⟨hlpr, -⟩ := linesPerRow_pos (n := (n : Int)) (by omega)
  rw [Int.toNat_natCast, ← hL] at hlpr
  set all : List (List Str) := t.labels :: t.units :: t.rows with hall
  have hwidth : ∀ r ∈ all, r.length = n := by
    intro r hr
    rw [hall] at hr
    simp only [List.mem_cons] at hr
    rcases hr with rfl | rfl | hr
    · rfl
    · exact ht.units
    · exact ht.rect r hr
  have halllen : all.length = t.rows.length + 2 := by simp [hall]
  have hbl : body.length = t.rows.length + 2 := by rw [← hrows.length_eq, halllen]
  have hget : ∀ r (hr : r < body.length), ∃ hr' : r < all.length, ShowsRow all[r] body[r] := by
    intro r hr
    have hr' : r < all.length := by rw [hrows.length_eq]; exact hr
    exact ⟨hr', List.forall₂_iff_get.1 hrows |>.2 r hr' hr⟩
  have hlenL : ∀ r ∈ body, r.length = L := by
    intro r hr
    obtain ⟨cells, hc, h⟩ := forall₂_mem_right hrows hr
    rw [h.count, hwidth cells hc]
  have hblen : body.flatten.length = (t.rows.length + 2) * L := by
    have := length_flatMap_const (fun a : List Str => a) L body hlenL
    rw [List.flatMap_id'] at this
    rw [this, hbl]
  have hslen : ls.length = 2 + (t.rows.length + 2) * L := by
    rw [hlines]; simp only [List.length_cons, List.length_append, List.length_nil, hblen]; omega
  let coll : List Str := body.map fun r => (r.map fitLine).flatten
  have hcol : collapse ls L = .ok coll := by
    unfold collapse
    rw [if_neg (by omega), if_neg (by omega)]
    simp only [Int.toNat_natCast]
    have hcount : (ls.length - 2 + (L - 1)) / L = t.rows.length + 2 := by
      rw [hslen]
      have : 2 + (t.rows.length + 2) * L - 2 + (L - 1) = (L - 1) + (t.rows.length + 2) * L := by omega
      rw [this, Nat.add_mul_div_right _ _ (by omega), Nat.div_eq_of_lt (by omega)]
      omega
    rw [hcount]
    have hc : coll = (List.range (t.rows.length + 2)).map fun r => (((body[r]?.getD []).map fitLine).flatten) := by
      apply List.ext_getElem
      · simp [coll, hbl]
      · intro i h1 h2
        simp only [coll, List.getElem_map, List.getElem_range]
        rw [List.getElem?_eq_getElem (by simpa [coll] using h1)]
        rfl
    rw [hc]
    apply mapE_all_ok
    intro r hr
    rw [List.mem_range] at hr
    have hr' : r < body.length := by omega
    unfold collapseRow
    have : mapE (fun j => pyIdx ls (1 + r * L + j)) (List.range L) = .ok body[r] := by
      have e : body[r] = (List.range L).map fun j => body[r][j]?.getD [] := by
        apply List.ext_getElem
        · simpa using hlenL _ (List.getElem_mem hr')
        · intro i h1 h2; simp [h1]
      rw [e]
      apply mapE_all_ok
      intro j hj
      rw [List.mem_range] at hj
      have hj' : j < body[r].length := by rw [hlenL _ (List.getElem_mem hr')]; exact hj
      have hidx : r * L + j < body.flatten.length := by
        rw [hblen]
        have : (r + 1) * L ≤ (t.rows.length + 2) * L := Nat.mul_le_mul_right _ (by omega)
        rw [Nat.add_mul] at this
        omega
      have : ls[1 + r * L + j]? = some (body[r][j]) := by
        rw [hlines, show 1 + r * L + j = (r * L + j) + 1 by omega, List.getElem?_cons_succ, List.getElem?_append_left hidx,
          flatten_get L body hlenL r j hj, List.getElem?_eq_getElem hr']
        simp [List.getElem?_eq_getElem hj']
      rw [List.getElem?_eq_getElem hj']
      simpa using this
    rw [this, List.getElem?_eq_getElem hr']
    rfl
  have hrow : ∀ (r : Nat) (cells : List Str), all[r]? = some cells → ∀ j, (hj : j < n) → ∃ hj' : j < cells.length, rowField coll r j = .ok (cells[j]'hj') := by
    intro r cells hr j hj
    have hm := List.mem_of_getElem? hr
    have hj' : j < cells.length := by rw [hwidth _ hm]; exact hj
    refine ⟨hj', ?_⟩
    have hra : r < all.length := (List.getElem?_eq_some_iff.1 hr).1
    have hrb : r < body.length := by rw [← hrows.length_eq]; exact hra
    obtain ⟨_, hsh⟩ := hget r hrb
    have ec : all[r] = cells := (List.getElem?_eq_some_iff.1 hr).2
    rw [ec] at hsh
    rw [rowField_of (row := (body[r].map fitLine).flatten) (by simp [coll, hrb]), field11_showsRow hsh hj']
  have hu := ht.units
  have hhea : headings coll n = .ok (t.labels.zip t.units) := by
    unfold headings
    have e : t.labels.zip t.units = (List.range n).map fun j => (t.labels[j]?.getD [], t.units[j]?.getD []) := by
      apply List.ext_getElem
      · simp; omega
      · intro i h1 h2
        have h3 : i < t.labels.length := by simp at h2; omega
        simp [h3, show i < t.units.length by omega]
    rw [e]
    apply mapE_all_ok
    intro j hj
    rw [List.mem_range] at hj
    obtain ⟨h1, e1⟩ := hrow 0 t.labels (by simp [hall]) j hj
    obtain ⟨h2, e2⟩ := hrow 1 t.units (by simp [hall]) j hj
    rw [e1, e2]
    simp [h1, h2]
  refine ⟨coll, m, ?_, ?_, ?_, hhea, ?_⟩
  · unfold headerCounts
    rw [hlines]
    simp only [pyIdx, List.getElem?_cons_zero, hwords, List.getElem?_cons_succ, pyIntE, pyInt_natStr]
  · rw [hlpr, hslen]
    exact reconcile_rowCount hL1 hm
  · rw [hlpr]; exact hcol
  · intro i hi
    have e : t.rows[i] = (List.range n).map fun j => t.rows[i][j]?.getD [] := by
      apply List.ext_getElem
      · simpa using ht.rect _ (List.getElem_mem hi)
      · intro i h1 h2; simp [h1]
    rw [e]
    apply mapE_all_ok
    intro j hj
    rw [List.mem_range] at hj
    obtain ⟨h1, e1⟩ := hrow (2 + i) t.rows[i] (by rw [hall, Nat.add_comm]; simp) j hj
    rw [e1, List.getElem?_eq_getElem h1]
    rfl

/-- what is read of a table when its parts are known -/
theorem build_of_parts {tag : Str} {t : TableDoc} {ls ls' : List Str} {coll coll' : List Str} {m m' : Int}
    (h1 : headerCounts ls = .ok ((t.labels.length : Int), m)) (h1' : headerCounts ls' = .ok ((t.labels.length : Int), m'))
    (h2 : reconcile ls.length m (linesPerRow t.labels.length) = .ok (t.rows.length : Int))
    (h2' : reconcile ls'.length m' (linesPerRow t.labels.length) = .ok (t.rows.length : Int))
    (h3 : collapse ls (linesPerRow t.labels.length) = .ok coll) (h3' : collapse ls' (linesPerRow t.labels.length) = .ok coll')
    (h4 : headings coll' t.labels.length = headings coll t.labels.length)
    (h5 : ∀ i, i < t.rows.length → mapE (rowField coll' (2 + i)) (List.range t.labels.length) = mapE (rowField coll (2 + i)) (List.range t.labels.length)) :
    DataSection.build tag ls = DataSection.build tag ls' := by
  unfold DataSection.build
  rw [h1', h1]
  simp only [h2, h2', h3, h3', Int.toNat_natCast, h4]
  have : mapE (dataRow coll' t.labels.length) (List.range t.rows.length) = mapE (dataRow coll t.labels.length) (List.range t.rows.length) := by
    apply mapE_congr
    intro i hi
    unfold dataRow
    rw [h5 i (List.mem_range.1 hi)]
  rw [this]

theorem table_same {tag : Str} (htag : tag = chars!"DATA" ∨ tag = chars!"COMMON") {t : TableDoc} (ht : t.wf) {ls : List Str} (h : TableLayout tag t ls) :
    DataSection.build tag (t.lines tag) = DataSection.build tag ls := by
  obtain ⟨c, h1, h2, h3, h4, h5⟩ := table_parts tag htag t ht
  obtain ⟨c', m, h1', h2', h3', h4', h5'⟩ := table_parts_layout ht h
  exact build_of_parts h1 h1' h2 h2' h3 h3' (by rw [h4, h4']) fun i hi => by rw [h5 i hi, h5' i hi]

/-! ### subentries -/

theorem rowKeyword {cells ls : List Str} (hc : ∀ c ∈ cells, CellText c) (h : ShowsRow cells ls) : ∀ l ∈ ls, NoKeyword l := by
  intro l hl w hw
  obtain ⟨k, hk⟩ := List.mem_iff_getElem?.1 hl
  have hk' : k < ls.length := (List.getElem?_eq_some_iff.1 hk).1
  rw [h.count, physLines] at hk'
  have hlt : 6 * k < cells.length := by omega
  have h1 := (h.shows k l hk).2 0 cells[6 * k] (by
    rw [List.getElem?_take_of_lt (by omega), List.getElem?_drop, Nat.add_zero, List.getElem?_eq_getElem hlt])
  have hnk := (hc cells[6 * k] (List.getElem_mem hlt)).2.2.2 w hw
  have hw' : (∀ c ∈ w, isSpace c = false) ∧ w.length ≤ 11 ∧ w ≠ [] := by clear hnk; revert w; decide
  rw [← Bool.not_eq_true] at hnk ⊢
  intro hsw
  apply hnk
  unfold startsWith at hsw ⊢
  rw [List.isPrefixOf_iff_prefix] at hsw ⊢
  obtain ⟨r, rfl⟩ := hsw
  rw [← h1, Nat.mul_zero, List.drop_zero, List.take_append, List.take_of_length_le hw'.2.1]
  unfold strip
  obtain ⟨c, w', rfl⟩ := List.exists_cons_of_ne_nil hw'.2.2
  have e : lstrip (c :: w' ++ List.take (11 - (c :: w').length) r) = c :: w' ++ List.take (11 - (c :: w').length) r := by
    unfold lstrip
    rw [List.cons_append, List.dropWhile_cons_of_neg (by simp [hw'.1 c (by simp)])]
  rw [e]
  generalize List.take (11 - (c :: w').length) r = u
  unfold rstrip
  rw [List.reverse_append]
  have h2 : ∀ (a b : Str), (∀ x ∈ b, isSpace x = false) → b ≠ [] → ∃ a', (a ++ b).dropWhile isSpace = a' ++ b := by
    intro a b hb hne
    induction a with
    | nil =>
      obtain ⟨x, b', rfl⟩ := List.exists_cons_of_ne_nil hne
      exact ⟨[], by rw [List.nil_append, List.dropWhile_cons_of_neg (by simp [hb x (by simp)])]⟩
    | cons x a ih =>
      cases hx : isSpace x with
      | true => rw [List.cons_append, List.dropWhile_cons_of_pos hx]; exact ih
      | false => exact ⟨x :: a, by rw [List.cons_append, List.dropWhile_cons_of_neg (by simp [hx])]⟩
  obtain ⟨a', ha'⟩ := h2 u.reverse (c :: w').reverse (by intro x hx; exact hw'.1 x (List.mem_reverse.1 hx)) (by simp)
  rw [ha', List.reverse_append, List.reverse_reverse]
  exact List.prefix_append _ _

theorem table_lines {t : TableDoc} (ht : t.wf) {rows : List (List Str)} (h : List.Forall₂ ShowsRow (t.labels :: t.units :: t.rows) rows) :
    ∀ l ∈ rows.flatten, '\n' ∉ l ∧ NoKeyword l := by
  intro l hl
  obtain ⟨r, h1, h2⟩ := List.mem_flatten.1 hl
  obtain ⟨cells, hc, h3⟩ := forall₂_mem_right h h1
  refine ⟨nl_showsRow h3 h2, rowKeyword (fun c hm => ?_) h3 l h2⟩
  simp only [List.mem_cons] at hc
  rcases hc with rfl | rfl | hc
  · exact ht.labelCells c hm
  · exact ht.unitCells c hm
  · exact ht.rowCells cells hc c hm

theorem chunk_opt {tag : Str} (htag : tag = chars!"DATA" ∨ tag = chars!"COMMON") (o : Option TableDoc) (h : ∀ t ∈ o, t.wf) {ls : List Str}
    (hl : OptLayout tag o ls) (rest : List Str) :
    subentryChunkify (ls ++ rest) = (o.elim [] (fun _ => [ls])) ++ subentryChunkify rest := by
  have h1 : strip tag = tag ∧ tag.length ≤ 9 ∧ isSectionName tag = true ∧ strip (chars!"NO" ++ tag) = chars!"NO" ++ tag ∧ isSectionName (chars!"NO" ++ tag) = false := by
    rcases htag with rfl | rfl <;> decide
  cases o with
  | none =>
    unfold subentryChunkify
    refine chunkLoop_junk ?_ rest
    intro l hm
    rcases hl with rfl | ⟨m, rfl, hk⟩
    · exact nomatch hm
    · rw [List.mem_singleton.1 hm]
      beta_reduce
      rw [keyword_tag11 hk h1.2.2.2.1 (by simp; omega)]
      exact h1.2.2.2.2
  | some t =>
    obtain ⟨head, n, rows, last, rfl, h2, -, -, h3, h4⟩ := hl
    unfold subentryChunkify
    simp only [Option.elim]
    refine chunk_one ?_ ?_ ?_
    · beta_reduce
      rw [keyword_tag11 h2 h1.1 (by omega)]
      exact h1.2.2.1
    · intro l hl
      exact take3_of_noKeyword (table_lines (h t rfl) h3 l hl).2
    · beta_reduce
      rw [keyword_take3 h4 (by simp)]
      simp

theorem chunk_bib_layout {s : SubDoc} (h : s.wf) {ls : List Str} (hl : BibLayout s.bib ls) (rest : List Str) :
    subentryChunkify (ls ++ rest) = ls :: subentryChunkify rest := by
  obtain ⟨head, fields, last, rfl, h1, h2, h3⟩ := hl
  unfold subentryChunkify
  refine chunk_one ?_ ?_ ?_
  · beta_reduce
    rw [keyword_tag11 h1 (by decide) (by decide)]
    decide
  · intro l hl
    exact take3_of_noKeyword (bib_lines_layout h.fields h2 l hl).2.1
  · beta_reduce
    rw [keyword_take3 h3 (by decide)]
    decide

theorem sub_chunks_layout {s : SubDoc} (h : s.wf) {more last : Str} {bib common data : List Str} (h1 : BibLayout s.bib bib)
    (h2 : OptLayout chars!"COMMON" s.common common) (h3 : OptLayout chars!"DATA" s.data data) (h4 : KeywordLine chars!"ENDSUBENT" last) :
    subentryChunkify ((ljust chars!"SUBENT" 14 ++ s.acc ++ more) :: (bib ++ common ++ data ++ [last]) ++ [[]]) =
      bib :: (s.common.elim [] (fun _ => [common]) ++ s.data.elim [] (fun _ => [data])) := by
  have h0 : subentryChunkify ((ljust chars!"SUBENT" 14 ++ s.acc ++ more) :: (bib ++ common ++ data ++ [last]) ++ [[]]) =
      subentryChunkify (bib ++ (common ++ (data ++ [last, []]))) := by
    unfold subentryChunkify
    rw [List.cons_append, chunkLoop, if_neg]
    · simp only [List.append_assoc]; rfl
    · beta_reduce
      have : tag11 (ljust chars!"SUBENT" 14 ++ s.acc ++ more) = chars!"SUBENT" := by
        unfold tag11 slice
        rw [List.drop_zero, List.append_assoc, List.take_append_of_le_length (by decide)]
        decide
      rw [this]
      decide
  have hend : subentryChunkify [last, []] = [] := by
    unfold subentryChunkify
    have := chunkLoop_junk (S := fun l => isSectionName (tag11 l)) (E := fun l => decide (slice l 0 3 = "END".toList)) (junk := [last, []])
      (by
        intro l hl
        simp only [List.mem_cons, List.not_mem_nil, or_false] at hl
        rcases hl with rfl | rfl
        · beta_reduce
          rw [keyword_tag11 h4 (by decide) (by decide)]
          decide
        · decide) []
    rw [List.append_nil] at this
    rw [this]
    rfl
  rw [h0, chunk_bib_layout h h1, chunk_opt (.inr rfl) _ h.common h2, chunk_opt (.inl rfl) _ h.data h3, hend]
  simp

theorem sectionType_keyword {w l : Str} (h : KeywordLine w l) (hw : strip w = w) (hl : w.length ≤ 10) (hn : isSectionName w = true) (ls : List Str) :
    extractX4SectionType (l :: ls) = some w := by
  rw [extractX4SectionType, keyword_tag10 h hw hl, if_pos hn]

theorem opt_step {tag : Str} (htag : tag = chars!"DATA" ∨ tag = chars!"COMMON") (P : FieldParsers ρ) (o : Option TableDoc) (h : ∀ t ∈ o, t.wf) {ls : List Str}
    (hl : OptLayout tag o ls) : List.Forall₂ (fun a b => ∀ d, sectionStep P d a = sectionStep P d b) (o.elim [] (fun t => [t.lines tag])) (o.elim [] (fun _ => [ls])) := by
  cases o with
  | none => exact .nil
  | some t =>
    refine .cons (fun d => ?_) .nil
    have h3 : strip tag = tag ∧ tag.length ≤ 10 ∧ isSectionName tag = true ∧ tag ≠ "BIB".toList := by
      rcases htag with rfl | rfl <;> decide
    have e := table_same htag (h t rfl) hl
    obtain ⟨head, n, rows, last, rfl, h2, -, -, -, -⟩ := hl
    unfold sectionStep
    have e1 : extractX4SectionType (t.lines tag) = some tag := by
      rw [TableDoc.lines, List.append_assoc]
      exact sectionType_head h3.1 h3.2.1 h3.2.2.1 _ _
    rw [e1, sectionType_keyword h2 h3.1 h3.2.1 h3.2.2.1]
    simp only [if_neg h3.2.2.2, e]

theorem sub_same (P : FieldParsers ρ) {s : SubDoc} (h : s.wf) {ls : List Str} (hl : SubLayout s ls) :
    SubEntry.build P (s.lines ++ [[]]) = SubEntry.build P (ls ++ [[]]) := by
  obtain ⟨more, bib, common, data, last, rfl, -, h1, h2, h3, h4⟩ := hl
  have e1 : extractX4SubEntryIndex (s.lines ++ [[]]) = some s.acc := subIndex_doc h _
  have e2 : extractX4SubEntryIndex ((ljust chars!"SUBENT" 14 ++ s.acc ++ more) :: (bib ++ common ++ data ++ [last]) ++ [[]]) = some s.acc := by
    have h5 : firstWord (ljust chars!"SUBENT" 14 ++ s.acc ++ more) = some "SUBENT".toList := by
      rw [List.append_assoc]
      exact splitWs_ljust_head (w := chars!"SUBENT") (rest := List.replicate 8 ' ' ++ (s.acc ++ more)) (by decide) (by decide) (by intro c hc; simp at hc; subst hc; decide)
    rw [List.cons_append, subEntryIndex_eq, List.find?_cons, h5]
    simp only [decide_true, Option.map_some, Option.some.injEq]
    rw [List.append_assoc, List.drop_append_of_le_length (by decide)]
    have : List.drop 14 (ljust chars!"SUBENT" 14) = [] := by decide
    rw [this, List.nil_append, List.take_append_of_le_length (by rw [h.acc.1]), List.take_of_length_le (by rw [h.acc.1])]
  unfold SubEntry.build
  rw [e1, e2, sub_chunks h, sub_chunks_layout h h1 h2 h3 h4]
  have : foldE (sectionStep P) [] (s.bibLines :: (s.common.elim [] (fun t => [t.lines chars!"COMMON"]) ++ s.data.elim [] (fun t => [t.lines chars!"DATA"]))) =
      foldE (sectionStep P) [] (bib :: (s.common.elim [] (fun _ => [common]) ++ s.data.elim [] (fun _ => [data]))) := by
    refine foldE_forall₂ (.cons (fun d => ?_) (List.rel_append (opt_step (.inr rfl) P _ h.common h2) (opt_step (.inl rfl) P _ h.data h3))) _
    have e := bib_same P h h1
    obtain ⟨head, fields, fin, rfl, h6, -, -⟩ := h1
    unfold sectionStep
    have e1 : extractX4SectionType s.bibLines = some chars!"BIB" := by
      rw [SubDoc.bibLines, List.append_assoc]
      exact sectionType_head (by decide) (by decide) (by decide) _ _
    rw [e1, sectionType_keyword h6 (by decide) (by decide) (by decide)]
    simp only [if_pos (show chars!"BIB" = "BIB".toList by decide), e]
  rw [this]

/-! ### entries -/

theorem nl_opt {tag : Str} {o : Option TableDoc} (h : ∀ t ∈ o, t.wf) {ls : List Str} (hl : OptLayout tag o ls) : ∀ l ∈ ls, '\n' ∉ l := by
  intro l hm
  cases o with
  | none =>
    rcases hl with rfl | ⟨m, rfl, hk⟩
    · exact nomatch hm
    · rw [List.mem_singleton.1 hm]; exact hk.1
  | some t =>
    obtain ⟨head, n, rows, last, rfl, h2, -, -, h3, h4⟩ := hl
    simp only [List.mem_cons, List.mem_append, List.not_mem_nil, or_false] at hm
    rcases hm with rfl | hm | rfl
    · exact h2.1
    · exact (table_lines (h t rfl) h3 l hm).1
    · exact h4.1

theorem inner_opt {tag : Str} (htag : tag = chars!"DATA" ∨ tag = chars!"COMMON") {o : Option TableDoc} (h : ∀ t ∈ o, t.wf) {ls : List Str}
    (hl : OptLayout tag o ls) : ∀ l ∈ ls, Inner (l ++ ['\n']) := by
  intro l hm
  cases o with
  | none =>
    rcases hl with rfl | ⟨m, rfl, hk⟩
    · exact nomatch hm
    · rw [List.mem_singleton.1 hm]
      refine keyword_inner hk ?_ ?_ <;> rcases htag with rfl | rfl <;> decide
  | some t =>
    obtain ⟨head, n, rows, last, rfl, h2, -, -, h3, h4⟩ := hl
    simp only [List.mem_cons, List.mem_append, List.not_mem_nil, or_false] at hm
    rcases hm with rfl | hm | rfl
    · refine keyword_inner h2 ?_ ?_ <;> rcases htag with rfl | rfl <;> decide
    · exact inner_of_noKeyword (table_lines (h t rfl) h3 l hm).2
    · refine keyword_inner h4 ?_ ?_ <;> rcases htag with rfl | rfl <;> decide

theorem body_layout {s : SubDoc} (h : s.wf) {bib common data : List Str} (h1 : BibLayout s.bib bib)
    (h2 : OptLayout chars!"COMMON" s.common common) (h3 : OptLayout chars!"DATA" s.data data) :
    ∀ l ∈ bib ++ common ++ data, '\n' ∉ l ∧ Inner (l ++ ['\n']) := by
  intro l hl
  simp only [List.mem_append] at hl
  rcases hl with (hl | hl) | hl
  · obtain ⟨head, fields, last, rfl, h4, h5, h6⟩ := h1
    simp only [List.mem_cons, List.mem_append, List.not_mem_nil, or_false] at hl
    rcases hl with rfl | hl | rfl
    · exact ⟨h4.1, keyword_inner h4 (by decide) (by decide)⟩
    · have := bib_lines_layout h.fields h5 l hl
      exact ⟨this.1, inner_of_noKeyword this.2.1⟩
    · exact ⟨h6.1, keyword_inner h6 (by decide) (by decide)⟩
  · exact ⟨nl_opt h.common h2 l hl, inner_opt (.inr rfl) h.common h2 l hl⟩
  · exact ⟨nl_opt h.data h3 l hl, inner_opt (.inl rfl) h.data h3 l hl⟩

/-- the first line of a laid out subentry -/
theorem layout_head {acc more : Str} (ha : acc.length = 8) : List.drop 14 (ljust chars!"SUBENT" 14 ++ acc ++ more) = acc ++ more := by
  have h0 : List.drop 14 (ljust chars!"SUBENT" 14) = [] := by decide
  rw [List.append_assoc, List.drop_append_of_le_length (by decide), h0, List.nil_append]

theorem nl_subLayout {s : SubDoc} (h : s.wf) {ls : List Str} (hl : SubLayout s ls) : ∀ l ∈ ls, '\n' ∉ l := by
  obtain ⟨more, bib, common, data, last, rfl, hm, h1, h2, h3, h4⟩ := hl
  intro l hl
  rw [List.mem_cons, List.mem_append, List.mem_singleton] at hl
  rcases hl with rfl | hl | rfl
  · simp only [List.mem_append, not_or]
    refine ⟨⟨nl_ljust (by decide) _, fun hx => ?_⟩, hm⟩
    have := h.acc.2 _ hx
    revert this
    decide
  · exact (body_layout h h1 h2 h3 l hl).1
  · exact h4.1

/-- a laid out subentry as a stretch of a file -/
theorem layout_stretch {s : SubDoc} (h : s.wf) {ls : List Str} (hl : SubLayout s ls) :
    ∃ st : SubentText, st.lines = ls.map (· ++ ['\n']) ∧ st.Ok ∧ st.accession = s.acc := by
  obtain ⟨more, bib, common, data, last, rfl, hm, h1, h2, h3, h4⟩ := hl
  refine ⟨⟨ljust chars!"SUBENT" 14 ++ s.acc ++ more ++ ['\n'], (bib ++ common ++ data).map (· ++ ['\n']), last ++ ['\n']⟩, ?_, ⟨⟨?_, ?_⟩, ?_, ?_⟩, ?_⟩
  · simp [SubentText.lines]
  · simp only [List.append_assoc]
    rw [show "SUBENT".toList = chars!"SUBENT" from by decide, startsWith_ljust _ _ _ _ (by decide) (by decide)]
    decide
  · simp only [List.length_append, length_ljust, h.acc.1]
    have : (max (List.length chars!"SUBENT") 14) = 14 := by decide
    omega
  · intro l hl
    obtain ⟨m, hm, rfl⟩ := List.mem_map.1 hl
    exact (body_layout h h1 h2 h3 m hm).2
  · rw [show "ENDSUBENT".toList = chars!"ENDSUBENT" from by decide, startsWith_nl _ _ (by decide), keyword_starts h4 (by decide) (by decide) (by decide)]
    decide
  · simp only [SubentText.accession]
    rw [List.append_assoc _ more, layout_head h.acc.1, List.take_append_of_le_length (by rw [h.acc.1]), List.take_of_length_le (by rw [h.acc.1])]
    exact strip_plain h.acc.2

/-- the file as stretches -/
theorem file_layout {subs : List SubDoc} {F : List Str} (h : FileLayout subs F) (hw : ∀ s ∈ subs, s.wf) :
    ∃ sts, EntryFile F sts ∧ List.Forall₂ (fun s st => st.accession = s.acc ∧ ∃ ls, SubLayout s ls ∧ st.lines = ls.map (· ++ ['\n'])) subs sts := by
  induction h with
  | nil => exact ⟨[], .nil, .nil⟩
  | other l h1 h2 _ ih =>
    obtain ⟨sts, h3, h4⟩ := ih hw
    refine ⟨sts, .other l _ _ ⟨?_, ?_⟩ h3, h4⟩
    · rw [Bool.not_eq_true]; exact h1
    · rw [Bool.not_eq_true]; exact h2
  | @sub s lines subs ls h1 _ ih =>
    obtain ⟨sts, h3, h4⟩ := ih fun x hx => hw x (by simp [hx])
    obtain ⟨st, e, h5, h6⟩ := layout_stretch (hw s (by simp)) h1
    refine ⟨st :: sts, ?_, .cons ⟨h6, lines, h1, e⟩ h4⟩
    rw [← e]
    exact .subent st _ _ h5 h3

/-- what the entry object is made from -/
theorem raw_layout {subs : List SubDoc} {F : List Str} (h : FileLayout subs F) (hw : ∀ s ∈ subs, s.wf) (subents : Option (List Str)) :
    List.Forall₂ (fun s raw => ∃ ls, SubLayout s ls ∧ raw = (ls.map (· ++ ['\n'])).flatten)
      (subs.filter fun s => requested subents s.acc) (splitEntryFile subents F) := by
  obtain ⟨sts, h1, h2⟩ := file_layout h hw
  rw [C10_lossless _ _ h1, List.forall₂_map_right_iff]
  clear h h1 hw
  induction h2 with
  | nil => exact .nil
  | @cons s st _ _ h _ ih =>
    obtain ⟨h3, ls, h4, h5⟩ := h
    rw [List.filter_cons, List.filter_cons, h3]
    split
    · exact .cons ⟨ls, h4, by rw [h5]⟩ ih
    · exact ih

theorem entryIndex_layout {subs : List SubDoc} {raw : List Str} (hw : ∀ s ∈ subs, s.wf)
    (h : List.Forall₂ (fun s raw => ∃ ls, SubLayout s ls ∧ raw = (ls.map (· ++ ['\n'])).flatten) subs raw) :
    extractX4EntryIndex raw = subs.head?.map fun s => s.acc.take 5 := by
  cases h with
  | nil => rfl
  | @cons s x _ _ h _ =>
    obtain ⟨ls, ⟨more, bib, common, data, last, rfl, -⟩, rfl⟩ := h
    have h1 := (hw s (by simp)).acc.1
    have ht : ∃ r, (((ljust chars!"SUBENT" 14 ++ s.acc ++ more) :: (bib ++ common ++ data ++ [last])).map (· ++ ['\n'])).flatten =
        ljust chars!"SUBENT" 14 ++ (s.acc ++ r) := by
      simp only [List.map_cons, List.flatten_cons, List.append_assoc]
      exact ⟨_, rfl⟩
    obtain ⟨r, ht⟩ := ht
    have hw : firstWord (ljust chars!"SUBENT" 14 ++ (s.acc ++ r)) = some "SUBENT".toList :=
      splitWs_ljust_head (w := chars!"SUBENT") (rest := List.replicate 8 ' ' ++ (s.acc ++ r)) (by decide) (by decide) (by intro c hc; simp at hc; subst hc; decide)
    have h0 : List.drop 14 (ljust chars!"SUBENT" 14) = [] := by decide
    rw [ht, entryIndex_eq, entryNumber, List.find?_cons, hw]
    simp only [or_true, decide_true, Option.map_some, List.head?_cons, hw]
    rw [if_neg (by decide), List.drop_append_of_le_length (by decide), h0, List.nil_append, List.take_append_of_le_length (by rw [h1]; omega)]

/-- C120: two files with the same subentries, laid out in different ways, give the same entry object, or fail in the same way. -/
theorem C120_layout (P : FieldParsers ρ) (subs : List SubDoc) (hw : ∀ s ∈ subs, s.wf) (F F' : List Str) (h : FileLayout subs F) (h' : FileLayout subs F')
    (subents : Option (List Str)) : Entry.build P (splitEntryFile subents F) = Entry.build P (splitEntryFile subents F') := by
  have h1 := raw_layout h hw subents
  have h2 := raw_layout h' hw subents
  have hw' : ∀ s ∈ subs.filter fun s => requested subents s.acc, s.wf := fun s hs => hw s (List.mem_filter.1 hs).1
  generalize splitEntryFile subents F = raw at h1
  generalize splitEntryFile subents F' = raw' at h2
  generalize (subs.filter fun s => requested subents s.acc) = ss at h1 h2 hw'
  have h3 : foldE (entryStep P) [] raw = foldE (entryStep P) [] raw' := by
    have key : ∀ {ss : List SubDoc} {raw : List Str}, (∀ s ∈ ss, s.wf) → List.Forall₂ (fun s raw => ∃ ls, SubLayout s ls ∧ raw = (ls.map (· ++ ['\n'])).flatten) ss raw →
        foldE (entryStep P) [] (ss.map SubDoc.text) = foldE (entryStep P) [] raw := by
      intro ss raw hw h
      refine foldE_forall₂ ?_ _
      rw [List.forall₂_map_left_iff]
      induction h with
      | nil => exact .nil
      | @cons s x _ _ h _ ih =>
        refine .cons (fun d => ?_) (ih fun x hx => hw x (by simp [hx]))
        obtain ⟨ls, h4, rfl⟩ := h
        have hs := hw s (by simp)
        unfold entryStep
        rw [SubDoc.text, splitChar_lines (nl_sub hs), splitChar_lines (nl_subLayout hs h4), sub_same P hs h4]
    rw [← key hw' h1, key hw' h2]
  unfold Entry.build
  rw [entryIndex_layout hw' h1, entryIndex_layout hw' h2, h3]

/-! ### the written file is one of the layouts -/

theorem keyword_written {w : Str} (hw : '\n' ∉ w) {r : Str} (hr : '\n' ∉ r) : KeywordLine w (ljust w 11 ++ r) := by
  refine ⟨?_, List.replicate (11 - w.length) ' ' ++ r, by simp [ljust], fun c hc => ?_⟩
  · rw [List.mem_append, not_or]
    exact ⟨nl_ljust hw _, hr⟩
  · rw [List.take_append_of_le_length (by simp), List.take_of_length_le (by simp)] at hc
    exact (List.mem_replicate.1 hc).2

theorem nl_counters (n m : Nat) : '\n' ∉ counter n ++ counter m := by
  rw [List.mem_append, not_or]
  exact ⟨nl_counter n, nl_counter m⟩

theorem showsRow_written {cells : List Str} (h : ∀ c ∈ cells, CellText c) : ShowsRow cells (cellLines cells) := by
  have hc : ∀ c ∈ cells, CellOk c := fun c hc => cellOk_of_text (h c hc)
  refine ⟨length_rowLines cells, fun k l hk => ?_, .inr fun l hl => (cellLines_line hc l hl).2⟩
  obtain ⟨hk', rfl⟩ := List.getElem?_eq_some_iff.1 hk
  refine ⟨(cellLines_line hc _ (List.getElem_mem hk')).1, fun j c hj => ?_⟩
  rw [cellLines_get]
  have h' : ∀ c ∈ (cells.drop (6 * k)).take 6, CellOk c := fun c hc' => hc c (List.mem_of_mem_drop (List.mem_of_mem_take hc'))
  obtain ⟨hj', rfl⟩ := List.getElem?_eq_some_iff.1 hj
  unfold rowText
  rw [block_slice (w := 11) (ls := ((cells.drop (6 * k)).take 6).map fun c => ljust c 11) _ (by simpa using hj')]
  · simp only [List.getElem_map]
    rw [strip_ljust]
    exact (h' _ (List.getElem_mem hj')).1
  · intro l hl
    obtain ⟨c, hc, rfl⟩ := List.mem_map.1 hl
    have := (h' c hc).2.1
    rw [length_ljust]
    omega

theorem header_words {tag : Str} (ht : ∀ c ∈ tag, isSpace c = false) (htne : tag ≠ []) (htl : tag.length < 11)
    {nc nr : Nat} (hc : nc < 10 ^ 10) (hr : nr < 10 ^ 10) :
    splitWs ((ljust tag 11 ++ counter nc ++ counter nr).take 33) = [tag, natStr nc, natStr nr] := by
  obtain ⟨c1, c2, c3, c4⟩ := natStr_spec nc
  obtain ⟨r1, r2, r3, r4⟩ := natStr_spec nr
  have hlc := c4 10 (by omega) hc
  have hlr := r4 10 (by omega) hr
  have hsp : isSpace ' ' = true := by decide
  have hrep : ∀ n, 0 < n → List.replicate n ' ' = ' ' :: List.replicate (n - 1) ' ' := by
    intro n hn; rw [← List.replicate_succ]; congr 1; omega
  have hrepsp : ∀ n, ∀ c ∈ List.replicate n ' ', isSpace c := by
    intro n c hc; simp at hc; rw [hc.2]; exact hsp
  have hcs : ∀ c ∈ natStr nc, isSpace c = false := fun c h => isSpace_false_of_isDig (c1 c h)
  have hrs : ∀ c ∈ natStr nr, isSpace c = false := fun c h => isSpace_false_of_isDig (r1 c h)
  rw [List.take_of_length_le (by simp [counter]; omega)]
  unfold counter ljust rjust
  rw [hrep (11 - tag.length) (by omega), hrep (11 - (natStr nr).length) (by omega)]
  simp only [List.append_assoc, List.cons_append]
  rw [splitWs_word ht htne hsp, splitWs_spaces (hrepsp _), splitWs_spaces (hrepsp _),
    splitWs_word hcs c2 hsp, splitWs_spaces (hrepsp _), splitWs_last hrs r2]

theorem opt_written {tag : Str} (htag : tag = chars!"DATA" ∨ tag = chars!"COMMON") (o : Option TableDoc) (h : ∀ t ∈ o, t.wf) :
    OptLayout tag o (optTable tag o) := by
  have ht : (∀ c ∈ tag, isSpace c = false) ∧ tag ≠ [] ∧ tag.length < 11 ∧ '\n' ∉ tag ∧ '\n' ∉ chars!"NO" ++ tag ∧ '\n' ∉ chars!"END" ++ tag := by
    rcases htag with rfl | rfl <;> decide
  cases o with
  | none =>
    refine .inr ⟨_, rfl, ?_⟩
    rw [List.append_assoc]
    exact keyword_written ht.2.2.2.2.1 (nl_counters 0 0)
  | some t =>
    have hw := h t rfl
    refine ⟨_, _, (t.labels :: t.units :: t.rows).map cellLines, _, ?_, ?_, header_words ht.1 ht.2.1 ht.2.2.1 hw.few.1 hw.few.2, .inl rfl, ?_,
      keyword_written ht.2.2.2.2.2 (nl_counter t.body.length)⟩
    · simp only [optTable, TableDoc.lines, TableDoc.body, List.map_cons, List.flatten_cons, List.flatMap_def, List.append_assoc]
    · rw [List.append_assoc]
      exact keyword_written ht.2.2.2.1 (nl_counters _ _)
    · rw [List.forall₂_map_right_iff, List.forall₂_same]
      intro cells hc
      simp only [List.mem_cons] at hc
      rcases hc with rfl | rfl | hc
      · exact showsRow_written hw.labelCells
      · exact showsRow_written hw.unitCells
      · exact showsRow_written (hw.rowCells cells hc)

theorem sub_written {s : SubDoc} (h : s.wf) : SubLayout s s.lines := by
  refine ⟨[], s.bibLines, optTable chars!"COMMON" s.common, optTable chars!"DATA" s.data, _, ?_, by simp, ?_, opt_written (.inr rfl) _ h.common,
    opt_written (.inl rfl) _ h.data, keyword_written (by decide) (nl_counter s.body.length)⟩
  · simp only [SubDoc.lines, SubDoc.body, List.append_nil]
  · refine ⟨_, s.bib.map FieldDoc.lines, _, by rw [← List.flatMap_def]; rfl, ?_, ?_, keyword_written (by decide) (nl_counter (s.bib.flatMap FieldDoc.lines).length)⟩
    · rw [List.append_assoc]
      exact keyword_written (by decide) (nl_counters _ _)
    · rw [List.forall₂_map_right_iff, List.forall₂_same]
      intro f hf
      unfold FieldLayout
      rw [List.forall₂_same]
      exact fun l hl => ⟨nl_field (h.fields f hf) l hl, rfl, fun _ => ⟨l, 0, 0, by simp, by simp⟩⟩

/-- C120: the file in which the document is written is one of its layouts. -/
theorem C120_written (D : EntryDoc) (h : D.wf) : FileLayout D.subs D.file := by
  have hw : ∀ s ∈ D.subs, s.wf := fun s hs => (h.subs s hs).1
  have key : ∀ subs : List SubDoc, (∀ s ∈ subs, s.wf) → ∀ fin : Str, startsWith fin chars!"SUBENT" = false → startsWith fin chars!"ENDSUBENT" = false →
      FileLayout subs ((subs.flatMap SubDoc.lines).map (· ++ ['\n']) ++ [fin]) := by
    intro subs
    induction subs with
    | nil => exact fun _ fin h1 h2 => .other fin h1 h2 .nil
    | cons s subs ih =>
      intro hs fin h1 h2
      have := FileLayout.sub (sub_written (hs s (by simp))) (ih (fun x hx => hs x (by simp [hx])) fin h1 h2)
      simpa only [List.flatMap_cons, List.map_append, List.append_assoc] using this
  rw [EntryDoc.file, EntryDoc.lines, List.map_cons, List.map_append]
  refine .other _ ?_ ?_ (key D.subs hw _ ?_ ?_)
  all_goals
    beta_reduce
    rw [List.append_assoc, startsWith_ljust _ _ _ _ (by decide) (by decide)]
    decide

/-- C120: an entry is read from every layout of its file as the object that holds what is written. -/
theorem C120_read (P : FieldParsers ρ) (D : EntryDoc) (h : D.wf) (F : List Str) (hF : FileLayout D.subs F) (subents : Option (List Str))
    (hr : ∀ s ∈ D.subs, s.Readable P) (hs : ∃ s ∈ D.subs, requested subents s.acc) :
    ∃ e, Entry.build P (splitEntryFile subents F) = .ok e ∧ EntryHolds P D (D.subs.filter fun s => requested subents s.acc) e := by
  rw [C120_layout P D.subs (fun s hs => (h.subs s hs).1) F D.file hF (C120_written D h)]
  exact C85_read P D h subents hr hs

end X4
