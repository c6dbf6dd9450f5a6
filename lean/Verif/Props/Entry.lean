import Verif.Model.Entry
import Verif.Spec.Entry
import Verif.Spec.Chunks
import Verif.Lemmas.Chunks
import Verif.Lemmas.Field
import Verif.Lemmas.DataSection
import Verif.Props.Utilities
/-! Properties C09-C15: reading, cutting and indexing entries. -/
namespace X4
variable {ρ : Type}

/-! ### C09 -/

/-- C09: `X4Entry.chunkify` returns exactly the SUBENT…ENDSUBENT chunks. -/
theorem C09_entry (ls : List Str) (cs : List (List Str)) :
    entryChunkify ls = cs ↔ Chunks (HasKeyword "SUBENT".toList) (HasKeyword "ENDSUBENT".toList) ls cs := by
  unfold entryChunkify
  rw [← Chunks_iff]
  simp only [tag11, slice, List.drop_zero, decide_eq_true_eq]
  rfl

/-- C09: `X4SubEntry.chunkify` returns exactly the chunks from a BIB, DATA or COMMON line
to the next line beginning with END. -/
theorem C09_subentry (ls : List Str) (cs : List (List Str)) :
    subentryChunkify ls = cs ↔
      Chunks (fun l => HasKeyword "BIB".toList l ∨ HasKeyword "DATA".toList l ∨ HasKeyword "COMMON".toList l)
        (fun l => l.take 3 = "END".toList) ls cs := by
  unfold subentryChunkify
  rw [← Chunks_iff]
  simp only [isSectionName, tag11, slice, List.drop_zero, decide_eq_true_eq, HasKeyword, Bool.or_eq_true, or_assoc]

theorem C09_idempotent (ls : List Str) :
    entryChunkify (entryChunkify ls).flatten = entryChunkify ls ∧
    subentryChunkify (subentryChunkify ls).flatten = subentryChunkify ls :=
  ⟨chunkLoop_of_Chunks (Chunks_total ls).flatten, chunkLoop_of_Chunks (Chunks_total ls).flatten⟩

example : subentryChunkify ["x".toList, "BIB                  1          1".toList, "TITLE      t".toList, "ENDBIB".toList, "DATA".toList,
    "1".toList, "ENDDATA".toList, "COMMON".toList] =
    [["BIB                  1          1".toList, "TITLE      t".toList, "ENDBIB".toList], ["DATA".toList, "1".toList, "ENDDATA".toList]] := by
  decide +kernel

/-! ### C10, C11 -/

theorem startsWith_disjoint {l p q : Str} (hp : startsWith l p) (h : ¬ p <+: q) (h' : ¬ q <+: p) : startsWith l q = false := by
  simp only [startsWith, List.isPrefixOf_iff_prefix] at *
  by_contra hq
  simp only [Bool.not_eq_false, List.isPrefixOf_iff_prefix] at hq
  rcases List.prefix_or_prefix_of_prefix hp hq with h1 | h1
  · exact h h1
  · exact h' h1

theorem foldl_body {subents : Option (List Str)} (body : List Str) (acc : Str) (res : List Str)
    (h : ∀ l ∈ body, ¬ isFrame l ∧ ¬ startsWith l "SUBENT".toList ∧ ¬ startsWith l "ENDSUBENT".toList) :
    body.foldl (entryFileStep subents) (acc, res) = (acc ++ body.flatten, res) := by
  induction body generalizing acc with
  | nil => simp
  | cons l body ih =>
    obtain ⟨h1, h2, h3⟩ := h l (by simp)
    simp only [isFrame, not_or, Bool.not_eq_true] at h1
    simp only [Bool.not_eq_true] at h2 h3
    simp only [List.foldl_cons]
    have : entryFileStep subents (acc, res) l = (acc ++ l, res) := by
      simp only [entryFileStep, h1.1, h1.2.1, h1.2.2, h2, h3]; rfl
    rw [this, ih _ (fun x hx => h x (by simp [hx]))]
    simp

/-- C10: the texts returned are those of precisely the requested subentries, in file
order, each the concatenation of its lines. -/
theorem C10_lossless (ls : List Str) (ss : List SubentText) (h : EntryFile ls ss) (subents : Option (List Str)) :
    splitEntryFile subents ls =
      (ss.filter fun s => requested subents s.accession).map fun s => s.lines.flatten := by
  suffices ∀ acc res, (ls.foldl (entryFileStep subents) (acc, res)).2 = res ++
      (ss.filter fun s => requested subents s.accession).map fun s => s.lines.flatten by
    have := this [] []
    rw [List.nil_append] at this
    exact this
  induction h with
  | nil => simp
  | other l ls ss hl h ih =>
    intro acc res
    simp only [List.foldl_cons]
    have : ∃ acc', entryFileStep subents (acc, res) l = (acc', res) := by
      have hl2 : startsWith l "ENDSUBENT".toList = false := by simpa only [Bool.not_eq_true] using hl.2
      unfold entryFileStep
      rw [hl2]
      exact ⟨_, rfl⟩
    obtain ⟨acc', e⟩ := this
    rw [e]; exact ih _ _
  | subent s ls ss hs h ih =>
    intro acc res
    have hd := hs.head.1
    have h1 : startsWith s.head "ENTRY".toList = false := startsWith_disjoint hd (by decide) (by decide)
    have h2 : startsWith s.head "ENDENTRY".toList = false := startsWith_disjoint hd (by decide) (by decide)
    have h3 : startsWith s.head "NOSUBENT".toList = false := startsWith_disjoint hd (by decide) (by decide)
    have h4 : startsWith s.head "ENDSUBENT".toList = false := startsWith_disjoint hd (by decide) (by decide)
    have e1 : entryFileStep subents (acc, res) s.head = (s.head, res) := by
      simp only [entryFileStep, h1, h2, h3, h4, hd]; rfl
    have ht := hs.tail
    have t1 : startsWith s.tail "ENTRY".toList = false := startsWith_disjoint ht (by decide) (by decide)
    have t2 : startsWith s.tail "ENDENTRY".toList = false := startsWith_disjoint ht (by decide) (by decide)
    have t3 : startsWith s.tail "NOSUBENT".toList = false := startsWith_disjoint ht (by decide) (by decide)
    have t4 : startsWith s.tail "SUBENT".toList = false := startsWith_disjoint ht (by decide) (by decide)
    have e2 : entryFileStep subents (s.head ++ s.body.flatten, res) s.tail =
        ([], if requested subents s.accession then res ++ [s.lines.flatten] else res) := by
      have hacc : strip (slice (s.head ++ s.body.flatten ++ s.tail) 14 22) = s.accession := by
        rw [List.append_assoc, slice_append_left hs.head.2]
        simp only [slice, SubentText.accession, List.drop_take]
      simp only [entryFileStep, t1, t2, t3, t4, ht, Bool.or_false, Bool.false_eq_true, if_false, if_true, hacc, Prod.mk.injEq,
        true_and]
      have hfl : s.lines.flatten = s.head ++ s.body.flatten ++ s.tail := by simp [SubentText.lines]
      rw [hfl]; rfl
    rw [List.foldl_append]
    have : (s.lines).foldl (entryFileStep subents) (acc, res) = ([], if requested subents s.accession then res ++ [s.lines.flatten] else res) := by
      have : s.lines.foldl (entryFileStep subents) (acc, res) =
          entryFileStep subents (s.body.foldl (entryFileStep subents) (entryFileStep subents (acc, res) s.head)) s.tail := by
        simp only [SubentText.lines, List.foldl_append, List.foldl_cons, List.foldl_nil]
      rw [this, e1, foldl_body _ _ _ hs.body, e2]
    rw [this, ih]
    rw [List.filter_cons]
    split <;> simp

def demoFile : List Str := ["ENTRY            10001   19991231\n".toList, "SUBENT        10001001   19991231\n".toList,
  "BIB                  1          1\n".toList, "ENDSUBENT            3\n".toList, "NOSUBENT      10001002   19991231\n".toList,
  "SUBENT        10001003   19991231\n".toList, "DATA                 1          1\n".toList, "ENDSUBENT            3\n".toList, "ENDENTRY             3\n".toList]
def demoSubs : List SubentText :=
  [⟨"SUBENT        10001001   19991231\n".toList, ["BIB                  1          1\n".toList], "ENDSUBENT            3\n".toList⟩,
   ⟨"SUBENT        10001003   19991231\n".toList, ["DATA                 1          1\n".toList], "ENDSUBENT            3\n".toList⟩]
example : EntryFile demoFile demoSubs := by
  have h1 : demoSubs[0].Ok := by
    refine ⟨by decide, ?_, by decide⟩
    intro l hl
    rw [List.mem_singleton.1 hl]
    simp only [isFrame]; decide
  have h2 : demoSubs[1].Ok := by
    refine ⟨by decide, ?_, by decide⟩
    intro l hl
    rw [List.mem_singleton.1 hl]
    simp only [isFrame]; decide
  exact .other _ _ _ (by decide) (.subent demoSubs[0] _ _ h1 (.other _ _ _ (by decide)
    (.subent demoSubs[1] _ _ h2 (.other _ _ _ (by decide) .nil))))
example : splitEntryFile (some ["10001003".toList]) demoFile = [(demoSubs.getLast (by decide)).lines.flatten] := by decide +kernel

theorem foldl_body_frames {subents : Option (List Str)} (body : List Str) (acc : Str) (res : List Str)
    (h : ∀ l ∈ body, ¬ startsWith l "SUBENT".toList ∧ ¬ startsWith l "ENDSUBENT".toList) :
    body.foldl (entryFileStep subents) (acc, res) = (acc ++ (body.filter fun l => !isFrameB l).flatten, res) := by
  induction body generalizing acc with
  | nil => simp
  | cons l body ih =>
    obtain ⟨h2, h3⟩ := h l (by simp)
    simp only [Bool.not_eq_true] at h2 h3
    simp only [List.foldl_cons]
    have hb := ih
    by_cases hl : isFrameB l = true
    · have : entryFileStep subents (acc, res) l = (acc, res) := by
        unfold isFrameB at hl
        simp only [entryFileStep, hl, h3]; rfl
      rw [this, ih _ (fun x hx => h x (by simp [hx]))]
      simp [hl]
    · have : entryFileStep subents (acc, res) l = (acc ++ l, res) := by
        simp only [Bool.not_eq_true] at hl
        have hl' := hl
        unfold isFrameB at hl'
        simp only [entryFileStep, hl', h2, h3]; rfl
      rw [this, ih _ (fun x hx => h x (by simp [hx]))]
      simp [hl]

/-- C10: an ENTRY, ENDENTRY or NOSUBENT line inside a subentry is left out of its text, and nothing else is. -/
theorem C10_frame_lines (s : SubentText) (pre : List Str) (subents : Option (List Str))
    (hh : startsWith s.head "SUBENT".toList ∧ 22 ≤ s.head.length) (ht : startsWith s.tail "ENDSUBENT".toList)
    (hpre : ∀ l ∈ pre, ¬ startsWith l "ENDSUBENT".toList)
    (hb : ∀ l ∈ s.body, ¬ startsWith l "SUBENT".toList ∧ ¬ startsWith l "ENDSUBENT".toList) :
    splitEntryFile subents (pre ++ s.lines) =
      if requested subents s.accession then
        [s.head ++ (s.body.filter fun l => !isFrameB l).flatten ++ s.tail] else [] := by
  have hp : ∀ acc, ∃ acc', pre.foldl (entryFileStep subents) (acc, []) = (acc', []) := by
    clear hb
    induction pre with
    | nil => exact fun acc => ⟨acc, rfl⟩
    | cons l pre ih =>
      intro acc
      have hl2 : startsWith l "ENDSUBENT".toList = false := by
        simpa only [Bool.not_eq_true] using hpre l (by simp)
      have : ∃ acc', entryFileStep subents (acc, []) l = (acc', []) := by
        unfold entryFileStep
        rw [hl2]
        exact ⟨_, rfl⟩
      obtain ⟨acc', e⟩ := this
      rw [List.foldl_cons, e]
      exact ih (fun x hx => hpre x (by simp [hx])) acc'
  obtain ⟨acc, hacc⟩ := hp []
  have hd := hh.1
  have h1 : startsWith s.head "ENTRY".toList = false := startsWith_disjoint hd (by decide) (by decide)
  have h2 : startsWith s.head "ENDENTRY".toList = false := startsWith_disjoint hd (by decide) (by decide)
  have h3 : startsWith s.head "NOSUBENT".toList = false := startsWith_disjoint hd (by decide) (by decide)
  have h4 : startsWith s.head "ENDSUBENT".toList = false := startsWith_disjoint hd (by decide) (by decide)
  have e1 : entryFileStep subents (acc, []) s.head = (s.head, []) := by
    simp only [entryFileStep, h1, h2, h3, h4, hd]; rfl
  have t1 : startsWith s.tail "ENTRY".toList = false := startsWith_disjoint ht (by decide) (by decide)
  have t2 : startsWith s.tail "ENDENTRY".toList = false := startsWith_disjoint ht (by decide) (by decide)
  have t3 : startsWith s.tail "NOSUBENT".toList = false := startsWith_disjoint ht (by decide) (by decide)
  have t4 : startsWith s.tail "SUBENT".toList = false := startsWith_disjoint ht (by decide) (by decide)
  unfold splitEntryFile
  rw [List.foldl_append, hacc, SubentText.lines, List.cons_append, List.foldl_cons, e1, List.foldl_append,
    foldl_body_frames _ _ _ hb]
  simp only [List.foldl_cons, List.foldl_nil]
  generalize hB : (s.body.filter fun l => !isFrameB l).flatten = B
  have hacc : strip (slice (s.head ++ B ++ s.tail) 14 22) = s.accession := by
    rw [List.append_assoc, slice_append_left hh.2]
    simp only [slice, SubentText.accession, List.drop_take]
  simp only [entryFileStep, t1, t2, t3, t4, ht, Bool.or_false, Bool.false_eq_true, if_false, if_true, hacc, List.nil_append]
  rfl

example : splitEntryFile none (["ENTRY            10001   19991231\n".toList] ++
    (SubentText.mk "SUBENT        10001001   19991231\n".toList
      ["BIB                  1          1\n".toList, "NOSUBENT      10001002   19991231\n".toList, "ENDBIB\n".toList]
      "ENDSUBENT            3\n".toList).lines) =
    ["SUBENT        10001001   19991231\nBIB                  1          1\nENDBIB\nENDSUBENT            3\n".toList] := by
  decide +kernel

/-- C11: a wrong-length number is rejected without reading anything. -/
theorem C11_validated (db : DB) (enum : Str) (subents : Option (List Str)) (h : enum.length ≠ 5) :
    entryFactoryRaw db enum subents = ([], .error .valueError) := by
  simp [entryFactoryRaw, h]

/-- C11/C10: otherwise exactly one file is read, and what is returned is its cut. -/
theorem C11_reads_own_file (db : DB) (enum : Str) (subents : Option (List Str)) (h : enum.length = 5) :
    (entryFactoryRaw db enum subents).1 = [enum.take 3 ++ "/".toList ++ enum ++ ".x4".toList] ∧
    ∀ r, (entryFactoryRaw db enum subents).2 = .ok r ↔
      ∃ ls, db.read (enum.take 3 ++ "/".toList ++ enum ++ ".x4".toList) = .ok ls ∧ r = splitEntryFile subents ls := by
  simp only [entryFactoryRaw, h, ne_eq, not_true, if_false, slice, List.drop_zero]
  refine ⟨rfl, ?_⟩
  intro r
  have : enum.take 3 ++ ['/'] ++ enum ++ ".x4".toList = enum.take 3 ++ "/".toList ++ enum ++ ".x4".toList := rfl
  rw [this]
  cases db.read (enum.take 3 ++ "/".toList ++ enum ++ ".x4".toList) with
  | error e => simp
  | ok ls => simp [eq_comm]

example : "1000".toList.length ≠ 5 ∧ "10001".toList.length = 5 := by decide

/-! ### C12, C13 -/

theorem natStr_digits (n : Nat) : ∀ c ∈ natStr n, isDig c := fun c hc => (natStr_spec n).1 c hc

theorem zfill_of_digits {s : Str} (n : Nat) (h : ∀ c ∈ s, isDig c) : zfill s n = List.replicate (n - s.length) '0' ++ s := by
  cases s with
  | nil => rfl
  | cons c s =>
    have hc := h c (by simp)
    unfold zfill
    split
    · rename_i heq; simp at heq; rw [heq.1] at hc; exact absurd hc (by decide)
    · rename_i heq; simp at heq; rw [heq.1] at hc; exact absurd hc (by decide)
    · rfl

theorem natStr_length_le (n : Nat) (h : n ≤ 999) : (natStr n).length ≤ 3 := by
  simp only [natStr, List.length_reverse]
  have aux : ∀ fuel k m : Nat, m < 10 ^ (k + 1) → (natDigitsRev fuel m).length ≤ k + 1 := by
    intro fuel
    induction fuel with
    | zero => intro k m _; simp [natDigitsRev]
    | succ f ih =>
      intro k m hm
      simp only [natDigitsRev]
      split
      · simp
      · rename_i hge
        cases k with
        | zero => simp at hm; omega
        | succ k =>
          have : m / 10 < 10 ^ (k + 1) := by
            rw [Nat.div_lt_iff_lt_mul (by omega)]
            rw [Nat.pow_succ] at hm; exact hm
          have := ih k (m / 10) this
          simp only [List.length_cons]; omega
  exact aux _ 2 n (by omega)

theorem Entry.build_accnum {P : FieldParsers ρ} {raw : List Str} {e : Entry ρ} (h : Entry.build P raw = .ok e) :
    e.accnum.length = 5 := by
  unfold Entry.build at h
  split at h
  · simp at h
  · split at h
    · simp at h
    · rename_i hl
      split at h
      · simp at h
      · simp at h; rw [← h]; simpa using hl

theorem getItem_short (e : Entry ρ) {s : Str} (h : s.length ≤ 3) :
    e.getItem (.str s) = e.subs.get (some (e.accnum ++ zfill s 3)) := by
  show e.getStr s = _
  unfold Entry.getStr
  rw [if_neg (by omega), if_pos h]
theorem getItem_full (e : Entry ρ) {s : Str} (h : s.length = 8) : e.getItem (.str s) = e.subs.get (some s) := by
  show e.getStr s = _
  unfold Entry.getStr
  rw [if_pos h]

/-- C12: an int 0..999, its decimal string, its zero-padded string and the 8-character
number are the same index. -/
theorem C12_spellings (P : FieldParsers ρ) (raw : List Str) (e : Entry ρ) (h : Entry.build P raw = .ok e) (n : Nat) (hn : n ≤ 999) :
    let padded := List.replicate (3 - (natStr n).length) '0' ++ natStr n
    e.getItem (.int n) = e.getItem (.str (natStr n)) ∧
    e.getItem (.str padded) = e.getItem (.str (natStr n)) ∧
    e.getItem (.str (e.accnum ++ padded)) = e.getItem (.str (natStr n)) ∧
    e.getItem (.str (natStr n)) = e.subs.get (some (e.accnum ++ padded)) := by
  have hacc := Entry.build_accnum h
  have hd := natStr_digits n
  have hl := natStr_length_le n hn
  have hz : zfill (natStr n) 3 = List.replicate (3 - (natStr n).length) '0' ++ natStr n := zfill_of_digits 3 hd
  have hpl : (List.replicate (3 - (natStr n).length) '0' ++ natStr n).length = 3 := by simp; omega
  have hpd : ∀ c ∈ List.replicate (3 - (natStr n).length) '0' ++ natStr n, isDig c := by
    intro c hc
    rw [List.mem_append] at hc
    rcases hc with hc | hc
    · rw [List.eq_of_mem_replicate hc]; decide
    · exact hd c hc
  intro padded
  have hbase : e.getItem (.str (natStr n)) = e.subs.get (some (e.accnum ++ padded)) := by
    rw [getItem_short e hl, hz]
  refine ⟨rfl, ?_, ?_, hbase⟩
  · rw [hbase, getItem_short e (by rw [hpl]), zfill_of_digits 3 hpd, hpl]; rfl
  · rw [hbase, getItem_full e (by rw [List.length_append, hacc, hpl])]

/-- C12: every string of 4..7 or more than 8 characters raises KeyError. -/
theorem C12_bad_length (e : Entry ρ) (s : Str) (h : 3 < s.length) (h8 : s.length ≠ 8) :
    e.getItem (.str s) = .error .keyError := by
  show e.getStr s = _
  unfold Entry.getStr
  rw [if_neg h8, if_neg (by omega)]

theorem splitOnP_append_gen {α} {p : α → Bool} (a : List α) {c : α} (b : List α) (hc : p c = true) :
    splitOnP p (a ++ c :: b) = splitOnP p a ++ splitOnP p b := by
  induction a with
  | nil => simp [splitOnP, hc]
  | cons x a ih =>
    by_cases hx : p x = true
    · simp only [List.cons_append, splitOnP, hx, if_true]
      rw [ih]
    · simp only [List.cons_append, splitOnP, hx]
      rw [ih]
      have hne := splitOnP_ne_nil p a
      cases hs : splitOnP p a with
      | nil => exact absurd hs hne
      | cons u v => simp

theorem splitWs_append_space (a : Str) {c : Char} (b : Str) (hc : isSpace c = true) :
    splitWs (a ++ c :: b) = splitWs a ++ splitWs b := by
  simp [splitWs, splitOnP_append_gen a b hc]

theorem splitWs_blank {b : Str} (h : ∀ x ∈ b, isSpace x = true) : splitWs b = [] := by
  induction b with
  | nil => rfl
  | cons c b ih =>
    have := splitWs_append_space [] b (h c (by simp))
    rw [List.nil_append] at this
    rw [this, ih (fun x hx => h x (by simp [hx]))]; rfl

theorem splitWs_trim {a s b : Str} (ha : ∀ x ∈ a, isSpace x = true) (hb : ∀ x ∈ b, isSpace x = true) :
    splitWs (a ++ s ++ b) = splitWs s := by
  have h1 : splitWs (a ++ s) = splitWs s := by
    rcases List.eq_nil_or_concat a with rfl | ⟨a', c, rfl⟩
    · rfl
    · rw [List.concat_eq_append, List.append_assoc, List.singleton_append,
        splitWs_append_space _ _ (ha c (by simp)), splitWs_blank (fun x hx => ha x (by simp [hx]))]
      rfl
  cases b with
  | nil => simpa using h1
  | cons c b =>
    rw [splitWs_append_space _ _ (hb c (by simp)), h1, splitWs_blank (b := b) (fun x hx => hb x (by simp [hx]))]
    simp

theorem splitWs_strip (l : Str) : splitWs (strip l) = splitWs l := by
  obtain ⟨a, b, h, ha, hb⟩ := strip_decomp l
  conv_rhs => rw [h, splitWs_trim ha hb]

theorem splitWs_strip_head (l : Str) : (splitWs (strip l)).head? = (splitWs l).head? := by rw [splitWs_strip]

theorem subEntryIndex_eq (lines : List Str) :
    extractX4SubEntryIndex lines = (lines.find? fun l => firstWord l = some "SUBENT".toList).map fun l => (l.drop 14).take 8 := by
  induction lines with
  | nil => rfl
  | cons l ls ih =>
    simp only [extractX4SubEntryIndex, splitWs_strip_head, List.find?_cons, firstWord] at *
    by_cases h : (splitWs l).head? = some "SUBENT".toList
    · rw [if_pos h]; simp [h, slice, List.drop_take]
    · rw [if_neg h, ih]; simp only [h, decide_false]

theorem entryIndex_eq (raw : List Str) : extractX4EntryIndex raw = entryNumber raw := by
  induction raw with
  | nil => rfl
  | cons l ls ih =>
    unfold extractX4EntryIndex
    have hd : ∀ a b : Nat, a + b = 22 → slice l a 22 = (l.drop a).take b := by
      intro a b hab; simp only [slice, List.drop_take]; congr 1; omega
    by_cases hb : strip l = []
    · rw [if_pos hb, ih]
      have h0 : firstWord l = none := by
        have := splitWs_strip_head l
        rw [hb] at this
        exact this.symm
      simp [entryNumber, h0]
    · rw [if_neg hb]
      by_cases h1 : (splitWs l).head? = some "ENTRY".toList
      · rw [if_pos h1]
        simp [entryNumber, firstWord, h1, hd 14 8 rfl]
      · rw [if_neg h1]
        by_cases h2 : (splitWs l).head? = some "SUBENT".toList
        · rw [if_pos h2]
          have h3 : ¬ firstWord l = some "ENTRY".toList := h1
          have h4 : firstWord l = some "SUBENT".toList := h2
          rw [entryNumber, List.find?_cons]
          simp only [h4, or_true, decide_true, Option.map_some, Option.some.injEq]
          rw [if_neg (by decide), hd 14 8 rfl]
          simp [slice, List.take_take]
        · rw [if_neg h2, ih]
          simp only [entryNumber, firstWord, List.find?_cons, h1, h2, or_self, decide_false]

theorem foldE_entry {P : FieldParsers ρ} (raw : List Str) (d d' : Dict (Option Str) (SubEntry ρ)) (h : foldE (entryStep P) d raw = .ok d') (k : Option Str) :
    d'.get? k = match (raw.filter fun x => accessionField x = k).getLast? with
      | none => d.get? k
      | some x => (SubEntry.build P (splitChar '\n' x)).toOption := by
  induction raw generalizing d with
  | nil => simp [foldE] at h; subst h; simp
  | cons x raw ih =>
    simp only [foldE] at h
    cases hb : SubEntry.build P (splitChar '\n' x) with
    | error e => simp [entryStep, hb] at h
    | ok s =>
      have hacc : s.accnum = accessionField x := by
        have : s.accnum = extractX4SubEntryIndex (splitChar '\n' x) := by
          unfold SubEntry.build at hb
          split at hb
          · simp at hb
          · simp at hb; rw [← hb]
        rw [this, subEntryIndex_eq]; rfl
      simp only [entryStep, hb] at h
      rw [ih _ h]
      rw [List.filter_cons]
      by_cases hk : accessionField x = k
      · simp only [hk, decide_true, if_true]
        rw [Dict.get?_set, hacc, if_pos hk.symm]
        cases hl : (raw.filter fun x => accessionField x = k).getLast? with
        | none =>
          rw [List.getLast?_eq_none_iff] at hl
          rw [hl]; simp [hb, Except.toOption]
        | some y =>
          rw [List.getLast?_cons]; simp [hl]
      · simp only [hk, decide_false, Bool.false_eq_true, if_false]
        rw [Dict.get?_set, hacc, if_neg (fun e => hk e.symm)]

/-- C13: the entry number is that of the first element, and each key is the accession
field of a given subentry and maps to the last subentry with that number. -/
theorem C13_keys (P : FieldParsers ρ) (raw : List Str) (e : Entry ρ) (h : Entry.build P raw = .ok e) :
    entryNumber raw = some e.accnum ∧ e.accnum.length = 5 ∧
    (∀ k, k ∈ e.subs.keys ↔ ∃ x ∈ raw, accessionField x = k) ∧
    (∀ k s, e.subs.get? k = some s ↔ ∃ x, (raw.filter fun x => accessionField x = k).getLast? = some x ∧
      SubEntry.build P (splitChar '\n' x) = .ok s) := by
  have hlen := Entry.build_accnum h
  unfold Entry.build at h
  rw [entryIndex_eq] at h
  split at h
  · simp at h
  · rename_i acc hacc
    split at h
    · simp at h
    · split at h
      · simp at h
      · rename_i d hd
        simp only [Except.ok.injEq] at h
        subst h
        have hall : ∀ x ∈ raw, ∃ s, SubEntry.build P (splitChar '\n' x) = .ok s := by
          clear hlen hacc
          generalize ([] : Dict (Option Str) (SubEntry ρ)) = d0 at hd
          induction raw generalizing d0 with
          | nil => simp
          | cons x raw ih =>
            simp only [foldE] at hd
            cases hb : SubEntry.build P (splitChar '\n' x) with
            | error e => simp [entryStep, hb] at hd
            | ok s =>
              simp only [entryStep, hb] at hd
              intro y hy
              rcases List.mem_cons.1 hy with rfl | hy
              · exact ⟨s, hb⟩
              · exact ih _ hd y hy
        have hget := fun k => foldE_entry raw [] d hd k
        refine ⟨hacc, hlen, ?_, ?_⟩
        · intro k
          simp only
          rw [Dict.mem_keys_iff, hget k]
          cases hl : (raw.filter fun x => accessionField x = k).getLast? with
          | none =>
            rw [List.getLast?_eq_none_iff, List.filter_eq_nil_iff] at hl
            simp [Dict.get?]
            simpa using hl
          | some x =>
            have hm := List.mem_of_getLast? hl
            rw [List.mem_filter] at hm
            obtain ⟨s, hs⟩ := hall x hm.1
            simp only [hs, Except.toOption, Option.isSome_some, true_iff]
            exact ⟨x, hm.1, by simpa using hm.2⟩
        · intro k s
          simp only
          rw [hget k]
          cases hl : (raw.filter fun x => accessionField x = k).getLast? with
          | none => simp [Dict.get?]
          | some x =>
            cases hb : SubEntry.build P (splitChar '\n' x) <;> simp [Except.toOption, hb]

/-- C13: without a usable 5-character number the constructor raises KeyError. -/
theorem C13_no_number (P : FieldParsers ρ) (raw : List Str) (h : ∀ a, entryNumber raw = some a → a.length ≠ 5) :
    Entry.build P raw = .error .keyError := by
  unfold Entry.build
  rw [entryIndex_eq]
  cases hn : entryNumber raw with
  | none => rfl
  | some a => simp [h a hn]

/-- parsers that accept nothing, for examples without parsed fields -/
def noParsers : FieldParsers Unit :=
  ⟨fun _ => .error .parseException, fun _ _ => .error .parseException, fun _ _ => [], fun _ => .error .parseException, fun _ => .error .parseException⟩

def demoRaw : List Str :=
  ["SUBENT        10001001   19991231\nBIB                  1          1\nTITLE      A title\nHISTORY    ENTRY DELETED\nENDBIB               1\nENDSUBENT            3".toList,
   "SUBENT        10001002   19991231\nDATA                 1          1\nDATA\nB\n 1.5\nENDDATA              1\nENDSUBENT            3".toList]
set_option maxRecDepth 20000 in
example : ∃ e, Entry.build noParsers demoRaw = .ok e ∧ e.accnum = "10001".toList ∧
    e.subs.keys = [some "10001001".toList, some "10001002".toList] ∧ (e.getItem (.int 2)).toOption.isSome = true :=
  ⟨_, rfl, by decide +kernel⟩
example : entryNumber ["x".toList] = none ∧ entryNumber ["ENTRY         123".toList] = some "123".toList := by decide +kernel

/-! ### C14 -/

/-- the lines of a printed subentry begin with `SUBENT` and the accession number in
column 11 -/
theorem subRepr_lines {s : SubEntry ρ} {t acc : Str} (h : s.repr = .ok t) (ha : s.accnum = some acc) :
    ∃ rest, t = (ljust "SUBENT".toList 11 ++ ljust acc 11) ++ '\n' :: rest := by
  unfold SubEntry.repr at h
  rw [ha] at h
  simp only at h
  split at h
  · simp at h
  · simp only [Except.ok.injEq] at h
    rename_i rs _
    rw [← h]
    exact ⟨(rs.flatMap fun r => r ++ ['\n']) ++ ljust "ENDSUBENT".toList 11, by
      simp only [List.append_assoc, List.nil_append, List.cons_append]⟩

theorem splitChar_cons {a : Str} {c : Char} {r : Str} (h : c ∉ a) : splitChar c (a ++ c :: r) = a :: splitChar c r := by
  unfold splitChar
  refine splitOnP_append_sep ?_ (by simp)
  intro x hx
  simp only [beq_eq_false_iff_ne, ne_eq]
  rintro rfl
  exact h hx

theorem splitWs_ljust_head {w rest : Str} (hw : ∀ c ∈ w, isSpace c = false) (hne : w ≠ []) (hr : ∀ c ∈ rest.head?, isSpace c = true) :
    (splitWs (w ++ rest)).head? = some w := by
  cases rest with
  | nil =>
    simp only [List.append_nil, splitWs, splitOnP_none hw]
    cases w <;> simp at *
  | cons c r =>
    have hc : isSpace c = true := hr c (by simp)
    simp only [splitWs]
    rw [splitOnP_append_sep hw hc]
    cases w <;> simp at *

/-- What re-reading finds: the number printed by `repr` begins in column 11, but is read
from column 14, so its first three characters are cut off. -/
theorem C14_subentry_partial (s : SubEntry ρ) (t acc : Str) (h : s.repr = .ok t) (ha : s.accnum = some acc)
    (hl : acc.length = 8) (hnl : '\n' ∉ acc) :
    accessionField t = some (acc.drop 3 ++ List.replicate 3 ' ') := by
  obtain ⟨rest, rfl⟩ := subRepr_lines h ha
  have hsp : splitChar '\n' (ljust "SUBENT".toList 11 ++ ljust acc 11 ++ '\n' :: rest) = (ljust "SUBENT".toList 11 ++ ljust acc 11) :: splitChar '\n' rest := by
    apply splitChar_cons
    simp [ljust, hnl]
  unfold accessionField
  rw [hsp]
  have hfw : firstWord (ljust "SUBENT".toList 11 ++ ljust acc 11) = some "SUBENT".toList := by
    unfold firstWord
    have : ljust "SUBENT".toList 11 ++ ljust acc 11 = "SUBENT".toList ++ (List.replicate 5 ' ' ++ ljust acc 11) := by
      simp [ljust]
    rw [this]
    exact splitWs_ljust_head (by decide) (by decide) (by simp [List.replicate_succ]; decide)
  simp only [List.find?_cons, hfw, decide_true, Option.map_some, Option.some.injEq]
  match acc, hl with
  | [a, b, c, d, e, f, g, i], _ => rfl

/-- C14 is false: for every subentry with an 8-character accession number without blanks
at its end, parsing the text returned by `repr` finds another number. -/
theorem C14_subentry_refuted (s : SubEntry ρ) (t acc : Str) (h : s.repr = .ok t) (ha : s.accnum = some acc)
    (hl : acc.length = 8) (hnl : '\n' ∉ acc) (hend : acc.getLast? ≠ some ' ') : accessionField t ≠ s.accnum := by
  rw [C14_subentry_partial s t acc h ha hl hnl, ha]
  intro e
  simp only [Option.some.injEq] at e
  apply hend
  rw [← e]
  rw [List.getLast?_append]; rfl

/-- C14 is false for entries: parsing the lines printed by `repr` always raises KeyError. -/
theorem C14_entry_refuted (P : FieldParsers ρ) (raw : List Str) (e : Entry ρ) (hb : Entry.build P raw = .ok e) (t : Str) (h : e.repr = .ok t)
    (hnl : '\n' ∉ e.accnum) : Entry.build P (splitChar '\n' t) = .error .keyError := by
  have hacc := Entry.build_accnum hb
  apply C13_no_number
  intro a ha
  unfold Entry.repr at h
  split at h
  · simp at h
  · split at h
    · simp at h
    · simp only [Except.ok.injEq] at h
      rename_i rs _
      have ht : t = (ljust "ENTRY".toList 11 ++ ljust e.accnum 11) ++ '\n' :: ((rs.flatMap fun r => r ++ ['\n']) ++ ljust "ENDENTRY".toList 11) := by
        rw [← h]; simp
      rw [ht, splitChar_cons (by simp [ljust, hnl])] at ha
      have hfw : firstWord (ljust "ENTRY".toList 11 ++ ljust e.accnum 11) = some "ENTRY".toList := by
        unfold firstWord
        have : ljust "ENTRY".toList 11 ++ ljust e.accnum 11 = "ENTRY".toList ++ (List.replicate 6 ' ' ++ ljust e.accnum 11) := by
          simp [ljust]
        rw [this]
        exact splitWs_ljust_head (by decide) (by decide) (by simp [List.replicate_succ]; decide)
      rw [entryNumber, List.find?_cons] at ha
      simp only [hfw, true_or, decide_true, Option.map_some, if_true, Option.some.injEq] at ha
      rw [← ha]
      generalize e.accnum = acc at hacc
      match acc, hacc with
      | [a, b, c, d, x], _ =>
        have : (List.take 8 (List.drop 14 (ljust "ENTRY".toList 11 ++ ljust [a, b, c, d, x] 11))) = [d, x] ++ List.replicate 6 ' ' := rfl
        rw [this]
        have h1 := strip_surround_eq (a := []) (s := [d, x]) (b := List.replicate 6 ' ') (by simp) (by simp [isSpace])
        simp only [List.nil_append] at h1
        rw [h1]
        have := length_strip_le [d, x]
        simp at this; omega

set_option maxRecDepth 20000 in
example : ∃ e t, Entry.build noParsers demoRaw = .ok e ∧ e.repr = .ok t ∧ '\n' ∉ e.accnum ∧
    (∃ s, e.getItem (.int 1) = .ok s ∧ ∃ r, s.repr = .ok r ∧ s.accnum = some "10001001".toList) :=
  ⟨_, _, rfl, rfl, by decide +kernel, _, rfl, _, rfl, by decide +kernel⟩

/-! ### C15 -/

/-- `deleted()` never answers True. -/
theorem C15_never_deleted (e : Entry ρ) (b : Bool) (h : e.deleted = .ok b) : b = false := by
  unfold Entry.deleted at h
  split at h
  · simp at h
  · split at h
    · simpa using h.symm
    · simp only [Except.ok.injEq] at h
      rw [← h, decide_eq_false_iff_not, List.mem_map]
      rintro ⟨c, -, hc⟩
      simp at hc

set_option maxRecDepth 20000 in
/-- C15 is false: an entry whose HISTORY says ENTRY DELETED. -/
theorem C15_refuted : ∃ e : Entry Unit, Entry.build noParsers demoRaw = .ok e ∧
    (∃ b, e.mainBib = .ok b ∧ ∃ h, b.fields.get? (some "HISTORY".toList) = some h ∧
      h.subs.get? ' ' = some ["ENTRY DELETED".toList]) ∧ e.deleted = .ok false :=
  ⟨_, rfl, ⟨_, rfl, _, rfl, by decide +kernel⟩, by decide +kernel⟩

/-- the part of C15 that holds: entries that do not say so are not deleted. -/
theorem C15_not_deleted_partial (e : Entry ρ) (b : BibSection ρ) (h : e.mainBib = .ok b)
    (_hh : ∀ f, b.fields.get? (some "HISTORY".toList) = some f →
      ∀ kv ∈ f.subs, ∀ l ∈ kv.2, hasSub "ENTRY DELETED".toList l = false) : e.deleted = .ok false := by
  cases hd : e.deleted with
  | error er =>
    unfold Entry.deleted at hd
    rw [h] at hd
    simp only at hd
    split at hd <;> simp at hd
  | ok v => rw [C15_never_deleted e v hd]

end X4
