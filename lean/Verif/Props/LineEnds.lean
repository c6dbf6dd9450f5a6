import Verif.Spec.LineEnds
import Verif.Props.Whole
import Verif.Props.Cache
import Mathlib.Data.List.TakeWhile
/-! The bytes of the files: line ends do not matter, and what is written in them is found. -/
namespace X4
variable {ρ N : Type}

theorem latin1_of {c : Char} {b : UInt8} (h : c.toNat = b.toNat) : latin1 b = c := by
  unfold latin1
  rw [← h]
  exact Char.ofNat_toNat c

theorem Encoded.latin1_eq {l : Str} {x : Bytes} (h : Encoded l x) : x.map latin1 = l := by
  induction h with
  | nil => rfl
  | cons h1 _ ih => rw [List.map_cons, ih, latin1_of h1.1]

theorem Encoded.plain {l : Str} {x : Bytes} (h : Encoded l x) : ∀ c ∈ l, c ≠ '\n' ∧ c ≠ '\r' := by
  induction h with
  | nil => simp
  | cons h1 _ ih =>
    intro c hc
    rcases List.mem_cons.1 hc with rfl | hc
    · exact h1.2
    · exact ih c hc

theorem universalNewlines_other {c : Char} (h : c ≠ '\r') (r : Str) : universalNewlines (c :: r) = c :: universalNewlines r := by
  rw [universalNewlines]
  · intro r' h1 h2; exact h h1
  · intro h1; exact h h1
theorem universalNewlines_crlf (r : Str) : universalNewlines ('\r' :: '\n' :: r) = '\n' :: universalNewlines r := by
  rw [universalNewlines]
theorem universalNewlines_cr {r : Str} (h : r.head? ≠ some '\n') : universalNewlines ('\r' :: r) = '\n' :: universalNewlines r := by
  rw [universalNewlines]
  rintro r' rfl
  exact h rfl

theorem universalNewlines_append {l : Str} (h : ∀ c ∈ l, c ≠ '\n' ∧ c ≠ '\r') (r : Str) : universalNewlines (l ++ r) = l ++ universalNewlines r := by
  induction l with
  | nil => rfl
  | cons c l ih =>
    rw [List.cons_append, universalNewlines_other (h c (by simp)).2, ih fun c hc => h c (by simp [hc])]
    rfl

theorem textLines_line {l : Str} (h : ∀ c ∈ l, c ≠ '\n' ∧ c ≠ '\r') (r : Str) : textLines (l ++ '\n' :: r) = (l ++ ['\n']) :: textLines r := by
  induction l with
  | nil => rw [List.nil_append, textLines, if_pos rfl]; rfl
  | cons c l ih =>
    rw [List.cons_append, textLines, if_neg (h c (by simp)).1, ih fun c hc => h c (by simp [hc])]
    rfl

theorem textLines_last {l : Str} (h : ∀ c ∈ l, c ≠ '\n' ∧ c ≠ '\r') (hl : l ≠ []) : textLines l = [l] := by
  induction l with
  | nil => exact absurd rfl hl
  | cons c l ih =>
    rw [textLines, if_neg (h c (by simp)).1]
    cases l with
    | nil => rfl
    | cons d l => rw [ih (fun c hc => h c (by simp [hc])) (by simp)]

theorem latin1_toNat (x : UInt8) : (latin1 x).toNat = x.toNat := by
  have key : ∀ n, n < 256 → (Char.ofNat n).toNat = n := by decide +kernel
  exact key _ x.toNat_lt

theorem head_latin1 {b : Bytes} (h : b.head? ≠ some 10) : (b.map latin1).head? ≠ some '\n' := by
  cases b with
  | nil => simp
  | cons x b =>
    intro hc
    apply h
    have h1 : latin1 x = '\n' := by simpa using hc
    have h2 : x = 10 := by
      have := latin1_toNat x
      rw [h1] at this
      exact UInt8.toNat_inj.1 this.symm
    rw [h2]; rfl

/-- C128: the lines of a file are those written in it, however they end. -/
theorem C128_lines {F : List Str} {b : Bytes} (h : OnDisk F b) : textLines (universalNewlines (b.map latin1)) = F := by
  have h13 : latin1 13 = '\r' := by decide
  have h10 : latin1 10 = '\n' := by decide
  induction h with
  | nil => rfl
  | @last l x h hl =>
    rw [h.latin1_eq]
    have := universalNewlines_append h.plain []
    rw [List.append_nil] at this
    rw [this]
    show textLines (l ++ []) = _
    rw [List.append_nil]
    exact textLines_last h.plain hl
  | @lf l x F b h _ ih =>
    rw [List.map_append, List.map_cons, h.latin1_eq, h10, universalNewlines_append h.plain, universalNewlines_other (by decide), textLines_line h.plain, ih]
  | @crlf l x F b h _ ih =>
    rw [List.map_append, List.map_cons, List.map_cons, h.latin1_eq, h10, h13, universalNewlines_append h.plain, universalNewlines_crlf, textLines_line h.plain, ih]
  | @cr l x F b h _ hn ih =>
    rw [List.map_append, List.map_cons, h.latin1_eq, h13, universalNewlines_append h.plain, universalNewlines_cr (head_latin1 hn), textLines_line h.plain, ih]

/-- the first piece of a line -/
theorem encoded_map {x : Bytes} (h : ∀ c ∈ x, c ≠ 10 ∧ c ≠ 13) : Encoded (x.map latin1) x := by
  induction x with
  | nil => exact .nil
  | cons c x ih =>
    refine .cons ⟨latin1_toNat c, ?_, ?_⟩ (ih fun c hc => h c (by simp [hc]))
    · intro he
      have := latin1_toNat c
      rw [he] at this
      exact (h c (by simp)).1 (UInt8.toNat_inj.1 this.symm)
    · intro he
      have := latin1_toNat c
      rw [he] at this
      exact (h c (by simp)).2 (UInt8.toNat_inj.1 this.symm)

theorem onDisk_exists : ∀ (n : Nat) (b : Bytes), b.length ≤ n → ∃ F, OnDisk F b := by
  intro n
  induction n with
  | zero =>
    intro b hb
    obtain rfl := List.length_eq_zero_iff.1 (Nat.le_zero.1 hb)
    exact ⟨_, .nil⟩
  | succ n ih =>
    intro b hb
    have hs := List.takeWhile_append_dropWhile (p := fun c : UInt8 => c != 10 && c != 13) (l := b)
    have hx : ∀ c ∈ b.takeWhile (fun c : UInt8 => c != 10 && c != 13), c ≠ 10 ∧ c ≠ 13 := by
      intro c hc
      have := List.mem_takeWhile_imp hc
      simpa using this
    cases hd : b.dropWhile (fun c : UInt8 => c != 10 && c != 13) with
    | nil =>
      rw [hd, List.append_nil] at hs
      rw [hs] at hx
      by_cases h0 : b = []
      · subst h0; exact ⟨_, .nil⟩
      · exact ⟨_, .last (encoded_map hx) (by simpa using h0)⟩
    | cons c r =>
      rw [hd] at hs
      have hlen : r.length ≤ n := by
        have := congrArg List.length hs
        simp only [List.length_append, List.length_cons] at this
        omega
      have hc : c = 10 ∨ c = 13 := by
        have h1 : (b.dropWhile fun c : UInt8 => c != 10 && c != 13) ≠ [] := by rw [hd]; simp
        have := List.head_dropWhile_not (fun c : UInt8 => c != 10 && c != 13) h1
        simp only [hd, List.head_cons] at this
        by_contra hn
        push Not at hn
        simp [hn.1, hn.2] at this
      rcases hc with rfl | rfl
      · obtain ⟨F, hF⟩ := ih r hlen
        rw [← hs]
        exact ⟨_, .lf (encoded_map hx) hF⟩
      · by_cases hr : r.head? = some 10
        · cases r with
          | nil => simp at hr
          | cons d r =>
            obtain rfl : d = 10 := by simpa using hr
            obtain ⟨F, hF⟩ := ih r (by simp at hlen; omega)
            rw [← hs]
            exact ⟨_, .crlf (encoded_map hx) hF⟩
        · obtain ⟨F, hF⟩ := ih r hlen
          rw [← hs]
          exact ⟨_, .cr (encoded_map hx) hF hr⟩

/-- C128: every file has such lines, and these are the ones that are read. -/
theorem C128_read (b : Bytes) (F : List Str) : OnDisk F b ↔ textLines (universalNewlines (b.map latin1)) = F := by
  refine ⟨C128_lines, ?_⟩
  rintro rfl
  obtain ⟨F, hF⟩ := onDisk_exists b.length b (Nat.le_refl _)
  rw [C128_lines hF]
  exact hF

/-- C128: what is read does not depend on the line ends, … -/
theorem C128_database {t t' : Folder} (h : SameTexts t t') : t.db = t'.db := by
  unfold Folder.db
  congr 1
  funext p
  rcases h (p.takeWhile (· != '/')) ((p.dropWhile (· != '/')).drop 1) with h | ⟨F, b, b', h1, h2, h3, h4⟩
  · rw [h]
  · rw [h3, h4]
    simp only
    rw [C128_lines h1, C128_lines h2]

/-- … whatever is asked for. -/
theorem C128_retrieve (P : FieldParsers ρ) (table : List Row) {t t' : Folder} (h : SameTexts t t') (c : Criteria) :
    retrieve P table t.db c = retrieve P table t'.db c ∧ (∀ i, managerGetItem P table t.db i = managerGetItem P table t'.db i) ∧
      ∀ n subents, entryFactoryRaw t.db n subents = entryFactoryRaw t'.db n subents := by
  rw [C128_database h]
  exact ⟨rfl, fun _ => rfl, fun _ _ => rfl⟩

/-- Bytes on disk that hold the entries, in any layout and with any line ends, and an index of them. -/
structure DiskArchive (P : FieldParsers ρ) (docs : List EntryDoc) (t : Folder) (table : List Row) : Prop where
  wf : ∀ D ∈ docs, D.wf
  readable : ∀ D ∈ docs, ∀ s ∈ D.subs, s.Readable P
  distinct : (docs.map EntryDoc.acc).Nodup
  names : t.Names
  files : ∀ D ∈ docs, ∃ F b, FileLayout D.subs F ∧ OnDisk F b ∧ HasFile t (D.acc.take 3 ++ ['/'] ++ D.acc ++ ".x4".toList) b
  index : ∀ row ∈ table, ∃ D ∈ docs, ∃ s ∈ D.subs, row.subent = some s.acc

/-- C128: such a folder is a database in the sense of C121 and C126; all that is said there of the files holds from the bytes on. -/
theorem C128_archive {P : FieldParsers ρ} {docs : List EntryDoc} {t : Folder} {table : List Row} (h : DiskArchive P docs t table) :
    LaidArchive P docs t.db table := by
  refine ⟨h.wf, h.readable, h.distinct, fun D hD => ?_, h.index⟩
  obtain ⟨F, b, h1, h2, h3⟩ := h.files D hD
  exact ⟨F, h1, by rw [db_read_file h.names h3, C128_lines h2]⟩

/-- C128: a search in a folder of bytes finds exactly the entries with a subentry that meets the criteria, and gives what is written. -/
theorem C128_found (P : FieldParsers ρ) (docs : List EntryDoc) (t : Folder) (table : List Row) (h : DiskArchive P docs t table) (c : Criteria)
    (hp : ∀ t ∈ c.texts, PlainText t) (hg : c.given) :
    ∃ r, retrieve P table t.db c = .ok r ∧ r.keys.Pairwise StrLt ∧
      (∀ D ∈ docs, D.acc ∈ r.keys ↔ ∃ s ∈ D.subs, WildHit table c s.acc) ∧
      ∀ k e, (k, e) ∈ r → ∃ D ∈ docs, D.acc = k ∧ ∃ subs, EntryHolds P D subs e ∧ subs.Sublist D.subs ∧
        ∀ s ∈ D.subs, s ∈ subs ↔ s.acc = D.acc ++ "001".toList ∨ WildHit table c s.acc :=
  C126_holds P docs t.db table (C128_archive h) c hp hg

/-! C128 applies: the file of an entry, with a line end of each kind in turn. -/

/-- some bytes with these lines: the line ends LF, CR LF and CR in turn -/
def mixedBytes : Nat → List Str → Bytes
  | _, [] => []
  | n, l :: ls => l.dropLast.map (fun c => UInt8.ofNat c.toNat) ++ (if n % 3 = 0 then [10] else if n % 3 = 1 then [13, 10] else [13]) ++ mixedBytes (n + 1) ls
/-- … and with the line ends CR LF throughout, and none behind the last line -/
def dosBytes : List Str → Bytes
  | [] => []
  | [l] => l.dropLast.map fun c => UInt8.ofNat c.toNat
  | l :: m :: ls => l.dropLast.map (fun c => UInt8.ofNat c.toNat) ++ [13, 10] ++ dosBytes (m :: ls)

def diskFolder : Folder := [("100".toList, .ok [("10002.x4".toList, .ok (mixedBytes 0 wholeEntry.file))])]

set_option maxRecDepth 20000 in
theorem mixed_onDisk : OnDisk wholeEntry.file (mixedBytes 0 wholeEntry.file) := (C128_read _ _).2 (by decide +kernel)

set_option maxRecDepth 20000 in
theorem dos_onDisk : OnDisk (wholeEntry.file.dropLast ++ [wholeEntry.file.getLastD [] |>.dropLast]) (dosBytes wholeEntry.file) := (C128_read _ _).2 (by decide +kernel)

theorem diskArchive : DiskArchive (x4Parsers metaDicts) [wholeEntry] diskFolder wholeRows := by
  refine ⟨wholeLaid.wf, wholeLaid.readable, wholeLaid.distinct, ⟨by decide, by decide, ?_⟩, ?_, wholeLaid.index⟩
  · intro x hx files hf
    obtain rfl := List.mem_singleton.1 hx
    cases hf
    exact List.nodup_singleton _
  · intro D hD
    obtain rfl := List.mem_singleton.1 hD
    exact ⟨_, _, C120_written _ wholeEntry_wf, mixed_onDisk, _, _, _, List.mem_singleton.2 rfl, List.mem_singleton.2 rfl, by decide⟩

example := C128_found (x4Parsers metaDicts) [wholeEntry] diskFolder wholeRows diskArchive

theorem bytes_single (d n : Str) (b : Bytes) (dir name : Str) :
    Folder.bytes [(d, .ok [(n, .ok b)])] dir name = if d = dir ∧ n = name then .ok b else .error .ioError := by
  by_cases h1 : d = dir <;> by_cases h2 : n = name <;> simp [Folder.bytes, Dict.get?, h1, h2]

/-- C128 applies: the same file with line ends of two kinds -/
example : SameTexts diskFolder [("100".toList, .ok [("10002.x4".toList, .ok (mixedBytes 1 wholeEntry.file))])] := by
  intro dir name
  unfold diskFolder
  rw [bytes_single, bytes_single]
  split
  · exact .inr ⟨_, _, _, mixed_onDisk, (C128_read _ _).2 (by decide +kernel), rfl, rfl⟩
  · exact .inl rfl

end X4
