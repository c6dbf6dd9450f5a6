import Verif.Model.Dicts
import Verif.Model.DictTexts
import Verif.Lemmas.Dict
import Verif.Lemmas.Str
/-! The dictionary server (C56) and the dictionary files (C57). -/
namespace X4

/-! ### C56 -/

theorem nameIn_iff {l : List (Int × Str)} (h : (l.map Prod.fst).Nodup) (n : Int) (s : Str) :
    nameIn n l = some s ↔ (n, s) ∈ l := by
  induction l with
  | nil => simp [nameIn]
  | cons i r ih =>
    obtain ⟨m, t⟩ := i
    rw [List.map_cons, List.nodup_cons] at h
    unfold nameIn
    rw [List.mem_cons, Prod.mk.injEq]
    split_ifs with hm
    · simp only at hm; subst hm
      constructor
      · intro he; simp at he; simp [he]
      · rintro (he | he)
        · simp [he.2]
        · exact absurd (List.mem_map_of_mem (f := Prod.fst) he) h.1
    · rw [ih h.2]
      exact ⟨.inr, fun he => he.resolve_left fun e => hm e.1.symm⟩

theorem indexIn_iff {l : List (Int × Str)} (h : (l.map Prod.snd).Nodup) (n : Int) (s : Str) :
    indexIn s l = some n ↔ (n, s) ∈ l := by
  induction l with
  | nil => simp [indexIn]
  | cons i r ih =>
    obtain ⟨m, t⟩ := i
    rw [List.map_cons, List.nodup_cons] at h
    unfold indexIn
    rw [List.mem_cons, Prod.mk.injEq]
    split_ifs with hm
    · simp only at hm; subst hm
      constructor
      · intro he; simp at he; simp [he]
      · rintro (he | he)
        · simp [he.1]
        · exact absurd (List.mem_map_of_mem (f := Prod.snd) he) h.1
    · rw [ih h.2]
      exact ⟨.inr, fun he => he.resolve_left fun e => hm e.2.symm⟩

theorem dictNums_nodup : (dictionaryNames.map Prod.fst).Nodup := by decide +kernel
theorem dictNames_nodup : (dictionaryNames.map Prod.snd).Nodup := by decide +kernel

/-- C56: name and index of a dictionary determine each other. -/
theorem C56_inverse (n : Int) (s : Str) :
    getDictionaryName (.int n) = some s ↔ getDictionaryIndex (.str s) = some n :=
  (nameIn_iff dictNums_nodup n s).trans (indexIn_iff dictNames_nodup n s).symm

/-- C56: only the listed integers and names are known; anything else gives `None`. -/
theorem C56_none (x : DictKey) :
    (getDictionaryName x = none ↔ ∀ n s, x = .int n → (n, s) ∉ dictionaryNames) ∧
    (getDictionaryIndex x = none ↔ ∀ n s, x = .str s → (n, s) ∉ dictionaryNames) := by
  cases x with
  | int n =>
    refine ⟨⟨?_, ?_⟩, iff_of_true rfl (fun _ _ h => DictKey.noConfusion h)⟩
    · intro h m s e hm
      cases e
      have : getDictionaryName (.int n) = some s := (nameIn_iff dictNums_nodup n s).2 hm
      rw [h] at this; cases this
    · intro h
      cases hg : getDictionaryName (.int n) with
      | none => rfl
      | some s => exact absurd ((nameIn_iff dictNums_nodup n s).1 hg) (h n s rfl)
  | str s =>
    refine ⟨iff_of_true rfl (fun _ _ h => DictKey.noConfusion h), ⟨?_, ?_⟩⟩
    · intro h n t e hm
      cases e
      have : getDictionaryIndex (.str s) = some n := (indexIn_iff dictNames_nodup n s).2 hm
      rw [h] at this; cases this
    · intro h
      cases hg : getDictionaryIndex (.str s) with
      | none => rfl
      | some n => exact absurd ((indexIn_iff dictNames_nodup n s).1 hg) (h n s rfl)
  | other => exact ⟨iff_of_true rfl (fun _ _ h => DictKey.noConfusion h), iff_of_true rfl (fun _ _ h => DictKey.noConfusion h)⟩

theorem fileNameInt_eq (n : Int) (l : List (Int × Str)) : fileNameInt n l = (nameIn n l).map (fun _ => fileName n) := by
  induction l with
  | nil => rfl
  | cons i r ih =>
    unfold fileNameInt nameIn
    split_ifs with h
    · simp [h]
    · exact ih

theorem fileNameStr_eq (s : Str) (l : List (Int × Str)) : fileNameStr s l = (indexIn s l).map fileName := by
  induction l with
  | nil => rfl
  | cons i r ih =>
    unfold fileNameStr indexIn
    split_ifs with h
    · rfl
    · exact ih

/-- C56: both spellings of a dictionary give the same file, whose name contains the
number; unknown ones give `None`. -/
theorem C56_filename (n : Int) (s : Str) :
    (getDictionaryName (.int n) = some s →
      getDictionaryFilename (.int n) = some ("dict".toList ++ zfill (intStr n) 2 ++ ".txt".toList) ∧
      getDictionaryFilename (.str s) = getDictionaryFilename (.int n)) ∧
    (getDictionaryName (.int n) = none → getDictionaryFilename (.int n) = none) ∧
    (getDictionaryIndex (.str s) = none → getDictionaryFilename (.str s) = none) := by
  refine ⟨fun h => ?_, fun h => ?_, fun h => ?_⟩
  · have h1 : getDictionaryFilename (.int n) = some (fileName n) := by
      change fileNameInt n dictionaryNames = _
      rw [fileNameInt_eq]
      change (getDictionaryName (.int n)).map _ = _
      rw [h]; rfl
    have h2 : getDictionaryFilename (.str s) = some (fileName n) := by
      change fileNameStr s dictionaryNames = _
      rw [fileNameStr_eq]
      change (getDictionaryIndex (.str s)).map _ = _
      rw [(C56_inverse n s).1 h]; rfl
    exact ⟨h1, h2.trans h1.symm⟩
  · change fileNameInt n dictionaryNames = _
    rw [fileNameInt_eq]
    change (getDictionaryName (.int n)).map _ = _
    rw [h]; rfl
  · change fileNameStr s dictionaryNames = _
    rw [fileNameStr_eq]
    change (getDictionaryIndex (.str s)).map _ = _
    rw [h]; rfl

example : getDictionaryName (.int 33) = some "Particles".toList ∧ getDictionaryIndex (.str "Particles".toList) = some 33 ∧
    getDictionaryFilename (.str "Compounds".toList) = some "dict09.txt".toList ∧ getDictionaryFilename (.int 9) = some "dict09.txt".toList ∧
    getDictionaryFilename (.int 10) = none := by decide

/-! ### C57 -/

/-- what the loop does with one line, given the field breaks -/
def recordOf (n : Nat) (brs : List Int) (line : Str) : Except PyErr (Option (Str × List Str)) :=
  if strip line = [] then .ok none
  else match mapE (recordField (brs ++ [((strip line).length : Int)]) (strip line)) (List.range n) with
    | .error e => .error e
    | .ok [] => .error .indexError
    | .ok (k :: item) => .ok (some (k, item))

theorem dictStep_eq (n : Nat) (brs : List Int) (d : Dict Str (List Str)) (line : Str) :
    dictStep n (brs, d) line = match recordOf n brs line with
      | .error e => .error e
      | .ok none => .ok (brs, d)
      | .ok (some (k, item)) => .ok (brs, d.set k item) := by
  unfold dictStep recordOf
  simp only [List.dropLast_concat]
  by_cases h : strip line = []
  · rw [if_neg (by simpa using h), if_pos h]
  · rw [if_pos (by simpa using h), if_neg h]
    cases hm : mapE (recordField (brs ++ [((strip line).length : Int)]) (strip line)) (List.range n) with
    | error e => rfl
    | ok l => cases l <;> rfl

/-- C57: the lines of a file are decoded independently of each other, and the
dictionary contains their records, a later record replacing an earlier one with
the same key. -/
theorem C57_independent (h0 h1 h2 : Str) (lines : List Str) (n : Int) (brs : List Int)
    (hn : pyIntE (strip (lastSplit '=' h1)) = .ok n) (hb : fieldBreaks h2 = .ok brs) :
    getDictionary (h0 :: h1 :: h2 :: lines) =
      match mapE (recordOf n.toNat (0 :: brs)) lines with
      | .error e => .error e
      | .ok rs => .ok (dictOf (rs.filterMap id)) := by
  have key : ∀ (ls : List Str) (d : Dict Str (List Str)), foldE (dictStep n.toNat) (0 :: brs, d) ls =
      match mapE (recordOf n.toNat (0 :: brs)) ls with
      | .error e => .error e
      | .ok rs => .ok (0 :: brs, (rs.filterMap id).foldl (fun d kv => d.set kv.1 kv.2) d) := by
    intro ls
    induction ls with
    | nil => intro d; rfl
    | cons l r ih =>
      intro d
      unfold foldE mapE
      rw [dictStep_eq]
      cases hr : recordOf n.toNat (0 :: brs) l with
      | error e => rfl
      | ok o =>
        cases o with
        | none =>
          simp only
          rw [ih d]
          cases mapE (recordOf n.toNat (0 :: brs)) r <;> rfl
        | some kv =>
          simp only
          rw [ih]
          cases mapE (recordOf n.toNat (0 :: brs)) r <;> rfl
  unfold getDictionary
  have e1 : (h0 :: h1 :: h2 :: lines)[1]?.getD [] = h1 := rfl
  have e2 : (h0 :: h1 :: h2 :: lines)[2]?.getD [] = h2 := rfl
  have e3 : (h0 :: h1 :: h2 :: lines).drop 3 = lines := rfl
  simp only [e1, hn, e2, hb, e3, key lines []]
  cases mapE (recordOf n.toNat (0 :: brs)) lines <;> rfl

/-- A record as it is written in the file: all fields but the last one are padded up
to the next break. -/
def layout (pos : Nat) : List Nat → List Str → Str
  | b :: bs, f :: fs => ljust f (b - pos) ++ layout b bs fs
  | [], f :: _ => f
  | _, [] => []

/-- One field per column; every field but the last is at most as wide as its column. -/
def Fits (pos : Nat) : List Nat → List Str → Prop
  | b :: bs, f :: fs => pos ≤ b ∧ f.length ≤ b - pos ∧ Fits b bs fs
  | [], [_] => True
  | _, _ => False

/-- the fields between consecutive breaks -/
def slices : List Int → Str → List Str
  | a :: b :: r, line => strip (sliceInt line a b) :: slices (b :: r) line
  | _, _ => []

theorem slices_length (l : List Int) (line : Str) : (slices l line).length = l.length - 1 := by
  induction l with
  | nil => rfl
  | cons a r ih => cases r with
    | nil => rfl
    | cons b r => simp only [slices, List.length_cons] at *; omega

theorem recordField_eq (l : List Int) (line : Str) (i : Nat) (h : i + 1 < l.length) :
    recordField l line i = .ok ((slices l line)[i]?.getD []) := by
  induction l generalizing i with
  | nil => simp at h
  | cons a r ih =>
    cases r with
    | nil => simp at h
    | cons b r =>
      cases i with
      | zero => rfl
      | succ i =>
        have := ih i (by simp at h ⊢; omega)
        simpa [recordField, pyIdx, slices] using this

theorem mapE_recordField (l : List Int) (line : Str) (n : Nat) (h : l.length = n + 1) :
    mapE (recordField l line) (List.range n) = .ok (slices l line) := by
  rw [mapE_all_ok (g := fun i => (slices l line)[i]?.getD [])]
  · congr 1
    have hl := slices_length l line
    refine List.ext_getElem (by simp; omega) fun i h1 h2 => ?_
    simp only [List.getElem_map, List.getElem_range]
    rw [List.getElem?_eq_getElem h2]; rfl
  · intro i hi
    rw [List.mem_range] at hi
    exact recordField_eq l line i (by omega)

theorem strip_append_space {s b : Str} (h : ∀ x ∈ b, isSpace x) : strip (s ++ b) = strip s := by
  simpa using strip_surround_eq (a := []) (s := s) (by simp) h

theorem strip_slice_rstrip (s : Str) (a b : Nat) : strip (slice (rstrip s) a b) = strip (slice s a b) := by
  obtain ⟨t, ht, hs⟩ := rstrip_decomp s
  generalize rstrip s = r at ht
  subst ht
  unfold slice
  rw [List.take_append, List.drop_append]
  exact (strip_append_space (fun x hx => hs x (List.mem_of_mem_take (List.mem_of_mem_drop hx)))).symm

theorem sliceInt_nat (s : Str) (a b : Nat) : sliceInt s (a : Int) (b : Int) = slice s a b := by
  unfold sliceInt sliceBound
  rw [if_neg (by omega), if_neg (by omega)]
  simp

theorem slices_layout (full : Str) (brs : List Nat) (fields : List Str) (pre : Str)
    (hfit : Fits pre.length brs fields) (hst : ∀ f ∈ fields, strip f = f)
    (hfull : full = pre ++ layout pre.length brs fields) :
    slices ((pre.length :: brs).map Int.ofNat ++ [((rstrip full).length : Int)]) (rstrip full) = fields := by
  induction brs generalizing fields pre with
  | nil =>
    match fields, hfit with
    | [f], _ =>
      have h1 : slices ([pre.length].map Int.ofNat ++ [((rstrip full).length : Int)]) (rstrip full)
          = [strip (sliceInt (rstrip full) ((pre.length : Nat) : Int) ((rstrip full).length : Int))] := rfl
      rw [h1, sliceInt_nat]
      have h2 : slice (rstrip full) pre.length (rstrip full).length = slice (rstrip full) pre.length full.length := by
        unfold slice
        rw [List.take_length, List.take_of_length_le]
        obtain ⟨t, ht, -⟩ := rstrip_decomp full
        have := congrArg List.length ht
        rw [List.length_append] at this; omega
      rw [h2, strip_slice_rstrip, hfull]
      unfold slice layout
      rw [List.take_length, List.drop_left, hst f (by simp)]
  | cons b bs ih =>
    match fields, hfit with
    | f :: fs, ⟨hle, hlen, hrest⟩ =>
      have hpl : (pre ++ ljust f (b - pre.length)).length = b := by simp; omega
      have hrec := ih fs (pre ++ ljust f (b - pre.length)) (by rw [hpl]; exact hrest) (fun g hg => hst g (by simp [hg]))
        (by rw [hpl, hfull, List.append_assoc]; rfl)
      rw [hpl] at hrec
      have h1 : slices ((pre.length :: b :: bs).map Int.ofNat ++ [((rstrip full).length : Int)]) (rstrip full)
          = strip (sliceInt (rstrip full) ((pre.length : Nat) : Int) (b : Int)) ::
            slices ((b :: bs).map Int.ofNat ++ [((rstrip full).length : Int)]) (rstrip full) := rfl
      rw [h1, hrec, sliceInt_nat, strip_slice_rstrip, hfull]
      congr 1
      unfold slice layout
      rw [← List.append_assoc, List.take_left' hpl, List.drop_left, strip_ljust, hst f (by simp)]

/-- A line showing the record: up to surrounding white space it is the padded layout of
the key (not blank) and of the other fields (without surrounding white space). -/
def Shows (brs : List Nat) (line : Str) (r : Str × List Str) : Prop :=
  Fits 0 brs (r.1 :: r.2) ∧ (∀ f ∈ r.1 :: r.2, strip f = f) ∧ r.1 ≠ [] ∧
    strip line = strip (layout 0 brs (r.1 :: r.2))

theorem headOk_layout {brs : List Nat} {k : Str} {r : List Str} {pos : Nat} (hk : k ≠ []) (hs : strip k = k) :
    headOk (layout pos brs (k :: r)) := by
  have h1 : headOk k := hs ▸ headOk_strip k
  match k, hk with
  | c :: k', _ =>
    have h2 : ∀ t, headOk ((c :: k') ++ t) := by
      intro t
      unfold headOk at *
      simpa using h1
    cases brs with
    | nil => exact h1
    | cons b bs =>
      unfold layout ljust
      rw [List.append_assoc]
      exact h2 _

/-- C57: every line showing a record is decoded to its key and its remaining fields. -/
theorem C57_record (brs : List Nat) (line : Str) (r : Str × List Str) (h : Shows brs line r) :
    recordOf (brs.length + 1) ((0 : Int) :: brs.map Int.ofNat) line = .ok (some r) := by
  obtain ⟨hfit, hst, hk, hline⟩ := h
  have hs : strip (layout 0 brs (r.1 :: r.2)) = rstrip (layout 0 brs (r.1 :: r.2)) := by
    unfold strip
    rw [lstrip_of_headOk (headOk_layout hk (hst _ (by simp)))]
  have hsl := slices_layout (layout 0 brs (r.1 :: r.2)) brs (r.1 :: r.2) [] hfit hst rfl
  have hne : rstrip (layout 0 brs (r.1 :: r.2)) ≠ [] := by
    rw [← hs]
    intro he
    rw [strip_eq_nil_iff] at he
    have h1 := headOk_layout (brs := brs) (r := r.2) (pos := 0) hk (hst _ (by simp))
    have hk2 : strip r.1 = [] := by
      rw [strip_eq_nil_iff]
      intro x hx
      refine he x ?_
      cases brs with
      | nil => exact hx
      | cons b bs => unfold layout ljust; simp [hx]
    rw [hst _ (by simp)] at hk2
    exact hk hk2
  unfold recordOf
  rw [hline, hs, if_neg hne, mapE_recordField _ _ _ (by simp)]
  have e : ((0 : Int) :: brs.map Int.ofNat ++ [((rstrip (layout 0 brs (r.1 :: r.2))).length : Int)])
      = (([] : Str).length :: brs).map Int.ofNat ++ [((rstrip (layout 0 brs (r.1 :: r.2))).length : Int)] := rfl
  rw [e, hsl]

/-- C57: a file whose lines are blank or show records with distinct keys is read as these
records. -/
theorem C57_file (h0 h1 h2 : Str) (lines : List Str) (brs : List Nat) (records : List (Option (Str × List Str)))
    (hn : pyIntE (strip (lastSplit '=' h1)) = .ok ((brs.length + 1 : Nat) : Int)) (hb : fieldBreaks h2 = .ok (brs.map Int.ofNat))
    (hl : List.Forall₂ (fun line r => match r with | none => strip line = [] | some r => Shows brs line r) lines records)
    (hd : ((records.filterMap id).map Prod.fst).Nodup) :
    getDictionary (h0 :: h1 :: h2 :: lines) = .ok (records.filterMap id) := by
  rw [C57_independent h0 h1 h2 lines _ _ hn hb]
  have : mapE (recordOf ((brs.length + 1 : Nat) : Int).toNat ((0 : Int) :: brs.map Int.ofNat)) lines = .ok records := by
    clear hd
    induction hl with
    | nil => rfl
    | @cons line r ls rs h _ ih =>
      have h1 : recordOf ((brs.length + 1 : Nat) : Int).toNat ((0 : Int) :: brs.map Int.ofNat) line = .ok r := by
        cases r with
        | none => unfold recordOf; rw [if_pos h]
        | some r => exact C57_record brs line r h
      unfold mapE
      rw [h1, ih]
  rw [this]
  simp only
  rw [dictOf_nodup hd]

example : Shows [12] "AP          Antiprotons   ".toList ("AP".toList, ["Antiprotons".toList]) ∧
    Shows [7, 64] " AAU    Aarhus University, Aarhus                                DEN".toList
      ("AAU".toList, ["Aarhus University, Aarhus".toList, "DEN".toList]) := by
  refine ⟨⟨?_, ?_, by decide, by decide⟩, ⟨?_, ?_, by decide, by decide⟩⟩
  · exact ⟨by decide, by decide, trivial⟩
  · decide
  · exact ⟨by decide, by decide, by decide, by decide, trivial⟩
  · decide

/-- C57 needs keys that are not blank: stripping the line moves the other fields to the left. -/
theorem C57_blank_key :
    recordOf 2 [0, 4] (layout 0 [4] [[], "Title".toList]) = .ok (some ("Titl".toList, ["e".toList])) := by decide

/-- C57: asking for more fields than there are breaks fails on the first record. -/
theorem C57_missing_breaks : getDictionary ["Title = x".toList, "NumFields = 3".toList, "FieldBreaks = [ 2 ]".toList, "A b".toList]
    = .error .indexError := by decide +kernel

/-- the grammar's particle codes are the keys of dict33.txt -/
theorem particleKeys_eq : (match getDictionary particleFile with | .ok d => d.keys | .error _ => []) = particleKeys := by
  decide +kernel
/-- the grammar's compound codes are the keys of dict09.txt -/
theorem compoundKeys_eq : (match getDictionary compoundFile with | .ok d => d.keys | .error _ => []) = compoundKeys := by
  decide +kernel

end X4
