import Verif.Spec.Cache
import Verif.Props.Manager
/-! C49, C50: the memory cache of the database. -/
namespace X4

theorem slash_inj {a b c d : Str} (ha : '/' ∉ a) (hc : '/' ∉ c) (h : a ++ ['/'] ++ b = c ++ ['/'] ++ d) : a = c ∧ b = d := by
  induction a generalizing c with
  | nil =>
    cases c with
    | nil => simpa using h
    | cons x c => simp at h; exact absurd (show '/' ∈ x :: c by rw [← h.1]; simp) hc
  | cons y a ih =>
    cases c with
    | nil => simp at h; exact absurd (show '/' ∈ y :: a by rw [h.1]; simp) ha
    | cons x c =>
      simp only [List.cons_append, List.cons.injEq] at h
      obtain ⟨e1, e2⟩ := ih (fun hm => ha (by simp [hm])) (fun hm => hc (by simp [hm])) h.2
      exact ⟨by rw [h.1, e1], e2⟩

theorem loadFiles_ok (sd : Str) (files : List (Str × Except PyErr Bytes)) (hr : ∀ f ∈ files, ∃ b, f.2 = .ok b) (hn : (files.map Prod.fst).Nodup)
    (d : Dict Str (List Bytes)) :
    ∃ d', loadFiles sd d files = (d', none) ∧ (∀ name b, (name, .ok b) ∈ files → d'.get? (sd ++ ['/'] ++ name) = some (byteLines b)) ∧
      (∀ k, (∀ name b, (name, .ok b) ∈ files → k ≠ sd ++ ['/'] ++ name) → d'.get? k = d.get? k) := by
  induction files generalizing d with
  | nil => exact ⟨d, rfl, by simp, by simp⟩
  | cons f files ih =>
    obtain ⟨name, r⟩ := f
    obtain ⟨b, hb⟩ := hr (name, r) (by simp)
    simp only at hb
    subst hb
    rw [List.map_cons, List.nodup_cons] at hn
    obtain ⟨d', h1, h2, h3⟩ := ih (fun f hf => hr f (by simp [hf])) hn.2 (d.set (sd ++ ['/'] ++ name) (byteLines b))
    refine ⟨d', by rw [loadFiles, h1], ?_, ?_⟩
    · intro n b' hm
      rcases List.mem_cons.1 hm with e | hm
      · simp only [Prod.mk.injEq, Except.ok.injEq] at e
        obtain ⟨rfl, rfl⟩ := e
        rw [h3, Dict.get?_set_self]
        intro n' b'' hm' e
        have : n = n' := by simpa using e
        subst this
        exact hn.1 (List.mem_map.2 ⟨_, hm', rfl⟩)
      · exact h2 n b' hm
    · intro k hk
      rw [h3 k (fun n b' hm => hk n b' (by simp [hm])), Dict.get?_set_ne _ _ (hk name b (by simp))]

theorem loadFolder_ok (t : Folder) (hr : t.Readable) (hn : t.Names) (d : Dict Str (List Bytes)) :
    ∃ d', loadFolder d t = (d', none) ∧ (∀ k b, HasFile t k b → d'.get? k = some (byteLines b)) ∧
      (∀ k, (∀ b, ¬ HasFile t k b) → d'.get? k = d.get? k) := by
  induction t generalizing d with
  | nil =>
    refine ⟨d, rfl, fun k b h => ?_, fun _ _ => rfl⟩
    obtain ⟨sd, files, name, h, -⟩ := h
    cases h
  | cons x t ih =>
    obtain ⟨sd, r⟩ := x
    obtain ⟨files, hf, hfs⟩ := hr (sd, r) (by simp)
    simp only at hf
    subst hf
    obtain ⟨d1, a1, a2, a3⟩ := loadFiles_ok sd files hfs (hn.files (sd, .ok files) (by simp) files rfl) d
    have hd := hn.dirs
    rw [List.map_cons, List.nodup_cons] at hd
    obtain ⟨d', h1, h2, h3⟩ := ih (fun x hx => hr x (by simp [hx])) ⟨hd.2, fun x hx => hn.noSlash x (by simp [hx]), fun x hx => hn.files x (by simp [hx])⟩ d1
    refine ⟨d', by rw [loadFolder, a1]; exact h1, ?_, ?_⟩
    · rintro k b ⟨sd', files', name, hm, hb, rfl⟩
      rcases List.mem_cons.1 hm with e | hm
      · simp only [Prod.mk.injEq, Except.ok.injEq] at e
        obtain ⟨rfl, rfl⟩ := e
        rw [h3, a2 name b hb]
        rintro b' ⟨sd2, files2, name2, hm2, -, e2⟩
        have := (slash_inj (hn.noSlash (sd', .ok files') (by simp)) (hn.noSlash (sd2, .ok files2) (by simp [hm2])) e2).1
        exact hd.1 (this ▸ List.mem_map_of_mem hm2)
      · exact h2 _ b ⟨sd', files', name, hm, hb, rfl⟩
    · intro k hk
      rw [h3 k (fun b ⟨sd', files', name, hm, h⟩ => hk b ⟨sd', files', name, by simp [hm], h⟩), a3 k]
      intro name b hm e
      exact hk b ⟨sd, files, name, by simp, hm, e⟩

theorem run_initialized (c : Cache) (hc : c.initialized = true) (h : List (Except PyErr Folder × Str)) :
    c.run h = (c, h.map (fun x => (c.files.get x.2, false))) := by
  induction h with
  | nil => rfl
  | cons x h ih =>
    have : c.getItem x.1 x.2 = (c, c.files.get x.2, false) := by simp [Cache.getItem, hc]
    simp only [Cache.run, this, ih, List.map_cons]

/-- C50 (partial): from the first successful scan on, each access (in any order, whatever happens to
the folder later) gives the lines that the file had at that scan; only the first access scans the
folder. A file that was not there is looked up among what earlier, failed scans have left. -/
theorem C50_snapshot_partial (c : Cache) (hc : c.initialized = false) (t : Folder) (hr : t.Readable) (hn : t.Names) (k : Str)
    (later : List (Except PyErr Folder × Str)) :
    ∃ r : Str → Except PyErr (List Bytes), (c.run ((.ok t, k) :: later)).2 = (r k, true) :: later.map (fun x => (r x.2, false)) ∧
      (∀ q b, HasFile t q b → r q = .ok (byteLines b)) ∧ (∀ q, (∀ b, ¬ HasFile t q b) → r q = c.files.get q) := by
  obtain ⟨d, h1, h2, h3⟩ := loadFolder_ok t hr hn c.files
  refine ⟨fun q => Dict.get d q, ?_, ?_, ?_⟩
  · have : c.getItem (.ok t) k = (⟨d, true⟩, Dict.get d k, true) := by simp [Cache.getItem, hc, h1]
    simp only [Cache.run, this, run_initialized ⟨d, true⟩ rfl]
  · intro q b hq
    simp only [Dict.get, h2 q b hq]
  · intro q hq
    simp only [Dict.get, h3 q hq]

/-- C50: if no scan has failed before, a file that was not in the folder is a `KeyError`, for every
later access. -/
theorem C50_fresh (t : Folder) (hr : t.Readable) (hn : t.Names) (k : Str) (later : List (Except PyErr Folder × Str)) :
    ∃ r : Str → Except PyErr (List Bytes), (Cache.new.run ((.ok t, k) :: later)).2 = (r k, true) :: later.map (fun x => (r x.2, false)) ∧
      (∀ q b, HasFile t q b → r q = .ok (byteLines b)) ∧ (∀ q, (∀ b, ¬ HasFile t q b) → r q = .error .keyError) := by
  obtain ⟨r, h1, h2, h3⟩ := C50_snapshot_partial Cache.new rfl t hr hn k later
  exact ⟨r, h1, h2, fun q hq => by rw [h3 q hq]; rfl⟩

theorem loadFiles_fails (sd : Str) (d : Dict Str (List Bytes)) (files : List (Str × Except PyErr Bytes)) (h : ¬ ∀ f ∈ files, ∃ b, f.2 = .ok b) :
    ∃ e, (loadFiles sd d files).2 = some e := by
  induction files generalizing d with
  | nil => simp at h
  | cons f files ih =>
    obtain ⟨name, r⟩ := f
    cases r with
    | error e => exact ⟨e, rfl⟩
    | ok b => exact ih _ (fun hc => h (by simpa using hc))

theorem loadFolder_fails (d : Dict Str (List Bytes)) (t : Folder) (h : ¬ t.Readable) : ∃ e, (loadFolder d t).2 = some e := by
  induction t generalizing d with
  | nil => exact absurd (fun x hx => nomatch hx) h
  | cons x t ih =>
    obtain ⟨sd, r⟩ := x
    cases r with
    | error e => exact ⟨e, rfl⟩
    | ok files =>
      rw [loadFolder]
      by_cases hf : ∀ f ∈ files, ∃ b, f.2 = .ok b
      · have ht : ¬ Folder.Readable t := fun hc => h (by
          intro x hx
          rcases List.mem_cons.1 hx with rfl | hx
          · exact ⟨files, rfl, hf⟩
          · exact hc x hx)
        rcases loadFiles sd d files with ⟨d', _ | e⟩
        · exact ih d' ht
        · exact ⟨e, rfl⟩
      · obtain ⟨e, he⟩ := loadFiles_fails sd d files hf
        rcases hl : loadFiles sd d files with ⟨d', o⟩
        rw [hl] at he
        simp only at he
        subst he
        exact ⟨e, rfl⟩

/-- C50: as long as the folder (which may change between accesses) cannot be read completely, every
access scans it and fails, and the cache stays uninitialised, so that the next access scans again. -/
theorem C50_retry (history : List (Except PyErr Folder × Str)) (hk : ∀ t k, (Except.ok t, k) ∈ history → ¬ t.Readable) :
    (Cache.new.run history).1.initialized = false ∧ (Cache.new.run history).2.length = history.length ∧
      ∀ x ∈ (Cache.new.run history).2, ∃ e, x = (Except.error e, true) := by
  have key : ∀ c : Cache, c.initialized = false → (c.run history).1.initialized = false ∧ (c.run history).2.length = history.length ∧
      ∀ x ∈ (c.run history).2, ∃ e, x = (Except.error e, true) := by
    induction history with
    | nil => intro c hc; exact ⟨hc, rfl, by simp [Cache.run]⟩
    | cons x history ih =>
      obtain ⟨t, k⟩ := x
      intro c hc
      have step : ∃ d e, c.getItem t k = (⟨d, false⟩, .error e, true) := by
        cases t with
        | error e => exact ⟨c.files, e, by rw [Cache.getItem, if_neg (by simp [hc]), ← hc]⟩
        | ok t =>
          obtain ⟨e, he⟩ := loadFolder_fails c.files t (hk t k (by simp))
          rcases hl : loadFolder c.files t with ⟨d', o⟩
          rw [hl] at he
          simp only at he
          subst he
          exact ⟨d', e, by simp [Cache.getItem, hc, hl]⟩
      obtain ⟨d, e, hs⟩ := step
      obtain ⟨h1, h2, h3⟩ := ih (fun t k hm => hk t k (by simp [hm])) ⟨d, false⟩ rfl
      simp only [Cache.run, hs]
      refine ⟨h1, by simp [h2], ?_⟩
      intro x hx
      rcases List.mem_cons.1 hx with rfl | hx
      · exact ⟨e, rfl⟩
      · exact h3 x hx
  exact key _ rfl

theorem run_append (c : Cache) (h h' : List (Except PyErr Folder × Str)) :
    c.run (h ++ h') = (((c.run h).1.run h').1, (c.run h).2 ++ ((c.run h).1.run h').2) := by
  induction h generalizing c with
  | nil => rfl
  | cons x h ih =>
    obtain ⟨t, k⟩ := x
    simp only [List.cons_append, Cache.run, ih]

/-- C50: a history of failing scans, then a successful one, then anything: each access from the successful scan on
gives the lines of the file at that scan. -/
theorem C50_history (before later : List (Except PyErr Folder × Str)) (hb : ∀ t k, (Except.ok t, k) ∈ before → ¬ t.Readable)
    (t : Folder) (hr : t.Readable) (hn : t.Names) (k : Str) :
    ∃ (errs : List (Except PyErr (List Bytes) × Bool)) (r : Str → Except PyErr (List Bytes)),
      (Cache.new.run (before ++ (.ok t, k) :: later)).2 = errs ++ (r k, true) :: later.map (fun x => (r x.2, false)) ∧
      errs.length = before.length ∧ (∀ x ∈ errs, ∃ e, x = (Except.error e, true)) ∧ (∀ q b, HasFile t q b → r q = .ok (byteLines b)) := by
  obtain ⟨h1, h2, h3⟩ := C50_retry before hb
  obtain ⟨r, e1, e2, -⟩ := C50_snapshot_partial _ h1 t hr hn k later
  exact ⟨_, r, by rw [run_append, e1], h2, h3, e2⟩

/-- two folders for the examples: in the first, the second directory cannot be listed -/
def brokenFolder : Folder := [(chars!"100", .ok [(chars!"10001.x4", .ok [65, 10, 66])]), (chars!"README", .error .ioError)]
def laterFolder : Folder := [(chars!"200", .ok [(chars!"20002.x4", .ok [67, 10]), (chars!"20003.x4", .ok [68])])]

/-- C50, the clause about missing files, is false after a failed scan: the entry that the failed scan has
read is still given although the file is no longer there at the successful scan. -/
theorem C50_stale_refuted :
    ∃ t t' k, ¬ t.Readable ∧ t'.Readable ∧ t'.Names ∧ (∀ b, ¬ HasFile t' k b) ∧
      ((Cache.new.run [(.ok t, k), (.ok t', k)]).2.map (·.1.isOk)) = [false, true] := by
  refine ⟨brokenFolder, laterFolder, chars!"100/10001.x4", ?_, ?_, ⟨?_, ?_, ?_⟩, ?_, by decide +kernel⟩
  · intro h
    obtain ⟨f, hf, -⟩ := h (chars!"README", .error .ioError) (by simp [brokenFolder])
    cases hf
  · intro x hx
    simp only [laterFolder, List.mem_singleton] at hx
    subst hx
    exact ⟨_, rfl, by simp⟩
  · decide
  · decide
  · intro x hx files hf
    simp only [laterFolder, List.mem_singleton] at hx
    subst hx
    cases hf
    decide
  · rintro b ⟨sd, files, name, hm, -, e⟩
    simp only [laterFolder, List.mem_singleton, Prod.mk.injEq] at hm
    rw [hm.1] at e
    have := congrArg List.head? e
    simp at this

/-- C50 applies: a failed scan, a successful one, and an access after the folder has become unreadable. -/
example : ((Cache.new.run [(.ok brokenFolder, chars!"200/20002.x4"), (.ok laterFolder, chars!"200/20002.x4"),
      (.error .ioError, chars!"200/20003.x4"), (.ok brokenFolder, chars!"300/30001.x4")]).2) =
    [(.error .ioError, true), (.ok [[67, 10]], true), (.ok [[68]], false), (.error .keyError, false)] := by decide +kernel

/-! ### C49 -/

/-- where the entry `k` is kept below the database directory -/
def entryPath (k : Str) : Str := k.take 3 ++ ['/'] ++ k ++ ".x4".toList

theorem db_read_file {t : Folder} (hn : t.Names) {p : Str} {b : Bytes} (h : HasFile t p b) :
    t.db.read p = .ok (textLines (universalNewlines (b.map latin1))) := by
  obtain ⟨sd, files, name, hm, hb, rfl⟩ := h
  have hs := hn.noSlash _ hm
  have h1 : (sd ++ ['/'] ++ name).takeWhile (· != '/') = sd := by
    rw [List.append_assoc, List.takeWhile_append_of_pos (by intro a ha; simp; rintro rfl; exact hs ha)]
    simp
  have h2 : (sd ++ ['/'] ++ name).dropWhile (· != '/') = '/' :: name := by
    rw [List.append_assoc, List.dropWhile_append_of_pos (by intro a ha; simp; rintro rfl; exact hs ha)]
    simp
  have h3 : Dict.get? t sd = some (.ok files) := Dict.get?_eq_some_of_mem hn.dirs hm
  have h4 : Dict.get? files name = some (.ok b) := Dict.get?_eq_some_of_mem (hn.files _ hm _ rfl) hb
  simp only [Folder.db, Folder.bytes, h1, h2, h3, h4, List.drop_succ_cons, List.drop_zero]

theorem cache_read_file {t : Folder} (hr : t.Readable) (hn : t.Names) {p : Str} {b : Bytes} (h : HasFile t p b) :
    (Cache.new.getItem (.ok t) p).2.1 = .ok (byteLines b) := by
  obtain ⟨r, h1, h2, -⟩ := C50_fresh t hr hn p []
  simp only [Cache.run, List.map_nil, List.cons.injEq] at h1
  rw [h1.1]
  exact h2 p b h

theorem byteLines_ne_nil {b : Bytes} (h : b ≠ []) : byteLines b ≠ [] := by
  cases b with
  | nil => exact absurd rfl h
  | cons a b =>
    rw [byteLines]
    split
    · simp
    · split <;> simp

/-- C49 is false whenever there is something to retrieve: if the query names some entry and the
files named are there and not empty, the file-system manager succeeds and the memory-cached one
raises `TypeError`. -/
theorem C49_refuted (table : List Row) (t : Folder) (hr : t.Readable) (hn : t.Names) (c : Criteria) (m : Dict Str (List Str))
    (hq : (query table c).2 = .ok m) (hm : m ≠ []) (hf : ∀ k ∈ m.keys, k.length = 5 ∧ ∃ b, b ≠ [] ∧ HasFile t (entryPath k) b) :
    (∃ r, retrieveRaw table t.db c = .ok r) ∧ memoryRetrieveRaw table t c = .error .typeError := by
  constructor
  · rw [C47_succeeds table t.db c m hq]
    intro k hk
    obtain ⟨h5, b, -, hb⟩ := hf k hk
    exact ⟨h5, _, db_read_file hn hb⟩
  · unfold memoryRetrieveRaw
    rw [hq]
    match m, hm with
    | kv :: m, _ =>
      obtain ⟨h5, b, hb0, hb⟩ := hf kv.1 (by simp [Dict.keys])
      have hstep : memoryStep t kv = .error .typeError := by
        unfold memoryStep dictionaryEntryFactoryRaw
        have hp : slice kv.1 0 3 ++ ['/'] ++ kv.1 ++ ".x4".toList = entryPath kv.1 := by simp [entryPath, slice]
        rw [if_neg (by simp [h5]), hp]
        simp only [cache_read_file hr hn hb]
        match hl : byteLines b with
        | [] => exact absurd hl (byteLines_ne_nil hb0)
        | _ :: _ => rfl
      simp only [mapE, hstep]

/-- C49 (partial): the two managers agree when the query fails or the files it names are all
empty; in particular when the query finds nothing. -/
theorem C49_partial (table : List Row) (t : Folder) (hr : t.Readable) (hn : t.Names) (c : Criteria)
    (h : ∀ m, (query table c).2 = .ok m → ∀ k ∈ m.keys, k.length = 5 ∧ HasFile t (entryPath k) []) :
    memoryRetrieveRaw table t c = retrieveRaw table t.db c := by
  cases hq : (query table c).2 with
  | error e => simp only [memoryRetrieveRaw, retrieveRaw, hq]
  | ok m =>
    rw [retrieveRaw_eq hq]
    simp only [memoryRetrieveRaw, hq]
    refine mapE_congr fun kv hkv => ?_
    obtain ⟨h5, hb⟩ := h m hq kv.1 (List.mem_map_of_mem (f := Prod.fst) hkv)
    have hp : slice kv.1 0 3 ++ ['/'] ++ kv.1 ++ ".x4".toList = entryPath kv.1 := by simp [entryPath, slice]
    have h1 := cache_read_file hr hn hb
    have h2 := db_read_file hn hb
    simp only [memoryStep, retrieveStep, dictionaryEntryFactoryRaw, entryFactoryRaw, hp, h5, h1, h2]
    rfl

/-- C49_refuted applies. -/
example : (retrieveRaw demoIndex (Folder.db [(chars!"100", .ok [(chars!"10001.x4", .ok (demoFile.flatten.map (fun c => c.toNat.toUInt8)))])])
        { author := some chars!"BLOCK" }).isOk = true ∧
    memoryRetrieveRaw demoIndex [(chars!"100", .ok [(chars!"10001.x4", .ok (demoFile.flatten.map (fun c => c.toNat.toUInt8)))])] { author := some chars!"BLOCK" } = .error .typeError := by
  decide +kernel

/-! ### C11 for entries from memory -/

/-- C11: a wrong-length number is rejected by the factory for entries from memory too, whatever the
access to the cache would do, even if it would fail; a number of the right length is not. -/
theorem C11_dictionary (get : Str → Except PyErr (List Bytes)) (enum : Str) (subents : Option (List Str)) :
    (enum.length ≠ 5 → dictionaryEntryFactoryRaw get enum subents = .error .valueError) ∧
    (enum.length = 5 → ∀ e, get (enum.take 3 ++ "/".toList ++ enum ++ ".x4".toList) = .error e →
      dictionaryEntryFactoryRaw get enum subents = .error e) := by
  refine ⟨fun h => by simp [dictionaryEntryFactoryRaw, h], fun h e he => ?_⟩
  have he' : get (slice enum 0 3 ++ ['/'] ++ enum ++ ".x4".toList) = .error e := he
  simp only [dictionaryEntryFactoryRaw, h, ne_eq, not_true, if_false, he']

example : dictionaryEntryFactoryRaw (fun _ => .error .keyError) "1000".toList none = .error .valueError ∧
    dictionaryEntryFactoryRaw (fun _ => .error .keyError) "10001".toList none = .error .keyError := by decide

end X4
