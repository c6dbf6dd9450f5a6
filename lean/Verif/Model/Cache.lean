import Verif.Model.Manager
/-! Model of `DataBaseCache` (x4i3/__init__.py:199-221), of `x4DictionaryEntryFactory`
(exfor_entry.py:95-124) and of the memory-cached manager (exfor_manager.py:316-344). -/
namespace X4

/-- what files opened in binary mode contain, x4i3/__init__.py:210-211 -/
abbrev Bytes := List UInt8

/-- lines of a file opened in binary mode, each with its newline: `open(…, 'rb').readlines()`, x4i3/__init__.py:210-211 -/
def byteLines : Bytes → List Bytes
  | [] => []
  | b :: r =>
    if b = 10 then [b] :: byteLines r
    else match byteLines r with
      | [] => [[b]]
      | l :: ls => (b :: l) :: ls

/-- `encoding='latin1'`, exfor_entry.py:72 -/
def latin1 (b : UInt8) : Char := Char.ofNat b.toNat

/-- universal newlines: `\r\n` and `\r` become `\n`, `newline=None`, exfor_entry.py:72 -/
def universalNewlines : Str → Str
  | [] => []
  | '\r' :: '\n' :: r => '\n' :: universalNewlines r
  | '\r' :: r => '\n' :: universalNewlines r
  | c :: r => c :: universalNewlines r

/-- lines of a text, each with its newline, `f.readlines()`, exfor_entry.py:73 -/
def textLines : Str → List Str
  | [] => []
  | c :: r =>
    if c = '\n' then [c] :: textLines r
    else match textLines r with
      | [] => [[c]]
      | l :: ls => (c :: l) :: ls

/-- What `os.listdir` and `open` show of the database folder: the elements in the order listed.
An element may fail to be listed (for instance because it is not a directory), and a file may
fail to be read. x4i3/__init__.py:207-211, exfor_entry.py:71-73 -/
abbrev Folder := List (Str × Except PyErr (List (Str × Except PyErr Bytes)))

/-- the lines of the file `dir/name`, opened as text (exfor_entry.py:71-74) -/
def Folder.bytes (t : Folder) (dir name : Str) : Except PyErr Bytes :=
  match Dict.get? t dir with
  | none => .error .ioError
  | some (.error e) => .error e
  | some (.ok files) => match Dict.get? files name with
    | none => .error .ioError
    | some r => r

/-- the database directory as read by `x4EntryFactory`, exfor_entry.py:69-73 -/
def Folder.db (t : Folder) : DB where
  read p :=
    match t.bytes (p.takeWhile (· != '/')) ((p.dropWhile (· != '/')).drop 1) with
    | .error e => .error e
    | .ok b => .ok (textLines (universalNewlines (b.map latin1)))

/-- `DataBaseCache`: the dictionary itself and the flag, x4i3/__init__.py:199-204 -/
structure Cache where
  files : Dict Str (List Bytes)
  initialized : Bool
  deriving DecidableEq

/-- `DataBaseCache()`, x4i3/__init__.py:203-204 -/
def Cache.new : Cache := ⟨[], false⟩

/-- the inner loop of `__load_cache`, x4i3/__init__.py:208-211. The dictionary keeps what was read
before an exception. -/
def loadFiles (sd : Str) : Dict Str (List Bytes) → List (Str × Except PyErr Bytes) → Dict Str (List Bytes) × Option PyErr
  | d, [] => (d, none)
  | d, (_, .error e) :: _ => (d, some e)
  | d, (name, .ok b) :: r => loadFiles sd (d.set (sd ++ ['/'] ++ name) (byteLines b)) r

/-- the outer loop of `__load_cache`, x4i3/__init__.py:207-211 -/
def loadFolder : Dict Str (List Bytes) → Folder → Dict Str (List Bytes) × Option PyErr
  | d, [] => (d, none)
  | d, (_, .error e) :: _ => (d, some e)
  | d, (sd, .ok files) :: r => match loadFiles sd d files with
    | (d', some e) => (d', some e)
    | (d', none) => loadFolder d' r

/-- `__getitem__`, x4i3/__init__.py:214-217. The folder is what is on disk at the time of the access
(assumed not to change during the scan); `.error` if it cannot be listed. The third component
tells whether the folder was scanned. -/
def Cache.getItem (c : Cache) (folder : Except PyErr Folder) (key : Str) : Cache × Except PyErr (List Bytes) × Bool :=
  if c.initialized then (c, c.files.get key, false)
  else match folder with
    | .error e => (c, .error e, true)
    | .ok t => match loadFolder c.files t with
      | (d, some e) => (⟨d, false⟩, .error e, true)
      | (d, none) => (⟨d, true⟩, d.get key, true)

/-- a history of accesses: results in order, and the final cache, each access is x4i3/__init__.py:214-217 -/
def Cache.run (c : Cache) : List (Except PyErr Folder × Str) → Cache × List (Except PyErr (List Bytes) × Bool)
  | [] => (c, [])
  | (t, k) :: h =>
    let r := c.getItem t k
    let rest := r.1.run h
    (rest.1, r.2 :: rest.2)

/-- `x4DictionaryEntryFactory(enum, subentsList, rawEntry=True)`, exfor_entry.py:95-124. The lines
are byte strings, and `line.startswith('ENTRY')` with a text is a `TypeError` for them. -/
def dictionaryEntryFactoryRaw (get : Str → Except PyErr (List Bytes)) (enum : Str) (_subents : Option (List Str)) : Except PyErr (List Str) :=
  if enum.length ≠ 5 then .error .valueError
  else match get (slice enum 0 3 ++ ['/'] ++ enum ++ ".x4".toList) with
    | .error e => .error e
    | .ok [] => .ok []
    | .ok (_ :: _) => .error .typeError

/-- one key of the loop of the memory-cached `retrieve`, exfor_manager.py:330-343 -/
def memoryStep (t : Folder) (kv : Str × List Str) : Except PyErr (Str × List Str) :=
  match dictionaryEntryFactoryRaw (fun k => (Cache.new.getItem (.ok t) k).2.1) kv.1 (some kv.2) with
  | .error e => .error e
  | .ok l => .ok (kv.1, l)

/-- `X4DBManagerMemoryCached.retrieve` with `rawEntry=True`, exfor_manager.py:320-344, for a folder that
does not change (so that the cache gives the same whether it was filled before or not) -/
def memoryRetrieveRaw (table : List Row) (t : Folder) (c : Criteria) : Except PyErr (Dict Str (List Str)) :=
  match (query table c).2 with
  | .error e => .error e
  | .ok smap => mapE (memoryStep t) smap

end X4
