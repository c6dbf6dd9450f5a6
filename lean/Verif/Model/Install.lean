import Verif.Model.Cache
import Verif.Py.Chars
/-! Model of `_download_and_unpack_file` (x4i3/__init__.py:106-171) as a transition system whose
states are the points at which the program can be interrupted. -/
namespace X4.Install

/-- a path below `DATAPATH`, as the names from there; `[]` is `DATAPATH` itself, x4i3/__init__.py:78-98 -/
abbrev Path := List Str

/-- what a path leads to, x4i3/__init__.py:124-139, 166 -/
inductive Node
  | dir
  | file (contents : Bytes)
  deriving DecidableEq

/-- The files and directories at and below `DATAPATH`. Symbolic links are not modelled. x4i3/__init__.py:106-171 -/
abbrev FS := Dict Path Node

/-- remove one node, x4i3/__init__.py:125-136 -/
def FS.rm (fs : FS) (p : Path) : FS := fs.filter (fun kv => decide (kv.1 ≠ p))

/-- the file names, x4i3/__init__.py:78-98. The tag file is named after the archive of the `url`
(lines 86 and 97-98): `x4i3_X4-2021-03-08.tar.gz` without its extensions and its first five
characters. -/
def indexPath : Path := [chars!"index.tbl"]
/-- x4i3/__init__.py:78-98 -/
def errorPath : Path := [chars!"error-entries.pickle"]
/-- x4i3/__init__.py:78-98 -/
def coupledPath : Path := [chars!"coupled-entries.pickle"]
/-- x4i3/__init__.py:78-98 -/
def monitoredPath : Path := [chars!"monitored-entries.pickle"]
/-- x4i3/__init__.py:78-98 -/
def countPath : Path := [chars!"reaction-count.pickle"]
/-- x4i3/__init__.py:78-98 -/
def dbPath : Path := [chars!"db"]
/-- x4i3/__init__.py:78-98 -/
def tagPath : Path := [chars!"X4-2021-03-08"]

/-- the list of the cleanup loop, x4i3/__init__.py:119-123 -/
def targets : List Path := [indexPath, errorPath, coupledPath, monitoredPath, countPath, dbPath, tagPath]

/-- the paths whose presence is (in commented-out code) checked at import,
x4i3/__init__.py:183-186 and 190-193 -/
def checked : List Path := [[], indexPath, errorPath, coupledPath, monitoredPath, countPath, dbPath, tagPath]

/-- `check_if_exists(p, return_bool=True)` for each of these paths, x4i3/__init__.py:173-178 -/
def allPresent (fs : FS) : Bool := checked.all (fun p => (fs.get? p).isSome)

/-- the patterns of x4i3/__init__.py:132 -/
def isTagName (n : Str) : Bool := (chars!"X4-").isPrefixOf n || (chars!"EXFOR-").isPrefixOf n

/-- `glob` for the two patterns, x4i3/__init__.py:131-133 (the order within a pattern is left to the
operating system and does not matter here) -/
def tagFiles (fs : FS) : List Path :=
  (fs.keys.filter (fun p => match p with | [n] => isTagName n | _ => false))

/-- what the procedure meets outside: the size announced (0 if there is no such header), what the server sends
if nothing goes wrong, and how `tarfile` reads the members of an archive (`none` if it fails), x4i3/__init__.py:142-163 -/
structure Server where
  contentLength : Nat
  archive : Bytes
  read : Bytes → Option (List (Path × Node))

/-- where an exception was raised, x4i3/__init__.py:124-171 -/
inductive Stage
  | cleaning | download | unpacking
  deriving DecidableEq

/-- where the procedure is, x4i3/__init__.py:124-171 -/
inductive Phase
  /-- before the next element of the cleanup loop -/
  | clean (todo : List Path)
  /-- in `shutil.rmtree` of a directory -/
  | rmtree (p : Path) (todo : List Path)
  /-- before removing the next tag file -/
  | tags (todo : List Path)
  /-- with this much received -/
  | download (received : Bytes)
  /-- members still to be extracted; the first may be partly written -/
  | extract (todo : List (Path × Node))
  /-- before the tag file is created -/
  | tagging
  | done
  /-- an exception has left the procedure -/
  | failed (s : Stage)

/-- files and position in x4i3/__init__.py:106-171 -/
structure State where
  fs : FS
  phase : Phase

/-- missing directories above a path are created by `tarfile`, x4i3/__init__.py:166 -/
def mkParents (fs : FS) (p : Path) : FS :=
  (List.range p.length).foldl (fun fs i => if (fs.get? (p.take i)).isSome then fs else fs.set (p.take i) .dir) fs

/-- One step of `_download_and_unpack_file`. Steps that depend on the operating system or the network can
also fail. x4i3/__init__.py:106-171 -/
inductive Step (S : Server) : State → State → Prop
  /-- `rmtree` → `FileNotFoundError`, lines 128-129 -/
  | absent {fs p todo} : fs.get? p = none → Step S ⟨fs, .clean (p :: todo)⟩ ⟨fs, .clean todo⟩
  /-- `rmtree` → `NotADirectoryError`, then `os.remove`, lines 126-127 -/
  | remove {fs p todo b} : fs.get? p = some (.file b) → Step S ⟨fs, .clean (p :: todo)⟩ ⟨fs.rm p, .clean todo⟩
  /-- `rmtree` of a directory, line 125 -/
  | enter {fs p todo} : fs.get? p = some .dir → Step S ⟨fs, .clean (p :: todo)⟩ ⟨fs, .rmtree p todo⟩
  /-- it removes what is below the directory in some order, a directory only when it is empty -/
  | below {fs p todo q} : p <+: q → q ≠ p → (fs.get? q).isSome → (∀ r, q <+: r → (fs.get? r).isSome → r = q) →
      Step S ⟨fs, .rmtree p todo⟩ ⟨fs.rm q, .rmtree p todo⟩
  /-- and at last the directory itself -/
  | top {fs p todo} : (∀ r, p <+: r → (fs.get? r).isSome → r = p) → Step S ⟨fs, .rmtree p todo⟩ ⟨fs.rm p, .clean todo⟩
  /-- the two `glob`s, lines 131-133 -/
  | glob {fs} : Step S ⟨fs, .clean []⟩ ⟨fs, .tags (tagFiles fs)⟩
  /-- lines 134-136 -/
  | removeTag {fs p todo b} : fs.get? p = some (.file b) → Step S ⟨fs, .tags (p :: todo)⟩ ⟨fs.rm p, .tags todo⟩
  /-- lines 137-138 -/
  | absentTag {fs p todo} : fs.get? p = none → Step S ⟨fs, .tags (p :: todo)⟩ ⟨fs, .tags todo⟩
  /-- `requests.get`, line 142 -/
  | request {fs} : Step S ⟨fs, .tags []⟩ ⟨fs, .download []⟩
  /-- one block, lines 152-155 -/
  | block {fs rcv b} : rcv ++ b <+: S.archive → Step S ⟨fs, .download rcv⟩ ⟨fs, .download (rcv ++ b)⟩
  /-- the stream has ended (perhaps too early) and the size is wrong, lines 156-157 -/
  | wrongSize {fs rcv} : S.contentLength ≠ 0 → rcv.length ≠ S.contentLength →
      Step S ⟨fs, .download rcv⟩ ⟨fs, .failed .download⟩
  /-- the stream has ended and the size is right or unknown; `tarfile` reads the members, lines 156-163 -/
  | openTar {fs rcv ms} : ¬ (S.contentLength ≠ 0 ∧ rcv.length ≠ S.contentLength) → S.read rcv = some ms →
      Step S ⟨fs, .download rcv⟩ ⟨fs, .extract ms⟩
  /-- or fails to -/
  | badTar {fs rcv} : ¬ (S.contentLength ≠ 0 ∧ rcv.length ≠ S.contentLength) → S.read rcv = none →
      Step S ⟨fs, .download rcv⟩ ⟨fs, .failed .download⟩
  /-- part of a file has been written, line 166 -/
  | partly {fs p b c todo} : c <+: b → fs.get? p ≠ some .dir →
      Step S ⟨fs, .extract ((p, .file b) :: todo)⟩ ⟨(mkParents fs p).set p (.file c), .extract ((p, .file b) :: todo)⟩
  /-- all of it has -/
  | whole {fs p b todo} : fs.get? p ≠ some .dir →
      Step S ⟨fs, .extract ((p, .file b) :: todo)⟩ ⟨(mkParents fs p).set p (.file b), .extract todo⟩
  /-- a directory is created unless it exists (a file in its place is an error in recent versions
  of `tarfile`; that older ones ignore it is not modelled) -/
  | mkdir {fs p todo} : (∀ b, fs.get? p ≠ some (.file b)) →
      Step S ⟨fs, .extract ((p, .dir) :: todo)⟩ ⟨(mkParents fs p).set p .dir, .extract todo⟩
  /-- lines 162-167 are finished -/
  | unpacked {fs} : Step S ⟨fs, .extract []⟩ ⟨fs, .tagging⟩
  /-- the tag file, lines 169-171 -/
  | tag {fs} : fs.get? tagPath ≠ some .dir → Step S ⟨fs, .tagging⟩ ⟨fs.set tagPath (.file []), .done⟩
  /-- exceptions of the operating system, or an interrupt, in each of the stages -/
  | failClean {fs todo} : Step S ⟨fs, .clean todo⟩ ⟨fs, .failed .cleaning⟩
  | failRmtree {fs p todo} : Step S ⟨fs, .rmtree p todo⟩ ⟨fs, .failed .cleaning⟩
  | failTags {fs todo} : Step S ⟨fs, .tags todo⟩ ⟨fs, .failed .cleaning⟩
  | failRequest {fs} : Step S ⟨fs, .tags []⟩ ⟨fs, .failed .download⟩
  | failDownload {fs rcv} : Step S ⟨fs, .download rcv⟩ ⟨fs, .failed .download⟩
  | failExtract {fs todo} : Step S ⟨fs, .extract todo⟩ ⟨fs, .failed .unpacking⟩
  | failTag {fs} : Step S ⟨fs, .tagging⟩ ⟨fs, .failed .unpacking⟩

/-- the states in which an execution that begins with these files can be, x4i3/__init__.py:106-171 -/
inductive Reach (S : Server) (fs₀ : FS) : State → Prop
  | start : Reach S fs₀ ⟨fs₀, .clean targets⟩
  | step {s s'} : Reach S fs₀ s → Step S s s' → Reach S fs₀ s'

end X4.Install
