import Verif.Model.Session
/-! What a call on an `X4Entry` object leaves behind, also if it raises an exception. -/
namespace X4
variable {ρ N : Type}

/-- the state after a loop that may be left by an exception; `g` is what the round that raised it left behind (Python's `for`, as in exfor_entry.py:241, 265, 282, 300) -/
def foldKeep {ε σ α : Type} (f : σ → α → Except ε σ) (g : σ → α → σ) : σ → List α → σ
  | s, [] => s
  | s, x :: l => match f s x with
    | .error _ => g s x
    | .ok s' => foldKeep f g s' l

/-- the subentry after its BIB section was asked for its metadata: `bib.setdefault('TITLE')` comes after the authors and before anything else that
may raise an exception, exfor_section.py:133-147, exfor_entry.py:231-236, 252-257 -/
def SubEntry.left (s : SubEntry ρ) : SubEntry ρ :=
  match s.bib with
  | none => s
  | some b => match b.metaAuthor with
    | .error _ => s
    | .ok _ => { s with sections := s.sections.set "BIB".toList (.bib b.defaultTitle) }

variable [PyNum N]

/-- what a round of the loop over the subentries leaves behind that raises an exception, exfor_entry.py:241-295 -/
def subLeft (rx : RxOps ρ) (mainKey : Option Str) (main : SubInfo ρ) (st : DsState ρ N) (key : Option Str) : DsState ρ N :=
  match st.entry.subs.get? key with
  | none => st
  | some s => match s.data with
    | none => st
    | some data =>
      let st1 : DsState ρ N := { st with entry := { st.entry with subs := st.entry.subs.set key s.left } }
      match s.info (s.accnum.getD "None".toList) with
      | .error _ => st1
      | .ok si =>
        let step := dsStep (N := N) rx st.entry.accnum s.accnum [main.info, si.1.info] (commonList mainKey key main.common si.1.common) data
        match foldE (step main) st1 main.reactions with
        | .error _ => foldKeep (step main) (fun st _ => st) st1 main.reactions
        | .ok st2 => foldKeep (step si.1) (fun st _ => st) st2 si.1.reactions

/-- what `getDataSets` leaves behind, exfor_entry.py:221-296 -/
def Entry.leftDataSets (rx : RxOps ρ) (e : Entry ρ) (errs : Dict DsKey PyErr) : DsState ρ N :=
  match e.deleted with
  | .error _ => { errors := errs, entry := e }
  | .ok true => { errors := errs, entry := e }
  | .ok false => match e.getItem (.int 1) with
    | .error _ => { errors := errs, entry := e }
    | .ok s =>
      let st : DsState ρ N := { errors := errs, entry := { e with subs := e.subs.set e.mainKey s.left } }
      match s.info (e.accnum ++ "001".toList) with
      | .error _ => st
      | .ok mi => foldKeep (subStep rx e.mainKey mi.1) (subLeft rx e.mainKey mi.1) st e.subs.keys

/-- what `getSimplifiedDataSets` leaves behind, exfor_entry.py:298-340 -/
def Entry.leftSimplified (rx : RxOps ρ) (e : Entry ρ) (errs : Dict DsKey PyErr) (makeAll : Bool) : DsState ρ N :=
  match e.getDataSets (N := N) rx errs with
  | .error _ => e.leftDataSets rx errs
  | .ok st => foldKeep (simplifyStep makeAll) (fun st _ => st) st st.datasets

/-- what `meta` leaves behind, exfor_entry.py:352, 357-364 -/
def Entry.leftMeta (e : Entry ρ) : Entry ρ :=
  match e.deleted with
  | .error _ => e
  | .ok _ => match e.sortedKeys with
    | .error _ => e
    | .ok _ => match e.getItem (.int 1) with
      | .error _ => e
      | .ok s => { e with subs := e.subs.set e.mainKey s.left }

/-- the object after a call, whether or not it raised an exception, exfor_entry.py:221-340, 352 -/
def EntryCall.left (N : Type) [PyNum N] (rx : RxOps ρ) (o : EntryObject ρ) : EntryCall → EntryObject ρ
  | .datasets => ⟨(o.entry.leftDataSets (N := N) rx o.errors).entry, (o.entry.leftDataSets (N := N) rx o.errors).errors⟩
  | .simplified makeAll => ⟨(o.entry.leftSimplified (N := N) rx o.errors makeAll).entry, (o.entry.leftSimplified (N := N) rx o.errors makeAll).errors⟩
  | .metadata => ⟨o.entry.leftMeta, o.errors⟩

/-- the object after a sequence of calls whose exceptions are caught, exfor_entry.py:221-340, 352 -/
def EntryObject.afterAll (N : Type) [PyNum N] (rx : RxOps ρ) (o : EntryObject ρ) (calls : List EntryCall) : EntryObject ρ :=
  calls.foldl (fun o c => c.left N rx o) o

end X4
