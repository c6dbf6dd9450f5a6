import Verif.Model.Dataset
import Verif.Model.Metadata
/-! An `X4Entry` object in use: the calls that read from it also change it (`bib.setdefault('TITLE')`, `self.errors`). -/
namespace X4
variable {ρ N : Type}

/-- the entry after `meta()`, which asks the BIB section of `self[1]` for its metadata and so gives it a title, exfor_entry.py:352, 364, exfor_section.py:141 -/
def Entry.afterMeta (e : Entry ρ) : Entry ρ :=
  match e.getItem (.int 1) with
  | .error _ => e
  | .ok s => match s.bib with
    | none => e
    | some b => { e with subs := e.subs.set e.mainKey { s with sections := s.sections.set "BIB".toList (.bib b.defaultTitle) } }

/-- the object: the entry and `self.errors`, exfor_entry.py:150-163 -/
structure EntryObject (ρ : Type) where
  entry : Entry ρ
  errors : Dict DsKey PyErr

/-- the calls `getDataSets()`, `getSimplifiedDataSets(makeAllColumns)` and `meta()`, exfor_entry.py:221, 298, 352 -/
inductive EntryCall where
  | datasets
  | simplified (makeAll : Bool)
  | metadata

/-- what they return, exfor_entry.py:296, 340, 352 -/
inductive EntryAnswer (ρ N : Type) where
  | sets (d : Dict DsKey (DataSet ρ N))
  | info (m : EntryMeta ρ)

/-- a call: what is returned, and the object afterwards, exfor_entry.py:221-340, 352. (What a call that raises an exception leaves behind
is `EntryCall.left`.) -/
def EntryCall.run [PyNum N] (rx : RxOps ρ) (o : EntryObject ρ) : EntryCall → Except PyErr (EntryAnswer ρ N × EntryObject ρ)
  | .datasets => match o.entry.getDataSets (N := N) rx o.errors with
    | .error x => .error x
    | .ok st => .ok (.sets st.datasets, ⟨st.entry, st.errors⟩)
  | .simplified makeAll => match o.entry.getSimplifiedDataSets (N := N) rx o.errors makeAll with
    | .error x => .error x
    | .ok st => .ok (.sets st.datasets, ⟨st.entry, st.errors⟩)
  | .metadata => match o.entry.meta with
    | .error x => .error x
    | .ok m => .ok (.info m, ⟨o.entry.afterMeta, o.errors⟩)

/-- a sequence of calls, exfor_entry.py:221-340, 352 -/
def EntryObject.after (N : Type) [PyNum N] (rx : RxOps ρ) (o : EntryObject ρ) (calls : List EntryCall) : Except PyErr (EntryObject ρ) :=
  foldE (fun o c => match EntryCall.run (N := N) rx o c with
    | .error x => .error x
    | .ok r => .ok r.2) o calls

end X4
