import Verif.Model.Dataset
import Verif.Model.FieldText
/-! Model of the texts of the exceptions (`x4i3/exfor_exceptions.py`) and of the messages kept in `self.errors` of an entry
(`x4i3/exfor_entry.py`). -/
namespace X4

/-- `self.value` of the exceptions which keep what they were given, exfor_exceptions.py:142-143, 179-180, 199-200; `none` for those of
Python itself and those whose argument is not represented -/
def PyErr.value? : PyErr → Option Str
  | .noValuesGivenError c => some (chars!"No value column for " ++ strRepr c)
  | .noUncertaintyGivenError c => some (chars!"No uncertainty column for " ++ strRepr c)
  | .brokenNumberError s => some (chars!"Badly formatted number: \"" ++ strRepr s ++ chars!"\"")
  | _ => none

/-- `str(err)`: `repr(self.value)` (exfor_exceptions.py:130-131); `py` gives the texts of Python's own exceptions -/
def PyErr.text (py : PyErr → Str) (e : PyErr) : Str :=
  match e.value? with
  | some v => strRepr v
  | none => py e

/-- the message kept when a dataset cannot be made, exfor_entry.py:274-278, 291-295; the text of the NotImplementedError is that of
exfor_dataset.py:443-444 -/
def factoryMessage (rx : RxOps ρ) (py : PyErr → Str) (r : ρ) : PyErr → Str
  | .notImplementedError => chars!"Encountered NotImplementedError: " ++ (chars!"Coupled data with different quantities in expression:" ++
      match rx.text r with | .ok t => t | .error _ => [])
  | .indexError => chars!"Encountered IndexError:" ++ PyErr.text py .indexError
  | _ => []

/-- the message kept when a dataset cannot be simplified, exfor_entry.py:304-339; the NotImplementedError of exfor_dataset.py:360 has an
empty text. Other exceptions are not caught. -/
def simplifyMessage (py : PyErr → Str) (e : PyErr) : Str :=
  match e with
  | .notImplementedError => chars!"Encountered NotImplementedError: "
  | .noValuesGivenError _ => chars!"Encountered NoValuesGivenError: " ++ e.text py
  | .noUncertaintyGivenError _ => chars!"Encountered NoUncertaintyGivenError: " ++ e.text py
  | .brokenNumberError _ => chars!"Encountered BrokenNumberError:" ++ e.text py
  | .typeError => chars!"Encountered TypeError:" ++ e.text py
  | .indexError => chars!"Encountered IndexError:" ++ e.text py
  | _ => []

/-- `self.errors` as texts, exfor_entry.py:156 -/
abbrev Notes := Dict DsKey Str

variable {N : Type} [PyNum N]

/-- the message of one round of the loops of exfor_entry.py:265-278, 282-295 -/
def dsNote (N : Type) [PyNum N] (rx : RxOps ρ) (py : PyErr → Str) (accnum : Str) (sub : Option Str) (ms : List (Option (DsMeta ρ)))
    (common : List (Option (Nat × DataSection))) (data : DataSection) (from_ : SubInfo ρ) (notes : Notes) (pr : Char × (ρ × Str)) : Notes :=
  match dataSetFactory (N := N) rx ms common pr.2 (from_.monitors.get? pr.1) data (some pr.1) with
  | .error .notImplementedError => notes.set (accnum, sub, pr.1) (factoryMessage rx py pr.2.1 .notImplementedError)
  | .error .indexError => notes.set (accnum, sub, pr.1) (factoryMessage rx py pr.2.1 .indexError)
  | _ => notes

/-- `dsStep` with the messages, exfor_entry.py:265-278, 282-295 -/
def dsStepN (rx : RxOps ρ) (py : PyErr → Str) (accnum : Str) (sub : Option Str) (ms : List (Option (DsMeta ρ)))
    (common : List (Option (Nat × DataSection))) (data : DataSection) (from_ : SubInfo ρ) (st : DsState ρ N × Notes)
    (pr : Char × (ρ × Str)) : Except PyErr (DsState ρ N × Notes) :=
  match dsStep rx accnum sub ms common data from_ st.1 pr with
  | .error e => .error e
  | .ok s => .ok (s, dsNote N rx py accnum sub ms common data from_ st.2 pr)

/-- `subStep` with the messages, exfor_entry.py:241-295 -/
def subStepN (rx : RxOps ρ) (py : PyErr → Str) (mainKey : Option Str) (main : SubInfo ρ) (st : DsState ρ N × Notes) (key : Option Str) :
    Except PyErr (DsState ρ N × Notes) :=
  match st.1.entry.subs.get? key with
  | none => .ok st    -- not reached: `key` is a key of the entry
  | some s =>
    match s.data with
    | none => .ok st
    | some data =>
      match s.info (s.accnum.getD "None".toList) with
      | .error e => .error e
      | .ok si =>
        match foldE (dsStepN rx py st.1.entry.accnum s.accnum [main.info, si.1.info]
            (commonList mainKey key main.common si.1.common) data main)
            ({ st.1 with entry := { st.1.entry with subs := st.1.entry.subs.set key si.2 } }, st.2) main.reactions with
        | .error e => .error e
        | .ok st' => foldE (dsStepN rx py st.1.entry.accnum s.accnum [main.info, si.1.info]
            (commonList mainKey key main.common si.1.common) data si.1) st' si.1.reactions

/-- `getDataSets` with the messages, exfor_entry.py:221-296; the state starts with the recorded exceptions `errs` and their messages `notes` -/
def Entry.getDataSetsN (rx : RxOps ρ) (py : PyErr → Str) (e : Entry ρ) (errs : Dict DsKey PyErr) (notes : Notes) :
    Except PyErr (DsState ρ N × Notes) :=
  match e.deleted with
  | .error x => .error x
  | .ok true => .ok ({ errors := errs, entry := e }, notes)
  | .ok false =>
    match e.getItem (.int 1) with
    | .error x => .error x
    | .ok s =>
      match s.info (e.accnum ++ "001".toList) with
      | .error x => .error x
      | .ok mi => foldE (subStepN rx py e.mainKey mi.1)
          ({ errors := errs, entry := { e with subs := e.subs.set e.mainKey mi.2 } }, notes) e.subs.keys

/-- `simplifyStep` with the messages, exfor_entry.py:300-339 -/
def simplifyStepN (py : PyErr → Str) (makeAll : Bool) (st : DsState ρ N × Notes) (kd : DsKey × DataSet ρ N) :
    Except PyErr (DsState ρ N × Notes) :=
  match kd.2.getSimplified makeAll false with
  | .ok d => .ok ({ st.1 with datasets := st.1.datasets.set kd.1 d }, st.2)
  | .error e =>
    if simplifyHandled e then .ok ({ st.1 with errors := st.1.errors.set kd.1 e }, st.2.set kd.1 (simplifyMessage py e)) else .error e

/-- `getSimplifiedDataSets` with the messages, exfor_entry.py:298-340 -/
def Entry.getSimplifiedDataSetsN (rx : RxOps ρ) (py : PyErr → Str) (e : Entry ρ) (errs : Dict DsKey PyErr) (notes : Notes) (makeAll : Bool) :
    Except PyErr (DsState ρ N × Notes) :=
  match e.getDataSetsN (N := N) rx py errs notes with
  | .error x => .error x
  | .ok st => foldE (simplifyStepN py makeAll) st st.1.datasets

end X4
