import Verif.Model.Dataset
/-! What `getDataSets` should return. -/
namespace X4
variable {ρ N : Type}

/-- the DATA section of subentry `k`, and the reactions etc. given there; `none` if there is no
such subentry or no DATA section in it -/
def Entry.dataOf (e : Entry ρ) (k : Option Str) : Option (DataSection × SubInfo ρ) :=
  match e.subs.get? k with
  | none => none
  | some s => match s.data with
    | none => none
    | some d => match s.info (s.accnum.getD "None".toList) with
      | .error _ => none
      | .ok i => some (d, i.1)

/-- what came of an attempt -/
def okPart {α : Type} : Option (Except PyErr α) → Option α
  | some (.ok a) => some a
  | _ => none
def errPart {α : Type} : Option (Except PyErr α) → Option PyErr
  | some (.error e) => some e
  | _ => none

variable [PyNum N]

/-- the dataset built from the reaction given under pointer `p` in `from_`, if there is one -/
def attempt (rx : RxOps ρ) (ms : List (Option (DsMeta ρ))) (common : List (Option (Nat × DataSection))) (data : DataSection)
    (from_ : SubInfo ρ) (p : Char) : Option (Except PyErr (DataSet ρ N)) :=
  (from_.reactions.get? p).map fun r => dataSetFactory rx ms common r (from_.monitors.get? p) data (some p)

/-- the attempt with the reaction in the first subentry -/
def mainAttempt (rx : RxOps ρ) (e : Entry ρ) (main : SubInfo ρ) (k : Option Str) (di : DataSection × SubInfo ρ) (p : Char) :
    Option (Except PyErr (DataSet ρ N)) :=
  attempt rx [main.info, di.2.info] (commonList e.mainKey k main.common di.2.common) di.1 main p
/-- the attempt with the reaction in the subentry itself -/
def ownAttempt (rx : RxOps ρ) (e : Entry ρ) (main : SubInfo ρ) (k : Option Str) (di : DataSection × SubInfo ρ) (p : Char) :
    Option (Except PyErr (DataSet ρ N)) :=
  attempt rx [main.info, di.2.info] (commonList e.mainKey k main.common di.2.common) di.1 di.2 p

/-- the dataset for a subentry and a pointer -/
def goodOf (rx : RxOps ρ) (e : Entry ρ) (main : SubInfo ρ) (k : Option Str) (p : Char) : Option (DataSet ρ N) :=
  match e.dataOf k with
  | none => none
  | some di => (okPart (ownAttempt rx e main k di p)).or (okPart (mainAttempt rx e main k di p))

/-- the recorded exception -/
def badOf (N : Type) [PyNum N] (rx : RxOps ρ) (e : Entry ρ) (main : SubInfo ρ) (k : Option Str) (p : Char) : Option PyErr :=
  match e.dataOf k with
  | none => none
  | some di => (errPart (ownAttempt (N := N) rx e main k di p)).or (errPart (mainAttempt (N := N) rx e main k di p))

end X4
