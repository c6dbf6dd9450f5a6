/-! The Python exceptions that the modelled code can raise, as values. -/
namespace X4

/-- Exception classes; where the code makes the payload observable, it is kept. -/
inductive PyErr where
  | indexError
  | keyError
  | valueError
  | typeError
  | zeroDivisionError
  | attributeError
  | notImplementedError
  | unboundLocalError
  | ioError
  | parseException
  | noValuesGivenError (column : List Char)
  | noUncertaintyGivenError (column : List Char)
  | brokenNumberError (numstring : List Char)
  | runtimeError
  | reactionParsingError
  | referenceParsingError
  | authorParsingError
  | instituteParsingError
  | isomerMathParsingError
  | assertionError
  | particleParsingError
  | residualNucleusError
  | lookupError
  | operationalError
  deriving DecidableEq, Repr

/-- `l[i]` for a non-negative index. -/
def pyIdx {α} (l : List α) (i : Nat) : Except PyErr α :=
  match l[i]? with
  | some x => .ok x
  | none => .error .indexError

@[simp] theorem pyIdx_ok_iff {α} {l : List α} {i : Nat} {x : α} :
    pyIdx l i = .ok x ↔ l[i]? = some x := by
  unfold pyIdx; split <;> simp_all

theorem pyIdx_of_lt {α} {l : List α} {i : Nat} (h : i < l.length) :
    pyIdx l i = .ok l[i] := by
  simp [h]

@[simp] theorem pyIdx_error_iff {α} {l : List α} {i : Nat} {e : PyErr} :
    pyIdx l i = .error e ↔ l.length ≤ i ∧ e = .indexError := by
  unfold pyIdx; split
  · rename_i x h
    have := (List.getElem?_eq_some_iff.1 h).1
    simp; omega
  · rename_i h
    have := List.getElem?_eq_none_iff.1 h
    simp [this, eq_comm]

end X4
