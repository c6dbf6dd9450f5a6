import Verif.Py.Str
/-! Model of `x4i3/exfor_reference.py`. -/
namespace X4

/-- the two-digit case of `parseX4Year`, exfor_reference.py:66-71 -/
def twoDigitYear (year : Str) : Except PyErr Str :=
  if year.length = 2 then
    match pyInt year with
    | none => .error .valueError
    | some n => if n > 10 then .ok ("19".toList ++ year) else .ok ("20".toList ++ year)
  else .ok year

/-- `parseX4Year`, exfor_reference.py:38-72. (The `isinstance` test of lines
51-52 cannot fail here.) -/
def parseX4Year (date : Str) : Except PyErr Str :=
  let date := replaceChar ')' [] date
  if isDigitStr date then
    let year := if date.length = 6 then date.take (date.length - 2) else date
    let year := if year.length = 8 then year.take (year.length - 4) else year
    if year.length = 4 then
      if year.take 2 = "19".toList ∨ year.take 2 = "20".toList then .ok year
      else twoDigitYear (year.take 2)
    else twoDigitYear year
  else .error .typeError

end X4
