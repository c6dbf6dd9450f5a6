import Verif.Py.Str
/-! Reading a CSV file with commas, double quotes and `\n` line ends. -/
namespace X4

/-- where the reader stands -/
inductive CsvState where
  | start | plain | quoted | quoteSeen
  deriving DecidableEq

/-- The fields of a CSV text. An empty line is an empty row. -/
def csvGo : CsvState → Str → List Str → Str → List (List Str)
  | .start, _, r, [] => if r = [] then [] else [r ++ [[]]]
  | .plain, f, r, [] => [r ++ [f]]
  | .quoted, f, r, [] => [r ++ [f]]
  | .quoteSeen, f, r, [] => [r ++ [f]]
  | .start, _, r, c :: s =>
    if c = '"' then csvGo .quoted [] r s
    else if c = ',' then csvGo .start [] (r ++ [[]]) s
    else if c = '\n' then (if r = [] then [] else r ++ [[]]) :: csvGo .start [] [] s
    else csvGo .plain [c] r s
  | .plain, f, r, c :: s =>
    if c = ',' then csvGo .start [] (r ++ [f]) s
    else if c = '\n' then (r ++ [f]) :: csvGo .start [] [] s
    else csvGo .plain (f ++ [c]) r s
  | .quoted, f, r, c :: s =>
    if c = '"' then csvGo .quoteSeen f r s else csvGo .quoted (f ++ [c]) r s
  | .quoteSeen, f, r, c :: s =>
    if c = '"' then csvGo .quoted (f ++ ['"']) r s
    else if c = ',' then csvGo .start [] (r ++ [f]) s
    else if c = '\n' then (r ++ [f]) :: csvGo .start [] [] s
    else csvGo .plain (f ++ [c]) r s

/-- the rows of a CSV file -/
def readCsv (s : Str) : List (List Str) := csvGo .start [] [] s

end X4
