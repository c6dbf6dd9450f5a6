import Verif.Py.Chars
import Verif.Py.Str
/-! How authors are named in a legend or a citation. -/
namespace X4

/-- one or two authors are named; of more the first two, followed by "et al." -/
def namedAuthors : List Str → Str
  | [] => []
  | [a] => a
  | [a, b] => a ++ chars!", " ++ b
  | a :: b :: _ :: _ => a ++ chars!", " ++ b ++ chars!", et al."

/-- the closing words of a citation -/
def citationTail (subent date : Str) : Str :=
  chars!";  Data taken from the EXFOR database, file EXFOR " ++ subent ++ chars!" dated " ++ date ++
    chars!", retrieved from the IAEA Nuclear Data Services website."

end X4
