import Verif.Model.Manager
import Verif.Py.Chars
/-! Generated by `tools/conformance_index.py`: the queries of `x4i3/tests/test_exfor_manager.py` with their expected results, on the index
`x4i3/tests/data/index.tbl`. These are tests of the model (evaluated, not proved). The results are compared as dictionaries, that is up to the
order of their keys. -/
namespace X4.RecordedIndex

/-- a row of `theworks` -/
def rowOf (l : Str) : List Row :=
  match splitChar '|' l with
  | [a, b, c, d, e, f, g, h] => [⟨some a, some b, some c, some d, some e, some f, some g, some h⟩]
  | _ => []

/-- what a test expects -/
def expected (s : String) : Option (Dict Str (List Str)) :=
  some ((splitChar ';' s.toList).flatMap fun x => match splitChar ' ' x with | [] => [] | k :: l => [(k, l)])

/-- rows of x4i3/tests/data/index.tbl -/
def rows0 : String := "10001|10001002| |Hockenbury|N,G|N|AL-27|SIG
10001|10001002| |Bartolome|N,G|N|AL-27|SIG
10001|10001002| |Tatarczuk|N,G|N|AL-27|SIG
10001|10001002| |Moyer|N,G|N|AL-27|SIG
10001|10001002| |Block|N,G|N|AL-27|SIG
10001|10001003| |Hockenbury|N,G|N|FE-0|SIG
10001|10001003| |Bartolome|N,G|N|FE-0|SIG
10001|10001003| |Tatarczuk|N,G|N|FE-0|SIG
10001|10001003| |Moyer|N,G|N|FE-0|SIG
10001|10001003| |Block|N,G|N|FE-0|SIG
10001|10001004| |Hockenbury|N,G|N|NI-0|SIG
10001|10001004| |Bartolome|N,G|N|NI-0|SIG
10001|10001004| |Tatarczuk|N,G|N|NI-0|SIG
10001|10001004| |Moyer|N,G|N|NI-0|SIG
10001|10001004| |Block|N,G|N|NI-0|SIG
10001|10001005|1|Hockenbury|N,0|N|FE-54|EN
10001|10001005|1|Bartolome|N,0|N|FE-54|EN
10001|10001005|1|Tatarczuk|N,0|N|FE-54|EN
10001|10001005|1|Moyer|N,0|N|FE-54|EN
10001|10001005|1|Block|N,0|N|FE-54|EN
10001|10001005|3|Hockenbury|N,G|N|FE-54|WID
10001|10001005|3|Bartolome|N,G|N|FE-54|WID
10001|10001005|3|Tatarczuk|N,G|N|FE-54|WID
10001|10001005|3|Moyer|N,G|N|FE-54|WID
10001|10001005|3|Block|N,G|N|FE-54|WID
10001|10001005|2|Hockenbury|N,EL|N|FE-54|WID
10001|10001005|2|Bartolome|N,EL|N|FE-54|WID
10001|10001005|2|Tatarczuk|N,EL|N|FE-54|WID
10001|10001005|2|Moyer|N,EL|N|FE-54|WID
10001|10001005|2|Block|N,EL|N|FE-54|WID
10001|10001005|2|Hockenbury|N,G|N|FE-54|WID
10001|10001005|2|Bartolome|N,G|N|FE-54|WID
10001|10001005|2|Tatarczuk|N,G|N|FE-54|WID
10001|10001005|2|Moyer|N,G|N|FE-54|WID
10001|10001005|2|Block|N,G|N|FE-54|WID
10001|10001005|2|Hockenbury|N,TOT|N|FE-54|WID
10001|10001005|2|Bartolome|N,TOT|N|FE-54|WID
10001|10001005|2|Tatarczuk|N,TOT|N|FE-54|WID
10001|10001005|2|Moyer|N,TOT|N|FE-54|WID
10001|10001005|2|Block|N,TOT|N|FE-54|WID
10001|10001006|1|Hockenbury|N,0|N|FE-56|EN
10001|10001006|1|Bartolome|N,0|N|FE-56|EN
10001|10001006|1|Tatarczuk|N,0|N|FE-56|EN
10001|10001006|1|Moyer|N,0|N|FE-56|EN
10001|10001006|1|Block|N,0|N|FE-56|EN
10001|10001006|3|Hockenbury|N,G|N|FE-56|WID
10001|10001006|3|Bartolome|N,G|N|FE-56|WID
10001|10001006|3|Tatarczuk|N,G|N|FE-56|WID
10001|10001006|3|Moyer|N,G|N|FE-56|WID
10001|10001006|3|Block|N,G|N|FE-56|WID
10001|10001006|2|Hockenbury|N,EL|N|FE-56|WID
10001|10001006|2|Bartolome|N,EL|N|FE-56|WID
10001|10001006|2|Tatarczuk|N,EL|N|FE-56|WID
10001|10001006|2|Moyer|N,EL|N|FE-56|WID
10001|10001006|2|Block|N,EL|N|FE-56|WID
10001|10001006|2|Hockenbury|N,G|N|FE-56|WID
10001|10001006|2|Bartolome|N,G|N|FE-56|WID
10001|10001006|2|Tatarczuk|N,G|N|FE-56|WID
10001|10001006|2|Moyer|N,G|N|FE-56|WID
10001|10001006|2|Block|N,G|N|FE-56|WID
10001|10001006|2|Hockenbury|N,TOT|N|FE-56|WID
10001|10001006|2|Bartolome|N,TOT|N|FE-56|WID
10001|10001006|2|Tatarczuk|N,TOT|N|FE-56|WID
10001|10001006|2|Moyer|N,TOT|N|FE-56|WID
10001|10001006|2|Block|N,TOT|N|FE-56|WID
10001|10001007|1|Hockenbury|N,0|N|FE-57|EN
10001|10001007|1|Bartolome|N,0|N|FE-57|EN
10001|10001007|1|Tatarczuk|N,0|N|FE-57|EN
10001|10001007|1|Moyer|N,0|N|FE-57|EN
10001|10001007|1|Block|N,0|N|FE-57|EN
10001|10001007|3|Hockenbury|N,G|N|FE-57|WID
10001|10001007|3|Bartolome|N,G|N|FE-57|WID
10001|10001007|3|Tatarczuk|N,G|N|FE-57|WID
10001|10001007|3|Moyer|N,G|N|FE-57|WID
10001|10001007|3|Block|N,G|N|FE-57|WID
10001|10001007|2|Hockenbury|N,EL|N|FE-57|WID
10001|10001007|2|Bartolome|N,EL|N|FE-57|WID
10001|10001007|2|Tatarczuk|N,EL|N|FE-57|WID
10001|10001007|2|Moyer|N,EL|N|FE-57|WID
10001|10001007|2|Block|N,EL|N|FE-57|WID
10001|10001007|2|Hockenbury|N,G|N|FE-57|WID
10001|10001007|2|Bartolome|N,G|N|FE-57|WID
10001|10001007|2|Tatarczuk|N,G|N|FE-57|WID
10001|10001007|2|Moyer|N,G|N|FE-57|WID
10001|10001007|2|Block|N,G|N|FE-57|WID
10001|10001007|2|Hockenbury|N,TOT|N|FE-57|WID
10001|10001007|2|Bartolome|N,TOT|N|FE-57|WID
10001|10001007|2|Tatarczuk|N,TOT|N|FE-57|WID
10001|10001007|2|Moyer|N,TOT|N|FE-57|WID
10001|10001007|2|Block|N,TOT|N|FE-57|WID
10001|10001008|1|Hockenbury|N,0|N|FE-58|EN
10001|10001008|1|Bartolome|N,0|N|FE-58|EN
10001|10001008|1|Tatarczuk|N,0|N|FE-58|EN
10001|10001008|1|Moyer|N,0|N|FE-58|EN
10001|10001008|1|Block|N,0|N|FE-58|EN
10001|10001008|3|Hockenbury|N,G|N|FE-58|WID
10001|10001008|3|Bartolome|N,G|N|FE-58|WID
10001|10001008|3|Tatarczuk|N,G|N|FE-58|WID
10001|10001008|3|Moyer|N,G|N|FE-58|WID
10001|10001008|3|Block|N,G|N|FE-58|WID
10001|10001008|2|Hockenbury|N,EL|N|FE-58|WID
10001|10001008|2|Bartolome|N,EL|N|FE-58|WID
10001|10001008|2|Tatarczuk|N,EL|N|FE-58|WID
10001|10001008|2|Moyer|N,EL|N|FE-58|WID
10001|10001008|2|Block|N,EL|N|FE-58|WID
10001|10001008|2|Hockenbury|N,G|N|FE-58|WID
10001|10001008|2|Bartolome|N,G|N|FE-58|WID
10001|10001008|2|Tatarczuk|N,G|N|FE-58|WID
10001|10001008|2|Moyer|N,G|N|FE-58|WID
10001|10001008|2|Block|N,G|N|FE-58|WID
10001|10001008|2|Hockenbury|N,TOT|N|FE-58|WID
10001|10001008|2|Bartolome|N,TOT|N|FE-58|WID
10001|10001008|2|Tatarczuk|N,TOT|N|FE-58|WID
10001|10001008|2|Moyer|N,TOT|N|FE-58|WID
10001|10001008|2|Block|N,TOT|N|FE-58|WID
10001|10001009|1|Hockenbury|N,0|N|NI-58|EN
10001|10001009|1|Bartolome|N,0|N|NI-58|EN
10001|10001009|1|Tatarczuk|N,0|N|NI-58|EN
10001|10001009|1|Moyer|N,0|N|NI-58|EN
10001|10001009|1|Block|N,0|N|NI-58|EN
10001|10001009|3|Hockenbury|N,G|N|NI-58|WID
10001|10001009|3|Bartolome|N,G|N|NI-58|WID
10001|10001009|3|Tatarczuk|N,G|N|NI-58|WID
10001|10001009|3|Moyer|N,G|N|NI-58|WID
10001|10001009|3|Block|N,G|N|NI-58|WID
10001|10001009|2|Hockenbury|N,EL|N|NI-58|WID
10001|10001009|2|Bartolome|N,EL|N|NI-58|WID
10001|10001009|2|Tatarczuk|N,EL|N|NI-58|WID
10001|10001009|2|Moyer|N,EL|N|NI-58|WID
10001|10001009|2|Block|N,EL|N|NI-58|WID
10001|10001009|2|Hockenbury|N,G|N|NI-58|WID
10001|10001009|2|Bartolome|N,G|N|NI-58|WID
10001|10001009|2|Tatarczuk|N,G|N|NI-58|WID
10001|10001009|2|Moyer|N,G|N|NI-58|WID
10001|10001009|2|Block|N,G|N|NI-58|WID
10001|10001009|2|Hockenbury|N,TOT|N|NI-58|WID
10001|10001009|2|Bartolome|N,TOT|N|NI-58|WID
10001|10001009|2|Tatarczuk|N,TOT|N|NI-58|WID
10001|10001009|2|Moyer|N,TOT|N|NI-58|WID
10001|10001009|2|Block|N,TOT|N|NI-58|WID
10001|10001010|1|Hockenbury|N,0|N|NI-60|EN
10001|10001010|1|Bartolome|N,0|N|NI-60|EN
10001|10001010|1|Tatarczuk|N,0|N|NI-60|EN
10001|10001010|1|Moyer|N,0|N|NI-60|EN
10001|10001010|1|Block|N,0|N|NI-60|EN
10001|10001010|3|Hockenbury|N,G|N|NI-60|WID
10001|10001010|3|Bartolome|N,G|N|NI-60|WID
10001|10001010|3|Tatarczuk|N,G|N|NI-60|WID
10001|10001010|3|Moyer|N,G|N|NI-60|WID
10001|10001010|3|Block|N,G|N|NI-60|WID
10001|10001010|2|Hockenbury|N,EL|N|NI-60|WID
10001|10001010|2|Bartolome|N,EL|N|NI-60|WID
10001|10001010|2|Tatarczuk|N,EL|N|NI-60|WID
10001|10001010|2|Moyer|N,EL|N|NI-60|WID
10001|10001010|2|Block|N,EL|N|NI-60|WID
10001|10001010|2|Hockenbury|N,G|N|NI-60|WID
10001|10001010|2|Bartolome|N,G|N|NI-60|WID
10001|10001010|2|Tatarczuk|N,G|N|NI-60|WID
10001|10001010|2|Moyer|N,G|N|NI-60|WID
10001|10001010|2|Block|N,G|N|NI-60|WID
10001|10001010|2|Hockenbury|N,TOT|N|NI-60|WID
10001|10001010|2|Bartolome|N,TOT|N|NI-60|WID
10001|10001010|2|Tatarczuk|N,TOT|N|NI-60|WID
10001|10001010|2|Moyer|N,TOT|N|NI-60|WID
10001|10001010|2|Block|N,TOT|N|NI-60|WID
10001|10001011|1|Hockenbury|N,0|N|NI-61|EN
10001|10001011|1|Bartolome|N,0|N|NI-61|EN
10001|10001011|1|Tatarczuk|N,0|N|NI-61|EN
10001|10001011|1|Moyer|N,0|N|NI-61|EN
10001|10001011|1|Block|N,0|N|NI-61|EN
10001|10001011|3|Hockenbury|N,G|N|NI-61|WID
10001|10001011|3|Bartolome|N,G|N|NI-61|WID
10001|10001011|3|Tatarczuk|N,G|N|NI-61|WID
10001|10001011|3|Moyer|N,G|N|NI-61|WID
10001|10001011|3|Block|N,G|N|NI-61|WID
10001|10001011|2|Hockenbury|N,EL|N|NI-61|WID
10001|10001011|2|Bartolome|N,EL|N|NI-61|WID
10001|10001011|2|Tatarczuk|N,EL|N|NI-61|WID
10001|10001011|2|Moyer|N,EL|N|NI-61|WID
10001|10001011|2|Block|N,EL|N|NI-61|WID
10001|10001011|2|Hockenbury|N,G|N|NI-61|WID
10001|10001011|2|Bartolome|N,G|N|NI-61|WID
10001|10001011|2|Tatarczuk|N,G|N|NI-61|WID
10001|10001011|2|Moyer|N,G|N|NI-61|WID
10001|10001011|2|Block|N,G|N|NI-61|WID
10001|10001011|2|Hockenbury|N,TOT|N|NI-61|WID
10001|10001011|2|Bartolome|N,TOT|N|NI-61|WID
10001|10001011|2|Tatarczuk|N,TOT|N|NI-61|WID
10001|10001011|2|Moyer|N,TOT|N|NI-61|WID
10001|10001011|2|Block|N,TOT|N|NI-61|WID
10001|10001012|1|Hockenbury|N,0|N|NI-62|EN
10001|10001012|1|Bartolome|N,0|N|NI-62|EN
10001|10001012|1|Tatarczuk|N,0|N|NI-62|EN
10001|10001012|1|Moyer|N,0|N|NI-62|EN
10001|10001012|1|Block|N,0|N|NI-62|EN
10001|10001012|2|Hockenbury|N,G|N|NI-62|WID
10001|10001012|2|Bartolome|N,G|N|NI-62|WID
10001|10001012|2|Tatarczuk|N,G|N|NI-62|WID
10001|10001012|2|Moyer|N,G|N|NI-62|WID
10001|10001012|2|Block|N,G|N|NI-62|WID
10001|10001013|1|Hockenbury|N,0|N|NI-64|EN
10001|10001013|1|Bartolome|N,0|N|NI-64|EN
10001|10001013|1|Tatarczuk|N,0|N|NI-64|EN
10001|10001013|1|Moyer|N,0|N|NI-64|EN
10001|10001013|1|Block|N,0|N|NI-64|EN
10001|10001013|3|Hockenbury|N,G|N|NI-64|WID
10001|10001013|3|Bartolome|N,G|N|NI-64|WID
10001|10001013|3|Tatarczuk|N,G|N|NI-64|WID
10001|10001013|3|Moyer|N,G|N|NI-64|WID
10001|10001013|3|Block|N,G|N|NI-64|WID
10001|10001013|2|Hockenbury|N,EL|N|NI-64|WID
10001|10001013|2|Bartolome|N,EL|N|NI-64|WID
10001|10001013|2|Tatarczuk|N,EL|N|NI-64|WID
10001|10001013|2|Moyer|N,EL|N|NI-64|WID
10001|10001013|2|Block|N,EL|N|NI-64|WID
10001|10001013|2|Hockenbury|N,G|N|NI-64|WID
10001|10001013|2|Bartolome|N,G|N|NI-64|WID
10001|10001013|2|Tatarczuk|N,G|N|NI-64|WID
10001|10001013|2|Moyer|N,G|N|NI-64|WID
10001|10001013|2|Block|N,G|N|NI-64|WID
10001|10001013|2|Hockenbury|N,TOT|N|NI-64|WID
10001|10001013|2|Bartolome|N,TOT|N|NI-64|WID
10001|10001013|2|Tatarczuk|N,TOT|N|NI-64|WID
10001|10001013|2|Moyer|N,TOT|N|NI-64|WID
10001|10001013|2|Block|N,TOT|N|NI-64|WID
10001|10001014|1|Hockenbury|N,0|N|NA-23|EN
10001|10001014|1|Bartolome|N,0|N|NA-23|EN
10001|10001014|1|Tatarczuk|N,0|N|NA-23|EN
10001|10001014|1|Moyer|N,0|N|NA-23|EN
10001|10001014|1|Block|N,0|N|NA-23|EN
10001|10001014|3|Hockenbury|N,G|N|NA-23|WID
10001|10001014|3|Bartolome|N,G|N|NA-23|WID
10001|10001014|3|Tatarczuk|N,G|N|NA-23|WID
10001|10001014|3|Moyer|N,G|N|NA-23|WID
10001|10001014|3|Block|N,G|N|NA-23|WID
10001|10001014|2|Hockenbury|N,EL|N|NA-23|WID
10001|10001014|2|Bartolome|N,EL|N|NA-23|WID
10001|10001014|2|Tatarczuk|N,EL|N|NA-23|WID
10001|10001014|2|Moyer|N,EL|N|NA-23|WID
10001|10001014|2|Block|N,EL|N|NA-23|WID
10001|10001014|2|Hockenbury|N,G|N|NA-23|WID
10001|10001014|2|Bartolome|N,G|N|NA-23|WID
10001|10001014|2|Tatarczuk|N,G|N|NA-23|WID
10001|10001014|2|Moyer|N,G|N|NA-23|WID
10001|10001014|2|Block|N,G|N|NA-23|WID
10001|10001014|2|Hockenbury|N,TOT|N|NA-23|WID
10001|10001014|2|Bartolome|N,TOT|N|NA-23|WID
10001|10001014|2|Tatarczuk|N,TOT|N|NA-23|WID
10001|10001014|2|Moyer|N,TOT|N|NA-23|WID
10001|10001014|2|Block|N,TOT|N|NA-23|WID
10001|10001015|1|Hockenbury|N,0|N|AL-27|EN
10001|10001015|1|Bartolome|N,0|N|AL-27|EN
10001|10001015|1|Tatarczuk|N,0|N|AL-27|EN
10001|10001015|1|Moyer|N,0|N|AL-27|EN
10001|10001015|1|Block|N,0|N|AL-27|EN
10001|10001015|2|Hockenbury|N,G|N|AL-27|WID
10001|10001015|2|Bartolome|N,G|N|AL-27|WID
10001|10001015|2|Tatarczuk|N,G|N|AL-27|WID
10001|10001015|2|Moyer|N,G|N|AL-27|WID
10001|10001015|2|Block|N,G|N|AL-27|WID
10001|10001016|1|Hockenbury|N,0|N|FE-56|EN
10001|10001016|1|Bartolome|N,0|N|FE-56|EN
10001|10001016|1|Tatarczuk|N,0|N|FE-56|EN
10001|10001016|1|Moyer|N,0|N|FE-56|EN
10001|10001016|1|Block|N,0|N|FE-56|EN
10001|10001016|3|Hockenbury|N,G|N|FE-56|WID
10001|10001016|3|Bartolome|N,G|N|FE-56|WID
10001|10001016|3|Tatarczuk|N,G|N|FE-56|WID
10001|10001016|3|Moyer|N,G|N|FE-56|WID
10001|10001016|3|Block|N,G|N|FE-56|WID
10001|10001016|2|Hockenbury|N,EL|N|FE-56|WID
10001|10001016|2|Bartolome|N,EL|N|FE-56|WID
10001|10001016|2|Tatarczuk|N,EL|N|FE-56|WID
10001|10001016|2|Moyer|N,EL|N|FE-56|WID
10001|10001016|2|Block|N,EL|N|FE-56|WID
10001|10001017|1|Hockenbury|N,0|N|FE-57|EN
10001|10001017|1|Bartolome|N,0|N|FE-57|EN
10001|10001017|1|Tatarczuk|N,0|N|FE-57|EN
10001|10001017|1|Moyer|N,0|N|FE-57|EN
10001|10001017|1|Block|N,0|N|FE-57|EN
10001|10001017|2|Hockenbury|N,G|N|FE-57|WID
10001|10001017|2|Bartolome|N,G|N|FE-57|WID
10001|10001017|2|Tatarczuk|N,G|N|FE-57|WID
10001|10001017|2|Moyer|N,G|N|FE-57|WID
10001|10001017|2|Block|N,G|N|FE-57|WID
10036|10036002| |Rothenberg|N,EL|N|H-1|DA
10135|10135002| |Romero|N,EL|N|H-2|DA
10135|10135002| |Jungerman|N,EL|N|H-2|DA
10135|10135002| |Brady|N,EL|N|H-2|DA
10135|10135002| |Knox|N,EL|N|H-2|DA
10135|10135002| |Ishizaki|N,EL|N|H-2|DA
10135|10135003| |Romero|N,EL|N|H-2|DA
10135|10135003| |Jungerman|N,EL|N|H-2|DA
10135|10135003| |Brady|N,EL|N|H-2|DA
10135|10135003| |Knox|N,EL|N|H-2|DA
10135|10135003| |Ishizaki|N,EL|N|H-2|DA
10135|10135004| |Romero|N,EL|N|H-2|DA
10135|10135004| |Jungerman|N,EL|N|H-2|DA
10135|10135004| |Brady|N,EL|N|H-2|DA
10135|10135004| |Knox|N,EL|N|H-2|DA
10135|10135004| |Ishizaki|N,EL|N|H-2|DA
10135|10135005| |Romero|N,EL|N|H-2|DA
10135|10135005| |Jungerman|N,EL|N|H-2|DA
10135|10135005| |Brady|N,EL|N|H-2|DA
10135|10135005| |Knox|N,EL|N|H-2|DA
10135|10135005| |Ishizaki|N,EL|N|H-2|DA
10135|10135006| |Romero|N,EL|N|H-2|SIG
10135|10135006| |Jungerman|N,EL|N|H-2|SIG
10135|10135006| |Brady|N,EL|N|H-2|SIG
10135|10135006| |Knox|N,EL|N|H-2|SIG
10135|10135006| |Ishizaki|N,EL|N|H-2|SIG
10135|10135007| |Romero|N,EL|N|H-1|DA
10135|10135007| |Jungerman|N,EL|N|H-1|DA
10135|10135007| |Brady|N,EL|N|H-1|DA
10135|10135007| |Knox|N,EL|N|H-1|DA
10135|10135007| |Ishizaki|N,EL|N|H-1|DA
10135|10135008| |Romero|N,EL|N|H-1|DA
10135|10135008| |Jungerman|N,EL|N|H-1|DA
10135|10135008| |Brady|N,EL|N|H-1|DA
10135|10135008| |Knox|N,EL|N|H-1|DA
10135|10135008| |Ishizaki|N,EL|N|H-1|DA
10149|10149002| |Palmieri|N,EL|N|H-1|DA
10149|10149002| |Wolfe|N,EL|N|H-1|DA
10187|10187002| |Gibbard|N,EL|N|H-1|DA
10187|10187002| |Longo|N,EL|N|H-1|DA
10187|10187002| |Jones|N,EL|N|H-1|DA
10187|10187002| |Fallon|N,EL|N|H-1|DA
10187|10187002| |Kreisler|N,EL|N|H-1|DA
10187|10187002| |Perl|N,EL|N|H-1|DA
10241|10241002| |Saltmarsh|N,EL|N|H-1|DA
10241|10241002| |Halbert|N,EL|N|H-1|DA
10241|10241002| |Bingham|N,EL|N|H-1|DA
10241|10241002| |Ludemann|N,EL|N|H-1|DA
10241|10241002| |Van Der Woude|N,EL|N|H-1|DA
10275|10275002| |Shepard|N,EL|N|H-1|DA
10275|10275002| |Devlin|N,EL|N|H-1|DA
10275|10275002| |Mischke|N,EL|N|H-1|DA
10275|10275002| |Solomon|N,EL|N|H-1|DA
10315|10315002| |Masterson|N,EL|N|H-1|DA
10316|10316002|1|Burrows|N,EL|N|H-1|DA
10316|10316002|2|Burrows|N,EL|N|H-1|DA
10316|10316003| |Burrows|N,EL|N|H-1|DA
10316|10316005| |Burrows|N,EL|N|H-1|DA
10355|10355002| |Montgomery|N,EL|N|H-1|DA
10355|10355002| |Brady|N,EL|N|H-1|DA
10355|10355002| |Bonner|N,EL|N|H-1|DA
10355|10355002| |Broste|N,EL|N|H-1|DA
10355|10355002| |Mc Naughton|N,EL|N|H-1|DA
10355|10355003| |Montgomery|N,EL|N|H-1|DA
10355|10355003| |Brady|N,EL|N|H-1|DA
10355|10355003| |Bonner|N,EL|N|H-1|DA
10355|10355003| |Broste|N,EL|N|H-1|DA
10355|10355003| |Mc Naughton|N,EL|N|H-1|DA
10592|10592002| |Bersbach|N,EL|N|H-1|DA
10592|10592002| |Mischke|N,EL|N|H-1|DA
10592|10592002| |Devlin|N,EL|N|H-1|DA
10804|10804002| |Drosg|N,EL|N|H-1|DA
10804|10804002| |Drake|N,EL|N|H-1|DA
10862|10862002| |Carlini|N,EL|N|H-1|DA
10862|10862002| |Dieterle|N,EL|N|H-1|DA
10862|10862002| |Donahue|N,EL|N|H-1|DA
10862|10862002| |Leavitt|N,EL|N|H-1|DA
10862|10862002| |Rupp|N,EL|N|H-1|DA
10862|10862002| |Thomas|N,EL|N|H-1|DA
10862|10862002| |Wolfe|N,EL|N|H-1|DA
10862|10862002| |Auerbach|N,EL|N|H-1|DA
10862|10862002| |Highland|N,EL|N|H-1|DA
10862|10862002| |Johnson|N,EL|N|H-1|DA
10862|10862002| |Mc Farlane|N,EL|N|H-1|DA
10862|10862002| |Pratt|N,EL|N|H-1|DA
10862|10862002| |Bentley|N,EL|N|H-1|DA
10892|10892002| |Evans|N,EL|N|H-1|DA
10892|10892002| |Glass|N,EL|N|H-1|DA
10892|10892002| |Hiebert|N,EL|N|H-1|DA
10892|10892002| |Jain|N,EL|N|H-1|DA
10892|10892002| |Kenefick|N,EL|N|H-1|DA
10892|10892002| |Northcliffe|N,EL|N|H-1|DA
10892|10892002| |Bonner|N,EL|N|H-1|DA
10892|10892002| |Simmons|N,EL|N|H-1|DA
10892|10892002| |Bjork|N,EL|N|H-1|DA
10892|10892002| |Riley|N,EL|N|H-1|DA
10892|10892002| |Bryant|N,EL|N|H-1|DA
10892|10892002| |Cassapakis|N,EL|N|H-1|DA
10892|10892002| |Dieterle|N,EL|N|H-1|DA
10892|10892002| |Leavitt|N,EL|N|H-1|DA
10892|10892002| |Wolfe|N,EL|N|H-1|DA
10892|10892002| |Werren|N,EL|N|H-1|DA
10903|10903002| |King|N,EL|N|H-1|DA
10903|10903002| |Reber|N,EL|N|H-1|DA
10903|10903002| |Romero|N,EL|N|H-1|DA
10903|10903002| |Fitzgerald|N,EL|N|H-1|DA
10903|10903002| |Ullmann|N,EL|N|H-1|DA
10903|10903002| |Subramanian|N,EL|N|H-1|DA
10903|10903002| |Brady|N,EL|N|H-1|DA
11036|11036002| |Kelly|N,EL|N|H-1|DA
11036|11036002| |Leith|N,EL|N|H-1|DA
11036|11036002| |Segre|N,EL|N|H-1|DA
11036|11036002| |Weigand|N,EL|N|H-1|DA
11042|11042002| |Wallace|N,EL|N|H-1|DA
11042|11042003| |Wallace|N,EL|N|H-1|DA"
/-- rows of x4i3/tests/data/index.tbl -/
def rows1 : String := "11055|11055002| |Guernsey|N,EL|N|H-1|DA
11055|11055002| |Mott|N,EL|N|H-1|DA
11055|11055002| |Nelson|N,EL|N|H-1|DA
11055|11055003| |Guernsey|N,EL|N|H-1|DA
11055|11055003| |Mott|N,EL|N|H-1|DA
11055|11055003| |Nelson|N,EL|N|H-1|DA
11066|11066002| |Allred|N,EL|N|H-1|DA
11066|11066002| |Armstrong|N,EL|N|H-1|DA
11066|11066002| |Rosen|N,EL|N|H-1|DA
11066|11066003| |Allred|N,EL|N|H-1|SIG
11066|11066003| |Armstrong|N,EL|N|H-1|SIG
11066|11066003| |Rosen|N,EL|N|H-1|SIG
11066|11066004| |Allred|N,EL|N|H-2|SIG
11066|11066004| |Armstrong|N,EL|N|H-2|SIG
11066|11066004| |Rosen|N,EL|N|H-2|SIG
11066|11066005| |Allred|N,EL|N|H-2|DA
11066|11066005| |Armstrong|N,EL|N|H-2|DA
11066|11066005| |Rosen|N,EL|N|H-2|DA
11069|11069002| |Selove|N,EL|N|H-1|DA
11069|11069002| |Strauch|N,EL|N|H-1|DA
11069|11069002| |Titus|N,EL|N|H-1|DA
11069|11069003| |Selove|N,EL|N|H-1|DA
11069|11069003| |Strauch|N,EL|N|H-1|DA
11069|11069003| |Titus|N,EL|N|H-1|DA
11072|11072002| |Chamberlain|N,EL|N|H-1|DA
11072|11072002| |Easley|N,EL|N|H-1|DA
11072|11072003| |Chamberlain|N,EL|N|H-1|DA
11072|11072003| |Easley|N,EL|N|H-1|DA
11078|11078002| |Hartzler|N,EL|N|H-1|DA
11078|11078002| |Siegel|N,EL|N|H-1|DA
11078|11078002| |Opitz|N,EL|N|H-1|DA
11079|11079002| |Smith|N,EL|N|H-1|DA
11079|11079003| |Smith|N,EL|N|HE-4|DA
11079|11079004| |Smith|N,EL|N|N-0|SIG
11079|11079005| |Smith|N,INL|N|N-0|SIG
11083|11083002| |Stahl|N,EL|N|H-1|DA
11083|11083002| |Ramsey|N,EL|N|H-1|DA
11084|11084002| |Seagrave|N,EL|N|H-1|DA
11084|11084003| |Seagrave|N,EL|N|H-2|SIG
11084|11084004| |Seagrave|N,2N|N|H-2|DA
11084|11084005| |Seagrave|N,EL|N|H-2|DA
11090|11090002| |Galonsky|N,EL|N|H-1|DA
11090|11090002| |Judish|N,EL|N|H-1|DA
11096|11096002| |Chih|N,EL|N|H-1|DA
11096|11096002| |Powell|N,EL|N|H-1|DA
11096|11096003| |Chih|N,EL|N|H-1|DA
11096|11096003| |Powell|N,EL|N|H-1|DA
11109|11109002| |Hobbie|N,EL|N|H-1|DA
11109|11109002| |Miller|N,EL|N|H-1|DA
11109|11109003| |Hobbie|N,EL|N|H-1|POL/DA
11109|11109003| |Miller|N,EL|N|H-1|POL/DA
11117|11117002| |Flynn|N,EL|N|H-1|DA
11117|11117002| |Bendt|N,EL|N|H-1|DA
11123|11123002| |Measday|N,EL|N|H-1|DA
11123|11123003| |Measday|N,EL|N|H-1|DA
11124|11124002| |Thomas|N,EL|N|H-1|DA
11124|11124002| |Spalding|N,EL|N|H-1|DA
11124|11124002| |Thorndike|N,EL|N|H-1|DA
11124|11124003| |Thomas|N,EL|N|H-1|POL/DA
11124|11124003| |Spalding|N,EL|N|H-1|POL/DA
11124|11124003| |Thorndike|N,EL|N|H-1|POL/DA
11128|11128002| |Fox|N,EL|N|H-1|DA
11128|11128003| |Fox|N,EL|N|H-1|DA
11129|11129002| |Easley|N,EL|N|H-1|DA
11131|11131002| |Staub|N,EL|N|HE-0|DA
11131|11131002| |Stephens|N,EL|N|HE-0|DA
11131|11131002| |Staub|N,EL|N|H-1|DA
11131|11131002| |Stephens|N,EL|N|H-1|DA
11167|11167002| |Hadley|N,EL|N|H-1|DA
11167|11167002| |Kelly|N,EL|N|H-1|DA
11167|11167002| |Leith|N,EL|N|H-1|DA
11167|11167002| |Segre|N,EL|N|H-1|DA
11167|11167002| |Wiegand|N,EL|N|H-1|DA
11167|11167002| |York|N,EL|N|H-1|DA
11167|11167003| |Hadley|N,EL|N|H-1|DA
11167|11167003| |Kelly|N,EL|N|H-1|DA
11167|11167003| |Leith|N,EL|N|H-1|DA
11167|11167003| |Segre|N,EL|N|H-1|DA
11167|11167003| |Wiegand|N,EL|N|H-1|DA
11167|11167003| |York|N,EL|N|H-1|DA
11167|11167004| |Hadley|N,EL|N|H-1|DA
11167|11167004| |Kelly|N,EL|N|H-1|DA
11167|11167004| |Leith|N,EL|N|H-1|DA
11167|11167004| |Segre|N,EL|N|H-1|DA
11167|11167004| |Wiegand|N,EL|N|H-1|DA
11167|11167004| |York|N,EL|N|H-1|DA
11314|11314002| |Fowler|N,EL|N|N-14|DA
11314|11314002| |Johnson|N,EL|N|N-14|DA
11314|11314003| |Fowler|N,0|N|N-14|J
11314|11314003| |Johnson|N,0|N|N-14|J
11321|11321002| |Hill|N,EL|N|C-12|DA
11321|11321003| |Hill|N,EL|N|O-16|DA
11321|11321004| |Hill|N,EL|N|AL-27|DA
11321|11321005| |Hill|N,EL|N|FE-0|DA
11321|11321006| |Hill|N,EL|N|NI-0|DA
11321|11321007| |Hill|N,EL|N|CU-0|DA
11321|11321008| |Hill|N,EL|N|MO-0|DA
11321|11321009| |Hill|N,EL|N|BA-0|DA
11321|11321010| |Hill|N,EL|N|W-0|DA
11321|11321011| |Hill|N,EL|N|PB-0|DA
12326|12326002| |Hopkins|N,F|N|U-233|NU
12326|12326002| |Diven|N,F|N|U-233|NU
12326|12326003| |Hopkins|N,F|N|U-233|NU
12326|12326003| |Diven|N,F|N|U-233|NU
12326|12326004| |Hopkins|N,F|N|U-235|NU
12326|12326004| |Diven|N,F|N|U-235|NU
12326|12326005| |Hopkins|N,F|N|PU-239|NU
12326|12326005| |Diven|N,F|N|PU-239|NU
12326|12326006| |Hopkins|N,F|N|PU-239|NU
12326|12326006| |Diven|N,F|N|PU-239|NU
12326|12326007| |Hopkins|0,F|0|CF-252|NU
12326|12326007| |Diven|0,F|0|CF-252|NU
12326|12326008| |Hopkins|0,F|0|PU-240|NU
12326|12326008| |Diven|0,F|0|PU-240|NU
12643|12643002| |Baldwin|N,EL|N|H-1|DA
12656|12656002| |Tagliaferri Jr|N,EL|N|H-1|DA
12656|12656003| |Tagliaferri Jr|N,EL|N|H-1|DA
12780|12780002| |Drosg|N,EL|N|H-1|DA
12884|12884002| |Keeler|N,TOT|N|H-1|SIG
12884|12884002| |Dubios|N,TOT|N|H-1|SIG
12884|12884002| |Auld|N,TOT|N|H-1|SIG
12884|12884002| |Axen|N,TOT|N|H-1|SIG
12884|12884002| |Comyn|N,TOT|N|H-1|SIG
12884|12884002| |Ludgate|N,TOT|N|H-1|SIG
12884|12884002| |Robertson|N,TOT|N|H-1|SIG
12884|12884002| |Richardson|N,TOT|N|H-1|SIG
12884|12884002| |Bugg|N,TOT|N|H-1|SIG
12884|12884002| |Eddington|N,TOT|N|H-1|SIG
12884|12884002| |Gibson|N,TOT|N|H-1|SIG
12884|12884002| |Clouch|N,TOT|N|H-1|SIG
12884|12884002| |Stewart|N,TOT|N|H-1|SIG
12884|12884002| |Dieterle|N,TOT|N|H-1|SIG
12884|12884003| |Keeler|N,EL|N|H-1|DA
12884|12884003| |Dubios|N,EL|N|H-1|DA
12884|12884003| |Auld|N,EL|N|H-1|DA
12884|12884003| |Axen|N,EL|N|H-1|DA
12884|12884003| |Comyn|N,EL|N|H-1|DA
12884|12884003| |Ludgate|N,EL|N|H-1|DA
12884|12884003| |Robertson|N,EL|N|H-1|DA
12884|12884003| |Richardson|N,EL|N|H-1|DA
12884|12884003| |Bugg|N,EL|N|H-1|DA
12884|12884003| |Eddington|N,EL|N|H-1|DA
12884|12884003| |Gibson|N,EL|N|H-1|DA
12884|12884003| |Clouch|N,EL|N|H-1|DA
12884|12884003| |Stewart|N,EL|N|H-1|DA
12884|12884003| |Dieterle|N,EL|N|H-1|DA
12884|12884004| |Keeler|N,EL|N|H-1|DA
12884|12884004| |Dubios|N,EL|N|H-1|DA
12884|12884004| |Auld|N,EL|N|H-1|DA
12884|12884004| |Axen|N,EL|N|H-1|DA
12884|12884004| |Comyn|N,EL|N|H-1|DA
12884|12884004| |Ludgate|N,EL|N|H-1|DA
12884|12884004| |Robertson|N,EL|N|H-1|DA
12884|12884004| |Richardson|N,EL|N|H-1|DA
12884|12884004| |Bugg|N,EL|N|H-1|DA
12884|12884004| |Eddington|N,EL|N|H-1|DA
12884|12884004| |Gibson|N,EL|N|H-1|DA
12884|12884004| |Clouch|N,EL|N|H-1|DA
12884|12884004| |Stewart|N,EL|N|H-1|DA
12884|12884004| |Dieterle|N,EL|N|H-1|DA
12909|12909002| |Jain|N,EL|N|H-1|DA
12909|12909002| |Evans|N,EL|N|H-1|DA
12909|12909002| |Glass|N,EL|N|H-1|DA
12909|12909002| |Hielbert|N,EL|N|H-1|DA
12909|12909002| |Kenefick|N,EL|N|H-1|DA
12909|12909002| |Northcliffe|N,EL|N|H-1|DA
12909|12909002| |Bonner|N,EL|N|H-1|DA
12909|12909002| |Simmons|N,EL|N|H-1|DA
12909|12909002| |Bjork|N,EL|N|H-1|DA
12909|12909002| |Riley|N,EL|N|H-1|DA
12909|12909002| |Bryant|N,EL|N|H-1|DA
12909|12909002| |Cassapakis|N,EL|N|H-1|DA
12909|12909002| |Dieterle|N,EL|N|H-1|DA
12909|12909002| |Leavitt|N,EL|N|H-1|DA
12909|12909002| |Wolfe|N,EL|N|H-1|DA
12909|12909002| |Warren|N,EL|N|H-1|DA
12917|12917002|1|Meyer|N,G|N|H-1|DA
12917|12917002|1|Hall|N,G|N|H-1|DA
12917|12917002|1|Hugi|N,G|N|H-1|DA
12917|12917002|1|Karwoski|N,G|N|H-1|DA
12917|12917002|1|Pollack|N,G|N|H-1|DA
12917|12917002|1|Schwandt|N,G|N|H-1|DA
12917|12917002|1|Meyer|N,EL|N|H-1|DA
12917|12917002|1|Hall|N,EL|N|H-1|DA
12917|12917002|1|Hugi|N,EL|N|H-1|DA
12917|12917002|1|Karwoski|N,EL|N|H-1|DA
12917|12917002|1|Pollack|N,EL|N|H-1|DA
12917|12917002|1|Schwandt|N,EL|N|H-1|DA
12917|12917002|2|Meyer|N,G|N|H-1|DA
12917|12917002|2|Hall|N,G|N|H-1|DA
12917|12917002|2|Hugi|N,G|N|H-1|DA
12917|12917002|2|Karwoski|N,G|N|H-1|DA
12917|12917002|2|Pollack|N,G|N|H-1|DA
12917|12917002|2|Schwandt|N,G|N|H-1|DA
13150|13150002|1|Jackson|N,P|N|LI-6|DA
13150|13150002|1|Celler|N,P|N|LI-6|DA
13150|13150002|1|Alford|N,P|N|LI-6|DA
13150|13150002|1|Raywood|N,P|N|LI-6|DA
13150|13150002|1|Abegg|N,P|N|LI-6|DA
13150|13150002|1|Azuma|N,P|N|LI-6|DA
13150|13150002|1|Campbell|N,P|N|LI-6|DA
13150|13150002|1|El-Kateb|N,P|N|LI-6|DA
13150|13150002|1|Frekers|N,P|N|LI-6|DA
13150|13150002|1|Green|N,P|N|LI-6|DA
13150|13150002|1|Hausser|N,P|N|LI-6|DA
13150|13150002|1|Helmer|N,P|N|LI-6|DA
13150|13150002|1|Henderson|N,P|N|LI-6|DA
13150|13150002|1|Hicks|N,P|N|LI-6|DA
13150|13150002|1|Jeppesen|N,P|N|LI-6|DA
13150|13150002|1|Lewis|N,P|N|LI-6|DA
13150|13150002|1|Miller|N,P|N|LI-6|DA
13150|13150002|1|Moalem|N,P|N|LI-6|DA
13150|13150002|1|Moinester|N,P|N|LI-6|DA
13150|13150002|1|Schubank|N,P|N|LI-6|DA
13150|13150002|1|Shute|N,P|N|LI-6|DA
13150|13150002|1|Spicer|N,P|N|LI-6|DA
13150|13150002|1|Vetterli|N,P|N|LI-6|DA
13150|13150002|1|Yavin|N,P|N|LI-6|DA
13150|13150002|1|Yen|N,P|N|LI-6|DA
13150|13150002|1|Jackson|N,EL|N|H-1|DA
13150|13150002|1|Celler|N,EL|N|H-1|DA
13150|13150002|1|Alford|N,EL|N|H-1|DA
13150|13150002|1|Raywood|N,EL|N|H-1|DA
13150|13150002|1|Abegg|N,EL|N|H-1|DA
13150|13150002|1|Azuma|N,EL|N|H-1|DA
13150|13150002|1|Campbell|N,EL|N|H-1|DA
13150|13150002|1|El-Kateb|N,EL|N|H-1|DA
13150|13150002|1|Frekers|N,EL|N|H-1|DA
13150|13150002|1|Green|N,EL|N|H-1|DA
13150|13150002|1|Hausser|N,EL|N|H-1|DA
13150|13150002|1|Helmer|N,EL|N|H-1|DA
13150|13150002|1|Henderson|N,EL|N|H-1|DA
13150|13150002|1|Hicks|N,EL|N|H-1|DA
13150|13150002|1|Jeppesen|N,EL|N|H-1|DA
13150|13150002|1|Lewis|N,EL|N|H-1|DA
13150|13150002|1|Miller|N,EL|N|H-1|DA
13150|13150002|1|Moalem|N,EL|N|H-1|DA
13150|13150002|1|Moinester|N,EL|N|H-1|DA
13150|13150002|1|Schubank|N,EL|N|H-1|DA
13150|13150002|1|Shute|N,EL|N|H-1|DA
13150|13150002|1|Spicer|N,EL|N|H-1|DA
13150|13150002|1|Vetterli|N,EL|N|H-1|DA
13150|13150002|1|Yavin|N,EL|N|H-1|DA
13150|13150002|1|Yen|N,EL|N|H-1|DA
13150|13150002|2|Jackson|N,P|N|LI-6|DA
13150|13150002|2|Celler|N,P|N|LI-6|DA
13150|13150002|2|Alford|N,P|N|LI-6|DA
13150|13150002|2|Raywood|N,P|N|LI-6|DA
13150|13150002|2|Abegg|N,P|N|LI-6|DA
13150|13150002|2|Azuma|N,P|N|LI-6|DA
13150|13150002|2|Campbell|N,P|N|LI-6|DA
13150|13150002|2|El-Kateb|N,P|N|LI-6|DA
13150|13150002|2|Frekers|N,P|N|LI-6|DA
13150|13150002|2|Green|N,P|N|LI-6|DA
13150|13150002|2|Hausser|N,P|N|LI-6|DA
13150|13150002|2|Helmer|N,P|N|LI-6|DA
13150|13150002|2|Henderson|N,P|N|LI-6|DA
13150|13150002|2|Hicks|N,P|N|LI-6|DA
13150|13150002|2|Jeppesen|N,P|N|LI-6|DA
13150|13150002|2|Lewis|N,P|N|LI-6|DA
13150|13150002|2|Miller|N,P|N|LI-6|DA
13150|13150002|2|Moalem|N,P|N|LI-6|DA
13150|13150002|2|Moinester|N,P|N|LI-6|DA
13150|13150002|2|Schubank|N,P|N|LI-6|DA
13150|13150002|2|Shute|N,P|N|LI-6|DA
13150|13150002|2|Spicer|N,P|N|LI-6|DA
13150|13150002|2|Vetterli|N,P|N|LI-6|DA
13150|13150002|2|Yavin|N,P|N|LI-6|DA
13150|13150002|2|Yen|N,P|N|LI-6|DA
13150|13150003|1|Jackson|N,P|N|C-12|DA
13150|13150003|1|Celler|N,P|N|C-12|DA
13150|13150003|1|Alford|N,P|N|C-12|DA
13150|13150003|1|Raywood|N,P|N|C-12|DA
13150|13150003|1|Abegg|N,P|N|C-12|DA
13150|13150003|1|Azuma|N,P|N|C-12|DA
13150|13150003|1|Campbell|N,P|N|C-12|DA
13150|13150003|1|El-Kateb|N,P|N|C-12|DA
13150|13150003|1|Frekers|N,P|N|C-12|DA
13150|13150003|1|Green|N,P|N|C-12|DA
13150|13150003|1|Hausser|N,P|N|C-12|DA
13150|13150003|1|Helmer|N,P|N|C-12|DA
13150|13150003|1|Henderson|N,P|N|C-12|DA
13150|13150003|1|Hicks|N,P|N|C-12|DA
13150|13150003|1|Jeppesen|N,P|N|C-12|DA
13150|13150003|1|Lewis|N,P|N|C-12|DA
13150|13150003|1|Miller|N,P|N|C-12|DA
13150|13150003|1|Moalem|N,P|N|C-12|DA
13150|13150003|1|Moinester|N,P|N|C-12|DA
13150|13150003|1|Schubank|N,P|N|C-12|DA
13150|13150003|1|Shute|N,P|N|C-12|DA
13150|13150003|1|Spicer|N,P|N|C-12|DA
13150|13150003|1|Vetterli|N,P|N|C-12|DA
13150|13150003|1|Yavin|N,P|N|C-12|DA
13150|13150003|1|Yen|N,P|N|C-12|DA
13150|13150003|1|Jackson|N,EL|N|H-1|DA
13150|13150003|1|Celler|N,EL|N|H-1|DA
13150|13150003|1|Alford|N,EL|N|H-1|DA
13150|13150003|1|Raywood|N,EL|N|H-1|DA
13150|13150003|1|Abegg|N,EL|N|H-1|DA
13150|13150003|1|Azuma|N,EL|N|H-1|DA
13150|13150003|1|Campbell|N,EL|N|H-1|DA
13150|13150003|1|El-Kateb|N,EL|N|H-1|DA
13150|13150003|1|Frekers|N,EL|N|H-1|DA
13150|13150003|1|Green|N,EL|N|H-1|DA
13150|13150003|1|Hausser|N,EL|N|H-1|DA
13150|13150003|1|Helmer|N,EL|N|H-1|DA
13150|13150003|1|Henderson|N,EL|N|H-1|DA
13150|13150003|1|Hicks|N,EL|N|H-1|DA
13150|13150003|1|Jeppesen|N,EL|N|H-1|DA
13150|13150003|1|Lewis|N,EL|N|H-1|DA
13150|13150003|1|Miller|N,EL|N|H-1|DA
13150|13150003|1|Moalem|N,EL|N|H-1|DA
13150|13150003|1|Moinester|N,EL|N|H-1|DA
13150|13150003|1|Schubank|N,EL|N|H-1|DA
13150|13150003|1|Shute|N,EL|N|H-1|DA
13150|13150003|1|Spicer|N,EL|N|H-1|DA
13150|13150003|1|Vetterli|N,EL|N|H-1|DA
13150|13150003|1|Yavin|N,EL|N|H-1|DA
13150|13150003|1|Yen|N,EL|N|H-1|DA
13150|13150003|2|Jackson|N,P|N|C-12|DA
13150|13150003|2|Celler|N,P|N|C-12|DA
13150|13150003|2|Alford|N,P|N|C-12|DA
13150|13150003|2|Raywood|N,P|N|C-12|DA
13150|13150003|2|Abegg|N,P|N|C-12|DA
13150|13150003|2|Azuma|N,P|N|C-12|DA
13150|13150003|2|Campbell|N,P|N|C-12|DA
13150|13150003|2|El-Kateb|N,P|N|C-12|DA
13150|13150003|2|Frekers|N,P|N|C-12|DA
13150|13150003|2|Green|N,P|N|C-12|DA
13150|13150003|2|Hausser|N,P|N|C-12|DA
13150|13150003|2|Helmer|N,P|N|C-12|DA
13150|13150003|2|Henderson|N,P|N|C-12|DA
13150|13150003|2|Hicks|N,P|N|C-12|DA
13150|13150003|2|Jeppesen|N,P|N|C-12|DA
13150|13150003|2|Lewis|N,P|N|C-12|DA
13150|13150003|2|Miller|N,P|N|C-12|DA
13150|13150003|2|Moalem|N,P|N|C-12|DA
13150|13150003|2|Moinester|N,P|N|C-12|DA
13150|13150003|2|Schubank|N,P|N|C-12|DA
13150|13150003|2|Shute|N,P|N|C-12|DA
13150|13150003|2|Spicer|N,P|N|C-12|DA
13150|13150003|2|Vetterli|N,P|N|C-12|DA
13150|13150003|2|Yavin|N,P|N|C-12|DA
13150|13150003|2|Yen|N,P|N|C-12|DA
13150|13150004|1|Jackson|N,P|N|C-13|DA
13150|13150004|1|Celler|N,P|N|C-13|DA
13150|13150004|1|Alford|N,P|N|C-13|DA
13150|13150004|1|Raywood|N,P|N|C-13|DA
13150|13150004|1|Abegg|N,P|N|C-13|DA
13150|13150004|1|Azuma|N,P|N|C-13|DA
13150|13150004|1|Campbell|N,P|N|C-13|DA
13150|13150004|1|El-Kateb|N,P|N|C-13|DA
13150|13150004|1|Frekers|N,P|N|C-13|DA
13150|13150004|1|Green|N,P|N|C-13|DA
13150|13150004|1|Hausser|N,P|N|C-13|DA
13150|13150004|1|Helmer|N,P|N|C-13|DA
13150|13150004|1|Henderson|N,P|N|C-13|DA
13150|13150004|1|Hicks|N,P|N|C-13|DA
13150|13150004|1|Jeppesen|N,P|N|C-13|DA
13150|13150004|1|Lewis|N,P|N|C-13|DA
13150|13150004|1|Miller|N,P|N|C-13|DA
13150|13150004|1|Moalem|N,P|N|C-13|DA
13150|13150004|1|Moinester|N,P|N|C-13|DA
13150|13150004|1|Schubank|N,P|N|C-13|DA
13150|13150004|1|Shute|N,P|N|C-13|DA
13150|13150004|1|Spicer|N,P|N|C-13|DA
13150|13150004|1|Vetterli|N,P|N|C-13|DA
13150|13150004|1|Yavin|N,P|N|C-13|DA
13150|13150004|1|Yen|N,P|N|C-13|DA
13150|13150004|1|Jackson|N,EL|N|H-1|DA
13150|13150004|1|Celler|N,EL|N|H-1|DA
13150|13150004|1|Alford|N,EL|N|H-1|DA
13150|13150004|1|Raywood|N,EL|N|H-1|DA
13150|13150004|1|Abegg|N,EL|N|H-1|DA
13150|13150004|1|Azuma|N,EL|N|H-1|DA
13150|13150004|1|Campbell|N,EL|N|H-1|DA
13150|13150004|1|El-Kateb|N,EL|N|H-1|DA
13150|13150004|1|Frekers|N,EL|N|H-1|DA
13150|13150004|1|Green|N,EL|N|H-1|DA
13150|13150004|1|Hausser|N,EL|N|H-1|DA
13150|13150004|1|Helmer|N,EL|N|H-1|DA
13150|13150004|1|Henderson|N,EL|N|H-1|DA
13150|13150004|1|Hicks|N,EL|N|H-1|DA
13150|13150004|1|Jeppesen|N,EL|N|H-1|DA
13150|13150004|1|Lewis|N,EL|N|H-1|DA
13150|13150004|1|Miller|N,EL|N|H-1|DA
13150|13150004|1|Moalem|N,EL|N|H-1|DA
13150|13150004|1|Moinester|N,EL|N|H-1|DA
13150|13150004|1|Schubank|N,EL|N|H-1|DA
13150|13150004|1|Shute|N,EL|N|H-1|DA
13150|13150004|1|Spicer|N,EL|N|H-1|DA
13150|13150004|1|Vetterli|N,EL|N|H-1|DA
13150|13150004|1|Yavin|N,EL|N|H-1|DA
13150|13150004|1|Yen|N,EL|N|H-1|DA
13150|13150004|2|Jackson|N,P|N|C-13|DA
13150|13150004|2|Celler|N,P|N|C-13|DA
13150|13150004|2|Alford|N,P|N|C-13|DA
13150|13150004|2|Raywood|N,P|N|C-13|DA
13150|13150004|2|Abegg|N,P|N|C-13|DA
13150|13150004|2|Azuma|N,P|N|C-13|DA"
/-- rows of x4i3/tests/data/index.tbl -/
def rows2 : String := "13150|13150004|2|Campbell|N,P|N|C-13|DA
13150|13150004|2|El-Kateb|N,P|N|C-13|DA
13150|13150004|2|Frekers|N,P|N|C-13|DA
13150|13150004|2|Green|N,P|N|C-13|DA
13150|13150004|2|Hausser|N,P|N|C-13|DA
13150|13150004|2|Helmer|N,P|N|C-13|DA
13150|13150004|2|Henderson|N,P|N|C-13|DA
13150|13150004|2|Hicks|N,P|N|C-13|DA
13150|13150004|2|Jeppesen|N,P|N|C-13|DA
13150|13150004|2|Lewis|N,P|N|C-13|DA
13150|13150004|2|Miller|N,P|N|C-13|DA
13150|13150004|2|Moalem|N,P|N|C-13|DA
13150|13150004|2|Moinester|N,P|N|C-13|DA
13150|13150004|2|Schubank|N,P|N|C-13|DA
13150|13150004|2|Shute|N,P|N|C-13|DA
13150|13150004|2|Spicer|N,P|N|C-13|DA
13150|13150004|2|Vetterli|N,P|N|C-13|DA
13150|13150004|2|Yavin|N,P|N|C-13|DA
13150|13150004|2|Yen|N,P|N|C-13|DA
13623|13623002| |Northcliffe|N,EL|N|H-1|DA
13623|13623002| |Jain|N,EL|N|H-1|DA
13623|13623002| |Evans|N,EL|N|H-1|DA
13623|13623002| |Glass|N,EL|N|H-1|DA
13623|13623002| |Hiebert|N,EL|N|H-1|DA
13623|13623002| |Kenefick|N,EL|N|H-1|DA
13623|13623002| |Bonner|N,EL|N|H-1|DA
13623|13623002| |Simmons|N,EL|N|H-1|DA
13623|13623002| |Bjork|N,EL|N|H-1|DA
13623|13623002| |Riley|N,EL|N|H-1|DA
13782|13782002| |Boukharouba|N,EL|N|H-1|DA
13782|13782002| |Bateman|N,EL|N|H-1|DA
13782|13782002| |Brient|N,EL|N|H-1|DA
13782|13782002| |Carlson|N,EL|N|H-1|DA
13782|13782002| |Grimes|N,EL|N|H-1|DA
13782|13782002| |Haight|N,EL|N|H-1|DA
13782|13782002| |Massey|N,EL|N|H-1|DA
13782|13782002| |Wasson|N,EL|N|H-1|DA
13782|13782003| |Boukharouba|N,EL|N|H-1|DA
13782|13782003| |Bateman|N,EL|N|H-1|DA
13782|13782003| |Brient|N,EL|N|H-1|DA
13782|13782003| |Carlson|N,EL|N|H-1|DA
13782|13782003| |Grimes|N,EL|N|H-1|DA
13782|13782003| |Haight|N,EL|N|H-1|DA
13782|13782003| |Massey|N,EL|N|H-1|DA
13782|13782003| |Wasson|N,EL|N|H-1|DA
13787|13787002| |Bernstein|N,2N|N|PU-239|SIG
13787|13787002| |Becker|N,2N|N|PU-239|SIG
13787|13787002| |Garrett|N,2N|N|PU-239|SIG
13787|13787002| |Younes|N,2N|N|PU-239|SIG
13787|13787002| |Mcnabb|N,2N|N|PU-239|SIG
13787|13787002| |Archer|N,2N|N|PU-239|SIG
13787|13787002| |Mcgrath|N,2N|N|PU-239|SIG
13787|13787002| |Chen|N,2N|N|PU-239|SIG
13787|13787002| |Ormand|N,2N|N|PU-239|SIG
13787|13787002| |Stoyer|N,2N|N|PU-239|SIG
13787|13787002| |Nelson|N,2N|N|PU-239|SIG
13787|13787002| |Chadwick|N,2N|N|PU-239|SIG
13787|13787002| |Johns|N,2N|N|PU-239|SIG
13787|13787002| |Wilburn|N,2N|N|PU-239|SIG
13787|13787002| |Devlin|N,2N|N|PU-239|SIG
13787|13787002| |Drake|N,2N|N|PU-239|SIG
13787|13787002| |Young|N,2N|N|PU-239|SIG
13793|13793002| |Drummond|N,EL|N|H-1|DA
13793|13793002| |Brady|N,EL|N|H-1|DA
13793|13793002| |Romero|N,EL|N|H-1|DA
13793|13793002| |Ford|N,EL|N|H-1|DA
13793|13793002| |Castaneda|N,EL|N|H-1|DA
13793|13793002| |Mceachern|N,EL|N|H-1|DA
13793|13793002| |Hamilton|N,EL|N|H-1|DA
13795|13795002| |Drosg|N,EL|N|H-1|DA
13883|13883002| |Lougheed|N,2N|N|PU-239|SIG
13883|13883002| |Webster|N,2N|N|PU-239|SIG
13883|13883002| |Namboodiri|N,2N|N|PU-239|SIG
13883|13883002| |Nethaway|N,2N|N|PU-239|SIG
13883|13883002| |Moody|N,2N|N|PU-239|SIG
13883|13883002| |Landrum|N,2N|N|PU-239|SIG
13883|13883002| |Hoff|N,2N|N|PU-239|SIG
13883|13883002| |Dupzyk|N,2N|N|PU-239|SIG
13883|13883002| |Mcquaid|N,2N|N|PU-239|SIG
13883|13883002| |Gunnink|N,2N|N|PU-239|SIG
13883|13883002| |Watkins|N,2N|N|PU-239|SIG
13883|13883003| |Lougheed|N,2N|N|AM-241|SIG
13883|13883003| |Webster|N,2N|N|AM-241|SIG
13883|13883003| |Namboodiri|N,2N|N|AM-241|SIG
13883|13883003| |Nethaway|N,2N|N|AM-241|SIG
13883|13883003| |Moody|N,2N|N|AM-241|SIG
13883|13883003| |Landrum|N,2N|N|AM-241|SIG
13883|13883003| |Hoff|N,2N|N|AM-241|SIG
13883|13883003| |Dupzyk|N,2N|N|AM-241|SIG
13883|13883003| |Mcquaid|N,2N|N|AM-241|SIG
13883|13883003| |Gunnink|N,2N|N|AM-241|SIG
13883|13883003| |Watkins|N,2N|N|AM-241|SIG
13883|13883004| |Lougheed|N,F+ELEM/MASS|N|AM-241|SIG
13883|13883004| |Webster|N,F+ELEM/MASS|N|AM-241|SIG
13883|13883004| |Namboodiri|N,F+ELEM/MASS|N|AM-241|SIG
13883|13883004| |Nethaway|N,F+ELEM/MASS|N|AM-241|SIG
13883|13883004| |Moody|N,F+ELEM/MASS|N|AM-241|SIG
13883|13883004| |Landrum|N,F+ELEM/MASS|N|AM-241|SIG
13883|13883004| |Hoff|N,F+ELEM/MASS|N|AM-241|SIG
13883|13883004| |Dupzyk|N,F+ELEM/MASS|N|AM-241|SIG
13883|13883004| |Mcquaid|N,F+ELEM/MASS|N|AM-241|SIG
13883|13883004| |Gunnink|N,F+ELEM/MASS|N|AM-241|SIG
13883|13883004| |Watkins|N,F+ELEM/MASS|N|AM-241|SIG
13986|13986002| |Sarsour|N,EL|N|H-1|DA
13986|13986002| |Peterson|N,EL|N|H-1|DA
13986|13986002| |Planinic|N,EL|N|H-1|DA
13986|13986002| |Vigdor|N,EL|N|H-1|DA
13986|13986002| |Allgower|N,EL|N|H-1|DA
13986|13986002| |Bergenwall|N,EL|N|H-1|DA
13986|13986002| |Blomgren|N,EL|N|H-1|DA
13986|13986002| |Hossbach|N,EL|N|H-1|DA
13986|13986002| |Jacobs|N,EL|N|H-1|DA
13986|13986002| |Johansson|N,EL|N|H-1|DA
13986|13986002| |Klug|N,EL|N|H-1|DA
13986|13986002| |Klyachko|N,EL|N|H-1|DA
13986|13986002| |Nadel-Turonski|N,EL|N|H-1|DA
13986|13986002| |Nilsson|N,EL|N|H-1|DA
13986|13986002| |Olsson|N,EL|N|H-1|DA
13986|13986002| |Pomp|N,EL|N|H-1|DA
13986|13986002| |Rapaport|N,EL|N|H-1|DA
13986|13986002| |Rinckel|N,EL|N|H-1|DA
13986|13986002| |Stephenson|N,EL|N|H-1|DA
13986|13986002| |Tippawan|N,EL|N|H-1|DA
13986|13986002| |Wissink|N,EL|N|H-1|DA
13986|13986002| | Zhou|N,EL|N|H-1|DA
14017|14017002| |Peterson|N,EL|N|H-1|DA
14017|14017002| |Vigdor|N,EL|N|H-1|DA
14017|14017002| |Allgower|N,EL|N|H-1|DA
14017|14017002| |Bergenwall|N,EL|N|H-1|DA
14017|14017002| |Bland|N,EL|N|H-1|DA
14017|14017002| |Blomgren|N,EL|N|H-1|DA
14017|14017002| |Doskow|N,EL|N|H-1|DA
14017|14017002| |Hossbach|N,EL|N|H-1|DA
14017|14017002| |Jacobs|N,EL|N|H-1|DA
14017|14017002| |Johansson|N,EL|N|H-1|DA
14017|14017002| |Kinashia|N,EL|N|H-1|DA
14017|14017002| |Klug|N,EL|N|H-1|DA
14017|14017002| |Klyachko|N,EL|N|H-1|DA
14017|14017002| |Nadel-Turonski|N,EL|N|H-1|DA
14017|14017002| |Nilsson|N,EL|N|H-1|DA
14017|14017002| |Olsson|N,EL|N|H-1|DA
14017|14017002| |Planinic|N,EL|N|H-1|DA
14017|14017002| |Pomp|N,EL|N|H-1|DA
14017|14017002| |Rapaport|N,EL|N|H-1|DA
14017|14017002| |Rinckel|N,EL|N|H-1|DA
14017|14017002| |Stephenson|N,EL|N|H-1|DA
14017|14017002| |Tippawan|N,EL|N|H-1|DA
14017|14017002| |Wissink|N,EL|N|H-1|DA
14017|14017002| |Zhou|N,EL|N|H-1|DA
14129|14129002| |Becker|N,2N|N|PU-239|SIG
14129|14129002| |Bernstein|N,2N|N|PU-239|SIG
14129|14129002| |Younes|N,2N|N|PU-239|SIG
14129|14129002| |Mcnabb|N,2N|N|PU-239|SIG
14129|14129002| |Garrett|N,2N|N|PU-239|SIG
14129|14129002| |Archer|N,2N|N|PU-239|SIG
14129|14129002| |Mcgrath|N,2N|N|PU-239|SIG
14129|14129002| |Stoyer|N,2N|N|PU-239|SIG
14129|14129002| |Chen|N,2N|N|PU-239|SIG
14129|14129002| |Ormand|N,2N|N|PU-239|SIG
14129|14129002| |Nelson|N,2N|N|PU-239|SIG
14129|14129002| |Chadwick|N,2N|N|PU-239|SIG
14129|14129002| |Johns|N,2N|N|PU-239|SIG
14129|14129002| |Drake|N,2N|N|PU-239|SIG
14129|14129002| |Young|N,2N|N|PU-239|SIG
14129|14129002| |Devlin|N,2N|N|PU-239|SIG
14129|14129002| |Fotiades|N,2N|N|PU-239|SIG
14129|14129002| |Wilburn|N,2N|N|PU-239|SIG
14160|14160002|1|Boukharouba|N,EL|N|H-1|DA
14160|14160002|1|Bateman|N,EL|N|H-1|DA
14160|14160002|1|Carlson|N,EL|N|H-1|DA
14160|14160002|1|Brient|N,EL|N|H-1|DA
14160|14160002|1|Grimes|N,EL|N|H-1|DA
14160|14160002|1|Massey|N,EL|N|H-1|DA
14160|14160002|1|Haight|N,EL|N|H-1|DA
14160|14160002|1|Carter|N,EL|N|H-1|DA
14160|14160002|2|Boukharouba|N,EL|N|H-1|DA
14160|14160002|2|Bateman|N,EL|N|H-1|DA
14160|14160002|2|Carlson|N,EL|N|H-1|DA
14160|14160002|2|Brient|N,EL|N|H-1|DA
14160|14160002|2|Grimes|N,EL|N|H-1|DA
14160|14160002|2|Massey|N,EL|N|H-1|DA
14160|14160002|2|Haight|N,EL|N|H-1|DA
14160|14160002|2|Carter|N,EL|N|H-1|DA
20287|20287002| |Nakamura|N,EL|N|H-1|DA
20287|20287003| |Nakamura|N,EL|N|H-1|DA
20296|20296002| |Shirato|N,EL|N|H-1|SIG
20296|20296002| |Saitoh|N,EL|N|H-1|SIG
20296|20296003| |Shirato|N,EL|N|H-1|DA
20296|20296003| |Saitoh|N,EL|N|H-1|DA
20296|20296004| |Shirato|N,EL|N|H-1|DA
20296|20296004| |Saitoh|N,EL|N|H-1|DA
20296|20296005| |Shirato|N,EL|N|H-1|DA
20296|20296005| |Saitoh|N,EL|N|H-1|DA
20296|20296006| |Shirato|N,EL|N|H-1|SIG
20296|20296006| |Saitoh|N,EL|N|H-1|SIG
20296|20296007| |Shirato|N,EL|N|H-1|DA
20296|20296007| |Saitoh|N,EL|N|H-1|DA
20296|20296008| |Shirato|N,EL|N|H-1|DA
20296|20296008| |Saitoh|N,EL|N|H-1|DA
20296|20296009| |Shirato|N,EL|N|H-1|DA
20296|20296009| |Saitoh|N,EL|N|H-1|DA
20319|20319002| |Oda|N,EL|N|H-1|DA
20319|20319002| |Sanada|N,EL|N|H-1|DA
20319|20319002| |Yamabe|N,EL|N|H-1|DA
20360|20360002| |Howard|N,EL|N|H-1|DA
20360|20360002| |Edington|N,EL|N|H-1|DA
20360|20360002| |Das Gupta|N,EL|N|H-1|DA
20360|20360002| |Blair|N,EL|N|H-1|DA
20360|20360002| |Bonner|N,EL|N|H-1|DA
20360|20360002| |Brady|N,EL|N|H-1|DA
20360|20360002| |Mcnaughton|N,EL|N|H-1|DA
20360|20360002| |Stewart|N,EL|N|H-1|DA
20360|20360003| |Howard|N,EL|N|H-1|DA
20360|20360003| |Edington|N,EL|N|H-1|DA
20360|20360003| |Das Gupta|N,EL|N|H-1|DA
20360|20360003| |Blair|N,EL|N|H-1|DA
20360|20360003| |Bonner|N,EL|N|H-1|DA
20360|20360003| |Brady|N,EL|N|H-1|DA
20360|20360003| |Mcnaughton|N,EL|N|H-1|DA
20360|20360003| |Stewart|N,EL|N|H-1|DA
20360|20360004| |Howard|N,EL|N|H-2|DA
20360|20360004| |Edington|N,EL|N|H-2|DA
20360|20360004| |Das Gupta|N,EL|N|H-2|DA
20360|20360004| |Blair|N,EL|N|H-2|DA
20360|20360004| |Bonner|N,EL|N|H-2|DA
20360|20360004| |Brady|N,EL|N|H-2|DA
20360|20360004| |Mcnaughton|N,EL|N|H-2|DA
20360|20360004| |Stewart|N,EL|N|H-2|DA
20360|20360005| |Howard|N,EL|N|H-2|DA
20360|20360005| |Edington|N,EL|N|H-2|DA
20360|20360005| |Das Gupta|N,EL|N|H-2|DA
20360|20360005| |Blair|N,EL|N|H-2|DA
20360|20360005| |Bonner|N,EL|N|H-2|DA
20360|20360005| |Brady|N,EL|N|H-2|DA
20360|20360005| |Mcnaughton|N,EL|N|H-2|DA
20360|20360005| |Stewart|N,EL|N|H-2|DA
20389|20389002| |Paulsen|N,EL|N|H-1|DA
20389|20389002| |Liskien|N,EL|N|H-1|DA
20389|20389003| |Paulsen|N,EL|N|H-1|DA
20389|20389003| |Liskien|N,EL|N|H-1|DA
20404|20404002| |Shirato|N,EL|N|H-1|DA
20404|20404002| |Saitoh|N,EL|N|H-1|DA
20576|20576002| |Knitter|N,F+N|N|PU-239|KE
20576|20576003| |Knitter|N,F|N|PU-239|NU/DE
20576|20576004|1|Knitter|N,F+N|N|PU-239|KE
20576|20576004|2|Knitter|N,F+N|N|PU-239|KE
20576|20576006| |Knitter|N,F+N|N|PU-239|KE
20576|20576006| |Knitter|N,F+N|N|U-235|KE
20778|20778002| |Cookson|N,EL|N|H-1|DA
20778|20778002| |Fowler|N,EL|N|H-1|DA
20778|20778002| |Hussain|N,EL|N|H-1|DA
20778|20778002| |Schwartz|N,EL|N|H-1|DA
20778|20778002| |Uttley|N,EL|N|H-1|DA
20795|20795002| |Mather|N,2N|N|SC-45|SIG
20795|20795002| |Bampton|N,2N|N|SC-45|SIG
20795|20795002| |Coles|N,2N|N|SC-45|SIG
20795|20795002| |James|N,2N|N|SC-45|SIG
20795|20795002| |Nind|N,2N|N|SC-45|SIG
20795|20795003| |Mather|N,2N|N|Y-89|SIG
20795|20795003| |Bampton|N,2N|N|Y-89|SIG
20795|20795003| |Coles|N,2N|N|Y-89|SIG
20795|20795003| |James|N,2N|N|Y-89|SIG
20795|20795003| |Nind|N,2N|N|Y-89|SIG
20795|20795004| |Mather|N,2N|N|NB-93|SIG
20795|20795004| |Bampton|N,2N|N|NB-93|SIG
20795|20795004| |Coles|N,2N|N|NB-93|SIG
20795|20795004| |James|N,2N|N|NB-93|SIG
20795|20795004| |Nind|N,2N|N|NB-93|SIG
20795|20795005| |Mather|N,2N|N|MO-0|SIG
20795|20795005| |Bampton|N,2N|N|MO-0|SIG
20795|20795005| |Coles|N,2N|N|MO-0|SIG
20795|20795005| |James|N,2N|N|MO-0|SIG
20795|20795005| |Nind|N,2N|N|MO-0|SIG
20795|20795006| |Mather|N,2N|N|RH-103|SIG
20795|20795006| |Bampton|N,2N|N|RH-103|SIG
20795|20795006| |Coles|N,2N|N|RH-103|SIG
20795|20795006| |James|N,2N|N|RH-103|SIG
20795|20795006| |Nind|N,2N|N|RH-103|SIG
20795|20795007| |Mather|N,2N|N|TM-169|SIG
20795|20795007| |Bampton|N,2N|N|TM-169|SIG
20795|20795007| |Coles|N,2N|N|TM-169|SIG
20795|20795007| |James|N,2N|N|TM-169|SIG
20795|20795007| |Nind|N,2N|N|TM-169|SIG
20795|20795008| |Mather|N,2N|N|AU-197|SIG
20795|20795008| |Bampton|N,2N|N|AU-197|SIG
20795|20795008| |Coles|N,2N|N|AU-197|SIG
20795|20795008| |James|N,2N|N|AU-197|SIG
20795|20795008| |Nind|N,2N|N|AU-197|SIG
20795|20795009| |Mather|N,2N|N|PB-0|SIG
20795|20795009| |Bampton|N,2N|N|PB-0|SIG
20795|20795009| |Coles|N,2N|N|PB-0|SIG
20795|20795009| |James|N,2N|N|PB-0|SIG
20795|20795009| |Nind|N,2N|N|PB-0|SIG
20795|20795010| |Mather|N,2N|N|U-235|SIG
20795|20795010| |Bampton|N,2N|N|U-235|SIG
20795|20795010| |Coles|N,2N|N|U-235|SIG
20795|20795010| |James|N,2N|N|U-235|SIG
20795|20795010| |Nind|N,2N|N|U-235|SIG
20795|20795011| |Mather|N,3N|N|U-235|SIG
20795|20795011| |Bampton|N,3N|N|U-235|SIG
20795|20795011| |Coles|N,3N|N|U-235|SIG
20795|20795011| |James|N,3N|N|U-235|SIG
20795|20795011| |Nind|N,3N|N|U-235|SIG
20795|20795012| |Mather|N,2N|N|U-238|SIG
20795|20795012| |Bampton|N,2N|N|U-238|SIG
20795|20795012| |Coles|N,2N|N|U-238|SIG
20795|20795012| |James|N,2N|N|U-238|SIG
20795|20795012| |Nind|N,2N|N|U-238|SIG
20795|20795013| |Mather|N,3N|N|U-238|SIG
20795|20795013| |Bampton|N,3N|N|U-238|SIG
20795|20795013| |Coles|N,3N|N|U-238|SIG
20795|20795013| |James|N,3N|N|U-238|SIG
20795|20795013| |Nind|N,3N|N|U-238|SIG
20795|20795014| |Mather|N,2N|N|PU-239|SIG
20795|20795014| |Bampton|N,2N|N|PU-239|SIG
20795|20795014| |Coles|N,2N|N|PU-239|SIG
20795|20795014| |James|N,2N|N|PU-239|SIG
20795|20795014| |Nind|N,2N|N|PU-239|SIG
20795|20795015| |Mather|N,2N|N|PU-239|SIG
20795|20795015| |Bampton|N,2N|N|PU-239|SIG
20795|20795015| |Coles|N,2N|N|PU-239|SIG
20795|20795015| |James|N,2N|N|PU-239|SIG
20795|20795015| |Nind|N,2N|N|PU-239|SIG
20795|20795016| |Mather|N,3N|N|PU-239|SIG
20795|20795016| |Bampton|N,3N|N|PU-239|SIG
20795|20795016| |Coles|N,3N|N|PU-239|SIG
20795|20795016| |James|N,3N|N|PU-239|SIG
20795|20795016| |Nind|N,3N|N|PU-239|SIG
20964|20964002| |Scanlon|N,EL|N|H-1|DA
20964|20964002| |Stafford|N,EL|N|H-1|DA
20964|20964002| |Thresher|N,EL|N|H-1|DA
20964|20964002| |Bowen|N,EL|N|H-1|DA
20964|20964002| |Langsford|N,EL|N|H-1|DA
20964|20964003| |Scanlon|N,EL|N|H-1|DA
20964|20964003| |Stafford|N,EL|N|H-1|DA
20964|20964003| |Thresher|N,EL|N|H-1|DA
20964|20964003| |Bowen|N,EL|N|H-1|DA
20964|20964003| |Langsford|N,EL|N|H-1|DA
20964|20964004| |Scanlon|N,EL|N|H-1|DA
20964|20964004| |Stafford|N,EL|N|H-1|DA
20964|20964004| |Thresher|N,EL|N|H-1|DA
20964|20964004| |Bowen|N,EL|N|H-1|DA
20964|20964004| |Langsford|N,EL|N|H-1|DA
20964|20964005| |Scanlon|N,EL|N|H-1|DA
20964|20964005| |Stafford|N,EL|N|H-1|DA
20964|20964005| |Thresher|N,EL|N|H-1|DA
20964|20964005| |Bowen|N,EL|N|H-1|DA
20964|20964005| |Langsford|N,EL|N|H-1|DA
20964|20964006| |Scanlon|N,EL|N|H-1|DA
20964|20964006| |Stafford|N,EL|N|H-1|DA
20964|20964006| |Thresher|N,EL|N|H-1|DA
20964|20964006| |Bowen|N,EL|N|H-1|DA
20964|20964006| |Langsford|N,EL|N|H-1|DA
20964|20964007| |Scanlon|N,EL|N|H-1|DA
20964|20964007| |Stafford|N,EL|N|H-1|DA
20964|20964007| |Thresher|N,EL|N|H-1|DA
20964|20964007| |Bowen|N,EL|N|H-1|DA
20964|20964007| |Langsford|N,EL|N|H-1|DA
20964|20964008| |Scanlon|N,EL|N|H-1|DA
20964|20964008| |Stafford|N,EL|N|H-1|DA
20964|20964008| |Thresher|N,EL|N|H-1|DA
20964|20964008| |Bowen|N,EL|N|H-1|DA
20964|20964008| |Langsford|N,EL|N|H-1|DA
20964|20964009| |Scanlon|N,EL|N|H-1|DA
20964|20964009| |Stafford|N,EL|N|H-1|DA
20964|20964009| |Thresher|N,EL|N|H-1|DA
20964|20964009| |Bowen|N,EL|N|H-1|DA
20964|20964009| |Langsford|N,EL|N|H-1|DA
20964|20964010| |Scanlon|N,EL|N|H-1|DA
20964|20964010| |Stafford|N,EL|N|H-1|DA
20964|20964010| |Thresher|N,EL|N|H-1|DA
20964|20964010| |Bowen|N,EL|N|H-1|DA
20964|20964010| |Langsford|N,EL|N|H-1|DA
20964|20964011| |Scanlon|N,EL|N|H-1|DA
20964|20964011| |Stafford|N,EL|N|H-1|DA
20964|20964011| |Thresher|N,EL|N|H-1|DA
20964|20964011| |Bowen|N,EL|N|H-1|DA
20964|20964011| |Langsford|N,EL|N|H-1|DA
20964|20964012| |Scanlon|N,EL|N|H-1|DA
20964|20964012| |Stafford|N,EL|N|H-1|DA
20964|20964012| |Thresher|N,EL|N|H-1|DA
20964|20964012| |Bowen|N,EL|N|H-1|DA
20964|20964012| |Langsford|N,EL|N|H-1|DA
20964|20964013| |Scanlon|N,EL|N|H-1|DA
20964|20964013| |Stafford|N,EL|N|H-1|DA
20964|20964013| |Thresher|N,EL|N|H-1|DA
20964|20964013| |Bowen|N,EL|N|H-1|DA
20964|20964013| |Langsford|N,EL|N|H-1|DA
20964|20964014| |Scanlon|N,EL|N|H-1|DA
20964|20964014| |Stafford|N,EL|N|H-1|DA
20964|20964014| |Thresher|N,EL|N|H-1|DA
20964|20964014| |Bowen|N,EL|N|H-1|DA
20964|20964014| |Langsford|N,EL|N|H-1|DA
20964|20964015| |Scanlon|N,EL|N|H-1|DA
20964|20964015| |Stafford|N,EL|N|H-1|DA
20964|20964015| |Thresher|N,EL|N|H-1|DA
20964|20964015| |Bowen|N,EL|N|H-1|DA
20964|20964015| |Langsford|N,EL|N|H-1|DA
20964|20964016| |Scanlon|N,EL|N|H-1|DA
20964|20964016| |Stafford|N,EL|N|H-1|DA"
/-- rows of x4i3/tests/data/index.tbl -/
def rows3 : String := "20964|20964016| |Thresher|N,EL|N|H-1|DA
20964|20964016| |Bowen|N,EL|N|H-1|DA
20964|20964016| |Langsford|N,EL|N|H-1|DA
20964|20964017| |Scanlon|N,EL|N|H-1|DA
20964|20964017| |Stafford|N,EL|N|H-1|DA
20964|20964017| |Thresher|N,EL|N|H-1|DA
20964|20964017| |Bowen|N,EL|N|H-1|DA
20964|20964017| |Langsford|N,EL|N|H-1|DA
20964|20964018| |Scanlon|N,EL|N|H-1|DA
20964|20964018| |Stafford|N,EL|N|H-1|DA
20964|20964018| |Thresher|N,EL|N|H-1|DA
20964|20964018| |Bowen|N,EL|N|H-1|DA
20964|20964018| |Langsford|N,EL|N|H-1|DA
20964|20964019| |Scanlon|N,EL|N|H-1|DA
20964|20964019| |Stafford|N,EL|N|H-1|DA
20964|20964019| |Thresher|N,EL|N|H-1|DA
20964|20964019| |Bowen|N,EL|N|H-1|DA
20964|20964019| |Langsford|N,EL|N|H-1|DA
20964|20964020| |Scanlon|N,EL|N|H-1|DA
20964|20964020| |Stafford|N,EL|N|H-1|DA
20964|20964020| |Thresher|N,EL|N|H-1|DA
20964|20964020| |Bowen|N,EL|N|H-1|DA
20964|20964020| |Langsford|N,EL|N|H-1|DA
20964|20964021| |Scanlon|N,EL|N|H-1|DA
20964|20964021| |Stafford|N,EL|N|H-1|DA
20964|20964021| |Thresher|N,EL|N|H-1|DA
20964|20964021| |Bowen|N,EL|N|H-1|DA
20964|20964021| |Langsford|N,EL|N|H-1|DA
20964|20964022| |Scanlon|N,EL|N|H-1|DA
20964|20964022| |Stafford|N,EL|N|H-1|DA
20964|20964022| |Thresher|N,EL|N|H-1|DA
20964|20964022| |Bowen|N,EL|N|H-1|DA
20964|20964022| |Langsford|N,EL|N|H-1|DA
20964|20964023| |Scanlon|N,EL|N|H-1|DA
20964|20964023| |Stafford|N,EL|N|H-1|DA
20964|20964023| |Thresher|N,EL|N|H-1|DA
20964|20964023| |Bowen|N,EL|N|H-1|DA
20964|20964023| |Langsford|N,EL|N|H-1|DA
20964|20964024| |Scanlon|N,EL|N|H-1|DA
20964|20964024| |Stafford|N,EL|N|H-1|DA
20964|20964024| |Thresher|N,EL|N|H-1|DA
20964|20964024| |Bowen|N,EL|N|H-1|DA
20964|20964024| |Langsford|N,EL|N|H-1|DA
20964|20964025| |Scanlon|N,EL|N|H-1|DA
20964|20964025| |Stafford|N,EL|N|H-1|DA
20964|20964025| |Thresher|N,EL|N|H-1|DA
20964|20964025| |Bowen|N,EL|N|H-1|DA
20964|20964025| |Langsford|N,EL|N|H-1|DA
20964|20964026| |Scanlon|N,EL|N|H-1|DA
20964|20964026| |Stafford|N,EL|N|H-1|DA
20964|20964026| |Thresher|N,EL|N|H-1|DA
20964|20964026| |Bowen|N,EL|N|H-1|DA
20964|20964026| |Langsford|N,EL|N|H-1|DA
20964|20964027| |Scanlon|N,EL|N|H-1|DA
20964|20964027| |Stafford|N,EL|N|H-1|DA
20964|20964027| |Thresher|N,EL|N|H-1|DA
20964|20964027| |Bowen|N,EL|N|H-1|DA
20964|20964027| |Langsford|N,EL|N|H-1|DA
20964|20964028| |Scanlon|N,EL|N|H-1|DA
20964|20964028| |Stafford|N,EL|N|H-1|DA
20964|20964028| |Thresher|N,EL|N|H-1|DA
20964|20964028| |Bowen|N,EL|N|H-1|DA
20964|20964028| |Langsford|N,EL|N|H-1|DA
21223|21223002| |Cambou|N,EL|N|H-1|DA
21223|21223003| |Cambou|N,EL|N|H-1|DA
21223|21223004| |Cambou|N,EL|N|H-3|DA
21365|21365002| |Randle|N,EL|N|H-1|DA
21365|21365002| |Skyrme|N,EL|N|H-1|DA
21365|21365002| |Snowden|N,EL|N|H-1|DA
21365|21365002| |Taylor|N,EL|N|H-1|DA
21365|21365002| |Uridge|N,EL|N|H-1|DA
21365|21365002| |Wood|N,EL|N|H-1|DA
21367|21367002| |Griffith|N,EL|N|H-1|DA
21367|21367002| |Banford|N,EL|N|H-1|DA
21367|21367002| |Uppal|N,EL|N|H-1|DA
21367|21367002| |Williams|N,EL|N|H-1|DA
21367|21367003| |Griffith|N,EL|N|H-1|DA
21367|21367003| |Banford|N,EL|N|H-1|DA
21367|21367003| |Uppal|N,EL|N|H-1|DA
21367|21367003| |Williams|N,EL|N|H-1|DA
21367|21367004| |Griffith|N,EL|N|H-1|DA
21367|21367004| |Banford|N,EL|N|H-1|DA
21367|21367004| |Uppal|N,EL|N|H-1|DA
21367|21367004| |Williams|N,EL|N|H-1|DA
21790|21790002| |Randle|N,EL|N|H-1|DA
21790|21790002| |Taylor|N,EL|N|H-1|DA
21790|21790002| |Wood|N,EL|N|H-1|DA
21795|21795002| |Morton|N,EL|N|H-1|DA
21800|21800002| |Thresher|N,EL|N|H-1|DA
21800|21800002| |Voss|N,EL|N|H-1|DA
21800|21800002| |Wilson|N,EL|N|H-1|DA
21800|21800003| |Thresher|N,EL|N|H-1|DA
21800|21800003| |Voss|N,EL|N|H-1|DA
21800|21800003| |Wilson|N,EL|N|H-1|DA
21815|21815002| |Griffith|N,EL|N|H-1|DA
21815|21815002| |Banford|N,EL|N|H-1|DA
21815|21815002| |Uppal|N,EL|N|H-1|DA
21815|21815002| |Williams|N,EL|N|H-1|DA
21815|21815003| |Griffith|N,EL|N|H-1|DA
21815|21815003| |Banford|N,EL|N|H-1|DA
21815|21815003| |Uppal|N,EL|N|H-1|DA
21815|21815003| |Williams|N,EL|N|H-1|DA
21815|21815004| |Griffith|N,EL|N|H-1|DA
21815|21815004| |Banford|N,EL|N|H-1|DA
21815|21815004| |Uppal|N,EL|N|H-1|DA
21815|21815004| |Williams|N,EL|N|H-1|DA
21852|21852002| |Arvieux|N,EL|N|H-1|DA
21852|21852002| |Pouxe|N,EL|N|H-1|DA
21971|21971002| |Frehaut|N,2N|N|H-2|SIG
21971|21971002| |Bertin|N,2N|N|H-2|SIG
21971|21971002| |Blois|N,2N|N|H-2|SIG
21971|21971002| |Gryntakis|N,2N|N|H-2|SIG
21971|21971002| |Philis|N,2N|N|H-2|SIG
21971|21971003| |Frehaut|N,2N|N|PU-239|SIG
21971|21971003| |Bertin|N,2N|N|PU-239|SIG
21971|21971003| |Blois|N,2N|N|PU-239|SIG
21971|21971003| |Gryntakis|N,2N|N|PU-239|SIG
21971|21971003| |Philis|N,2N|N|PU-239|SIG
21985|21985002| |Chen|N,EL|N|H-2|DA
21985|21985002| |Dupont|N,EL|N|H-2|DA
21985|21985002| |Leleux|N,EL|N|H-2|DA
21985|21985002| |Lipnik|N,EL|N|H-2|DA
21985|21985002| |Macq|N,EL|N|H-2|DA
21985|21985002| |Ninane|N,EL|N|H-2|DA
21985|21985003| |Chen|N,2N|N|H-2|DA
21985|21985003| |Dupont|N,2N|N|H-2|DA
21985|21985003| |Leleux|N,2N|N|H-2|DA
21985|21985003| |Lipnik|N,2N|N|H-2|DA
21985|21985003| |Macq|N,2N|N|H-2|DA
21985|21985003| |Ninane|N,2N|N|H-2|DA
21985|21985003| |Chen|N,EL|N|H-1|DA
21985|21985003| |Dupont|N,EL|N|H-1|DA
21985|21985003| |Leleux|N,EL|N|H-1|DA
21985|21985003| |Lipnik|N,EL|N|H-1|DA
21985|21985003| |Macq|N,EL|N|H-1|DA
21985|21985003| |Ninane|N,EL|N|H-1|DA
21993|21993002| |Bol|N,EL|N|H-1|DA
21993|21993002| |Dupont|N,EL|N|H-1|DA
21993|21993002| |Leleux|N,EL|N|H-1|DA
21993|21993002| |Lipnik|N,EL|N|H-1|DA
21993|21993002| |Macq|N,EL|N|H-1|DA
21993|21993002| |Ninane|N,EL|N|H-1|DA
22207|22207002| |Fink|N,EL|N|H-1|DA
22207|22207002| |Doll|N,EL|N|H-1|DA
22207|22207002| |Ford|N,EL|N|H-1|DA
22207|22207002| |Garrett|N,EL|N|H-1|DA
22207|22207002| |Heeringa|N,EL|N|H-1|DA
22207|22207002| |Hofmann|N,EL|N|H-1|DA
22207|22207002| |Klages|N,EL|N|H-1|DA
22207|22207002| |Krupp|N,EL|N|H-1|DA
22223|22223002| |Roennqvist|N,EL|N|H-1|DA
22223|22223002| |Conde|N,EL|N|H-1|DA
22223|22223002| |Olsson|N,EL|N|H-1|DA
22223|22223002| |Zorro|N,EL|N|H-1|DA
22223|22223002| |Blomgren|N,EL|N|H-1|DA
22223|22223002| |Tibell|N,EL|N|H-1|DA
22223|22223002| |Jonsson|N,EL|N|H-1|DA
22223|22223002| |Nilsson|N,EL|N|H-1|DA
22223|22223002| |Renberg|N,EL|N|H-1|DA
22223|22223002| |Van Der Werf|N,EL|N|H-1|DA
22225|22225002|1|Ryves|N,EL|N|H-1|DA
22225|22225002|1|Kolkowski|N,EL|N|H-1|DA
22225|22225002|2|Ryves|N,EL|N|H-1|DA
22225|22225002|2|Kolkowski|N,EL|N|H-1|DA
22225|22225003| |Ryves|N,SCT|N|H-1|DA
22225|22225003| |Kolkowski|N,SCT|N|H-1|DA
22225|22225004| |Ryves|N,SCT|N|H-1|DA
22225|22225004| |Kolkowski|N,SCT|N|H-1|DA
22277|22277002| |Ericson|N,EL|N|H-1|DA
22277|22277002| |Loiseau|N,EL|N|H-1|DA
22277|22277002| |Nilsson|N,EL|N|H-1|DA
22277|22277002| |Olsson|N,EL|N|H-1|DA
22277|22277002| |Blomgren|N,EL|N|H-1|DA
22277|22277002| |Conde|N,EL|N|H-1|DA
22277|22277002| |Elmgren|N,EL|N|H-1|DA
22277|22277002| |Jonsson|N,EL|N|H-1|DA
22277|22277002| |Renberg|N,EL|N|H-1|DA
22277|22277002| |Ringbom|N,EL|N|H-1|DA
22277|22277002| |Roennqvist|N,EL|N|H-1|DA
22277|22277002| |Tibell|N,EL|N|H-1|DA
22277|22277002| |Zorro|N,EL|N|H-1|DA
22542|22542002| |Thresher|N,EL|N|H-1|DA
22542|22542002| |Voss|N,EL|N|H-1|DA
22542|22542002| |Wilson|N,EL|N|H-1|DA
22542|22542003| |Thresher|N,EL|N|H-1|DA
22542|22542003| |Voss|N,EL|N|H-1|DA
22542|22542003| |Wilson|N,EL|N|H-1|DA
22668|22668002| |Rahm|N,EL|N|H-1|DA
22668|22668002| |Blomgren|N,EL|N|H-1|DA
22668|22668002| |Condee|N,EL|N|H-1|DA
22668|22668002| |Dangtip|N,EL|N|H-1|DA
22668|22668002| |Elmgren|N,EL|N|H-1|DA
22668|22668002| |Olsson|N,EL|N|H-1|DA
22668|22668002| |Roennquist|N,EL|N|H-1|DA
22668|22668002| |Zorro|N,EL|N|H-1|DA
22668|22668002| |Jonsson|N,EL|N|H-1|DA
22668|22668002| |Nilsson|N,EL|N|H-1|DA
22668|22668002| |Renberg|N,EL|N|H-1|DA
22668|22668002| |Ringbom|N,EL|N|H-1|DA
22668|22668002| |Tibell|N,EL|N|H-1|DA
22668|22668002| |Van Der Werf|N,EL|N|H-1|DA
22668|22668002| |Ericson|N,EL|N|H-1|DA
22668|22668002| |Loiseau|N,EL|N|H-1|DA
22668|22668003| |Rahm|N,EL|N|H-1|DA
22668|22668003| |Blomgren|N,EL|N|H-1|DA
22668|22668003| |Condee|N,EL|N|H-1|DA
22668|22668003| |Dangtip|N,EL|N|H-1|DA
22668|22668003| |Elmgren|N,EL|N|H-1|DA
22668|22668003| |Olsson|N,EL|N|H-1|DA
22668|22668003| |Roennquist|N,EL|N|H-1|DA
22668|22668003| |Zorro|N,EL|N|H-1|DA
22668|22668003| |Jonsson|N,EL|N|H-1|DA
22668|22668003| |Nilsson|N,EL|N|H-1|DA
22668|22668003| |Renberg|N,EL|N|H-1|DA
22668|22668003| |Ringbom|N,EL|N|H-1|DA
22668|22668003| |Tibell|N,EL|N|H-1|DA
22668|22668003| |Van Der Werf|N,EL|N|H-1|DA
22668|22668003| |Ericson|N,EL|N|H-1|DA
22668|22668003| |Loiseau|N,EL|N|H-1|DA
22831|22831002| |Blideanu|N,X+1-H-1|N|FE-0|DA/DE
22831|22831002| |Lecolley|N,X+1-H-1|N|FE-0|DA/DE
22831|22831002| |Lefort|N,X+1-H-1|N|FE-0|DA/DE
22831|22831002| |Marie|N,X+1-H-1|N|FE-0|DA/DE
22831|22831002| |Atac|N,X+1-H-1|N|FE-0|DA/DE
22831|22831002| |Ban|N,X+1-H-1|N|FE-0|DA/DE
22831|22831002| |Bergenwall|N,X+1-H-1|N|FE-0|DA/DE
22831|22831002| |Blomgren|N,X+1-H-1|N|FE-0|DA/DE
22831|22831002| |Dangtip|N,X+1-H-1|N|FE-0|DA/DE
22831|22831002| |Elmgren|N,X+1-H-1|N|FE-0|DA/DE
22831|22831002| |Eudes|N,X+1-H-1|N|FE-0|DA/DE
22831|22831002| |Foucher|N,X+1-H-1|N|FE-0|DA/DE
22831|22831002| |Guertin|N,X+1-H-1|N|FE-0|DA/DE
22831|22831002| |Haddad|N,X+1-H-1|N|FE-0|DA/DE
22831|22831002| |Hildebrand|N,X+1-H-1|N|FE-0|DA/DE
22831|22831002| |Johansson|N,X+1-H-1|N|FE-0|DA/DE
22831|22831002| |Jonsson|N,X+1-H-1|N|FE-0|DA/DE
22831|22831002| |Kerveno|N,X+1-H-1|N|FE-0|DA/DE
22831|22831002| |Kirchner|N,X+1-H-1|N|FE-0|DA/DE
22831|22831002| |Klug|N,X+1-H-1|N|FE-0|DA/DE
22831|22831002| |Le Brun|N,X+1-H-1|N|FE-0|DA/DE
22831|22831002| |Lebrun|N,X+1-H-1|N|FE-0|DA/DE
22831|22831002| |Louvel|N,X+1-H-1|N|FE-0|DA/DE
22831|22831002| |Nadel-Turonski|N,X+1-H-1|N|FE-0|DA/DE
22831|22831002| |Nilsson|N,X+1-H-1|N|FE-0|DA/DE
22831|22831002| |Olsson|N,X+1-H-1|N|FE-0|DA/DE
22831|22831002| |Pomp|N,X+1-H-1|N|FE-0|DA/DE
22831|22831002| |Prokofiev|N,X+1-H-1|N|FE-0|DA/DE
22831|22831002| |Renberg|N,X+1-H-1|N|FE-0|DA/DE
22831|22831002| |Riviere|N,X+1-H-1|N|FE-0|DA/DE
22831|22831002| |Slypen|N,X+1-H-1|N|FE-0|DA/DE
22831|22831002| |Stuttge|N,X+1-H-1|N|FE-0|DA/DE
22831|22831002| |Tippawan|N,X+1-H-1|N|FE-0|DA/DE
22831|22831002| |Oesterlund|N,X+1-H-1|N|FE-0|DA/DE
22831|22831003| |Blideanu|N,X+1-H-2|N|FE-0|DA/DE
22831|22831003| |Lecolley|N,X+1-H-2|N|FE-0|DA/DE
22831|22831003| |Lefort|N,X+1-H-2|N|FE-0|DA/DE
22831|22831003| |Marie|N,X+1-H-2|N|FE-0|DA/DE
22831|22831003| |Atac|N,X+1-H-2|N|FE-0|DA/DE
22831|22831003| |Ban|N,X+1-H-2|N|FE-0|DA/DE
22831|22831003| |Bergenwall|N,X+1-H-2|N|FE-0|DA/DE
22831|22831003| |Blomgren|N,X+1-H-2|N|FE-0|DA/DE
22831|22831003| |Dangtip|N,X+1-H-2|N|FE-0|DA/DE
22831|22831003| |Elmgren|N,X+1-H-2|N|FE-0|DA/DE
22831|22831003| |Eudes|N,X+1-H-2|N|FE-0|DA/DE
22831|22831003| |Foucher|N,X+1-H-2|N|FE-0|DA/DE
22831|22831003| |Guertin|N,X+1-H-2|N|FE-0|DA/DE
22831|22831003| |Haddad|N,X+1-H-2|N|FE-0|DA/DE
22831|22831003| |Hildebrand|N,X+1-H-2|N|FE-0|DA/DE
22831|22831003| |Johansson|N,X+1-H-2|N|FE-0|DA/DE
22831|22831003| |Jonsson|N,X+1-H-2|N|FE-0|DA/DE
22831|22831003| |Kerveno|N,X+1-H-2|N|FE-0|DA/DE
22831|22831003| |Kirchner|N,X+1-H-2|N|FE-0|DA/DE
22831|22831003| |Klug|N,X+1-H-2|N|FE-0|DA/DE
22831|22831003| |Le Brun|N,X+1-H-2|N|FE-0|DA/DE
22831|22831003| |Lebrun|N,X+1-H-2|N|FE-0|DA/DE
22831|22831003| |Louvel|N,X+1-H-2|N|FE-0|DA/DE
22831|22831003| |Nadel-Turonski|N,X+1-H-2|N|FE-0|DA/DE
22831|22831003| |Nilsson|N,X+1-H-2|N|FE-0|DA/DE
22831|22831003| |Olsson|N,X+1-H-2|N|FE-0|DA/DE
22831|22831003| |Pomp|N,X+1-H-2|N|FE-0|DA/DE
22831|22831003| |Prokofiev|N,X+1-H-2|N|FE-0|DA/DE
22831|22831003| |Renberg|N,X+1-H-2|N|FE-0|DA/DE
22831|22831003| |Riviere|N,X+1-H-2|N|FE-0|DA/DE
22831|22831003| |Slypen|N,X+1-H-2|N|FE-0|DA/DE
22831|22831003| |Stuttge|N,X+1-H-2|N|FE-0|DA/DE
22831|22831003| |Tippawan|N,X+1-H-2|N|FE-0|DA/DE
22831|22831003| |Oesterlund|N,X+1-H-2|N|FE-0|DA/DE
22831|22831004| |Blideanu|N,X+1-H-3|N|FE-0|DA/DE
22831|22831004| |Lecolley|N,X+1-H-3|N|FE-0|DA/DE
22831|22831004| |Lefort|N,X+1-H-3|N|FE-0|DA/DE
22831|22831004| |Marie|N,X+1-H-3|N|FE-0|DA/DE
22831|22831004| |Atac|N,X+1-H-3|N|FE-0|DA/DE
22831|22831004| |Ban|N,X+1-H-3|N|FE-0|DA/DE
22831|22831004| |Bergenwall|N,X+1-H-3|N|FE-0|DA/DE
22831|22831004| |Blomgren|N,X+1-H-3|N|FE-0|DA/DE
22831|22831004| |Dangtip|N,X+1-H-3|N|FE-0|DA/DE
22831|22831004| |Elmgren|N,X+1-H-3|N|FE-0|DA/DE
22831|22831004| |Eudes|N,X+1-H-3|N|FE-0|DA/DE
22831|22831004| |Foucher|N,X+1-H-3|N|FE-0|DA/DE
22831|22831004| |Guertin|N,X+1-H-3|N|FE-0|DA/DE
22831|22831004| |Haddad|N,X+1-H-3|N|FE-0|DA/DE
22831|22831004| |Hildebrand|N,X+1-H-3|N|FE-0|DA/DE
22831|22831004| |Johansson|N,X+1-H-3|N|FE-0|DA/DE
22831|22831004| |Jonsson|N,X+1-H-3|N|FE-0|DA/DE
22831|22831004| |Kerveno|N,X+1-H-3|N|FE-0|DA/DE
22831|22831004| |Kirchner|N,X+1-H-3|N|FE-0|DA/DE
22831|22831004| |Klug|N,X+1-H-3|N|FE-0|DA/DE
22831|22831004| |Le Brun|N,X+1-H-3|N|FE-0|DA/DE
22831|22831004| |Lebrun|N,X+1-H-3|N|FE-0|DA/DE
22831|22831004| |Louvel|N,X+1-H-3|N|FE-0|DA/DE
22831|22831004| |Nadel-Turonski|N,X+1-H-3|N|FE-0|DA/DE
22831|22831004| |Nilsson|N,X+1-H-3|N|FE-0|DA/DE
22831|22831004| |Olsson|N,X+1-H-3|N|FE-0|DA/DE
22831|22831004| |Pomp|N,X+1-H-3|N|FE-0|DA/DE
22831|22831004| |Prokofiev|N,X+1-H-3|N|FE-0|DA/DE
22831|22831004| |Renberg|N,X+1-H-3|N|FE-0|DA/DE
22831|22831004| |Riviere|N,X+1-H-3|N|FE-0|DA/DE
22831|22831004| |Slypen|N,X+1-H-3|N|FE-0|DA/DE
22831|22831004| |Stuttge|N,X+1-H-3|N|FE-0|DA/DE
22831|22831004| |Tippawan|N,X+1-H-3|N|FE-0|DA/DE
22831|22831004| |Oesterlund|N,X+1-H-3|N|FE-0|DA/DE
22831|22831005| |Blideanu|N,X+2-HE-3|N|FE-0|DA/DE
22831|22831005| |Lecolley|N,X+2-HE-3|N|FE-0|DA/DE
22831|22831005| |Lefort|N,X+2-HE-3|N|FE-0|DA/DE
22831|22831005| |Marie|N,X+2-HE-3|N|FE-0|DA/DE
22831|22831005| |Atac|N,X+2-HE-3|N|FE-0|DA/DE
22831|22831005| |Ban|N,X+2-HE-3|N|FE-0|DA/DE
22831|22831005| |Bergenwall|N,X+2-HE-3|N|FE-0|DA/DE
22831|22831005| |Blomgren|N,X+2-HE-3|N|FE-0|DA/DE
22831|22831005| |Dangtip|N,X+2-HE-3|N|FE-0|DA/DE
22831|22831005| |Elmgren|N,X+2-HE-3|N|FE-0|DA/DE
22831|22831005| |Eudes|N,X+2-HE-3|N|FE-0|DA/DE
22831|22831005| |Foucher|N,X+2-HE-3|N|FE-0|DA/DE
22831|22831005| |Guertin|N,X+2-HE-3|N|FE-0|DA/DE
22831|22831005| |Haddad|N,X+2-HE-3|N|FE-0|DA/DE
22831|22831005| |Hildebrand|N,X+2-HE-3|N|FE-0|DA/DE
22831|22831005| |Johansson|N,X+2-HE-3|N|FE-0|DA/DE
22831|22831005| |Jonsson|N,X+2-HE-3|N|FE-0|DA/DE
22831|22831005| |Kerveno|N,X+2-HE-3|N|FE-0|DA/DE
22831|22831005| |Kirchner|N,X+2-HE-3|N|FE-0|DA/DE
22831|22831005| |Klug|N,X+2-HE-3|N|FE-0|DA/DE
22831|22831005| |Le Brun|N,X+2-HE-3|N|FE-0|DA/DE
22831|22831005| |Lebrun|N,X+2-HE-3|N|FE-0|DA/DE
22831|22831005| |Louvel|N,X+2-HE-3|N|FE-0|DA/DE
22831|22831005| |Nadel-Turonski|N,X+2-HE-3|N|FE-0|DA/DE
22831|22831005| |Nilsson|N,X+2-HE-3|N|FE-0|DA/DE
22831|22831005| |Olsson|N,X+2-HE-3|N|FE-0|DA/DE
22831|22831005| |Pomp|N,X+2-HE-3|N|FE-0|DA/DE
22831|22831005| |Prokofiev|N,X+2-HE-3|N|FE-0|DA/DE
22831|22831005| |Renberg|N,X+2-HE-3|N|FE-0|DA/DE
22831|22831005| |Riviere|N,X+2-HE-3|N|FE-0|DA/DE
22831|22831005| |Slypen|N,X+2-HE-3|N|FE-0|DA/DE
22831|22831005| |Stuttge|N,X+2-HE-3|N|FE-0|DA/DE
22831|22831005| |Tippawan|N,X+2-HE-3|N|FE-0|DA/DE
22831|22831005| |Oesterlund|N,X+2-HE-3|N|FE-0|DA/DE
22831|22831006| |Blideanu|N,X+2-HE-4|N|FE-0|DA/DE
22831|22831006| |Lecolley|N,X+2-HE-4|N|FE-0|DA/DE
22831|22831006| |Lefort|N,X+2-HE-4|N|FE-0|DA/DE
22831|22831006| |Marie|N,X+2-HE-4|N|FE-0|DA/DE
22831|22831006| |Atac|N,X+2-HE-4|N|FE-0|DA/DE
22831|22831006| |Ban|N,X+2-HE-4|N|FE-0|DA/DE
22831|22831006| |Bergenwall|N,X+2-HE-4|N|FE-0|DA/DE
22831|22831006| |Blomgren|N,X+2-HE-4|N|FE-0|DA/DE
22831|22831006| |Dangtip|N,X+2-HE-4|N|FE-0|DA/DE
22831|22831006| |Elmgren|N,X+2-HE-4|N|FE-0|DA/DE
22831|22831006| |Eudes|N,X+2-HE-4|N|FE-0|DA/DE
22831|22831006| |Foucher|N,X+2-HE-4|N|FE-0|DA/DE
22831|22831006| |Guertin|N,X+2-HE-4|N|FE-0|DA/DE
22831|22831006| |Haddad|N,X+2-HE-4|N|FE-0|DA/DE
22831|22831006| |Hildebrand|N,X+2-HE-4|N|FE-0|DA/DE
22831|22831006| |Johansson|N,X+2-HE-4|N|FE-0|DA/DE
22831|22831006| |Jonsson|N,X+2-HE-4|N|FE-0|DA/DE
22831|22831006| |Kerveno|N,X+2-HE-4|N|FE-0|DA/DE
22831|22831006| |Kirchner|N,X+2-HE-4|N|FE-0|DA/DE
22831|22831006| |Klug|N,X+2-HE-4|N|FE-0|DA/DE
22831|22831006| |Le Brun|N,X+2-HE-4|N|FE-0|DA/DE
22831|22831006| |Lebrun|N,X+2-HE-4|N|FE-0|DA/DE
22831|22831006| |Louvel|N,X+2-HE-4|N|FE-0|DA/DE
22831|22831006| |Nadel-Turonski|N,X+2-HE-4|N|FE-0|DA/DE
22831|22831006| |Nilsson|N,X+2-HE-4|N|FE-0|DA/DE
22831|22831006| |Olsson|N,X+2-HE-4|N|FE-0|DA/DE
22831|22831006| |Pomp|N,X+2-HE-4|N|FE-0|DA/DE
22831|22831006| |Prokofiev|N,X+2-HE-4|N|FE-0|DA/DE
22831|22831006| |Renberg|N,X+2-HE-4|N|FE-0|DA/DE
22831|22831006| |Riviere|N,X+2-HE-4|N|FE-0|DA/DE
22831|22831006| |Slypen|N,X+2-HE-4|N|FE-0|DA/DE
22831|22831006| |Stuttge|N,X+2-HE-4|N|FE-0|DA/DE
22831|22831006| |Tippawan|N,X+2-HE-4|N|FE-0|DA/DE
22831|22831006| |Oesterlund|N,X+2-HE-4|N|FE-0|DA/DE
22831|22831007| |Blideanu|N,X+1-H-1|N|PB-0|DA/DE
22831|22831007| |Lecolley|N,X+1-H-1|N|PB-0|DA/DE
22831|22831007| |Lefort|N,X+1-H-1|N|PB-0|DA/DE
22831|22831007| |Marie|N,X+1-H-1|N|PB-0|DA/DE
22831|22831007| |Atac|N,X+1-H-1|N|PB-0|DA/DE
22831|22831007| |Ban|N,X+1-H-1|N|PB-0|DA/DE
22831|22831007| |Bergenwall|N,X+1-H-1|N|PB-0|DA/DE
22831|22831007| |Blomgren|N,X+1-H-1|N|PB-0|DA/DE
22831|22831007| |Dangtip|N,X+1-H-1|N|PB-0|DA/DE
22831|22831007| |Elmgren|N,X+1-H-1|N|PB-0|DA/DE
22831|22831007| |Eudes|N,X+1-H-1|N|PB-0|DA/DE"
/-- rows of x4i3/tests/data/index.tbl -/
def rows4 : String := "22831|22831007| |Foucher|N,X+1-H-1|N|PB-0|DA/DE
22831|22831007| |Guertin|N,X+1-H-1|N|PB-0|DA/DE
22831|22831007| |Haddad|N,X+1-H-1|N|PB-0|DA/DE
22831|22831007| |Hildebrand|N,X+1-H-1|N|PB-0|DA/DE
22831|22831007| |Johansson|N,X+1-H-1|N|PB-0|DA/DE
22831|22831007| |Jonsson|N,X+1-H-1|N|PB-0|DA/DE
22831|22831007| |Kerveno|N,X+1-H-1|N|PB-0|DA/DE
22831|22831007| |Kirchner|N,X+1-H-1|N|PB-0|DA/DE
22831|22831007| |Klug|N,X+1-H-1|N|PB-0|DA/DE
22831|22831007| |Le Brun|N,X+1-H-1|N|PB-0|DA/DE
22831|22831007| |Lebrun|N,X+1-H-1|N|PB-0|DA/DE
22831|22831007| |Louvel|N,X+1-H-1|N|PB-0|DA/DE
22831|22831007| |Nadel-Turonski|N,X+1-H-1|N|PB-0|DA/DE
22831|22831007| |Nilsson|N,X+1-H-1|N|PB-0|DA/DE
22831|22831007| |Olsson|N,X+1-H-1|N|PB-0|DA/DE
22831|22831007| |Pomp|N,X+1-H-1|N|PB-0|DA/DE
22831|22831007| |Prokofiev|N,X+1-H-1|N|PB-0|DA/DE
22831|22831007| |Renberg|N,X+1-H-1|N|PB-0|DA/DE
22831|22831007| |Riviere|N,X+1-H-1|N|PB-0|DA/DE
22831|22831007| |Slypen|N,X+1-H-1|N|PB-0|DA/DE
22831|22831007| |Stuttge|N,X+1-H-1|N|PB-0|DA/DE
22831|22831007| |Tippawan|N,X+1-H-1|N|PB-0|DA/DE
22831|22831007| |Oesterlund|N,X+1-H-1|N|PB-0|DA/DE
22831|22831008| |Blideanu|N,X+1-H-2|N|PB-0|DA/DE
22831|22831008| |Lecolley|N,X+1-H-2|N|PB-0|DA/DE
22831|22831008| |Lefort|N,X+1-H-2|N|PB-0|DA/DE
22831|22831008| |Marie|N,X+1-H-2|N|PB-0|DA/DE
22831|22831008| |Atac|N,X+1-H-2|N|PB-0|DA/DE
22831|22831008| |Ban|N,X+1-H-2|N|PB-0|DA/DE
22831|22831008| |Bergenwall|N,X+1-H-2|N|PB-0|DA/DE
22831|22831008| |Blomgren|N,X+1-H-2|N|PB-0|DA/DE
22831|22831008| |Dangtip|N,X+1-H-2|N|PB-0|DA/DE
22831|22831008| |Elmgren|N,X+1-H-2|N|PB-0|DA/DE
22831|22831008| |Eudes|N,X+1-H-2|N|PB-0|DA/DE
22831|22831008| |Foucher|N,X+1-H-2|N|PB-0|DA/DE
22831|22831008| |Guertin|N,X+1-H-2|N|PB-0|DA/DE
22831|22831008| |Haddad|N,X+1-H-2|N|PB-0|DA/DE
22831|22831008| |Hildebrand|N,X+1-H-2|N|PB-0|DA/DE
22831|22831008| |Johansson|N,X+1-H-2|N|PB-0|DA/DE
22831|22831008| |Jonsson|N,X+1-H-2|N|PB-0|DA/DE
22831|22831008| |Kerveno|N,X+1-H-2|N|PB-0|DA/DE
22831|22831008| |Kirchner|N,X+1-H-2|N|PB-0|DA/DE
22831|22831008| |Klug|N,X+1-H-2|N|PB-0|DA/DE
22831|22831008| |Le Brun|N,X+1-H-2|N|PB-0|DA/DE
22831|22831008| |Lebrun|N,X+1-H-2|N|PB-0|DA/DE
22831|22831008| |Louvel|N,X+1-H-2|N|PB-0|DA/DE
22831|22831008| |Nadel-Turonski|N,X+1-H-2|N|PB-0|DA/DE
22831|22831008| |Nilsson|N,X+1-H-2|N|PB-0|DA/DE
22831|22831008| |Olsson|N,X+1-H-2|N|PB-0|DA/DE
22831|22831008| |Pomp|N,X+1-H-2|N|PB-0|DA/DE
22831|22831008| |Prokofiev|N,X+1-H-2|N|PB-0|DA/DE
22831|22831008| |Renberg|N,X+1-H-2|N|PB-0|DA/DE
22831|22831008| |Riviere|N,X+1-H-2|N|PB-0|DA/DE
22831|22831008| |Slypen|N,X+1-H-2|N|PB-0|DA/DE
22831|22831008| |Stuttge|N,X+1-H-2|N|PB-0|DA/DE
22831|22831008| |Tippawan|N,X+1-H-2|N|PB-0|DA/DE
22831|22831008| |Oesterlund|N,X+1-H-2|N|PB-0|DA/DE
22831|22831009| |Blideanu|N,X+1-H-3|N|PB-0|DA/DE
22831|22831009| |Lecolley|N,X+1-H-3|N|PB-0|DA/DE
22831|22831009| |Lefort|N,X+1-H-3|N|PB-0|DA/DE
22831|22831009| |Marie|N,X+1-H-3|N|PB-0|DA/DE
22831|22831009| |Atac|N,X+1-H-3|N|PB-0|DA/DE
22831|22831009| |Ban|N,X+1-H-3|N|PB-0|DA/DE
22831|22831009| |Bergenwall|N,X+1-H-3|N|PB-0|DA/DE
22831|22831009| |Blomgren|N,X+1-H-3|N|PB-0|DA/DE
22831|22831009| |Dangtip|N,X+1-H-3|N|PB-0|DA/DE
22831|22831009| |Elmgren|N,X+1-H-3|N|PB-0|DA/DE
22831|22831009| |Eudes|N,X+1-H-3|N|PB-0|DA/DE
22831|22831009| |Foucher|N,X+1-H-3|N|PB-0|DA/DE
22831|22831009| |Guertin|N,X+1-H-3|N|PB-0|DA/DE
22831|22831009| |Haddad|N,X+1-H-3|N|PB-0|DA/DE
22831|22831009| |Hildebrand|N,X+1-H-3|N|PB-0|DA/DE
22831|22831009| |Johansson|N,X+1-H-3|N|PB-0|DA/DE
22831|22831009| |Jonsson|N,X+1-H-3|N|PB-0|DA/DE
22831|22831009| |Kerveno|N,X+1-H-3|N|PB-0|DA/DE
22831|22831009| |Kirchner|N,X+1-H-3|N|PB-0|DA/DE
22831|22831009| |Klug|N,X+1-H-3|N|PB-0|DA/DE
22831|22831009| |Le Brun|N,X+1-H-3|N|PB-0|DA/DE
22831|22831009| |Lebrun|N,X+1-H-3|N|PB-0|DA/DE
22831|22831009| |Louvel|N,X+1-H-3|N|PB-0|DA/DE
22831|22831009| |Nadel-Turonski|N,X+1-H-3|N|PB-0|DA/DE
22831|22831009| |Nilsson|N,X+1-H-3|N|PB-0|DA/DE
22831|22831009| |Olsson|N,X+1-H-3|N|PB-0|DA/DE
22831|22831009| |Pomp|N,X+1-H-3|N|PB-0|DA/DE
22831|22831009| |Prokofiev|N,X+1-H-3|N|PB-0|DA/DE
22831|22831009| |Renberg|N,X+1-H-3|N|PB-0|DA/DE
22831|22831009| |Riviere|N,X+1-H-3|N|PB-0|DA/DE
22831|22831009| |Slypen|N,X+1-H-3|N|PB-0|DA/DE
22831|22831009| |Stuttge|N,X+1-H-3|N|PB-0|DA/DE
22831|22831009| |Tippawan|N,X+1-H-3|N|PB-0|DA/DE
22831|22831009| |Oesterlund|N,X+1-H-3|N|PB-0|DA/DE
22831|22831010| |Blideanu|N,X+2-HE-4|N|PB-0|DA/DE
22831|22831010| |Lecolley|N,X+2-HE-4|N|PB-0|DA/DE
22831|22831010| |Lefort|N,X+2-HE-4|N|PB-0|DA/DE
22831|22831010| |Marie|N,X+2-HE-4|N|PB-0|DA/DE
22831|22831010| |Atac|N,X+2-HE-4|N|PB-0|DA/DE
22831|22831010| |Ban|N,X+2-HE-4|N|PB-0|DA/DE
22831|22831010| |Bergenwall|N,X+2-HE-4|N|PB-0|DA/DE
22831|22831010| |Blomgren|N,X+2-HE-4|N|PB-0|DA/DE
22831|22831010| |Dangtip|N,X+2-HE-4|N|PB-0|DA/DE
22831|22831010| |Elmgren|N,X+2-HE-4|N|PB-0|DA/DE
22831|22831010| |Eudes|N,X+2-HE-4|N|PB-0|DA/DE
22831|22831010| |Foucher|N,X+2-HE-4|N|PB-0|DA/DE
22831|22831010| |Guertin|N,X+2-HE-4|N|PB-0|DA/DE
22831|22831010| |Haddad|N,X+2-HE-4|N|PB-0|DA/DE
22831|22831010| |Hildebrand|N,X+2-HE-4|N|PB-0|DA/DE
22831|22831010| |Johansson|N,X+2-HE-4|N|PB-0|DA/DE
22831|22831010| |Jonsson|N,X+2-HE-4|N|PB-0|DA/DE
22831|22831010| |Kerveno|N,X+2-HE-4|N|PB-0|DA/DE
22831|22831010| |Kirchner|N,X+2-HE-4|N|PB-0|DA/DE
22831|22831010| |Klug|N,X+2-HE-4|N|PB-0|DA/DE
22831|22831010| |Le Brun|N,X+2-HE-4|N|PB-0|DA/DE
22831|22831010| |Lebrun|N,X+2-HE-4|N|PB-0|DA/DE
22831|22831010| |Louvel|N,X+2-HE-4|N|PB-0|DA/DE
22831|22831010| |Nadel-Turonski|N,X+2-HE-4|N|PB-0|DA/DE
22831|22831010| |Nilsson|N,X+2-HE-4|N|PB-0|DA/DE
22831|22831010| |Olsson|N,X+2-HE-4|N|PB-0|DA/DE
22831|22831010| |Pomp|N,X+2-HE-4|N|PB-0|DA/DE
22831|22831010| |Prokofiev|N,X+2-HE-4|N|PB-0|DA/DE
22831|22831010| |Renberg|N,X+2-HE-4|N|PB-0|DA/DE
22831|22831010| |Riviere|N,X+2-HE-4|N|PB-0|DA/DE
22831|22831010| |Slypen|N,X+2-HE-4|N|PB-0|DA/DE
22831|22831010| |Stuttge|N,X+2-HE-4|N|PB-0|DA/DE
22831|22831010| |Tippawan|N,X+2-HE-4|N|PB-0|DA/DE
22831|22831010| |Oesterlund|N,X+2-HE-4|N|PB-0|DA/DE
22831|22831011| |Blideanu|N,X+1-H-1|N|U-0|DA/DE
22831|22831011| |Lecolley|N,X+1-H-1|N|U-0|DA/DE
22831|22831011| |Lefort|N,X+1-H-1|N|U-0|DA/DE
22831|22831011| |Marie|N,X+1-H-1|N|U-0|DA/DE
22831|22831011| |Atac|N,X+1-H-1|N|U-0|DA/DE
22831|22831011| |Ban|N,X+1-H-1|N|U-0|DA/DE
22831|22831011| |Bergenwall|N,X+1-H-1|N|U-0|DA/DE
22831|22831011| |Blomgren|N,X+1-H-1|N|U-0|DA/DE
22831|22831011| |Dangtip|N,X+1-H-1|N|U-0|DA/DE
22831|22831011| |Elmgren|N,X+1-H-1|N|U-0|DA/DE
22831|22831011| |Eudes|N,X+1-H-1|N|U-0|DA/DE
22831|22831011| |Foucher|N,X+1-H-1|N|U-0|DA/DE
22831|22831011| |Guertin|N,X+1-H-1|N|U-0|DA/DE
22831|22831011| |Haddad|N,X+1-H-1|N|U-0|DA/DE
22831|22831011| |Hildebrand|N,X+1-H-1|N|U-0|DA/DE
22831|22831011| |Johansson|N,X+1-H-1|N|U-0|DA/DE
22831|22831011| |Jonsson|N,X+1-H-1|N|U-0|DA/DE
22831|22831011| |Kerveno|N,X+1-H-1|N|U-0|DA/DE
22831|22831011| |Kirchner|N,X+1-H-1|N|U-0|DA/DE
22831|22831011| |Klug|N,X+1-H-1|N|U-0|DA/DE
22831|22831011| |Le Brun|N,X+1-H-1|N|U-0|DA/DE
22831|22831011| |Lebrun|N,X+1-H-1|N|U-0|DA/DE
22831|22831011| |Louvel|N,X+1-H-1|N|U-0|DA/DE
22831|22831011| |Nadel-Turonski|N,X+1-H-1|N|U-0|DA/DE
22831|22831011| |Nilsson|N,X+1-H-1|N|U-0|DA/DE
22831|22831011| |Olsson|N,X+1-H-1|N|U-0|DA/DE
22831|22831011| |Pomp|N,X+1-H-1|N|U-0|DA/DE
22831|22831011| |Prokofiev|N,X+1-H-1|N|U-0|DA/DE
22831|22831011| |Renberg|N,X+1-H-1|N|U-0|DA/DE
22831|22831011| |Riviere|N,X+1-H-1|N|U-0|DA/DE
22831|22831011| |Slypen|N,X+1-H-1|N|U-0|DA/DE
22831|22831011| |Stuttge|N,X+1-H-1|N|U-0|DA/DE
22831|22831011| |Tippawan|N,X+1-H-1|N|U-0|DA/DE
22831|22831011| |Oesterlund|N,X+1-H-1|N|U-0|DA/DE
22831|22831012| |Blideanu|N,X+1-H-2|N|U-0|DA/DE
22831|22831012| |Lecolley|N,X+1-H-2|N|U-0|DA/DE
22831|22831012| |Lefort|N,X+1-H-2|N|U-0|DA/DE
22831|22831012| |Marie|N,X+1-H-2|N|U-0|DA/DE
22831|22831012| |Atac|N,X+1-H-2|N|U-0|DA/DE
22831|22831012| |Ban|N,X+1-H-2|N|U-0|DA/DE
22831|22831012| |Bergenwall|N,X+1-H-2|N|U-0|DA/DE
22831|22831012| |Blomgren|N,X+1-H-2|N|U-0|DA/DE
22831|22831012| |Dangtip|N,X+1-H-2|N|U-0|DA/DE
22831|22831012| |Elmgren|N,X+1-H-2|N|U-0|DA/DE
22831|22831012| |Eudes|N,X+1-H-2|N|U-0|DA/DE
22831|22831012| |Foucher|N,X+1-H-2|N|U-0|DA/DE
22831|22831012| |Guertin|N,X+1-H-2|N|U-0|DA/DE
22831|22831012| |Haddad|N,X+1-H-2|N|U-0|DA/DE
22831|22831012| |Hildebrand|N,X+1-H-2|N|U-0|DA/DE
22831|22831012| |Johansson|N,X+1-H-2|N|U-0|DA/DE
22831|22831012| |Jonsson|N,X+1-H-2|N|U-0|DA/DE
22831|22831012| |Kerveno|N,X+1-H-2|N|U-0|DA/DE
22831|22831012| |Kirchner|N,X+1-H-2|N|U-0|DA/DE
22831|22831012| |Klug|N,X+1-H-2|N|U-0|DA/DE
22831|22831012| |Le Brun|N,X+1-H-2|N|U-0|DA/DE
22831|22831012| |Lebrun|N,X+1-H-2|N|U-0|DA/DE
22831|22831012| |Louvel|N,X+1-H-2|N|U-0|DA/DE
22831|22831012| |Nadel-Turonski|N,X+1-H-2|N|U-0|DA/DE
22831|22831012| |Nilsson|N,X+1-H-2|N|U-0|DA/DE
22831|22831012| |Olsson|N,X+1-H-2|N|U-0|DA/DE
22831|22831012| |Pomp|N,X+1-H-2|N|U-0|DA/DE
22831|22831012| |Prokofiev|N,X+1-H-2|N|U-0|DA/DE
22831|22831012| |Renberg|N,X+1-H-2|N|U-0|DA/DE
22831|22831012| |Riviere|N,X+1-H-2|N|U-0|DA/DE
22831|22831012| |Slypen|N,X+1-H-2|N|U-0|DA/DE
22831|22831012| |Stuttge|N,X+1-H-2|N|U-0|DA/DE
22831|22831012| |Tippawan|N,X+1-H-2|N|U-0|DA/DE
22831|22831012| |Oesterlund|N,X+1-H-2|N|U-0|DA/DE
22831|22831013| |Blideanu|N,X+1-H-3|N|U-0|DA/DE
22831|22831013| |Lecolley|N,X+1-H-3|N|U-0|DA/DE
22831|22831013| |Lefort|N,X+1-H-3|N|U-0|DA/DE
22831|22831013| |Marie|N,X+1-H-3|N|U-0|DA/DE
22831|22831013| |Atac|N,X+1-H-3|N|U-0|DA/DE
22831|22831013| |Ban|N,X+1-H-3|N|U-0|DA/DE
22831|22831013| |Bergenwall|N,X+1-H-3|N|U-0|DA/DE
22831|22831013| |Blomgren|N,X+1-H-3|N|U-0|DA/DE
22831|22831013| |Dangtip|N,X+1-H-3|N|U-0|DA/DE
22831|22831013| |Elmgren|N,X+1-H-3|N|U-0|DA/DE
22831|22831013| |Eudes|N,X+1-H-3|N|U-0|DA/DE
22831|22831013| |Foucher|N,X+1-H-3|N|U-0|DA/DE
22831|22831013| |Guertin|N,X+1-H-3|N|U-0|DA/DE
22831|22831013| |Haddad|N,X+1-H-3|N|U-0|DA/DE
22831|22831013| |Hildebrand|N,X+1-H-3|N|U-0|DA/DE
22831|22831013| |Johansson|N,X+1-H-3|N|U-0|DA/DE
22831|22831013| |Jonsson|N,X+1-H-3|N|U-0|DA/DE
22831|22831013| |Kerveno|N,X+1-H-3|N|U-0|DA/DE
22831|22831013| |Kirchner|N,X+1-H-3|N|U-0|DA/DE
22831|22831013| |Klug|N,X+1-H-3|N|U-0|DA/DE
22831|22831013| |Le Brun|N,X+1-H-3|N|U-0|DA/DE
22831|22831013| |Lebrun|N,X+1-H-3|N|U-0|DA/DE
22831|22831013| |Louvel|N,X+1-H-3|N|U-0|DA/DE
22831|22831013| |Nadel-Turonski|N,X+1-H-3|N|U-0|DA/DE
22831|22831013| |Nilsson|N,X+1-H-3|N|U-0|DA/DE
22831|22831013| |Olsson|N,X+1-H-3|N|U-0|DA/DE
22831|22831013| |Pomp|N,X+1-H-3|N|U-0|DA/DE
22831|22831013| |Prokofiev|N,X+1-H-3|N|U-0|DA/DE
22831|22831013| |Renberg|N,X+1-H-3|N|U-0|DA/DE
22831|22831013| |Riviere|N,X+1-H-3|N|U-0|DA/DE
22831|22831013| |Slypen|N,X+1-H-3|N|U-0|DA/DE
22831|22831013| |Stuttge|N,X+1-H-3|N|U-0|DA/DE
22831|22831013| |Tippawan|N,X+1-H-3|N|U-0|DA/DE
22831|22831013| |Oesterlund|N,X+1-H-3|N|U-0|DA/DE
22831|22831014| |Blideanu|N,X+2-HE-4|N|U-0|DA/DE
22831|22831014| |Lecolley|N,X+2-HE-4|N|U-0|DA/DE
22831|22831014| |Lefort|N,X+2-HE-4|N|U-0|DA/DE
22831|22831014| |Marie|N,X+2-HE-4|N|U-0|DA/DE
22831|22831014| |Atac|N,X+2-HE-4|N|U-0|DA/DE
22831|22831014| |Ban|N,X+2-HE-4|N|U-0|DA/DE
22831|22831014| |Bergenwall|N,X+2-HE-4|N|U-0|DA/DE
22831|22831014| |Blomgren|N,X+2-HE-4|N|U-0|DA/DE
22831|22831014| |Dangtip|N,X+2-HE-4|N|U-0|DA/DE
22831|22831014| |Elmgren|N,X+2-HE-4|N|U-0|DA/DE
22831|22831014| |Eudes|N,X+2-HE-4|N|U-0|DA/DE
22831|22831014| |Foucher|N,X+2-HE-4|N|U-0|DA/DE
22831|22831014| |Guertin|N,X+2-HE-4|N|U-0|DA/DE
22831|22831014| |Haddad|N,X+2-HE-4|N|U-0|DA/DE
22831|22831014| |Hildebrand|N,X+2-HE-4|N|U-0|DA/DE
22831|22831014| |Johansson|N,X+2-HE-4|N|U-0|DA/DE
22831|22831014| |Jonsson|N,X+2-HE-4|N|U-0|DA/DE
22831|22831014| |Kerveno|N,X+2-HE-4|N|U-0|DA/DE
22831|22831014| |Kirchner|N,X+2-HE-4|N|U-0|DA/DE
22831|22831014| |Klug|N,X+2-HE-4|N|U-0|DA/DE
22831|22831014| |Le Brun|N,X+2-HE-4|N|U-0|DA/DE
22831|22831014| |Lebrun|N,X+2-HE-4|N|U-0|DA/DE
22831|22831014| |Louvel|N,X+2-HE-4|N|U-0|DA/DE
22831|22831014| |Nadel-Turonski|N,X+2-HE-4|N|U-0|DA/DE
22831|22831014| |Nilsson|N,X+2-HE-4|N|U-0|DA/DE
22831|22831014| |Olsson|N,X+2-HE-4|N|U-0|DA/DE
22831|22831014| |Pomp|N,X+2-HE-4|N|U-0|DA/DE
22831|22831014| |Prokofiev|N,X+2-HE-4|N|U-0|DA/DE
22831|22831014| |Renberg|N,X+2-HE-4|N|U-0|DA/DE
22831|22831014| |Riviere|N,X+2-HE-4|N|U-0|DA/DE
22831|22831014| |Slypen|N,X+2-HE-4|N|U-0|DA/DE
22831|22831014| |Stuttge|N,X+2-HE-4|N|U-0|DA/DE
22831|22831014| |Tippawan|N,X+2-HE-4|N|U-0|DA/DE
22831|22831014| |Oesterlund|N,X+2-HE-4|N|U-0|DA/DE
22831|22831015| |Blideanu|N,X+1-H-1|N|FE-0|SIG
22831|22831015| |Lecolley|N,X+1-H-1|N|FE-0|SIG
22831|22831015| |Lefort|N,X+1-H-1|N|FE-0|SIG
22831|22831015| |Marie|N,X+1-H-1|N|FE-0|SIG
22831|22831015| |Atac|N,X+1-H-1|N|FE-0|SIG
22831|22831015| |Ban|N,X+1-H-1|N|FE-0|SIG
22831|22831015| |Bergenwall|N,X+1-H-1|N|FE-0|SIG
22831|22831015| |Blomgren|N,X+1-H-1|N|FE-0|SIG
22831|22831015| |Dangtip|N,X+1-H-1|N|FE-0|SIG
22831|22831015| |Elmgren|N,X+1-H-1|N|FE-0|SIG
22831|22831015| |Eudes|N,X+1-H-1|N|FE-0|SIG
22831|22831015| |Foucher|N,X+1-H-1|N|FE-0|SIG
22831|22831015| |Guertin|N,X+1-H-1|N|FE-0|SIG
22831|22831015| |Haddad|N,X+1-H-1|N|FE-0|SIG
22831|22831015| |Hildebrand|N,X+1-H-1|N|FE-0|SIG
22831|22831015| |Johansson|N,X+1-H-1|N|FE-0|SIG
22831|22831015| |Jonsson|N,X+1-H-1|N|FE-0|SIG
22831|22831015| |Kerveno|N,X+1-H-1|N|FE-0|SIG
22831|22831015| |Kirchner|N,X+1-H-1|N|FE-0|SIG
22831|22831015| |Klug|N,X+1-H-1|N|FE-0|SIG
22831|22831015| |Le Brun|N,X+1-H-1|N|FE-0|SIG
22831|22831015| |Lebrun|N,X+1-H-1|N|FE-0|SIG
22831|22831015| |Louvel|N,X+1-H-1|N|FE-0|SIG
22831|22831015| |Nadel-Turonski|N,X+1-H-1|N|FE-0|SIG
22831|22831015| |Nilsson|N,X+1-H-1|N|FE-0|SIG
22831|22831015| |Olsson|N,X+1-H-1|N|FE-0|SIG
22831|22831015| |Pomp|N,X+1-H-1|N|FE-0|SIG
22831|22831015| |Prokofiev|N,X+1-H-1|N|FE-0|SIG
22831|22831015| |Renberg|N,X+1-H-1|N|FE-0|SIG
22831|22831015| |Riviere|N,X+1-H-1|N|FE-0|SIG
22831|22831015| |Slypen|N,X+1-H-1|N|FE-0|SIG
22831|22831015| |Stuttge|N,X+1-H-1|N|FE-0|SIG
22831|22831015| |Tippawan|N,X+1-H-1|N|FE-0|SIG
22831|22831015| |Oesterlund|N,X+1-H-1|N|FE-0|SIG
22831|22831016| |Blideanu|N,X+1-H-2|N|FE-0|SIG
22831|22831016| |Lecolley|N,X+1-H-2|N|FE-0|SIG
22831|22831016| |Lefort|N,X+1-H-2|N|FE-0|SIG
22831|22831016| |Marie|N,X+1-H-2|N|FE-0|SIG
22831|22831016| |Atac|N,X+1-H-2|N|FE-0|SIG
22831|22831016| |Ban|N,X+1-H-2|N|FE-0|SIG
22831|22831016| |Bergenwall|N,X+1-H-2|N|FE-0|SIG
22831|22831016| |Blomgren|N,X+1-H-2|N|FE-0|SIG
22831|22831016| |Dangtip|N,X+1-H-2|N|FE-0|SIG
22831|22831016| |Elmgren|N,X+1-H-2|N|FE-0|SIG
22831|22831016| |Eudes|N,X+1-H-2|N|FE-0|SIG
22831|22831016| |Foucher|N,X+1-H-2|N|FE-0|SIG
22831|22831016| |Guertin|N,X+1-H-2|N|FE-0|SIG
22831|22831016| |Haddad|N,X+1-H-2|N|FE-0|SIG
22831|22831016| |Hildebrand|N,X+1-H-2|N|FE-0|SIG
22831|22831016| |Johansson|N,X+1-H-2|N|FE-0|SIG
22831|22831016| |Jonsson|N,X+1-H-2|N|FE-0|SIG
22831|22831016| |Kerveno|N,X+1-H-2|N|FE-0|SIG
22831|22831016| |Kirchner|N,X+1-H-2|N|FE-0|SIG
22831|22831016| |Klug|N,X+1-H-2|N|FE-0|SIG
22831|22831016| |Le Brun|N,X+1-H-2|N|FE-0|SIG
22831|22831016| |Lebrun|N,X+1-H-2|N|FE-0|SIG
22831|22831016| |Louvel|N,X+1-H-2|N|FE-0|SIG
22831|22831016| |Nadel-Turonski|N,X+1-H-2|N|FE-0|SIG
22831|22831016| |Nilsson|N,X+1-H-2|N|FE-0|SIG
22831|22831016| |Olsson|N,X+1-H-2|N|FE-0|SIG
22831|22831016| |Pomp|N,X+1-H-2|N|FE-0|SIG
22831|22831016| |Prokofiev|N,X+1-H-2|N|FE-0|SIG
22831|22831016| |Renberg|N,X+1-H-2|N|FE-0|SIG
22831|22831016| |Riviere|N,X+1-H-2|N|FE-0|SIG
22831|22831016| |Slypen|N,X+1-H-2|N|FE-0|SIG
22831|22831016| |Stuttge|N,X+1-H-2|N|FE-0|SIG
22831|22831016| |Tippawan|N,X+1-H-2|N|FE-0|SIG
22831|22831016| |Oesterlund|N,X+1-H-2|N|FE-0|SIG
22831|22831017| |Blideanu|N,X+1-H-3|N|FE-0|SIG
22831|22831017| |Lecolley|N,X+1-H-3|N|FE-0|SIG
22831|22831017| |Lefort|N,X+1-H-3|N|FE-0|SIG
22831|22831017| |Marie|N,X+1-H-3|N|FE-0|SIG
22831|22831017| |Atac|N,X+1-H-3|N|FE-0|SIG
22831|22831017| |Ban|N,X+1-H-3|N|FE-0|SIG
22831|22831017| |Bergenwall|N,X+1-H-3|N|FE-0|SIG
22831|22831017| |Blomgren|N,X+1-H-3|N|FE-0|SIG
22831|22831017| |Dangtip|N,X+1-H-3|N|FE-0|SIG
22831|22831017| |Elmgren|N,X+1-H-3|N|FE-0|SIG
22831|22831017| |Eudes|N,X+1-H-3|N|FE-0|SIG
22831|22831017| |Foucher|N,X+1-H-3|N|FE-0|SIG
22831|22831017| |Guertin|N,X+1-H-3|N|FE-0|SIG
22831|22831017| |Haddad|N,X+1-H-3|N|FE-0|SIG
22831|22831017| |Hildebrand|N,X+1-H-3|N|FE-0|SIG
22831|22831017| |Johansson|N,X+1-H-3|N|FE-0|SIG
22831|22831017| |Jonsson|N,X+1-H-3|N|FE-0|SIG
22831|22831017| |Kerveno|N,X+1-H-3|N|FE-0|SIG
22831|22831017| |Kirchner|N,X+1-H-3|N|FE-0|SIG
22831|22831017| |Klug|N,X+1-H-3|N|FE-0|SIG
22831|22831017| |Le Brun|N,X+1-H-3|N|FE-0|SIG
22831|22831017| |Lebrun|N,X+1-H-3|N|FE-0|SIG
22831|22831017| |Louvel|N,X+1-H-3|N|FE-0|SIG
22831|22831017| |Nadel-Turonski|N,X+1-H-3|N|FE-0|SIG
22831|22831017| |Nilsson|N,X+1-H-3|N|FE-0|SIG
22831|22831017| |Olsson|N,X+1-H-3|N|FE-0|SIG
22831|22831017| |Pomp|N,X+1-H-3|N|FE-0|SIG
22831|22831017| |Prokofiev|N,X+1-H-3|N|FE-0|SIG
22831|22831017| |Renberg|N,X+1-H-3|N|FE-0|SIG
22831|22831017| |Riviere|N,X+1-H-3|N|FE-0|SIG
22831|22831017| |Slypen|N,X+1-H-3|N|FE-0|SIG
22831|22831017| |Stuttge|N,X+1-H-3|N|FE-0|SIG
22831|22831017| |Tippawan|N,X+1-H-3|N|FE-0|SIG
22831|22831017| |Oesterlund|N,X+1-H-3|N|FE-0|SIG
22831|22831018| |Blideanu|N,X+2-HE-3|N|FE-0|SIG
22831|22831018| |Lecolley|N,X+2-HE-3|N|FE-0|SIG
22831|22831018| |Lefort|N,X+2-HE-3|N|FE-0|SIG
22831|22831018| |Marie|N,X+2-HE-3|N|FE-0|SIG
22831|22831018| |Atac|N,X+2-HE-3|N|FE-0|SIG
22831|22831018| |Ban|N,X+2-HE-3|N|FE-0|SIG
22831|22831018| |Bergenwall|N,X+2-HE-3|N|FE-0|SIG
22831|22831018| |Blomgren|N,X+2-HE-3|N|FE-0|SIG
22831|22831018| |Dangtip|N,X+2-HE-3|N|FE-0|SIG
22831|22831018| |Elmgren|N,X+2-HE-3|N|FE-0|SIG
22831|22831018| |Eudes|N,X+2-HE-3|N|FE-0|SIG
22831|22831018| |Foucher|N,X+2-HE-3|N|FE-0|SIG
22831|22831018| |Guertin|N,X+2-HE-3|N|FE-0|SIG
22831|22831018| |Haddad|N,X+2-HE-3|N|FE-0|SIG
22831|22831018| |Hildebrand|N,X+2-HE-3|N|FE-0|SIG
22831|22831018| |Johansson|N,X+2-HE-3|N|FE-0|SIG
22831|22831018| |Jonsson|N,X+2-HE-3|N|FE-0|SIG
22831|22831018| |Kerveno|N,X+2-HE-3|N|FE-0|SIG
22831|22831018| |Kirchner|N,X+2-HE-3|N|FE-0|SIG
22831|22831018| |Klug|N,X+2-HE-3|N|FE-0|SIG
22831|22831018| |Le Brun|N,X+2-HE-3|N|FE-0|SIG
22831|22831018| |Lebrun|N,X+2-HE-3|N|FE-0|SIG
22831|22831018| |Louvel|N,X+2-HE-3|N|FE-0|SIG
22831|22831018| |Nadel-Turonski|N,X+2-HE-3|N|FE-0|SIG
22831|22831018| |Nilsson|N,X+2-HE-3|N|FE-0|SIG
22831|22831018| |Olsson|N,X+2-HE-3|N|FE-0|SIG
22831|22831018| |Pomp|N,X+2-HE-3|N|FE-0|SIG
22831|22831018| |Prokofiev|N,X+2-HE-3|N|FE-0|SIG
22831|22831018| |Renberg|N,X+2-HE-3|N|FE-0|SIG
22831|22831018| |Riviere|N,X+2-HE-3|N|FE-0|SIG
22831|22831018| |Slypen|N,X+2-HE-3|N|FE-0|SIG
22831|22831018| |Stuttge|N,X+2-HE-3|N|FE-0|SIG
22831|22831018| |Tippawan|N,X+2-HE-3|N|FE-0|SIG
22831|22831018| |Oesterlund|N,X+2-HE-3|N|FE-0|SIG
22831|22831019| |Blideanu|N,X+2-HE-4|N|FE-0|SIG
22831|22831019| |Lecolley|N,X+2-HE-4|N|FE-0|SIG
22831|22831019| |Lefort|N,X+2-HE-4|N|FE-0|SIG"
/-- rows of x4i3/tests/data/index.tbl -/
def rows5 : String := "22831|22831019| |Marie|N,X+2-HE-4|N|FE-0|SIG
22831|22831019| |Atac|N,X+2-HE-4|N|FE-0|SIG
22831|22831019| |Ban|N,X+2-HE-4|N|FE-0|SIG
22831|22831019| |Bergenwall|N,X+2-HE-4|N|FE-0|SIG
22831|22831019| |Blomgren|N,X+2-HE-4|N|FE-0|SIG
22831|22831019| |Dangtip|N,X+2-HE-4|N|FE-0|SIG
22831|22831019| |Elmgren|N,X+2-HE-4|N|FE-0|SIG
22831|22831019| |Eudes|N,X+2-HE-4|N|FE-0|SIG
22831|22831019| |Foucher|N,X+2-HE-4|N|FE-0|SIG
22831|22831019| |Guertin|N,X+2-HE-4|N|FE-0|SIG
22831|22831019| |Haddad|N,X+2-HE-4|N|FE-0|SIG
22831|22831019| |Hildebrand|N,X+2-HE-4|N|FE-0|SIG
22831|22831019| |Johansson|N,X+2-HE-4|N|FE-0|SIG
22831|22831019| |Jonsson|N,X+2-HE-4|N|FE-0|SIG
22831|22831019| |Kerveno|N,X+2-HE-4|N|FE-0|SIG
22831|22831019| |Kirchner|N,X+2-HE-4|N|FE-0|SIG
22831|22831019| |Klug|N,X+2-HE-4|N|FE-0|SIG
22831|22831019| |Le Brun|N,X+2-HE-4|N|FE-0|SIG
22831|22831019| |Lebrun|N,X+2-HE-4|N|FE-0|SIG
22831|22831019| |Louvel|N,X+2-HE-4|N|FE-0|SIG
22831|22831019| |Nadel-Turonski|N,X+2-HE-4|N|FE-0|SIG
22831|22831019| |Nilsson|N,X+2-HE-4|N|FE-0|SIG
22831|22831019| |Olsson|N,X+2-HE-4|N|FE-0|SIG
22831|22831019| |Pomp|N,X+2-HE-4|N|FE-0|SIG
22831|22831019| |Prokofiev|N,X+2-HE-4|N|FE-0|SIG
22831|22831019| |Renberg|N,X+2-HE-4|N|FE-0|SIG
22831|22831019| |Riviere|N,X+2-HE-4|N|FE-0|SIG
22831|22831019| |Slypen|N,X+2-HE-4|N|FE-0|SIG
22831|22831019| |Stuttge|N,X+2-HE-4|N|FE-0|SIG
22831|22831019| |Tippawan|N,X+2-HE-4|N|FE-0|SIG
22831|22831019| |Oesterlund|N,X+2-HE-4|N|FE-0|SIG
22831|22831020| |Blideanu|N,X+1-H-1|N|PB-0|SIG
22831|22831020| |Lecolley|N,X+1-H-1|N|PB-0|SIG
22831|22831020| |Lefort|N,X+1-H-1|N|PB-0|SIG
22831|22831020| |Marie|N,X+1-H-1|N|PB-0|SIG
22831|22831020| |Atac|N,X+1-H-1|N|PB-0|SIG
22831|22831020| |Ban|N,X+1-H-1|N|PB-0|SIG
22831|22831020| |Bergenwall|N,X+1-H-1|N|PB-0|SIG
22831|22831020| |Blomgren|N,X+1-H-1|N|PB-0|SIG
22831|22831020| |Dangtip|N,X+1-H-1|N|PB-0|SIG
22831|22831020| |Elmgren|N,X+1-H-1|N|PB-0|SIG
22831|22831020| |Eudes|N,X+1-H-1|N|PB-0|SIG
22831|22831020| |Foucher|N,X+1-H-1|N|PB-0|SIG
22831|22831020| |Guertin|N,X+1-H-1|N|PB-0|SIG
22831|22831020| |Haddad|N,X+1-H-1|N|PB-0|SIG
22831|22831020| |Hildebrand|N,X+1-H-1|N|PB-0|SIG
22831|22831020| |Johansson|N,X+1-H-1|N|PB-0|SIG
22831|22831020| |Jonsson|N,X+1-H-1|N|PB-0|SIG
22831|22831020| |Kerveno|N,X+1-H-1|N|PB-0|SIG
22831|22831020| |Kirchner|N,X+1-H-1|N|PB-0|SIG
22831|22831020| |Klug|N,X+1-H-1|N|PB-0|SIG
22831|22831020| |Le Brun|N,X+1-H-1|N|PB-0|SIG
22831|22831020| |Lebrun|N,X+1-H-1|N|PB-0|SIG
22831|22831020| |Louvel|N,X+1-H-1|N|PB-0|SIG
22831|22831020| |Nadel-Turonski|N,X+1-H-1|N|PB-0|SIG
22831|22831020| |Nilsson|N,X+1-H-1|N|PB-0|SIG
22831|22831020| |Olsson|N,X+1-H-1|N|PB-0|SIG
22831|22831020| |Pomp|N,X+1-H-1|N|PB-0|SIG
22831|22831020| |Prokofiev|N,X+1-H-1|N|PB-0|SIG
22831|22831020| |Renberg|N,X+1-H-1|N|PB-0|SIG
22831|22831020| |Riviere|N,X+1-H-1|N|PB-0|SIG
22831|22831020| |Slypen|N,X+1-H-1|N|PB-0|SIG
22831|22831020| |Stuttge|N,X+1-H-1|N|PB-0|SIG
22831|22831020| |Tippawan|N,X+1-H-1|N|PB-0|SIG
22831|22831020| |Oesterlund|N,X+1-H-1|N|PB-0|SIG
22831|22831021| |Blideanu|N,X+1-H-2|N|PB-0|SIG
22831|22831021| |Lecolley|N,X+1-H-2|N|PB-0|SIG
22831|22831021| |Lefort|N,X+1-H-2|N|PB-0|SIG
22831|22831021| |Marie|N,X+1-H-2|N|PB-0|SIG
22831|22831021| |Atac|N,X+1-H-2|N|PB-0|SIG
22831|22831021| |Ban|N,X+1-H-2|N|PB-0|SIG
22831|22831021| |Bergenwall|N,X+1-H-2|N|PB-0|SIG
22831|22831021| |Blomgren|N,X+1-H-2|N|PB-0|SIG
22831|22831021| |Dangtip|N,X+1-H-2|N|PB-0|SIG
22831|22831021| |Elmgren|N,X+1-H-2|N|PB-0|SIG
22831|22831021| |Eudes|N,X+1-H-2|N|PB-0|SIG
22831|22831021| |Foucher|N,X+1-H-2|N|PB-0|SIG
22831|22831021| |Guertin|N,X+1-H-2|N|PB-0|SIG
22831|22831021| |Haddad|N,X+1-H-2|N|PB-0|SIG
22831|22831021| |Hildebrand|N,X+1-H-2|N|PB-0|SIG
22831|22831021| |Johansson|N,X+1-H-2|N|PB-0|SIG
22831|22831021| |Jonsson|N,X+1-H-2|N|PB-0|SIG
22831|22831021| |Kerveno|N,X+1-H-2|N|PB-0|SIG
22831|22831021| |Kirchner|N,X+1-H-2|N|PB-0|SIG
22831|22831021| |Klug|N,X+1-H-2|N|PB-0|SIG
22831|22831021| |Le Brun|N,X+1-H-2|N|PB-0|SIG
22831|22831021| |Lebrun|N,X+1-H-2|N|PB-0|SIG
22831|22831021| |Louvel|N,X+1-H-2|N|PB-0|SIG
22831|22831021| |Nadel-Turonski|N,X+1-H-2|N|PB-0|SIG
22831|22831021| |Nilsson|N,X+1-H-2|N|PB-0|SIG
22831|22831021| |Olsson|N,X+1-H-2|N|PB-0|SIG
22831|22831021| |Pomp|N,X+1-H-2|N|PB-0|SIG
22831|22831021| |Prokofiev|N,X+1-H-2|N|PB-0|SIG
22831|22831021| |Renberg|N,X+1-H-2|N|PB-0|SIG
22831|22831021| |Riviere|N,X+1-H-2|N|PB-0|SIG
22831|22831021| |Slypen|N,X+1-H-2|N|PB-0|SIG
22831|22831021| |Stuttge|N,X+1-H-2|N|PB-0|SIG
22831|22831021| |Tippawan|N,X+1-H-2|N|PB-0|SIG
22831|22831021| |Oesterlund|N,X+1-H-2|N|PB-0|SIG
22831|22831022| |Blideanu|N,X+1-H-3|N|PB-0|SIG
22831|22831022| |Lecolley|N,X+1-H-3|N|PB-0|SIG
22831|22831022| |Lefort|N,X+1-H-3|N|PB-0|SIG
22831|22831022| |Marie|N,X+1-H-3|N|PB-0|SIG
22831|22831022| |Atac|N,X+1-H-3|N|PB-0|SIG
22831|22831022| |Ban|N,X+1-H-3|N|PB-0|SIG
22831|22831022| |Bergenwall|N,X+1-H-3|N|PB-0|SIG
22831|22831022| |Blomgren|N,X+1-H-3|N|PB-0|SIG
22831|22831022| |Dangtip|N,X+1-H-3|N|PB-0|SIG
22831|22831022| |Elmgren|N,X+1-H-3|N|PB-0|SIG
22831|22831022| |Eudes|N,X+1-H-3|N|PB-0|SIG
22831|22831022| |Foucher|N,X+1-H-3|N|PB-0|SIG
22831|22831022| |Guertin|N,X+1-H-3|N|PB-0|SIG
22831|22831022| |Haddad|N,X+1-H-3|N|PB-0|SIG
22831|22831022| |Hildebrand|N,X+1-H-3|N|PB-0|SIG
22831|22831022| |Johansson|N,X+1-H-3|N|PB-0|SIG
22831|22831022| |Jonsson|N,X+1-H-3|N|PB-0|SIG
22831|22831022| |Kerveno|N,X+1-H-3|N|PB-0|SIG
22831|22831022| |Kirchner|N,X+1-H-3|N|PB-0|SIG
22831|22831022| |Klug|N,X+1-H-3|N|PB-0|SIG
22831|22831022| |Le Brun|N,X+1-H-3|N|PB-0|SIG
22831|22831022| |Lebrun|N,X+1-H-3|N|PB-0|SIG
22831|22831022| |Louvel|N,X+1-H-3|N|PB-0|SIG
22831|22831022| |Nadel-Turonski|N,X+1-H-3|N|PB-0|SIG
22831|22831022| |Nilsson|N,X+1-H-3|N|PB-0|SIG
22831|22831022| |Olsson|N,X+1-H-3|N|PB-0|SIG
22831|22831022| |Pomp|N,X+1-H-3|N|PB-0|SIG
22831|22831022| |Prokofiev|N,X+1-H-3|N|PB-0|SIG
22831|22831022| |Renberg|N,X+1-H-3|N|PB-0|SIG
22831|22831022| |Riviere|N,X+1-H-3|N|PB-0|SIG
22831|22831022| |Slypen|N,X+1-H-3|N|PB-0|SIG
22831|22831022| |Stuttge|N,X+1-H-3|N|PB-0|SIG
22831|22831022| |Tippawan|N,X+1-H-3|N|PB-0|SIG
22831|22831022| |Oesterlund|N,X+1-H-3|N|PB-0|SIG
22831|22831023| |Blideanu|N,X+2-HE-4|N|PB-0|SIG
22831|22831023| |Lecolley|N,X+2-HE-4|N|PB-0|SIG
22831|22831023| |Lefort|N,X+2-HE-4|N|PB-0|SIG
22831|22831023| |Marie|N,X+2-HE-4|N|PB-0|SIG
22831|22831023| |Atac|N,X+2-HE-4|N|PB-0|SIG
22831|22831023| |Ban|N,X+2-HE-4|N|PB-0|SIG
22831|22831023| |Bergenwall|N,X+2-HE-4|N|PB-0|SIG
22831|22831023| |Blomgren|N,X+2-HE-4|N|PB-0|SIG
22831|22831023| |Dangtip|N,X+2-HE-4|N|PB-0|SIG
22831|22831023| |Elmgren|N,X+2-HE-4|N|PB-0|SIG
22831|22831023| |Eudes|N,X+2-HE-4|N|PB-0|SIG
22831|22831023| |Foucher|N,X+2-HE-4|N|PB-0|SIG
22831|22831023| |Guertin|N,X+2-HE-4|N|PB-0|SIG
22831|22831023| |Haddad|N,X+2-HE-4|N|PB-0|SIG
22831|22831023| |Hildebrand|N,X+2-HE-4|N|PB-0|SIG
22831|22831023| |Johansson|N,X+2-HE-4|N|PB-0|SIG
22831|22831023| |Jonsson|N,X+2-HE-4|N|PB-0|SIG
22831|22831023| |Kerveno|N,X+2-HE-4|N|PB-0|SIG
22831|22831023| |Kirchner|N,X+2-HE-4|N|PB-0|SIG
22831|22831023| |Klug|N,X+2-HE-4|N|PB-0|SIG
22831|22831023| |Le Brun|N,X+2-HE-4|N|PB-0|SIG
22831|22831023| |Lebrun|N,X+2-HE-4|N|PB-0|SIG
22831|22831023| |Louvel|N,X+2-HE-4|N|PB-0|SIG
22831|22831023| |Nadel-Turonski|N,X+2-HE-4|N|PB-0|SIG
22831|22831023| |Nilsson|N,X+2-HE-4|N|PB-0|SIG
22831|22831023| |Olsson|N,X+2-HE-4|N|PB-0|SIG
22831|22831023| |Pomp|N,X+2-HE-4|N|PB-0|SIG
22831|22831023| |Prokofiev|N,X+2-HE-4|N|PB-0|SIG
22831|22831023| |Renberg|N,X+2-HE-4|N|PB-0|SIG
22831|22831023| |Riviere|N,X+2-HE-4|N|PB-0|SIG
22831|22831023| |Slypen|N,X+2-HE-4|N|PB-0|SIG
22831|22831023| |Stuttge|N,X+2-HE-4|N|PB-0|SIG
22831|22831023| |Tippawan|N,X+2-HE-4|N|PB-0|SIG
22831|22831023| |Oesterlund|N,X+2-HE-4|N|PB-0|SIG
22831|22831024| |Blideanu|N,X+1-H-1|N|U-0|SIG
22831|22831024| |Lecolley|N,X+1-H-1|N|U-0|SIG
22831|22831024| |Lefort|N,X+1-H-1|N|U-0|SIG
22831|22831024| |Marie|N,X+1-H-1|N|U-0|SIG
22831|22831024| |Atac|N,X+1-H-1|N|U-0|SIG
22831|22831024| |Ban|N,X+1-H-1|N|U-0|SIG
22831|22831024| |Bergenwall|N,X+1-H-1|N|U-0|SIG
22831|22831024| |Blomgren|N,X+1-H-1|N|U-0|SIG
22831|22831024| |Dangtip|N,X+1-H-1|N|U-0|SIG
22831|22831024| |Elmgren|N,X+1-H-1|N|U-0|SIG
22831|22831024| |Eudes|N,X+1-H-1|N|U-0|SIG
22831|22831024| |Foucher|N,X+1-H-1|N|U-0|SIG
22831|22831024| |Guertin|N,X+1-H-1|N|U-0|SIG
22831|22831024| |Haddad|N,X+1-H-1|N|U-0|SIG
22831|22831024| |Hildebrand|N,X+1-H-1|N|U-0|SIG
22831|22831024| |Johansson|N,X+1-H-1|N|U-0|SIG
22831|22831024| |Jonsson|N,X+1-H-1|N|U-0|SIG
22831|22831024| |Kerveno|N,X+1-H-1|N|U-0|SIG
22831|22831024| |Kirchner|N,X+1-H-1|N|U-0|SIG
22831|22831024| |Klug|N,X+1-H-1|N|U-0|SIG
22831|22831024| |Le Brun|N,X+1-H-1|N|U-0|SIG
22831|22831024| |Lebrun|N,X+1-H-1|N|U-0|SIG
22831|22831024| |Louvel|N,X+1-H-1|N|U-0|SIG
22831|22831024| |Nadel-Turonski|N,X+1-H-1|N|U-0|SIG
22831|22831024| |Nilsson|N,X+1-H-1|N|U-0|SIG
22831|22831024| |Olsson|N,X+1-H-1|N|U-0|SIG
22831|22831024| |Pomp|N,X+1-H-1|N|U-0|SIG
22831|22831024| |Prokofiev|N,X+1-H-1|N|U-0|SIG
22831|22831024| |Renberg|N,X+1-H-1|N|U-0|SIG
22831|22831024| |Riviere|N,X+1-H-1|N|U-0|SIG
22831|22831024| |Slypen|N,X+1-H-1|N|U-0|SIG
22831|22831024| |Stuttge|N,X+1-H-1|N|U-0|SIG
22831|22831024| |Tippawan|N,X+1-H-1|N|U-0|SIG
22831|22831024| |Oesterlund|N,X+1-H-1|N|U-0|SIG
22831|22831025| |Blideanu|N,X+1-H-2|N|U-0|SIG
22831|22831025| |Lecolley|N,X+1-H-2|N|U-0|SIG
22831|22831025| |Lefort|N,X+1-H-2|N|U-0|SIG
22831|22831025| |Marie|N,X+1-H-2|N|U-0|SIG
22831|22831025| |Atac|N,X+1-H-2|N|U-0|SIG
22831|22831025| |Ban|N,X+1-H-2|N|U-0|SIG
22831|22831025| |Bergenwall|N,X+1-H-2|N|U-0|SIG
22831|22831025| |Blomgren|N,X+1-H-2|N|U-0|SIG
22831|22831025| |Dangtip|N,X+1-H-2|N|U-0|SIG
22831|22831025| |Elmgren|N,X+1-H-2|N|U-0|SIG
22831|22831025| |Eudes|N,X+1-H-2|N|U-0|SIG
22831|22831025| |Foucher|N,X+1-H-2|N|U-0|SIG
22831|22831025| |Guertin|N,X+1-H-2|N|U-0|SIG
22831|22831025| |Haddad|N,X+1-H-2|N|U-0|SIG
22831|22831025| |Hildebrand|N,X+1-H-2|N|U-0|SIG
22831|22831025| |Johansson|N,X+1-H-2|N|U-0|SIG
22831|22831025| |Jonsson|N,X+1-H-2|N|U-0|SIG
22831|22831025| |Kerveno|N,X+1-H-2|N|U-0|SIG
22831|22831025| |Kirchner|N,X+1-H-2|N|U-0|SIG
22831|22831025| |Klug|N,X+1-H-2|N|U-0|SIG
22831|22831025| |Le Brun|N,X+1-H-2|N|U-0|SIG
22831|22831025| |Lebrun|N,X+1-H-2|N|U-0|SIG
22831|22831025| |Louvel|N,X+1-H-2|N|U-0|SIG
22831|22831025| |Nadel-Turonski|N,X+1-H-2|N|U-0|SIG
22831|22831025| |Nilsson|N,X+1-H-2|N|U-0|SIG
22831|22831025| |Olsson|N,X+1-H-2|N|U-0|SIG
22831|22831025| |Pomp|N,X+1-H-2|N|U-0|SIG
22831|22831025| |Prokofiev|N,X+1-H-2|N|U-0|SIG
22831|22831025| |Renberg|N,X+1-H-2|N|U-0|SIG
22831|22831025| |Riviere|N,X+1-H-2|N|U-0|SIG
22831|22831025| |Slypen|N,X+1-H-2|N|U-0|SIG
22831|22831025| |Stuttge|N,X+1-H-2|N|U-0|SIG
22831|22831025| |Tippawan|N,X+1-H-2|N|U-0|SIG
22831|22831025| |Oesterlund|N,X+1-H-2|N|U-0|SIG
22831|22831026| |Blideanu|N,X+1-H-3|N|U-0|SIG
22831|22831026| |Lecolley|N,X+1-H-3|N|U-0|SIG
22831|22831026| |Lefort|N,X+1-H-3|N|U-0|SIG
22831|22831026| |Marie|N,X+1-H-3|N|U-0|SIG
22831|22831026| |Atac|N,X+1-H-3|N|U-0|SIG
22831|22831026| |Ban|N,X+1-H-3|N|U-0|SIG
22831|22831026| |Bergenwall|N,X+1-H-3|N|U-0|SIG
22831|22831026| |Blomgren|N,X+1-H-3|N|U-0|SIG
22831|22831026| |Dangtip|N,X+1-H-3|N|U-0|SIG
22831|22831026| |Elmgren|N,X+1-H-3|N|U-0|SIG
22831|22831026| |Eudes|N,X+1-H-3|N|U-0|SIG
22831|22831026| |Foucher|N,X+1-H-3|N|U-0|SIG
22831|22831026| |Guertin|N,X+1-H-3|N|U-0|SIG
22831|22831026| |Haddad|N,X+1-H-3|N|U-0|SIG
22831|22831026| |Hildebrand|N,X+1-H-3|N|U-0|SIG
22831|22831026| |Johansson|N,X+1-H-3|N|U-0|SIG
22831|22831026| |Jonsson|N,X+1-H-3|N|U-0|SIG
22831|22831026| |Kerveno|N,X+1-H-3|N|U-0|SIG
22831|22831026| |Kirchner|N,X+1-H-3|N|U-0|SIG
22831|22831026| |Klug|N,X+1-H-3|N|U-0|SIG
22831|22831026| |Le Brun|N,X+1-H-3|N|U-0|SIG
22831|22831026| |Lebrun|N,X+1-H-3|N|U-0|SIG
22831|22831026| |Louvel|N,X+1-H-3|N|U-0|SIG
22831|22831026| |Nadel-Turonski|N,X+1-H-3|N|U-0|SIG
22831|22831026| |Nilsson|N,X+1-H-3|N|U-0|SIG
22831|22831026| |Olsson|N,X+1-H-3|N|U-0|SIG
22831|22831026| |Pomp|N,X+1-H-3|N|U-0|SIG
22831|22831026| |Prokofiev|N,X+1-H-3|N|U-0|SIG
22831|22831026| |Renberg|N,X+1-H-3|N|U-0|SIG
22831|22831026| |Riviere|N,X+1-H-3|N|U-0|SIG
22831|22831026| |Slypen|N,X+1-H-3|N|U-0|SIG
22831|22831026| |Stuttge|N,X+1-H-3|N|U-0|SIG
22831|22831026| |Tippawan|N,X+1-H-3|N|U-0|SIG
22831|22831026| |Oesterlund|N,X+1-H-3|N|U-0|SIG
22831|22831027| |Blideanu|N,X+2-HE-4|N|U-0|SIG
22831|22831027| |Lecolley|N,X+2-HE-4|N|U-0|SIG
22831|22831027| |Lefort|N,X+2-HE-4|N|U-0|SIG
22831|22831027| |Marie|N,X+2-HE-4|N|U-0|SIG
22831|22831027| |Atac|N,X+2-HE-4|N|U-0|SIG
22831|22831027| |Ban|N,X+2-HE-4|N|U-0|SIG
22831|22831027| |Bergenwall|N,X+2-HE-4|N|U-0|SIG
22831|22831027| |Blomgren|N,X+2-HE-4|N|U-0|SIG
22831|22831027| |Dangtip|N,X+2-HE-4|N|U-0|SIG
22831|22831027| |Elmgren|N,X+2-HE-4|N|U-0|SIG
22831|22831027| |Eudes|N,X+2-HE-4|N|U-0|SIG
22831|22831027| |Foucher|N,X+2-HE-4|N|U-0|SIG
22831|22831027| |Guertin|N,X+2-HE-4|N|U-0|SIG
22831|22831027| |Haddad|N,X+2-HE-4|N|U-0|SIG
22831|22831027| |Hildebrand|N,X+2-HE-4|N|U-0|SIG
22831|22831027| |Johansson|N,X+2-HE-4|N|U-0|SIG
22831|22831027| |Jonsson|N,X+2-HE-4|N|U-0|SIG
22831|22831027| |Kerveno|N,X+2-HE-4|N|U-0|SIG
22831|22831027| |Kirchner|N,X+2-HE-4|N|U-0|SIG
22831|22831027| |Klug|N,X+2-HE-4|N|U-0|SIG
22831|22831027| |Le Brun|N,X+2-HE-4|N|U-0|SIG
22831|22831027| |Lebrun|N,X+2-HE-4|N|U-0|SIG
22831|22831027| |Louvel|N,X+2-HE-4|N|U-0|SIG
22831|22831027| |Nadel-Turonski|N,X+2-HE-4|N|U-0|SIG
22831|22831027| |Nilsson|N,X+2-HE-4|N|U-0|SIG
22831|22831027| |Olsson|N,X+2-HE-4|N|U-0|SIG
22831|22831027| |Pomp|N,X+2-HE-4|N|U-0|SIG
22831|22831027| |Prokofiev|N,X+2-HE-4|N|U-0|SIG
22831|22831027| |Renberg|N,X+2-HE-4|N|U-0|SIG
22831|22831027| |Riviere|N,X+2-HE-4|N|U-0|SIG
22831|22831027| |Slypen|N,X+2-HE-4|N|U-0|SIG
22831|22831027| |Stuttge|N,X+2-HE-4|N|U-0|SIG
22831|22831027| |Tippawan|N,X+2-HE-4|N|U-0|SIG
22831|22831027| |Oesterlund|N,X+2-HE-4|N|U-0|SIG
22831|22831028| |Blideanu|N,X+1-H-1|N|FE-56|DE
22831|22831028| |Lecolley|N,X+1-H-1|N|FE-56|DE
22831|22831028| |Lefort|N,X+1-H-1|N|FE-56|DE
22831|22831028| |Marie|N,X+1-H-1|N|FE-56|DE
22831|22831028| |Atac|N,X+1-H-1|N|FE-56|DE
22831|22831028| |Ban|N,X+1-H-1|N|FE-56|DE
22831|22831028| |Bergenwall|N,X+1-H-1|N|FE-56|DE
22831|22831028| |Blomgren|N,X+1-H-1|N|FE-56|DE
22831|22831028| |Dangtip|N,X+1-H-1|N|FE-56|DE
22831|22831028| |Elmgren|N,X+1-H-1|N|FE-56|DE
22831|22831028| |Eudes|N,X+1-H-1|N|FE-56|DE
22831|22831028| |Foucher|N,X+1-H-1|N|FE-56|DE
22831|22831028| |Guertin|N,X+1-H-1|N|FE-56|DE
22831|22831028| |Haddad|N,X+1-H-1|N|FE-56|DE
22831|22831028| |Hildebrand|N,X+1-H-1|N|FE-56|DE
22831|22831028| |Johansson|N,X+1-H-1|N|FE-56|DE
22831|22831028| |Jonsson|N,X+1-H-1|N|FE-56|DE
22831|22831028| |Kerveno|N,X+1-H-1|N|FE-56|DE
22831|22831028| |Kirchner|N,X+1-H-1|N|FE-56|DE
22831|22831028| |Klug|N,X+1-H-1|N|FE-56|DE
22831|22831028| |Le Brun|N,X+1-H-1|N|FE-56|DE
22831|22831028| |Lebrun|N,X+1-H-1|N|FE-56|DE
22831|22831028| |Louvel|N,X+1-H-1|N|FE-56|DE
22831|22831028| |Nadel-Turonski|N,X+1-H-1|N|FE-56|DE
22831|22831028| |Nilsson|N,X+1-H-1|N|FE-56|DE
22831|22831028| |Olsson|N,X+1-H-1|N|FE-56|DE
22831|22831028| |Pomp|N,X+1-H-1|N|FE-56|DE
22831|22831028| |Prokofiev|N,X+1-H-1|N|FE-56|DE
22831|22831028| |Renberg|N,X+1-H-1|N|FE-56|DE
22831|22831028| |Riviere|N,X+1-H-1|N|FE-56|DE
22831|22831028| |Slypen|N,X+1-H-1|N|FE-56|DE
22831|22831028| |Stuttge|N,X+1-H-1|N|FE-56|DE
22831|22831028| |Tippawan|N,X+1-H-1|N|FE-56|DE
22831|22831028| |Oesterlund|N,X+1-H-1|N|FE-56|DE
22831|22831029| |Blideanu|N,X+1-H-2|N|FE-56|DE
22831|22831029| |Lecolley|N,X+1-H-2|N|FE-56|DE
22831|22831029| |Lefort|N,X+1-H-2|N|FE-56|DE
22831|22831029| |Marie|N,X+1-H-2|N|FE-56|DE
22831|22831029| |Atac|N,X+1-H-2|N|FE-56|DE
22831|22831029| |Ban|N,X+1-H-2|N|FE-56|DE
22831|22831029| |Bergenwall|N,X+1-H-2|N|FE-56|DE
22831|22831029| |Blomgren|N,X+1-H-2|N|FE-56|DE
22831|22831029| |Dangtip|N,X+1-H-2|N|FE-56|DE
22831|22831029| |Elmgren|N,X+1-H-2|N|FE-56|DE
22831|22831029| |Eudes|N,X+1-H-2|N|FE-56|DE
22831|22831029| |Foucher|N,X+1-H-2|N|FE-56|DE
22831|22831029| |Guertin|N,X+1-H-2|N|FE-56|DE
22831|22831029| |Haddad|N,X+1-H-2|N|FE-56|DE
22831|22831029| |Hildebrand|N,X+1-H-2|N|FE-56|DE
22831|22831029| |Johansson|N,X+1-H-2|N|FE-56|DE
22831|22831029| |Jonsson|N,X+1-H-2|N|FE-56|DE
22831|22831029| |Kerveno|N,X+1-H-2|N|FE-56|DE
22831|22831029| |Kirchner|N,X+1-H-2|N|FE-56|DE
22831|22831029| |Klug|N,X+1-H-2|N|FE-56|DE
22831|22831029| |Le Brun|N,X+1-H-2|N|FE-56|DE
22831|22831029| |Lebrun|N,X+1-H-2|N|FE-56|DE
22831|22831029| |Louvel|N,X+1-H-2|N|FE-56|DE
22831|22831029| |Nadel-Turonski|N,X+1-H-2|N|FE-56|DE
22831|22831029| |Nilsson|N,X+1-H-2|N|FE-56|DE
22831|22831029| |Olsson|N,X+1-H-2|N|FE-56|DE
22831|22831029| |Pomp|N,X+1-H-2|N|FE-56|DE
22831|22831029| |Prokofiev|N,X+1-H-2|N|FE-56|DE
22831|22831029| |Renberg|N,X+1-H-2|N|FE-56|DE
22831|22831029| |Riviere|N,X+1-H-2|N|FE-56|DE
22831|22831029| |Slypen|N,X+1-H-2|N|FE-56|DE
22831|22831029| |Stuttge|N,X+1-H-2|N|FE-56|DE
22831|22831029| |Tippawan|N,X+1-H-2|N|FE-56|DE
22831|22831029| |Oesterlund|N,X+1-H-2|N|FE-56|DE
22831|22831030| |Blideanu|N,X+1-H-3|N|FE-56|DE
22831|22831030| |Lecolley|N,X+1-H-3|N|FE-56|DE
22831|22831030| |Lefort|N,X+1-H-3|N|FE-56|DE
22831|22831030| |Marie|N,X+1-H-3|N|FE-56|DE
22831|22831030| |Atac|N,X+1-H-3|N|FE-56|DE
22831|22831030| |Ban|N,X+1-H-3|N|FE-56|DE
22831|22831030| |Bergenwall|N,X+1-H-3|N|FE-56|DE
22831|22831030| |Blomgren|N,X+1-H-3|N|FE-56|DE
22831|22831030| |Dangtip|N,X+1-H-3|N|FE-56|DE
22831|22831030| |Elmgren|N,X+1-H-3|N|FE-56|DE
22831|22831030| |Eudes|N,X+1-H-3|N|FE-56|DE
22831|22831030| |Foucher|N,X+1-H-3|N|FE-56|DE
22831|22831030| |Guertin|N,X+1-H-3|N|FE-56|DE
22831|22831030| |Haddad|N,X+1-H-3|N|FE-56|DE
22831|22831030| |Hildebrand|N,X+1-H-3|N|FE-56|DE
22831|22831030| |Johansson|N,X+1-H-3|N|FE-56|DE
22831|22831030| |Jonsson|N,X+1-H-3|N|FE-56|DE
22831|22831030| |Kerveno|N,X+1-H-3|N|FE-56|DE
22831|22831030| |Kirchner|N,X+1-H-3|N|FE-56|DE
22831|22831030| |Klug|N,X+1-H-3|N|FE-56|DE
22831|22831030| |Le Brun|N,X+1-H-3|N|FE-56|DE
22831|22831030| |Lebrun|N,X+1-H-3|N|FE-56|DE
22831|22831030| |Louvel|N,X+1-H-3|N|FE-56|DE
22831|22831030| |Nadel-Turonski|N,X+1-H-3|N|FE-56|DE
22831|22831030| |Nilsson|N,X+1-H-3|N|FE-56|DE
22831|22831030| |Olsson|N,X+1-H-3|N|FE-56|DE
22831|22831030| |Pomp|N,X+1-H-3|N|FE-56|DE
22831|22831030| |Prokofiev|N,X+1-H-3|N|FE-56|DE
22831|22831030| |Renberg|N,X+1-H-3|N|FE-56|DE"
/-- rows of x4i3/tests/data/index.tbl -/
def rows6 : String := "22831|22831030| |Riviere|N,X+1-H-3|N|FE-56|DE
22831|22831030| |Slypen|N,X+1-H-3|N|FE-56|DE
22831|22831030| |Stuttge|N,X+1-H-3|N|FE-56|DE
22831|22831030| |Tippawan|N,X+1-H-3|N|FE-56|DE
22831|22831030| |Oesterlund|N,X+1-H-3|N|FE-56|DE
22831|22831031| |Blideanu|N,X+2-HE-4|N|FE-56|DE
22831|22831031| |Lecolley|N,X+2-HE-4|N|FE-56|DE
22831|22831031| |Lefort|N,X+2-HE-4|N|FE-56|DE
22831|22831031| |Marie|N,X+2-HE-4|N|FE-56|DE
22831|22831031| |Atac|N,X+2-HE-4|N|FE-56|DE
22831|22831031| |Ban|N,X+2-HE-4|N|FE-56|DE
22831|22831031| |Bergenwall|N,X+2-HE-4|N|FE-56|DE
22831|22831031| |Blomgren|N,X+2-HE-4|N|FE-56|DE
22831|22831031| |Dangtip|N,X+2-HE-4|N|FE-56|DE
22831|22831031| |Elmgren|N,X+2-HE-4|N|FE-56|DE
22831|22831031| |Eudes|N,X+2-HE-4|N|FE-56|DE
22831|22831031| |Foucher|N,X+2-HE-4|N|FE-56|DE
22831|22831031| |Guertin|N,X+2-HE-4|N|FE-56|DE
22831|22831031| |Haddad|N,X+2-HE-4|N|FE-56|DE
22831|22831031| |Hildebrand|N,X+2-HE-4|N|FE-56|DE
22831|22831031| |Johansson|N,X+2-HE-4|N|FE-56|DE
22831|22831031| |Jonsson|N,X+2-HE-4|N|FE-56|DE
22831|22831031| |Kerveno|N,X+2-HE-4|N|FE-56|DE
22831|22831031| |Kirchner|N,X+2-HE-4|N|FE-56|DE
22831|22831031| |Klug|N,X+2-HE-4|N|FE-56|DE
22831|22831031| |Le Brun|N,X+2-HE-4|N|FE-56|DE
22831|22831031| |Lebrun|N,X+2-HE-4|N|FE-56|DE
22831|22831031| |Louvel|N,X+2-HE-4|N|FE-56|DE
22831|22831031| |Nadel-Turonski|N,X+2-HE-4|N|FE-56|DE
22831|22831031| |Nilsson|N,X+2-HE-4|N|FE-56|DE
22831|22831031| |Olsson|N,X+2-HE-4|N|FE-56|DE
22831|22831031| |Pomp|N,X+2-HE-4|N|FE-56|DE
22831|22831031| |Prokofiev|N,X+2-HE-4|N|FE-56|DE
22831|22831031| |Renberg|N,X+2-HE-4|N|FE-56|DE
22831|22831031| |Riviere|N,X+2-HE-4|N|FE-56|DE
22831|22831031| |Slypen|N,X+2-HE-4|N|FE-56|DE
22831|22831031| |Stuttge|N,X+2-HE-4|N|FE-56|DE
22831|22831031| |Tippawan|N,X+2-HE-4|N|FE-56|DE
22831|22831031| |Oesterlund|N,X+2-HE-4|N|FE-56|DE
22831|22831032| |Blideanu|N,X+1-H-1|N|PB-208|DE
22831|22831032| |Lecolley|N,X+1-H-1|N|PB-208|DE
22831|22831032| |Lefort|N,X+1-H-1|N|PB-208|DE
22831|22831032| |Marie|N,X+1-H-1|N|PB-208|DE
22831|22831032| |Atac|N,X+1-H-1|N|PB-208|DE
22831|22831032| |Ban|N,X+1-H-1|N|PB-208|DE
22831|22831032| |Bergenwall|N,X+1-H-1|N|PB-208|DE
22831|22831032| |Blomgren|N,X+1-H-1|N|PB-208|DE
22831|22831032| |Dangtip|N,X+1-H-1|N|PB-208|DE
22831|22831032| |Elmgren|N,X+1-H-1|N|PB-208|DE
22831|22831032| |Eudes|N,X+1-H-1|N|PB-208|DE
22831|22831032| |Foucher|N,X+1-H-1|N|PB-208|DE
22831|22831032| |Guertin|N,X+1-H-1|N|PB-208|DE
22831|22831032| |Haddad|N,X+1-H-1|N|PB-208|DE
22831|22831032| |Hildebrand|N,X+1-H-1|N|PB-208|DE
22831|22831032| |Johansson|N,X+1-H-1|N|PB-208|DE
22831|22831032| |Jonsson|N,X+1-H-1|N|PB-208|DE
22831|22831032| |Kerveno|N,X+1-H-1|N|PB-208|DE
22831|22831032| |Kirchner|N,X+1-H-1|N|PB-208|DE
22831|22831032| |Klug|N,X+1-H-1|N|PB-208|DE
22831|22831032| |Le Brun|N,X+1-H-1|N|PB-208|DE
22831|22831032| |Lebrun|N,X+1-H-1|N|PB-208|DE
22831|22831032| |Louvel|N,X+1-H-1|N|PB-208|DE
22831|22831032| |Nadel-Turonski|N,X+1-H-1|N|PB-208|DE
22831|22831032| |Nilsson|N,X+1-H-1|N|PB-208|DE
22831|22831032| |Olsson|N,X+1-H-1|N|PB-208|DE
22831|22831032| |Pomp|N,X+1-H-1|N|PB-208|DE
22831|22831032| |Prokofiev|N,X+1-H-1|N|PB-208|DE
22831|22831032| |Renberg|N,X+1-H-1|N|PB-208|DE
22831|22831032| |Riviere|N,X+1-H-1|N|PB-208|DE
22831|22831032| |Slypen|N,X+1-H-1|N|PB-208|DE
22831|22831032| |Stuttge|N,X+1-H-1|N|PB-208|DE
22831|22831032| |Tippawan|N,X+1-H-1|N|PB-208|DE
22831|22831032| |Oesterlund|N,X+1-H-1|N|PB-208|DE
22831|22831033| |Blideanu|N,X+1-H-2|N|PB-208|DE
22831|22831033| |Lecolley|N,X+1-H-2|N|PB-208|DE
22831|22831033| |Lefort|N,X+1-H-2|N|PB-208|DE
22831|22831033| |Marie|N,X+1-H-2|N|PB-208|DE
22831|22831033| |Atac|N,X+1-H-2|N|PB-208|DE
22831|22831033| |Ban|N,X+1-H-2|N|PB-208|DE
22831|22831033| |Bergenwall|N,X+1-H-2|N|PB-208|DE
22831|22831033| |Blomgren|N,X+1-H-2|N|PB-208|DE
22831|22831033| |Dangtip|N,X+1-H-2|N|PB-208|DE
22831|22831033| |Elmgren|N,X+1-H-2|N|PB-208|DE
22831|22831033| |Eudes|N,X+1-H-2|N|PB-208|DE
22831|22831033| |Foucher|N,X+1-H-2|N|PB-208|DE
22831|22831033| |Guertin|N,X+1-H-2|N|PB-208|DE
22831|22831033| |Haddad|N,X+1-H-2|N|PB-208|DE
22831|22831033| |Hildebrand|N,X+1-H-2|N|PB-208|DE
22831|22831033| |Johansson|N,X+1-H-2|N|PB-208|DE
22831|22831033| |Jonsson|N,X+1-H-2|N|PB-208|DE
22831|22831033| |Kerveno|N,X+1-H-2|N|PB-208|DE
22831|22831033| |Kirchner|N,X+1-H-2|N|PB-208|DE
22831|22831033| |Klug|N,X+1-H-2|N|PB-208|DE
22831|22831033| |Le Brun|N,X+1-H-2|N|PB-208|DE
22831|22831033| |Lebrun|N,X+1-H-2|N|PB-208|DE
22831|22831033| |Louvel|N,X+1-H-2|N|PB-208|DE
22831|22831033| |Nadel-Turonski|N,X+1-H-2|N|PB-208|DE
22831|22831033| |Nilsson|N,X+1-H-2|N|PB-208|DE
22831|22831033| |Olsson|N,X+1-H-2|N|PB-208|DE
22831|22831033| |Pomp|N,X+1-H-2|N|PB-208|DE
22831|22831033| |Prokofiev|N,X+1-H-2|N|PB-208|DE
22831|22831033| |Renberg|N,X+1-H-2|N|PB-208|DE
22831|22831033| |Riviere|N,X+1-H-2|N|PB-208|DE
22831|22831033| |Slypen|N,X+1-H-2|N|PB-208|DE
22831|22831033| |Stuttge|N,X+1-H-2|N|PB-208|DE
22831|22831033| |Tippawan|N,X+1-H-2|N|PB-208|DE
22831|22831033| |Oesterlund|N,X+1-H-2|N|PB-208|DE
22831|22831034| |Blideanu|N,X+1-H-3|N|PB-208|DE
22831|22831034| |Lecolley|N,X+1-H-3|N|PB-208|DE
22831|22831034| |Lefort|N,X+1-H-3|N|PB-208|DE
22831|22831034| |Marie|N,X+1-H-3|N|PB-208|DE
22831|22831034| |Atac|N,X+1-H-3|N|PB-208|DE
22831|22831034| |Ban|N,X+1-H-3|N|PB-208|DE
22831|22831034| |Bergenwall|N,X+1-H-3|N|PB-208|DE
22831|22831034| |Blomgren|N,X+1-H-3|N|PB-208|DE
22831|22831034| |Dangtip|N,X+1-H-3|N|PB-208|DE
22831|22831034| |Elmgren|N,X+1-H-3|N|PB-208|DE
22831|22831034| |Eudes|N,X+1-H-3|N|PB-208|DE
22831|22831034| |Foucher|N,X+1-H-3|N|PB-208|DE
22831|22831034| |Guertin|N,X+1-H-3|N|PB-208|DE
22831|22831034| |Haddad|N,X+1-H-3|N|PB-208|DE
22831|22831034| |Hildebrand|N,X+1-H-3|N|PB-208|DE
22831|22831034| |Johansson|N,X+1-H-3|N|PB-208|DE
22831|22831034| |Jonsson|N,X+1-H-3|N|PB-208|DE
22831|22831034| |Kerveno|N,X+1-H-3|N|PB-208|DE
22831|22831034| |Kirchner|N,X+1-H-3|N|PB-208|DE
22831|22831034| |Klug|N,X+1-H-3|N|PB-208|DE
22831|22831034| |Le Brun|N,X+1-H-3|N|PB-208|DE
22831|22831034| |Lebrun|N,X+1-H-3|N|PB-208|DE
22831|22831034| |Louvel|N,X+1-H-3|N|PB-208|DE
22831|22831034| |Nadel-Turonski|N,X+1-H-3|N|PB-208|DE
22831|22831034| |Nilsson|N,X+1-H-3|N|PB-208|DE
22831|22831034| |Olsson|N,X+1-H-3|N|PB-208|DE
22831|22831034| |Pomp|N,X+1-H-3|N|PB-208|DE
22831|22831034| |Prokofiev|N,X+1-H-3|N|PB-208|DE
22831|22831034| |Renberg|N,X+1-H-3|N|PB-208|DE
22831|22831034| |Riviere|N,X+1-H-3|N|PB-208|DE
22831|22831034| |Slypen|N,X+1-H-3|N|PB-208|DE
22831|22831034| |Stuttge|N,X+1-H-3|N|PB-208|DE
22831|22831034| |Tippawan|N,X+1-H-3|N|PB-208|DE
22831|22831034| |Oesterlund|N,X+1-H-3|N|PB-208|DE
22831|22831035| |Blideanu|N,X+2-HE-4|N|PB-208|DE
22831|22831035| |Lecolley|N,X+2-HE-4|N|PB-208|DE
22831|22831035| |Lefort|N,X+2-HE-4|N|PB-208|DE
22831|22831035| |Marie|N,X+2-HE-4|N|PB-208|DE
22831|22831035| |Atac|N,X+2-HE-4|N|PB-208|DE
22831|22831035| |Ban|N,X+2-HE-4|N|PB-208|DE
22831|22831035| |Bergenwall|N,X+2-HE-4|N|PB-208|DE
22831|22831035| |Blomgren|N,X+2-HE-4|N|PB-208|DE
22831|22831035| |Dangtip|N,X+2-HE-4|N|PB-208|DE
22831|22831035| |Elmgren|N,X+2-HE-4|N|PB-208|DE
22831|22831035| |Eudes|N,X+2-HE-4|N|PB-208|DE
22831|22831035| |Foucher|N,X+2-HE-4|N|PB-208|DE
22831|22831035| |Guertin|N,X+2-HE-4|N|PB-208|DE
22831|22831035| |Haddad|N,X+2-HE-4|N|PB-208|DE
22831|22831035| |Hildebrand|N,X+2-HE-4|N|PB-208|DE
22831|22831035| |Johansson|N,X+2-HE-4|N|PB-208|DE
22831|22831035| |Jonsson|N,X+2-HE-4|N|PB-208|DE
22831|22831035| |Kerveno|N,X+2-HE-4|N|PB-208|DE
22831|22831035| |Kirchner|N,X+2-HE-4|N|PB-208|DE
22831|22831035| |Klug|N,X+2-HE-4|N|PB-208|DE
22831|22831035| |Le Brun|N,X+2-HE-4|N|PB-208|DE
22831|22831035| |Lebrun|N,X+2-HE-4|N|PB-208|DE
22831|22831035| |Louvel|N,X+2-HE-4|N|PB-208|DE
22831|22831035| |Nadel-Turonski|N,X+2-HE-4|N|PB-208|DE
22831|22831035| |Nilsson|N,X+2-HE-4|N|PB-208|DE
22831|22831035| |Olsson|N,X+2-HE-4|N|PB-208|DE
22831|22831035| |Pomp|N,X+2-HE-4|N|PB-208|DE
22831|22831035| |Prokofiev|N,X+2-HE-4|N|PB-208|DE
22831|22831035| |Renberg|N,X+2-HE-4|N|PB-208|DE
22831|22831035| |Riviere|N,X+2-HE-4|N|PB-208|DE
22831|22831035| |Slypen|N,X+2-HE-4|N|PB-208|DE
22831|22831035| |Stuttge|N,X+2-HE-4|N|PB-208|DE
22831|22831035| |Tippawan|N,X+2-HE-4|N|PB-208|DE
22831|22831035| |Oesterlund|N,X+2-HE-4|N|PB-208|DE
22831|22831036| |Blideanu|N,EL|N|H-1|DA
22831|22831036| |Lecolley|N,EL|N|H-1|DA
22831|22831036| |Lefort|N,EL|N|H-1|DA
22831|22831036| |Marie|N,EL|N|H-1|DA
22831|22831036| |Atac|N,EL|N|H-1|DA
22831|22831036| |Ban|N,EL|N|H-1|DA
22831|22831036| |Bergenwall|N,EL|N|H-1|DA
22831|22831036| |Blomgren|N,EL|N|H-1|DA
22831|22831036| |Dangtip|N,EL|N|H-1|DA
22831|22831036| |Elmgren|N,EL|N|H-1|DA
22831|22831036| |Eudes|N,EL|N|H-1|DA
22831|22831036| |Foucher|N,EL|N|H-1|DA
22831|22831036| |Guertin|N,EL|N|H-1|DA
22831|22831036| |Haddad|N,EL|N|H-1|DA
22831|22831036| |Hildebrand|N,EL|N|H-1|DA
22831|22831036| |Johansson|N,EL|N|H-1|DA
22831|22831036| |Jonsson|N,EL|N|H-1|DA
22831|22831036| |Kerveno|N,EL|N|H-1|DA
22831|22831036| |Kirchner|N,EL|N|H-1|DA
22831|22831036| |Klug|N,EL|N|H-1|DA
22831|22831036| |Le Brun|N,EL|N|H-1|DA
22831|22831036| |Lebrun|N,EL|N|H-1|DA
22831|22831036| |Louvel|N,EL|N|H-1|DA
22831|22831036| |Nadel-Turonski|N,EL|N|H-1|DA
22831|22831036| |Nilsson|N,EL|N|H-1|DA
22831|22831036| |Olsson|N,EL|N|H-1|DA
22831|22831036| |Pomp|N,EL|N|H-1|DA
22831|22831036| |Prokofiev|N,EL|N|H-1|DA
22831|22831036| |Renberg|N,EL|N|H-1|DA
22831|22831036| |Riviere|N,EL|N|H-1|DA
22831|22831036| |Slypen|N,EL|N|H-1|DA
22831|22831036| |Stuttge|N,EL|N|H-1|DA
22831|22831036| |Tippawan|N,EL|N|H-1|DA
22831|22831036| |Oesterlund|N,EL|N|H-1|DA
22886|22886002| |Johansson|N,EL|N|H-1|DA
22886|22886002| |Blomgren|N,EL|N|H-1|DA
22886|22886002| |Atac|N,EL|N|H-1|DA
22886|22886002| |Bergenwall|N,EL|N|H-1|DA
22886|22886002| |Dangtip|N,EL|N|H-1|DA
22886|22886002| |Elmgren|N,EL|N|H-1|DA
22886|22886002| |Hildebrand|N,EL|N|H-1|DA
22886|22886002| |Jonsson|N,EL|N|H-1|DA
22886|22886002| |Klug|N,EL|N|H-1|DA
22886|22886002| |Mermod|N,EL|N|H-1|DA
22886|22886002| |Nadel-Turonski|N,EL|N|H-1|DA
22886|22886002| |Nilsson|N,EL|N|H-1|DA
22886|22886002| |Olsson|N,EL|N|H-1|DA
22886|22886002| |Pomp|N,EL|N|H-1|DA
22886|22886002| |Prokofiev|N,EL|N|H-1|DA
22886|22886002| |Renberg|N,EL|N|H-1|DA
22886|22886002| |Tippawan|N,EL|N|H-1|DA
22886|22886002| |Oesterlund|N,EL|N|H-1|DA
22886|22886003| |Johansson|N,EL|N|H-1|DA
22886|22886003| |Blomgren|N,EL|N|H-1|DA
22886|22886003| |Atac|N,EL|N|H-1|DA
22886|22886003| |Bergenwall|N,EL|N|H-1|DA
22886|22886003| |Dangtip|N,EL|N|H-1|DA
22886|22886003| |Elmgren|N,EL|N|H-1|DA
22886|22886003| |Hildebrand|N,EL|N|H-1|DA
22886|22886003| |Jonsson|N,EL|N|H-1|DA
22886|22886003| |Klug|N,EL|N|H-1|DA
22886|22886003| |Mermod|N,EL|N|H-1|DA
22886|22886003| |Nadel-Turonski|N,EL|N|H-1|DA
22886|22886003| |Nilsson|N,EL|N|H-1|DA
22886|22886003| |Olsson|N,EL|N|H-1|DA
22886|22886003| |Pomp|N,EL|N|H-1|DA
22886|22886003| |Prokofiev|N,EL|N|H-1|DA
22886|22886003| |Renberg|N,EL|N|H-1|DA
22886|22886003| |Tippawan|N,EL|N|H-1|DA
22886|22886003| |Oesterlund|N,EL|N|H-1|DA
22914|22914002| |Mermod|N,EL|N|H-1|DA
22914|22914002| |Blomgren|N,EL|N|H-1|DA
22914|22914002| |Bergenwall|N,EL|N|H-1|DA
22914|22914002| |Hildebrand|N,EL|N|H-1|DA
22914|22914002| |Johansson|N,EL|N|H-1|DA
22914|22914002| |Klug|N,EL|N|H-1|DA
22914|22914002| |Nilsson|N,EL|N|H-1|DA
22914|22914002| |Olsson|N,EL|N|H-1|DA
22914|22914002| |Osterlund|N,EL|N|H-1|DA
22914|22914002| |Pomp|N,EL|N|H-1|DA
22914|22914002| |Tippawan|N,EL|N|H-1|DA
22914|22914002| |Jonsson|N,EL|N|H-1|DA
22914|22914002| |Prokofiev|N,EL|N|H-1|DA
22914|22914002| |Renberg|N,EL|N|H-1|DA
22914|22914002| |Nadel-Turonski|N,EL|N|H-1|DA
22914|22914002| |Maeda|N,EL|N|H-1|DA
22914|22914002| |Sakai|N,EL|N|H-1|DA
22914|22914002| |Tamii|N,EL|N|H-1|DA
22914|22914003| |Mermod|N,EL|N|H-2|DA
22914|22914003| |Blomgren|N,EL|N|H-2|DA
22914|22914003| |Bergenwall|N,EL|N|H-2|DA
22914|22914003| |Hildebrand|N,EL|N|H-2|DA
22914|22914003| |Johansson|N,EL|N|H-2|DA
22914|22914003| |Klug|N,EL|N|H-2|DA
22914|22914003| |Nilsson|N,EL|N|H-2|DA
22914|22914003| |Olsson|N,EL|N|H-2|DA
22914|22914003| |Osterlund|N,EL|N|H-2|DA
22914|22914003| |Pomp|N,EL|N|H-2|DA
22914|22914003| |Tippawan|N,EL|N|H-2|DA
22914|22914003| |Jonsson|N,EL|N|H-2|DA
22914|22914003| |Prokofiev|N,EL|N|H-2|DA
22914|22914003| |Renberg|N,EL|N|H-2|DA
22914|22914003| |Nadel-Turonski|N,EL|N|H-2|DA
22914|22914003| |Maeda|N,EL|N|H-2|DA
22914|22914003| |Sakai|N,EL|N|H-2|DA
22914|22914003| |Tamii|N,EL|N|H-2|DA
22949|22949002| |Kondo|N,X+2-HE-4|N|AL-27|DA/DE
22949|22949002| |Murata|N,X+2-HE-4|N|AL-27|DA/DE
22949|22949002| |Ochiai|N,X+2-HE-4|N|AL-27|DA/DE
22949|22949002| |Miyamaru|N,X+2-HE-4|N|AL-27|DA/DE
22949|22949002| |Kubota|N,X+2-HE-4|N|AL-27|DA/DE
22949|22949002| |Takagi|N,X+2-HE-4|N|AL-27|DA/DE
22949|22949002| |Shido|N,X+2-HE-4|N|AL-27|DA/DE
22949|22949002| |Takahashi|N,X+2-HE-4|N|AL-27|DA/DE
22949|22949002| |Nishitani|N,X+2-HE-4|N|AL-27|DA/DE
22949|22949003| |Kondo|N,X+2-HE-4|N|AL-27|DA
22949|22949003| |Murata|N,X+2-HE-4|N|AL-27|DA
22949|22949003| |Ochiai|N,X+2-HE-4|N|AL-27|DA
22949|22949003| |Miyamaru|N,X+2-HE-4|N|AL-27|DA
22949|22949003| |Kubota|N,X+2-HE-4|N|AL-27|DA
22949|22949003| |Takagi|N,X+2-HE-4|N|AL-27|DA
22949|22949003| |Shido|N,X+2-HE-4|N|AL-27|DA
22949|22949003| |Takahashi|N,X+2-HE-4|N|AL-27|DA
22949|22949003| |Nishitani|N,X+2-HE-4|N|AL-27|DA
22949|22949004| |Kondo|N,X+2-HE-4|N|AL-27|SIG
22949|22949004| |Murata|N,X+2-HE-4|N|AL-27|SIG
22949|22949004| |Ochiai|N,X+2-HE-4|N|AL-27|SIG
22949|22949004| |Miyamaru|N,X+2-HE-4|N|AL-27|SIG
22949|22949004| |Kubota|N,X+2-HE-4|N|AL-27|SIG
22949|22949004| |Takagi|N,X+2-HE-4|N|AL-27|SIG
22949|22949004| |Shido|N,X+2-HE-4|N|AL-27|SIG
22949|22949004| |Takahashi|N,X+2-HE-4|N|AL-27|SIG
22949|22949004| |Nishitani|N,X+2-HE-4|N|AL-27|SIG
22949|22949005| |Kondo|N,EL|N|H-1|DA
22949|22949005| |Murata|N,EL|N|H-1|DA
22949|22949005| |Ochiai|N,EL|N|H-1|DA
22949|22949005| |Miyamaru|N,EL|N|H-1|DA
22949|22949005| |Kubota|N,EL|N|H-1|DA
22949|22949005| |Takagi|N,EL|N|H-1|DA
22949|22949005| |Shido|N,EL|N|H-1|DA
22949|22949005| |Takahashi|N,EL|N|H-1|DA
22949|22949005| |Nishitani|N,EL|N|H-1|DA
30078|30078002| |Suhami|N,EL|N|H-1|DA
30078|30078002| |Fox|N,EL|N|H-1|DA
30162|30162002| |Greiner|N,EL|N|H-1|DA
30162|30162002| |Karge|N,EL|N|H-1|DA
30162|30162003| |Greiner|N,EL|N|H-1|DA
30162|30162003| |Karge|N,EL|N|H-1|DA
30327|30327002| |Czibok|N,EL|N|H-1|DA
30327|30327002| |Hrehuss|N,EL|N|H-1|DA
30327|30327002| |Kovacs|N,EL|N|H-1|DA
30327|30327002| |Nagy|N,EL|N|H-1|DA
30327|30327002| |Vinnay|N,EL|N|H-1|DA
30340|30340002| |Hrehuss|N,TOT|N|H-1|SIG
30340|30340002| |Czibok|N,TOT|N|H-1|SIG
30340|30340002| |Hrehuss|N,TOT|N|H-2|SIG
30340|30340002| |Czibok|N,TOT|N|H-2|SIG
30340|30340003| |Hrehuss|N,EL|N|H-1|DA
30340|30340003| |Czibok|N,EL|N|H-1|DA
30679|30679002| |Vincour|N,EL|N|H-1|DA
30679|30679002| |Bem|N,EL|N|H-1|DA
30679|30679002| |Kozma|N,EL|N|H-1|DA
30679|30679002| |Presperin|N,EL|N|H-1|DA
30679|30679003| |Vincour|N,EL|N|H-1|DA
30679|30679003| |Bem|N,EL|N|H-1|DA
30679|30679003| |Kozma|N,EL|N|H-1|DA
30679|30679003| |Presperin|N,EL|N|H-1|DA
30679|30679004| |Vincour|N,EL|N|H-1|DA
30679|30679004| |Bem|N,EL|N|H-1|DA
30679|30679004| |Kozma|N,EL|N|H-1|DA
30679|30679004| |Presperin|N,EL|N|H-1|DA
31048|31048002| |Basar|N,EL|N|H-1|DA
31048|31048003| |Basar|N,EL|N|H-2|DA
31048|31048004| |Basar|N,EL|N|H-3|DA
31048|31048005| |Basar|N,EL|N|H-3|DA
40121|40121002| |Panitkin|N,G|N|U-238|SIG
40121|40121002| |Tolstikov|N,G|N|U-238|SIG
40177|40177002| |Panitkin|N,G|N|U-238|SIG
40177|40177002| |Tolstikov|N,G|N|U-238|SIG
40177|40177003| |Panitkin|N,G|N|U-238|SIG
40177|40177003| |Tolstikov|N,G|N|U-238|SIG
40431|40431002| |Panitkin|N,G|N|U-238|SIG
40431|40431002| |Sherman|N,G|N|U-238|SIG
41202|41202002| |Kazarinov|N,EL|N|H-1|DA
41202|41202002| |Simonob|N,EL|N|H-1|DA
41206|41206002| |Golovin|N,EL|N|H-1|DA
41206|41206002| |Dzhelepov|N,EL|N|H-1|DA
41206|41206002| |Katyshev|N,EL|N|H-1|DA
41206|41206002| |Konin|N,EL|N|H-1|DA
41206|41206002| |Medved|N,EL|N|H-1|DA
41207|41207002| |Amaglobeli|N,EL|N|H-1|DA
41207|41207002| |Kazarinov|N,EL|N|H-1|DA
41209|41209002| |Kazarinov|N,EL|N|H-1|DA
41209|41209002| |Simonov|N,EL|N|H-1|DA
41209|41209003| |Kazarinov|N,TOT|N|H-1|SIG
41209|41209003| |Simonov|N,TOT|N|H-1|SIG
41224|41224002| |Kazarinov|N,EL|N|H-1|DA
41224|41224002| |Simonov|N,EL|N|H-1|DA
41224|41224003| |Kazarinov|N,EL|N|H-1|DA
41224|41224003| |Simonov|N,EL|N|H-1|DA
41335|41335002| |Panitkin|N,G|N|U-238|SIG
41335|41335002| |Stavisskiy|N,G|N|U-238|SIG
41335|41335002| |Tolstikov|N,G|N|U-238|SIG
C0606|C0606002| |Mitchell|P,EL|P|H-2|POL/DA
C0606|C0606003| |Mitchell|P,EL|P|H-2|POL/DA
C0606|C0606004| |Mitchell|D,P|D|H-1|POL/DA
C0606|C0606005|1|Mitchell|D,EL|D|H-1|POL/DA
C0606|C0606005|3|Mitchell|D,EL|D|H-1|POL/DA
C0606|C0606005|2|Mitchell|D,EL|D|H-1|POL/DA
C0606|C0606005|4|Mitchell|D,EL|D|H-1|POL/DA
C0801|C0801004| |Brune|P,EL|P|H-2|DA
C0801|C0801004| |Geist|P,EL|P|H-2|DA
C0801|C0801004| |Karwowski|P,EL|P|H-2|DA
C0801|C0801004| |Ludwig|P,EL|P|H-2|DA
C0801|C0801004| |Veal|P,EL|P|H-2|DA
C0801|C0801004| |Wood|P,EL|P|H-2|DA
C0801|C0801004| |Kievsky|P,EL|P|H-2|DA
C0801|C0801004| |Rosati|P,EL|P|H-2|DA
C0801|C0801004| |Viviani|P,EL|P|H-2|DA
C0801|C0801005| |Brune|P,EL|P|H-2|DA
C0801|C0801005| |Geist|P,EL|P|H-2|DA
C0801|C0801005| |Karwowski|P,EL|P|H-2|DA
C0801|C0801005| |Ludwig|P,EL|P|H-2|DA
C0801|C0801005| |Veal|P,EL|P|H-2|DA
C0801|C0801005| |Wood|P,EL|P|H-2|DA"
/-- rows of x4i3/tests/data/index.tbl -/
def rows7 : String := "C0801|C0801005| |Kievsky|P,EL|P|H-2|DA
C0801|C0801005| |Rosati|P,EL|P|H-2|DA
C0801|C0801005| |Viviani|P,EL|P|H-2|DA
C0801|C0801006| |Brune|P,EL|P|H-2|POL/DA
C0801|C0801006| |Geist|P,EL|P|H-2|POL/DA
C0801|C0801006| |Karwowski|P,EL|P|H-2|POL/DA
C0801|C0801006| |Ludwig|P,EL|P|H-2|POL/DA
C0801|C0801006| |Veal|P,EL|P|H-2|POL/DA
C0801|C0801006| |Wood|P,EL|P|H-2|POL/DA
C0801|C0801006| |Kievsky|P,EL|P|H-2|POL/DA
C0801|C0801006| |Rosati|P,EL|P|H-2|POL/DA
C0801|C0801006| |Viviani|P,EL|P|H-2|POL/DA
C0801|C0801007| |Brune|D,EL|D|H-1|POL/DA
C0801|C0801007| |Geist|D,EL|D|H-1|POL/DA
C0801|C0801007| |Karwowski|D,EL|D|H-1|POL/DA
C0801|C0801007| |Ludwig|D,EL|D|H-1|POL/DA
C0801|C0801007| |Veal|D,EL|D|H-1|POL/DA
C0801|C0801007| |Wood|D,EL|D|H-1|POL/DA
C0801|C0801007| |Kievsky|D,EL|D|H-1|POL/DA
C0801|C0801007| |Rosati|D,EL|D|H-1|POL/DA
C0801|C0801007| |Viviani|D,EL|D|H-1|POL/DA
C0801|C0801008| |Brune|D,EL|D|H-1|POL/DA
C0801|C0801008| |Geist|D,EL|D|H-1|POL/DA
C0801|C0801008| |Karwowski|D,EL|D|H-1|POL/DA
C0801|C0801008| |Ludwig|D,EL|D|H-1|POL/DA
C0801|C0801008| |Veal|D,EL|D|H-1|POL/DA
C0801|C0801008| |Wood|D,EL|D|H-1|POL/DA
C0801|C0801008| |Kievsky|D,EL|D|H-1|POL/DA
C0801|C0801008| |Rosati|D,EL|D|H-1|POL/DA
C0801|C0801008| |Viviani|D,EL|D|H-1|POL/DA
C0801|C0801009| |Brune|D,EL|D|H-1|POL/DA
C0801|C0801009| |Geist|D,EL|D|H-1|POL/DA
C0801|C0801009| |Karwowski|D,EL|D|H-1|POL/DA
C0801|C0801009| |Ludwig|D,EL|D|H-1|POL/DA
C0801|C0801009| |Veal|D,EL|D|H-1|POL/DA
C0801|C0801009| |Wood|D,EL|D|H-1|POL/DA
C0801|C0801009| |Kievsky|D,EL|D|H-1|POL/DA
C0801|C0801009| |Rosati|D,EL|D|H-1|POL/DA
C0801|C0801009| |Viviani|D,EL|D|H-1|POL/DA
C0801|C0801010| |Brune|D,EL|D|H-1|POL/DA
C0801|C0801010| |Geist|D,EL|D|H-1|POL/DA
C0801|C0801010| |Karwowski|D,EL|D|H-1|POL/DA
C0801|C0801010| |Ludwig|D,EL|D|H-1|POL/DA
C0801|C0801010| |Veal|D,EL|D|H-1|POL/DA
C0801|C0801010| |Wood|D,EL|D|H-1|POL/DA
C0801|C0801010| |Kievsky|D,EL|D|H-1|POL/DA
C0801|C0801010| |Rosati|D,EL|D|H-1|POL/DA
C0801|C0801010| |Viviani|D,EL|D|H-1|POL/DA
C0801|C0801011|1|Brune|P,EL|P|H-2|POL/DA
C0801|C0801011|1|Geist|P,EL|P|H-2|POL/DA
C0801|C0801011|1|Karwowski|P,EL|P|H-2|POL/DA
C0801|C0801011|1|Ludwig|P,EL|P|H-2|POL/DA
C0801|C0801011|1|Veal|P,EL|P|H-2|POL/DA
C0801|C0801011|1|Wood|P,EL|P|H-2|POL/DA
C0801|C0801011|1|Kievsky|P,EL|P|H-2|POL/DA
C0801|C0801011|1|Rosati|P,EL|P|H-2|POL/DA
C0801|C0801011|1|Viviani|P,EL|P|H-2|POL/DA
C0801|C0801011|3|Brune|P,EL|P|H-2|POL/DA
C0801|C0801011|3|Geist|P,EL|P|H-2|POL/DA
C0801|C0801011|3|Karwowski|P,EL|P|H-2|POL/DA
C0801|C0801011|3|Ludwig|P,EL|P|H-2|POL/DA
C0801|C0801011|3|Veal|P,EL|P|H-2|POL/DA
C0801|C0801011|3|Wood|P,EL|P|H-2|POL/DA
C0801|C0801011|3|Kievsky|P,EL|P|H-2|POL/DA
C0801|C0801011|3|Rosati|P,EL|P|H-2|POL/DA
C0801|C0801011|3|Viviani|P,EL|P|H-2|POL/DA
C0801|C0801011|2|Brune|P,EL|P|H-2|POL/DA
C0801|C0801011|2|Geist|P,EL|P|H-2|POL/DA
C0801|C0801011|2|Karwowski|P,EL|P|H-2|POL/DA
C0801|C0801011|2|Ludwig|P,EL|P|H-2|POL/DA
C0801|C0801011|2|Veal|P,EL|P|H-2|POL/DA
C0801|C0801011|2|Wood|P,EL|P|H-2|POL/DA
C0801|C0801011|2|Kievsky|P,EL|P|H-2|POL/DA
C0801|C0801011|2|Rosati|P,EL|P|H-2|POL/DA
C0801|C0801011|2|Viviani|P,EL|P|H-2|POL/DA
C0801|C0801012|1|Brune|P,EL|P|H-2|POL/DA
C0801|C0801012|1|Geist|P,EL|P|H-2|POL/DA
C0801|C0801012|1|Karwowski|P,EL|P|H-2|POL/DA
C0801|C0801012|1|Ludwig|P,EL|P|H-2|POL/DA
C0801|C0801012|1|Veal|P,EL|P|H-2|POL/DA
C0801|C0801012|1|Wood|P,EL|P|H-2|POL/DA
C0801|C0801012|1|Kievsky|P,EL|P|H-2|POL/DA
C0801|C0801012|1|Rosati|P,EL|P|H-2|POL/DA
C0801|C0801012|1|Viviani|P,EL|P|H-2|POL/DA
C0801|C0801012|3|Brune|P,EL|P|H-2|POL/DA
C0801|C0801012|3|Geist|P,EL|P|H-2|POL/DA
C0801|C0801012|3|Karwowski|P,EL|P|H-2|POL/DA
C0801|C0801012|3|Ludwig|P,EL|P|H-2|POL/DA
C0801|C0801012|3|Veal|P,EL|P|H-2|POL/DA
C0801|C0801012|3|Wood|P,EL|P|H-2|POL/DA
C0801|C0801012|3|Kievsky|P,EL|P|H-2|POL/DA
C0801|C0801012|3|Rosati|P,EL|P|H-2|POL/DA
C0801|C0801012|3|Viviani|P,EL|P|H-2|POL/DA
C0801|C0801012|2|Brune|P,EL|P|H-2|POL/DA
C0801|C0801012|2|Geist|P,EL|P|H-2|POL/DA
C0801|C0801012|2|Karwowski|P,EL|P|H-2|POL/DA
C0801|C0801012|2|Ludwig|P,EL|P|H-2|POL/DA
C0801|C0801012|2|Veal|P,EL|P|H-2|POL/DA
C0801|C0801012|2|Wood|P,EL|P|H-2|POL/DA
C0801|C0801012|2|Kievsky|P,EL|P|H-2|POL/DA
C0801|C0801012|2|Rosati|P,EL|P|H-2|POL/DA
C0801|C0801012|2|Viviani|P,EL|P|H-2|POL/DA
C1236|C1236002| |Wood|D,EL|D|H-1|POL/DA
C1236|C1236002| |Brune|D,EL|D|H-1|POL/DA
C1236|C1236002| |Fisher|D,EL|D|H-1|POL/DA
C1236|C1236002| |Karwowski|D,EL|D|H-1|POL/DA
C1236|C1236002| |Kievsky|D,EL|D|H-1|POL/DA
C1236|C1236002| |Leonard|D,EL|D|H-1|POL/DA
C1236|C1236002| |Ludwig|D,EL|D|H-1|POL/DA
C1236|C1236002| |Rosati|D,EL|D|H-1|POL/DA
C1236|C1236002| |Viviani|D,EL|D|H-1|POL/DA
C1236|C1236003| |Wood|D,EL|D|H-1|POL/DA
C1236|C1236003| |Brune|D,EL|D|H-1|POL/DA
C1236|C1236003| |Fisher|D,EL|D|H-1|POL/DA
C1236|C1236003| |Karwowski|D,EL|D|H-1|POL/DA
C1236|C1236003| |Kievsky|D,EL|D|H-1|POL/DA
C1236|C1236003| |Leonard|D,EL|D|H-1|POL/DA
C1236|C1236003| |Ludwig|D,EL|D|H-1|POL/DA
C1236|C1236003| |Rosati|D,EL|D|H-1|POL/DA
C1236|C1236003| |Viviani|D,EL|D|H-1|POL/DA
C1236|C1236004| |Wood|D,EL|D|H-1|POL/DA
C1236|C1236004| |Brune|D,EL|D|H-1|POL/DA
C1236|C1236004| |Fisher|D,EL|D|H-1|POL/DA
C1236|C1236004| |Karwowski|D,EL|D|H-1|POL/DA
C1236|C1236004| |Kievsky|D,EL|D|H-1|POL/DA
C1236|C1236004| |Leonard|D,EL|D|H-1|POL/DA
C1236|C1236004| |Ludwig|D,EL|D|H-1|POL/DA
C1236|C1236004| |Rosati|D,EL|D|H-1|POL/DA
C1236|C1236004| |Viviani|D,EL|D|H-1|POL/DA
C1236|C1236005| |Wood|D,EL|D|H-1|POL/DA
C1236|C1236005| |Brune|D,EL|D|H-1|POL/DA
C1236|C1236005| |Fisher|D,EL|D|H-1|POL/DA
C1236|C1236005| |Karwowski|D,EL|D|H-1|POL/DA
C1236|C1236005| |Kievsky|D,EL|D|H-1|POL/DA
C1236|C1236005| |Leonard|D,EL|D|H-1|POL/DA
C1236|C1236005| |Ludwig|D,EL|D|H-1|POL/DA
C1236|C1236005| |Rosati|D,EL|D|H-1|POL/DA
C1236|C1236005| |Viviani|D,EL|D|H-1|POL/DA
C1236|C1236006| |Wood|D,EL|D|H-1|POL/DA
C1236|C1236006| |Brune|D,EL|D|H-1|POL/DA
C1236|C1236006| |Fisher|D,EL|D|H-1|POL/DA
C1236|C1236006| |Karwowski|D,EL|D|H-1|POL/DA
C1236|C1236006| |Kievsky|D,EL|D|H-1|POL/DA
C1236|C1236006| |Leonard|D,EL|D|H-1|POL/DA
C1236|C1236006| |Ludwig|D,EL|D|H-1|POL/DA
C1236|C1236006| |Rosati|D,EL|D|H-1|POL/DA
C1236|C1236006| |Viviani|D,EL|D|H-1|POL/DA
C1236|C1236007| |Wood|D,EL|D|H-1|DA
C1236|C1236007| |Brune|D,EL|D|H-1|DA
C1236|C1236007| |Fisher|D,EL|D|H-1|DA
C1236|C1236007| |Karwowski|D,EL|D|H-1|DA
C1236|C1236007| |Kievsky|D,EL|D|H-1|DA
C1236|C1236007| |Leonard|D,EL|D|H-1|DA
C1236|C1236007| |Ludwig|D,EL|D|H-1|DA
C1236|C1236007| |Rosati|D,EL|D|H-1|DA
C1236|C1236007| |Viviani|D,EL|D|H-1|DA
C1285|C1285002| |Sowinski|D,EL|D|H-1|POL/DA
C1285|C1285002| |Pun-Casavant|D,EL|D|H-1|POL/DA
C1285|C1285002| |Knutson|D,EL|D|H-1|POL/DA
C1285|C1285003| |Sowinski|D,EL|D|H-1|POL/DA
C1285|C1285003| |Pun-Casavant|D,EL|D|H-1|POL/DA
C1285|C1285003| |Knutson|D,EL|D|H-1|POL/DA
C1285|C1285004| |Sowinski|D,EL|D|H-1|POL/DA
C1285|C1285004| |Pun-Casavant|D,EL|D|H-1|POL/DA
C1285|C1285004| |Knutson|D,EL|D|H-1|POL/DA
C1285|C1285005| |Sowinski|D,EL|D|H-1|POL/DA
C1285|C1285005| |Pun-Casavant|D,EL|D|H-1|POL/DA
C1285|C1285005| |Knutson|D,EL|D|H-1|POL/DA
C1285|C1285006| |Sowinski|D,EL|D|H-1|DA
C1285|C1285006| |Pun-Casavant|D,EL|D|H-1|DA
C1285|C1285006| |Knutson|D,EL|D|H-1|DA
C1560|C1560002| |Brune|D,EL|D|H-1|POL/DA
C1560|C1560002| |Crowe|D,EL|D|H-1|POL/DA
C1560|C1560002| |Fisher|D,EL|D|H-1|POL/DA
C1560|C1560002| |Geist|D,EL|D|H-1|POL/DA
C1560|C1560002| |Karwowski|D,EL|D|H-1|POL/DA
C1560|C1560002| |Kievsky|D,EL|D|H-1|POL/DA
C1560|C1560002| |Ludwig|D,EL|D|H-1|POL/DA
C1560|C1560002| |Veal|D,EL|D|H-1|POL/DA
C1560|C1560002| |Wood|D,EL|D|H-1|POL/DA
C1560|C1560003| |Brune|D,EL|D|H-1|POL/DA
C1560|C1560003| |Crowe|D,EL|D|H-1|POL/DA
C1560|C1560003| |Fisher|D,EL|D|H-1|POL/DA
C1560|C1560003| |Geist|D,EL|D|H-1|POL/DA
C1560|C1560003| |Karwowski|D,EL|D|H-1|POL/DA
C1560|C1560003| |Kievsky|D,EL|D|H-1|POL/DA
C1560|C1560003| |Ludwig|D,EL|D|H-1|POL/DA
C1560|C1560003| |Veal|D,EL|D|H-1|POL/DA
C1560|C1560003| |Wood|D,EL|D|H-1|POL/DA
C1560|C1560004| |Brune|D,EL|D|H-1|POL/DA
C1560|C1560004| |Crowe|D,EL|D|H-1|POL/DA
C1560|C1560004| |Fisher|D,EL|D|H-1|POL/DA
C1560|C1560004| |Geist|D,EL|D|H-1|POL/DA
C1560|C1560004| |Karwowski|D,EL|D|H-1|POL/DA
C1560|C1560004| |Kievsky|D,EL|D|H-1|POL/DA
C1560|C1560004| |Ludwig|D,EL|D|H-1|POL/DA
C1560|C1560004| |Veal|D,EL|D|H-1|POL/DA
C1560|C1560004| |Wood|D,EL|D|H-1|POL/DA
C1560|C1560005| |Brune|D,EL|D|H-1|POL/DA
C1560|C1560005| |Crowe|D,EL|D|H-1|POL/DA
C1560|C1560005| |Fisher|D,EL|D|H-1|POL/DA
C1560|C1560005| |Geist|D,EL|D|H-1|POL/DA
C1560|C1560005| |Karwowski|D,EL|D|H-1|POL/DA
C1560|C1560005| |Kievsky|D,EL|D|H-1|POL/DA
C1560|C1560005| |Ludwig|D,EL|D|H-1|POL/DA
C1560|C1560005| |Veal|D,EL|D|H-1|POL/DA
C1560|C1560005| |Wood|D,EL|D|H-1|POL/DA
C1560|C1560006| |Brune|P,EL|P|H-2|POL/DA
C1560|C1560006| |Crowe|P,EL|P|H-2|POL/DA
C1560|C1560006| |Fisher|P,EL|P|H-2|POL/DA
C1560|C1560006| |Geist|P,EL|P|H-2|POL/DA
C1560|C1560006| |Karwowski|P,EL|P|H-2|POL/DA
C1560|C1560006| |Kievsky|P,EL|P|H-2|POL/DA
C1560|C1560006| |Ludwig|P,EL|P|H-2|POL/DA
C1560|C1560006| |Veal|P,EL|P|H-2|POL/DA
C1560|C1560006| |Wood|P,EL|P|H-2|POL/DA
D0480|D0480002| |Amir-Ahmadi|D,EL|D|H-1|DA
D0480|D0480002| |Castelijns|D,EL|D|H-1|DA
D0480|D0480002| |Deltuva|D,EL|D|H-1|DA
D0480|D0480002| |Eslami-Kalantari|D,EL|D|H-1|DA
D0480|D0480002| |Van Garderen|D,EL|D|H-1|DA
D0480|D0480002| |Harakeh|D,EL|D|H-1|DA
D0480|D0480002| |Kalantar-Nayestanaki|D,EL|D|H-1|DA
D0480|D0480002| |Kis|D,EL|D|H-1|DA
D0480|D0480002| |Loehner|D,EL|D|H-1|DA
D0480|D0480002| |Mahjour-Shafiei|D,EL|D|H-1|DA
D0480|D0480002| |Mardanpour|D,EL|D|H-1|DA
D0480|D0480002| |Messchendorp|D,EL|D|H-1|DA
D0480|D0480002| |Mukherjee|D,EL|D|H-1|DA
D0480|D0480002| |Savran|D,EL|D|H-1|DA
D0480|D0480002| |Sekiguchi|D,EL|D|H-1|DA
D0480|D0480002| |Shende|D,EL|D|H-1|DA
D0480|D0480002| |Witala|D,EL|D|H-1|DA
D0480|D0480002| |Woertche|D,EL|D|H-1|DA
D0480|D0480003| |Amir-Ahmadi|D,EL|D|H-1|POL/DA
D0480|D0480003| |Castelijns|D,EL|D|H-1|POL/DA
D0480|D0480003| |Deltuva|D,EL|D|H-1|POL/DA
D0480|D0480003| |Eslami-Kalantari|D,EL|D|H-1|POL/DA
D0480|D0480003| |Van Garderen|D,EL|D|H-1|POL/DA
D0480|D0480003| |Harakeh|D,EL|D|H-1|POL/DA
D0480|D0480003| |Kalantar-Nayestanaki|D,EL|D|H-1|POL/DA
D0480|D0480003| |Kis|D,EL|D|H-1|POL/DA
D0480|D0480003| |Loehner|D,EL|D|H-1|POL/DA
D0480|D0480003| |Mahjour-Shafiei|D,EL|D|H-1|POL/DA
D0480|D0480003| |Mardanpour|D,EL|D|H-1|POL/DA
D0480|D0480003| |Messchendorp|D,EL|D|H-1|POL/DA
D0480|D0480003| |Mukherjee|D,EL|D|H-1|POL/DA
D0480|D0480003| |Savran|D,EL|D|H-1|POL/DA
D0480|D0480003| |Sekiguchi|D,EL|D|H-1|POL/DA
D0480|D0480003| |Shende|D,EL|D|H-1|POL/DA
D0480|D0480003| |Witala|D,EL|D|H-1|POL/DA
D0480|D0480003| |Woertche|D,EL|D|H-1|POL/DA
D0480|D0480004| |Amir-Ahmadi|D,EL|D|H-1|POL/DA
D0480|D0480004| |Castelijns|D,EL|D|H-1|POL/DA
D0480|D0480004| |Deltuva|D,EL|D|H-1|POL/DA
D0480|D0480004| |Eslami-Kalantari|D,EL|D|H-1|POL/DA
D0480|D0480004| |Van Garderen|D,EL|D|H-1|POL/DA
D0480|D0480004| |Harakeh|D,EL|D|H-1|POL/DA
D0480|D0480004| |Kalantar-Nayestanaki|D,EL|D|H-1|POL/DA
D0480|D0480004| |Kis|D,EL|D|H-1|POL/DA
D0480|D0480004| |Loehner|D,EL|D|H-1|POL/DA
D0480|D0480004| |Mahjour-Shafiei|D,EL|D|H-1|POL/DA
D0480|D0480004| |Mardanpour|D,EL|D|H-1|POL/DA
D0480|D0480004| |Messchendorp|D,EL|D|H-1|POL/DA
D0480|D0480004| |Mukherjee|D,EL|D|H-1|POL/DA
D0480|D0480004| |Savran|D,EL|D|H-1|POL/DA
D0480|D0480004| |Sekiguchi|D,EL|D|H-1|POL/DA
D0480|D0480004| |Shende|D,EL|D|H-1|POL/DA
D0480|D0480004| |Witala|D,EL|D|H-1|POL/DA
D0480|D0480004| |Woertche|D,EL|D|H-1|POL/DA
D0480|D0480005| |Amir-Ahmadi|D,EL|D|H-1|POL/DA
D0480|D0480005| |Castelijns|D,EL|D|H-1|POL/DA
D0480|D0480005| |Deltuva|D,EL|D|H-1|POL/DA
D0480|D0480005| |Eslami-Kalantari|D,EL|D|H-1|POL/DA
D0480|D0480005| |Van Garderen|D,EL|D|H-1|POL/DA
D0480|D0480005| |Harakeh|D,EL|D|H-1|POL/DA
D0480|D0480005| |Kalantar-Nayestanaki|D,EL|D|H-1|POL/DA
D0480|D0480005| |Kis|D,EL|D|H-1|POL/DA
D0480|D0480005| |Loehner|D,EL|D|H-1|POL/DA
D0480|D0480005| |Mahjour-Shafiei|D,EL|D|H-1|POL/DA
D0480|D0480005| |Mardanpour|D,EL|D|H-1|POL/DA
D0480|D0480005| |Messchendorp|D,EL|D|H-1|POL/DA
D0480|D0480005| |Mukherjee|D,EL|D|H-1|POL/DA
D0480|D0480005| |Savran|D,EL|D|H-1|POL/DA
D0480|D0480005| |Sekiguchi|D,EL|D|H-1|POL/DA
D0480|D0480005| |Shende|D,EL|D|H-1|POL/DA
D0480|D0480005| |Witala|D,EL|D|H-1|POL/DA
D0480|D0480005| |Woertche|D,EL|D|H-1|POL/DA
D0480|D0480006| |Amir-Ahmadi|D,EL|D|H-1|POL/DA
D0480|D0480006| |Castelijns|D,EL|D|H-1|POL/DA
D0480|D0480006| |Deltuva|D,EL|D|H-1|POL/DA
D0480|D0480006| |Eslami-Kalantari|D,EL|D|H-1|POL/DA
D0480|D0480006| |Van Garderen|D,EL|D|H-1|POL/DA
D0480|D0480006| |Harakeh|D,EL|D|H-1|POL/DA
D0480|D0480006| |Kalantar-Nayestanaki|D,EL|D|H-1|POL/DA
D0480|D0480006| |Kis|D,EL|D|H-1|POL/DA
D0480|D0480006| |Loehner|D,EL|D|H-1|POL/DA
D0480|D0480006| |Mahjour-Shafiei|D,EL|D|H-1|POL/DA
D0480|D0480006| |Mardanpour|D,EL|D|H-1|POL/DA
D0480|D0480006| |Messchendorp|D,EL|D|H-1|POL/DA
D0480|D0480006| |Mukherjee|D,EL|D|H-1|POL/DA
D0480|D0480006| |Savran|D,EL|D|H-1|POL/DA
D0480|D0480006| |Sekiguchi|D,EL|D|H-1|POL/DA
D0480|D0480006| |Shende|D,EL|D|H-1|POL/DA
D0480|D0480006| |Witala|D,EL|D|H-1|POL/DA
D0480|D0480006| |Woertche|D,EL|D|H-1|POL/DA
E0783|E0783002| |Hatanaka|D,EL|D|H-1|POL/DA
E0783|E0783002| |Matsuoka|D,EL|D|H-1|POL/DA
E0783|E0783002| |Sakai|D,EL|D|H-1|POL/DA
E0783|E0783002| |Saito|D,EL|D|H-1|POL/DA
E0783|E0783002| |Tamura|D,EL|D|H-1|POL/DA
E0783|E0783002| |Hosono|D,EL|D|H-1|POL/DA
E0783|E0783002| |Kondo|D,EL|D|H-1|POL/DA
E0783|E0783002| |Imai|D,EL|D|H-1|POL/DA
E0783|E0783002| |Shimizu|D,EL|D|H-1|POL/DA
E0783|E0783002| |Nishimura|D,EL|D|H-1|POL/DA
E0811|E0811002| |Sawada|P,EL|P|H-2|DA
E0811|E0811002| |Seki|P,EL|P|H-2|DA
E0811|E0811002| |Furuno|P,EL|P|H-2|DA
E0811|E0811002| |Tagishi|P,EL|P|H-2|DA
E0811|E0811002| |Nagashima|P,EL|P|H-2|DA
E0811|E0811002| |Schimizu|P,EL|P|H-2|DA
E0811|E0811002| |Ishikawa|P,EL|P|H-2|DA
E0811|E0811002| |Sugiyama|P,EL|P|H-2|DA
E0811|E0811002| |Chuang|P,EL|P|H-2|DA
E0811|E0811002| |Gruebler|P,EL|P|H-2|DA
E0811|E0811002| |Sanada|P,EL|P|H-2|DA
E0811|E0811002| |Koike|P,EL|P|H-2|DA
E0811|E0811002| |Taniguchi|P,EL|P|H-2|DA
E0811|E0811003| |Sawada|P,EL|P|H-2|POL/DA
E0811|E0811003| |Seki|P,EL|P|H-2|POL/DA
E0811|E0811003| |Furuno|P,EL|P|H-2|POL/DA
E0811|E0811003| |Tagishi|P,EL|P|H-2|POL/DA
E0811|E0811003| |Nagashima|P,EL|P|H-2|POL/DA
E0811|E0811003| |Schimizu|P,EL|P|H-2|POL/DA
E0811|E0811003| |Ishikawa|P,EL|P|H-2|POL/DA
E0811|E0811003| |Sugiyama|P,EL|P|H-2|POL/DA
E0811|E0811003| |Chuang|P,EL|P|H-2|POL/DA
E0811|E0811003| |Gruebler|P,EL|P|H-2|POL/DA
E0811|E0811003| |Sanada|P,EL|P|H-2|POL/DA
E0811|E0811003| |Koike|P,EL|P|H-2|POL/DA
E0811|E0811003| |Taniguchi|P,EL|P|H-2|POL/DA
E0811|E0811004| |Sawada|D,EL|D|H-1|POL/DA
E0811|E0811004| |Seki|D,EL|D|H-1|POL/DA
E0811|E0811004| |Furuno|D,EL|D|H-1|POL/DA
E0811|E0811004| |Tagishi|D,EL|D|H-1|POL/DA
E0811|E0811004| |Nagashima|D,EL|D|H-1|POL/DA
E0811|E0811004| |Schimizu|D,EL|D|H-1|POL/DA
E0811|E0811004| |Ishikawa|D,EL|D|H-1|POL/DA
E0811|E0811004| |Sugiyama|D,EL|D|H-1|POL/DA
E0811|E0811004| |Chuang|D,EL|D|H-1|POL/DA
E0811|E0811004| |Gruebler|D,EL|D|H-1|POL/DA
E0811|E0811004| |Sanada|D,EL|D|H-1|POL/DA
E0811|E0811004| |Koike|D,EL|D|H-1|POL/DA
E0811|E0811004| |Taniguchi|D,EL|D|H-1|POL/DA
E0811|E0811005| |Sawada|D,EL|D|H-1|POL/DA
E0811|E0811005| |Seki|D,EL|D|H-1|POL/DA
E0811|E0811005| |Furuno|D,EL|D|H-1|POL/DA
E0811|E0811005| |Tagishi|D,EL|D|H-1|POL/DA
E0811|E0811005| |Nagashima|D,EL|D|H-1|POL/DA
E0811|E0811005| |Schimizu|D,EL|D|H-1|POL/DA
E0811|E0811005| |Ishikawa|D,EL|D|H-1|POL/DA
E0811|E0811005| |Sugiyama|D,EL|D|H-1|POL/DA
E0811|E0811005| |Chuang|D,EL|D|H-1|POL/DA
E0811|E0811005| |Gruebler|D,EL|D|H-1|POL/DA
E0811|E0811005| |Sanada|D,EL|D|H-1|POL/DA
E0811|E0811005| |Koike|D,EL|D|H-1|POL/DA
E0811|E0811005| |Taniguchi|D,EL|D|H-1|POL/DA
E0811|E0811006| |Sawada|D,EL|D|H-1|POL/DA
E0811|E0811006| |Seki|D,EL|D|H-1|POL/DA
E0811|E0811006| |Furuno|D,EL|D|H-1|POL/DA
E0811|E0811006| |Tagishi|D,EL|D|H-1|POL/DA
E0811|E0811006| |Nagashima|D,EL|D|H-1|POL/DA
E0811|E0811006| |Schimizu|D,EL|D|H-1|POL/DA
E0811|E0811006| |Ishikawa|D,EL|D|H-1|POL/DA
E0811|E0811006| |Sugiyama|D,EL|D|H-1|POL/DA
E0811|E0811006| |Chuang|D,EL|D|H-1|POL/DA
E0811|E0811006| |Gruebler|D,EL|D|H-1|POL/DA
E0811|E0811006| |Sanada|D,EL|D|H-1|POL/DA
E0811|E0811006| |Koike|D,EL|D|H-1|POL/DA
E0811|E0811006| |Taniguchi|D,EL|D|H-1|POL/DA
E0811|E0811007| |Sawada|D,EL|D|H-1|POL/DA
E0811|E0811007| |Seki|D,EL|D|H-1|POL/DA
E0811|E0811007| |Furuno|D,EL|D|H-1|POL/DA
E0811|E0811007| |Tagishi|D,EL|D|H-1|POL/DA
E0811|E0811007| |Nagashima|D,EL|D|H-1|POL/DA
E0811|E0811007| |Schimizu|D,EL|D|H-1|POL/DA
E0811|E0811007| |Ishikawa|D,EL|D|H-1|POL/DA
E0811|E0811007| |Sugiyama|D,EL|D|H-1|POL/DA
E0811|E0811007| |Chuang|D,EL|D|H-1|POL/DA
E0811|E0811007| |Gruebler|D,EL|D|H-1|POL/DA
E0811|E0811007| |Sanada|D,EL|D|H-1|POL/DA
E0811|E0811007| |Koike|D,EL|D|H-1|POL/DA
E0811|E0811007| |Taniguchi|D,EL|D|H-1|POL/DA
E0811|E0811008| |Sawada|D,EL|D|H-1|POL/DA
E0811|E0811008| |Seki|D,EL|D|H-1|POL/DA
E0811|E0811008| |Furuno|D,EL|D|H-1|POL/DA
E0811|E0811008| |Tagishi|D,EL|D|H-1|POL/DA
E0811|E0811008| |Nagashima|D,EL|D|H-1|POL/DA
E0811|E0811008| |Schimizu|D,EL|D|H-1|POL/DA"
/-- rows of x4i3/tests/data/index.tbl -/
def rows8 : String := "E0811|E0811008| |Ishikawa|D,EL|D|H-1|POL/DA
E0811|E0811008| |Sugiyama|D,EL|D|H-1|POL/DA
E0811|E0811008| |Chuang|D,EL|D|H-1|POL/DA
E0811|E0811008| |Gruebler|D,EL|D|H-1|POL/DA
E0811|E0811008| |Sanada|D,EL|D|H-1|POL/DA
E0811|E0811008| |Koike|D,EL|D|H-1|POL/DA
E0811|E0811008| |Taniguchi|D,EL|D|H-1|POL/DA
E0811|E0811009| |Sawada|D,EL|D|H-1|POL/DA
E0811|E0811009| |Seki|D,EL|D|H-1|POL/DA
E0811|E0811009| |Furuno|D,EL|D|H-1|POL/DA
E0811|E0811009| |Tagishi|D,EL|D|H-1|POL/DA
E0811|E0811009| |Nagashima|D,EL|D|H-1|POL/DA
E0811|E0811009| |Schimizu|D,EL|D|H-1|POL/DA
E0811|E0811009| |Ishikawa|D,EL|D|H-1|POL/DA
E0811|E0811009| |Sugiyama|D,EL|D|H-1|POL/DA
E0811|E0811009| |Chuang|D,EL|D|H-1|POL/DA
E0811|E0811009| |Gruebler|D,EL|D|H-1|POL/DA
E0811|E0811009| |Sanada|D,EL|D|H-1|POL/DA
E0811|E0811009| |Koike|D,EL|D|H-1|POL/DA
E0811|E0811009| |Taniguchi|D,EL|D|H-1|POL/DA
E0811|E0811010| |Sawada|D,EL|D|H-1|POL/DA
E0811|E0811010| |Seki|D,EL|D|H-1|POL/DA
E0811|E0811010| |Furuno|D,EL|D|H-1|POL/DA
E0811|E0811010| |Tagishi|D,EL|D|H-1|POL/DA
E0811|E0811010| |Nagashima|D,EL|D|H-1|POL/DA
E0811|E0811010| |Schimizu|D,EL|D|H-1|POL/DA
E0811|E0811010| |Ishikawa|D,EL|D|H-1|POL/DA
E0811|E0811010| |Sugiyama|D,EL|D|H-1|POL/DA
E0811|E0811010| |Chuang|D,EL|D|H-1|POL/DA
E0811|E0811010| |Gruebler|D,EL|D|H-1|POL/DA
E0811|E0811010| |Sanada|D,EL|D|H-1|POL/DA
E0811|E0811010| |Koike|D,EL|D|H-1|POL/DA
E0811|E0811010| |Taniguchi|D,EL|D|H-1|POL/DA
E0839|E0839002| |Hatanaka|D,EL|D|H-1|DA
E0839|E0839002| |Matsuoka|D,EL|D|H-1|DA
E0839|E0839002| |Sakai|D,EL|D|H-1|DA
E0839|E0839002| |Saito|D,EL|D|H-1|DA
E0839|E0839002| |Hosono|D,EL|D|H-1|DA
E0839|E0839002| |Koike|D,EL|D|H-1|DA
E0839|E0839002| |Kondo|D,EL|D|H-1|DA
E0839|E0839002| |Imai|D,EL|D|H-1|DA
E0839|E0839002| |Shimizu|D,EL|D|H-1|DA
E0839|E0839002| |Ichihara|D,EL|D|H-1|DA
E0839|E0839002| |Nishimura|D,EL|D|H-1|DA
E0839|E0839002| |Okihana|D,EL|D|H-1|DA
E0839|E0839003| |Hatanaka|D,EL|D|H-1|POL/DA
E0839|E0839003| |Matsuoka|D,EL|D|H-1|POL/DA
E0839|E0839003| |Sakai|D,EL|D|H-1|POL/DA
E0839|E0839003| |Saito|D,EL|D|H-1|POL/DA
E0839|E0839003| |Hosono|D,EL|D|H-1|POL/DA
E0839|E0839003| |Koike|D,EL|D|H-1|POL/DA
E0839|E0839003| |Kondo|D,EL|D|H-1|POL/DA
E0839|E0839003| |Imai|D,EL|D|H-1|POL/DA
E0839|E0839003| |Shimizu|D,EL|D|H-1|POL/DA
E0839|E0839003| |Ichihara|D,EL|D|H-1|POL/DA
E0839|E0839003| |Nishimura|D,EL|D|H-1|POL/DA
E0839|E0839003| |Okihana|D,EL|D|H-1|POL/DA
E0839|E0839004| |Hatanaka|D,EL|D|H-1|POL/DA
E0839|E0839004| |Matsuoka|D,EL|D|H-1|POL/DA
E0839|E0839004| |Sakai|D,EL|D|H-1|POL/DA
E0839|E0839004| |Saito|D,EL|D|H-1|POL/DA
E0839|E0839004| |Hosono|D,EL|D|H-1|POL/DA
E0839|E0839004| |Koike|D,EL|D|H-1|POL/DA
E0839|E0839004| |Kondo|D,EL|D|H-1|POL/DA
E0839|E0839004| |Imai|D,EL|D|H-1|POL/DA
E0839|E0839004| |Shimizu|D,EL|D|H-1|POL/DA
E0839|E0839004| |Ichihara|D,EL|D|H-1|POL/DA
E0839|E0839004| |Nishimura|D,EL|D|H-1|POL/DA
E0839|E0839004| |Okihana|D,EL|D|H-1|POL/DA
E0839|E0839005| |Hatanaka|D,EL|D|H-1|POL/DA
E0839|E0839005| |Matsuoka|D,EL|D|H-1|POL/DA
E0839|E0839005| |Sakai|D,EL|D|H-1|POL/DA
E0839|E0839005| |Saito|D,EL|D|H-1|POL/DA
E0839|E0839005| |Hosono|D,EL|D|H-1|POL/DA
E0839|E0839005| |Koike|D,EL|D|H-1|POL/DA
E0839|E0839005| |Kondo|D,EL|D|H-1|POL/DA
E0839|E0839005| |Imai|D,EL|D|H-1|POL/DA
E0839|E0839005| |Shimizu|D,EL|D|H-1|POL/DA
E0839|E0839005| |Ichihara|D,EL|D|H-1|POL/DA
E0839|E0839005| |Nishimura|D,EL|D|H-1|POL/DA
E0839|E0839005| |Okihana|D,EL|D|H-1|POL/DA
E0839|E0839006| |Hatanaka|D,EL|D|H-1|POL/DA
E0839|E0839006| |Matsuoka|D,EL|D|H-1|POL/DA
E0839|E0839006| |Sakai|D,EL|D|H-1|POL/DA
E0839|E0839006| |Saito|D,EL|D|H-1|POL/DA
E0839|E0839006| |Hosono|D,EL|D|H-1|POL/DA
E0839|E0839006| |Koike|D,EL|D|H-1|POL/DA
E0839|E0839006| |Kondo|D,EL|D|H-1|POL/DA
E0839|E0839006| |Imai|D,EL|D|H-1|POL/DA
E0839|E0839006| |Shimizu|D,EL|D|H-1|POL/DA
E0839|E0839006| |Ichihara|D,EL|D|H-1|POL/DA
E0839|E0839006| |Nishimura|D,EL|D|H-1|POL/DA
E0839|E0839006| |Okihana|D,EL|D|H-1|POL/DA
E1627|E1627002| |Sakamoto|D,EL|D|H-1|POL/DA
E1627|E1627002| |Okamura|D,EL|D|H-1|POL/DA
E1627|E1627002| |Uesaka|D,EL|D|H-1|POL/DA
E1627|E1627002| |Ishida|D,EL|D|H-1|POL/DA
E1627|E1627002| |Otsu|D,EL|D|H-1|POL/DA
E1627|E1627002| |Wakasa|D,EL|D|H-1|POL/DA
E1627|E1627002| |Satou|D,EL|D|H-1|POL/DA
E1627|E1627002| |Niizeki|D,EL|D|H-1|POL/DA
E1627|E1627002| |Katoh|D,EL|D|H-1|POL/DA
E1627|E1627002| |Yamashita|D,EL|D|H-1|POL/DA
E1627|E1627002| |Hatanaka|D,EL|D|H-1|POL/DA
E1627|E1627002| |Koike|D,EL|D|H-1|POL/DA
E1627|E1627002| |Sakai|D,EL|D|H-1|POL/DA
E1627|E1627003| |Sakamoto|D,EL|D|H-1|POL/DA
E1627|E1627003| |Okamura|D,EL|D|H-1|POL/DA
E1627|E1627003| |Uesaka|D,EL|D|H-1|POL/DA
E1627|E1627003| |Ishida|D,EL|D|H-1|POL/DA
E1627|E1627003| |Otsu|D,EL|D|H-1|POL/DA
E1627|E1627003| |Wakasa|D,EL|D|H-1|POL/DA
E1627|E1627003| |Satou|D,EL|D|H-1|POL/DA
E1627|E1627003| |Niizeki|D,EL|D|H-1|POL/DA
E1627|E1627003| |Katoh|D,EL|D|H-1|POL/DA
E1627|E1627003| |Yamashita|D,EL|D|H-1|POL/DA
E1627|E1627003| |Hatanaka|D,EL|D|H-1|POL/DA
E1627|E1627003| |Koike|D,EL|D|H-1|POL/DA
E1627|E1627003| |Sakai|D,EL|D|H-1|POL/DA
E1627|E1627004| |Sakamoto|D,EL|D|H-1|POL/DA
E1627|E1627004| |Okamura|D,EL|D|H-1|POL/DA
E1627|E1627004| |Uesaka|D,EL|D|H-1|POL/DA
E1627|E1627004| |Ishida|D,EL|D|H-1|POL/DA
E1627|E1627004| |Otsu|D,EL|D|H-1|POL/DA
E1627|E1627004| |Wakasa|D,EL|D|H-1|POL/DA
E1627|E1627004| |Satou|D,EL|D|H-1|POL/DA
E1627|E1627004| |Niizeki|D,EL|D|H-1|POL/DA
E1627|E1627004| |Katoh|D,EL|D|H-1|POL/DA
E1627|E1627004| |Yamashita|D,EL|D|H-1|POL/DA
E1627|E1627004| |Hatanaka|D,EL|D|H-1|POL/DA
E1627|E1627004| |Koike|D,EL|D|H-1|POL/DA
E1627|E1627004| |Sakai|D,EL|D|H-1|POL/DA
E1627|E1627005| |Sakamoto|D,EL|D|H-1|POL/DA
E1627|E1627005| |Okamura|D,EL|D|H-1|POL/DA
E1627|E1627005| |Uesaka|D,EL|D|H-1|POL/DA
E1627|E1627005| |Ishida|D,EL|D|H-1|POL/DA
E1627|E1627005| |Otsu|D,EL|D|H-1|POL/DA
E1627|E1627005| |Wakasa|D,EL|D|H-1|POL/DA
E1627|E1627005| |Satou|D,EL|D|H-1|POL/DA
E1627|E1627005| |Niizeki|D,EL|D|H-1|POL/DA
E1627|E1627005| |Katoh|D,EL|D|H-1|POL/DA
E1627|E1627005| |Yamashita|D,EL|D|H-1|POL/DA
E1627|E1627005| |Hatanaka|D,EL|D|H-1|POL/DA
E1627|E1627005| |Koike|D,EL|D|H-1|POL/DA
E1627|E1627005| |Sakai|D,EL|D|H-1|POL/DA
E1627|E1627006| |Sakamoto|D,EL|D|H-1|DA
E1627|E1627006| |Okamura|D,EL|D|H-1|DA
E1627|E1627006| |Uesaka|D,EL|D|H-1|DA
E1627|E1627006| |Ishida|D,EL|D|H-1|DA
E1627|E1627006| |Otsu|D,EL|D|H-1|DA
E1627|E1627006| |Wakasa|D,EL|D|H-1|DA
E1627|E1627006| |Satou|D,EL|D|H-1|DA
E1627|E1627006| |Niizeki|D,EL|D|H-1|DA
E1627|E1627006| |Katoh|D,EL|D|H-1|DA
E1627|E1627006| |Yamashita|D,EL|D|H-1|DA
E1627|E1627006| |Hatanaka|D,EL|D|H-1|DA
E1627|E1627006| |Koike|D,EL|D|H-1|DA
E1627|E1627006| |Sakai|D,EL|D|H-1|DA
E1627|E1627007| |Sakamoto|D,EL|D|H-1|DA
E1627|E1627007| |Okamura|D,EL|D|H-1|DA
E1627|E1627007| |Uesaka|D,EL|D|H-1|DA
E1627|E1627007| |Ishida|D,EL|D|H-1|DA
E1627|E1627007| |Otsu|D,EL|D|H-1|DA
E1627|E1627007| |Wakasa|D,EL|D|H-1|DA
E1627|E1627007| |Satou|D,EL|D|H-1|DA
E1627|E1627007| |Niizeki|D,EL|D|H-1|DA
E1627|E1627007| |Katoh|D,EL|D|H-1|DA
E1627|E1627007| |Yamashita|D,EL|D|H-1|DA
E1627|E1627007| |Hatanaka|D,EL|D|H-1|DA
E1627|E1627007| |Koike|D,EL|D|H-1|DA
E1627|E1627007| |Sakai|D,EL|D|H-1|DA
E1627|E1627008| |Sakamoto|D,EL|D|H-1|DA
E1627|E1627008| |Okamura|D,EL|D|H-1|DA
E1627|E1627008| |Uesaka|D,EL|D|H-1|DA
E1627|E1627008| |Ishida|D,EL|D|H-1|DA
E1627|E1627008| |Otsu|D,EL|D|H-1|DA
E1627|E1627008| |Wakasa|D,EL|D|H-1|DA
E1627|E1627008| |Satou|D,EL|D|H-1|DA
E1627|E1627008| |Niizeki|D,EL|D|H-1|DA
E1627|E1627008| |Katoh|D,EL|D|H-1|DA
E1627|E1627008| |Yamashita|D,EL|D|H-1|DA
E1627|E1627008| |Hatanaka|D,EL|D|H-1|DA
E1627|E1627008| |Koike|D,EL|D|H-1|DA
E1627|E1627008| |Sakai|D,EL|D|H-1|DA
E1723|E1723002| |Sakai|D,EL|D|H-1|DA
E1723|E1723002| |Sekiguchi|D,EL|D|H-1|DA
E1723|E1723002| |Witala|D,EL|D|H-1|DA
E1723|E1723002| |Glockle|D,EL|D|H-1|DA
E1723|E1723002| |Hatano|D,EL|D|H-1|DA
E1723|E1723002| |Kamada|D,EL|D|H-1|DA
E1723|E1723002| |Kato|D,EL|D|H-1|DA
E1723|E1723002| |Maeda|D,EL|D|H-1|DA
E1723|E1723002| |Nogga|D,EL|D|H-1|DA
E1723|E1723002| |Ohnishi|D,EL|D|H-1|DA
E1723|E1723002| |Okamura|D,EL|D|H-1|DA
E1723|E1723002| |Sakamoto|D,EL|D|H-1|DA
E1723|E1723002| |Sakoda|D,EL|D|H-1|DA
E1723|E1723002| |Satou|D,EL|D|H-1|DA
E1723|E1723002| |Suda|D,EL|D|H-1|DA
E1723|E1723002| |Tamii|D,EL|D|H-1|DA
E1723|E1723002| |Uesaka|D,EL|D|H-1|DA
E1723|E1723002| |Wakasa|D,EL|D|H-1|DA
E1723|E1723002| |Yako|D,EL|D|H-1|DA
E1723|E1723003| |Sakai|D,EL|D|H-1|POL/DA
E1723|E1723003| |Sekiguchi|D,EL|D|H-1|POL/DA
E1723|E1723003| |Witala|D,EL|D|H-1|POL/DA
E1723|E1723003| |Glockle|D,EL|D|H-1|POL/DA
E1723|E1723003| |Hatano|D,EL|D|H-1|POL/DA
E1723|E1723003| |Kamada|D,EL|D|H-1|POL/DA
E1723|E1723003| |Kato|D,EL|D|H-1|POL/DA
E1723|E1723003| |Maeda|D,EL|D|H-1|POL/DA
E1723|E1723003| |Nogga|D,EL|D|H-1|POL/DA
E1723|E1723003| |Ohnishi|D,EL|D|H-1|POL/DA
E1723|E1723003| |Okamura|D,EL|D|H-1|POL/DA
E1723|E1723003| |Sakamoto|D,EL|D|H-1|POL/DA
E1723|E1723003| |Sakoda|D,EL|D|H-1|POL/DA
E1723|E1723003| |Satou|D,EL|D|H-1|POL/DA
E1723|E1723003| |Suda|D,EL|D|H-1|POL/DA
E1723|E1723003| |Tamii|D,EL|D|H-1|POL/DA
E1723|E1723003| |Uesaka|D,EL|D|H-1|POL/DA
E1723|E1723003| |Wakasa|D,EL|D|H-1|POL/DA
E1723|E1723003| |Yako|D,EL|D|H-1|POL/DA
E1723|E1723004| |Sakai|D,EL|D|H-1|POL/DA
E1723|E1723004| |Sekiguchi|D,EL|D|H-1|POL/DA
E1723|E1723004| |Witala|D,EL|D|H-1|POL/DA
E1723|E1723004| |Glockle|D,EL|D|H-1|POL/DA
E1723|E1723004| |Hatano|D,EL|D|H-1|POL/DA
E1723|E1723004| |Kamada|D,EL|D|H-1|POL/DA
E1723|E1723004| |Kato|D,EL|D|H-1|POL/DA
E1723|E1723004| |Maeda|D,EL|D|H-1|POL/DA
E1723|E1723004| |Nogga|D,EL|D|H-1|POL/DA
E1723|E1723004| |Ohnishi|D,EL|D|H-1|POL/DA
E1723|E1723004| |Okamura|D,EL|D|H-1|POL/DA
E1723|E1723004| |Sakamoto|D,EL|D|H-1|POL/DA
E1723|E1723004| |Sakoda|D,EL|D|H-1|POL/DA
E1723|E1723004| |Satou|D,EL|D|H-1|POL/DA
E1723|E1723004| |Suda|D,EL|D|H-1|POL/DA
E1723|E1723004| |Tamii|D,EL|D|H-1|POL/DA
E1723|E1723004| |Uesaka|D,EL|D|H-1|POL/DA
E1723|E1723004| |Wakasa|D,EL|D|H-1|POL/DA
E1723|E1723004| |Yako|D,EL|D|H-1|POL/DA
E1723|E1723005| |Sakai|D,EL|D|H-1|POL/DA
E1723|E1723005| |Sekiguchi|D,EL|D|H-1|POL/DA
E1723|E1723005| |Witala|D,EL|D|H-1|POL/DA
E1723|E1723005| |Glockle|D,EL|D|H-1|POL/DA
E1723|E1723005| |Hatano|D,EL|D|H-1|POL/DA
E1723|E1723005| |Kamada|D,EL|D|H-1|POL/DA
E1723|E1723005| |Kato|D,EL|D|H-1|POL/DA
E1723|E1723005| |Maeda|D,EL|D|H-1|POL/DA
E1723|E1723005| |Nogga|D,EL|D|H-1|POL/DA
E1723|E1723005| |Ohnishi|D,EL|D|H-1|POL/DA
E1723|E1723005| |Okamura|D,EL|D|H-1|POL/DA
E1723|E1723005| |Sakamoto|D,EL|D|H-1|POL/DA
E1723|E1723005| |Sakoda|D,EL|D|H-1|POL/DA
E1723|E1723005| |Satou|D,EL|D|H-1|POL/DA
E1723|E1723005| |Suda|D,EL|D|H-1|POL/DA
E1723|E1723005| |Tamii|D,EL|D|H-1|POL/DA
E1723|E1723005| |Uesaka|D,EL|D|H-1|POL/DA
E1723|E1723005| |Wakasa|D,EL|D|H-1|POL/DA
E1723|E1723005| |Yako|D,EL|D|H-1|POL/DA
E1723|E1723006| |Sakai|D,EL|D|H-1|POL/DA
E1723|E1723006| |Sekiguchi|D,EL|D|H-1|POL/DA
E1723|E1723006| |Witala|D,EL|D|H-1|POL/DA
E1723|E1723006| |Glockle|D,EL|D|H-1|POL/DA
E1723|E1723006| |Hatano|D,EL|D|H-1|POL/DA
E1723|E1723006| |Kamada|D,EL|D|H-1|POL/DA
E1723|E1723006| |Kato|D,EL|D|H-1|POL/DA
E1723|E1723006| |Maeda|D,EL|D|H-1|POL/DA
E1723|E1723006| |Nogga|D,EL|D|H-1|POL/DA
E1723|E1723006| |Ohnishi|D,EL|D|H-1|POL/DA
E1723|E1723006| |Okamura|D,EL|D|H-1|POL/DA
E1723|E1723006| |Sakamoto|D,EL|D|H-1|POL/DA
E1723|E1723006| |Sakoda|D,EL|D|H-1|POL/DA
E1723|E1723006| |Satou|D,EL|D|H-1|POL/DA
E1723|E1723006| |Suda|D,EL|D|H-1|POL/DA
E1723|E1723006| |Tamii|D,EL|D|H-1|POL/DA
E1723|E1723006| |Uesaka|D,EL|D|H-1|POL/DA
E1723|E1723006| |Wakasa|D,EL|D|H-1|POL/DA
E1723|E1723006| |Yako|D,EL|D|H-1|POL/DA
E1772|E1772002| |Sekiguchi|D,EL|D|H-1|DA
E1772|E1772002| |Sakai|D,EL|D|H-1|DA
E1772|E1772002| |Witala|D,EL|D|H-1|DA
E1772|E1772002| |Glockle|D,EL|D|H-1|DA
E1772|E1772002| |Golak|D,EL|D|H-1|DA
E1772|E1772002| |Hatano|D,EL|D|H-1|DA
E1772|E1772002| |Kamada|D,EL|D|H-1|DA
E1772|E1772002| |Kato|D,EL|D|H-1|DA
E1772|E1772002| |Maeda|D,EL|D|H-1|DA
E1772|E1772002| |Nishikawa|D,EL|D|H-1|DA
E1772|E1772002| |Nogga|D,EL|D|H-1|DA
E1772|E1772002| |Ohnishi|D,EL|D|H-1|DA
E1772|E1772002| |Okamura|D,EL|D|H-1|DA
E1772|E1772002| |Sakamoto|D,EL|D|H-1|DA
E1772|E1772002| |Sakoda|D,EL|D|H-1|DA
E1772|E1772002| |Satou|D,EL|D|H-1|DA
E1772|E1772002| |Suda|D,EL|D|H-1|DA
E1772|E1772002| |Tamii|D,EL|D|H-1|DA
E1772|E1772002| |Uesaka|D,EL|D|H-1|DA
E1772|E1772002| |Wakasa|D,EL|D|H-1|DA
E1772|E1772002| |Yako|D,EL|D|H-1|DA
E1772|E1772003| |Sekiguchi|D,EL|D|H-1|DA
E1772|E1772003| |Sakai|D,EL|D|H-1|DA
E1772|E1772003| |Witala|D,EL|D|H-1|DA
E1772|E1772003| |Glockle|D,EL|D|H-1|DA
E1772|E1772003| |Golak|D,EL|D|H-1|DA
E1772|E1772003| |Hatano|D,EL|D|H-1|DA
E1772|E1772003| |Kamada|D,EL|D|H-1|DA
E1772|E1772003| |Kato|D,EL|D|H-1|DA
E1772|E1772003| |Maeda|D,EL|D|H-1|DA
E1772|E1772003| |Nishikawa|D,EL|D|H-1|DA
E1772|E1772003| |Nogga|D,EL|D|H-1|DA
E1772|E1772003| |Ohnishi|D,EL|D|H-1|DA
E1772|E1772003| |Okamura|D,EL|D|H-1|DA
E1772|E1772003| |Sakamoto|D,EL|D|H-1|DA
E1772|E1772003| |Sakoda|D,EL|D|H-1|DA
E1772|E1772003| |Satou|D,EL|D|H-1|DA
E1772|E1772003| |Suda|D,EL|D|H-1|DA
E1772|E1772003| |Tamii|D,EL|D|H-1|DA
E1772|E1772003| |Uesaka|D,EL|D|H-1|DA
E1772|E1772003| |Wakasa|D,EL|D|H-1|DA
E1772|E1772003| |Yako|D,EL|D|H-1|DA
E1772|E1772004| |Sekiguchi|D,EL|D|H-1|DA
E1772|E1772004| |Sakai|D,EL|D|H-1|DA
E1772|E1772004| |Witala|D,EL|D|H-1|DA
E1772|E1772004| |Glockle|D,EL|D|H-1|DA
E1772|E1772004| |Golak|D,EL|D|H-1|DA
E1772|E1772004| |Hatano|D,EL|D|H-1|DA
E1772|E1772004| |Kamada|D,EL|D|H-1|DA
E1772|E1772004| |Kato|D,EL|D|H-1|DA
E1772|E1772004| |Maeda|D,EL|D|H-1|DA
E1772|E1772004| |Nishikawa|D,EL|D|H-1|DA
E1772|E1772004| |Nogga|D,EL|D|H-1|DA
E1772|E1772004| |Ohnishi|D,EL|D|H-1|DA
E1772|E1772004| |Okamura|D,EL|D|H-1|DA
E1772|E1772004| |Sakamoto|D,EL|D|H-1|DA
E1772|E1772004| |Sakoda|D,EL|D|H-1|DA
E1772|E1772004| |Satou|D,EL|D|H-1|DA
E1772|E1772004| |Suda|D,EL|D|H-1|DA
E1772|E1772004| |Tamii|D,EL|D|H-1|DA
E1772|E1772004| |Uesaka|D,EL|D|H-1|DA
E1772|E1772004| |Wakasa|D,EL|D|H-1|DA
E1772|E1772004| |Yako|D,EL|D|H-1|DA
E1772|E1772005| |Sekiguchi|D,EL|D|H-1|POL/DA
E1772|E1772005| |Sakai|D,EL|D|H-1|POL/DA
E1772|E1772005| |Witala|D,EL|D|H-1|POL/DA
E1772|E1772005| |Glockle|D,EL|D|H-1|POL/DA
E1772|E1772005| |Golak|D,EL|D|H-1|POL/DA
E1772|E1772005| |Hatano|D,EL|D|H-1|POL/DA
E1772|E1772005| |Kamada|D,EL|D|H-1|POL/DA
E1772|E1772005| |Kato|D,EL|D|H-1|POL/DA
E1772|E1772005| |Maeda|D,EL|D|H-1|POL/DA
E1772|E1772005| |Nishikawa|D,EL|D|H-1|POL/DA
E1772|E1772005| |Nogga|D,EL|D|H-1|POL/DA
E1772|E1772005| |Ohnishi|D,EL|D|H-1|POL/DA
E1772|E1772005| |Okamura|D,EL|D|H-1|POL/DA
E1772|E1772005| |Sakamoto|D,EL|D|H-1|POL/DA
E1772|E1772005| |Sakoda|D,EL|D|H-1|POL/DA
E1772|E1772005| |Satou|D,EL|D|H-1|POL/DA
E1772|E1772005| |Suda|D,EL|D|H-1|POL/DA
E1772|E1772005| |Tamii|D,EL|D|H-1|POL/DA
E1772|E1772005| |Uesaka|D,EL|D|H-1|POL/DA
E1772|E1772005| |Wakasa|D,EL|D|H-1|POL/DA
E1772|E1772005| |Yako|D,EL|D|H-1|POL/DA
E1772|E1772006| |Sekiguchi|D,EL|D|H-1|POL/DA
E1772|E1772006| |Sakai|D,EL|D|H-1|POL/DA
E1772|E1772006| |Witala|D,EL|D|H-1|POL/DA
E1772|E1772006| |Glockle|D,EL|D|H-1|POL/DA
E1772|E1772006| |Golak|D,EL|D|H-1|POL/DA
E1772|E1772006| |Hatano|D,EL|D|H-1|POL/DA
E1772|E1772006| |Kamada|D,EL|D|H-1|POL/DA
E1772|E1772006| |Kato|D,EL|D|H-1|POL/DA
E1772|E1772006| |Maeda|D,EL|D|H-1|POL/DA
E1772|E1772006| |Nishikawa|D,EL|D|H-1|POL/DA
E1772|E1772006| |Nogga|D,EL|D|H-1|POL/DA
E1772|E1772006| |Ohnishi|D,EL|D|H-1|POL/DA
E1772|E1772006| |Okamura|D,EL|D|H-1|POL/DA
E1772|E1772006| |Sakamoto|D,EL|D|H-1|POL/DA
E1772|E1772006| |Sakoda|D,EL|D|H-1|POL/DA
E1772|E1772006| |Satou|D,EL|D|H-1|POL/DA
E1772|E1772006| |Suda|D,EL|D|H-1|POL/DA
E1772|E1772006| |Tamii|D,EL|D|H-1|POL/DA
E1772|E1772006| |Uesaka|D,EL|D|H-1|POL/DA
E1772|E1772006| |Wakasa|D,EL|D|H-1|POL/DA
E1772|E1772006| |Yako|D,EL|D|H-1|POL/DA
E1772|E1772007| |Sekiguchi|D,EL|D|H-1|POL/DA
E1772|E1772007| |Sakai|D,EL|D|H-1|POL/DA
E1772|E1772007| |Witala|D,EL|D|H-1|POL/DA
E1772|E1772007| |Glockle|D,EL|D|H-1|POL/DA
E1772|E1772007| |Golak|D,EL|D|H-1|POL/DA
E1772|E1772007| |Hatano|D,EL|D|H-1|POL/DA
E1772|E1772007| |Kamada|D,EL|D|H-1|POL/DA
E1772|E1772007| |Kato|D,EL|D|H-1|POL/DA
E1772|E1772007| |Maeda|D,EL|D|H-1|POL/DA
E1772|E1772007| |Nishikawa|D,EL|D|H-1|POL/DA
E1772|E1772007| |Nogga|D,EL|D|H-1|POL/DA
E1772|E1772007| |Ohnishi|D,EL|D|H-1|POL/DA
E1772|E1772007| |Okamura|D,EL|D|H-1|POL/DA
E1772|E1772007| |Sakamoto|D,EL|D|H-1|POL/DA
E1772|E1772007| |Sakoda|D,EL|D|H-1|POL/DA
E1772|E1772007| |Satou|D,EL|D|H-1|POL/DA"
/-- rows of x4i3/tests/data/index.tbl -/
def rows9 : String := "E1772|E1772007| |Suda|D,EL|D|H-1|POL/DA
E1772|E1772007| |Tamii|D,EL|D|H-1|POL/DA
E1772|E1772007| |Uesaka|D,EL|D|H-1|POL/DA
E1772|E1772007| |Wakasa|D,EL|D|H-1|POL/DA
E1772|E1772007| |Yako|D,EL|D|H-1|POL/DA
E1772|E1772008| |Sekiguchi|D,EL|D|H-1|POL/DA
E1772|E1772008| |Sakai|D,EL|D|H-1|POL/DA
E1772|E1772008| |Witala|D,EL|D|H-1|POL/DA
E1772|E1772008| |Glockle|D,EL|D|H-1|POL/DA
E1772|E1772008| |Golak|D,EL|D|H-1|POL/DA
E1772|E1772008| |Hatano|D,EL|D|H-1|POL/DA
E1772|E1772008| |Kamada|D,EL|D|H-1|POL/DA
E1772|E1772008| |Kato|D,EL|D|H-1|POL/DA
E1772|E1772008| |Maeda|D,EL|D|H-1|POL/DA
E1772|E1772008| |Nishikawa|D,EL|D|H-1|POL/DA
E1772|E1772008| |Nogga|D,EL|D|H-1|POL/DA
E1772|E1772008| |Ohnishi|D,EL|D|H-1|POL/DA
E1772|E1772008| |Okamura|D,EL|D|H-1|POL/DA
E1772|E1772008| |Sakamoto|D,EL|D|H-1|POL/DA
E1772|E1772008| |Sakoda|D,EL|D|H-1|POL/DA
E1772|E1772008| |Satou|D,EL|D|H-1|POL/DA
E1772|E1772008| |Suda|D,EL|D|H-1|POL/DA
E1772|E1772008| |Tamii|D,EL|D|H-1|POL/DA
E1772|E1772008| |Uesaka|D,EL|D|H-1|POL/DA
E1772|E1772008| |Wakasa|D,EL|D|H-1|POL/DA
E1772|E1772008| |Yako|D,EL|D|H-1|POL/DA
E1772|E1772009| |Sekiguchi|D,EL|D|H-1|POL/DA
E1772|E1772009| |Sakai|D,EL|D|H-1|POL/DA
E1772|E1772009| |Witala|D,EL|D|H-1|POL/DA
E1772|E1772009| |Glockle|D,EL|D|H-1|POL/DA
E1772|E1772009| |Golak|D,EL|D|H-1|POL/DA
E1772|E1772009| |Hatano|D,EL|D|H-1|POL/DA
E1772|E1772009| |Kamada|D,EL|D|H-1|POL/DA
E1772|E1772009| |Kato|D,EL|D|H-1|POL/DA
E1772|E1772009| |Maeda|D,EL|D|H-1|POL/DA
E1772|E1772009| |Nishikawa|D,EL|D|H-1|POL/DA
E1772|E1772009| |Nogga|D,EL|D|H-1|POL/DA
E1772|E1772009| |Ohnishi|D,EL|D|H-1|POL/DA
E1772|E1772009| |Okamura|D,EL|D|H-1|POL/DA
E1772|E1772009| |Sakamoto|D,EL|D|H-1|POL/DA
E1772|E1772009| |Sakoda|D,EL|D|H-1|POL/DA
E1772|E1772009| |Satou|D,EL|D|H-1|POL/DA
E1772|E1772009| |Suda|D,EL|D|H-1|POL/DA
E1772|E1772009| |Tamii|D,EL|D|H-1|POL/DA
E1772|E1772009| |Uesaka|D,EL|D|H-1|POL/DA
E1772|E1772009| |Wakasa|D,EL|D|H-1|POL/DA
E1772|E1772009| |Yako|D,EL|D|H-1|POL/DA
E1772|E1772010| |Sekiguchi|D,EL|D|H-1|POL/DA
E1772|E1772010| |Sakai|D,EL|D|H-1|POL/DA
E1772|E1772010| |Witala|D,EL|D|H-1|POL/DA
E1772|E1772010| |Glockle|D,EL|D|H-1|POL/DA
E1772|E1772010| |Golak|D,EL|D|H-1|POL/DA
E1772|E1772010| |Hatano|D,EL|D|H-1|POL/DA
E1772|E1772010| |Kamada|D,EL|D|H-1|POL/DA
E1772|E1772010| |Kato|D,EL|D|H-1|POL/DA
E1772|E1772010| |Maeda|D,EL|D|H-1|POL/DA
E1772|E1772010| |Nishikawa|D,EL|D|H-1|POL/DA
E1772|E1772010| |Nogga|D,EL|D|H-1|POL/DA
E1772|E1772010| |Ohnishi|D,EL|D|H-1|POL/DA
E1772|E1772010| |Okamura|D,EL|D|H-1|POL/DA
E1772|E1772010| |Sakamoto|D,EL|D|H-1|POL/DA
E1772|E1772010| |Sakoda|D,EL|D|H-1|POL/DA
E1772|E1772010| |Satou|D,EL|D|H-1|POL/DA
E1772|E1772010| |Suda|D,EL|D|H-1|POL/DA
E1772|E1772010| |Tamii|D,EL|D|H-1|POL/DA
E1772|E1772010| |Uesaka|D,EL|D|H-1|POL/DA
E1772|E1772010| |Wakasa|D,EL|D|H-1|POL/DA
E1772|E1772010| |Yako|D,EL|D|H-1|POL/DA
E1772|E1772011| |Sekiguchi|D,EL|D|H-1|POL/DA
E1772|E1772011| |Sakai|D,EL|D|H-1|POL/DA
E1772|E1772011| |Witala|D,EL|D|H-1|POL/DA
E1772|E1772011| |Glockle|D,EL|D|H-1|POL/DA
E1772|E1772011| |Golak|D,EL|D|H-1|POL/DA
E1772|E1772011| |Hatano|D,EL|D|H-1|POL/DA
E1772|E1772011| |Kamada|D,EL|D|H-1|POL/DA
E1772|E1772011| |Kato|D,EL|D|H-1|POL/DA
E1772|E1772011| |Maeda|D,EL|D|H-1|POL/DA
E1772|E1772011| |Nishikawa|D,EL|D|H-1|POL/DA
E1772|E1772011| |Nogga|D,EL|D|H-1|POL/DA
E1772|E1772011| |Ohnishi|D,EL|D|H-1|POL/DA
E1772|E1772011| |Okamura|D,EL|D|H-1|POL/DA
E1772|E1772011| |Sakamoto|D,EL|D|H-1|POL/DA
E1772|E1772011| |Sakoda|D,EL|D|H-1|POL/DA
E1772|E1772011| |Satou|D,EL|D|H-1|POL/DA
E1772|E1772011| |Suda|D,EL|D|H-1|POL/DA
E1772|E1772011| |Tamii|D,EL|D|H-1|POL/DA
E1772|E1772011| |Uesaka|D,EL|D|H-1|POL/DA
E1772|E1772011| |Wakasa|D,EL|D|H-1|POL/DA
E1772|E1772011| |Yako|D,EL|D|H-1|POL/DA
E1772|E1772012| |Sekiguchi|D,EL|D|H-1|POL/DA
E1772|E1772012| |Sakai|D,EL|D|H-1|POL/DA
E1772|E1772012| |Witala|D,EL|D|H-1|POL/DA
E1772|E1772012| |Glockle|D,EL|D|H-1|POL/DA
E1772|E1772012| |Golak|D,EL|D|H-1|POL/DA
E1772|E1772012| |Hatano|D,EL|D|H-1|POL/DA
E1772|E1772012| |Kamada|D,EL|D|H-1|POL/DA
E1772|E1772012| |Kato|D,EL|D|H-1|POL/DA
E1772|E1772012| |Maeda|D,EL|D|H-1|POL/DA
E1772|E1772012| |Nishikawa|D,EL|D|H-1|POL/DA
E1772|E1772012| |Nogga|D,EL|D|H-1|POL/DA
E1772|E1772012| |Ohnishi|D,EL|D|H-1|POL/DA
E1772|E1772012| |Okamura|D,EL|D|H-1|POL/DA
E1772|E1772012| |Sakamoto|D,EL|D|H-1|POL/DA
E1772|E1772012| |Sakoda|D,EL|D|H-1|POL/DA
E1772|E1772012| |Satou|D,EL|D|H-1|POL/DA
E1772|E1772012| |Suda|D,EL|D|H-1|POL/DA
E1772|E1772012| |Tamii|D,EL|D|H-1|POL/DA
E1772|E1772012| |Uesaka|D,EL|D|H-1|POL/DA
E1772|E1772012| |Wakasa|D,EL|D|H-1|POL/DA
E1772|E1772012| |Yako|D,EL|D|H-1|POL/DA
E1772|E1772013| |Sekiguchi|D,EL|D|H-1|POL/DA
E1772|E1772013| |Sakai|D,EL|D|H-1|POL/DA
E1772|E1772013| |Witala|D,EL|D|H-1|POL/DA
E1772|E1772013| |Glockle|D,EL|D|H-1|POL/DA
E1772|E1772013| |Golak|D,EL|D|H-1|POL/DA
E1772|E1772013| |Hatano|D,EL|D|H-1|POL/DA
E1772|E1772013| |Kamada|D,EL|D|H-1|POL/DA
E1772|E1772013| |Kato|D,EL|D|H-1|POL/DA
E1772|E1772013| |Maeda|D,EL|D|H-1|POL/DA
E1772|E1772013| |Nishikawa|D,EL|D|H-1|POL/DA
E1772|E1772013| |Nogga|D,EL|D|H-1|POL/DA
E1772|E1772013| |Ohnishi|D,EL|D|H-1|POL/DA
E1772|E1772013| |Okamura|D,EL|D|H-1|POL/DA
E1772|E1772013| |Sakamoto|D,EL|D|H-1|POL/DA
E1772|E1772013| |Sakoda|D,EL|D|H-1|POL/DA
E1772|E1772013| |Satou|D,EL|D|H-1|POL/DA
E1772|E1772013| |Suda|D,EL|D|H-1|POL/DA
E1772|E1772013| |Tamii|D,EL|D|H-1|POL/DA
E1772|E1772013| |Uesaka|D,EL|D|H-1|POL/DA
E1772|E1772013| |Wakasa|D,EL|D|H-1|POL/DA
E1772|E1772013| |Yako|D,EL|D|H-1|POL/DA
E1772|E1772014| |Sekiguchi|D,EL|D|H-1|POL/DA
E1772|E1772014| |Sakai|D,EL|D|H-1|POL/DA
E1772|E1772014| |Witala|D,EL|D|H-1|POL/DA
E1772|E1772014| |Glockle|D,EL|D|H-1|POL/DA
E1772|E1772014| |Golak|D,EL|D|H-1|POL/DA
E1772|E1772014| |Hatano|D,EL|D|H-1|POL/DA
E1772|E1772014| |Kamada|D,EL|D|H-1|POL/DA
E1772|E1772014| |Kato|D,EL|D|H-1|POL/DA
E1772|E1772014| |Maeda|D,EL|D|H-1|POL/DA
E1772|E1772014| |Nishikawa|D,EL|D|H-1|POL/DA
E1772|E1772014| |Nogga|D,EL|D|H-1|POL/DA
E1772|E1772014| |Ohnishi|D,EL|D|H-1|POL/DA
E1772|E1772014| |Okamura|D,EL|D|H-1|POL/DA
E1772|E1772014| |Sakamoto|D,EL|D|H-1|POL/DA
E1772|E1772014| |Sakoda|D,EL|D|H-1|POL/DA
E1772|E1772014| |Satou|D,EL|D|H-1|POL/DA
E1772|E1772014| |Suda|D,EL|D|H-1|POL/DA
E1772|E1772014| |Tamii|D,EL|D|H-1|POL/DA
E1772|E1772014| |Uesaka|D,EL|D|H-1|POL/DA
E1772|E1772014| |Wakasa|D,EL|D|H-1|POL/DA
E1772|E1772014| |Yako|D,EL|D|H-1|POL/DA
E1772|E1772015| |Sekiguchi|D,EL|D|H-1|POL/DA
E1772|E1772015| |Sakai|D,EL|D|H-1|POL/DA
E1772|E1772015| |Witala|D,EL|D|H-1|POL/DA
E1772|E1772015| |Glockle|D,EL|D|H-1|POL/DA
E1772|E1772015| |Golak|D,EL|D|H-1|POL/DA
E1772|E1772015| |Hatano|D,EL|D|H-1|POL/DA
E1772|E1772015| |Kamada|D,EL|D|H-1|POL/DA
E1772|E1772015| |Kato|D,EL|D|H-1|POL/DA
E1772|E1772015| |Maeda|D,EL|D|H-1|POL/DA
E1772|E1772015| |Nishikawa|D,EL|D|H-1|POL/DA
E1772|E1772015| |Nogga|D,EL|D|H-1|POL/DA
E1772|E1772015| |Ohnishi|D,EL|D|H-1|POL/DA
E1772|E1772015| |Okamura|D,EL|D|H-1|POL/DA
E1772|E1772015| |Sakamoto|D,EL|D|H-1|POL/DA
E1772|E1772015| |Sakoda|D,EL|D|H-1|POL/DA
E1772|E1772015| |Satou|D,EL|D|H-1|POL/DA
E1772|E1772015| |Suda|D,EL|D|H-1|POL/DA
E1772|E1772015| |Tamii|D,EL|D|H-1|POL/DA
E1772|E1772015| |Uesaka|D,EL|D|H-1|POL/DA
E1772|E1772015| |Wakasa|D,EL|D|H-1|POL/DA
E1772|E1772015| |Yako|D,EL|D|H-1|POL/DA
E1772|E1772016| |Sekiguchi|D,EL|D|H-1|POL/DA
E1772|E1772016| |Sakai|D,EL|D|H-1|POL/DA
E1772|E1772016| |Witala|D,EL|D|H-1|POL/DA
E1772|E1772016| |Glockle|D,EL|D|H-1|POL/DA
E1772|E1772016| |Golak|D,EL|D|H-1|POL/DA
E1772|E1772016| |Hatano|D,EL|D|H-1|POL/DA
E1772|E1772016| |Kamada|D,EL|D|H-1|POL/DA
E1772|E1772016| |Kato|D,EL|D|H-1|POL/DA
E1772|E1772016| |Maeda|D,EL|D|H-1|POL/DA
E1772|E1772016| |Nishikawa|D,EL|D|H-1|POL/DA
E1772|E1772016| |Nogga|D,EL|D|H-1|POL/DA
E1772|E1772016| |Ohnishi|D,EL|D|H-1|POL/DA
E1772|E1772016| |Okamura|D,EL|D|H-1|POL/DA
E1772|E1772016| |Sakamoto|D,EL|D|H-1|POL/DA
E1772|E1772016| |Sakoda|D,EL|D|H-1|POL/DA
E1772|E1772016| |Satou|D,EL|D|H-1|POL/DA
E1772|E1772016| |Suda|D,EL|D|H-1|POL/DA
E1772|E1772016| |Tamii|D,EL|D|H-1|POL/DA
E1772|E1772016| |Uesaka|D,EL|D|H-1|POL/DA
E1772|E1772016| |Wakasa|D,EL|D|H-1|POL/DA
E1772|E1772016| |Yako|D,EL|D|H-1|POL/DA
E1772|E1772017| |Sekiguchi|D,EL|D|H-1|POL/DA
E1772|E1772017| |Sakai|D,EL|D|H-1|POL/DA
E1772|E1772017| |Witala|D,EL|D|H-1|POL/DA
E1772|E1772017| |Glockle|D,EL|D|H-1|POL/DA
E1772|E1772017| |Golak|D,EL|D|H-1|POL/DA
E1772|E1772017| |Hatano|D,EL|D|H-1|POL/DA
E1772|E1772017| |Kamada|D,EL|D|H-1|POL/DA
E1772|E1772017| |Kato|D,EL|D|H-1|POL/DA
E1772|E1772017| |Maeda|D,EL|D|H-1|POL/DA
E1772|E1772017| |Nishikawa|D,EL|D|H-1|POL/DA
E1772|E1772017| |Nogga|D,EL|D|H-1|POL/DA
E1772|E1772017| |Ohnishi|D,EL|D|H-1|POL/DA
E1772|E1772017| |Okamura|D,EL|D|H-1|POL/DA
E1772|E1772017| |Sakamoto|D,EL|D|H-1|POL/DA
E1772|E1772017| |Sakoda|D,EL|D|H-1|POL/DA
E1772|E1772017| |Satou|D,EL|D|H-1|POL/DA
E1772|E1772017| |Suda|D,EL|D|H-1|POL/DA
E1772|E1772017| |Tamii|D,EL|D|H-1|POL/DA
E1772|E1772017| |Uesaka|D,EL|D|H-1|POL/DA
E1772|E1772017| |Wakasa|D,EL|D|H-1|POL/DA
E1772|E1772017| |Yako|D,EL|D|H-1|POL/DA
E1772|E1772018| |Sekiguchi|D,EL|D|H-1|POL/DA
E1772|E1772018| |Sakai|D,EL|D|H-1|POL/DA
E1772|E1772018| |Witala|D,EL|D|H-1|POL/DA
E1772|E1772018| |Glockle|D,EL|D|H-1|POL/DA
E1772|E1772018| |Golak|D,EL|D|H-1|POL/DA
E1772|E1772018| |Hatano|D,EL|D|H-1|POL/DA
E1772|E1772018| |Kamada|D,EL|D|H-1|POL/DA
E1772|E1772018| |Kato|D,EL|D|H-1|POL/DA
E1772|E1772018| |Maeda|D,EL|D|H-1|POL/DA
E1772|E1772018| |Nishikawa|D,EL|D|H-1|POL/DA
E1772|E1772018| |Nogga|D,EL|D|H-1|POL/DA
E1772|E1772018| |Ohnishi|D,EL|D|H-1|POL/DA
E1772|E1772018| |Okamura|D,EL|D|H-1|POL/DA
E1772|E1772018| |Sakamoto|D,EL|D|H-1|POL/DA
E1772|E1772018| |Sakoda|D,EL|D|H-1|POL/DA
E1772|E1772018| |Satou|D,EL|D|H-1|POL/DA
E1772|E1772018| |Suda|D,EL|D|H-1|POL/DA
E1772|E1772018| |Tamii|D,EL|D|H-1|POL/DA
E1772|E1772018| |Uesaka|D,EL|D|H-1|POL/DA
E1772|E1772018| |Wakasa|D,EL|D|H-1|POL/DA
E1772|E1772018| |Yako|D,EL|D|H-1|POL/DA
E1772|E1772019| |Sekiguchi|D,EL|D|H-1|POL/DA
E1772|E1772019| |Sakai|D,EL|D|H-1|POL/DA
E1772|E1772019| |Witala|D,EL|D|H-1|POL/DA
E1772|E1772019| |Glockle|D,EL|D|H-1|POL/DA
E1772|E1772019| |Golak|D,EL|D|H-1|POL/DA
E1772|E1772019| |Hatano|D,EL|D|H-1|POL/DA
E1772|E1772019| |Kamada|D,EL|D|H-1|POL/DA
E1772|E1772019| |Kato|D,EL|D|H-1|POL/DA
E1772|E1772019| |Maeda|D,EL|D|H-1|POL/DA
E1772|E1772019| |Nishikawa|D,EL|D|H-1|POL/DA
E1772|E1772019| |Nogga|D,EL|D|H-1|POL/DA
E1772|E1772019| |Ohnishi|D,EL|D|H-1|POL/DA
E1772|E1772019| |Okamura|D,EL|D|H-1|POL/DA
E1772|E1772019| |Sakamoto|D,EL|D|H-1|POL/DA
E1772|E1772019| |Sakoda|D,EL|D|H-1|POL/DA
E1772|E1772019| |Satou|D,EL|D|H-1|POL/DA
E1772|E1772019| |Suda|D,EL|D|H-1|POL/DA
E1772|E1772019| |Tamii|D,EL|D|H-1|POL/DA
E1772|E1772019| |Uesaka|D,EL|D|H-1|POL/DA
E1772|E1772019| |Wakasa|D,EL|D|H-1|POL/DA
E1772|E1772019| |Yako|D,EL|D|H-1|POL/DA
E1772|E1772020| |Sekiguchi|D,EL|D|H-1|POL/DA
E1772|E1772020| |Sakai|D,EL|D|H-1|POL/DA
E1772|E1772020| |Witala|D,EL|D|H-1|POL/DA
E1772|E1772020| |Glockle|D,EL|D|H-1|POL/DA
E1772|E1772020| |Golak|D,EL|D|H-1|POL/DA
E1772|E1772020| |Hatano|D,EL|D|H-1|POL/DA
E1772|E1772020| |Kamada|D,EL|D|H-1|POL/DA
E1772|E1772020| |Kato|D,EL|D|H-1|POL/DA
E1772|E1772020| |Maeda|D,EL|D|H-1|POL/DA
E1772|E1772020| |Nishikawa|D,EL|D|H-1|POL/DA
E1772|E1772020| |Nogga|D,EL|D|H-1|POL/DA
E1772|E1772020| |Ohnishi|D,EL|D|H-1|POL/DA
E1772|E1772020| |Okamura|D,EL|D|H-1|POL/DA
E1772|E1772020| |Sakamoto|D,EL|D|H-1|POL/DA
E1772|E1772020| |Sakoda|D,EL|D|H-1|POL/DA
E1772|E1772020| |Satou|D,EL|D|H-1|POL/DA
E1772|E1772020| |Suda|D,EL|D|H-1|POL/DA
E1772|E1772020| |Tamii|D,EL|D|H-1|POL/DA
E1772|E1772020| |Uesaka|D,EL|D|H-1|POL/DA
E1772|E1772020| |Wakasa|D,EL|D|H-1|POL/DA
E1772|E1772020| |Yako|D,EL|D|H-1|POL/DA
E1772|E1772021| |Sekiguchi|D,EL|D|H-1|POL/DA
E1772|E1772021| |Sakai|D,EL|D|H-1|POL/DA
E1772|E1772021| |Witala|D,EL|D|H-1|POL/DA
E1772|E1772021| |Glockle|D,EL|D|H-1|POL/DA
E1772|E1772021| |Golak|D,EL|D|H-1|POL/DA
E1772|E1772021| |Hatano|D,EL|D|H-1|POL/DA
E1772|E1772021| |Kamada|D,EL|D|H-1|POL/DA
E1772|E1772021| |Kato|D,EL|D|H-1|POL/DA
E1772|E1772021| |Maeda|D,EL|D|H-1|POL/DA
E1772|E1772021| |Nishikawa|D,EL|D|H-1|POL/DA
E1772|E1772021| |Nogga|D,EL|D|H-1|POL/DA
E1772|E1772021| |Ohnishi|D,EL|D|H-1|POL/DA
E1772|E1772021| |Okamura|D,EL|D|H-1|POL/DA
E1772|E1772021| |Sakamoto|D,EL|D|H-1|POL/DA
E1772|E1772021| |Sakoda|D,EL|D|H-1|POL/DA
E1772|E1772021| |Satou|D,EL|D|H-1|POL/DA
E1772|E1772021| |Suda|D,EL|D|H-1|POL/DA
E1772|E1772021| |Tamii|D,EL|D|H-1|POL/DA
E1772|E1772021| |Uesaka|D,EL|D|H-1|POL/DA
E1772|E1772021| |Wakasa|D,EL|D|H-1|POL/DA
E1772|E1772021| |Yako|D,EL|D|H-1|POL/DA
E1772|E1772022| |Sekiguchi|D,EL|D|H-1|POL/DA
E1772|E1772022| |Sakai|D,EL|D|H-1|POL/DA
E1772|E1772022| |Witala|D,EL|D|H-1|POL/DA
E1772|E1772022| |Glockle|D,EL|D|H-1|POL/DA
E1772|E1772022| |Golak|D,EL|D|H-1|POL/DA
E1772|E1772022| |Hatano|D,EL|D|H-1|POL/DA
E1772|E1772022| |Kamada|D,EL|D|H-1|POL/DA
E1772|E1772022| |Kato|D,EL|D|H-1|POL/DA
E1772|E1772022| |Maeda|D,EL|D|H-1|POL/DA
E1772|E1772022| |Nishikawa|D,EL|D|H-1|POL/DA
E1772|E1772022| |Nogga|D,EL|D|H-1|POL/DA
E1772|E1772022| |Ohnishi|D,EL|D|H-1|POL/DA
E1772|E1772022| |Okamura|D,EL|D|H-1|POL/DA
E1772|E1772022| |Sakamoto|D,EL|D|H-1|POL/DA
E1772|E1772022| |Sakoda|D,EL|D|H-1|POL/DA
E1772|E1772022| |Satou|D,EL|D|H-1|POL/DA
E1772|E1772022| |Suda|D,EL|D|H-1|POL/DA
E1772|E1772022| |Tamii|D,EL|D|H-1|POL/DA
E1772|E1772022| |Uesaka|D,EL|D|H-1|POL/DA
E1772|E1772022| |Wakasa|D,EL|D|H-1|POL/DA
E1772|E1772022| |Yako|D,EL|D|H-1|POL/DA
E1772|E1772023| |Sekiguchi|D,EL|D|H-1|POL/DA
E1772|E1772023| |Sakai|D,EL|D|H-1|POL/DA
E1772|E1772023| |Witala|D,EL|D|H-1|POL/DA
E1772|E1772023| |Glockle|D,EL|D|H-1|POL/DA
E1772|E1772023| |Golak|D,EL|D|H-1|POL/DA
E1772|E1772023| |Hatano|D,EL|D|H-1|POL/DA
E1772|E1772023| |Kamada|D,EL|D|H-1|POL/DA
E1772|E1772023| |Kato|D,EL|D|H-1|POL/DA
E1772|E1772023| |Maeda|D,EL|D|H-1|POL/DA
E1772|E1772023| |Nishikawa|D,EL|D|H-1|POL/DA
E1772|E1772023| |Nogga|D,EL|D|H-1|POL/DA
E1772|E1772023| |Ohnishi|D,EL|D|H-1|POL/DA
E1772|E1772023| |Okamura|D,EL|D|H-1|POL/DA
E1772|E1772023| |Sakamoto|D,EL|D|H-1|POL/DA
E1772|E1772023| |Sakoda|D,EL|D|H-1|POL/DA
E1772|E1772023| |Satou|D,EL|D|H-1|POL/DA
E1772|E1772023| |Suda|D,EL|D|H-1|POL/DA
E1772|E1772023| |Tamii|D,EL|D|H-1|POL/DA
E1772|E1772023| |Uesaka|D,EL|D|H-1|POL/DA
E1772|E1772023| |Wakasa|D,EL|D|H-1|POL/DA
E1772|E1772023| |Yako|D,EL|D|H-1|POL/DA
E1772|E1772024| |Sekiguchi|D,EL|D|H-1|POL/DA
E1772|E1772024| |Sakai|D,EL|D|H-1|POL/DA
E1772|E1772024| |Witala|D,EL|D|H-1|POL/DA
E1772|E1772024| |Glockle|D,EL|D|H-1|POL/DA
E1772|E1772024| |Golak|D,EL|D|H-1|POL/DA
E1772|E1772024| |Hatano|D,EL|D|H-1|POL/DA
E1772|E1772024| |Kamada|D,EL|D|H-1|POL/DA
E1772|E1772024| |Kato|D,EL|D|H-1|POL/DA
E1772|E1772024| |Maeda|D,EL|D|H-1|POL/DA
E1772|E1772024| |Nishikawa|D,EL|D|H-1|POL/DA
E1772|E1772024| |Nogga|D,EL|D|H-1|POL/DA
E1772|E1772024| |Ohnishi|D,EL|D|H-1|POL/DA
E1772|E1772024| |Okamura|D,EL|D|H-1|POL/DA
E1772|E1772024| |Sakamoto|D,EL|D|H-1|POL/DA
E1772|E1772024| |Sakoda|D,EL|D|H-1|POL/DA
E1772|E1772024| |Satou|D,EL|D|H-1|POL/DA
E1772|E1772024| |Suda|D,EL|D|H-1|POL/DA
E1772|E1772024| |Tamii|D,EL|D|H-1|POL/DA
E1772|E1772024| |Uesaka|D,EL|D|H-1|POL/DA
E1772|E1772024| |Wakasa|D,EL|D|H-1|POL/DA
E1772|E1772024| |Yako|D,EL|D|H-1|POL/DA
E1907|E1907002| |Sekiguchi|D,EL|D|H-1|POL/DA
E1907|E1907002| |Sakai|D,EL|D|H-1|POL/DA
E1907|E1907002| |Witala|D,EL|D|H-1|POL/DA
E1907|E1907002| |Ermisch|D,EL|D|H-1|POL/DA
E1907|E1907002| |Glockle|D,EL|D|H-1|POL/DA
E1907|E1907002| |Golak|D,EL|D|H-1|POL/DA
E1907|E1907002| |Hatano|D,EL|D|H-1|POL/DA
E1907|E1907002| |Kamada|D,EL|D|H-1|POL/DA
E1907|E1907002| |Kalantar-Nayestanaki|D,EL|D|H-1|POL/DA
E1907|E1907002| |Kato|D,EL|D|H-1|POL/DA
E1907|E1907002| |Maeda|D,EL|D|H-1|POL/DA
E1907|E1907002| |Nishikawa|D,EL|D|H-1|POL/DA
E1907|E1907002| |Nogga|D,EL|D|H-1|POL/DA
E1907|E1907002| |Ohnishi|D,EL|D|H-1|POL/DA
E1907|E1907002| |Okamura|D,EL|D|H-1|POL/DA
E1907|E1907002| |Saito|D,EL|D|H-1|POL/DA
E1907|E1907002| |Sakamoto|D,EL|D|H-1|POL/DA
E1907|E1907002| |Sakoda|D,EL|D|H-1|POL/DA
E1907|E1907002| |Satou|D,EL|D|H-1|POL/DA
E1907|E1907002| |Suda|D,EL|D|H-1|POL/DA
E1907|E1907002| |Tamii|D,EL|D|H-1|POL/DA
E1907|E1907002| |Uchigashima|D,EL|D|H-1|POL/DA
E1907|E1907002| |Uesaka|D,EL|D|H-1|POL/DA
E1907|E1907002| |Wakasa|D,EL|D|H-1|POL/DA
E1907|E1907002| |Yako|D,EL|D|H-1|POL/DA
E1907|E1907003| |Sekiguchi|D,EL|D|H-1|POL/DA
E1907|E1907003| |Sakai|D,EL|D|H-1|POL/DA
E1907|E1907003| |Witala|D,EL|D|H-1|POL/DA
E1907|E1907003| |Ermisch|D,EL|D|H-1|POL/DA
E1907|E1907003| |Glockle|D,EL|D|H-1|POL/DA
E1907|E1907003| |Golak|D,EL|D|H-1|POL/DA
E1907|E1907003| |Hatano|D,EL|D|H-1|POL/DA
E1907|E1907003| |Kamada|D,EL|D|H-1|POL/DA
E1907|E1907003| |Kalantar-Nayestanaki|D,EL|D|H-1|POL/DA
E1907|E1907003| |Kato|D,EL|D|H-1|POL/DA
E1907|E1907003| |Maeda|D,EL|D|H-1|POL/DA
E1907|E1907003| |Nishikawa|D,EL|D|H-1|POL/DA
E1907|E1907003| |Nogga|D,EL|D|H-1|POL/DA"
/-- rows of x4i3/tests/data/index.tbl -/
def rows10 : String := "E1907|E1907003| |Ohnishi|D,EL|D|H-1|POL/DA
E1907|E1907003| |Okamura|D,EL|D|H-1|POL/DA
E1907|E1907003| |Saito|D,EL|D|H-1|POL/DA
E1907|E1907003| |Sakamoto|D,EL|D|H-1|POL/DA
E1907|E1907003| |Sakoda|D,EL|D|H-1|POL/DA
E1907|E1907003| |Satou|D,EL|D|H-1|POL/DA
E1907|E1907003| |Suda|D,EL|D|H-1|POL/DA
E1907|E1907003| |Tamii|D,EL|D|H-1|POL/DA
E1907|E1907003| |Uchigashima|D,EL|D|H-1|POL/DA
E1907|E1907003| |Uesaka|D,EL|D|H-1|POL/DA
E1907|E1907003| |Wakasa|D,EL|D|H-1|POL/DA
E1907|E1907003| |Yako|D,EL|D|H-1|POL/DA
E1907|E1907007| |Sekiguchi|D,EL|D|H-1|POL/DA
E1907|E1907007| |Sakai|D,EL|D|H-1|POL/DA
E1907|E1907007| |Witala|D,EL|D|H-1|POL/DA
E1907|E1907007| |Ermisch|D,EL|D|H-1|POL/DA
E1907|E1907007| |Glockle|D,EL|D|H-1|POL/DA
E1907|E1907007| |Golak|D,EL|D|H-1|POL/DA
E1907|E1907007| |Hatano|D,EL|D|H-1|POL/DA
E1907|E1907007| |Kamada|D,EL|D|H-1|POL/DA
E1907|E1907007| |Kalantar-Nayestanaki|D,EL|D|H-1|POL/DA
E1907|E1907007| |Kato|D,EL|D|H-1|POL/DA
E1907|E1907007| |Maeda|D,EL|D|H-1|POL/DA
E1907|E1907007| |Nishikawa|D,EL|D|H-1|POL/DA
E1907|E1907007| |Nogga|D,EL|D|H-1|POL/DA
E1907|E1907007| |Ohnishi|D,EL|D|H-1|POL/DA
E1907|E1907007| |Okamura|D,EL|D|H-1|POL/DA
E1907|E1907007| |Saito|D,EL|D|H-1|POL/DA
E1907|E1907007| |Sakamoto|D,EL|D|H-1|POL/DA
E1907|E1907007| |Sakoda|D,EL|D|H-1|POL/DA
E1907|E1907007| |Satou|D,EL|D|H-1|POL/DA
E1907|E1907007| |Suda|D,EL|D|H-1|POL/DA
E1907|E1907007| |Tamii|D,EL|D|H-1|POL/DA
E1907|E1907007| |Uchigashima|D,EL|D|H-1|POL/DA
E1907|E1907007| |Uesaka|D,EL|D|H-1|POL/DA
E1907|E1907007| |Wakasa|D,EL|D|H-1|POL/DA
E1907|E1907007| |Yako|D,EL|D|H-1|POL/DA
E1907|E1907008| |Sekiguchi|D,EL|D|H-1|POL/DA
E1907|E1907008| |Sakai|D,EL|D|H-1|POL/DA
E1907|E1907008| |Witala|D,EL|D|H-1|POL/DA
E1907|E1907008| |Ermisch|D,EL|D|H-1|POL/DA
E1907|E1907008| |Glockle|D,EL|D|H-1|POL/DA
E1907|E1907008| |Golak|D,EL|D|H-1|POL/DA
E1907|E1907008| |Hatano|D,EL|D|H-1|POL/DA
E1907|E1907008| |Kamada|D,EL|D|H-1|POL/DA
E1907|E1907008| |Kalantar-Nayestanaki|D,EL|D|H-1|POL/DA
E1907|E1907008| |Kato|D,EL|D|H-1|POL/DA
E1907|E1907008| |Maeda|D,EL|D|H-1|POL/DA
E1907|E1907008| |Nishikawa|D,EL|D|H-1|POL/DA
E1907|E1907008| |Nogga|D,EL|D|H-1|POL/DA
E1907|E1907008| |Ohnishi|D,EL|D|H-1|POL/DA
E1907|E1907008| |Okamura|D,EL|D|H-1|POL/DA
E1907|E1907008| |Saito|D,EL|D|H-1|POL/DA
E1907|E1907008| |Sakamoto|D,EL|D|H-1|POL/DA
E1907|E1907008| |Sakoda|D,EL|D|H-1|POL/DA
E1907|E1907008| |Satou|D,EL|D|H-1|POL/DA
E1907|E1907008| |Suda|D,EL|D|H-1|POL/DA
E1907|E1907008| |Tamii|D,EL|D|H-1|POL/DA
E1907|E1907008| |Uchigashima|D,EL|D|H-1|POL/DA
E1907|E1907008| |Uesaka|D,EL|D|H-1|POL/DA
E1907|E1907008| |Wakasa|D,EL|D|H-1|POL/DA
E1907|E1907008| |Yako|D,EL|D|H-1|POL/DA
E1907|E1907009| |Sekiguchi|D,EL|D|H-1|POL/DA
E1907|E1907009| |Sakai|D,EL|D|H-1|POL/DA
E1907|E1907009| |Witala|D,EL|D|H-1|POL/DA
E1907|E1907009| |Ermisch|D,EL|D|H-1|POL/DA
E1907|E1907009| |Glockle|D,EL|D|H-1|POL/DA
E1907|E1907009| |Golak|D,EL|D|H-1|POL/DA
E1907|E1907009| |Hatano|D,EL|D|H-1|POL/DA
E1907|E1907009| |Kamada|D,EL|D|H-1|POL/DA
E1907|E1907009| |Kalantar-Nayestanaki|D,EL|D|H-1|POL/DA
E1907|E1907009| |Kato|D,EL|D|H-1|POL/DA
E1907|E1907009| |Maeda|D,EL|D|H-1|POL/DA
E1907|E1907009| |Nishikawa|D,EL|D|H-1|POL/DA
E1907|E1907009| |Nogga|D,EL|D|H-1|POL/DA
E1907|E1907009| |Ohnishi|D,EL|D|H-1|POL/DA
E1907|E1907009| |Okamura|D,EL|D|H-1|POL/DA
E1907|E1907009| |Saito|D,EL|D|H-1|POL/DA
E1907|E1907009| |Sakamoto|D,EL|D|H-1|POL/DA
E1907|E1907009| |Sakoda|D,EL|D|H-1|POL/DA
E1907|E1907009| |Satou|D,EL|D|H-1|POL/DA
E1907|E1907009| |Suda|D,EL|D|H-1|POL/DA
E1907|E1907009| |Tamii|D,EL|D|H-1|POL/DA
E1907|E1907009| |Uchigashima|D,EL|D|H-1|POL/DA
E1907|E1907009| |Uesaka|D,EL|D|H-1|POL/DA
E1907|E1907009| |Wakasa|D,EL|D|H-1|POL/DA
E1907|E1907009| |Yako|D,EL|D|H-1|POL/DA
E1907|E1907010| |Sekiguchi|D,EL|D|H-1|POL/DA
E1907|E1907010| |Sakai|D,EL|D|H-1|POL/DA
E1907|E1907010| |Witala|D,EL|D|H-1|POL/DA
E1907|E1907010| |Ermisch|D,EL|D|H-1|POL/DA
E1907|E1907010| |Glockle|D,EL|D|H-1|POL/DA
E1907|E1907010| |Golak|D,EL|D|H-1|POL/DA
E1907|E1907010| |Hatano|D,EL|D|H-1|POL/DA
E1907|E1907010| |Kamada|D,EL|D|H-1|POL/DA
E1907|E1907010| |Kalantar-Nayestanaki|D,EL|D|H-1|POL/DA
E1907|E1907010| |Kato|D,EL|D|H-1|POL/DA
E1907|E1907010| |Maeda|D,EL|D|H-1|POL/DA
E1907|E1907010| |Nishikawa|D,EL|D|H-1|POL/DA
E1907|E1907010| |Nogga|D,EL|D|H-1|POL/DA
E1907|E1907010| |Ohnishi|D,EL|D|H-1|POL/DA
E1907|E1907010| |Okamura|D,EL|D|H-1|POL/DA
E1907|E1907010| |Saito|D,EL|D|H-1|POL/DA
E1907|E1907010| |Sakamoto|D,EL|D|H-1|POL/DA
E1907|E1907010| |Sakoda|D,EL|D|H-1|POL/DA
E1907|E1907010| |Satou|D,EL|D|H-1|POL/DA
E1907|E1907010| |Suda|D,EL|D|H-1|POL/DA
E1907|E1907010| |Tamii|D,EL|D|H-1|POL/DA
E1907|E1907010| |Uchigashima|D,EL|D|H-1|POL/DA
E1907|E1907010| |Uesaka|D,EL|D|H-1|POL/DA
E1907|E1907010| |Wakasa|D,EL|D|H-1|POL/DA
E1907|E1907010| |Yako|D,EL|D|H-1|POL/DA
E1907|E1907011| |Sekiguchi|D,EL|D|H-1|POL/DA
E1907|E1907011| |Sakai|D,EL|D|H-1|POL/DA
E1907|E1907011| |Witala|D,EL|D|H-1|POL/DA
E1907|E1907011| |Ermisch|D,EL|D|H-1|POL/DA
E1907|E1907011| |Glockle|D,EL|D|H-1|POL/DA
E1907|E1907011| |Golak|D,EL|D|H-1|POL/DA
E1907|E1907011| |Hatano|D,EL|D|H-1|POL/DA
E1907|E1907011| |Kamada|D,EL|D|H-1|POL/DA
E1907|E1907011| |Kalantar-Nayestanaki|D,EL|D|H-1|POL/DA
E1907|E1907011| |Kato|D,EL|D|H-1|POL/DA
E1907|E1907011| |Maeda|D,EL|D|H-1|POL/DA
E1907|E1907011| |Nishikawa|D,EL|D|H-1|POL/DA
E1907|E1907011| |Nogga|D,EL|D|H-1|POL/DA
E1907|E1907011| |Ohnishi|D,EL|D|H-1|POL/DA
E1907|E1907011| |Okamura|D,EL|D|H-1|POL/DA
E1907|E1907011| |Saito|D,EL|D|H-1|POL/DA
E1907|E1907011| |Sakamoto|D,EL|D|H-1|POL/DA
E1907|E1907011| |Sakoda|D,EL|D|H-1|POL/DA
E1907|E1907011| |Satou|D,EL|D|H-1|POL/DA
E1907|E1907011| |Suda|D,EL|D|H-1|POL/DA
E1907|E1907011| |Tamii|D,EL|D|H-1|POL/DA
E1907|E1907011| |Uchigashima|D,EL|D|H-1|POL/DA
E1907|E1907011| |Uesaka|D,EL|D|H-1|POL/DA
E1907|E1907011| |Wakasa|D,EL|D|H-1|POL/DA
E1907|E1907011| |Yako|D,EL|D|H-1|POL/DA
E1907|E1907012| |Sekiguchi|D,EL|D|H-1|POL/DA
E1907|E1907012| |Sakai|D,EL|D|H-1|POL/DA
E1907|E1907012| |Witala|D,EL|D|H-1|POL/DA
E1907|E1907012| |Ermisch|D,EL|D|H-1|POL/DA
E1907|E1907012| |Glockle|D,EL|D|H-1|POL/DA
E1907|E1907012| |Golak|D,EL|D|H-1|POL/DA
E1907|E1907012| |Hatano|D,EL|D|H-1|POL/DA
E1907|E1907012| |Kamada|D,EL|D|H-1|POL/DA
E1907|E1907012| |Kalantar-Nayestanaki|D,EL|D|H-1|POL/DA
E1907|E1907012| |Kato|D,EL|D|H-1|POL/DA
E1907|E1907012| |Maeda|D,EL|D|H-1|POL/DA
E1907|E1907012| |Nishikawa|D,EL|D|H-1|POL/DA
E1907|E1907012| |Nogga|D,EL|D|H-1|POL/DA
E1907|E1907012| |Ohnishi|D,EL|D|H-1|POL/DA
E1907|E1907012| |Okamura|D,EL|D|H-1|POL/DA
E1907|E1907012| |Saito|D,EL|D|H-1|POL/DA
E1907|E1907012| |Sakamoto|D,EL|D|H-1|POL/DA
E1907|E1907012| |Sakoda|D,EL|D|H-1|POL/DA
E1907|E1907012| |Satou|D,EL|D|H-1|POL/DA
E1907|E1907012| |Suda|D,EL|D|H-1|POL/DA
E1907|E1907012| |Tamii|D,EL|D|H-1|POL/DA
E1907|E1907012| |Uchigashima|D,EL|D|H-1|POL/DA
E1907|E1907012| |Uesaka|D,EL|D|H-1|POL/DA
E1907|E1907012| |Wakasa|D,EL|D|H-1|POL/DA
E1907|E1907012| |Yako|D,EL|D|H-1|POL/DA
E1907|E1907013| |Sekiguchi|D,EL|D|H-1|POL/DA
E1907|E1907013| |Sakai|D,EL|D|H-1|POL/DA
E1907|E1907013| |Witala|D,EL|D|H-1|POL/DA
E1907|E1907013| |Ermisch|D,EL|D|H-1|POL/DA
E1907|E1907013| |Glockle|D,EL|D|H-1|POL/DA
E1907|E1907013| |Golak|D,EL|D|H-1|POL/DA
E1907|E1907013| |Hatano|D,EL|D|H-1|POL/DA
E1907|E1907013| |Kamada|D,EL|D|H-1|POL/DA
E1907|E1907013| |Kalantar-Nayestanaki|D,EL|D|H-1|POL/DA
E1907|E1907013| |Kato|D,EL|D|H-1|POL/DA
E1907|E1907013| |Maeda|D,EL|D|H-1|POL/DA
E1907|E1907013| |Nishikawa|D,EL|D|H-1|POL/DA
E1907|E1907013| |Nogga|D,EL|D|H-1|POL/DA
E1907|E1907013| |Ohnishi|D,EL|D|H-1|POL/DA
E1907|E1907013| |Okamura|D,EL|D|H-1|POL/DA
E1907|E1907013| |Saito|D,EL|D|H-1|POL/DA
E1907|E1907013| |Sakamoto|D,EL|D|H-1|POL/DA
E1907|E1907013| |Sakoda|D,EL|D|H-1|POL/DA
E1907|E1907013| |Satou|D,EL|D|H-1|POL/DA
E1907|E1907013| |Suda|D,EL|D|H-1|POL/DA
E1907|E1907013| |Tamii|D,EL|D|H-1|POL/DA
E1907|E1907013| |Uchigashima|D,EL|D|H-1|POL/DA
E1907|E1907013| |Uesaka|D,EL|D|H-1|POL/DA
E1907|E1907013| |Wakasa|D,EL|D|H-1|POL/DA
E1907|E1907013| |Yako|D,EL|D|H-1|POL/DA
E1907|E1907014| |Sekiguchi|D,EL|D|H-1|POL/DA
E1907|E1907014| |Sakai|D,EL|D|H-1|POL/DA
E1907|E1907014| |Witala|D,EL|D|H-1|POL/DA
E1907|E1907014| |Ermisch|D,EL|D|H-1|POL/DA
E1907|E1907014| |Glockle|D,EL|D|H-1|POL/DA
E1907|E1907014| |Golak|D,EL|D|H-1|POL/DA
E1907|E1907014| |Hatano|D,EL|D|H-1|POL/DA
E1907|E1907014| |Kamada|D,EL|D|H-1|POL/DA
E1907|E1907014| |Kalantar-Nayestanaki|D,EL|D|H-1|POL/DA
E1907|E1907014| |Kato|D,EL|D|H-1|POL/DA
E1907|E1907014| |Maeda|D,EL|D|H-1|POL/DA
E1907|E1907014| |Nishikawa|D,EL|D|H-1|POL/DA
E1907|E1907014| |Nogga|D,EL|D|H-1|POL/DA
E1907|E1907014| |Ohnishi|D,EL|D|H-1|POL/DA
E1907|E1907014| |Okamura|D,EL|D|H-1|POL/DA
E1907|E1907014| |Saito|D,EL|D|H-1|POL/DA
E1907|E1907014| |Sakamoto|D,EL|D|H-1|POL/DA
E1907|E1907014| |Sakoda|D,EL|D|H-1|POL/DA
E1907|E1907014| |Satou|D,EL|D|H-1|POL/DA
E1907|E1907014| |Suda|D,EL|D|H-1|POL/DA
E1907|E1907014| |Tamii|D,EL|D|H-1|POL/DA
E1907|E1907014| |Uchigashima|D,EL|D|H-1|POL/DA
E1907|E1907014| |Uesaka|D,EL|D|H-1|POL/DA
E1907|E1907014| |Wakasa|D,EL|D|H-1|POL/DA
E1907|E1907014| |Yako|D,EL|D|H-1|POL/DA
E2008|E2008002| |Suda|D,EL|D|H-1|POL/DA
E2008|E2008002| |Okamura|D,EL|D|H-1|POL/DA
E2008|E2008002| |Uesaka|D,EL|D|H-1|POL/DA
E2008|E2008002| |Nishikawa|D,EL|D|H-1|POL/DA
E2008|E2008002| |Kumasaka|D,EL|D|H-1|POL/DA
E2008|E2008002| |Suzuki|D,EL|D|H-1|POL/DA
E2008|E2008002| |Sakai|D,EL|D|H-1|POL/DA
E2008|E2008002| |Tamii|D,EL|D|H-1|POL/DA
E2008|E2008002| |Ohnishi|D,EL|D|H-1|POL/DA
E2008|E2008002| |Sekiguchi|D,EL|D|H-1|POL/DA
E2008|E2008002| |Yako|D,EL|D|H-1|POL/DA
E2008|E2008002| |Sakoda|D,EL|D|H-1|POL/DA
E2008|E2008002| |Kato|D,EL|D|H-1|POL/DA
E2008|E2008002| |Hatano|D,EL|D|H-1|POL/DA
E2008|E2008002| |Maeda|D,EL|D|H-1|POL/DA
E2008|E2008002| |Saito|D,EL|D|H-1|POL/DA
E2008|E2008002| |Ishida|D,EL|D|H-1|POL/DA
E2008|E2008002| |Sakamoto|D,EL|D|H-1|POL/DA
E2008|E2008002| |Satou|D,EL|D|H-1|POL/DA
E2008|E2008002| |Hatanaka|D,EL|D|H-1|POL/DA
E2008|E2008002| |Wakasa|D,EL|D|H-1|POL/DA
E2008|E2008002| |Kamiya|D,EL|D|H-1|POL/DA
E2008|E2008003| |Suda|D,EL|D|H-1|POL/DA
E2008|E2008003| |Okamura|D,EL|D|H-1|POL/DA
E2008|E2008003| |Uesaka|D,EL|D|H-1|POL/DA
E2008|E2008003| |Nishikawa|D,EL|D|H-1|POL/DA
E2008|E2008003| |Kumasaka|D,EL|D|H-1|POL/DA
E2008|E2008003| |Suzuki|D,EL|D|H-1|POL/DA
E2008|E2008003| |Sakai|D,EL|D|H-1|POL/DA
E2008|E2008003| |Tamii|D,EL|D|H-1|POL/DA
E2008|E2008003| |Ohnishi|D,EL|D|H-1|POL/DA
E2008|E2008003| |Sekiguchi|D,EL|D|H-1|POL/DA
E2008|E2008003| |Yako|D,EL|D|H-1|POL/DA
E2008|E2008003| |Sakoda|D,EL|D|H-1|POL/DA
E2008|E2008003| |Kato|D,EL|D|H-1|POL/DA
E2008|E2008003| |Hatano|D,EL|D|H-1|POL/DA
E2008|E2008003| |Maeda|D,EL|D|H-1|POL/DA
E2008|E2008003| |Saito|D,EL|D|H-1|POL/DA
E2008|E2008003| |Ishida|D,EL|D|H-1|POL/DA
E2008|E2008003| |Sakamoto|D,EL|D|H-1|POL/DA
E2008|E2008003| |Satou|D,EL|D|H-1|POL/DA
E2008|E2008003| |Hatanaka|D,EL|D|H-1|POL/DA
E2008|E2008003| |Wakasa|D,EL|D|H-1|POL/DA
E2008|E2008003| |Kamiya|D,EL|D|H-1|POL/DA
E2008|E2008004| |Suda|D,EL|D|H-1|POL/DA
E2008|E2008004| |Okamura|D,EL|D|H-1|POL/DA
E2008|E2008004| |Uesaka|D,EL|D|H-1|POL/DA
E2008|E2008004| |Nishikawa|D,EL|D|H-1|POL/DA
E2008|E2008004| |Kumasaka|D,EL|D|H-1|POL/DA
E2008|E2008004| |Suzuki|D,EL|D|H-1|POL/DA
E2008|E2008004| |Sakai|D,EL|D|H-1|POL/DA
E2008|E2008004| |Tamii|D,EL|D|H-1|POL/DA
E2008|E2008004| |Ohnishi|D,EL|D|H-1|POL/DA
E2008|E2008004| |Sekiguchi|D,EL|D|H-1|POL/DA
E2008|E2008004| |Yako|D,EL|D|H-1|POL/DA
E2008|E2008004| |Sakoda|D,EL|D|H-1|POL/DA
E2008|E2008004| |Kato|D,EL|D|H-1|POL/DA
E2008|E2008004| |Hatano|D,EL|D|H-1|POL/DA
E2008|E2008004| |Maeda|D,EL|D|H-1|POL/DA
E2008|E2008004| |Saito|D,EL|D|H-1|POL/DA
E2008|E2008004| |Ishida|D,EL|D|H-1|POL/DA
E2008|E2008004| |Sakamoto|D,EL|D|H-1|POL/DA
E2008|E2008004| |Satou|D,EL|D|H-1|POL/DA
E2008|E2008004| |Hatanaka|D,EL|D|H-1|POL/DA
E2008|E2008004| |Wakasa|D,EL|D|H-1|POL/DA
E2008|E2008004| |Kamiya|D,EL|D|H-1|POL/DA
E2008|E2008005| |Suda|D,EL|D|H-1|POL/DA
E2008|E2008005| |Okamura|D,EL|D|H-1|POL/DA
E2008|E2008005| |Uesaka|D,EL|D|H-1|POL/DA
E2008|E2008005| |Nishikawa|D,EL|D|H-1|POL/DA
E2008|E2008005| |Kumasaka|D,EL|D|H-1|POL/DA
E2008|E2008005| |Suzuki|D,EL|D|H-1|POL/DA
E2008|E2008005| |Sakai|D,EL|D|H-1|POL/DA
E2008|E2008005| |Tamii|D,EL|D|H-1|POL/DA
E2008|E2008005| |Ohnishi|D,EL|D|H-1|POL/DA
E2008|E2008005| |Sekiguchi|D,EL|D|H-1|POL/DA
E2008|E2008005| |Yako|D,EL|D|H-1|POL/DA
E2008|E2008005| |Sakoda|D,EL|D|H-1|POL/DA
E2008|E2008005| |Kato|D,EL|D|H-1|POL/DA
E2008|E2008005| |Hatano|D,EL|D|H-1|POL/DA
E2008|E2008005| |Maeda|D,EL|D|H-1|POL/DA
E2008|E2008005| |Saito|D,EL|D|H-1|POL/DA
E2008|E2008005| |Ishida|D,EL|D|H-1|POL/DA
E2008|E2008005| |Sakamoto|D,EL|D|H-1|POL/DA
E2008|E2008005| |Satou|D,EL|D|H-1|POL/DA
E2008|E2008005| |Hatanaka|D,EL|D|H-1|POL/DA
E2008|E2008005| |Wakasa|D,EL|D|H-1|POL/DA
E2008|E2008005| |Kamiya|D,EL|D|H-1|POL/DA
E2008|E2008006| |Suda|D,EL|D|H-1|POL/DA
E2008|E2008006| |Okamura|D,EL|D|H-1|POL/DA
E2008|E2008006| |Uesaka|D,EL|D|H-1|POL/DA
E2008|E2008006| |Nishikawa|D,EL|D|H-1|POL/DA
E2008|E2008006| |Kumasaka|D,EL|D|H-1|POL/DA
E2008|E2008006| |Suzuki|D,EL|D|H-1|POL/DA
E2008|E2008006| |Sakai|D,EL|D|H-1|POL/DA
E2008|E2008006| |Tamii|D,EL|D|H-1|POL/DA
E2008|E2008006| |Ohnishi|D,EL|D|H-1|POL/DA
E2008|E2008006| |Sekiguchi|D,EL|D|H-1|POL/DA
E2008|E2008006| |Yako|D,EL|D|H-1|POL/DA
E2008|E2008006| |Sakoda|D,EL|D|H-1|POL/DA
E2008|E2008006| |Kato|D,EL|D|H-1|POL/DA
E2008|E2008006| |Hatano|D,EL|D|H-1|POL/DA
E2008|E2008006| |Maeda|D,EL|D|H-1|POL/DA
E2008|E2008006| |Saito|D,EL|D|H-1|POL/DA
E2008|E2008006| |Ishida|D,EL|D|H-1|POL/DA
E2008|E2008006| |Sakamoto|D,EL|D|H-1|POL/DA
E2008|E2008006| |Satou|D,EL|D|H-1|POL/DA
E2008|E2008006| |Hatanaka|D,EL|D|H-1|POL/DA
E2008|E2008006| |Wakasa|D,EL|D|H-1|POL/DA
E2008|E2008006| |Kamiya|D,EL|D|H-1|POL/DA
E2008|E2008007| |Suda|D,EL|D|H-1|POL/DA
E2008|E2008007| |Okamura|D,EL|D|H-1|POL/DA
E2008|E2008007| |Uesaka|D,EL|D|H-1|POL/DA
E2008|E2008007| |Nishikawa|D,EL|D|H-1|POL/DA
E2008|E2008007| |Kumasaka|D,EL|D|H-1|POL/DA
E2008|E2008007| |Suzuki|D,EL|D|H-1|POL/DA
E2008|E2008007| |Sakai|D,EL|D|H-1|POL/DA
E2008|E2008007| |Tamii|D,EL|D|H-1|POL/DA
E2008|E2008007| |Ohnishi|D,EL|D|H-1|POL/DA
E2008|E2008007| |Sekiguchi|D,EL|D|H-1|POL/DA
E2008|E2008007| |Yako|D,EL|D|H-1|POL/DA
E2008|E2008007| |Sakoda|D,EL|D|H-1|POL/DA
E2008|E2008007| |Kato|D,EL|D|H-1|POL/DA
E2008|E2008007| |Hatano|D,EL|D|H-1|POL/DA
E2008|E2008007| |Maeda|D,EL|D|H-1|POL/DA
E2008|E2008007| |Saito|D,EL|D|H-1|POL/DA
E2008|E2008007| |Ishida|D,EL|D|H-1|POL/DA
E2008|E2008007| |Sakamoto|D,EL|D|H-1|POL/DA
E2008|E2008007| |Satou|D,EL|D|H-1|POL/DA
E2008|E2008007| |Hatanaka|D,EL|D|H-1|POL/DA
E2008|E2008007| |Wakasa|D,EL|D|H-1|POL/DA
E2008|E2008007| |Kamiya|D,EL|D|H-1|POL/DA
E2008|E2008008| |Suda|D,EL|D|H-1|POL/DA
E2008|E2008008| |Okamura|D,EL|D|H-1|POL/DA
E2008|E2008008| |Uesaka|D,EL|D|H-1|POL/DA
E2008|E2008008| |Nishikawa|D,EL|D|H-1|POL/DA
E2008|E2008008| |Kumasaka|D,EL|D|H-1|POL/DA
E2008|E2008008| |Suzuki|D,EL|D|H-1|POL/DA
E2008|E2008008| |Sakai|D,EL|D|H-1|POL/DA
E2008|E2008008| |Tamii|D,EL|D|H-1|POL/DA
E2008|E2008008| |Ohnishi|D,EL|D|H-1|POL/DA
E2008|E2008008| |Sekiguchi|D,EL|D|H-1|POL/DA
E2008|E2008008| |Yako|D,EL|D|H-1|POL/DA
E2008|E2008008| |Sakoda|D,EL|D|H-1|POL/DA
E2008|E2008008| |Kato|D,EL|D|H-1|POL/DA
E2008|E2008008| |Hatano|D,EL|D|H-1|POL/DA
E2008|E2008008| |Maeda|D,EL|D|H-1|POL/DA
E2008|E2008008| |Saito|D,EL|D|H-1|POL/DA
E2008|E2008008| |Ishida|D,EL|D|H-1|POL/DA
E2008|E2008008| |Sakamoto|D,EL|D|H-1|POL/DA
E2008|E2008008| |Satou|D,EL|D|H-1|POL/DA
E2008|E2008008| |Hatanaka|D,EL|D|H-1|POL/DA
E2008|E2008008| |Wakasa|D,EL|D|H-1|POL/DA
E2008|E2008008| |Kamiya|D,EL|D|H-1|POL/DA
E2008|E2008009| |Suda|D,EL|D|H-1|POL/DA
E2008|E2008009| |Okamura|D,EL|D|H-1|POL/DA
E2008|E2008009| |Uesaka|D,EL|D|H-1|POL/DA
E2008|E2008009| |Nishikawa|D,EL|D|H-1|POL/DA
E2008|E2008009| |Kumasaka|D,EL|D|H-1|POL/DA
E2008|E2008009| |Suzuki|D,EL|D|H-1|POL/DA
E2008|E2008009| |Sakai|D,EL|D|H-1|POL/DA
E2008|E2008009| |Tamii|D,EL|D|H-1|POL/DA
E2008|E2008009| |Ohnishi|D,EL|D|H-1|POL/DA
E2008|E2008009| |Sekiguchi|D,EL|D|H-1|POL/DA
E2008|E2008009| |Yako|D,EL|D|H-1|POL/DA
E2008|E2008009| |Sakoda|D,EL|D|H-1|POL/DA
E2008|E2008009| |Kato|D,EL|D|H-1|POL/DA
E2008|E2008009| |Hatano|D,EL|D|H-1|POL/DA
E2008|E2008009| |Maeda|D,EL|D|H-1|POL/DA
E2008|E2008009| |Saito|D,EL|D|H-1|POL/DA
E2008|E2008009| |Ishida|D,EL|D|H-1|POL/DA
E2008|E2008009| |Sakamoto|D,EL|D|H-1|POL/DA
E2008|E2008009| |Satou|D,EL|D|H-1|POL/DA
E2008|E2008009| |Hatanaka|D,EL|D|H-1|POL/DA
E2008|E2008009| |Wakasa|D,EL|D|H-1|POL/DA
E2008|E2008009| |Kamiya|D,EL|D|H-1|POL/DA
E2052|E2052002| |Mardanpour|D,EL|D|H-1|POL/DA
E2052|E2052002| |Amir-Ahmadi|D,EL|D|H-1|POL/DA
E2052|E2052002| |Deltuva|D,EL|D|H-1|POL/DA
E2052|E2052002| |Itoh|D,EL|D|H-1|POL/DA
E2052|E2052002| |Kalantar-Nayestanaki|D,EL|D|H-1|POL/DA
E2052|E2052002| |Kawabata|D,EL|D|H-1|POL/DA
E2052|E2052002| |Kuboki|D,EL|D|H-1|POL/DA
E2052|E2052002| |Maeda|D,EL|D|H-1|POL/DA
E2052|E2052002| |Messchendorp|D,EL|D|H-1|POL/DA
E2052|E2052002| |Sakaguchi|D,EL|D|H-1|POL/DA
E2052|E2052002| |Sakai|D,EL|D|H-1|POL/DA
E2052|E2052002| |Sakamoto|D,EL|D|H-1|POL/DA"
/-- rows of x4i3/tests/data/index.tbl -/
def rows11 : String := "E2052|E2052002| |Sasamoto|D,EL|D|H-1|POL/DA
E2052|E2052002| |Sasano|D,EL|D|H-1|POL/DA
E2052|E2052002| |Sekiguchi|D,EL|D|H-1|POL/DA
E2052|E2052002| |Suda|D,EL|D|H-1|POL/DA
E2052|E2052002| |Takahashi|D,EL|D|H-1|POL/DA
E2052|E2052002| |Uesaka|D,EL|D|H-1|POL/DA
E2052|E2052002| |Witala|D,EL|D|H-1|POL/DA
E2052|E2052002| |Yako|D,EL|D|H-1|POL/DA
E2052|E2052003| |Mardanpour|D,EL|D|H-1|POL/DA
E2052|E2052003| |Amir-Ahmadi|D,EL|D|H-1|POL/DA
E2052|E2052003| |Deltuva|D,EL|D|H-1|POL/DA
E2052|E2052003| |Itoh|D,EL|D|H-1|POL/DA
E2052|E2052003| |Kalantar-Nayestanaki|D,EL|D|H-1|POL/DA
E2052|E2052003| |Kawabata|D,EL|D|H-1|POL/DA
E2052|E2052003| |Kuboki|D,EL|D|H-1|POL/DA
E2052|E2052003| |Maeda|D,EL|D|H-1|POL/DA
E2052|E2052003| |Messchendorp|D,EL|D|H-1|POL/DA
E2052|E2052003| |Sakaguchi|D,EL|D|H-1|POL/DA
E2052|E2052003| |Sakai|D,EL|D|H-1|POL/DA
E2052|E2052003| |Sakamoto|D,EL|D|H-1|POL/DA
E2052|E2052003| |Sasamoto|D,EL|D|H-1|POL/DA
E2052|E2052003| |Sasano|D,EL|D|H-1|POL/DA
E2052|E2052003| |Sekiguchi|D,EL|D|H-1|POL/DA
E2052|E2052003| |Suda|D,EL|D|H-1|POL/DA
E2052|E2052003| |Takahashi|D,EL|D|H-1|POL/DA
E2052|E2052003| |Uesaka|D,EL|D|H-1|POL/DA
E2052|E2052003| |Witala|D,EL|D|H-1|POL/DA
E2052|E2052003| |Yako|D,EL|D|H-1|POL/DA
E2052|E2052004| |Mardanpour|D,EL|D|H-1|POL/DA
E2052|E2052004| |Amir-Ahmadi|D,EL|D|H-1|POL/DA
E2052|E2052004| |Deltuva|D,EL|D|H-1|POL/DA
E2052|E2052004| |Itoh|D,EL|D|H-1|POL/DA
E2052|E2052004| |Kalantar-Nayestanaki|D,EL|D|H-1|POL/DA
E2052|E2052004| |Kawabata|D,EL|D|H-1|POL/DA
E2052|E2052004| |Kuboki|D,EL|D|H-1|POL/DA
E2052|E2052004| |Maeda|D,EL|D|H-1|POL/DA
E2052|E2052004| |Messchendorp|D,EL|D|H-1|POL/DA
E2052|E2052004| |Sakaguchi|D,EL|D|H-1|POL/DA
E2052|E2052004| |Sakai|D,EL|D|H-1|POL/DA
E2052|E2052004| |Sakamoto|D,EL|D|H-1|POL/DA
E2052|E2052004| |Sasamoto|D,EL|D|H-1|POL/DA
E2052|E2052004| |Sasano|D,EL|D|H-1|POL/DA
E2052|E2052004| |Sekiguchi|D,EL|D|H-1|POL/DA
E2052|E2052004| |Suda|D,EL|D|H-1|POL/DA
E2052|E2052004| |Takahashi|D,EL|D|H-1|POL/DA
E2052|E2052004| |Uesaka|D,EL|D|H-1|POL/DA
E2052|E2052004| |Witala|D,EL|D|H-1|POL/DA
E2052|E2052004| |Yako|D,EL|D|H-1|POL/DA
E2052|E2052005| |Mardanpour|D,EL|D|H-1|POL/DA
E2052|E2052005| |Amir-Ahmadi|D,EL|D|H-1|POL/DA
E2052|E2052005| |Deltuva|D,EL|D|H-1|POL/DA
E2052|E2052005| |Itoh|D,EL|D|H-1|POL/DA
E2052|E2052005| |Kalantar-Nayestanaki|D,EL|D|H-1|POL/DA
E2052|E2052005| |Kawabata|D,EL|D|H-1|POL/DA
E2052|E2052005| |Kuboki|D,EL|D|H-1|POL/DA
E2052|E2052005| |Maeda|D,EL|D|H-1|POL/DA
E2052|E2052005| |Messchendorp|D,EL|D|H-1|POL/DA
E2052|E2052005| |Sakaguchi|D,EL|D|H-1|POL/DA
E2052|E2052005| |Sakai|D,EL|D|H-1|POL/DA
E2052|E2052005| |Sakamoto|D,EL|D|H-1|POL/DA
E2052|E2052005| |Sasamoto|D,EL|D|H-1|POL/DA
E2052|E2052005| |Sasano|D,EL|D|H-1|POL/DA
E2052|E2052005| |Sekiguchi|D,EL|D|H-1|POL/DA
E2052|E2052005| |Suda|D,EL|D|H-1|POL/DA
E2052|E2052005| |Takahashi|D,EL|D|H-1|POL/DA
E2052|E2052005| |Uesaka|D,EL|D|H-1|POL/DA
E2052|E2052005| |Witala|D,EL|D|H-1|POL/DA
E2052|E2052005| |Yako|D,EL|D|H-1|POL/DA
E2052|E2052006| |Mardanpour|D,EL|D|H-1|POL/DA
E2052|E2052006| |Amir-Ahmadi|D,EL|D|H-1|POL/DA
E2052|E2052006| |Deltuva|D,EL|D|H-1|POL/DA
E2052|E2052006| |Itoh|D,EL|D|H-1|POL/DA
E2052|E2052006| |Kalantar-Nayestanaki|D,EL|D|H-1|POL/DA
E2052|E2052006| |Kawabata|D,EL|D|H-1|POL/DA
E2052|E2052006| |Kuboki|D,EL|D|H-1|POL/DA
E2052|E2052006| |Maeda|D,EL|D|H-1|POL/DA
E2052|E2052006| |Messchendorp|D,EL|D|H-1|POL/DA
E2052|E2052006| |Sakaguchi|D,EL|D|H-1|POL/DA
E2052|E2052006| |Sakai|D,EL|D|H-1|POL/DA
E2052|E2052006| |Sakamoto|D,EL|D|H-1|POL/DA
E2052|E2052006| |Sasamoto|D,EL|D|H-1|POL/DA
E2052|E2052006| |Sasano|D,EL|D|H-1|POL/DA
E2052|E2052006| |Sekiguchi|D,EL|D|H-1|POL/DA
E2052|E2052006| |Suda|D,EL|D|H-1|POL/DA
E2052|E2052006| |Takahashi|D,EL|D|H-1|POL/DA
E2052|E2052006| |Uesaka|D,EL|D|H-1|POL/DA
E2052|E2052006| |Witala|D,EL|D|H-1|POL/DA
E2052|E2052006| |Yako|D,EL|D|H-1|POL/DA
E2052|E2052007| |Mardanpour|D,EL|D|H-1|POL/DA
E2052|E2052007| |Amir-Ahmadi|D,EL|D|H-1|POL/DA
E2052|E2052007| |Deltuva|D,EL|D|H-1|POL/DA
E2052|E2052007| |Itoh|D,EL|D|H-1|POL/DA
E2052|E2052007| |Kalantar-Nayestanaki|D,EL|D|H-1|POL/DA
E2052|E2052007| |Kawabata|D,EL|D|H-1|POL/DA
E2052|E2052007| |Kuboki|D,EL|D|H-1|POL/DA
E2052|E2052007| |Maeda|D,EL|D|H-1|POL/DA
E2052|E2052007| |Messchendorp|D,EL|D|H-1|POL/DA
E2052|E2052007| |Sakaguchi|D,EL|D|H-1|POL/DA
E2052|E2052007| |Sakai|D,EL|D|H-1|POL/DA
E2052|E2052007| |Sakamoto|D,EL|D|H-1|POL/DA
E2052|E2052007| |Sasamoto|D,EL|D|H-1|POL/DA
E2052|E2052007| |Sasano|D,EL|D|H-1|POL/DA
E2052|E2052007| |Sekiguchi|D,EL|D|H-1|POL/DA
E2052|E2052007| |Suda|D,EL|D|H-1|POL/DA
E2052|E2052007| |Takahashi|D,EL|D|H-1|POL/DA
E2052|E2052007| |Uesaka|D,EL|D|H-1|POL/DA
E2052|E2052007| |Witala|D,EL|D|H-1|POL/DA
E2052|E2052007| |Yako|D,EL|D|H-1|POL/DA
E2052|E2052008| |Mardanpour|D,EL|D|H-1|POL/DA
E2052|E2052008| |Amir-Ahmadi|D,EL|D|H-1|POL/DA
E2052|E2052008| |Deltuva|D,EL|D|H-1|POL/DA
E2052|E2052008| |Itoh|D,EL|D|H-1|POL/DA
E2052|E2052008| |Kalantar-Nayestanaki|D,EL|D|H-1|POL/DA
E2052|E2052008| |Kawabata|D,EL|D|H-1|POL/DA
E2052|E2052008| |Kuboki|D,EL|D|H-1|POL/DA
E2052|E2052008| |Maeda|D,EL|D|H-1|POL/DA
E2052|E2052008| |Messchendorp|D,EL|D|H-1|POL/DA
E2052|E2052008| |Sakaguchi|D,EL|D|H-1|POL/DA
E2052|E2052008| |Sakai|D,EL|D|H-1|POL/DA
E2052|E2052008| |Sakamoto|D,EL|D|H-1|POL/DA
E2052|E2052008| |Sasamoto|D,EL|D|H-1|POL/DA
E2052|E2052008| |Sasano|D,EL|D|H-1|POL/DA
E2052|E2052008| |Sekiguchi|D,EL|D|H-1|POL/DA
E2052|E2052008| |Suda|D,EL|D|H-1|POL/DA
E2052|E2052008| |Takahashi|D,EL|D|H-1|POL/DA
E2052|E2052008| |Uesaka|D,EL|D|H-1|POL/DA
E2052|E2052008| |Witala|D,EL|D|H-1|POL/DA
E2052|E2052008| |Yako|D,EL|D|H-1|POL/DA
E2052|E2052009| |Mardanpour|D,EL|D|H-1|POL/DA
E2052|E2052009| |Amir-Ahmadi|D,EL|D|H-1|POL/DA
E2052|E2052009| |Deltuva|D,EL|D|H-1|POL/DA
E2052|E2052009| |Itoh|D,EL|D|H-1|POL/DA
E2052|E2052009| |Kalantar-Nayestanaki|D,EL|D|H-1|POL/DA
E2052|E2052009| |Kawabata|D,EL|D|H-1|POL/DA
E2052|E2052009| |Kuboki|D,EL|D|H-1|POL/DA
E2052|E2052009| |Maeda|D,EL|D|H-1|POL/DA
E2052|E2052009| |Messchendorp|D,EL|D|H-1|POL/DA
E2052|E2052009| |Sakaguchi|D,EL|D|H-1|POL/DA
E2052|E2052009| |Sakai|D,EL|D|H-1|POL/DA
E2052|E2052009| |Sakamoto|D,EL|D|H-1|POL/DA
E2052|E2052009| |Sasamoto|D,EL|D|H-1|POL/DA
E2052|E2052009| |Sasano|D,EL|D|H-1|POL/DA
E2052|E2052009| |Sekiguchi|D,EL|D|H-1|POL/DA
E2052|E2052009| |Suda|D,EL|D|H-1|POL/DA
E2052|E2052009| |Takahashi|D,EL|D|H-1|POL/DA
E2052|E2052009| |Uesaka|D,EL|D|H-1|POL/DA
E2052|E2052009| |Witala|D,EL|D|H-1|POL/DA
E2052|E2052009| |Yako|D,EL|D|H-1|POL/DA
E2159|E2159002| |Tameshige|D,EL|D|H-1|DA
E2159|E2159002| |Hatanaka|D,EL|D|H-1|DA
E2159|E2159002| |Sagara|D,EL|D|H-1|DA
E2159|E2159002| |Dozono|D,EL|D|H-1|DA
E2159|E2159002| |Fujita|D,EL|D|H-1|DA
E2159|E2159002| |Ihara|D,EL|D|H-1|DA
E2159|E2159002| |Kaneda|D,EL|D|H-1|DA
E2159|E2159002| |Kato|D,EL|D|H-1|DA
E2159|E2159002| |Kawabata|D,EL|D|H-1|DA
E2159|E2159002| |Kuroita|D,EL|D|H-1|DA
E2159|E2159002| |Maeda|D,EL|D|H-1|DA
E2159|E2159002| |Matsubara|D,EL|D|H-1|DA
E2159|E2159002| |Okamura|D,EL|D|H-1|DA
E2159|E2159002| |Sakemi|D,EL|D|H-1|DA
E2159|E2159002| |Sekiguchi|D,EL|D|H-1|DA
E2159|E2159002| |Shimizu|D,EL|D|H-1|DA
E2159|E2159002| |Sugimoto|D,EL|D|H-1|DA
E2159|E2159002| |Tamii|D,EL|D|H-1|DA
E2159|E2159002| |Wakasa|D,EL|D|H-1|DA
E2159|E2159003| |Tameshige|D,EL|D|H-1|POL/DA
E2159|E2159003| |Hatanaka|D,EL|D|H-1|POL/DA
E2159|E2159003| |Sagara|D,EL|D|H-1|POL/DA
E2159|E2159003| |Dozono|D,EL|D|H-1|POL/DA
E2159|E2159003| |Fujita|D,EL|D|H-1|POL/DA
E2159|E2159003| |Ihara|D,EL|D|H-1|POL/DA
E2159|E2159003| |Kaneda|D,EL|D|H-1|POL/DA
E2159|E2159003| |Kato|D,EL|D|H-1|POL/DA
E2159|E2159003| |Kawabata|D,EL|D|H-1|POL/DA
E2159|E2159003| |Kuroita|D,EL|D|H-1|POL/DA
E2159|E2159003| |Maeda|D,EL|D|H-1|POL/DA
E2159|E2159003| |Matsubara|D,EL|D|H-1|POL/DA
E2159|E2159003| |Okamura|D,EL|D|H-1|POL/DA
E2159|E2159003| |Sakemi|D,EL|D|H-1|POL/DA
E2159|E2159003| |Sekiguchi|D,EL|D|H-1|POL/DA
E2159|E2159003| |Shimizu|D,EL|D|H-1|POL/DA
E2159|E2159003| |Sugimoto|D,EL|D|H-1|POL/DA
E2159|E2159003| |Tamii|D,EL|D|H-1|POL/DA
E2159|E2159003| |Wakasa|D,EL|D|H-1|POL/DA
E2159|E2159004| |Tameshige|D,G|D|H-1|POL/DA
E2159|E2159004| |Hatanaka|D,G|D|H-1|POL/DA
E2159|E2159004| |Sagara|D,G|D|H-1|POL/DA
E2159|E2159004| |Dozono|D,G|D|H-1|POL/DA
E2159|E2159004| |Fujita|D,G|D|H-1|POL/DA
E2159|E2159004| |Ihara|D,G|D|H-1|POL/DA
E2159|E2159004| |Kaneda|D,G|D|H-1|POL/DA
E2159|E2159004| |Kato|D,G|D|H-1|POL/DA
E2159|E2159004| |Kawabata|D,G|D|H-1|POL/DA
E2159|E2159004| |Kuroita|D,G|D|H-1|POL/DA
E2159|E2159004| |Maeda|D,G|D|H-1|POL/DA
E2159|E2159004| |Matsubara|D,G|D|H-1|POL/DA
E2159|E2159004| |Okamura|D,G|D|H-1|POL/DA
E2159|E2159004| |Sakemi|D,G|D|H-1|POL/DA
E2159|E2159004| |Sekiguchi|D,G|D|H-1|POL/DA
E2159|E2159004| |Shimizu|D,G|D|H-1|POL/DA
E2159|E2159004| |Sugimoto|D,G|D|H-1|POL/DA
E2159|E2159004| |Tamii|D,G|D|H-1|POL/DA
E2159|E2159004| |Wakasa|D,G|D|H-1|POL/DA
E2159|E2159005| |Tameshige|D,G|D|H-1|POL/DA
E2159|E2159005| |Hatanaka|D,G|D|H-1|POL/DA
E2159|E2159005| |Sagara|D,G|D|H-1|POL/DA
E2159|E2159005| |Dozono|D,G|D|H-1|POL/DA
E2159|E2159005| |Fujita|D,G|D|H-1|POL/DA
E2159|E2159005| |Ihara|D,G|D|H-1|POL/DA
E2159|E2159005| |Kaneda|D,G|D|H-1|POL/DA
E2159|E2159005| |Kato|D,G|D|H-1|POL/DA
E2159|E2159005| |Kawabata|D,G|D|H-1|POL/DA
E2159|E2159005| |Kuroita|D,G|D|H-1|POL/DA
E2159|E2159005| |Maeda|D,G|D|H-1|POL/DA
E2159|E2159005| |Matsubara|D,G|D|H-1|POL/DA
E2159|E2159005| |Okamura|D,G|D|H-1|POL/DA
E2159|E2159005| |Sakemi|D,G|D|H-1|POL/DA
E2159|E2159005| |Sekiguchi|D,G|D|H-1|POL/DA
E2159|E2159005| |Shimizu|D,G|D|H-1|POL/DA
E2159|E2159005| |Sugimoto|D,G|D|H-1|POL/DA
E2159|E2159005| |Tamii|D,G|D|H-1|POL/DA
E2159|E2159005| |Wakasa|D,G|D|H-1|POL/DA
E2159|E2159006|1|Tameshige|D,G|D|H-1|POL/DA
E2159|E2159006|1|Hatanaka|D,G|D|H-1|POL/DA
E2159|E2159006|1|Sagara|D,G|D|H-1|POL/DA
E2159|E2159006|1|Dozono|D,G|D|H-1|POL/DA
E2159|E2159006|1|Fujita|D,G|D|H-1|POL/DA
E2159|E2159006|1|Ihara|D,G|D|H-1|POL/DA
E2159|E2159006|1|Kaneda|D,G|D|H-1|POL/DA
E2159|E2159006|1|Kato|D,G|D|H-1|POL/DA
E2159|E2159006|1|Kawabata|D,G|D|H-1|POL/DA
E2159|E2159006|1|Kuroita|D,G|D|H-1|POL/DA
E2159|E2159006|1|Maeda|D,G|D|H-1|POL/DA
E2159|E2159006|1|Matsubara|D,G|D|H-1|POL/DA
E2159|E2159006|1|Okamura|D,G|D|H-1|POL/DA
E2159|E2159006|1|Sakemi|D,G|D|H-1|POL/DA
E2159|E2159006|1|Sekiguchi|D,G|D|H-1|POL/DA
E2159|E2159006|1|Shimizu|D,G|D|H-1|POL/DA
E2159|E2159006|1|Sugimoto|D,G|D|H-1|POL/DA
E2159|E2159006|1|Tamii|D,G|D|H-1|POL/DA
E2159|E2159006|1|Wakasa|D,G|D|H-1|POL/DA
E2159|E2159006|2|Tameshige|D,G|D|H-1|POL/DA
E2159|E2159006|2|Hatanaka|D,G|D|H-1|POL/DA
E2159|E2159006|2|Sagara|D,G|D|H-1|POL/DA
E2159|E2159006|2|Dozono|D,G|D|H-1|POL/DA
E2159|E2159006|2|Fujita|D,G|D|H-1|POL/DA
E2159|E2159006|2|Ihara|D,G|D|H-1|POL/DA
E2159|E2159006|2|Kaneda|D,G|D|H-1|POL/DA
E2159|E2159006|2|Kato|D,G|D|H-1|POL/DA
E2159|E2159006|2|Kawabata|D,G|D|H-1|POL/DA
E2159|E2159006|2|Kuroita|D,G|D|H-1|POL/DA
E2159|E2159006|2|Maeda|D,G|D|H-1|POL/DA
E2159|E2159006|2|Matsubara|D,G|D|H-1|POL/DA
E2159|E2159006|2|Okamura|D,G|D|H-1|POL/DA
E2159|E2159006|2|Sakemi|D,G|D|H-1|POL/DA
E2159|E2159006|2|Sekiguchi|D,G|D|H-1|POL/DA
E2159|E2159006|2|Shimizu|D,G|D|H-1|POL/DA
E2159|E2159006|2|Sugimoto|D,G|D|H-1|POL/DA
E2159|E2159006|2|Tamii|D,G|D|H-1|POL/DA
E2159|E2159006|2|Wakasa|D,G|D|H-1|POL/DA
E2346|E2346002| |Sekiguchi|D,EL|D|H-1|POL/DA
E2346|E2346002| |Okamura|D,EL|D|H-1|POL/DA
E2346|E2346002| |Sakamoto|D,EL|D|H-1|POL/DA
E2346|E2346002| |Suzuki|D,EL|D|H-1|POL/DA
E2346|E2346002| |Dozono|D,EL|D|H-1|POL/DA
E2346|E2346002| |Maeda|D,EL|D|H-1|POL/DA
E2346|E2346002| |Saito|D,EL|D|H-1|POL/DA
E2346|E2346002| |Sakaguchi|D,EL|D|H-1|POL/DA
E2346|E2346002| |Sakai|D,EL|D|H-1|POL/DA
E2346|E2346002| |Sasano|D,EL|D|H-1|POL/DA
E2346|E2346002| |Shimizu|D,EL|D|H-1|POL/DA
E2346|E2346002| |Wakasa|D,EL|D|H-1|POL/DA
E2346|E2346002| |Yako|D,EL|D|H-1|POL/DA
E2346|E2346002| |Witala|D,EL|D|H-1|POL/DA
E2346|E2346002| |Glockle|D,EL|D|H-1|POL/DA
E2346|E2346002| |Golak|D,EL|D|H-1|POL/DA
E2346|E2346002| |Kamada|D,EL|D|H-1|POL/DA
E2346|E2346002| |Nogga|D,EL|D|H-1|POL/DA
E2346|E2346003| |Sekiguchi|D,EL|D|H-1|POL/DA
E2346|E2346003| |Okamura|D,EL|D|H-1|POL/DA
E2346|E2346003| |Sakamoto|D,EL|D|H-1|POL/DA
E2346|E2346003| |Suzuki|D,EL|D|H-1|POL/DA
E2346|E2346003| |Dozono|D,EL|D|H-1|POL/DA
E2346|E2346003| |Maeda|D,EL|D|H-1|POL/DA
E2346|E2346003| |Saito|D,EL|D|H-1|POL/DA
E2346|E2346003| |Sakaguchi|D,EL|D|H-1|POL/DA
E2346|E2346003| |Sakai|D,EL|D|H-1|POL/DA
E2346|E2346003| |Sasano|D,EL|D|H-1|POL/DA
E2346|E2346003| |Shimizu|D,EL|D|H-1|POL/DA
E2346|E2346003| |Wakasa|D,EL|D|H-1|POL/DA
E2346|E2346003| |Yako|D,EL|D|H-1|POL/DA
E2346|E2346003| |Witala|D,EL|D|H-1|POL/DA
E2346|E2346003| |Glockle|D,EL|D|H-1|POL/DA
E2346|E2346003| |Golak|D,EL|D|H-1|POL/DA
E2346|E2346003| |Kamada|D,EL|D|H-1|POL/DA
E2346|E2346003| |Nogga|D,EL|D|H-1|POL/DA
E2346|E2346004| |Sekiguchi|D,EL|D|H-1|POL/DA
E2346|E2346004| |Okamura|D,EL|D|H-1|POL/DA
E2346|E2346004| |Sakamoto|D,EL|D|H-1|POL/DA
E2346|E2346004| |Suzuki|D,EL|D|H-1|POL/DA
E2346|E2346004| |Dozono|D,EL|D|H-1|POL/DA
E2346|E2346004| |Maeda|D,EL|D|H-1|POL/DA
E2346|E2346004| |Saito|D,EL|D|H-1|POL/DA
E2346|E2346004| |Sakaguchi|D,EL|D|H-1|POL/DA
E2346|E2346004| |Sakai|D,EL|D|H-1|POL/DA
E2346|E2346004| |Sasano|D,EL|D|H-1|POL/DA
E2346|E2346004| |Shimizu|D,EL|D|H-1|POL/DA
E2346|E2346004| |Wakasa|D,EL|D|H-1|POL/DA
E2346|E2346004| |Yako|D,EL|D|H-1|POL/DA
E2346|E2346004| |Witala|D,EL|D|H-1|POL/DA
E2346|E2346004| |Glockle|D,EL|D|H-1|POL/DA
E2346|E2346004| |Golak|D,EL|D|H-1|POL/DA
E2346|E2346004| |Kamada|D,EL|D|H-1|POL/DA
E2346|E2346004| |Nogga|D,EL|D|H-1|POL/DA
E2346|E2346005| |Sekiguchi|D,EL|D|H-1|POL/DA
E2346|E2346005| |Okamura|D,EL|D|H-1|POL/DA
E2346|E2346005| |Sakamoto|D,EL|D|H-1|POL/DA
E2346|E2346005| |Suzuki|D,EL|D|H-1|POL/DA
E2346|E2346005| |Dozono|D,EL|D|H-1|POL/DA
E2346|E2346005| |Maeda|D,EL|D|H-1|POL/DA
E2346|E2346005| |Saito|D,EL|D|H-1|POL/DA
E2346|E2346005| |Sakaguchi|D,EL|D|H-1|POL/DA
E2346|E2346005| |Sakai|D,EL|D|H-1|POL/DA
E2346|E2346005| |Sasano|D,EL|D|H-1|POL/DA
E2346|E2346005| |Shimizu|D,EL|D|H-1|POL/DA
E2346|E2346005| |Wakasa|D,EL|D|H-1|POL/DA
E2346|E2346005| |Yako|D,EL|D|H-1|POL/DA
E2346|E2346005| |Witala|D,EL|D|H-1|POL/DA
E2346|E2346005| |Glockle|D,EL|D|H-1|POL/DA
E2346|E2346005| |Golak|D,EL|D|H-1|POL/DA
E2346|E2346005| |Kamada|D,EL|D|H-1|POL/DA
E2346|E2346005| |Nogga|D,EL|D|H-1|POL/DA
O1434|O1434002| |Stephan|D,EL|D|H-1|POL/DA
O1434|O1434002| |Kistryn|D,EL|D|H-1|POL/DA
O1434|O1434002| |Sworst|D,EL|D|H-1|POL/DA
O1434|O1434002| |Biegun|D,EL|D|H-1|POL/DA
O1434|O1434002| |Bodek|D,EL|D|H-1|POL/DA
O1434|O1434002| |Ciepal|D,EL|D|H-1|POL/DA
O1434|O1434002| |Deltuva|D,EL|D|H-1|POL/DA
O1434|O1434002| |Epelbaum|D,EL|D|H-1|POL/DA
O1434|O1434002| |Fonseca|D,EL|D|H-1|POL/DA
O1434|O1434002| |Gloeckle|D,EL|D|H-1|POL/DA
O1434|O1434002| |Golak|D,EL|D|H-1|POL/DA
O1434|O1434002| |Kalantar-Nayestanaki|D,EL|D|H-1|POL/DA
O1434|O1434002| |Kamada|D,EL|D|H-1|POL/DA
O1434|O1434002| |Kis|D,EL|D|H-1|POL/DA
O1434|O1434002| |Kozela|D,EL|D|H-1|POL/DA
O1434|O1434002| |Mahjour-Shafiei|D,EL|D|H-1|POL/DA
O1434|O1434002| |Micherdzinska|D,EL|D|H-1|POL/DA
O1434|O1434002| |Nogga|D,EL|D|H-1|POL/DA
O1434|O1434002| |Sauer|D,EL|D|H-1|POL/DA
O1434|O1434002| |Skibinski|D,EL|D|H-1|POL/DA
O1434|O1434002| |Witala|D,EL|D|H-1|POL/DA
O1434|O1434002| |Zejma|D,EL|D|H-1|POL/DA
O1434|O1434002| |Zipper|D,EL|D|H-1|POL/DA
O1434|O1434003| |Stephan|D,EL|D|H-1|POL/DA
O1434|O1434003| |Kistryn|D,EL|D|H-1|POL/DA
O1434|O1434003| |Sworst|D,EL|D|H-1|POL/DA
O1434|O1434003| |Biegun|D,EL|D|H-1|POL/DA
O1434|O1434003| |Bodek|D,EL|D|H-1|POL/DA
O1434|O1434003| |Ciepal|D,EL|D|H-1|POL/DA
O1434|O1434003| |Deltuva|D,EL|D|H-1|POL/DA
O1434|O1434003| |Epelbaum|D,EL|D|H-1|POL/DA
O1434|O1434003| |Fonseca|D,EL|D|H-1|POL/DA
O1434|O1434003| |Gloeckle|D,EL|D|H-1|POL/DA
O1434|O1434003| |Golak|D,EL|D|H-1|POL/DA
O1434|O1434003| |Kalantar-Nayestanaki|D,EL|D|H-1|POL/DA
O1434|O1434003| |Kamada|D,EL|D|H-1|POL/DA
O1434|O1434003| |Kis|D,EL|D|H-1|POL/DA
O1434|O1434003| |Kozela|D,EL|D|H-1|POL/DA
O1434|O1434003| |Mahjour-Shafiei|D,EL|D|H-1|POL/DA
O1434|O1434003| |Micherdzinska|D,EL|D|H-1|POL/DA
O1434|O1434003| |Nogga|D,EL|D|H-1|POL/DA
O1434|O1434003| |Sauer|D,EL|D|H-1|POL/DA
O1434|O1434003| |Skibinski|D,EL|D|H-1|POL/DA
O1434|O1434003| |Witala|D,EL|D|H-1|POL/DA
O1434|O1434003| |Zejma|D,EL|D|H-1|POL/DA
O1434|O1434003| |Zipper|D,EL|D|H-1|POL/DA
O1434|O1434004| |Stephan|D,EL|D|H-1|POL/DA
O1434|O1434004| |Kistryn|D,EL|D|H-1|POL/DA
O1434|O1434004| |Sworst|D,EL|D|H-1|POL/DA
O1434|O1434004| |Biegun|D,EL|D|H-1|POL/DA
O1434|O1434004| |Bodek|D,EL|D|H-1|POL/DA
O1434|O1434004| |Ciepal|D,EL|D|H-1|POL/DA
O1434|O1434004| |Deltuva|D,EL|D|H-1|POL/DA
O1434|O1434004| |Epelbaum|D,EL|D|H-1|POL/DA
O1434|O1434004| |Fonseca|D,EL|D|H-1|POL/DA
O1434|O1434004| |Gloeckle|D,EL|D|H-1|POL/DA
O1434|O1434004| |Golak|D,EL|D|H-1|POL/DA
O1434|O1434004| |Kalantar-Nayestanaki|D,EL|D|H-1|POL/DA
O1434|O1434004| |Kamada|D,EL|D|H-1|POL/DA
O1434|O1434004| |Kis|D,EL|D|H-1|POL/DA
O1434|O1434004| |Kozela|D,EL|D|H-1|POL/DA
O1434|O1434004| |Mahjour-Shafiei|D,EL|D|H-1|POL/DA
O1434|O1434004| |Micherdzinska|D,EL|D|H-1|POL/DA
O1434|O1434004| |Nogga|D,EL|D|H-1|POL/DA
O1434|O1434004| |Sauer|D,EL|D|H-1|POL/DA
O1434|O1434004| |Skibinski|D,EL|D|H-1|POL/DA"
/-- rows of x4i3/tests/data/index.tbl -/
def rows12 : String := "O1434|O1434004| |Witala|D,EL|D|H-1|POL/DA
O1434|O1434004| |Zejma|D,EL|D|H-1|POL/DA
O1434|O1434004| |Zipper|D,EL|D|H-1|POL/DA
O1664|O1664002| |Ramazani-Moghaddam-Arani|D,EL|D|H-1|POL/DA
O1664|O1664002| |Amir-Ahmadi|D,EL|D|H-1|POL/DA
O1664|O1664002| |Bacher|D,EL|D|H-1|POL/DA
O1664|O1664002| |Bailey|D,EL|D|H-1|POL/DA
O1664|O1664002| |Biegun|D,EL|D|H-1|POL/DA
O1664|O1664002| |Eslami-Kalantari|D,EL|D|H-1|POL/DA
O1664|O1664002| |Gasparic|D,EL|D|H-1|POL/DA
O1664|O1664002| |Joulaeizadeh|D,EL|D|H-1|POL/DA
O1664|O1664002| |Kalantar-Nayestanaki|D,EL|D|H-1|POL/DA
O1664|O1664002| |Kistryn|D,EL|D|H-1|POL/DA
O1664|O1664002| |Kozela|D,EL|D|H-1|POL/DA
O1664|O1664002| |Mardanpour|D,EL|D|H-1|POL/DA
O1664|O1664002| |Messchendorp|D,EL|D|H-1|POL/DA
O1664|O1664002| |Micherdzinska|D,EL|D|H-1|POL/DA
O1664|O1664002| |Moeini|D,EL|D|H-1|POL/DA
O1664|O1664002| |Shende|D,EL|D|H-1|POL/DA
O1664|O1664002| |Stephan|D,EL|D|H-1|POL/DA
O1664|O1664002| |Stephenson|D,EL|D|H-1|POL/DA
O1664|O1664002| |Sworst|D,EL|D|H-1|POL/DA
O1664|O1664003| |Ramazani-Moghaddam-Arani|D,EL|D|H-1|POL/DA
O1664|O1664003| |Amir-Ahmadi|D,EL|D|H-1|POL/DA
O1664|O1664003| |Bacher|D,EL|D|H-1|POL/DA
O1664|O1664003| |Bailey|D,EL|D|H-1|POL/DA
O1664|O1664003| |Biegun|D,EL|D|H-1|POL/DA
O1664|O1664003| |Eslami-Kalantari|D,EL|D|H-1|POL/DA
O1664|O1664003| |Gasparic|D,EL|D|H-1|POL/DA
O1664|O1664003| |Joulaeizadeh|D,EL|D|H-1|POL/DA
O1664|O1664003| |Kalantar-Nayestanaki|D,EL|D|H-1|POL/DA
O1664|O1664003| |Kistryn|D,EL|D|H-1|POL/DA
O1664|O1664003| |Kozela|D,EL|D|H-1|POL/DA
O1664|O1664003| |Mardanpour|D,EL|D|H-1|POL/DA
O1664|O1664003| |Messchendorp|D,EL|D|H-1|POL/DA
O1664|O1664003| |Micherdzinska|D,EL|D|H-1|POL/DA
O1664|O1664003| |Moeini|D,EL|D|H-1|POL/DA
O1664|O1664003| |Shende|D,EL|D|H-1|POL/DA
O1664|O1664003| |Stephan|D,EL|D|H-1|POL/DA
O1664|O1664003| |Stephenson|D,EL|D|H-1|POL/DA
O1664|O1664003| |Sworst|D,EL|D|H-1|POL/DA
O1664|O1664004| |Ramazani-Moghaddam-Arani|D,EL|D|H-1|POL/DA
O1664|O1664004| |Amir-Ahmadi|D,EL|D|H-1|POL/DA
O1664|O1664004| |Bacher|D,EL|D|H-1|POL/DA
O1664|O1664004| |Bailey|D,EL|D|H-1|POL/DA
O1664|O1664004| |Biegun|D,EL|D|H-1|POL/DA
O1664|O1664004| |Eslami-Kalantari|D,EL|D|H-1|POL/DA
O1664|O1664004| |Gasparic|D,EL|D|H-1|POL/DA
O1664|O1664004| |Joulaeizadeh|D,EL|D|H-1|POL/DA
O1664|O1664004| |Kalantar-Nayestanaki|D,EL|D|H-1|POL/DA
O1664|O1664004| |Kistryn|D,EL|D|H-1|POL/DA
O1664|O1664004| |Kozela|D,EL|D|H-1|POL/DA
O1664|O1664004| |Mardanpour|D,EL|D|H-1|POL/DA
O1664|O1664004| |Messchendorp|D,EL|D|H-1|POL/DA
O1664|O1664004| |Micherdzinska|D,EL|D|H-1|POL/DA
O1664|O1664004| |Moeini|D,EL|D|H-1|POL/DA
O1664|O1664004| |Shende|D,EL|D|H-1|POL/DA
O1664|O1664004| |Stephan|D,EL|D|H-1|POL/DA
O1664|O1664004| |Stephenson|D,EL|D|H-1|POL/DA
O1664|O1664004| |Sworst|D,EL|D|H-1|POL/DA
O1664|O1664005| |Ramazani-Moghaddam-Arani|D,EL|D|H-1|DA
O1664|O1664005| |Amir-Ahmadi|D,EL|D|H-1|DA
O1664|O1664005| |Bacher|D,EL|D|H-1|DA
O1664|O1664005| |Bailey|D,EL|D|H-1|DA
O1664|O1664005| |Biegun|D,EL|D|H-1|DA
O1664|O1664005| |Eslami-Kalantari|D,EL|D|H-1|DA
O1664|O1664005| |Gasparic|D,EL|D|H-1|DA
O1664|O1664005| |Joulaeizadeh|D,EL|D|H-1|DA
O1664|O1664005| |Kalantar-Nayestanaki|D,EL|D|H-1|DA
O1664|O1664005| |Kistryn|D,EL|D|H-1|DA
O1664|O1664005| |Kozela|D,EL|D|H-1|DA
O1664|O1664005| |Mardanpour|D,EL|D|H-1|DA
O1664|O1664005| |Messchendorp|D,EL|D|H-1|DA
O1664|O1664005| |Micherdzinska|D,EL|D|H-1|DA
O1664|O1664005| |Moeini|D,EL|D|H-1|DA
O1664|O1664005| |Shende|D,EL|D|H-1|DA
O1664|O1664005| |Stephan|D,EL|D|H-1|DA
O1664|O1664005| |Stephenson|D,EL|D|H-1|DA
O1664|O1664005| |Sworst|D,EL|D|H-1|DA
O1664|O1664006| |Ramazani-Moghaddam-Arani|P,EL|P|H-2|DA
O1664|O1664006| |Amir-Ahmadi|P,EL|P|H-2|DA
O1664|O1664006| |Bacher|P,EL|P|H-2|DA
O1664|O1664006| |Bailey|P,EL|P|H-2|DA
O1664|O1664006| |Biegun|P,EL|P|H-2|DA
O1664|O1664006| |Eslami-Kalantari|P,EL|P|H-2|DA
O1664|O1664006| |Gasparic|P,EL|P|H-2|DA
O1664|O1664006| |Joulaeizadeh|P,EL|P|H-2|DA
O1664|O1664006| |Kalantar-Nayestanaki|P,EL|P|H-2|DA
O1664|O1664006| |Kistryn|P,EL|P|H-2|DA
O1664|O1664006| |Kozela|P,EL|P|H-2|DA
O1664|O1664006| |Mardanpour|P,EL|P|H-2|DA
O1664|O1664006| |Messchendorp|P,EL|P|H-2|DA
O1664|O1664006| |Micherdzinska|P,EL|P|H-2|DA
O1664|O1664006| |Moeini|P,EL|P|H-2|DA
O1664|O1664006| |Shende|P,EL|P|H-2|DA
O1664|O1664006| |Stephan|P,EL|P|H-2|DA
O1664|O1664006| |Stephenson|P,EL|P|H-2|DA
O1664|O1664006| |Sworst|P,EL|P|H-2|DA
O1664|O1664007| |Ramazani-Moghaddam-Arani|P,EL|P|H-2|POL/DA
O1664|O1664007| |Amir-Ahmadi|P,EL|P|H-2|POL/DA
O1664|O1664007| |Bacher|P,EL|P|H-2|POL/DA
O1664|O1664007| |Bailey|P,EL|P|H-2|POL/DA
O1664|O1664007| |Biegun|P,EL|P|H-2|POL/DA
O1664|O1664007| |Eslami-Kalantari|P,EL|P|H-2|POL/DA
O1664|O1664007| |Gasparic|P,EL|P|H-2|POL/DA
O1664|O1664007| |Joulaeizadeh|P,EL|P|H-2|POL/DA
O1664|O1664007| |Kalantar-Nayestanaki|P,EL|P|H-2|POL/DA
O1664|O1664007| |Kistryn|P,EL|P|H-2|POL/DA
O1664|O1664007| |Kozela|P,EL|P|H-2|POL/DA
O1664|O1664007| |Mardanpour|P,EL|P|H-2|POL/DA
O1664|O1664007| |Messchendorp|P,EL|P|H-2|POL/DA
O1664|O1664007| |Micherdzinska|P,EL|P|H-2|POL/DA
O1664|O1664007| |Moeini|P,EL|P|H-2|POL/DA
O1664|O1664007| |Shende|P,EL|P|H-2|POL/DA
O1664|O1664007| |Stephan|P,EL|P|H-2|POL/DA
O1664|O1664007| |Stephenson|P,EL|P|H-2|POL/DA
O1664|O1664007| |Sworst|P,EL|P|H-2|POL/DA
O1732|O1732002| |Budzanowski|D,ETA|D|H-2|DA
O1732|O1732002| |Chatterjee|D,ETA|D|H-2|DA
O1732|O1732002| |Gebel|D,ETA|D|H-2|DA
O1732|O1732002| |Hawranek|D,ETA|D|H-2|DA
O1732|O1732002| |Jahn|D,ETA|D|H-2|DA
O1732|O1732002| |Jha|D,ETA|D|H-2|DA
O1732|O1732002| |Kilian|D,ETA|D|H-2|DA
O1732|O1732002| |Kliczewski|D,ETA|D|H-2|DA
O1732|O1732002| |Kirillov|D,ETA|D|H-2|DA
O1732|O1732002| |Kolev|D,ETA|D|H-2|DA
O1732|O1732002| |Kravcikova|D,ETA|D|H-2|DA
O1732|O1732002| |Lesiak|D,ETA|D|H-2|DA
O1732|O1732002| |Lieb|D,ETA|D|H-2|DA
O1732|O1732002| |Machner|D,ETA|D|H-2|DA
O1732|O1732002| |Magiera|D,ETA|D|H-2|DA
O1732|O1732002| |Maier|D,ETA|D|H-2|DA
O1732|O1732002| |Martinska|D,ETA|D|H-2|DA
O1732|O1732002| |Nedev|D,ETA|D|H-2|DA
O1732|O1732002| |Piskunov|D,ETA|D|H-2|DA
O1732|O1732002| |Prasuhn|D,ETA|D|H-2|DA
O1732|O1732002| |Protic|D,ETA|D|H-2|DA
O1732|O1732002| |Ritman|D,ETA|D|H-2|DA
O1732|O1732002| |Von Rossen|D,ETA|D|H-2|DA
O1732|O1732002| |Roy|D,ETA|D|H-2|DA
O1732|O1732002| |Sitnik|D,ETA|D|H-2|DA
O1732|O1732002| |Siudak|D,ETA|D|H-2|DA
O1732|O1732002| |Tsenov|D,ETA|D|H-2|DA
O1732|O1732002| |Urban|D,ETA|D|H-2|DA
O1732|O1732002| |Vankova|D,ETA|D|H-2|DA
O1732|O1732002| |Wilkin|D,ETA|D|H-2|DA
O1732|O1732002| |Gem Collaboration|D,ETA|D|H-2|DA
O1732|O1732003| |Budzanowski|D,EL|D|C-12|POL/DA
O1732|O1732003| |Chatterjee|D,EL|D|C-12|POL/DA
O1732|O1732003| |Gebel|D,EL|D|C-12|POL/DA
O1732|O1732003| |Hawranek|D,EL|D|C-12|POL/DA
O1732|O1732003| |Jahn|D,EL|D|C-12|POL/DA
O1732|O1732003| |Jha|D,EL|D|C-12|POL/DA
O1732|O1732003| |Kilian|D,EL|D|C-12|POL/DA
O1732|O1732003| |Kliczewski|D,EL|D|C-12|POL/DA
O1732|O1732003| |Kirillov|D,EL|D|C-12|POL/DA
O1732|O1732003| |Kolev|D,EL|D|C-12|POL/DA
O1732|O1732003| |Kravcikova|D,EL|D|C-12|POL/DA
O1732|O1732003| |Lesiak|D,EL|D|C-12|POL/DA
O1732|O1732003| |Lieb|D,EL|D|C-12|POL/DA
O1732|O1732003| |Machner|D,EL|D|C-12|POL/DA
O1732|O1732003| |Magiera|D,EL|D|C-12|POL/DA
O1732|O1732003| |Maier|D,EL|D|C-12|POL/DA
O1732|O1732003| |Martinska|D,EL|D|C-12|POL/DA
O1732|O1732003| |Nedev|D,EL|D|C-12|POL/DA
O1732|O1732003| |Piskunov|D,EL|D|C-12|POL/DA
O1732|O1732003| |Prasuhn|D,EL|D|C-12|POL/DA
O1732|O1732003| |Protic|D,EL|D|C-12|POL/DA
O1732|O1732003| |Ritman|D,EL|D|C-12|POL/DA
O1732|O1732003| |Von Rossen|D,EL|D|C-12|POL/DA
O1732|O1732003| |Roy|D,EL|D|C-12|POL/DA
O1732|O1732003| |Sitnik|D,EL|D|C-12|POL/DA
O1732|O1732003| |Siudak|D,EL|D|C-12|POL/DA
O1732|O1732003| |Tsenov|D,EL|D|C-12|POL/DA
O1732|O1732003| |Urban|D,EL|D|C-12|POL/DA
O1732|O1732003| |Vankova|D,EL|D|C-12|POL/DA
O1732|O1732003| |Wilkin|D,EL|D|C-12|POL/DA
O1732|O1732003| |Gem Collaboration|D,EL|D|C-12|POL/DA
O1732|O1732004| |Budzanowski|D,EL|D|H-1|POL/DA
O1732|O1732004| |Chatterjee|D,EL|D|H-1|POL/DA
O1732|O1732004| |Gebel|D,EL|D|H-1|POL/DA
O1732|O1732004| |Hawranek|D,EL|D|H-1|POL/DA
O1732|O1732004| |Jahn|D,EL|D|H-1|POL/DA
O1732|O1732004| |Jha|D,EL|D|H-1|POL/DA
O1732|O1732004| |Kilian|D,EL|D|H-1|POL/DA
O1732|O1732004| |Kliczewski|D,EL|D|H-1|POL/DA
O1732|O1732004| |Kirillov|D,EL|D|H-1|POL/DA
O1732|O1732004| |Kolev|D,EL|D|H-1|POL/DA
O1732|O1732004| |Kravcikova|D,EL|D|H-1|POL/DA
O1732|O1732004| |Lesiak|D,EL|D|H-1|POL/DA
O1732|O1732004| |Lieb|D,EL|D|H-1|POL/DA
O1732|O1732004| |Machner|D,EL|D|H-1|POL/DA
O1732|O1732004| |Magiera|D,EL|D|H-1|POL/DA
O1732|O1732004| |Maier|D,EL|D|H-1|POL/DA
O1732|O1732004| |Martinska|D,EL|D|H-1|POL/DA
O1732|O1732004| |Nedev|D,EL|D|H-1|POL/DA
O1732|O1732004| |Piskunov|D,EL|D|H-1|POL/DA
O1732|O1732004| |Prasuhn|D,EL|D|H-1|POL/DA
O1732|O1732004| |Protic|D,EL|D|H-1|POL/DA
O1732|O1732004| |Ritman|D,EL|D|H-1|POL/DA
O1732|O1732004| |Von Rossen|D,EL|D|H-1|POL/DA
O1732|O1732004| |Roy|D,EL|D|H-1|POL/DA
O1732|O1732004| |Sitnik|D,EL|D|H-1|POL/DA
O1732|O1732004| |Siudak|D,EL|D|H-1|POL/DA
O1732|O1732004| |Tsenov|D,EL|D|H-1|POL/DA
O1732|O1732004| |Urban|D,EL|D|H-1|POL/DA
O1732|O1732004| |Vankova|D,EL|D|H-1|POL/DA
O1732|O1732004| |Wilkin|D,EL|D|H-1|POL/DA
O1732|O1732004| |Gem Collaboration|D,EL|D|H-1|POL/DA
O1732|O1732005| |Budzanowski|D,ETA|D|H-2|POL/DA
O1732|O1732005| |Chatterjee|D,ETA|D|H-2|POL/DA
O1732|O1732005| |Gebel|D,ETA|D|H-2|POL/DA
O1732|O1732005| |Hawranek|D,ETA|D|H-2|POL/DA
O1732|O1732005| |Jahn|D,ETA|D|H-2|POL/DA
O1732|O1732005| |Jha|D,ETA|D|H-2|POL/DA
O1732|O1732005| |Kilian|D,ETA|D|H-2|POL/DA
O1732|O1732005| |Kliczewski|D,ETA|D|H-2|POL/DA
O1732|O1732005| |Kirillov|D,ETA|D|H-2|POL/DA
O1732|O1732005| |Kolev|D,ETA|D|H-2|POL/DA
O1732|O1732005| |Kravcikova|D,ETA|D|H-2|POL/DA
O1732|O1732005| |Lesiak|D,ETA|D|H-2|POL/DA
O1732|O1732005| |Lieb|D,ETA|D|H-2|POL/DA
O1732|O1732005| |Machner|D,ETA|D|H-2|POL/DA
O1732|O1732005| |Magiera|D,ETA|D|H-2|POL/DA
O1732|O1732005| |Maier|D,ETA|D|H-2|POL/DA
O1732|O1732005| |Martinska|D,ETA|D|H-2|POL/DA
O1732|O1732005| |Nedev|D,ETA|D|H-2|POL/DA
O1732|O1732005| |Piskunov|D,ETA|D|H-2|POL/DA
O1732|O1732005| |Prasuhn|D,ETA|D|H-2|POL/DA
O1732|O1732005| |Protic|D,ETA|D|H-2|POL/DA
O1732|O1732005| |Ritman|D,ETA|D|H-2|POL/DA
O1732|O1732005| |Von Rossen|D,ETA|D|H-2|POL/DA
O1732|O1732005| |Roy|D,ETA|D|H-2|POL/DA
O1732|O1732005| |Sitnik|D,ETA|D|H-2|POL/DA
O1732|O1732005| |Siudak|D,ETA|D|H-2|POL/DA
O1732|O1732005| |Tsenov|D,ETA|D|H-2|POL/DA
O1732|O1732005| |Urban|D,ETA|D|H-2|POL/DA
O1732|O1732005| |Vankova|D,ETA|D|H-2|POL/DA
O1732|O1732005| |Wilkin|D,ETA|D|H-2|POL/DA
O1732|O1732005| |Gem Collaboration|D,ETA|D|H-2|POL/DA
O1732|O1732006| |Budzanowski|D,ETA|D|H-2|DA
O1732|O1732006| |Chatterjee|D,ETA|D|H-2|DA
O1732|O1732006| |Gebel|D,ETA|D|H-2|DA
O1732|O1732006| |Hawranek|D,ETA|D|H-2|DA
O1732|O1732006| |Jahn|D,ETA|D|H-2|DA
O1732|O1732006| |Jha|D,ETA|D|H-2|DA
O1732|O1732006| |Kilian|D,ETA|D|H-2|DA
O1732|O1732006| |Kliczewski|D,ETA|D|H-2|DA
O1732|O1732006| |Kirillov|D,ETA|D|H-2|DA
O1732|O1732006| |Kolev|D,ETA|D|H-2|DA
O1732|O1732006| |Kravcikova|D,ETA|D|H-2|DA
O1732|O1732006| |Lesiak|D,ETA|D|H-2|DA
O1732|O1732006| |Lieb|D,ETA|D|H-2|DA
O1732|O1732006| |Machner|D,ETA|D|H-2|DA
O1732|O1732006| |Magiera|D,ETA|D|H-2|DA
O1732|O1732006| |Maier|D,ETA|D|H-2|DA
O1732|O1732006| |Martinska|D,ETA|D|H-2|DA
O1732|O1732006| |Nedev|D,ETA|D|H-2|DA
O1732|O1732006| |Piskunov|D,ETA|D|H-2|DA
O1732|O1732006| |Prasuhn|D,ETA|D|H-2|DA
O1732|O1732006| |Protic|D,ETA|D|H-2|DA
O1732|O1732006| |Ritman|D,ETA|D|H-2|DA
O1732|O1732006| |Von Rossen|D,ETA|D|H-2|DA
O1732|O1732006| |Roy|D,ETA|D|H-2|DA
O1732|O1732006| |Sitnik|D,ETA|D|H-2|DA
O1732|O1732006| |Siudak|D,ETA|D|H-2|DA
O1732|O1732006| |Tsenov|D,ETA|D|H-2|DA
O1732|O1732006| |Urban|D,ETA|D|H-2|DA
O1732|O1732006| |Vankova|D,ETA|D|H-2|DA
O1732|O1732006| |Wilkin|D,ETA|D|H-2|DA
O1732|O1732006| |Gem Collaboration|D,ETA|D|H-2|DA
O1732|O1732007| |Budzanowski|D,ETA|D|H-2|SIG
O1732|O1732007| |Chatterjee|D,ETA|D|H-2|SIG
O1732|O1732007| |Gebel|D,ETA|D|H-2|SIG
O1732|O1732007| |Hawranek|D,ETA|D|H-2|SIG
O1732|O1732007| |Jahn|D,ETA|D|H-2|SIG
O1732|O1732007| |Jha|D,ETA|D|H-2|SIG
O1732|O1732007| |Kilian|D,ETA|D|H-2|SIG
O1732|O1732007| |Kliczewski|D,ETA|D|H-2|SIG
O1732|O1732007| |Kirillov|D,ETA|D|H-2|SIG
O1732|O1732007| |Kolev|D,ETA|D|H-2|SIG
O1732|O1732007| |Kravcikova|D,ETA|D|H-2|SIG
O1732|O1732007| |Lesiak|D,ETA|D|H-2|SIG
O1732|O1732007| |Lieb|D,ETA|D|H-2|SIG
O1732|O1732007| |Machner|D,ETA|D|H-2|SIG
O1732|O1732007| |Magiera|D,ETA|D|H-2|SIG
O1732|O1732007| |Maier|D,ETA|D|H-2|SIG
O1732|O1732007| |Martinska|D,ETA|D|H-2|SIG
O1732|O1732007| |Nedev|D,ETA|D|H-2|SIG
O1732|O1732007| |Piskunov|D,ETA|D|H-2|SIG
O1732|O1732007| |Prasuhn|D,ETA|D|H-2|SIG
O1732|O1732007| |Protic|D,ETA|D|H-2|SIG
O1732|O1732007| |Ritman|D,ETA|D|H-2|SIG
O1732|O1732007| |Von Rossen|D,ETA|D|H-2|SIG
O1732|O1732007| |Roy|D,ETA|D|H-2|SIG
O1732|O1732007| |Sitnik|D,ETA|D|H-2|SIG
O1732|O1732007| |Siudak|D,ETA|D|H-2|SIG
O1732|O1732007| |Tsenov|D,ETA|D|H-2|SIG
O1732|O1732007| |Urban|D,ETA|D|H-2|SIG
O1732|O1732007| |Vankova|D,ETA|D|H-2|SIG
O1732|O1732007| |Wilkin|D,ETA|D|H-2|SIG
O1732|O1732007| |Gem Collaboration|D,ETA|D|H-2|SIG
O1974|O1974002| |Ciepal|D,EL|D|H-1|POL/DA
O1974|O1974002| |Kistryn|D,EL|D|H-1|POL/DA
O1974|O1974002| |Stephan|D,EL|D|H-1|POL/DA
O1974|O1974002| |Biegun|D,EL|D|H-1|POL/DA
O1974|O1974002| |Bodek|D,EL|D|H-1|POL/DA
O1974|O1974002| |Deltuva|D,EL|D|H-1|POL/DA
O1974|O1974002| |Epelbaum|D,EL|D|H-1|POL/DA
O1974|O1974002| |Eslami-Kalantari|D,EL|D|H-1|POL/DA
O1974|O1974002| |Fonseca|D,EL|D|H-1|POL/DA
O1974|O1974002| |Golak|D,EL|D|H-1|POL/DA
O1974|O1974002| |Jha|D,EL|D|H-1|POL/DA
O1974|O1974002| |Kalantar-Nayestanaki|D,EL|D|H-1|POL/DA
O1974|O1974002| |Kamada|D,EL|D|H-1|POL/DA
O1974|O1974002| |Khatri|D,EL|D|H-1|POL/DA
O1974|O1974002| |Kirillov|D,EL|D|H-1|POL/DA
O1974|O1974002| |Kis|D,EL|D|H-1|POL/DA
O1974|O1974002| |Kliczewski|D,EL|D|H-1|POL/DA
O1974|O1974002| |Klos|D,EL|D|H-1|POL/DA
O1974|O1974002| |Kozela|D,EL|D|H-1|POL/DA
O1974|O1974002| |Kravcikova|D,EL|D|H-1|POL/DA
O1974|O1974002| |Lesiak|D,EL|D|H-1|POL/DA
O1974|O1974002| |Machner|D,EL|D|H-1|POL/DA
O1974|O1974002| |Magiera|D,EL|D|H-1|POL/DA
O1974|O1974002| |Martinska|D,EL|D|H-1|POL/DA
O1974|O1974002| |Messchendorp|D,EL|D|H-1|POL/DA
O1974|O1974002| |Nogga|D,EL|D|H-1|POL/DA
O1974|O1974002| |Parol|D,EL|D|H-1|POL/DA
O1974|O1974002| |Ramazani-Moghaddam-Arani|D,EL|D|H-1|POL/DA
O1974|O1974002| |Roy|D,EL|D|H-1|POL/DA
O1974|O1974002| |Sakai|D,EL|D|H-1|POL/DA
O1974|O1974002| |Sekiguchi|D,EL|D|H-1|POL/DA
O1974|O1974002| |Sitnik|D,EL|D|H-1|POL/DA
O1974|O1974002| |Siudak|D,EL|D|H-1|POL/DA
O1974|O1974002| |Skibinski|D,EL|D|H-1|POL/DA
O1974|O1974002| |Sworst|D,EL|D|H-1|POL/DA
O1974|O1974002| |Urban|D,EL|D|H-1|POL/DA
O1974|O1974002| |Witala|D,EL|D|H-1|POL/DA
O1974|O1974002| |Wronska|D,EL|D|H-1|POL/DA
O1974|O1974002| |Zejma|D,EL|D|H-1|POL/DA
O1974|O1974003| |Ciepal|D,N+P|D|H-1|POL/DA/DA/DE
O1974|O1974003| |Kistryn|D,N+P|D|H-1|POL/DA/DA/DE
O1974|O1974003| |Stephan|D,N+P|D|H-1|POL/DA/DA/DE
O1974|O1974003| |Biegun|D,N+P|D|H-1|POL/DA/DA/DE
O1974|O1974003| |Bodek|D,N+P|D|H-1|POL/DA/DA/DE
O1974|O1974003| |Deltuva|D,N+P|D|H-1|POL/DA/DA/DE
O1974|O1974003| |Epelbaum|D,N+P|D|H-1|POL/DA/DA/DE
O1974|O1974003| |Eslami-Kalantari|D,N+P|D|H-1|POL/DA/DA/DE
O1974|O1974003| |Fonseca|D,N+P|D|H-1|POL/DA/DA/DE
O1974|O1974003| |Golak|D,N+P|D|H-1|POL/DA/DA/DE
O1974|O1974003| |Jha|D,N+P|D|H-1|POL/DA/DA/DE
O1974|O1974003| |Kalantar-Nayestanaki|D,N+P|D|H-1|POL/DA/DA/DE
O1974|O1974003| |Kamada|D,N+P|D|H-1|POL/DA/DA/DE
O1974|O1974003| |Khatri|D,N+P|D|H-1|POL/DA/DA/DE
O1974|O1974003| |Kirillov|D,N+P|D|H-1|POL/DA/DA/DE
O1974|O1974003| |Kis|D,N+P|D|H-1|POL/DA/DA/DE
O1974|O1974003| |Kliczewski|D,N+P|D|H-1|POL/DA/DA/DE
O1974|O1974003| |Klos|D,N+P|D|H-1|POL/DA/DA/DE
O1974|O1974003| |Kozela|D,N+P|D|H-1|POL/DA/DA/DE
O1974|O1974003| |Kravcikova|D,N+P|D|H-1|POL/DA/DA/DE
O1974|O1974003| |Lesiak|D,N+P|D|H-1|POL/DA/DA/DE
O1974|O1974003| |Machner|D,N+P|D|H-1|POL/DA/DA/DE
O1974|O1974003| |Magiera|D,N+P|D|H-1|POL/DA/DA/DE
O1974|O1974003| |Martinska|D,N+P|D|H-1|POL/DA/DA/DE
O1974|O1974003| |Messchendorp|D,N+P|D|H-1|POL/DA/DA/DE
O1974|O1974003| |Nogga|D,N+P|D|H-1|POL/DA/DA/DE
O1974|O1974003| |Parol|D,N+P|D|H-1|POL/DA/DA/DE
O1974|O1974003| |Ramazani-Moghaddam-Arani|D,N+P|D|H-1|POL/DA/DA/DE
O1974|O1974003| |Roy|D,N+P|D|H-1|POL/DA/DA/DE
O1974|O1974003| |Sakai|D,N+P|D|H-1|POL/DA/DA/DE
O1974|O1974003| |Sekiguchi|D,N+P|D|H-1|POL/DA/DA/DE
O1974|O1974003| |Sitnik|D,N+P|D|H-1|POL/DA/DA/DE
O1974|O1974003| |Siudak|D,N+P|D|H-1|POL/DA/DA/DE
O1974|O1974003| |Skibinski|D,N+P|D|H-1|POL/DA/DA/DE
O1974|O1974003| |Sworst|D,N+P|D|H-1|POL/DA/DA/DE
O1974|O1974003| |Urban|D,N+P|D|H-1|POL/DA/DA/DE
O1974|O1974003| |Witala|D,N+P|D|H-1|POL/DA/DA/DE
O1974|O1974003| |Wronska|D,N+P|D|H-1|POL/DA/DA/DE
O1974|O1974003| |Zejma|D,N+P|D|H-1|POL/DA/DA/DE
O1974|O1974004| |Ciepal|D,N+P|D|H-1|POL/DA/DA/DE
O1974|O1974004| |Kistryn|D,N+P|D|H-1|POL/DA/DA/DE
O1974|O1974004| |Stephan|D,N+P|D|H-1|POL/DA/DA/DE
O1974|O1974004| |Biegun|D,N+P|D|H-1|POL/DA/DA/DE
O1974|O1974004| |Bodek|D,N+P|D|H-1|POL/DA/DA/DE
O1974|O1974004| |Deltuva|D,N+P|D|H-1|POL/DA/DA/DE
O1974|O1974004| |Epelbaum|D,N+P|D|H-1|POL/DA/DA/DE
O1974|O1974004| |Eslami-Kalantari|D,N+P|D|H-1|POL/DA/DA/DE
O1974|O1974004| |Fonseca|D,N+P|D|H-1|POL/DA/DA/DE
O1974|O1974004| |Golak|D,N+P|D|H-1|POL/DA/DA/DE
O1974|O1974004| |Jha|D,N+P|D|H-1|POL/DA/DA/DE
O1974|O1974004| |Kalantar-Nayestanaki|D,N+P|D|H-1|POL/DA/DA/DE
O1974|O1974004| |Kamada|D,N+P|D|H-1|POL/DA/DA/DE
O1974|O1974004| |Khatri|D,N+P|D|H-1|POL/DA/DA/DE
O1974|O1974004| |Kirillov|D,N+P|D|H-1|POL/DA/DA/DE
O1974|O1974004| |Kis|D,N+P|D|H-1|POL/DA/DA/DE
O1974|O1974004| |Kliczewski|D,N+P|D|H-1|POL/DA/DA/DE
O1974|O1974004| |Klos|D,N+P|D|H-1|POL/DA/DA/DE
O1974|O1974004| |Kozela|D,N+P|D|H-1|POL/DA/DA/DE"
/-- rows of x4i3/tests/data/index.tbl -/
def rows13 : String := "O1974|O1974004| |Kravcikova|D,N+P|D|H-1|POL/DA/DA/DE
O1974|O1974004| |Lesiak|D,N+P|D|H-1|POL/DA/DA/DE
O1974|O1974004| |Machner|D,N+P|D|H-1|POL/DA/DA/DE
O1974|O1974004| |Magiera|D,N+P|D|H-1|POL/DA/DA/DE
O1974|O1974004| |Martinska|D,N+P|D|H-1|POL/DA/DA/DE
O1974|O1974004| |Messchendorp|D,N+P|D|H-1|POL/DA/DA/DE
O1974|O1974004| |Nogga|D,N+P|D|H-1|POL/DA/DA/DE
O1974|O1974004| |Parol|D,N+P|D|H-1|POL/DA/DA/DE
O1974|O1974004| |Ramazani-Moghaddam-Arani|D,N+P|D|H-1|POL/DA/DA/DE
O1974|O1974004| |Roy|D,N+P|D|H-1|POL/DA/DA/DE
O1974|O1974004| |Sakai|D,N+P|D|H-1|POL/DA/DA/DE
O1974|O1974004| |Sekiguchi|D,N+P|D|H-1|POL/DA/DA/DE
O1974|O1974004| |Sitnik|D,N+P|D|H-1|POL/DA/DA/DE
O1974|O1974004| |Siudak|D,N+P|D|H-1|POL/DA/DA/DE
O1974|O1974004| |Skibinski|D,N+P|D|H-1|POL/DA/DA/DE
O1974|O1974004| |Sworst|D,N+P|D|H-1|POL/DA/DA/DE
O1974|O1974004| |Urban|D,N+P|D|H-1|POL/DA/DA/DE
O1974|O1974004| |Witala|D,N+P|D|H-1|POL/DA/DA/DE
O1974|O1974004| |Wronska|D,N+P|D|H-1|POL/DA/DA/DE
O1974|O1974004| |Zejma|D,N+P|D|H-1|POL/DA/DA/DE
O1974|O1974005| |Ciepal|D,N+P|D|H-1|POL/DA/DA/DE
O1974|O1974005| |Kistryn|D,N+P|D|H-1|POL/DA/DA/DE
O1974|O1974005| |Stephan|D,N+P|D|H-1|POL/DA/DA/DE
O1974|O1974005| |Biegun|D,N+P|D|H-1|POL/DA/DA/DE
O1974|O1974005| |Bodek|D,N+P|D|H-1|POL/DA/DA/DE
O1974|O1974005| |Deltuva|D,N+P|D|H-1|POL/DA/DA/DE
O1974|O1974005| |Epelbaum|D,N+P|D|H-1|POL/DA/DA/DE
O1974|O1974005| |Eslami-Kalantari|D,N+P|D|H-1|POL/DA/DA/DE
O1974|O1974005| |Fonseca|D,N+P|D|H-1|POL/DA/DA/DE
O1974|O1974005| |Golak|D,N+P|D|H-1|POL/DA/DA/DE
O1974|O1974005| |Jha|D,N+P|D|H-1|POL/DA/DA/DE
O1974|O1974005| |Kalantar-Nayestanaki|D,N+P|D|H-1|POL/DA/DA/DE
O1974|O1974005| |Kamada|D,N+P|D|H-1|POL/DA/DA/DE
O1974|O1974005| |Khatri|D,N+P|D|H-1|POL/DA/DA/DE
O1974|O1974005| |Kirillov|D,N+P|D|H-1|POL/DA/DA/DE
O1974|O1974005| |Kis|D,N+P|D|H-1|POL/DA/DA/DE
O1974|O1974005| |Kliczewski|D,N+P|D|H-1|POL/DA/DA/DE
O1974|O1974005| |Klos|D,N+P|D|H-1|POL/DA/DA/DE
O1974|O1974005| |Kozela|D,N+P|D|H-1|POL/DA/DA/DE
O1974|O1974005| |Kravcikova|D,N+P|D|H-1|POL/DA/DA/DE
O1974|O1974005| |Lesiak|D,N+P|D|H-1|POL/DA/DA/DE
O1974|O1974005| |Machner|D,N+P|D|H-1|POL/DA/DA/DE
O1974|O1974005| |Magiera|D,N+P|D|H-1|POL/DA/DA/DE
O1974|O1974005| |Martinska|D,N+P|D|H-1|POL/DA/DA/DE
O1974|O1974005| |Messchendorp|D,N+P|D|H-1|POL/DA/DA/DE
O1974|O1974005| |Nogga|D,N+P|D|H-1|POL/DA/DA/DE
O1974|O1974005| |Parol|D,N+P|D|H-1|POL/DA/DA/DE
O1974|O1974005| |Ramazani-Moghaddam-Arani|D,N+P|D|H-1|POL/DA/DA/DE
O1974|O1974005| |Roy|D,N+P|D|H-1|POL/DA/DA/DE
O1974|O1974005| |Sakai|D,N+P|D|H-1|POL/DA/DA/DE
O1974|O1974005| |Sekiguchi|D,N+P|D|H-1|POL/DA/DA/DE
O1974|O1974005| |Sitnik|D,N+P|D|H-1|POL/DA/DA/DE
O1974|O1974005| |Siudak|D,N+P|D|H-1|POL/DA/DA/DE
O1974|O1974005| |Skibinski|D,N+P|D|H-1|POL/DA/DA/DE
O1974|O1974005| |Sworst|D,N+P|D|H-1|POL/DA/DA/DE
O1974|O1974005| |Urban|D,N+P|D|H-1|POL/DA/DA/DE
O1974|O1974005| |Witala|D,N+P|D|H-1|POL/DA/DA/DE
O1974|O1974005| |Wronska|D,N+P|D|H-1|POL/DA/DA/DE
O1974|O1974005| |Zejma|D,N+P|D|H-1|POL/DA/DA/DE"

/-- the table `theworks`: 5259 rows -/
def index : List Row := (splitChar '\n' (String.intercalate "\n" [rows0, rows1, rows2, rows3, rows4, rows5, rows6, rows7, rows8, rows9, rows10, rows11, rows12, rows13]).toList).flatMap rowOf

#guard index.length = 5259

/-- the result of a query -/
def result (c : Criteria) : Option (Dict Str (List Str)) := (query index c).2.toOption

/-! rows whose author no search finds (C123) -/
#guard (index.filter fun r => r.author ≠ r.author.map capitalize).length = 209
#guard (index.filter fun r => r.author = some chars!"Le Brun").length ≠ 0 ∧ result { author := some chars!"Le Brun" } = some []

/-! `test_entry_query`, test_exfor_manager.py:119 -/
#guard result { ENTRY := some (.int 10001) } = expected "10001 10001001 10001002 10001003 10001004 10001005 10001006 10001007 10001008 10001009 10001010 10001011 10001012 10001013 10001014 10001015 10001016 10001017"

/-! `test_subent_query`, test_exfor_manager.py:140 -/
#guard result { SUBENT := some (.int 10001015) } = expected "10001 10001001 10001015"

/-! `test_author_query`, test_exfor_manager.py:147 -/
#guard result { author := some chars!"Panitkin" } = expected "40121 40121001 40121002;40177 40177001 40177002 40177003;40431 40431001 40431002;41335 41335001 41335002"

/-! `test_targ_reaction_cs_quant_query`, test_exfor_manager.py:178 -/
#guard result { target := some chars!"PU-239", reaction := some chars!"N,2N", quantity := some chars!"CS" } = expected "13787 13787001 13787002;13883 13883001 13883002;14129 14129001 14129002;20795 20795001 20795014 20795015;21971 21971001 21971003"

/-! `test_targ_reaction_da_quant_query`, test_exfor_manager.py:186 -/
#guard result { target := some chars!"H-1", reaction := some chars!"N,EL", quantity := some chars!"DA" } = expected "10036 10036001 10036002;10135 10135001 10135007 10135008;10149 10149001 10149002;10187 10187001 10187002;10241 10241001 10241002;10275 10275001 10275002;10315 10315001 10315002;10316 10316001 10316002 10316003 10316005;10355 10355001 10355002 10355003;10592 10592001 10592002;10804 10804001 10804002;10862 10862001 10862002;10892 10892001 10892002;10903 10903001 10903002;11036 11036001 11036002;11042 11042001 11042002 11042003;11055 11055001 11055002 11055003;11066 11066001 11066002;11069 11069001 11069002 11069003;11072 11072001 11072002 11072003;11078 11078001 11078002;11079 11079001 11079002;11083 11083001 11083002;11084 11084001 11084002;11090 11090001 11090002;11096 11096001 11096002 11096003;11109 11109001 11109002;11117 11117001 11117002;11123 11123001 11123002 11123003;11124 11124001 11124002;11128 11128001 11128002 11128003;11129 11129001 11129002;11131 11131001 11131002;11167 11167001 11167002 11167003 11167004;12643 12643001 12643002;12656 12656001 12656002 12656003;12780 12780001 12780002;12884 12884001 12884003 12884004;12909 12909001 12909002;12917 12917001 12917002;13150 13150001 13150002 13150003 13150004;13623 13623001 13623002;13782 13782001 13782002 13782003;13793 13793001 13793002;13795 13795001 13795002;13986 13986001 13986002;14017 14017001 14017002;14160 14160001 14160002;20287 20287001 20287002 20287003;20296 20296001 20296003 20296004 20296005 20296007 20296008 20296009;20319 20319001 20319002;20360 20360001 20360002 20360003;20389 20389001 20389002 20389003;20404 20404001 20404002;20778 20778001 20778002;20964 20964001 20964002 20964003 20964004 20964005 20964006 20964007 20964008 20964009 20964010 20964011 20964012 20964013 20964014 20964015 20964016 20964017 20964018 20964019 20964020 20964021 20964022 20964023 20964024 20964025 20964026 20964027 20964028;21223 21223001 21223002 21223003;21365 21365001 21365002;21367 21367001 21367002 21367003 21367004;21790 21790001 21790002;21795 21795001 21795002;21800 21800001 21800002 21800003;21815 21815001 21815002 21815003 21815004;21852 21852001 21852002;21985 21985001 21985003;21993 21993001 21993002;22207 22207001 22207002;22223 22223001 22223002;22225 22225001 22225002;22277 22277001 22277002;22542 22542001 22542002 22542003;22668 22668001 22668002 22668003;22831 22831001 22831036;22886 22886001 22886002 22886003;22914 22914001 22914002;22949 22949001 22949005;30078 30078001 30078002;30162 30162001 30162002 30162003;30327 30327001 30327002;30340 30340001 30340003;30679 30679001 30679002 30679003 30679004;31048 31048001 31048002;41202 41202001 41202002;41206 41206001 41206002;41207 41207001 41207002;41209 41209001 41209002;41224 41224001 41224002 41224003"

/-! `test_targ_reaction_pol_quant_query`, test_exfor_manager.py:279 -/
#guard result { target := some chars!"H-1", reaction := some chars!"D,EL", quantity := some chars!"POL/DA" } = expected "C0606 C0606001 C0606005;C0801 C0801001 C0801007 C0801008 C0801009 C0801010;C1236 C1236001 C1236002 C1236003 C1236004 C1236005 C1236006;C1285 C1285001 C1285002 C1285003 C1285004 C1285005;C1560 C1560001 C1560002 C1560003 C1560004 C1560005;D0480 D0480001 D0480003 D0480004 D0480005 D0480006;E0783 E0783001 E0783002;E0811 E0811001 E0811004 E0811005 E0811006 E0811007 E0811008 E0811009 E0811010;E0839 E0839001 E0839003 E0839004 E0839005 E0839006;E1627 E1627001 E1627002 E1627003 E1627004 E1627005;E1723 E1723001 E1723003 E1723004 E1723005 E1723006;E1772 E1772001 E1772005 E1772006 E1772007 E1772008 E1772009 E1772010 E1772011 E1772012 E1772013 E1772014 E1772015 E1772016 E1772017 E1772018 E1772019 E1772020 E1772021 E1772022 E1772023 E1772024;E1907 E1907001 E1907002 E1907003 E1907007 E1907008 E1907009 E1907010 E1907011 E1907012 E1907013 E1907014;E2008 E2008001 E2008002 E2008003 E2008004 E2008005 E2008006 E2008007 E2008008 E2008009;E2052 E2052001 E2052002 E2052003 E2052004 E2052005 E2052006 E2052007 E2052008 E2052009;E2159 E2159001 E2159003;E2346 E2346001 E2346002 E2346003 E2346004 E2346005;O1434 O1434001 O1434002 O1434003 O1434004;O1664 O1664001 O1664002 O1664003 O1664004;O1732 O1732001 O1732004;O1974 O1974001 O1974002"

end X4.RecordedIndex
