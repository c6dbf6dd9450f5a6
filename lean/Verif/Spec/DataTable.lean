import Verif.Py.Str
/-! The EXFOR table layout: six 11-column fields per physical line. -/
namespace X4

/-- number of physical lines needed for `numcols` columns (six per line) -/
def physLines (numcols : Nat) : Nat := (numcols + 5) / 6

/-- Text of column `j` of logical row `r` of a section (row 0 = labels, row 1 =
units, row 2+i = data row i): field `j % 6` of physical line `j / 6` of that row;
line 0 of the section is the header line. `none` if there is no such line. -/
def tableCell (sec : List Str) (lpr r j : Nat) : Option Str :=
  (sec[1 + r * lpr + j / 6]?).map fun line => strip ((line.drop (11 * (j % 6))).take 11)

end X4
