import Lean.Elab.Term
import Verif.Py.Str
/-! Notation for long constant tables: `chars!"abc"` is the explicit list of the
characters of the literal. It denotes the same list as `"abc".toList`, but the
kernel does not have to decode a string when it computes with the table. -/
namespace X4

open Lean Elab Term in
elab:max "chars!" s:str : term => return toExpr s.getString.toList

example : chars!"a b" = "a b".toList := rfl

end X4
