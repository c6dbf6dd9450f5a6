import Mathlib.Data.Nat.Digits.Defs
import Mathlib.Data.Rat.Defs
import Mathlib.Algebra.Field.Rat
import Verif.Py.Float
/-! Decimal notation, independently of the parser. -/
namespace X4

/-- a string of ASCII digits -/
def Digits (s : List Char) : Prop := ∀ c ∈ s, '0' ≤ c ∧ c ≤ '9'

/-- the number written by a string of decimal digits (positional notation) -/
def decVal (s : List Char) : Nat := Nat.ofDigits 10 (s.reverse.map fun c => c.toNat - '0'.toNat)

/-- `SignText t σ`: `t` is an optional sign and `σ` is ±1 -/
inductive SignText : List Char → ℚ → Prop
  | none : SignText [] 1
  | plus : SignText ['+'] 1
  | minus : SignText ['-'] (-1)

/-- `Mantissa t q`: `t` is a decimal number without exponent, of value `q` -/
inductive Mantissa : List Char → ℚ → Prop
  | int {s σ d} : SignText s σ → Digits d → d ≠ [] → Mantissa (s ++ d) (σ * decVal d)
  | frac {s σ ip fp} : SignText s σ → Digits ip → Digits fp → ip ++ fp ≠ [] →
      Mantissa (s ++ ip ++ '.' :: fp) (σ * (decVal ip + decVal fp / 10 ^ fp.length))

/-- the rational number denoted by a finite literal -/
def FloatLit.value : FloatLit → Option ℚ
  | .fin neg m e => some ((if neg then -1 else 1) * m * 10 ^ e)
  | _ => none

end X4
