import Verif.Py.Str
/-! `float(str)`: which strings are accepted and the exact number they denote. -/
namespace X4

/-- The exact literal denoted by a string accepted by `float()`;
`fin neg m e` is `±m·10^e`. Rounding to a double is not modelled. -/
inductive FloatLit where
  | fin (neg : Bool) (mant : Nat) (exp : Int)
  | inf (neg : Bool)
  | nan
  deriving DecidableEq, Repr

/-- optional `e[sign]digits` part; `none` if there is trailing garbage -/
def expPart : Str → Option Int
  | [] => some 0
  | c :: t =>
    if c == 'e' || c == 'E' then
      let nd := takeSign t
      if !nd.2.isEmpty && nd.2.all isDig then
        some (if nd.1 then - (digitsVal nd.2 : Int) else (digitsVal nd.2 : Int))
      else none
    else none

/-- optional `.digits` part and what follows it -/
def fracPart : Str → Str × Str
  | [] => ([], [])
  | c :: t => if c == '.' then (t.takeWhile isDig, t.dropWhile isDig) else ([], c :: t)

/-- unsigned decimal numeral -/
def numeral (neg : Bool) (s : Str) : Option FloatLit :=
  let ip := s.takeWhile isDig
  let fr := fracPart (s.dropWhile isDig)
  if ip.isEmpty && fr.1.isEmpty then none
  else (expPart fr.2).map fun e => .fin neg (digitsVal (ip ++ fr.1)) (e - fr.1.length)

/-- `float(s)`; `none` is `ValueError`. -/
def pyFloat (s : Str) : Option FloatLit :=
  let t := strip s
  if usOk false t then
    let sb := takeSign (rmUnderscore t)
    let l := lower sb.2
    if l = "inf".toList ∨ l = "infinity".toList then some (.inf sb.1)
    else if l = "nan".toList then some .nan
    else numeral sb.1 sb.2
  else none

end X4
