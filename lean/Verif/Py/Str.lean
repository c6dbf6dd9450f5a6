import Verif.Py.Err
/-! Python `str` operations used by x4i3. A string is a list of characters.

The database files are opened with `encoding` latin-1/ascii, so the white-space
set below is the latin-1 part of the characters for which `str.isspace()` holds. -/
namespace X4

abbrev Str := List Char

/-- `c.isspace()` for latin-1 characters:
`\t\n\v\f\r`, `\x1c..\x1f`, blank, `\x85`, `\xa0`. -/
def isSpace (c : Char) : Bool :=
  (9 ≤ c.toNat && c.toNat ≤ 13) || (28 ≤ c.toNat && c.toNat ≤ 32) || c.toNat == 133 || c.toNat == 160

/-- `s.lstrip()` -/
def lstrip (s : Str) : Str := s.dropWhile isSpace
/-- `s.rstrip()` -/
def rstrip (s : Str) : Str := (s.reverse.dropWhile isSpace).reverse
/-- `s.strip()` -/
def strip (s : Str) : Str := rstrip (lstrip s)

/-- `s[a:b]` for `0 ≤ a`, `0 ≤ b`. -/
def slice {α} (s : List α) (a b : Nat) : List α := (s.take b).drop a

/-- `s.ljust(n)` -/
def ljust (s : Str) (n : Nat) : Str := s ++ List.replicate (n - s.length) ' '
/-- `s.rjust(n)` -/
def rjust (s : Str) (n : Nat) : Str := List.replicate (n - s.length) ' ' ++ s
/-- `s.zfill(n)`; a leading sign stays in front. -/
def zfill (s : Str) (n : Nat) : Str :=
  match s with
  | '-' :: t => '-' :: (List.replicate (n - s.length) '0' ++ t)
  | '+' :: t => '+' :: (List.replicate (n - s.length) '0' ++ t)
  | _ => List.replicate (n - s.length) '0' ++ s

/-- split at the elements satisfying `p` (keeping empty pieces) -/
def splitOnP {α} (p : α → Bool) : List α → List (List α)
  | [] => [[]]
  | c :: cs =>
    if p c then [] :: splitOnP p cs
    else match splitOnP p cs with
      | [] => [[c]]
      | h :: t => (c :: h) :: t

/-- `s.split()` -/
def splitWs (s : Str) : List Str := (splitOnP isSpace s).filter (fun w => !w.isEmpty)
/-- `s.split(c)` for a one-character separator -/
def splitChar (c : Char) (s : Str) : List Str := splitOnP (fun x => x == c) s
/-- `'\n'.join(ls)` (any separator string) -/
def joinWith (sep : Str) : List Str → Str
  | [] => []
  | [x] => x
  | x :: y :: r => x ++ sep ++ joinWith sep (y :: r)

/-- `s.startswith(p)` -/
def startsWith (s p : Str) : Bool := p.isPrefixOf s
/-- `s.endswith(p)` -/
def endsWith (s p : Str) : Bool := p.isSuffixOf s

/-- `p in s` for strings -/
def hasSub (p : Str) : Str → Bool
  | [] => p.isEmpty
  | c :: cs => p.isPrefixOf (c :: cs) || hasSub p cs

/-- `s.replace(c, r)` for a one-character pattern -/
def replaceChar (c : Char) (r : Str) (s : Str) : Str :=
  s.flatMap (fun x => if x == c then r else [x])

/-- `s.upper()` (ASCII letters only: simplification for non-ASCII input) -/
def upper (s : Str) : Str := s.map Char.toUpper
/-- `s.lower()` (ASCII letters only) -/
def lower (s : Str) : Str := s.map Char.toLower
/-- `s.capitalize()` (ASCII letters only) -/
def capitalize : Str → Str
  | [] => []
  | c :: cs => c.toUpper :: cs.map Char.toLower

/-- ASCII digit `0..9` (the only latin-1 characters accepted by `int`/`float`). -/
def isDig (c : Char) : Bool := 48 ≤ c.toNat && c.toNat ≤ 57
/-- `c.isdigit()` for latin-1: ASCII digits and the superscripts `²³¹`. -/
def isPyDigit (c : Char) : Bool :=
  isDig c || c.toNat == 0xb2 || c.toNat == 0xb3 || c.toNat == 0xb9
/-- `s.isdigit()` -/
def isDigitStr (s : Str) : Bool := !s.isEmpty && s.all isPyDigit

def digVal (c : Char) : Nat := c.toNat - 48
/-- value of a string of ASCII digits -/
def digitsVal (s : Str) : Nat := s.foldl (fun n c => 10 * n + digVal c) 0

def digChar (d : Nat) : Char := Char.ofNat (48 + d)
/-- least significant digit first -/
def natDigitsRev (fuel n : Nat) : Str :=
  match fuel with
  | 0 => []
  | f + 1 => if n < 10 then [digChar n] else digChar (n % 10) :: natDigitsRev f (n / 10)
/-- `str(n)` for a natural number -/
def natStr (n : Nat) : Str := (natDigitsRev (n + 1) n).reverse
/-- `str(n)` for an int -/
def intStr : Int → Str
  | .ofNat n => natStr n
  | .negSucc n => '-' :: natStr (n + 1)

/-- Underscores are accepted by `int()`/`float()` only between two digits. -/
def usOk : Bool → Str → Bool
  | _, [] => true
  | p, c :: cs =>
    if c == '_' then
      p && (match cs with | d :: _ => isDig d | [] => false) && usOk false cs
    else usOk (isDig c) cs

def rmUnderscore (s : Str) : Str := s.filter (fun c => c != '_')

/-- optional sign: (is negative, rest) -/
def takeSign : Str → Bool × Str
  | '-' :: t => (true, t)
  | '+' :: t => (false, t)
  | t => (false, t)

/-- `int(s)`; `none` is `ValueError`. -/
def pyInt (s : Str) : Option Int :=
  let t := strip s
  if usOk false t then
    let nd := takeSign (rmUnderscore t)
    if !nd.2.isEmpty && nd.2.all isDig then
      some (if nd.1 then - (digitsVal nd.2 : Int) else (digitsVal nd.2 : Int))
    else none
  else none

end X4
