import Verif.Model.Grammar
import Mathlib.Data.List.Chain
/-! The written form of EXFOR reactions (EXFOR Basics, LEXFOR "Reactions"), independently of the
grammar in the code: a syntax tree, the text it is written as, and the nested list of
words that a reader should make of it. -/
namespace X4
open Parser

/-- an isomer modifier with its operator: `-M1`, `+G`, `/T` -/
structure IsoMod where
  op : Char
  letter : Char
  digits : Str
  deriving DecidableEq, Repr

/-- a nucleus: `79-AU-197`, `95-AM-242-M+G` -/
structure NucText where
  Z : Str
  sym : Str
  A : Str
  mods : List IsoMod
  deriving DecidableEq, Repr

/-- target or residual: a nucleus, a chemical compound or a variable -/
inductive TargText where
  | nuc (n : NucText)
  | code (k : Str)
  | var (s : Str)
  deriving DecidableEq, Repr

/-- projectile or product: a nucleus, several particles, one particle or channel, nothing -/
inductive ProdText where
  | nuc (n : NucText)
  | mult (n w : Str)
  | word (w : Str)
  | zero
  deriving DecidableEq, Repr

/-- a field after the process: nothing, a word, a word in parentheses -/
inductive DescrText where
  | empty
  | word (w : Str)
  | par (w : Str)
  deriving DecidableEq, Repr

/-- a process `target(projectile,product+...)residual` -/
structure ProcText where
  targ : TargText
  proj : ProdText
  prod : ProdText
  prods : List ProdText
  resid : Option TargText
  deriving DecidableEq, Repr

/-- a reaction `(process,field,...)` -/
structure ReactText where
  proc : ProcText
  fields : List DescrText
  deriving DecidableEq, Repr

/-! ### as text -/

def IsoMod.text (m : IsoMod) : Str := m.op :: m.letter :: m.digits
def NucText.text (n : NucText) : Str := n.Z ++ '-' :: (n.sym ++ '-' :: (n.A ++ n.mods.flatMap IsoMod.text))
def TargText.text : TargText → Str
  | .nuc n => n.text
  | .code k => k
  | .var s => s
def ProdText.text : ProdText → Str
  | .nuc n => n.text
  | .mult n w => n ++ w
  | .word w => w
  | .zero => ['0']
def DescrText.text : DescrText → Str
  | .empty => []
  | .word w => w
  | .par w => '(' :: (w ++ [')'])
def ProcText.text (p : ProcText) : Str :=
  p.targ.text ++ '(' :: (p.proj.text ++ ',' :: (p.prod.text ++ (p.prods.flatMap (fun q => '+' :: q.text) ++ ')' ::
    p.resid.elim [] TargText.text)))
def ReactText.text (r : ReactText) : Str :=
  '(' :: (r.proc.text ++ (r.fields.flatMap (fun f => ',' :: f.text) ++ [')']))

/-! ### as words -/

def IsoMod.toks (m : IsoMod) : List Tok :=
  [.str [m.op], .str [m.letter]] ++ if m.digits = [] then [] else [.str m.digits]
def NucText.toks (n : NucText) : List Tok := [.str n.Z, .str n.sym, .str n.A] ++ n.mods.flatMap IsoMod.toks
def TargText.tok : TargText → Tok
  | .nuc n => .grp n.toks
  | .code k => .grp [.str k]
  | .var s => .str s
def ProdText.tok : ProdText → Tok
  | .nuc n => .grp n.toks
  | .mult n w => .grp [.str n, .str w]
  | .word w => .str w
  | .zero => .str ['0']
def DescrText.toks : DescrText → List Tok
  | .empty => []
  | .word w => [.str w]
  | .par w => [.str w]
def ProcText.toks (p : ProcText) : List Tok :=
  [p.targ.tok, p.proj.tok, p.prod.tok] ++ p.prods.map ProdText.tok ++ p.resid.elim [] (fun r => [r.tok])
def ReactText.toks (r : ReactText) : List Tok := .grp r.proc.toks :: r.fields.flatMap DescrText.toks

/-! ### well-formed -/

/-- decimal digits, at least one -/
def DigitText (s : Str) : Prop := s ≠ [] ∧ ∀ c ∈ s, isDig c = true
/-- letters followed by digits, as in `N`, `HE3`, `INL` -/
def ParticleWord (w : Str) : Prop := ∃ l d, w = l ++ d ∧ l ≠ [] ∧ (∀ c ∈ l, isAlphaA c = true) ∧ ∀ c ∈ d, isDig c = true
/-- one or two letters, the first a capital or an asterisk -/
def SymbolText (s : Str) : Prop :=
  ∃ c w, s = c :: w ∧ (isCap c = true ∨ c = '*') ∧ w.length ≤ 1 ∧ ∀ x ∈ w, isAlphaA x = true

def IsoMod.wf (m : IsoMod) : Prop :=
  m.op ∈ ['+', '-', '*', '/'] ∧ isModifier m.letter = true ∧ ∀ c ∈ m.digits, isDig c = true
def NucText.wf (n : NucText) : Prop := DigitText n.Z ∧ SymbolText n.sym ∧ DigitText n.A ∧ ∀ m ∈ n.mods, m.wf
def TargText.wf (vars : List Str) : TargText → Prop
  | .nuc n => n.wf
  | .code k => k ∈ compoundKeys
  | .var s => s ∈ vars
/-- projectiles are not counted -/
def ProdText.wfProj : ProdText → Prop
  | .nuc n => n.wf
  | .mult _ _ => False
  | .word w => ParticleWord w
  | .zero => True
/-- products; codes beginning with `X` (except `X` itself) have another meaning -/
def ProdText.wf : ProdText → Prop
  | .nuc n => n.wf
  | .mult n w => DigitText n ∧ ParticleWord w
  | .word w => ParticleWord w ∧ (w.head? = some 'X' → w = ['X'])
  | .zero => True
/-- Whether a product may be followed by `+` and another one: the grammar is ambiguous for
`B+...` (beta followed by another particle, or a positron) and for `6-C-14+T` (carbon and a triton,
or the sum over the isomers). -/
def ProdText.before (p q : ProdText) : Prop :=
  match p with
  | .nuc _ => ∀ c ∈ q.text.head?, isModifier c = false
  | .word w => w ≠ ['B']
  | _ => True
def DescrText.wf : DescrText → Prop
  | .empty => True
  | .word w => w ≠ [] ∧ ∀ c ∈ w, isDescr c = true
  | .par w => w ≠ [] ∧ ∀ c ∈ w, isDescr c = true

/-- the variable targets -/
def targVars : List Str := [chars!"ELEM/MASS", chars!"MASS", chars!"ELEM"]
/-- the variable residuals -/
def residVars : List Str := [chars!"ELEM/MASS", chars!"MASS", chars!"ELEM", chars!"NPART"]

def ProcText.wf (p : ProcText) : Prop :=
  p.targ.wf targVars ∧ p.proj.wfProj ∧ (∀ q ∈ p.prod :: p.prods, q.wf) ∧ List.IsChain ProdText.before (p.prod :: p.prods) ∧
  ∀ r ∈ p.resid, r.wf residVars
def ReactText.wf (r : ReactText) : Prop := r.proc.wf ∧ ∀ f ∈ r.fields, f.wf

end X4
