import Verif.Spec.ExpressionText
/-! How the objects of a reaction are written in EXFOR: the standard form of particles, nuclei and reactions. -/
namespace X4

/-- chemical symbol of a nucleus object: capitalized, and not the `Nn` that stands for the neutron -/
def SymOk (sym : Str) : Prop := SymbolText (upper sym) ∧ capitalize (upper sym) = sym ∧ sym ≠ chars!"Nn"

/-- nuclei, isomers, natural elements, compounds and variables as targets or residuals -/
inductive TargOf (vars : List Str) : Particle → TargText → Prop
  | nucleus {Z sym A : Str} (hZ : DigitText Z) (hs : SymOk sym) (hA : DigitText A) (h0 : A ≠ ['0']) :
      TargOf vars (.nucleus Z sym A) (.nuc ⟨Z, upper sym, A, []⟩)
  | element {Z sym : Str} (hZ : DigitText Z) (hs : SymOk sym) : TargOf vars (.element Z sym ['0']) (.nuc ⟨Z, upper sym, ['0'], []⟩)
  | isomer {Z sym A l : Str} (hZ : DigitText Z) (hs : SymOk sym) (hA : DigitText A) (hl : DigitText l) :
      TargOf vars (.isomer Z sym A [l]) (.nuc ⟨Z, upper sym, A, [⟨'-', 'M', if l = ['1'] then [] else l⟩]⟩)
  | compound {Z : Int} {sym code : Str} (hk : code ∈ compoundKeys) (h4 : 4 < code.length) (hc : compoundOfStr code = .ok (.compound Z sym code)) :
      TargOf vars (.compound Z sym code) (.code code)
  | var {s : Str} (hs : s ∈ vars) : TargOf vars (.variable s) (.var s)

/-- particles, nuclei and isomers as projectiles or products -/
inductive PartOf : Particle → ProdText → Prop
  | word {sym : Str} {Z A : Int} (hw : ParticleWord sym) (hu : upper sym = sym) (hX : sym.head? ≠ some 'X') (h : particleOfStr sym = .ok (.particle (.num 1) sym Z A)) :
      PartOf (.particle (.num 1) sym Z A) (.word sym)
  | nucleus {Z sym A : Str} (hZ : DigitText Z) (hs : SymOk sym) (hA : DigitText A) (h0 : A ≠ ['0']) :
      PartOf (.nucleus Z sym A) (.nuc ⟨Z, upper sym, A, []⟩)
  | isomer {Z sym A l : Str} (hZ : DigitText Z) (hs : SymOk sym) (hA : DigitText A) (hl : DigitText l) :
      PartOf (.isomer Z sym A [l]) (.nuc ⟨Z, upper sym, A, [⟨'-', 'M', if l = ['1'] then [] else l⟩]⟩)

inductive ProjOf : Particle → ProdText → Prop
  | part {p : Particle} {t : ProdText} (h : PartOf p t) : ProjOf p t
  | zero : ProjOf (.particle (.num 0) ['0'] 0 0) .zero

inductive ProdOf : Product → ProdText → Prop
  | chan {c : Str} (h : c ∈ x4ReactionMap.keys) (h0 : c ≠ ['0']) : ProdOf (.chan c) (.word c)
  | nothing : ProdOf (.chan ['0']) .zero
  | part {p : Particle} {t : ProdText} (h : PartOf p t) (hc : ∀ w, t = .word w → w ∉ x4ReactionMap.keys) : ProdOf (.part p) t
  | several {n : Nat} {sym : Str} {Z A : Int} (h2 : 2 ≤ n) (hw : ParticleWord (upper sym)) (hl : lower sym = sym)
      (hZ : x4ZMap.get (upper sym) = .ok Z) (hA : x4AMap.get (upper sym) = .ok A) :
      ProdOf (.part (.particle (.num n) sym Z A)) (.mult (natStr n) (upper sym))

/-- A reaction object and the way it is written. -/
structure WrittenAs (R : Reaction) (y : ReactText) : Prop where
  targ : TargOf targVars R.proc.targ y.proc.targ
  proj : ProjOf R.proc.proj y.proc.proj
  products : List.Forall₂ ProdOf R.proc.products (y.proc.prod :: y.proc.prods)
  /-- no ambiguity as in `6-C-14+T` -/
  chain : List.IsChain ProdText.before (y.proc.prod :: y.proc.prods)
  resid : match R.proc.residual, y.proc.resid with
    | none, none => True
    | some (.part p), some t => TargOf residVars p t
    | _, _ => False
  quantity : ∃ q : List Str, (∀ w ∈ q, (DescrText.word w).wf) ∧ R.quantity = q.map Tok.str ∧ q ≠ [] ∧ y.fields = q.map DescrText.word

end X4
