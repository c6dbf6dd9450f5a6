import Verif.Spec.ReactionText
import Verif.Py.Dict
/-! How the parts of a reaction are called in readable texts. -/
namespace X4

/-- the names of channels -/
def channelTexts : List (Str × Str) := [
  (chars!"TOT", chars!"Total"), (chars!"EL", chars!"Elastic"), (chars!"ABS", chars!"Absorption"), (chars!"INL", chars!"Inelastic"),
  (chars!"TCC", chars!"TotalChargeChanging"), (chars!"FUS", chars!"Fusion"), (chars!"NON", chars!"Nonelastic"),
  (chars!"SCT", chars!"Scattering"), (chars!"F", chars!"Fission"), (chars!"PAI", chars!"PairProduction"),
  (chars!"THS", chars!"ThermalScattering"), (chars!"X", chars!"Unspecified")]

/-- the names of particles -/
def particleTexts : List (Str × Str) := [
  (chars!"N", chars!"n"), (chars!"P", chars!"p"), (chars!"D", chars!"d"), (chars!"T", chars!"t"), (chars!"A", chars!"alpha"),
  (chars!"G", chars!"gamma"), (chars!"H", chars!"h"), (chars!"E", chars!"e"), (chars!"B", chars!"beta"), (chars!"HE3", chars!"He3"),
  (chars!"HE2", chars!"He2"), (chars!"AP", chars!"anti-p"), (chars!"AN", chars!"anti-n"), (chars!"PI0", chars!"pi0"),
  (chars!"P0", chars!"pi0"), (chars!"PIP", chars!"pi+"), (chars!"PIN", chars!"pi-"), (chars!"PI", chars!"Pi"), (chars!"KP", chars!"K+"),
  (chars!"KN", chars!"K-"), (chars!"ETA", chars!"eta"), (chars!"AR", chars!"Ar")]

/-- the names of variables -/
def variableTexts : List (Str × Str) := [
  (chars!"ELEM", chars!"Elem"), (chars!"MASS", chars!"Mass"), (chars!"ELEM/MASS", chars!"Elem/mass"), (chars!"NPART", chars!"Npart")]

/-- a nucleus: `238U`, a natural element: `natFe`, an isomer: `116mIn`, `178m2Hf`, a ground state: `116m0In` -/
def NucText.Shown (n : NucText) (t : Str) : Prop :=
  (n.mods = [] ∧ n.A = ['0'] ∧ t = chars!"nat" ++ capitalize n.sym) ∨
  (n.mods = [] ∧ n.A ≠ ['0'] ∧ upper n.sym ≠ chars!"NN" ∧ t = n.A ++ capitalize n.sym) ∨
  (∃ m, n.mods = [m] ∧ m.letter = 'M' ∧ m.digits ∈ [[], ['1']] ∧ t = n.A ++ 'm' :: capitalize n.sym) ∨
  (∃ m, n.mods = [m] ∧ m.letter = 'M' ∧ m.digits ∉ [[], ['1']] ∧ t = n.A ++ 'm' :: (m.digits ++ capitalize n.sym)) ∨
  (∃ m, n.mods = [m] ∧ m.letter = 'G' ∧ m.digits = [] ∧ t = n.A ++ 'm' :: '0' :: capitalize n.sym)

/-- a target or residual; compounds are called as in the dictionary -/
def TargText.Shown (compounds : Dict Str (List Str)) : TargText → Str → Prop
  | .nuc n, t => n.Shown t
  | .code k, t => ∃ more, compounds.get? k = some (t :: more)
  | .var s, t => (s, t) ∈ variableTexts

/-- a product: nuclei, particles, channels, or several particles, such as `2n` -/
def ProdText.Shown : ProdText → Str → Prop
  | .nuc n, t => n.Shown t
  | .mult n w, t => 2 ≤ digitsVal n ∧ t = natStr (digitsVal n) ++ if w.length = 1 then lower w else capitalize w
  | .word w, t => (w, t) ∈ channelTexts ∨ (w, t) ∈ particleTexts
  | .zero, t => t = chars!"None"

/-- a projectile -/
def ProdText.ShownProj : ProdText → Str → Prop
  | .nuc n, t => n.Shown t
  | .mult _ _, _ => False
  | .word w, t => (w, t) ∈ particleTexts
  | .zero, t => t = chars!"None"

/-- `target(projectile,product+...)residual` in readable form -/
def shownProcess (targ proj : Str) (prods : List Str) (resid : Str) : Str :=
  targ ++ ['('] ++ proj ++ [','] ++ joinWith ['+'] prods ++ [')'] ++ resid

end X4
