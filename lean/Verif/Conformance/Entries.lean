import Verif.Model.FieldText
import Verif.Model.EntryText
import Verif.Model.DatasetText
import Verif.Model.Manager
import Mathlib.Data.Nat.Sqrt
/-! The inputs and expected results of the project's own tests of entries (`x4i3/tests/test_exfor_entry.py`, with the files `E0783.x4` and
`12898.x4`), of datasets (`test_exfor_dataset.py`), of both (`test_exfor_full_integration.py`) and some of those of the manager (`test_exfor_manager.py`, with files in `data/db`), compared with the model, from the lines of the files to the printed datasets. These are tests of the model (evaluated, not proved). Written by `tools/conformance_entries.py`; the dictionaries are cut down to the codes that occur in the files. Numbers are exact
decimals here, which is what `float` and `repr` amount to for the few digits that occur. -/
namespace X4.RecordedEntries

/-- decimal numbers `m·10^e`; `m` has no last digit 0 -/
structure Dec where
  m : Int
  e : Int
  deriving DecidableEq, Repr

/-- without last digits 0 -/
def normAux : Nat → Int → Int → Dec
  | 0, m, e => ⟨m, e⟩
  | n + 1, m, e => if m = 0 then ⟨0, 0⟩ else if m % 10 = 0 then normAux n (m / 10) (e + 1) else ⟨m, e⟩
def norm (m e : Int) : Dec := normAux 60 m e

def decAdd (x y : Dec) : Dec :=
  if x.e ≤ y.e then norm (x.m + y.m * 10 ^ (y.e - x.e).toNat) x.e else norm (x.m * 10 ^ (x.e - y.e).toNat + y.m) y.e

/-- one unit of the numbers with 30 digits after the point that `acos` is computed with -/
def unit : Int := 10 ^ 30
def fixMul (x y : Int) : Int := x * y / unit
def fixDiv (x y : Int) : Int := x * unit / y
def fixSqrt (x : Int) : Int := Nat.sqrt (x * unit).toNat
/-- `arctan t = 2 arctan (t / (1 + √(1 + t²)))`, used four times, and then the series -/
def fixAtan (t : Int) : Int :=
  let half (t : Int) : Int := fixDiv t (unit + fixSqrt (unit + fixMul t t))
  let t := half (half (half (half t)))
  16 * ((List.range 40).foldl (fun (st : Int × Int) k => (st.1 + (if k % 2 = 0 then 1 else -1) * st.2 / (2 * k + 1 : Nat), fixMul (fixMul st.2 t) t)) (0, t)).1
/-- `arccos x = 2 arctan (√(1 - x²) / (1 + x))` -/
def fixAcos (x : Int) : Int :=
  if x = -unit then 3141592653589793238462643383279 else 2 * fixAtan (fixDiv (fixSqrt (unit - fixMul x x)) (unit + x))

/-- Quotients, square roots and angles are taken to 20 digits or more. -/
instance : PyNum Dec where
  ofLit
    | .fin neg m e => norm (if neg then -(m : Int) else m) e
    | _ => ⟨0, 0⟩
  dec := norm
  degPerRad := ⟨57295779513082320876798154814105170, -33⟩
  add := decAdd
  sub x y := decAdd x ⟨-y.m, y.e⟩
  mul x y := norm (x.m * y.m) (x.e + y.e)
  div x y := if y.m = 0 then .error .zeroDivisionError else .ok (norm (x.m * 10 ^ 30 / y.m) (x.e - y.e - 30))
  pct x := norm x.m (x.e - 2)
  abs x := ⟨x.m.natAbs, x.e⟩
  sqrt x := if x.m < 0 then .error .valueError
    else if x.e % 2 = 0 then .ok (norm (Nat.sqrt (x.m.toNat * 10 ^ 40)) (x.e / 2 - 20))
    else .ok (norm (Nat.sqrt (x.m.toNat * 10 ^ 41)) ((x.e - 1) / 2 - 20))
  acos x :=
    let y := if x.e ≥ -30 then x.m * 10 ^ (x.e + 30).toNat else x.m / 10 ^ (-30 - x.e).toNat
    if y < -unit ∨ unit < y then .error .valueError else .ok (norm (fixAcos y) (-30))

/-- `repr` of a `float` (a Python built-in) -/
def Dec.text (x : Dec) : Str :=
  let ds := natStr x.m.natAbs
  let p : Int := ds.length + x.e
  (if x.m < 0 then ['-'] else []) ++
  if x.m = 0 then chars!"0.0"
  else if p ≤ -4 ∨ 16 < p then
    ds.take 1 ++ (if ds.length = 1 then [] else ['.'] ++ ds.drop 1) ++ (if p < 1 then chars!"e-" else chars!"e+") ++
      (if (p - 1).natAbs < 10 then ['0'] else []) ++ natStr (p - 1).natAbs
  else if p ≤ 0 then chars!"0." ++ List.replicate p.natAbs '0' ++ ds
  else if ds.length ≤ p.toNat then ds ++ List.replicate (p.toNat - ds.length) '0' ++ chars!".0"
  else ds.take p.toNat ++ ['.'] ++ ds.drop p.toNat

/-- rounded to 12 digits, as `format(j, '.12g')` does -/
def Dec.round12 (x : Dec) : Dec :=
  let k := (natStr x.m.natAbs).length - 12
  let q := x.m.natAbs / 10 ^ k
  let r := 2 * (x.m.natAbs % 10 ^ k)
  let q' := if r < 10 ^ k ∨ (r = 10 ^ k ∧ q % 2 = 0) then q else q + 1
  if k = 0 then x else norm (if x.m < 0 then -(q' : Int) else q') (x.e + k)

/-- `repr` of a `float` read from a text (a Python built-in) -/
def litText (x : FloatLit) : Str := (PyNum.ofLit x : Dec).text

/-- `x4i3/dicts/dict09.txt`, cut down -/
def compounds : Dict Str (List Str) := [
]

/-- `x4i3/dicts/dict36.txt`, cut down -/
def quantities : Dict Str (List Str) := [
  (chars!"(CUM),SIG", [chars!"Cross section (assumed cumulative)"]),
  (chars!"(CUM),SIG,G", [chars!"Gamma prod. cross sect.(assumed cumulative)"]),
  (chars!"(CUM)/M+,SIG", [chars!"Cross section,incl.isom.trans.,uncert.if cum"]),
  (chars!"(M),SIG", [chars!"Cross section (uncert.if isomeric trans.incl)"]),
  (chars!",AKE", [chars!"Average kinetic energy of outgoing particle"]),
  (chars!",AKE,A", [chars!"Average kinetic energy of alphas"]),
  (chars!",AKE,N", [chars!"Average kinetic energy of neutrons"]),
  (chars!",AKE/DA,N", [chars!"Avg.kinetic en. of neutrons at a given angle"]),
  (chars!",ARE", [chars!".Resonance area"]),
  (chars!",D", [chars!".Average level spacing"]),
  (chars!",DA", [chars!"Differential c/s with respect to angle"]),
  (chars!",DA,,4PI", [chars!"Differential c/s d/dA * 4pi"]),
  (chars!",DA,,COS", [chars!"Cosine coef. d/dA = a(0)+Sum(a(L)cos**L)"]),
  (chars!",DA,*", [chars!"Angular distribution of particle specified"]),
  (chars!",DA,*,4PI", [chars!"Angular distribution of particle spec. * 4pi"]),
  (chars!",DA,*,COS", [chars!"Coeff. of cosine expansion for particle specif."]),
  (chars!",DA,*/*", [chars!"Angular distribution of particle pair specified"]),
  (chars!",DA,A", [chars!"Angular distribution of alphas"]),
  (chars!",DA,D", [chars!"Angular distribution of of deuterons"]),
  (chars!",DA,G", [chars!"Angular distribution with respect to gammas"]),
  (chars!",DA,G,4PI", [chars!"Angular distribution of gammas * 4pi"]),
  (chars!",DA,N", [chars!"Angular distribution of neutrons"]),
  (chars!",DA,N/P", [chars!"Angular distribution of neutron/proton pair"]),
  (chars!",DA,P", [chars!"Angular distribution of protons"]),
  (chars!",DA,P,4PI", [chars!"Angular distribution of protons * 4pi"]),
  (chars!",DA,T", [chars!"Angular distribution of tritons"]),
  (chars!",DA/DA", [chars!"Double diff. cross section d2/dA/dA"]),
  (chars!",DA/DA,*/*", [chars!"Double diff. cross section d2/dA(*)/dA(*)"]),
  (chars!",DA/DA,A/A", [chars!"Double diff. cross section d2/dA(a)/dA(a)"]),
  (chars!",DA/DA,N/A", [chars!"Double diff. cross section d2/dA(n)/dA(a)"]),
  (chars!",DA/DA,N/D", [chars!"Double diff. cross section d2/dA(n)/dA(d)"]),
  (chars!",DA/DA,N/P", [chars!"Double diff. cross section d2/dA(n)/dA(p)"]),
  (chars!",DA/DA,P/A", [chars!"Double diff. cross section d2/dA(p)/dA(a)"]),
  (chars!",DA/DA,P/D", [chars!"Double diff. cross section d2/dA(p)/dA(d)"]),
  (chars!",DA/DA,P/P", [chars!"Double diff. cross section d2/dA(p)/dA(p)"]),
  (chars!",DA/DA/DE", [chars!"Triple diff.cross section d3/dA/dA/dE"]),
  (chars!",DA/DA/DE,*/*/*", [chars!"Triple diff.cross section d3/dA(*)/dA(*)/dE(*)"]),
  (chars!",DA/DA/DE,A/A/A", [chars!"Triple diff.cross section d3/dA(a)/dA(a)/dE(a)"]),
  (chars!",DA/DA/DE,D/D/D", [chars!"Triple diff.cross section d3/dA(d)/dA(d)/dE(d)"]),
  (chars!",DA/DA/DE,N/N/N", [chars!"Triple diff.cross section d3/dA(n)/dA(n)/dE(n)"]),
  (chars!",DA/DA/DE,N/P/P", [chars!"Triple diff.cross section d3/dA(n)/dA(p)/dE(p)"]),
  (chars!",DA/DA/DE,P/A/P", [chars!"Triple diff.cross section d3/dA(p)/dA(a)/dE(p)"]),
  (chars!",DA/DA/DE,P/D/D", [chars!"Triple diff.cross section d3/dA(p)/dA(d)/dE(d)"]),
  (chars!",DA/DA/DE,P/D/P", [chars!"Triple diff.cross section d3/dA(p)/dA(d)/dE(p)"]),
  (chars!",DA/DA/DE,P/N/N", [chars!"Triple diff.cross section d3/dA(p)/dA(n)/dE(n)"]),
  (chars!",DA/DA/DE,P/P/P", [chars!"Triple diff.cross section d3/dA(p)/dA(p)/dE(p)"]),
  (chars!",DA/DA/DE,P/T/P", [chars!"Triple diff.cross section d3/dA(p)/dA(t)/dE(p)"]),
  (chars!",DA/DE", [chars!"Double diff.cross section d2/dA/dE"]),
  (chars!",DA/DE,,4PI", [chars!"Double diff.cross section d2/dA/dE * 4pi"]),
  (chars!",DA/DE,*", [chars!"Double diff.cross sect. d2/dA/dE of part.spec."]),
  (chars!",DA/DE,A", [chars!"Double diff.cross section d2/dA/dE of alphas"]),
  (chars!",DA/DE,D", [chars!"Double diff.cross sect. d2/dA/dE of deuterons"]),
  (chars!",DA/DE,G", [chars!"Double diff. gamma prod.cross section d2/dA/dE"]),
  (chars!",DA/DE,N", [chars!"Double diff.cross section d2/dA/dE of neutrons"]),
  (chars!",DA/DE,P", [chars!"Double diff.cross section d2/dA/dE of protons"]),
  (chars!",DA/DE,T", [chars!"Double diff.cross section d2/dA/dE of tritons"]),
  (chars!",DA/DE/DE,*/*/*", [chars!"Triple diff.cross section d3/dA(*)/dE(*)/dE(*)"]),
  (chars!",DA/DE/DE,N/N/P", [chars!"Triple diff.cross section d3/dA(n)/dE(n)/dE(p)"]),
  (chars!",DE", [chars!"Energy spectrum of outgoing particles"]),
  (chars!",DE,*", [chars!"Energy spectrum of particle specified"]),
  (chars!",DE,*/*", [chars!"Energy spectrum of particle pair specified"]),
  (chars!",DE,A", [chars!"Energy spectrum of alphas"]),
  (chars!",DE,D", [chars!"Energy spectrum of deuterons"]),
  (chars!",DE,G", [chars!"Energy spectrum of gammas"]),
  (chars!",DE,N", [chars!"Energy spectrum of neutrons"]),
  (chars!",DE,N/D", [chars!"Energy spectrum of neutron/deuteron pair"]),
  (chars!",DE,N/P", [chars!"Energy spectrum of neutron/proton pair"]),
  (chars!",DE,P", [chars!"Energy spectrum of protons"]),
  (chars!",DE,P/A", [chars!"Energy spectrum of proton/alpha pair"]),
  (chars!",DE,P/D", [chars!"Energy spectrum of proton/deuteron pair"]),
  (chars!",DE,T", [chars!"Energy spectrum of tritons"]),
  (chars!",DET", [chars!"dsigma/dE(T)"]),
  (chars!",DET/PB", [chars!"dsigma/dE(T) in lead glass detector"]),
  (chars!",EN", [chars!".Resonance energy"]),
  (chars!",J", [chars!".Spin J"]),
  (chars!",L", [chars!".Momentum L"]),
  (chars!",NU", [chars!"Total neutron yield (nu-bar)"]),
  (chars!",NU,,RES", [chars!".Total Nu-bar at resonance"]),
  (chars!",POL", [chars!"Spin-polarization probability"]),
  (chars!",POL,D", [chars!"Spin-polarization probability of deuterons"]),
  (chars!",POL/DA", [chars!"Spin-polarization probability d/dA"]),
  (chars!",POL/DA,,ANA", [chars!"Analyzing power"]),
  (chars!",POL/DA,,COS", [chars!"Cosine coef. for fit to spin-pol. probability"]),
  (chars!",POL/DA,*,ANA", [chars!"Analyzing power for particle specified"]),
  (chars!",POL/DA,D", [chars!"Diff. spin-polariz. prob. d/dA of deuterons"]),
  (chars!",POL/DA,D,ANA", [chars!"Analyzing power for deuterons"]),
  (chars!",POL/DA,N,ANA", [chars!"Analyzing power for neutrons"]),
  (chars!",POL/DA,P,ANA", [chars!"Analyzing power for protons"]),
  (chars!",POL/DA/DA/DE,,ANA", [chars!"Analyzing power dA1/dA2/dE1 for 2 particles"]),
  (chars!",POL/DA/DA/DE,P,ANA", [chars!"Analyzing power dA1/dA2/dE1 for 2 protons"]),
  (chars!",POL/DA/DE", [chars!"Diff.spin-pol.probab.w.resp.to angle and energy"]),
  (chars!",POL/DA/DE,,ANA", [chars!"Analyzing power / dE"]),
  (chars!",POL/DA/DE,A,ANA", [chars!"Analyzing power dA/dE for alphas"]),
  (chars!",POL/DA/DE,D,ANA", [chars!"Analyzing power dA/dE for deuterons"]),
  (chars!",POL/DA/DE,N,ANA", [chars!"Analyzing power dA/dE for neutrons"]),
  (chars!",POL/DA/DE,P,ANA", [chars!"Analyzing power dA/dE for protons"]),
  (chars!",POL/DA/DE,P/P,ANA", [chars!"Analyzing power d2/dA/dE for proton pair"]),
  (chars!",SIG", [chars!"Cross section"]),
  (chars!",SIG,,RES", [chars!".Cross section at resonance"]),
  (chars!",SIG,G", [chars!"Gamma-production cross section"]),
  (chars!"2,DE", [chars!"Energy spectrum of 2nd secondary particle"]),
  (chars!"BA,SIG", [chars!"Bound-atom cross section"]),
  (chars!"CUM,SIG", [chars!"Cumulative cross section"]),
  (chars!"CUM/(M),SIG", [chars!"Cumulative cross sect.(uncert.isom.trans.incl.)"]),
  (chars!"CUM/M-,SIG", [chars!"Cumulative cross section, excluding isom.trans."]),
  (chars!"FIS,AKE", [chars!"Avg.kin.energy of outg.part.for high en.fission"]),
  (chars!"FIS,SIG", [chars!"Partial cs due to high-energy fission"]),
  (chars!"INC,SIG", [chars!"Incoherent scattering cross section"]),
  (chars!"M+,SIG", [chars!"Cross section, incl. form. via isomeric trans."]),
  (chars!"M-,SIG", [chars!"Cross section, excluding isomeric transition"]),
  (chars!"NN,POL/DA,,ANA", [chars!"Spin correlation parameter, A(NN)"]),
  (chars!"NN,POL/DA,,C", [chars!"Spin correlation parameter, C(NN)"]),
  (chars!"NN,POL/DA,,D", [chars!"Spin-depolarization parameter, D(NN)"]),
  (chars!"NN,POL/DA,,K", [chars!"Spin-transfer parameter, K(NN)"]),
  (chars!"NN,POL/DA,N,D", [chars!"Spin-depolarization parameter, D(NN),f.neutrons"]),
  (chars!"NN,POL/DA,P,D", [chars!"Spin-depolarization parameter, D(NN),f.protons"]),
  (chars!"NN,POL/DA/DE,,D", [chars!"Doub.diff.spin rotation parameter, D(NN)"]),
  (chars!"NN,POL/DA/DE,,K", [chars!"Doub.diff.spin transfer parameter, K(NN)"]),
  (chars!"NN/PAR,POL/DA,,ANA", [chars!"Partl.spin correlation parameter A(NN)"]),
  (chars!"NN/PAR,POL/DA,,D", [chars!"Spin-depolarization param., D(NN), partl.react."]),
  (chars!"NN/PAR,POL/DA,,K", [chars!"Spin-transfer parameter, K(NN), partl.reaction"]),
  (chars!"PAR,AKE,G", [chars!"Average gamma energy for specific group of g's"]),
  (chars!"PAR,AKE,G/N", [chars!"Av.gamma energy as fct.of energ.of emitt.neutr."]),
  (chars!"PAR,AKE,N", [chars!"Average energy for specific group of neutrons"]),
  (chars!"PAR,ARE", [chars!"Partial resonance area"]),
  (chars!"PAR,DA", [chars!"Partial differential cross section d/dA"]),
  (chars!"PAR,DA,,4PI", [chars!"Partial diff. cross section d/dA * 4pi"]),
  (chars!"PAR,DA,,COS", [chars!"Cosine coef. for fit to partial d/dA"]),
  (chars!"PAR,DA,*", [chars!"Partial angular distr. of particle specified"]),
  (chars!"PAR,DA,A", [chars!"Partial angular distribution of alphas"]),
  (chars!"PAR,DA,D", [chars!"Partial angular distribution of deuterons"]),
  (chars!"PAR,DA,G", [chars!"Partial diff. gamma em. cross section d/dA"]),
  (chars!"PAR,DA,G,4PI", [chars!"Partial diff. gamma em. cross section d/dA*4pi"]),
  (chars!"PAR,DA,N", [chars!"Partial angular distribution of neutrons"]),
  (chars!"PAR,DA,N/P", [chars!"Partial angular distrib. of neutron/proton pair"]),
  (chars!"PAR,DA,P", [chars!"Partial angular distribution of protons"]),
  (chars!"PAR,DA,T", [chars!"Partial angular distribution of tritons"]),
  (chars!"PAR,DA/DA", [chars!"Partial double diff.cross section d2/dA/dA"]),
  (chars!"PAR,DA/DA,*/*", [chars!"Partial double diff.cross sect. d2/dA(*)/dA(*)"]),
  (chars!"PAR,DA/DA,N/A", [chars!"Partial double diff.cross sect. d2/dA(n)/dA(p)"]),
  (chars!"PAR,DA/DA/DE", [chars!"Partial triple diff.cross-section"]),
  (chars!"PAR,DA/DA/DE,*/*/*", [chars!"Par.triple diff.cross sect.d3/dA(*)/dA(*)/dE(*)"]),
  (chars!"PAR,DA/DA/DE,P/A/P", [chars!"Partial triple diff.cross-section"]),
  (chars!"PAR,DA/DE", [chars!"Partial double diff.cross-section"]),
  (chars!"PAR,DA/DE,G", [chars!"Partial double diff.gamma-emiss.cross-section"]),
  (chars!"PAR,DA/DE,G,4PI", [chars!"Partial double diff.gamma-emiss.cross-sect.*4pi"]),
  (chars!"PAR,DE", [chars!"Spectrum of outgoing particles for specif.level"]),
  (chars!"PAR,NU", [chars!"Partial yield of neutrons"]),
  (chars!"PAR,POL", [chars!"Partial polarization"]),
  (chars!"PAR,POL,G", [chars!"Polarization  for gamma-ray specified"]),
  (chars!"PAR,POL/DA", [chars!"Diff. spin-polarization prob.for partial react."]),
  (chars!"PAR,POL/DA,,ANA", [chars!"Partial analyzing power"]),
  (chars!"PAR,POL/DA/DA/DE,,ANA", [chars!"Partial analyz.power dA1/dA2/dE1 f. 2 particles"]),
  (chars!"PAR,SIG", [chars!"Partial cross section"]),
  (chars!"PAR,SIG,,RES", [chars!"Partial cross section at resonance"]),
  (chars!"PAR,SIG,*", [chars!"Partial cross section for particle specified"]),
  (chars!"PAR,SIG,A", [chars!"Partial cross section for alpha group"]),
  (chars!"PAR,SIG,G", [chars!"Partial gamma-production cross section"]),
  (chars!"PAR,SIG,P", [chars!"Partial cross section for protons"]),
  (chars!"PAR,SIG,*/*", [chars!"Partial cross section for particle pair specif."]),
  (chars!"PAR/CUM,DA", [chars!"Partial angular distribution, cumulative"]),
  (chars!"PAR/CUM,SIG", [chars!"Partial cumulative cross section"]),
  (chars!"PAR/M+,DA,G", [chars!"Ang.distr.of discrete gammas incl.isom.trans."]),
  (chars!"PAR/M-,DA,G", [chars!"Ang.distr.of discrete gammas excl.isom.trans."]),
  (chars!"PR,AKE,N", [chars!"Average kinetic energy of prompt neutrons"]),
  (chars!"PR,DA,N", [chars!"Angular distribution of prompt fission neutrons"]),
  (chars!"PR,DA/DE,N", [chars!"Double diff.spect of pr.fiss.neutrons d2/dA/dE"]),
  (chars!"PR,DE,N", [chars!"Energy spectrum of prompt fission neutrons"]),
  (chars!"PR,NU", [chars!"Prompt neutron yield (nu-bar)"]),
  (chars!"PR,NU,,RES", [chars!".Prompt Nu-bar at resonance"]),
  (chars!"PR,SIG", [chars!"Prompt fission cross section"]),
  (chars!"PR/PAR,DA,G", [chars!"Prompt partial diff. gamma emiss.cross section"]),
  (chars!"PR/PAR,NU", [chars!"Partial prompt neutron yield (nu-bar)"]),
  (chars!"SL,POL/DA,,ANA", [chars!"Spin correlation parameter, A(SL)"]),
  (chars!"SL,POL/DA,,C", [chars!"Spin correlation parameter, C(SL)"]),
  (chars!"SL,POL/DA,,D", [chars!"Spin rotation parameter, D(SL)"]),
  (chars!"SL,POL/DA,,K", [chars!"Spin-transfer parameter, K(SL)"]),
  (chars!"SL,POL/DA,N,D", [chars!"Spin rotation parameter, D(SL), for neutrons"]),
  (chars!"SL,POL/DA,P,D", [chars!"Spin rotation parameter, D(SL), for protons"]),
  (chars!"SL/PAR,POL/DA,,ANA", [chars!"Partl.spin correlation parameter A(SL)"]),
  (chars!"SL/PAR,POL/DA,,D", [chars!"Spin-rotation parameter, D(SL), partl.reaction"]),
  (chars!"SL/PAR,POL/DA,,K", [chars!"Spin-transfer parameter, K(SL), partl.reaction"])]

/-- `x4i3/dicts/dict34.txt`, cut down -/
def modifiers : Dict Str (List Str) := [
  (chars!"4PI", [chars!"times 4 pi"]),
  (chars!"ANA", [chars!"Vector analyzing power, A(y), for incident beam"]),
  (chars!"C", [chars!"Spin correlation parameter"]),
  (chars!"COS", [chars!"Cosine coefficients"]),
  (chars!"D", [chars!"Spin rotation parameter"]),
  (chars!"G", [chars!"times statistical weight factor"]),
  (chars!"K", [chars!"Spin transfer parameter"]),
  (chars!"RES", [chars!"at peak of resonance"]),
  (chars!"RSL", [chars!"Modifier for Legendre or Cosine coefficients of the form: (4pi/Sig)*(d-Sig/d-Omega)=Sum((2L+1)*a(L)*p(L))"]),
  (chars!"(A)", [chars!"Uncertain if corrected for natural isotopic abund."]),
  (chars!"A", [chars!"Data times natural isotopic abundance"]),
  (chars!"REL", [chars!"Relative data"]),
  (chars!"FIS", [chars!"Fission spectrum average"]),
  (chars!"MXW", [chars!"Maxwellian average"])]

/-- `x4i3/dicts/dict03.txt`, cut down -/
def institutes : Dict Str (List Str) := [
  (chars!"ALD", [chars!"Awre, Aldermaston, England", chars!"UK"]),
  (chars!"ANL", [chars!"Argonne National Laboratory, Argonne, IL", chars!"USA"]),
  (chars!"BRC", [chars!"CEN Bruyere-le-Chatel", chars!"FR"]),
  (chars!"GEL", [chars!"Inst. for Ref. Mat. and Meas. (IRNM), Geel", chars!"ZZZ"]),
  (chars!"KTO", [chars!"Kyoto Univ.", chars!"JAP"]),
  (chars!"LAS", [chars!"Los Alamos National Laboratory, NM", chars!"USA"]),
  (chars!"LRL", [chars!"Lawrence Livermore National Laboratory, Livermore, CA", chars!"USA"]),
  (chars!"ORL", [chars!"Oak Ridge National Laboratory, Oak Ridge, TN", chars!"USA"]),
  (chars!"OSA", [chars!"Osaka Univ., Osaka", chars!"JPN"]),
  (chars!"WES", [chars!"Westinghouse Research Lab., Pittsburgh, PA", chars!"USA"])]

/-- `x4i3/dicts/dict04.txt`, cut down -/
def types : Dict Str (List Str) := [
  (chars!"0", [chars!"DATA", chars!"Experimental data library"]),
  (chars!"3", [chars!"DATA", chars!"Evaluated data library"]),
  (chars!"4", [chars!"DATA", chars!"Experimental data library"]),
  (chars!"A", [chars!"CONF", chars!"Abstract of conference"]),
  (chars!"B", [chars!"BOOK", chars!"Book"]),
  (chars!"C", [chars!"CONF", chars!"Conference"]),
  (chars!"J", [chars!"JOUR", chars!"Journal"]),
  (chars!"K", [chars!"JOUR", chars!"Abstract of journal"]),
  (chars!"P", [chars!"PROG", chars!"Progress report"]),
  (chars!"R", [chars!"REPT", chars!"Report other than progress report"]),
  (chars!"S", [chars!"REPT", chars!"Report containing conference proc."]),
  (chars!"T", [chars!"THES", chars!"Thesis or dissertation"]),
  (chars!"W", [chars!"PRIV", chars!"Private communication"])]

/-- `x4i3/dicts/dict05.txt`, cut down -/
def journals : Dict Str (List Str) := [
  (chars!"AKE", [chars!"Atomkernenergie", chars!"GER"]),
  (chars!"ANA", [chars!"Analyst (London)", chars!"UK"]),
  (chars!"AND", [chars!"Atomic Data and Nuclear Data Tables", chars!"USA"]),
  (chars!"ANE", [chars!"Annals of Nuclear Energy", chars!"UK"]),
  (chars!"AT", [chars!"Atomes", chars!"FR"]),
  (chars!"DA", [chars!"Dissertation Abstracts", chars!"USA"]),
  (chars!"DA/B", [chars!"Dissertation Abstracts B (Sciences)", chars!"USA"]),
  (chars!"EN", [chars!"Energia Nucleare (Milan)", chars!"ITY"]),
  (chars!"EXP", [chars!"Experientia", chars!"SWT"]),
  (chars!"INC", [chars!"Inorganic and Nuclear Chemistry Letters", chars!"UK"]),
  (chars!"JET", [chars!"Soviet Physics - JETP", chars!"USA"]),
  (chars!"KE", [chars!"Kernenergie", chars!"DDR"]),
  (chars!"NIM", [chars!"Nuclear Instrum.and Methods in Physics Res.", chars!"NED"]),
  (chars!"NIM/A", [chars!"Nucl. Instrum. Methods in Physics Res., Sect.A", chars!"NED"]),
  (chars!"NIM/B", [chars!"Nucl. Instrum. Methods in Physics Res., Sect.B", chars!"NED"]),
  (chars!"NP", [chars!"Nuclear Physics", chars!"NED"]),
  (chars!"NP/A", [chars!"Nuclear Physics, Section A", chars!"NED"]),
  (chars!"NP/B", [chars!"Nuclear Physics, Section B", chars!"NED"]),
  (chars!"NSTS", [chars!"J.Nucl.Science and Technol.Tokyo,Supplement", chars!"JPN"]),
  (chars!"NUC", [chars!"Nucleonics", chars!"USA"]),
  (chars!"PB", [chars!"Physikalische Blaetter", chars!"GER"]),
  (chars!"PHY", [chars!"Physica (Utrecht)", chars!"NED"]),
  (chars!"PR", [chars!"Physical Review", chars!"USA"]),
  (chars!"PR/A", [chars!"Physical Review, Part A, General Physics", chars!"USA"]),
  (chars!"PR/B", [chars!"Physical Review, Part B, Condensed Matter", chars!"USA"]),
  (chars!"PR/C", [chars!"Physical Review, Part C, Nuclear Physics", chars!"USA"]),
  (chars!"PR/D", [chars!"Physical Review, Part D, Particles and Fields", chars!"USA"]),
  (chars!"PT", [chars!"Physics Today", chars!"USA"]),
  (chars!"RCA", [chars!"Radiochimica Acta", chars!"GER"]),
  (chars!"RE", [chars!"Radiation Effects", chars!"UK"]),
  (chars!"REF", [chars!"Referativnyi Zhurnal, Fizika", chars!"CCP"]),
  (chars!"VAN", [chars!"Vestnik Akademii Nauk SSSR", chars!"RUS"])]

/-- `x4i3/dicts/dict07.txt`, cut down -/
def books : Dict Str (List Str) := [
  (chars!"71VIENNA", [chars!"Prompt Fission Neutron Spectra Meeting, Vienna 1971"]),
  (chars!"72VIENNA", [chars!"Panel on Neutron Standard Reference Data,Vienna,1972"]),
  (chars!"85SANTA", [chars!"Conf.on Nucl.Data f.Basic a.Appl.Sci.,Santa Fe 1985"]),
  (chars!"2001TSUKUB", [chars!"Conf.on Nucl.Data for Sci.and Techn., Tsukuba 2001"]),
  (chars!"EXP.NUC.P.", [chars!"Experimental Nuclear Physics"]),
  (chars!"PR.NUC.EN.", [chars!"Progress in Nucl.Energy"])]

/-- the dictionaries of the grammars, exfor_dicts.py:58-110 -/
def dicts : TextDicts :=
  ⟨[(chars!"ReferenceTypes", types), (chars!"Journals", journals), (chars!"ConferencesAndBooks", books)], institutes, compounds⟩
/-- the dictionaries of the reactions, exfor_reactions.py:217-263 -/
def rxDicts : RxDicts := ⟨compounds, quantities, modifiers⟩

/-- how reactions, monitors and numbers are printed -/
def texts : DsTexts Measurement Dec where
  rx m := match m.str rxDicts with
    | .ok s => s
    | .error _ => chars!"?"
  mon m := match m.tupleRepr with
    | .ok s => s
    | .error _ => chars!"?"
  num x := x.round12.text

/-- `X4Entry(…)` -/
def entryOf (raw : List Str) : Except PyErr (Entry Measurement) := Entry.build (x4Parsers dicts) raw

/-- the sections of the first subentry -/
def section1 (raw : List Str) (k : Str) : Except PyErr (Sec Measurement) :=
  (entryOf raw).bind fun e => (e.getItem (.int 1)).bind fun s => s.sections.get k

/-- the datasets -/
def datasets (raw : List Str) : Except PyErr (Dict DsKey (DataSet Measurement Dec)) :=
  (entryOf raw).bind fun e => (e.getDataSets (x4RxOps rxDicts) []).map fun st => st.datasets
/-- the simplified datasets -/
def simplified (raw : List Str) : Except PyErr (Dict DsKey (DataSet Measurement Dec)) :=
  (entryOf raw).bind fun e => (e.getSimplifiedDataSets (x4RxOps rxDicts) [] false).map fun st => st.datasets

/-- the legends -/
def legends (r : Except PyErr (Dict DsKey (DataSet Measurement Dec))) : Except PyErr (List (DsKey × Str)) :=
  r.map fun ds => ds.map fun kd => (kd.1, kd.2.info.record.legend)
/-- the same keys and values (dictionaries are compared without regard to the order) -/
def sameDict {κ : Type} [DecidableEq κ] (r : Except PyErr (List (κ × Str))) (l : List (κ × Str)) : Bool :=
  match r with
  | .ok d => d.length == l.length && l.all fun x => decide (x ∈ d)
  | .error _ => false

/-- `str` of one of the datasets -/
def strOf (r : Except PyErr (Dict DsKey (DataSet Measurement Dec))) (k : DsKey) : Except PyErr Str :=
  r.bind fun ds => (ds.get k).bind fun d => d.str texts
/-- the CSV file of one of the datasets -/
def csvOf (r : Except PyErr (Dict DsKey (DataSet Measurement Dec))) (k : DsKey) : Except PyErr Str :=
  r.bind fun ds => (ds.get k).map fun d => d.csv texts

/-- the subentries of `x4i3/tests/E0783.x4` -/
def entry : List Str :=
  [joinWith ['\n'] [chars!"SUBENT        E0783001   20040622              20050926       0000",
   chars!"BIB                 10         19",
   chars!"TITLE       ACCELERATION OF PROTONS AND DEUTERONS POLARIZED IN",
   chars!"            THE HORIZONTAL PLANEBY THE RCNP CYCLOTRON",
   chars!"AUTHOR     (K.HATANAKA,N.MATSUOKA,H.SAKAI,T.SAITO,H.TAMURA,",
   chars!"           K.HOSONO,M.KONDO,K.IMAI,H.SHIMIZU,K.NISHIMURA)",
   chars!"INSTITUTE  (2JPNOSA) RESEARCH CENTER FOR NUCLEAR PHYSICS, OSAKA",
   chars!"            UNIV.",
   chars!"           (2JPNKTO)",
   chars!"REFERENCE  (J,NIM,217,397,1983)",
   chars!"FACILITY   (CYCLO,2JPNOSA)",
   chars!"INC-SOURCE  BEAM-INTENSITY IS 0.5NA",
   chars!"            BEAM-POLARIZATION IS NOT GIVEN",
   chars!"           (ATOMI) with a Wien filter",
   chars!"SAMPLE      TARGET IS NOT POLARIZED",
   chars!"            TARGET IS NOT ALIGNED",
   chars!"PART-DET   (D)",
   chars!"STATUS     (CURVE) DATA TAKEN FROM GRAPH",
   chars!"HISTORY    (19881027T) CONVERTED FROM NRDF DATA NO. D783",
   chars!"           (20040401A) Author's name is corrected. Code is added",
   chars!"                       into INC-SOURCE. E-EXC=0.0 MeV is deleted.",
   chars!"ENDBIB              19",
   chars!"COMMON               1          3",
   chars!"EN         ",
   chars!"MEV        ",
   chars!"56.        ",
   chars!"ENDCOMMON            3",
   chars!"ENDSUBENT           26",
   chars!""],
   joinWith ['\n'] [chars!"SUBENT        E0783002   20040622              20050926       0000",
   chars!"BIB                  4          5",
   chars!"REACTION   (1-H-1(D,EL)1-H-1,SL,POL/DA,,ANA)",
   chars!"FLAG       (1.) DATA ERROR IS SMALLER THAN DATA POINT",
   chars!"ERR-ANALYS (DATA-ERR) Uncertainty scanned from figure",
   chars!"HISTORY    (20040401A) Quantity code is correcetd.",
   chars!"                       ERR-ANALYS is added.",
   chars!"ENDBIB               5",
   chars!"NOCOMMON             0          0",
   chars!"DATA                 4         24",
   chars!"ANG-CM     DATA       DATA-ERR   FLAG",
   chars!"ADEG       NO-DIM     NO-DIM     NO-DIM",
   chars!"     30.712 -2.211E-03                    1.",
   chars!"     38.727 -5.861E-03  0.821E-02",
   chars!"     46.135  1.022E-02                    1.",
   chars!"     55.814  4.098E-02                    1.",
   chars!"     64.866  7.998E-02                    1.",
   chars!"     69.415  1.126E-01                    1.",
   chars!"     74.316  1.633E-01  0.147E-01",
   chars!"     79.924  2.517E-01  0.115E-01",
   chars!"     84.442  2.663E-01  0.131E-01",
   chars!"     89.661  3.153E-01  0.821E-02",
   chars!"     94.181  3.315E-01  0.164E-01",
   chars!"     99.114  4.003E-01  0.115E-01",
   chars!"    104.318  4.411E-01  0.131E-01",
   chars!"    109.841  4.802E-01  0.132E-01",
   chars!"    115.135  3.880E-01  0.132E-01",
   chars!"    120.355  2.531E-01  0.131E-01",
   chars!"    125.595 -5.416E-02  0.214E-01",
   chars!"    129.340 -2.990E-01  0.197E-01",
   chars!"    134.447 -3.140E-01  0.180E-01",
   chars!"    139.629 -1.024E-01  0.197E-01",
   chars!"    145.538 -2.551E-02  0.148E-01",
   chars!"    150.255  1.040E-01  0.246E-01",
   chars!"    155.357  8.570E-02  0.246E-01",
   chars!"    160.562  1.265E-01  0.197E-01",
   chars!"ENDDATA             26",
   chars!"ENDSUBENT           36",
   chars!""]]

/-- the subentries of `x4i3/tests/12898.x4` -/
def entry_2 : List Str :=
  [joinWith ['\n'] [chars!"SUBENT        12898001     860114              20050926       0000",
   chars!"BIB                 17         44",
   chars!"INSTITUTE  (1USAANL)",
   chars!"REFERENCE  (J,ANE,11,623,8412)",
   chars!"           (P,ANL-NDM-85,8406)",
   chars!"AUTHOR     (D.L.SMITH,J.W.MEADOWS,I.KANNO)",
   chars!"TITLE      MEASURED ACTIVATION CROSS SECTIONS BELOW 10 MEV FOR THE",
   chars!"            51-V(N,P)51-TI AND 51-V(N,ALPHA)48-SC REACTIONS.",
   chars!"FACILITY         ANL FAST NEUTRON GENERATOR FACILITY",
   chars!"METHOD     (ACTIV)",
   chars!"MONITOR    (92-U-238(N,F),,SIG) ENDF/B-V FISSION CROSS SECTION",
   chars!"                    WAS USED TO OBTAIN THE ABSOLUTE CROSS SECTION",
   chars!"DETECTOR   (GELI)",
   chars!"DECAY-DATA (22-TI-51,348.SEC,DG,320.,0.934)",
   chars!"SAMPLE     METALLIC SAMPLE 99.8+-0.2 V BY WEIGHT.",
   chars!"           ISOTOPIC ABUNDANCE OF 51-V ASSUMED TO BE 99.750 PERCENT",
   chars!"ANALYSIS   SEE ANL-NDM-9(74) AND ANL-7989(73) FOR DETAILS.",
   chars!"ERR-ANALYS THE ENERGY UNCERTAINTY WAS ABOUT 20 PERCENT",
   chars!"                    OF FWHM RESOLUTIONS FOR THE NEUTRON ENERGY",
   chars!"                    DISTRIBUTIONS,15-55 KEV.",
   chars!"           (ERR-T) TOTAL UNCERTAINTY",
   chars!"                   DETAILED ERROR CORRELATION MATRIX IS GIVEN",
   chars!"                     IN THE ANL REPORT",
   chars!"          1(ERR-S) RANDOM UNCERTAINTY",
   chars!"                     SEVEN SOURCES OF RANDOM ERRORS",
   chars!"           (ERR-1) SYSTEMATIC UNCERTAINTY",
   chars!"                     TWELVE SOURCES OF SYSTEMATIC ERRORS",
   chars!"CORRECTION CORRECTIONS WERE MADE FOR-",
   chars!"             . DETECTOR EFFICIENCY",
   chars!"             . DEAD-TIME",
   chars!"             . BACKGROUND EFFECTS",
   chars!"             . FISSION EVENTS OF LOW-ENERGY",
   chars!"             . FISSION PRODUCED BY BACKGROUND NEUTRONS",
   chars!"             . NEUTRON MULTIPLE SCATTERING",
   chars!"             . GEOMETRY FACTORS",
   chars!"             . NEUTRON SOURCE PROPERTIS",
   chars!"             . NEUTRON ABSORPTION",
   chars!"             . SECONDARY NEUTRONS FROM LI(P,N) AND D(D,N) SOURCES",
   chars!"ADD-RES    U-235 FISSION SPECTRUM AVERAGED CROSS SECTION=0.5366 MB",
   chars!"           CF-252 FISSION SPECTRUM AVERAGED CROSS SECTION=0.6878MB",
   chars!"COMMENT    SEE DATA SET 12904 FOR 51-V(N,ALPHA).",
   chars!"STATUS     (APRVD) D.L.SMITH, 84/10/3.",
   chars!"HISTORY    (840830C)",
   chars!"           (850212A) REFERENCE UPDATE.",
   chars!"           (860114A) ENERGY RESOLUTION HEADING UPDATED, BIB",
   chars!"                     CORRECTION.",
   chars!"ENDBIB              44",
   chars!"NOCOMMON             0          0 3",
   chars!"ENDSUBENT           47",
   chars!""],
   joinWith ['\n'] [chars!"SUBENT        12898002     860114              20050926       0000",
   chars!"BIB                  2          3",
   chars!"REACTION  1((23-V-51(N,P)22-TI-51,,SIG)/(92-U-238(N,F),,SIG))",
   chars!"          2(23-V-51(N,P)22-TI-51,,SIG)",
   chars!"INC-SOURCE (P-LI7)",
   chars!"ENDBIB               3",
   chars!"NOCOMMON             0          0",
   chars!"DATA                10         18",
   chars!"EN         EN-RSL-FW  DATA      1ERR-S      ERR-1     1ERR-T     1",
   chars!"MONIT     2MONIT-ERR 2DATA      2ERR-T     2",
   chars!"MEV        MEV        NO-DIM     PER-CENT   PER-CENT   PER-CENT",
   chars!"MB         PER-CENT   MB         PER-CENT",
   chars!" 2.856      0.095      9.075  -06 47.9       15.6       50.4",
   chars!" 528.8      3.0        0.004799   50.5",
   chars!" 2.957      0.094      1.966  -05 20.6        9.2       22.6",
   chars!" 524.4      3.0        0.01031    22.8",
   chars!" 3.057      0.094      2.575  -05 15.9       20.1       25.6",
   chars!" 522.7      2.5        0.01346    25.7",
   chars!" 3.158      0.092      7.369  -05  6.7       15.5       16.9",
   chars!" 524.2      2.5        0.03863    17.1",
   chars!" 3.258      0.090      1.441  -04  4.9       11.2       12.2",
   chars!" 526.7      2.5        0.07588    12.5",
   chars!" 3.359      0.087      2.354  -04  3.6        8.1        8.9",
   chars!" 529.2      2.5        0.1246      9.2",
   chars!" 3.459      0.087      3.210  -04  3.4        6.7        7.5",
   chars!" 531.7      2.5        0.1707      7.9",
   chars!" 3.560      0.087      4.130  -04  3.2        7.8        8.4",
   chars!" 536.1      2.5        0.2214      8.8",
   chars!" 3.661      0.087      6.140  -04  3.0        7.2        7.8",
   chars!" 541.7      2.5        0.3326      8.2",
   chars!" 3.761      0.082      7.917  -04  2.9        8.4        8.9",
   chars!" 544.3      2.5        0.4309      9.2",
   chars!" 3.861      0.084      1.281  -03  2.8        5.9        6.5",
   chars!" 544.9      2.5        0.6979      7.0",
   chars!" 3.861      0.084      1.282  -03  2.8        5.9        6.5",
   chars!" 544.9      2.5        0.6986      7.0",
   chars!" 3.962      0.081      1.348  -03  2.8        4.9        5.6",
   chars!" 545.5      2.5        0.7353      6.1",
   chars!" 4.063      0.081      1.552  -03  2.8        5.1        5.8",
   chars!" 546.3      2.4        0.8476      6.3",
   chars!" 4.264      0.075      1.967  -03  2.7        6.7        7.2",
   chars!" 547.4      2.4        1.007       7.6",
   chars!" 4.464      0.076      2.692  -03  2.7        5.2        5.9",
   chars!" 549.0      2.4        1.478       6.4",
   chars!" 4.664      0.076      4.136  -03  2.8        4.7        5.5",
   chars!" 544.0      2.4        2.250       6.0",
   chars!" 4.865      0.076      4.996  -03  2.8        4.8        5.6",
   chars!" 537.6      2.4        2.686       6.1",
   chars!"ENDDATA             40",
   chars!"ENDSUBENT           48",
   chars!""],
   joinWith ['\n'] [chars!"SUBENT        12898003     860114              20050926       0000",
   chars!"BIB                  2          3",
   chars!"REACTION  1((23-V-51(N,P)22-TI-51,,SIG)/(92-U-238(N,F),,SIG))",
   chars!"          2(23-V-51(N,P)22-TI-51,,SIG)",
   chars!"INC-SOURCE (D-D)",
   chars!"ENDBIB               3",
   chars!"NOCOMMON             0          0",
   chars!"DATA                10         27",
   chars!"EN         EN-RSL-FW  DATA      1ERR-S      ERR-1     1ERR-T     1",
   chars!"MONIT     2MONIT-ERR 2DATA      2ERR-T     2",
   chars!"MEV        MEV        NO-DIM     PER-CENT   PER-CENT   PER-CENT",
   chars!"MB         PER-CENT   MB         PER-CENT",
   chars!" 4.643      0.276      4.105  -03  2.7        5.1        5.8",
   chars!" 544.7      2.4        2.236       6.3",
   chars!" 4.893      0.248      5.315  -03  2.6        6.2        6.7",
   chars!" 536.8      2.4        2.853       7.1",
   chars!" 5.139      0.211      6.049  -03  2.4        5.2        5.7",
   chars!" 537.3      2.6        3.250       6.3",
   chars!" 5.374      0.194      6.696  -03  2.4        5.0        5.5",
   chars!" 543.9      2.6        3.642       6.1",
   chars!" 5.600      0.180      7.571  -03  2.4        5.6        6.1",
   chars!" 560.4      2.6        4.243       6.6",
   chars!" 5.819      0.174      8.559  -03  2.4        5.3        5.8",
   chars!" 589.0      2.6        5.041       6.4",
   chars!" 5.822      0.167      8.870  -03  2.5        5.2        5.8",
   chars!" 589.4      2.6        5.228       6.4",
   chars!" 6.040      0.162      9.600  -03  2.3        4.9        5.4",
   chars!" 627.4      3.9        6.023       6.7",
   chars!" 6.254      0.153      1.006  -02  2.3        4.8        5.3",
   chars!" 710.0      3.9        7.142       6.6",
   chars!" 6.465      0.146      9.435  -03  2.3        4.7        5.2",
   chars!" 796.7      3.9        7.517       6.5",
   chars!" 6.675      0.149      9.317  -03  2.3        4.7        5.2",
   chars!" 860.0      3.9        8.013       6.5",
   chars!" 6.881      0.144      1.003  -02  2.3        4.6        5.1",
   chars!" 904.9      3.9        9.077       6.4",
   chars!" 6.882      0.141      9.969  -03  2.3        4.6        5.1",
   chars!" 905.1      3.9        9.023       6.4",
   chars!" 7.087      0.141      1.003  -02  2.3        4.6        5.1",
   chars!" 933.2      3.9        9.362       6.4",
   chars!" 7.290      0.144      1.089  -02  2.3        4.6        5.1",
   chars!" 959.7      3.9       10.45        6.4",
   chars!" 7.494      0.144      1.182  -02  2.6        4.6        5.3",
   chars!" 986.3      3.9       11.66        6.6",
   chars!" 7.694      0.152      1.189  -02  2.5        4.6        5.2",
   chars!" 988.6      3.9       11.72        6.5",
   chars!" 7.893      0.155      1.285  -02  2.9        4.6        5.4",
   chars!" 990.1      3.9       12.72        6.7",
   chars!" 7.893      0.156      1.337  -02  2.9        4.6        5.4",
   chars!" 990.1      3.9       13.24        6.7",
   chars!" 8.092      0.161      1.331  -02  2.9        4.6        5.4",
   chars!" 991.7      2.9       13.20        6.1",
   chars!" 8.290      0.169      1.403  -02  2.9        4.6        5.4",
   chars!" 993.1      2.9       13.93        6.1",
   chars!" 8.486      0.173      1.452  -02  3.3        4.5        5.6",
   chars!" 994.6      2.9       14.44        6.3",
   chars!" 8.683      0.181      1.571  -02  3.3        4.6        5.7",
   chars!" 996.0      2.9       15.65        6.4",
   chars!" 8.684      0.179      1.578  -02  3.3        4.5        5.6",
   chars!" 996.0      2.9       15.72        6.3",
   chars!" 8.879      0.184      1.598  -02  3.4        4.5        5.6",
   chars!" 997.5      2.9       15.94        6.3",
   chars!" 9.071      0.189      1.778  -02  3.8        4.6        6.0",
   chars!" 997.3      2.9       17.73        6.7",
   chars!" 9.267      0.195      1.850  -02  3.8        4.6        6.0",
   chars!" 994.0      2.9       18.39        6.7",
   chars!"ENDDATA             58",
   chars!"ENDSUBENT           66",
   chars!""]]

/-- `test_bib` of the tests -/
def test_bib : List Str :=
  [chars!"BIB                 10         19",
   chars!"TITLE       ACCELERATION OF PROTONS AND DEUTERONS POLARIZED IN",
   chars!"            THE HORIZONTAL PLANEBY THE RCNP CYCLOTRON",
   chars!"AUTHOR     (K.HATANAKA,N.MATSUOKA,H.SAKAI,T.SAITO,H.TAMURA,",
   chars!"           K.HOSONO,M.KONDO,K.IMAI,H.SHIMIZU,K.NISHIMURA)",
   chars!"INSTITUTE  (2JPNOSA) RESEARCH CENTER FOR NUCLEAR PHYSICS, OSAKA",
   chars!"            UNIV.",
   chars!"           (2JPNKTO)",
   chars!"REFERENCE  (J,NIM,217,397,1983)",
   chars!"FACILITY   (CYCLO,2JPNOSA)",
   chars!"INC-SOURCE  BEAM-INTENSITY IS 0.5NA",
   chars!"            BEAM-POLARIZATION IS NOT GIVEN",
   chars!"           (ATOMI) with a Wien filter",
   chars!"SAMPLE      TARGET IS NOT POLARIZED",
   chars!"            TARGET IS NOT ALIGNED",
   chars!"PART-DET   (D)",
   chars!"STATUS     (CURVE) DATA TAKEN FROM GRAPH",
   chars!"HISTORY    (19881027T) CONVERTED FROM NRDF DATA NO. D783",
   chars!"           (20040401A) Author's name is corrected. Code is added",
   chars!"                       into INC-SOURCE. E-EXC=0.0 MeV is deleted.",
   chars!"ENDBIB              19"]

/-- `test_common` of the tests -/
def test_common : List Str :=
  [chars!"COMMON               1          1",
   chars!"EN         ",
   chars!"MEV        ",
   chars!"56.        ",
   chars!"ENDCOMMON            3"]

/-- `test_data` of the tests -/
def test_data : List Str :=
  [chars!"DATA                10         18",
   chars!"EN         EN-RSL-FW  DATA      1ERR-S      ERR-1     1ERR-T     1",
   chars!"MONIT     2MONIT-ERR 2DATA      2ERR-T     2",
   chars!"MEV        MEV        NO-DIM     PER-CENT   PER-CENT   PER-CENT",
   chars!"MB         PER-CENT   MB         PER-CENT",
   chars!" 2.856      0.095      9.075  -06 47.9       15.6       50.4",
   chars!" 528.8      3.0        0.004799   50.5",
   chars!" 2.957      0.094      1.966  -05 20.6        9.2       22.6",
   chars!" 524.4      3.0        0.01031    22.8",
   chars!" 3.057      0.094      2.575  -05 15.9       20.1       25.6",
   chars!" 522.7      2.5        0.01346    25.7",
   chars!" 3.158      0.092      7.369  -05  6.7       15.5       16.9",
   chars!" 524.2      2.5        0.03863    17.1",
   chars!" 3.258      0.090      1.441  -04  4.9       11.2       12.2",
   chars!" 526.7      2.5        0.07588    12.5",
   chars!" 3.359      0.087      2.354  -04  3.6        8.1        8.9",
   chars!" 529.2      2.5        0.1246      9.2",
   chars!" 3.459      0.087      3.210  -04  3.4        6.7        7.5",
   chars!" 531.7      2.5        0.1707      7.9",
   chars!" 3.560      0.087      4.130  -04  3.2        7.8        8.4",
   chars!" 536.1      2.5        0.2214      8.8",
   chars!" 3.661      0.087      6.140  -04  3.0        7.2        7.8",
   chars!" 541.7      2.5        0.3326      8.2",
   chars!" 3.761      0.082      7.917  -04  2.9        8.4        8.9",
   chars!" 544.3      2.5        0.4309      9.2",
   chars!" 3.861      0.084      1.281  -03  2.8        5.9        6.5",
   chars!" 544.9      2.5        0.6979      7.0",
   chars!" 3.861      0.084      1.282  -03  2.8        5.9        6.5",
   chars!" 544.9      2.5        0.6986      7.0",
   chars!" 3.962      0.081      1.348  -03  2.8        4.9        5.6",
   chars!" 545.5      2.5        0.7353      6.1",
   chars!" 4.063      0.081      1.552  -03  2.8        5.1        5.8",
   chars!" 546.3      2.4        0.8476      6.3",
   chars!" 4.264      0.075      1.967  -03  2.7        6.7        7.2",
   chars!" 547.4      2.4        1.007       7.6",
   chars!" 4.464      0.076      2.692  -03  2.7        5.2        5.9",
   chars!" 549.0      2.4        1.478       6.4",
   chars!" 4.664      0.076      4.136  -03  2.8        4.7        5.5",
   chars!" 544.0      2.4        2.250       6.0",
   chars!" 4.865      0.076      4.996  -03  2.8        4.8        5.6",
   chars!" 537.6      2.4        2.686       6.1",
   chars!"ENDDATA             40"]

-- TestX4Entry.test_getitem_getbib, line 138
#guard (section1 entry chars!"BIB").bind Sec.repr = .ok (joinWith ['\n'] test_bib)

-- TestX4Entry.test_getitem_getcommon, line 144
#guard (section1 entry chars!"COMMON").bind Sec.repr = .ok (joinWith ['\n'] test_common)

-- TestX4Entry.test_meta, line 155
#guard ((entryOf entry).bind Entry.meta).map EntryMeta.xmgraceHeader = .ok chars!"#Exfor Entry E0783\n#  Authors:   K.Hatanaka, N.Matsuoka, H.Sakai, T.Saito, H.Tamura, K.Hosono, M.Kondo, K.Imai, H.Shimizu, K.Nishimura\n#  Title:     Acceleration Of Protons And Deuterons Polarized In The Horizontal Planeby The Rcnp Cyclotron\n#  Year:      1983\n#  Institute: Osaka Univ., Osaka (Research Center For Nuclear Physics, Osaka Univ.); Kyoto Univ.\n#  Reference: Nuclear Instrum.and Methods in Physics Res. 217, 397 (1983)\n#  Subent:    E0783001"

-- TestX4Entry.test_meta, line 159
#guard ((entryOf entry).bind Entry.meta).map EntryMeta.legend = .ok chars!"(1983) K.Hatanaka, N.Matsuoka, et al."

-- TestX4Entry.test_meta, line 163
#guard (section1 entry chars!"BIB").bind (fun s => match s with
    | .bib b => (b.meta chars!"E0783001").map fun m => m.1.record.legend
    | .data _ => .error .keyError) = .ok chars!"(1983) K.Hatanaka, N.Matsuoka, et al."

-- TestX4Entry.test_meta, line 168
#guard ((entryOf entry).bind Entry.meta).bind EntryMeta.citation = .ok chars!"K.Hatanaka, N.Matsuoka, et al., Nuclear Instrum.and Methods in Physics Res. 217, 397 (1983);  Data taken from the EXFOR database, file EXFOR E0783001 dated 1983, retrieved from the IAEA Nuclear Data Services website."

-- TestX4Entry.test_getDataSets, line 175
#guard sameDict (legends (datasets entry)) [((chars!"E0783", some chars!"E0783002", ' '), chars!"(1983) K.Hatanaka, N.Matsuoka, et al.")] = true

-- TestX4Entry.test_getDataSets, line 178
#guard csvOf (datasets entry) (chars!"E0783", some chars!"E0783002", ' ') = .ok (joinWith ['\n'] [chars!"EN,ANG-CM,DATA,DATA-ERR,FLAG",
   chars!"MEV,ADEG,NO-DIM,NO-DIM,NO-DIM",
   chars!"56.0,30.712,-0.002211,,1.0",
   chars!"56.0,38.727,-0.005861,0.00821,",
   chars!"56.0,46.135,0.01022,,1.0",
   chars!"56.0,55.814,0.04098,,1.0",
   chars!"56.0,64.866,0.07998,,1.0",
   chars!"56.0,69.415,0.1126,,1.0",
   chars!"56.0,74.316,0.1633,0.0147,",
   chars!"56.0,79.924,0.2517,0.0115,",
   chars!"56.0,84.442,0.2663,0.0131,",
   chars!"56.0,89.661,0.3153,0.00821,",
   chars!"56.0,94.181,0.3315,0.0164,",
   chars!"56.0,99.114,0.4003,0.0115,",
   chars!"56.0,104.318,0.4411,0.0131,",
   chars!"56.0,109.841,0.4802,0.0132,",
   chars!"56.0,115.135,0.388,0.0132,",
   chars!"56.0,120.355,0.2531,0.0131,",
   chars!"56.0,125.595,-0.05416,0.0214,",
   chars!"56.0,129.34,-0.299,0.0197,",
   chars!"56.0,134.447,-0.314,0.018,",
   chars!"56.0,139.629,-0.1024,0.0197,",
   chars!"56.0,145.538,-0.02551,0.0148,",
   chars!"56.0,150.255,0.104,0.0246,",
   chars!"56.0,155.357,0.0857,0.0246,",
   chars!"56.0,160.562,0.1265,0.0197,",
   chars!""])

-- TestX4Entry.test_getDataSets, line 209
#guard strOf (datasets entry) (chars!"E0783", some chars!"E0783002", ' ') = .ok (joinWith ['\n'] [chars!"#  Authors:   K.Hatanaka, N.Matsuoka, H.Sakai, T.Saito, H.Tamura, K.Hosono, M.Kondo, K.Imai, H.Shimizu, K.Nishimura",
   chars!"#  Title:     Acceleration Of Protons And Deuterons Polarized In The Horizontal Planeby The Rcnp Cyclotron",
   chars!"#  Year:      1983",
   chars!"#  Institute: Osaka Univ., Osaka (Research Center For Nuclear Physics, Osaka Univ.); Kyoto Univ.",
   chars!"#  Reference: Nuclear Instrum.and Methods in Physics Res. 217, 397 (1983)",
   chars!"#  Subent:    E0783002",
   chars!"#  Reaction:  Vector analyzing power, A(y), for incident beam Spin-polarization probability d/dA for 1H(d,Elastic)1H ",
   chars!"#        EN            ANG-CM        DATA          DATA-ERR      FLAG          ",
   chars!"#        MEV           ADEG          NO-DIM        NO-DIM        NO-DIM        ",
   chars!"        56.0          30.712        -0.002211     None          1.0           ",
   chars!"        56.0          38.727        -0.005861     0.00821       None          ",
   chars!"        56.0          46.135        0.01022       None          1.0           ",
   chars!"        56.0          55.814        0.04098       None          1.0           ",
   chars!"        56.0          64.866        0.07998       None          1.0           ",
   chars!"        56.0          69.415        0.1126        None          1.0           ",
   chars!"        56.0          74.316        0.1633        0.0147        None          ",
   chars!"        56.0          79.924        0.2517        0.0115        None          ",
   chars!"        56.0          84.442        0.2663        0.0131        None          ",
   chars!"        56.0          89.661        0.3153        0.00821       None          ",
   chars!"        56.0          94.181        0.3315        0.0164        None          ",
   chars!"        56.0          99.114        0.4003        0.0115        None          ",
   chars!"        56.0          104.318       0.4411        0.0131        None          ",
   chars!"        56.0          109.841       0.4802        0.0132        None          ",
   chars!"        56.0          115.135       0.388         0.0132        None          ",
   chars!"        56.0          120.355       0.2531        0.0131        None          ",
   chars!"        56.0          125.595       -0.05416      0.0214        None          ",
   chars!"        56.0          129.34        -0.299        0.0197        None          ",
   chars!"        56.0          134.447       -0.314        0.018         None          ",
   chars!"        56.0          139.629       -0.1024       0.0197        None          ",
   chars!"        56.0          145.538       -0.02551      0.0148        None          ",
   chars!"        56.0          150.255       0.104         0.0246        None          ",
   chars!"        56.0          155.357       0.0857        0.0246        None          ",
   chars!"        56.0          160.562       0.1265        0.0197        None          ",
   chars!"        "])

-- TestX4Entry.test_getDataSets_2, line 213
#guard sameDict (legends (datasets entry_2)) [((chars!"12898", some chars!"12898003", '2'), chars!"(1984) D.L.Smith, J.W.Meadows, et al."), ((chars!"12898", some chars!"12898002", '2'), chars!"(1984) D.L.Smith, J.W.Meadows, et al."), ((chars!"12898", some chars!"12898002", '1'), chars!"(1984) D.L.Smith, J.W.Meadows, et al."), ((chars!"12898", some chars!"12898003", '1'), chars!"(1984) D.L.Smith, J.W.Meadows, et al.")] = true

-- TestX4Entry.test_getDataSets_2, line 229
#guard csvOf (datasets entry_2) (chars!"12898", some chars!"12898003", '2') = .ok (joinWith ['\n'] [chars!"EN,EN-RSL-FW,ERR-S,MONIT,MONIT-ERR,DATA,ERR-T",
   chars!"MEV,MEV,PER-CENT,MB,PER-CENT,MB,PER-CENT",
   chars!"4.643,0.276,2.7,544.7,2.4,2.236,6.3",
   chars!"4.893,0.248,2.6,536.8,2.4,2.853,7.1",
   chars!"5.139,0.211,2.4,537.3,2.6,3.25,6.3",
   chars!"5.374,0.194,2.4,543.9,2.6,3.642,6.1",
   chars!"5.6,0.18,2.4,560.4,2.6,4.243,6.6",
   chars!"5.819,0.174,2.4,589.0,2.6,5.041,6.4",
   chars!"5.822,0.167,2.5,589.4,2.6,5.228,6.4",
   chars!"6.04,0.162,2.3,627.4,3.9,6.023,6.7",
   chars!"6.254,0.153,2.3,710.0,3.9,7.142,6.6",
   chars!"6.465,0.146,2.3,796.7,3.9,7.517,6.5",
   chars!"6.675,0.149,2.3,860.0,3.9,8.013,6.5",
   chars!"6.881,0.144,2.3,904.9,3.9,9.077,6.4",
   chars!"6.882,0.141,2.3,905.1,3.9,9.023,6.4",
   chars!"7.087,0.141,2.3,933.2,3.9,9.362,6.4",
   chars!"7.29,0.144,2.3,959.7,3.9,10.45,6.4",
   chars!"7.494,0.144,2.6,986.3,3.9,11.66,6.6",
   chars!"7.694,0.152,2.5,988.6,3.9,11.72,6.5",
   chars!"7.893,0.155,2.9,990.1,3.9,12.72,6.7",
   chars!"7.893,0.156,2.9,990.1,3.9,13.24,6.7",
   chars!"8.092,0.161,2.9,991.7,2.9,13.2,6.1",
   chars!"8.29,0.169,2.9,993.1,2.9,13.93,6.1",
   chars!"8.486,0.173,3.3,994.6,2.9,14.44,6.3",
   chars!"8.683,0.181,3.3,996.0,2.9,15.65,6.4",
   chars!"8.684,0.179,3.3,996.0,2.9,15.72,6.3",
   chars!"8.879,0.184,3.4,997.5,2.9,15.94,6.3",
   chars!"9.071,0.189,3.8,997.3,2.9,17.73,6.7",
   chars!"9.267,0.195,3.8,994.0,2.9,18.39,6.7",
   chars!""])

-- TestX4Entry.test_getDataSets_2, line 263
#guard strOf (datasets entry_2) (chars!"12898", some chars!"12898002", '1') = .ok (joinWith ['\n'] [chars!"#  Authors:   D.L.Smith, J.W.Meadows, I.Kanno",
   chars!"#  Title:     Measured Activation Cross Sections Below 10 Mev For The 51-V(N,P)51-Ti And 51-V(N,Alpha)48-Sc Reactions.",
   chars!"#  Year:      1984",
   chars!"#  Institute: Argonne National Laboratory, Argonne, IL",
   chars!"#  Reference: Annals of Nuclear Energy 11, 623 (1984); Progress report: ANL-NDM-85  (1984)",
   chars!"#  Subent:    12898002",
   chars!"#  Reaction:  (( Cross section for 51V(n,p)51Ti )/( Cross section for 238U(n,Fission) )) ",
   chars!"#        EN            EN-RSL-FW     DATA          ERR-S         ERR-1         ERR-T         ",
   chars!"#        MEV           MEV           NO-DIM        PER-CENT      PER-CENT      PER-CENT      ",
   chars!"        2.856         0.095         9.075e-06     47.9          15.6          50.4          ",
   chars!"        2.957         0.094         1.966e-05     20.6          9.2           22.6          ",
   chars!"        3.057         0.094         2.575e-05     15.9          20.1          25.6          ",
   chars!"        3.158         0.092         7.369e-05     6.7           15.5          16.9          ",
   chars!"        3.258         0.09          0.0001441     4.9           11.2          12.2          ",
   chars!"        3.359         0.087         0.0002354     3.6           8.1           8.9           ",
   chars!"        3.459         0.087         0.000321      3.4           6.7           7.5           ",
   chars!"        3.56          0.087         0.000413      3.2           7.8           8.4           ",
   chars!"        3.661         0.087         0.000614      3.0           7.2           7.8           ",
   chars!"        3.761         0.082         0.0007917     2.9           8.4           8.9           ",
   chars!"        3.861         0.084         0.001281      2.8           5.9           6.5           ",
   chars!"        3.861         0.084         0.001282      2.8           5.9           6.5           ",
   chars!"        3.962         0.081         0.001348      2.8           4.9           5.6           ",
   chars!"        4.063         0.081         0.001552      2.8           5.1           5.8           ",
   chars!"        4.264         0.075         0.001967      2.7           6.7           7.2           ",
   chars!"        4.464         0.076         0.002692      2.7           5.2           5.9           ",
   chars!"        4.664         0.076         0.004136      2.8           4.7           5.5           ",
   chars!"        4.865         0.076         0.004996      2.8           4.8           5.6           ",
   chars!"        "])

-- TestX4Entry.test_getDataSets_2_cross_section_translation, line 267
#guard sameDict (legends (simplified entry_2)) [((chars!"12898", some chars!"12898003", '2'), chars!"(1984) D.L.Smith, J.W.Meadows, et al."), ((chars!"12898", some chars!"12898002", '2'), chars!"(1984) D.L.Smith, J.W.Meadows, et al."), ((chars!"12898", some chars!"12898002", '1'), chars!"(1984) D.L.Smith, J.W.Meadows, et al."), ((chars!"12898", some chars!"12898003", '1'), chars!"(1984) D.L.Smith, J.W.Meadows, et al.")] = true

-- TestX4Entry.test_getDataSets_2_cross_section_translation, line 325
#guard strOf (simplified entry_2) (chars!"12898", some chars!"12898002", '1') = .ok (joinWith ['\n'] [chars!"#  Authors:   D.L.Smith, J.W.Meadows, I.Kanno",
   chars!"#  Title:     Measured Activation Cross Sections Below 10 Mev For The 51-V(N,P)51-Ti And 51-V(N,Alpha)48-Sc Reactions.",
   chars!"#  Year:      1984",
   chars!"#  Institute: Argonne National Laboratory, Argonne, IL",
   chars!"#  Reference: Annals of Nuclear Energy 11, 623 (1984); Progress report: ANL-NDM-85  (1984)",
   chars!"#  Subent:    12898002",
   chars!"#  Reaction:  (( Cross section for 51V(n,p)51Ti )/( Cross section for 238U(n,Fission) )) ",
   chars!"#        Energy        Data          d(Energy)     d(Data)       ",
   chars!"#        MeV           no-dim        MeV           no-dim        ",
   chars!"        2.856         9.075e-06     0.0475        4.5738e-06    ",
   chars!"        2.957         1.966e-05     0.047         4.44316e-06   ",
   chars!"        3.057         2.575e-05     0.047         6.592e-06     ",
   chars!"        3.158         7.369e-05     0.046         1.245361e-05  ",
   chars!"        3.258         0.0001441     0.045         1.75802e-05   ",
   chars!"        3.359         0.0002354     0.0435        2.09506e-05   ",
   chars!"        3.459         0.000321      0.0435        2.4075e-05    ",
   chars!"        3.56          0.000413      0.0435        3.4692e-05    ",
   chars!"        3.661         0.000614      0.0435        4.7892e-05    ",
   chars!"        3.761         0.0007917     0.041         7.04613e-05   ",
   chars!"        3.861         0.001281      0.042         8.3265e-05    ",
   chars!"        3.861         0.001282      0.042         8.333e-05     ",
   chars!"        3.962         0.001348      0.0405        7.5488e-05    ",
   chars!"        4.063         0.001552      0.0405        9.0016e-05    ",
   chars!"        4.264         0.001967      0.0375        0.000141624   ",
   chars!"        4.464         0.002692      0.038         0.000158828   ",
   chars!"        4.664         0.004136      0.038         0.00022748    ",
   chars!"        4.865         0.004996      0.038         0.000279776   ",
   chars!"        "])

-- TestX4Entry.test_getDataSets_2_cross_section_translation, line 282
#guard csvOf (simplified entry_2) (chars!"12898", some chars!"12898003", '2') = .ok (joinWith ['\n'] [chars!"Energy,Data,d(Energy),d(Data)",
   chars!"MeV,barns,MeV,barns",
   chars!"4.643,0.002236,0.138,0.000140868",
   chars!"4.893,0.002853,0.124,0.000202563",
   chars!"5.139,0.00325,0.1055,0.00020475",
   chars!"5.374,0.003642,0.097,0.000222162",
   chars!"5.6,0.004243,0.09,0.000280038",
   chars!"5.819,0.005041,0.087,0.000322624",
   chars!"5.822,0.005228,0.0835,0.000334592",
   chars!"6.04,0.006023,0.081,0.000403541",
   chars!"6.254,0.007142,0.0765,0.000471372",
   chars!"6.465,0.007517,0.073,0.000488605",
   chars!"6.675,0.008013,0.0745,0.000520845",
   chars!"6.881,0.009077,0.072,0.000580928",
   chars!"6.882,0.009023,0.0705,0.000577472",
   chars!"7.087,0.009362,0.0705,0.000599168",
   chars!"7.29,0.01045,0.072,0.0006688",
   chars!"7.494,0.01166,0.072,0.00076956",
   chars!"7.694,0.01172,0.076,0.0007618",
   chars!"7.893,0.01272,0.0775,0.00085224",
   chars!"7.893,0.01324,0.078,0.00088708",
   chars!"8.092,0.0132,0.0805,0.0008052",
   chars!"8.29,0.01393,0.0845,0.00084973",
   chars!"8.486,0.01444,0.0865,0.00090972",
   chars!"8.683,0.01565,0.0905,0.0010016",
   chars!"8.684,0.01572,0.0895,0.00099036",
   chars!"8.879,0.01594,0.092,0.00100422",
   chars!"9.071,0.01773,0.0945,0.00118791",
   chars!"9.267,0.01839,0.0975,0.00123213",
   chars!""])

-- TestX4BibSection.test_repr, line 337
#guard (BibSection.build (x4Parsers dicts) test_bib).bind BibSection.repr = .ok (joinWith ['\n'] [chars!"BIB                 10         19",
   chars!"TITLE       ACCELERATION OF PROTONS AND DEUTERONS POLARIZED IN",
   chars!"            THE HORIZONTAL PLANEBY THE RCNP CYCLOTRON",
   chars!"AUTHOR     (K.HATANAKA,N.MATSUOKA,H.SAKAI,T.SAITO,H.TAMURA,",
   chars!"           K.HOSONO,M.KONDO,K.IMAI,H.SHIMIZU,K.NISHIMURA)",
   chars!"INSTITUTE  (2JPNOSA) RESEARCH CENTER FOR NUCLEAR PHYSICS, OSAKA",
   chars!"            UNIV.",
   chars!"           (2JPNKTO)",
   chars!"REFERENCE  (J,NIM,217,397,1983)",
   chars!"FACILITY   (CYCLO,2JPNOSA)",
   chars!"INC-SOURCE  BEAM-INTENSITY IS 0.5NA",
   chars!"            BEAM-POLARIZATION IS NOT GIVEN",
   chars!"           (ATOMI) with a Wien filter",
   chars!"SAMPLE      TARGET IS NOT POLARIZED",
   chars!"            TARGET IS NOT ALIGNED",
   chars!"PART-DET   (D)",
   chars!"STATUS     (CURVE) DATA TAKEN FROM GRAPH",
   chars!"HISTORY    (19881027T) CONVERTED FROM NRDF DATA NO. D783",
   chars!"           (20040401A) Author's name is corrected. Code is added",
   chars!"                       into INC-SOURCE. E-EXC=0.0 MeV is deleted.",
   chars!"ENDBIB              19"])

-- TestX4BibSection.test_total_len, line 340
#guard (BibSection.build (x4Parsers dicts) test_bib).bind BibSection.totalLen = .ok 19

-- TestX4DataSection.test_simple_common, line 346
#guard (DataSection.build chars!"COMMON" test_common).map DataSection.repr = .ok (joinWith ['\n'] [chars!"COMMON               1          1",
   chars!"EN         ",
   chars!"MEV        ",
   chars!"56.        ",
   chars!"ENDCOMMON            3"])

-- TestX4DataSection.test_simple_common, line 347
#guard (DataSection.build chars!"COMMON" test_common).map (DataSection.str litText) = .ok (joinWith ['\n'] [chars!"COMMON               1          1",
   chars!"EN         ",
   chars!"MEV        ",
   chars!"56.0       ",
   chars!"ENDCOMMON            3"])

-- TestX4DataSection.test_simple_common, line 350
#guard (DataSection.build chars!"COMMON" test_common).map DataSection.numrows = .ok 1

-- TestX4DataSection.test_simple_common, line 351
#guard (DataSection.build chars!"COMMON" test_common).map DataSection.pointers = .ok []

-- TestX4DataSection.test_simple_common, line 353
#guard (DataSection.build chars!"COMMON" test_common).map (DataSection.csv litText) = .ok (joinWith ['\n'] [chars!"EN",
   chars!"MEV",
   chars!"56.0",
   chars!""])

-- TestX4DataSection.test_simple_common, line 355
#guard (DataSection.build chars!"COMMON" test_common).map (fun d => d.labels[0]?) = .ok (some chars!"EN")

-- TestX4DataSection.test_simple_common, line 356
#guard (DataSection.build chars!"COMMON" test_common).map (fun d => d.units[0]?) = .ok (some chars!"MEV")

-- TestX4DataSection.test_simple_common, line 357
#guard (DataSection.build chars!"COMMON" test_common).map (fun d => ((d.data[0]?.bind (·[0]?)).map fun c => c.map litText)) = .ok (some (some chars!"56.0"))

-- TestX4DataSection.test_complicated_data, line 363
#guard (DataSection.build chars!"DATA" test_data).map (DataSection.str litText) = .ok (joinWith ['\n'] [chars!"DATA                10         18",
   chars!"EN         EN-RSL-FW  DATA      1ERR-S      ERR-1     1ERR-T     1MONIT     2MONIT-ERR 2DATA      2ERR-T     2",
   chars!"MEV        MEV        NO-DIM     PER-CENT   PER-CENT   PER-CENT   MB         PER-CENT   MB         PER-CENT   ",
   chars!"2.856      0.095      9.075e-06  47.9       15.6       50.4       528.8      3.0        0.004799   50.5       ",
   chars!"2.957      0.094      1.966e-05  20.6       9.2        22.6       524.4      3.0        0.01031    22.8       ",
   chars!"3.057      0.094      2.575e-05  15.9       20.1       25.6       522.7      2.5        0.01346    25.7       ",
   chars!"3.158      0.092      7.369e-05  6.7        15.5       16.9       524.2      2.5        0.03863    17.1       ",
   chars!"3.258      0.09       0.0001441  4.9        11.2       12.2       526.7      2.5        0.07588    12.5       ",
   chars!"3.359      0.087      0.0002354  3.6        8.1        8.9        529.2      2.5        0.1246     9.2        ",
   chars!"3.459      0.087      0.000321   3.4        6.7        7.5        531.7      2.5        0.1707     7.9        ",
   chars!"3.56       0.087      0.000413   3.2        7.8        8.4        536.1      2.5        0.2214     8.8        ",
   chars!"3.661      0.087      0.000614   3.0        7.2        7.8        541.7      2.5        0.3326     8.2        ",
   chars!"3.761      0.082      0.0007917  2.9        8.4        8.9        544.3      2.5        0.4309     9.2        ",
   chars!"3.861      0.084      0.001281   2.8        5.9        6.5        544.9      2.5        0.6979     7.0        ",
   chars!"3.861      0.084      0.001282   2.8        5.9        6.5        544.9      2.5        0.6986     7.0        ",
   chars!"3.962      0.081      0.001348   2.8        4.9        5.6        545.5      2.5        0.7353     6.1        ",
   chars!"4.063      0.081      0.001552   2.8        5.1        5.8        546.3      2.4        0.8476     6.3        ",
   chars!"4.264      0.075      0.001967   2.7        6.7        7.2        547.4      2.4        1.007      7.6        ",
   chars!"4.464      0.076      0.002692   2.7        5.2        5.9        549.0      2.4        1.478      6.4        ",
   chars!"4.664      0.076      0.004136   2.8        4.7        5.5        544.0      2.4        2.25       6.0        ",
   chars!"4.865      0.076      0.004996   2.8        4.8        5.6        537.6      2.4        2.686      6.1        ",
   chars!"ENDDATA             20"])

-- TestX4DataSection.test_complicated_data, line 364
#guard (DataSection.build chars!"DATA" test_data).map DataSection.repr = .ok (joinWith ['\n'] [chars!"DATA                10         18",
   chars!"EN         EN-RSL-FW  DATA      1ERR-S      ERR-1     1ERR-T     1MONIT     2MONIT-ERR 2DATA      2ERR-T     2",
   chars!"MEV        MEV        NO-DIM     PER-CENT   PER-CENT   PER-CENT   MB         PER-CENT   MB         PER-CENT   ",
   chars!"2.856      0.095      9.075  -06 47.9       15.6       50.4       528.8      3.0        0.004799   50.5       ",
   chars!"2.957      0.094      1.966  -05 20.6       9.2        22.6       524.4      3.0        0.01031    22.8       ",
   chars!"3.057      0.094      2.575  -05 15.9       20.1       25.6       522.7      2.5        0.01346    25.7       ",
   chars!"3.158      0.092      7.369  -05 6.7        15.5       16.9       524.2      2.5        0.03863    17.1       ",
   chars!"3.258      0.090      1.441  -04 4.9        11.2       12.2       526.7      2.5        0.07588    12.5       ",
   chars!"3.359      0.087      2.354  -04 3.6        8.1        8.9        529.2      2.5        0.1246     9.2        ",
   chars!"3.459      0.087      3.210  -04 3.4        6.7        7.5        531.7      2.5        0.1707     7.9        ",
   chars!"3.560      0.087      4.130  -04 3.2        7.8        8.4        536.1      2.5        0.2214     8.8        ",
   chars!"3.661      0.087      6.140  -04 3.0        7.2        7.8        541.7      2.5        0.3326     8.2        ",
   chars!"3.761      0.082      7.917  -04 2.9        8.4        8.9        544.3      2.5        0.4309     9.2        ",
   chars!"3.861      0.084      1.281  -03 2.8        5.9        6.5        544.9      2.5        0.6979     7.0        ",
   chars!"3.861      0.084      1.282  -03 2.8        5.9        6.5        544.9      2.5        0.6986     7.0        ",
   chars!"3.962      0.081      1.348  -03 2.8        4.9        5.6        545.5      2.5        0.7353     6.1        ",
   chars!"4.063      0.081      1.552  -03 2.8        5.1        5.8        546.3      2.4        0.8476     6.3        ",
   chars!"4.264      0.075      1.967  -03 2.7        6.7        7.2        547.4      2.4        1.007      7.6        ",
   chars!"4.464      0.076      2.692  -03 2.7        5.2        5.9        549.0      2.4        1.478      6.4        ",
   chars!"4.664      0.076      4.136  -03 2.8        4.7        5.5        544.0      2.4        2.250      6.0        ",
   chars!"4.865      0.076      4.996  -03 2.8        4.8        5.6        537.6      2.4        2.686      6.1        ",
   chars!"ENDDATA             20"])

-- TestX4DataSection.test_complicated_data, line 365
#guard (DataSection.build chars!"DATA" test_data).map DataSection.numrows = .ok 18

-- TestX4DataSection.test_complicated_data, line 366
#guard (DataSection.build chars!"DATA" test_data).map DataSection.pointers = .ok [('1', [2, 4, 5]), ('2', [6, 7, 8, 9])]

-- TestX4DataSection.test_complicated_data, line 368
#guard (DataSection.build chars!"DATA" test_data).map (DataSection.csv litText) = .ok (joinWith ['\n'] [chars!"EN,EN-RSL-FW,DATA      1,ERR-S,ERR-1     1,ERR-T     1,MONIT     2,MONIT-ERR 2,DATA      2,ERR-T     2",
   chars!"MEV,MEV,NO-DIM,PER-CENT,PER-CENT,PER-CENT,MB,PER-CENT,MB,PER-CENT",
   chars!"2.856,0.095,9.075e-06,47.9,15.6,50.4,528.8,3.0,0.004799,50.5",
   chars!"2.957,0.094,1.966e-05,20.6,9.2,22.6,524.4,3.0,0.01031,22.8",
   chars!"3.057,0.094,2.575e-05,15.9,20.1,25.6,522.7,2.5,0.01346,25.7",
   chars!"3.158,0.092,7.369e-05,6.7,15.5,16.9,524.2,2.5,0.03863,17.1",
   chars!"3.258,0.09,0.0001441,4.9,11.2,12.2,526.7,2.5,0.07588,12.5",
   chars!"3.359,0.087,0.0002354,3.6,8.1,8.9,529.2,2.5,0.1246,9.2",
   chars!"3.459,0.087,0.000321,3.4,6.7,7.5,531.7,2.5,0.1707,7.9",
   chars!"3.56,0.087,0.000413,3.2,7.8,8.4,536.1,2.5,0.2214,8.8",
   chars!"3.661,0.087,0.000614,3.0,7.2,7.8,541.7,2.5,0.3326,8.2",
   chars!"3.761,0.082,0.0007917,2.9,8.4,8.9,544.3,2.5,0.4309,9.2",
   chars!"3.861,0.084,0.001281,2.8,5.9,6.5,544.9,2.5,0.6979,7.0",
   chars!"3.861,0.084,0.001282,2.8,5.9,6.5,544.9,2.5,0.6986,7.0",
   chars!"3.962,0.081,0.001348,2.8,4.9,5.6,545.5,2.5,0.7353,6.1",
   chars!"4.063,0.081,0.001552,2.8,5.1,5.8,546.3,2.4,0.8476,6.3",
   chars!"4.264,0.075,0.001967,2.7,6.7,7.2,547.4,2.4,1.007,7.6",
   chars!"4.464,0.076,0.002692,2.7,5.2,5.9,549.0,2.4,1.478,6.4",
   chars!"4.664,0.076,0.004136,2.8,4.7,5.5,544.0,2.4,2.25,6.0",
   chars!"4.865,0.076,0.004996,2.8,4.8,5.6,537.6,2.4,2.686,6.1",
   chars!""])

-- TestX4DataSection.test_complicated_data, line 392
#guard (DataSection.build chars!"DATA" test_data).map (fun d => d.labels[2]?) = .ok (some chars!"DATA      1")

-- TestX4DataSection.test_complicated_data, line 393
#guard (DataSection.build chars!"DATA" test_data).map (fun d => d.units[9]?) = .ok (some chars!"PER-CENT")

-- TestX4DataSection.test_complicated_data, line 394
#guard (DataSection.build chars!"DATA" test_data).map (fun d => ((d.data[10]?.bind (·[7]?)).map fun c => c.map litText)) = .ok (some (some chars!"2.5"))

/-- the lines of a file, with their line ends -/
def linesOf (s : String) : List Str := ((splitChar '\n' s.toList).dropLast).map (· ++ ['\n'])

/-- the lines of `x4i3/tests/data/db/137/13787.x4` -/
def file13787 : List Str := linesOf "ENTRY            13787   20020517   20060111   20060111       1337
SUBENT        13787001   20020517   20060111   20060111       1337
BIB                 14         30
INSTITUTE  (1USALRL,1USALAS)
REFERENCE  (J,PR/C,65,021601,200202)
           (C,2001TSUKUB,1,620,2001)
AUTHOR     (L.A.Bernstein,J.A.Becker,P.E.Garrett,W.Younes,
           D.P.McNabb,D.E.Archer,C.A.McGrath,H.Chen,W.E.Ormand,
           M.A.Stoyer,R.O.Nelson,M.B.Chadwick,G.D.Johns,
           W.S.Wilburn,M.Devlin,D.M.Drake,P.G.Young)
TITLE      239Pu(n,2n)238Pu cross section deduced using a
            combination of experiment and theory
FACILITY   (MESON,1USALAS) LANSCE/WNR facility.
INC-SOURCE (SPALL) Protons on tungsten target.
SAMPLE     Two 98.014% enriched 239Pu targets, 0.0277- and
            0.0500-cm thick.
METHOD     (TOF). 20.34-m flight path.
DETECTOR   (GE-IN) GEANIE spectrometer, consisting of 15 coaxial
            Ge detectors (9 Compton suppressed), and 11 planar
            Compton suppressed Ge detectors.
MONITOR    Detector array efficiency measured using set of
            calibrated sources.
           Neutron fluence measured using fission chambers
            containing 235U and 238U.
CORRECTION Corrected for deadtime and background.
ERR-ANALYS (DATA-ERR) Contributions to uncertainty not given.
           (ERR-1) Uncertainty due to gamma-ray statistics and
            peak-fitting.
STATUS     Data received by email from L. Bernstein, 16 April
            2002.
           No reply from L. Bernstein to author proof.
HISTORY    (20020417C)
           (20050918C) DR Second reference added
ENDBIB              30
NOCOMMON             0          0
ENDSUBENT           33
SUBENT        13787002   20020417   20020815   20050926       0000
BIB                  1          1
REACTION   (94-PU-239(N,2N)94-PU-238,PAR,SIG,G)
ENDBIB               1
NOCOMMON             0          0
DATA                 6        400
E          EN         EN-ERR     DATA       DATA-ERR   ERR-1
KEV        MEV        MEV        B          B          B
 154.4        1.321      0.018      0.0379     0.0083     0.0077
 154.4        1.365      0.019      0.0287     0.0077     0.0073
 154.4        1.409      0.019      0.0153     0.0069     0.0068
 154.4        1.455      0.021      0.0255     0.0069     0.0065
 154.4        1.504      0.022      0.0217     0.0065     0.0063
 154.4        1.556      0.023      0.0166     0.0063     0.0061
 154.4        1.610      0.024      0.0215     0.0062     0.0059
 154.4        1.667      0.025      0.0147     0.0060     0.0059
 154.4        1.728      0.027      0.0201     0.0060     0.0058
 154.4        1.792      0.028      0.0158     0.0057     0.0055
 154.4        1.858      0.029      0.0237     0.0056     0.0052
 154.4        1.929      0.032      0.0159     0.0053     0.0052
 154.4        2.004      0.033      0.0122     0.0052     0.0051
 154.4        2.084      0.035      0.0138     0.0053     0.0052
 154.4        2.169      0.037      0.0178     0.0051     0.0049
 154.4        2.259      0.040      0.0151     0.0049     0.0047
 154.4        2.354      0.042      0.0106     0.0047     0.0046
 154.4        2.455      0.045      0.0035     0.0046     0.0046
 154.4        2.564      0.048      0.0131     0.0049     0.0048
 154.4        2.680      0.052      0.0078     0.0047     0.0046
 154.4        2.802      0.055      0.0154     0.0048     0.0047
 154.4        2.938      0.060      0.0032     0.0047     0.0047
 154.4        3.078      0.063      0.0038     0.0043     0.0042
 154.4        3.231      0.068      0.0118     0.0044     0.0043
 154.4        3.396      0.074      0.0056     0.0045     0.0045
 154.4        3.574      0.079      0.0078     0.0044     0.0044
 154.4        3.766      0.086      0.0075     0.0040     0.0040
 154.4        3.973      0.093      0.0071     0.0040     0.0039
 154.4        4.200      0.101      0.0031     0.0038     0.0037
 154.4        4.445      0.110      0.0057     0.0038     0.0038
 154.4        4.713      0.119      0.0066     0.0035     0.0035
 154.4        5.001      0.132     -0.0038     0.0030     0.0029
 154.4        5.325      0.144      0.0022     0.0029     0.0029
 154.4        5.678      0.159     -0.0030     0.0029     0.0028
 154.4        6.064      0.176      0.0025     0.0030     0.0029
 154.4        6.500      0.195      0.0125     0.0031     0.0029
 154.4        6.969      0.215      0.0218     0.0034     0.0030
 154.4        7.498      0.243      0.0336     0.0041     0.0032
 154.4        8.105      0.272      0.0450     0.0047     0.0032
 154.4        8.773      0.306      0.0498     0.0051     0.0033
 154.4        9.520      0.346      0.0614     0.0059     0.0034
 154.4       10.392      0.395      0.0814     0.0073     0.0037
 154.4       11.373      0.453      0.0928     0.0082     0.0040
 154.4       12.499      0.525      0.0922     0.0082     0.0041
 154.4       13.824      0.606      0.0721     0.0070     0.0043
 154.4       15.359      0.719      0.0527     0.0059     0.0042
 154.4       17.183      0.846      0.0443     0.0054     0.0042
 154.4       19.336      1.018      0.0343     0.0048     0.0040
 154.4       21.960      1.225      0.0347     0.0047     0.0038
 154.4       25.121      1.516      0.0245     0.0040     0.0036
 210.0        1.321      0.018      0.0117     0.0048     0.0048
 210.0        1.365      0.019     -0.0047     0.0042     0.0042
 210.0        1.409      0.019     -0.0009     0.0042     0.0042
 210.0        1.455      0.021      0.0044     0.0040     0.0040
 210.0        1.504      0.022     -0.0002     0.0038     0.0038
 210.0        1.556      0.023     -0.0045     0.0036     0.0036
 210.0        1.610      0.024     -0.0066     0.0035     0.0035
 210.0        1.667      0.025      0.0044     0.0035     0.0035
 210.0        1.728      0.027      0.0004     0.0035     0.0035
 210.0        1.792      0.028     -0.0013     0.0032     0.0032
 210.0        1.858      0.029      0.0004     0.0032     0.0032
 210.0        1.929      0.032     -0.0027     0.0030     0.0030
 210.0        2.004      0.033      0.0035     0.0031     0.0031
 210.0        2.084      0.035      0.0021     0.0030     0.0030
 210.0        2.169      0.037     -0.0015     0.0028     0.0028
 210.0        2.259      0.040      0.0010     0.0028     0.0028
 210.0        2.354      0.042      0.0022     0.0027     0.0027
 210.0        2.455      0.045     -0.0062     0.0028     0.0028
 210.0        2.564      0.048     -0.0059     0.0028     0.0028
 210.0        2.680      0.052     -0.0025     0.0028     0.0028
 210.0        2.802      0.055      0.0010     0.0028     0.0028
 210.0        2.938      0.060     -0.0003     0.0028     0.0028
 210.0        3.078      0.063     -0.0012     0.0026     0.0026
 210.0        3.231      0.068     -0.0001     0.0026     0.0026
 210.0        3.396      0.074      0.0017     0.0026     0.0026
 210.0        3.574      0.079      0.0047     0.0027     0.0027
 210.0        3.766      0.086      0.0043     0.0025     0.0025
 210.0        3.973      0.093      0.0008     0.0024     0.0024
 210.0        4.200      0.101     -0.0023     0.0022     0.0022
 210.0        4.445      0.110     -0.0005     0.0022     0.0022
 210.0        4.713      0.119      0.0044     0.0022     0.0022
 210.0        5.001      0.132     -0.0019     0.0017     0.0017
 210.0        5.325      0.144      0.0020     0.0017     0.0017
 210.0        5.678      0.159      0.0025     0.0017     0.0017
 210.0        6.064      0.176      0.0004     0.0017     0.0017
 210.0        6.500      0.195     -0.0018     0.0016     0.0016
 210.0        6.969      0.215      0.0047     0.0017     0.0017
 210.0        7.498      0.243      0.0055     0.0018     0.0018
 210.0        8.105      0.272      0.0055     0.0018     0.0018
 210.0        8.773      0.306      0.0139     0.0019     0.0018
 210.0        9.520      0.346      0.0199     0.0020     0.0019
 210.0       10.392      0.395      0.0252     0.0022     0.0020
 210.0       11.373      0.453      0.0302     0.0025     0.0022
 210.0       12.499      0.525      0.0349     0.0026     0.0023
 210.0       13.824      0.606      0.0287     0.0025     0.0023
 210.0       15.359      0.719      0.0281     0.0026     0.0024
 210.0       17.183      0.846      0.0168     0.0025     0.0024
 210.0       19.336      1.018      0.0151     0.0025     0.0024
 210.0       21.960      1.225      0.0086     0.0023     0.0023
 210.0       25.121      1.516      0.0114     0.0022     0.0022
 459.8        1.321      0.018      0.0013     0.0017     0.0017
 459.8        1.365      0.019      0.0018     0.0017     0.0017
 459.8        1.409      0.019      0.0026     0.0016     0.0016
 459.8        1.455      0.021      0.0029     0.0015     0.0015
 459.8        1.504      0.022      0.0034     0.0015     0.0015
 459.8        1.556      0.023      0.0013     0.0014     0.0014
 459.8        1.610      0.024      0.0037     0.0014     0.0014
 459.8        1.667      0.025      0.0014     0.0014     0.0014
 459.8        1.728      0.027      0.0023     0.0014     0.0014
 459.8        1.792      0.028      0.0045     0.0014     0.0014
 459.8        1.858      0.029      0.0041     0.0013     0.0013
 459.8        1.929      0.032      0.0018     0.0013     0.0013
 459.8        2.004      0.033      0.0010     0.0013     0.0013
 459.8        2.084      0.035      0.0023     0.0013     0.0013
 459.8        2.169      0.037      0.0044     0.0012     0.0013
 459.8        2.259      0.040      0.0019     0.0012     0.0012
 459.8        2.354      0.042      0.0047     0.0012     0.0012
 459.8        2.455      0.045      0.0029     0.0012     0.0012
 459.8        2.564      0.048      0.0026     0.0013     0.0013
 459.8        2.680      0.052      0.0027     0.0013     0.0013
 459.8        2.802      0.055      0.0008     0.0013     0.0013
 459.8        2.938      0.060      0.0029     0.0013     0.0013
 459.8        3.078      0.063      0.0028     0.0012     0.0012
 459.8        3.231      0.068      0.0037     0.0012     0.0012
 459.8        3.396      0.074      0.0021     0.0012     0.0012
 459.8        3.574      0.079      0.0038     0.0012     0.0012
 459.8        3.766      0.086      0.0037     0.0011     0.0011
 459.8        3.973      0.093      0.0022     0.0011     0.0011
 459.8        4.200      0.101      0.0035     0.0011     0.0011
 459.8        4.445      0.110      0.0029     0.0011     0.0011
 459.8        4.713      0.119      0.0045     0.0010     0.0010
 459.8        5.001      0.132      0.0035     0.0010     0.0010
 459.8        5.325      0.144      0.0025     0.0010     0.0010
 459.8        5.678      0.159      0.0029     0.0010     0.0010
 459.8        6.064      0.176      0.0047     0.0010     0.0011
 459.8        6.500      0.195      0.0032     0.0010     0.0010
 459.8        6.969      0.215      0.0061     0.0010     0.0010
 459.8        7.498      0.243      0.0059     0.0011     0.0011
 459.8        8.105      0.272      0.0072     0.0011     0.0011
 459.8        8.773      0.306      0.0082     0.0011     0.0011
 459.8        9.520      0.346      0.0116     0.0011     0.0012
 459.8       10.392      0.395      0.0123     0.0012     0.0012
 459.8       11.373      0.453      0.0115     0.0012     0.0012
 459.8       12.499      0.525      0.0089     0.0013     0.0013
 459.8       13.824      0.606      0.0090     0.0013     0.0013
 459.8       15.359      0.719      0.0063     0.0013     0.0013
 459.8       17.183      0.846      0.0068     0.0013     0.0013
 459.8       19.336      1.018      0.0049     0.0012     0.0012
 459.8       21.960      1.225      0.0075     0.0012     0.0012
 459.8       25.121      1.516      0.0066     0.0011     0.0011
 617.3        1.321      0.018     0.0071      0.0034     0.0034
 617.3        1.365      0.019    -0.0022      0.0040     0.0040
 617.3        1.409      0.019     0.0003      0.0032     0.0032
 617.3        1.455      0.021     0.0078      0.0031     0.0031
 617.3        1.504      0.022     0.0127      0.0032     0.0033
 617.3        1.556      0.023     0.0130      0.0032     0.0032
 617.3        1.610      0.024     0.0220      0.0035     0.0036
 617.3        1.667      0.025     0.0311      0.0036     0.0037
 617.3        1.728      0.027     0.0233      0.0037     0.0037
 617.3        1.792      0.028     0.0196      0.0031     0.0031
 617.3        1.858      0.029     0.0165      0.0028     0.0028
 617.3        1.929      0.032     0.0159      0.0028     0.0028
 617.3        2.004      0.033     0.0141      0.0029     0.0029
 617.3        2.084      0.035     0.0071      0.0027     0.0027
 617.3        2.169      0.037     0.0177      0.0029     0.0029
 617.3        2.259      0.040     0.0102      0.0028     0.0028
 617.3        2.354      0.042     0.0199      0.0030     0.0030
 617.3        2.455      0.045     0.0155      0.0032     0.0033
 617.3        2.564      0.048     0.0213      0.0029     0.0030
 617.3        2.680      0.052     0.0221      0.0032     0.0032
 617.3        2.802      0.055     0.0122      0.0030     0.0030
 617.3        2.938      0.060     0.0103      0.0032     0.0032
 617.3        3.078      0.063     0.0107      0.0026     0.0026
 617.3        3.231      0.068     0.0111      0.0027     0.0027
 617.3        3.396      0.074     0.0176      0.0027     0.0028
 617.3        3.574      0.079     0.0114      0.0026     0.0027
 617.3        3.766      0.086     0.0093      0.0024     0.0024
 617.3        3.973      0.093     0.0104      0.0023     0.0023
 617.3        4.200      0.101     0.0111      0.0023     0.0023
 617.3        4.445      0.110     0.0119      0.0024     0.0025
 617.3        4.713      0.119     0.0126      0.0021     0.0021
 617.3        5.001      0.132     0.0115      0.0021     0.0022
 617.3        5.325      0.144     0.0135      0.0020     0.0021
 617.3        5.678      0.159     0.0112      0.0021     0.0021
 617.3        6.064      0.176     0.0171      0.0022     0.0022
 617.3        6.500      0.195     0.0119      0.0022     0.0022
 617.3        6.969      0.215     0.0170      0.0023     0.0023
 617.3        7.498      0.243     0.0173      0.0020     0.0021
 617.3        8.105      0.272     0.0264      0.0026     0.0027
 617.3        8.773      0.306     0.0306      0.0024     0.0025
 617.3        9.520      0.346     0.0316      0.0023     0.0025
 617.3       10.392      0.395     0.0348      0.0026     0.0027
 617.3       11.373      0.453     0.0335      0.0026     0.0028
 617.3       12.499      0.525     0.0223      0.0025     0.0026
 617.3       13.824      0.606     0.0322      0.0031     0.0032
 617.3       15.359      0.719     0.0237      0.0027     0.0028
 617.3       17.183      0.846     0.0162      0.0026     0.0026
 617.3       19.336      1.018     0.0202      0.0027     0.0028
 617.3       21.960      1.225     0.0155      0.0027     0.0027
 617.3       25.121      1.516     0.0162      0.0023     0.0024
 918.7        1.321      0.018     0.0114      0.0020     0.0021
 918.7        1.365      0.019     0.0103      0.0021     0.0021
 918.7        1.409      0.019     0.0050      0.0019     0.0019
 918.7        1.455      0.021     0.0090      0.0021     0.0021
 918.7        1.504      0.022     0.0117      0.0020     0.0020
 918.7        1.556      0.023     0.0090      0.0018     0.0019
 918.7        1.610      0.024     0.0083      0.0019     0.0019
 918.7        1.667      0.025     0.0053      0.0018     0.0018
 918.7        1.728      0.027     0.0050      0.0017     0.0017
 918.7        1.792      0.028     0.0058      0.0017     0.0017
 918.7        1.858      0.029     0.0082      0.0018     0.0018
 918.7        1.929      0.032     0.0064      0.0018     0.0018
 918.7        2.004      0.033     0.0047      0.0017     0.0017
 918.7        2.084      0.035     0.0054      0.0017     0.0017
 918.7        2.169      0.037     0.0048      0.0017     0.0017
 918.7        2.259      0.040     0.0012      0.0017     0.0017
 918.7        2.354      0.042     0.0027      0.0017     0.0017
 918.7        2.455      0.045     0.0010      0.0017     0.0017
 918.7        2.564      0.048     0.0069      0.0018     0.0018
 918.7        2.680      0.052     0.0039      0.0019     0.0019
 918.7        2.802      0.055     0.0046      0.0019     0.0019
 918.7        2.938      0.060     0.0029      0.0019     0.0019
 918.7        3.078      0.063     0.0037      0.0017     0.0017
 918.7        3.231      0.068     0.0020      0.0017     0.0017
 918.7        3.396      0.074     0.0031      0.0018     0.0018
 918.7        3.574      0.079     0.0040      0.0017     0.0017
 918.7        3.766      0.086     0.0059      0.0017     0.0017
 918.7        3.973      0.093     0.0033      0.0016     0.0016
 918.7        4.200      0.101     0.0040      0.0016     0.0016
 918.7        4.445      0.110     0.0046      0.0016     0.0016
 918.7        4.713      0.119     0.0038      0.0015     0.0015
 918.7        5.001      0.132     0.0042      0.0015     0.0015
 918.7        5.325      0.144     0.0055      0.0015     0.0015
 918.7        5.678      0.159     0.0057      0.0015     0.0015
 918.7        6.064      0.176     0.0066      0.0015     0.0015
 918.7        6.500      0.195     0.0058      0.0015     0.0015
 918.7        6.969      0.215     0.0079      0.0015     0.0015
 918.7        7.498      0.243     0.0062      0.0015     0.0015
 918.7        8.105      0.272     0.0096      0.0016     0.0016
 918.7        8.773      0.306     0.0086      0.0015     0.0015
 918.7        9.520      0.346     0.0129      0.0017     0.0017
 918.7       10.392      0.395     0.0136      0.0017     0.0017
 918.7       11.373      0.453     0.0104      0.0018     0.0018
 918.7       12.499      0.525     0.0101      0.0018     0.0018
 918.7       13.824      0.606     0.0081      0.0018     0.0018
 918.7       15.359      0.719     0.0079      0.0019     0.0019
 918.7       17.183      0.846     0.0069      0.0018     0.0018
 918.7       19.336      1.018     0.0055      0.0018     0.0018
 918.7       21.960      1.225     0.0089      0.0017     0.0017
 918.7       25.121      1.516     0.0091      0.0016     0.0016
 924.0        1.321      0.018     0.0059      0.0022     0.0022
 924.0        1.365      0.019     0.0049      0.0020     0.0020
 924.0        1.409      0.019     0.0070      0.0021     0.0021
 924.0        1.455      0.021     0.0091      0.0023     0.0023
 924.0        1.504      0.022     0.0069      0.0020     0.0020
 924.0        1.556      0.023     0.0066      0.0019     0.0019
 924.0        1.610      0.024     0.0093      0.0019     0.0019
 924.0        1.667      0.025     0.0061      0.0020     0.0020
 924.0        1.728      0.027     0.0075      0.0018     0.0018
 924.0        1.792      0.028     0.0036      0.0017     0.0017
 924.0        1.858      0.029     0.0026      0.0019     0.0019
 924.0        1.929      0.032     0.0029      0.0018     0.0018
 924.0        2.004      0.033    -0.0035      0.0016     0.0016
 924.0        2.084      0.035     0.0020      0.0017     0.0017
 924.0        2.169      0.037     0.0010      0.0017     0.0017
 924.0        2.259      0.040    -0.0016      0.0016     0.0016
 924.0        2.354      0.042    -0.0022      0.0016     0.0016
 924.0        2.455      0.045     0.0016      0.0017     0.0017
 924.0        2.564      0.048    -0.0023      0.0017     0.0017
 924.0        2.680      0.052    -0.0006      0.0018     0.0018
 924.0        2.802      0.055     0.0044      0.0019     0.0018
 924.0        2.938      0.060     0.0032      0.0018     0.0018
 924.0        3.078      0.063     0.0030      0.0017     0.0017
 924.0        3.231      0.068     0.0041      0.0017     0.0017
 924.0        3.396      0.074    -0.0024      0.0017     0.0017
 924.0        3.574      0.079     0.0064      0.0017     0.0017
 924.0        3.766      0.086     0.0035      0.0016     0.0016
 924.0        3.973      0.093     0.0014      0.0016     0.0016
 924.0        4.200      0.101     0.0007      0.0015     0.0015
 924.0        4.445      0.110     0.0044      0.0016     0.0016
 924.0        4.713      0.119     0.0018      0.0015     0.0015
 924.0        5.001      0.132     0.0017      0.0015     0.0015
 924.0        5.325      0.144    -0.0013      0.0015     0.0015
 924.0        5.678      0.159     0.0018      0.0014     0.0014
 924.0        6.064      0.176     0.0003      0.0015     0.0015
 924.0        6.500      0.195     0.0026      0.0015     0.0015
 924.0        6.969      0.215     0.0013      0.0015     0.0015
 924.0        7.498      0.243     0.0062      0.0015     0.0015
 924.0        8.105      0.272     0.0071      0.0016     0.0016
 924.0        8.773      0.306     0.0138      0.0017     0.0016
 924.0        9.520      0.346     0.0118      0.0017     0.0017
 924.0       10.392      0.395     0.0142      0.0017     0.0016
 924.0       11.373      0.453     0.0160      0.0019     0.0018
 924.0       12.499      0.525     0.0152      0.0019     0.0019
 924.0       13.824      0.606     0.0135      0.0019     0.0019
 924.0       15.359      0.719     0.0084      0.0019     0.0019
 924.0       17.183      0.846     0.0054      0.0019     0.0019
 924.0       19.336      1.018     0.0077      0.0018     0.0018
 924.0       21.960      1.225     0.0089      0.0017     0.0017
 924.0       25.121      1.516     0.0080      0.0016     0.0016
 936.6        1.321      0.018    -0.0038      0.0021     0.0021
 936.6        1.365      0.019     0.0015      0.0020     0.0020
 936.6        1.409      0.019     0.0004      0.0021     0.0021
 936.6        1.455      0.021     0.0008      0.0022     0.0022
 936.6        1.504      0.022    -0.0005      0.0019     0.0019
 936.6        1.556      0.023     0.0000      0.0019     0.0019
 936.6        1.610      0.024     0.0001      0.0018     0.0018
 936.6        1.667      0.025     0.0006      0.0020     0.0020
 936.6        1.728      0.027     0.0001      0.0018     0.0018
 936.6        1.792      0.028     0.0006      0.0017     0.0017
 936.6        1.858      0.029    -0.0043      0.0018     0.0018
 936.6        1.929      0.032     0.0004      0.0018     0.0018
 936.6        2.004      0.033    -0.0029      0.0017     0.0017
 936.6        2.084      0.035     0.0002      0.0017     0.0017
 936.6        2.169      0.037    -0.0043      0.0016     0.0016
 936.6        2.259      0.040    -0.0043      0.0016     0.0016
 936.6        2.354      0.042     0.0023      0.0016     0.0016
 936.6        2.455      0.045     0.0006      0.0017     0.0017
 936.6        2.564      0.048    -0.0014      0.0017     0.0017
 936.6        2.680      0.052    -0.0037      0.0018     0.0018
 936.6        2.802      0.055     0.0005      0.0018     0.0018
 936.6        2.938      0.060    -0.0046      0.0018     0.0018
 936.6        3.078      0.063    -0.0002      0.0017     0.0017
 936.6        3.231      0.068    -0.0014      0.0017     0.0017
 936.6        3.396      0.074    -0.0028      0.0017     0.0017
 936.6        3.574      0.079     0.0007      0.0017     0.0017
 936.6        3.766      0.086     0.0020      0.0016     0.0016
 936.6        3.973      0.093     0.0003      0.0016     0.0016
 936.6        4.200      0.101    -0.0025      0.0015     0.0015
 936.6        4.445      0.110     0.0001      0.0016     0.0016
 936.6        4.713      0.119    -0.0021      0.0015     0.0015
 936.6        5.001      0.132    -0.0008      0.0015     0.0015
 936.6        5.325      0.144    -0.0010      0.0015     0.0015
 936.6        5.678      0.159    -0.0004      0.0015     0.0015
 936.6        6.064      0.176    -0.0012      0.0012     0.0012
 936.6        6.500      0.195     0.0013      0.0013     0.0013
 936.6        6.969      0.215     0.0016      0.0013     0.0013
 936.6        7.498      0.243     0.0105      0.0014     0.0013
 936.6        8.105      0.272     0.0199      0.0016     0.0015
 936.6        8.773      0.306     0.0290      0.0018     0.0016
 936.6        9.520      0.346     0.0345      0.0020     0.0018
 936.6       10.392      0.395     0.0377      0.0021     0.0018
 936.6       11.373      0.453     0.0471      0.0025     0.0021
 936.6       12.499      0.525     0.0387      0.0024     0.0021
 936.6       13.824      0.606     0.0272      0.0021     0.0019
 936.6       15.359      0.719     0.0245      0.0020     0.0019
 936.6       17.183      0.846     0.0216      0.0020     0.0020
 936.6       19.336      1.018     0.0198      0.0019     0.0019
 936.6       21.960      1.225     0.0244      0.0020     0.0019
 936.6       25.121      1.516     0.0220      0.0019     0.0018
 962.8        1.321      0.018     0.0006      0.0006     0.0006
 962.8        1.365      0.019     0.0014      0.0006     0.0005
 962.8        1.409      0.019     0.0009      0.0005     0.0005
 962.8        1.455      0.021     0.0012      0.0005     0.0005
 962.8        1.504      0.022     0.0017      0.0005     0.0005
 962.8        1.556      0.023     0.0010      0.0005     0.0005
 962.8        1.610      0.024     0.0004      0.0005     0.0005
 962.8        1.667      0.025     0.0014      0.0005     0.0005
 962.8        1.728      0.027     0.0007      0.0005     0.0005
 962.8        1.792      0.028     0.0011      0.0004     0.0004
 962.8        1.858      0.029     0.0003      0.0005     0.0005
 962.8        1.929      0.032     0.0017      0.0004     0.0004
 962.8        2.004      0.033     0.0010      0.0005     0.0005
 962.8        2.084      0.035     0.0004      0.0004     0.0004
 962.8        2.169      0.037     0.0009      0.0004     0.0004
 962.8        2.259      0.040     0.0010      0.0004     0.0004
 962.8        2.354      0.042     0.0012      0.0004     0.0004
 962.8        2.455      0.045     0.0009      0.0004     0.0004
 962.8        2.564      0.048     0.0014      0.0005     0.0005
 962.8        2.680      0.052     0.0015      0.0005     0.0005
 962.8        2.802      0.055     0.0012      0.0005     0.0005
 962.8        2.938      0.060     0.0012      0.0005     0.0005
 962.8        3.078      0.063     0.0023      0.0005     0.0005
 962.8        3.231      0.068     0.0012      0.0005     0.0005
 962.8        3.396      0.074     0.0014      0.0005     0.0005
 962.8        3.574      0.079     0.0015      0.0005     0.0005
 962.8        3.766      0.086     0.0002      0.0005     0.0005
 962.8        3.973      0.093     0.0013      0.0004     0.0004
 962.8        4.200      0.101     0.0021      0.0004     0.0004
 962.8        4.445      0.110     0.0015      0.0004     0.0004
 962.8        4.713      0.119     0.0008      0.0004     0.0004
 962.8        5.001      0.132     0.0008      0.0004     0.0004
 962.8        5.325      0.144     0.0008      0.0004     0.0004
 962.8        5.678      0.159     0.0009      0.0004     0.0004
 962.8        6.064      0.176     0.0008      0.0004     0.0004
 962.8        6.500      0.195     0.0005      0.0004     0.0004
 962.8        6.969      0.215     0.0015      0.0004     0.0004
 962.8        7.498      0.243     0.0010      0.0005     0.0005
 962.8        8.105      0.272     0.0008      0.0005     0.0005
 962.8        8.773      0.306     0.0004      0.0004     0.0004
 962.8        9.520      0.346     0.0011      0.0005     0.0005
 962.8       10.392      0.395     0.0014      0.0005     0.0005
 962.8       11.373      0.453     0.0032      0.0005     0.0005
 962.8       12.499      0.525     0.0020      0.0005     0.0005
 962.8       13.824      0.606     0.0023      0.0005     0.0005
 962.8       15.359      0.719     0.0012      0.0005     0.0005
 962.8       17.183      0.846     0.0010      0.0005     0.0005
 962.8       19.336      1.018     0.0012      0.0005     0.0005
 962.8       21.960      1.225     0.0013      0.0005     0.0005
 962.8       25.121      1.516     0.0013      0.0005     0.0005
ENDDATA            402
ENDSUBENT          408
ENDENTRY             2
"

/-- the lines of `x4i3/tests/data/db/141/14129.x4` -/
def file14129 : List Str := linesOf "ENTRY            14129   20070404   20070719   20070713       1343
SUBENT        14129001   20070404   20070719   20070713       1343
BIB                 12         20
INSTITUTE  (1USALAS,1USALRL)
REFERENCE  (J,NSTS,2,(1),620,2002)
AUTHOR     (J.A.Becker,L.A.Bernstein,W.Younes,D.P.McNabb,
            P.E.Garrett,D.E.Archer,C.A.McGrath,M.A.Stoyer,H.Chen,
            W.E.Ormand,R.O.Nelson,M.B.Chadwick,G.D.Johns,D.Drake,
            P.G.Young,M.Devlin,N.Fotiades,W.S.Wilburn)
TITLE      Partial gamma-ray cross sections for the reaction
           239Pu(n,2ng) and the 239Pu(n,2n) cross section
FACILITY   (ACCEL,1USALAS) LANSCE accelerator at Los Alamos
INC-SPECT  WNR center, spallation target, Flight path 60R, 20.34 m
DETECTOR   (GE) GEANIE detector, 4pi Germanium
SAMPLE     High enriched 239Pu target, low 241Am contaminant (
            1.2 +/- 0.5 ppm)
METHOD     (TOF)
           Partial reaction measured. Total (n,2n) reconstructed
            with GNASH calculations
ANALYSIS   Preliminary Results
MONITOR    238U and 235U fission chamber used as neutron flux
            monitor
HISTORY    (20070404C) DR
ENDBIB              20
NOCOMMON             0          0
ENDSUBENT           23
SUBENT        14129002   20070404   20070719   20070713       1343
BIB                  3          3
REACTION   (94-PU-239(N,2N)94-PU-238,,SIG)
ERR-ANALYS (ERR-T) Total uncertainties
STATUS     (CURVE) Data taken from Fig. 2
ENDBIB               3
NOCOMMON             0          0
DATA                 4         13
EN         EN-ERR     DATA       ERR-T
MEV        MEV        B          B
  6.481E+00  2.239E-01  1.009E-01  3.081E-02
  6.942E+00  1.894E-01  1.261E-01  2.015E-02
  7.490E+00  2.412E-01  1.525E-01  1.422E-02
  8.084E+00  2.582E-01  2.263E-01  1.540E-02
  8.751E+00  2.930E-01  2.669E-01  1.659E-02
  9.504E+00  3.446E-01  3.029E-01  1.659E-02
  1.034E+01  3.961E-01  3.508E-01  2.014E-02
  1.134E+01  4.307E-01  3.561E-01  2.015E-02
  1.245E+01  5.340E-01  2.951E-01  1.776E-02
  1.377E+01  6.030E-01  2.284E-01  1.539E-02
  1.533E+01  7.231E-01  1.558E-01  1.540E-02
  1.719E+01  8.438E-01  1.178E-01  8.262E-03
  1.934E+01  1.068E+00  1.025E-01  7.097E-03
ENDDATA             15
ENDSUBENT           23
ENDENTRY             2
"

/-- the lines of `x4i3/tests/data/db/219/21971.x4` -/
def file21971 : List Str := linesOf "ENTRY            21971     860206              20050926       0000
SUBENT        21971001     860206              20050926       0000
BIB                 13         18
INSTITUTE  (2FR BRC)
REFERENCE  ((J,RE,96,219,1986)=(C,85SANTA,2,1561,1985))
AUTHOR     (J.FREHAUT,A.BERTIN,R.BLOIS,E.GRYNTAKIS,
            C.A.PHILIS)
TITLE      (N,2N) CROSS SECTIONS OF 2-H AND 239-PU
FACILITY   (VDG)
INC-SOURCE .NO INFORMATION
METHOD     .NOT GIVEN
DETECTOR   (STANK)LARGE GADOLINIUM LOADED LIQUID SCIN.
MONITOR    .DETECTOR EFFICIENCY WAS CALIBRATED USING A  252-CF
            SOURCE ASSUMING A VALUE OF NU=3.732. THIS VALUE WAS
            MULTIPLIED BY A CORRECTION FACTOR RANGING FROM 0.92
            TO 0.85 DPENDING ON ENERGY
STATUS     .DATA TAKEN FROM PAPER RECIEVED FROM AUTHOR
HISTORY    (850923C)HH.
           (860106E)
CORRECTION .NO INFORMATION
ERR-ANALYS .NO INFORMATION
ENDBIB              18
NOCOMMON             0          0
ENDSUBENT           21
SUBENT        21971002     860106              20050926       0000
BIB                  3          4
REACTION   (1-H-2(N,2N)1-H-1,,SIG)
SAMPLE     .1.5 GRAMM OF DEUTERATED POLYETYLENE POWDER
HISTORY    (850923C)HH.
           (860106E)
ENDBIB               4
NOCOMMON             0          0
DATA                 4         16
EN         EN-ERR     DATA       DATA-ERR
MEV        MEV        MB         MB
 7.4100E+00 1.6500E-01 1.0200E+02 1.7000E+01
 7.9300E+00 1.5000E-01 1.3100E+02 1.5000E+01
 8.4400E+00 1.3500E-01 1.2100E+02 1.3000E+01
 8.9400E+00 1.2500E-01 1.3100E+02 1.0000E+01
 9.4400E+00 1.1500E-01 1.4200E+02 1.1000E+01
 9.9300E+00 1.1000E-01 1.1400E+02 1.0000E+01
 1.0420E+01 1.0000E-01 1.3500E+02 1.9000E+01
 1.0910E+01 9.5000E-02 1.3900E+02 1.0000E+01
 1.1400E+01 9.0000E-02 1.5900E+02 1.0000E+01
 1.1880E+01 8.5000E-02 1.4500E+02 1.0000E+01
 1.2360E+01 8.5000E-02 1.5300E+02 1.3000E+01
 1.2850E+01 8.0000E-02 1.6400E+02 1.4000E+01
 1.3330E+01 7.5000E-02 1.6300E+02 1.4000E+01
 1.3800E+01 7.5000E-02 1.7300E+02 1.4000E+01
 1.4280E+01 7.0000E-02 1.6600E+02 1.4000E+01
 1.4760E+01 6.5000E-02 1.8000E+02 1.4000E+01
ENDDATA             18
ENDSUBENT           27
SUBENT        21971003     860106              20050926       0000
BIB                  3          4
REACTION   (94-PU-239(N,2N)94-PU-238,,SIG)
SAMPLE     .15.5 GRAMM OF 99.87 PER CENT ENRICHED PU-239
HISTORY    (850923C)HH.
           (860106E)
ENDBIB               4
NOCOMMON             0          0
DATA                 4         14
EN         EN-ERR     DATA       DATA-ERR
MEV        MEV        MB         MB
 6.4900E+00 8.5000E-02 2.4000E+01 6.3000E+01
 7.0100E+00 8.0000E-02 4.9000E+01 5.0000E+01
 7.5200E+00 7.5000E-02 5.4000E+01 5.8000E+01
 8.0300E+00 7.5000E-02 1.7700E+02 7.0000E+01
 8.5400E+00 7.0000E-02 2.7500E+02 5.4000E+01
 9.0400E+00 6.5000E-02 2.4900E+02 4.1000E+01
 9.5500E+00 6.5000E-02 3.5400E+02 5.6000E+01
 1.0060E+01 6.0000E-02 4.1500E+02 3.9000E+01
 1.0560E+01 6.0000E-02 4.1100E+02 7.0000E+01
 1.1070E+01 5.5000E-02 3.5600E+02 7.9000E+01
 1.1570E+01 5.5000E-02 4.1800E+02 4.9000E+01
 1.2080E+01 5.5000E-02 4.5500E+02 7.6000E+01
 1.2580E+01 5.0000E-02 3.1800E+02 1.3200E+02
 1.3090E+01 5.0000E-02 5.8800E+02 1.4800E+02
ENDDATA             16
ENDSUBENT           25
ENDENTRY             3
"

/-- the lines of `x4i3/tests/data/db/207/20795.x4` -/
def file20795 : List Str := linesOf "ENTRY            20795     840207              20050926       0000
SUBENT        20795001     840207              20050926       0000
BIB                 13         52
INSTITUTE  (2UK ALD)
REFERENCE  (R,AWRE-O-72/72,,7211) SAME AS EANDC(UK)142-AL
           (R,AWRE-O-47/69,,6908) FOR DETECTOR DESCRIPTION
AUTHOR     (D.S.MATHER,P.F.BAMPTON,R.E.COLES,G.JAMES,P.J.NIND)
TITLE      -MEASUREMENT OF (N,2N) CROSS SECTIONS FOR INCIDENT
            ENERGIES BETWEEN 6 AND 14 MEV-.
FACILITY   (VDG  ) 6MV VAN DE GRAAFF. 1 MICRO-SEC PULSES AT
            9KHZ BY A TOP TERMINAL PULSER.
INC-SOURCE (D-T  ) FOR 14.3 MEV MEASUREMENTS NEUTRONS WERE
            PRODUCED BY THE T(D,N) REACTION ON A 2.5MG/CM*2
            THICK TI-T TARGET WITH 2 MEV DEUTERONS AND A
            COLLIMATOR ANGLE OF 97 DEG TO THE FORWARD DIRECTION
            ENERGY SPREAD ABOUT 200 KEV.
              FOR 12.4 MEV NEUTRONS THE COLLIMATOR WAS TURNED
            TO 145 DEGREES, AND 3.5MEV DEUTERONS. EFFECTIVE
            TARGET THICKNESS WAS 12.5 MG/CM*2 GIVING A NEUTRON
            SPECTRUM BETWEEN 12.35 AND 12.52 MEV,MEAN 12.4MEV
           (D-D  ) FOR 6 TO 9MEV NEUTRONS THE D(D,N) REACTION
            AND A DEUTERIUM GAS CELL WERE USED. COLLIMATOR AT
            5 DEGREES AND 2MM APERTURE. THE 3.2 MG/CM*2 MO
            WINDOW TO THE GAS CELL ACCOUTED FOR 140 TO 180KEV
            LOSS IN NEUTRON ENERGY. NEUTRON ENERGY SPREAD OF
            60 TO 100KEV.
METHOD     .THE NUMBER OF 20 MICRO-SEC GATES AFTER A NEUTRON
            PULSE CONTAINING 2 OR 3 PULSES FROM NEUTRON
            CAPTURE IN THE SCINTILLATOR.
DETECTOR   (STANK) LARGE LOADED LIQUID SCINTILLATOR DESCRIBED
            IN PR/B 133 1403 1964
PART-DET   (N    ) NEUTRONS DETECTED IN LARGE LOADED LIQ SCIN
STATUS     .FROM TABLES IN AWRE O72/72
HISTORY    (781013C) PDJ. RECOMPILED FROM NEUDADA.
           (790219E)
CORRECTION .CORRECTION DESCRIBED IN DETAIL IN AWRE-O47/69.
            SAMPLE COMPOSITION AND IMPURITIES.
            NEUTRON FLUX ATTENUATION IN SAMPLE AND THE U-238
            MONITOR BLOCK
            PRESENCE OF LOWER ENERGY NEUTRONS IN INCIDENT BEAM
            MULTIPLE EVENTS IN BEAM BURST, DOUBLE FISSIONS
            THE EFFECT OF NEUTRON ENERGY SPREAD ON STANDARD
            FISSION CROSS SECTIONS.
            LOSS OF SECONDARY NEUTRONS IN THE SAMPLE.
            NON-UNIFORM ENERGY RESPONSE OF THE LIQUID SCINT.
            MULTIPLE EVENTS IN BEAM BURST, NEUTRON PULSES
            FINITE SIZE OF SAMPLE
            CHANGE IN COUNTER EFFICIENCY WITH SAMPLE (LT 0.2PC)
            REACTIONS IN SAMPLE HOLDERS
            PRODUCTION OF (N,2N) EVENTS IN STEEL TUBES.
            LOSS OF NEUTRONS THROUGH AXIAL HOLE.
ERR-ANALYS .ERROR CONTRIBUTIONS FROM NEUTRON FISSION
            MULTIPLICITIES WERE INCLUDED WITH COUNTING
            STATISTICAL UNCERTAINTIES.TOTAL ERROR QUOTED IS
            ONE STANDARD DEVIATION.
ENDBIB              52
NOCOMMON             0          0
ENDSUBENT           55
SUBENT        20795002     840207              20050926       0000
BIB                  6          7
REACTION   (21-SC-45(N,2N)21-SC-44,,SIG)
SAMPLE     .SC2O3 CLAD IN 0.25MM ALUMINIUM. 99.9 PERCENT OXIDE.
MONITOR    (92-U-238(N,F),,SIG) 978MB+-5PERCENT AT 12.4MEV
STATUS     .TABLE 4.
HISTORY    (781013C) PDJ.
           (790219E)
CORRECTION .TOTAL CORRECTION +19MB
ENDBIB               7
NOCOMMON             0          0
DATA                 5          1
EN         DATA       DATA-ERR   MONIT      MONIT-ERR
MEV        MB         MB         MB         MB
 1.2400E+01 4.9000E+01 1.3000E+01 9.7800E+02 4.9000E+01
ENDDATA              3
ENDSUBENT           15
SUBENT        20795003     840207              20050926       0000
BIB                  6          7
REACTION   (39-Y-89(N,2N)39-Y-88,,SIG)
SAMPLE     .POWDER CLAD IN 0.25MM ALUMINIUM.PURITY 99.5 PERCENT
MONITOR    (92-U-238(N,F),,SIG)  978MB+-5PERCENT.
STATUS     .TABLE 4.
HISTORY    (781013C) PDJ.
           (790219E)
CORRECTION .TOTAL CORRECTION +15MB
ENDBIB               7
NOCOMMON             0          0
DATA                 5          1
EN         DATA       DATA-ERR   MONIT      MONIT-ERR
MEV        MB         MB         MB         MB
 1.2400E+01 2.3100E+02 3.2000E+01 9.7800E+02 4.9000E+01
ENDDATA              3
ENDSUBENT           15
SUBENT        20795004     840207              20050926       0000
BIB                  6          8
REACTION   (41-NB-93(N,2N)41-NB-92,,SIG)
SAMPLE     .POWDER CLAD IN 0.25MM ALUMINIUM. PURITY 99.9 PCENT
MONITOR    (92-U-238(N,F),,SIG) 1169MB+-2PERCENT AT 14.3MEV
                                 978MB+-5PERCENT AT 12.4MEV
STATUS     .TABLE 3 AND 4
HISTORY    (781013C) PDJ.
           (790219E)
CORRECTION .TOTAL CORRECTION +180MB AT 14.3MEV,+96MB AT 12.4MEV
ENDBIB               8
NOCOMMON             0          0
DATA                 5          2
EN         DATA       DATA-ERR   MONIT      MONIT-ERR
MEV        MB         MB         MB         MB
 1.2400E+01 9.7700E+02 7.9000E+01 9.7800E+02 4.9000E+01
 1.4300E+01 1.3120E+03 8.3000E+01 1.1690E+03 2.3000E+01
ENDDATA              4
ENDSUBENT           17
SUBENT        20795005     840207              20050926       0000
BIB                  6         13
REACTION   (42-MO-0(N,2N),,SIG) AT 14.3 MEV THE VALUE
            GIVEN IS THE WEIGHTED MEAN OF MEASUREMENTS ON
            POWDER (1257+-99MB) AND INGOT (1338+-111MB)
SAMPLE     .POWDER CLAD IN ALUMINIUM AND UNCLAD INGOT.
            BOTH 99.99 PERCENT,NATURAL ISOTOPIC MIXTURE.
MONITOR    (92-U-238(N,F),,SIG)  1169MB+-2PERCENT AT 14.3MEV
                                  978MB+-5PERCENT AT 12.4MEV
STATUS     .TABLES 3 AND 4.
HISTORY    (781013C) PDJ.
           (790219E)
CORRECTION .TOTAL CORRECTIONS  +173MB POWDER 14.3MEV
                               +135MB INGOT  14.3MEV
                               +54 MB        12.4MEV
ENDBIB              13
NOCOMMON             0          0
DATA                 5          2
EN         DATA       DATA-ERR   MONIT      MONIT-ERR
MEV        MB         MB         MB         MB
 1.2400E+01 9.9400E+02 8.9000E+01 9.7800E+02 4.9000E+01
 1.4300E+01 1.2960E+03 8.2000E+01 1.1690E+03 2.3000E+01
ENDDATA              4
ENDSUBENT           22
SUBENT        20795006     840207              20050926       0000
BIB                  6         10
REACTION   (45-RH-103(N,2N)45-RH-102,,SIG)
SAMPLE     .POWDER CLAD IN 0.25MM ALUMINIUM.CHEMICAL PURITY
            99.99 PERCENT.
MONITOR    (92-U-238(N,F),,SIG)   978MB+-5PERCENT AT 12.4MEV
                                 1169MB+-2PERCENT AT 14.3MEV
STATUS     .TABLES 3 AND 4.
HISTORY    (781013C) PDJ.
           (790219E)
CORRECTION .TOTAL CORRECTION  +71MB AT 12.4 MEV
                              +202MB AT 14.3 MEV
ENDBIB              10
NOCOMMON             0          0
DATA                 5          2
EN         DATA       DATA-ERR   MONIT      MONIT-ERR
MEV        MB         MB         MB         MB
 1.2400E+01 1.1580E+03 8.9000E+01 9.7800E+02 4.9000E+01
 1.4300E+01 1.5130E+03 9.1000E+01 1.1690E+03 2.3000E+01
ENDDATA              4
ENDSUBENT           19
SUBENT        20795007     840207              20050926       0000
BIB                  6          9
REACTION   (69-TM-169(N,2N)69-TM-168,,SIG)
SAMPLE     .TM203 CLAD IN ALUMINIUM. 99.9 PERCENT OXIDE.
MONITOR    (92-U-238(N,F),,SIG)   978MB+-5PERCENT AT 12.4MEV
                                 1169MB+-2PERCENT AT 14.3MEV
STATUS     .TABLES 3 AND 4.
HISTORY    (781013C) PDJ.
           (790219E)
CORRECTION .TOTAL CORRECTION   +317MB AT 12.4 MEV
                               +311MB AT 14.3 MEV
ENDBIB               9
NOCOMMON             0          0
DATA                 5          2
EN         DATA       DATA-ERR   MONIT      MONIT-ERR
MEV        MB         MB         MB         MB
 1.2400E+01 1.6920E+03 1.4600E+02 9.7800E+02 4.9000E+01
 1.4300E+01 2.1180E+03 1.5300E+02 1.1690E+03 2.3000E+01
ENDDATA              4
ENDSUBENT           18
SUBENT        20795008     840207              20050926       0000
BIB                  6          9
REACTION   (79-AU-197(N,2N)79-AU-196,,SIG)
SAMPLE     .METAL,PURITY 99.99 PERCENT.
MONITOR    (92-U-238(N,F),,SIG)   978MB+-5PERCENT AT 12.4MEV
                                 1169MB+-2PERCENT AT 14.3MEV
STATUS     .TABLES 3 AND 4.
HISTORY    (781013C) PDJ.
           (790219E)
CORRECTION .TOTAL CORRECTION   +256MB AT 12.4 MEV
                               +441MB AT 14.3 MEV
ENDBIB               9
NOCOMMON             0          0
DATA                 5          2
EN         DATA       DATA-ERR   MONIT      MONIT-ERR
MEV        MB         MB         MB         MB
 1.2400E+01 1.8280E+03 1.7700E+02 9.7800E+02 4.9000E+01
 1.4300E+01 2.5780E+03 1.7000E+02 1.1690E+03 2.3000E+01
ENDDATA              4
ENDSUBENT           18
SUBENT        20795009     840207              20050926       0000
BIB                  6          7
REACTION   (82-PB-0(N,2N),,SIG)
SAMPLE     .METAL,NATURAL ISOTOPIC COMPOSITION.
MONITOR    (92-U-238(N,F),,SIG)  978MB+-5PERCENT AT 12.4MEV.
STATUS     .TABLE 4.
HISTORY    (781013C) PDJ.
           (790219E)
CORRECTION .TOTAL CORRECTION  -25MB
ENDBIB               7
NOCOMMON             0          0
DATA                 5          1
EN         DATA       DATA-ERR   MONIT      MONIT-ERR
MEV        MB         MB         MB         MB
 1.2400E+01 1.7350E+03 1.6200E+02 9.7800E+02 4.9000E+01
ENDDATA              3
ENDSUBENT           15
SUBENT        20795010     840207              20050926       0000
BIB                  6         18
REACTION   (92-U-235(N,2N)92-U-234,,SIG)
SAMPLE     .METAL. COMPOSITION  93.2 PERCENT U-235
                                 6.8 PERCENT U-238
MONITOR    (92-U-238(N,F),,SIG)   887MB+-5.5PERCENT AT 7.1MEV
                                  956MB+-5.5PERCENT AT 8.0MEV
                                  978MB+-5  PERCENT AT 12.4MEV
                                 1142MB+-2  PERCENT AT 14.1MEV
STATUS     .TABLE 7.
HISTORY    (781015C) PDJ.
           (790219E)
CORRECTION .FISSION EVENTS OF MULTIPLICITY 2 AND 3 ARE
            SUBTRACTED, THESE ARE DETERMINED WITH FISSION
            CHAMBER. A CHECK WAS ALSO MADE WITH THE RESULTS
            OF THE WORK OF SOLEILHAC ON FISSION MULTIPLICITIES.
              TOTAL CORRECTION   +7MB AT 7.1MEV
                                +14MB AT 8.0MEV
                                +46MB AT 12.4MEV
                                -19MB AT 14.1MEV
ENDBIB              18
NOCOMMON             0          0
DATA                 5          4
EN         DATA       DATA-ERR   MONIT      MONIT-ERR
MEV        MB         MB         MB         MB
 7.1000E+00 4.8100E+02 3.9000E+01 8.8700E+02 4.9000E+01
 8.0000E+00 5.4800E+02 5.3000E+01 9.5600E+02 5.3000E+01
 1.2400E+01 6.8800E+02 6.8000E+01 9.7800E+02 4.9000E+01
 1.4100E+01 1.6500E+02 3.7000E+01 1.1420E+03 2.3000E+01
ENDDATA              6
ENDSUBENT           29
SUBENT        20795011     840207              20050926       0000
BIB                  6         14
REACTION   (92-U-235(N,3N)92-U-233,,SIG)
SAMPLE     .METAL. COMPOSITION  93.2 PERCENT U-235
                                 6.8 PERCENT U-238
              TOTAL CORRECTION   +2MB AT 12.4MEV
                                 -2MB AT 14.1MEV
MONITOR    (92-U-238(N,F),,SIG)   978MB+-5 PERCENT AT 12.4MEV
                                 1142MB+-2 PERCENT AT 14.1MEV
STATUS     .TABLE 7.
HISTORY    (781015C) PDJ.
           (790219E)
CORRECTION .FISSION EVENTS OF MULTIPLICITY 2 AND 3 ARE
            SUBTRACTED, THESE ARE DETERMINED WITH FISSION
            CHAMBER. A CHECK WAS ALSO MADE WITH THE RESULTS
            OF THE WORK OF SOLEILHAC ON FISSION MULTIPLICITIES.
ENDBIB              14
NOCOMMON             0          0
DATA                 5          2
EN         DATA       DATA-ERR   MONIT      MONIT-ERR
MEV        MB         MB         MB         MB
 1.2400E+01 2.3000E+01 6.2000E+01 9.7800E+02 4.9000E+01
 1.4100E+01 1.1400E+02 2.1000E+01 1.1420E+03 2.3000E+01
ENDDATA              4
ENDSUBENT           23
SUBENT        20795012     840207              20050926       0000
BIB                  6         16
REACTION   (92-U-238(N,2N)92-U-237,,SIG)
SAMPLE     .METAL. COMPOSITION  99.5PERCENT U-238
                                 0.49PERCENT U-235
MONITOR    (92-U-238(N,F),,SIG)   874MB+-5.5PERCENT AT 7.0MEV
                                  956MB+-5.5PERCENT AT 8.0MEV
                                  978MB+-5.50PERCENT AT 12.4MEV
STATUS     .TABLE 8.
HISTORY    (781015C) PDJ.
           (790219E)
CORRECTION .FISSION EVENTS OF MULTIPLICITY 2 AND 3 ARE
            SUBTRACTED, THESE ARE DETERMINED WITH FISSION
            CHAMBER. A CHECK WAS ALSO MADE WITH THE RESULTS
            OF THE WORK OF SOLEILHAC ON FISSION MULTIPLICITIES.
              TOTAL CORRECTION   -30MB AT 7.0MEV
                                 -25MB AT 8.0MEV
                                  -1MB AT 12.4MEV
ENDBIB              16
NOCOMMON             0          0
DATA                 5          3
EN         DATA       DATA-ERR   MONIT      MONIT-ERR
MEV        MB         MB         MB         MB
 7.0000E+00 4.1400E+02 3.4000E+01 8.7400E+02 4.8000E+01
 8.0000E+00 9.6900E+02 6.6000E+01 9.5600E+02 5.3000E+01
 1.2400E+01 8.4600E+02 8.3000E+01 9.7800E+02 4.9000E+01
ENDDATA              5
ENDSUBENT           26
SUBENT        20795013     840207              20050926       0000
BIB                  6         12
REACTION   (92-U-238(N,3N)92-U-236,,SIG)
SAMPLE     .METAL. COMPOSITION  99.5 PERCENT U-238
                                 0.49PERCENT U-235
MONITOR    (92-U-238(N,F),,SIG)  978MB+-5 PERCENT AT 12.4MEV
STATUS     .TABLE 8.
HISTORY    (781015C) PDJ.
           (790219E)
CORRECTION .FISSION EVENTS OF MULTIPLICITY 2 AND 3 ARE
            SUBTRACTED, THESE ARE DETERMINED WITH FISSION
            CHAMBER. A CHECK WAS ALSO MADE WITH THE RESULTS
            OF THE WORK OF SOLEILHAC ON FISSION MULTIPLICITIES.
              TOTAL CORRECTION  +1MB AT 12.4MEV
ENDBIB              12
NOCOMMON             0          0
DATA                 5          1
EN         DATA       DATA-ERR   MONIT      MONIT-ERR
MEV        MB         MB         MB         MB
 1.2400E+01 8.9000E+01 3.0000E+01 9.7800E+02 4.9000E+01
ENDDATA              3
ENDSUBENT           20
SUBENT        20795014     840207              20050926       0000
BIB                  6         20
REACTION   (94-PU-239(N,2N)94-PU-238,,SIG)
SAMPLE     .METAL CLAD IN 0.25 MM ALUMINIUM
            COMPOSITION   4 PERCENT AL ALLOY
                        99.4 PERCENT PU-239
                         0.6 PERCENT PU-240
MONITOR    (94-PU-239(N,F),,SIG)  1917MB+-8PERCENT  AT 6.5MEV
                                  2030MB+-8.5PERCENT AT 7.1MEV
                                  2213MB+-9PERCENT   AT 8.0MEV
                                  2252MB+-9.5PERCENT AT 9.0MEV
STATUS     .TABLE 6.
HISTORY    (781015C) PDJ.
           (790219E)
CORRECTION .FISSION EVENTS OF MULTIPLICITY 2 AND 3 ARE
            SUBTRACTED, THESE ARE DETERMINED WITH FISSION
            CHAMBER. A CHECK WAS ALSO MADE WITH THE RESULTS
            OF THE WORK OF SOLEILHAC ON FISSION MULTIPLICITIES.
              TOTAL CORRECTIONS  -5  MB AT 6.5MEV
                                 -11 MB AT 7.1MEV
                                 -1  MB AT 8.0MEV
                                 -11 MB AT 9.0MEV
ENDBIB              20
NOCOMMON             0          0
DATA                 5          4
EN         DATA       DATA-ERR   MONIT      MONIT-ERR
MEV        MB         MB         MB         MB
 6.5000E+00 4.1900E+02 5.3000E+01 1.9170E+03 1.4400E+02
 7.1000E+00 4.5100E+02 6.0000E+01 2.0300E+03 1.7200E+02
 8.0000E+00 4.9000E+02 5.7000E+01 2.2130E+03 2.0000E+02
 9.0000E+00 5.1000E+02 9.0000E+01 2.2520E+03 2.1500E+02
ENDDATA              6
ENDSUBENT           31
SUBENT        20795015     840207              20050926       0000
BIB                  6         14
REACTION   (94-PU-239(N,2N)94-PU-238,,SIG)
SAMPLE     .METAL CLAD IN 0.25 MM ALUMINIUM
            COMPOSITION   4 PERCENT AL ALLOY
                        99.4 PERCENT PU-239
                         0.6 PERCENT PU-240
MONITOR    (92-U-238(N,F),,SIG)  1027MB+-5PERCENT AT 13.1MEV
STATUS     .TABLE 6.
HISTORY    (781015C) PDJ.
           (790219E)
CORRECTION .FISSION EVENTS OF MULTIPLICITY 2 AND 3 ARE
            SUBTRACTED, THESE ARE DETERMINED WITH FISSION
            CHAMBER. A CHECK WAS ALSO MADE WITH THE RESULTS
            OF THE WORK OF SOLEILHAC ON FISSION MULTIPLICITIES.
              TOTAL CORRECTION   +69  MB AT 13.1MEV
ENDBIB              14
NOCOMMON             0          0
DATA                 5          1
EN         DATA       DATA-ERR   MONIT      MONIT-ERR
MEV        MB         MB         MB         MB
 1.3100E+01 6.4100E+02 3.8000E+01 1.0270E+03 5.1000E+01
ENDDATA              3
ENDSUBENT           22
SUBENT        20795016     840207              20050926       0000
BIB                  6         14
REACTION   (94-PU-239(N,3N)94-PU-237,,SIG)
SAMPLE     .METAL CLAD IN 0.25 MM ALUMINIUM
            COMPOSITION   4 PERCENT AL ALLOY
                        99.4 PERCENT PU-239
                         0.6 PERCENT PU-240
MONITOR    (92-U-238(N,F),,SIG)  1027MB+-5PERCENT AT 13.1MEV
STATUS     .TABLE 6.
HISTORY    (781015C) PDJ
           (790219E)
CORRECTION .FISSION EVENTS OF MULTIPLICITY 2 AND 3 ARE
            SUBTRACTED, THESE ARE DETERMINED WITH FISSION
            CHAMBER. A CHECK WAS ALSO MADE WITH THE RESULTS
            OF THE WORK OF SOLEILHAC ON FISSION MULTIPLICITIES.
                        TOTAL CORRECTION   +12  MB AT 13.1MEV
ENDBIB              14
NOCOMMON             0          0
DATA                 5          1
EN         DATA       DATA-ERR   MONIT      MONIT-ERR
MEV        MB         MB         MB         MB
 1.3100E+01 1.2300E+02 5.9000E+01 1.0270E+03 5.1000E+01
ENDDATA              3
ENDSUBENT           22
ENDENTRY            16
"

/-- the lines of `x4i3/tests/data/db/138/13883.x4` -/
def file13883 : List Str := linesOf "ENTRY            13883   20031104   20031222   20050926       0000
SUBENT        13883001   20031104   20031222   20050926       0000
BIB                  8         12
INSTITUTE  (1USALRL)
REFERENCE  (J,RCA,90,833,2002)
AUTHOR     (R.W.Lougheed,W.Webster,M.N.Namboodiri,D.R.Nethaway,
           K.J.Moody,J.H.Landrum,R.W.Hoff,R.J.Dupzyk,J.H.McQuaid,
           R.Gunnink,E.D.Watkins)
TITLE      239Pu and 241Am(n,2n) cross-section measurements near
            E(n) = 14 MeV
FACILITY   (ICTR,1USALRL)
INC-SOURCE (D-T)
STATUS     Data taken from table in reference.
           No reply from R.W.Lougheed to author proof.
HISTORY    (20030910C)
ENDBIB              12
NOCOMMON             0          0
ENDSUBENT           15
SUBENT        13883002   20030911   20031222   20050926       0000
BIB                  8         19
REACTION   (94-PU-239(N,2N)94-PU-238,,SIG)
SAMPLE     High purity mass-separated 239Pu sample with
            238Pu/239Pu ratio of about 6E-10.
METHOD     (CHSEP) Irradiated samples dissolved and ion-exchange
            spearations performed using Dowex anion-exchange
            resin to remove any excess mass. Resulting Pu
            fractions electroplated onto Pt disks, which were
            heated to fix deposits.
           (ACTIV) Counts performed for 1 year after irradiation.
MONITOR    (79-AU-197(N,2N)79-AU-196,,SIG) Flux monitor.
           Neutron energy determined using 54Fe(n,p) reaction.
DECAY-DATA (94-PU-238,87.75YR,A,5500.)
           (94-PU-239,2.41E+4YR)
CORRECTION Data corrected for pileup in alpha spectrum and
            for background.
ERR-ANALYS (DATA-ERR) Uncertainties given include counting errors
            from determining 238Pu/239Pu ratios, and neutron
            fluence errors.
EXP-YEAR   (1978) Irradiations in 1977 and 1978.
ENDBIB              19
NOCOMMON             0          0
DATA                 4          3
EN         DATA       DATA-ERR   MONIT
MEV        MB         PER-CENT   MB
 13.8      228.         2.8      2112.
 14.0      219.         3.6      2112.
 14.8      214.         1.4      2136.
ENDDATA              5
ENDSUBENT           29
SUBENT        13883003   20030911   20031222   20050926       0000
BIB                  9         16
REACTION   (95-AM-241(N,2N)95-AM-240,,SIG)
SAMPLE     High purity AmO2 sample, 99.95% 241Am, in quartz tubes.
            238Pu/239Pu ratio of about 6E-10.
METHOD     (ACTIV) Data irradiated for 15 hrs. Counts done
            starting 2 days and continued until 30-40 days after
            irradiation.
DETECTOR   (GELI)
MONITOR    (13-AL-27(N,A)11-NA-24,,SIG) Flux monitor.
           Neutron energy determined using Ni foils.
DECAY-DATA (95-AM-240,50.8HR,DG,988.)
           (95-AM-241,432.7YR,DG,662.,, DG,722.)
CORRECTION Corrected for decay during irradiation.
ERR-ANALYS (DATA-ERR) Uncertainties given include counting errors
            from determining 220Am/241Am ratios, and neutron
            fluence errors.
EXP-YEAR   (1973)
ENDBIB              16
NOCOMMON             0          0
DATA                 4          5
EN         DATA       DATA-ERR   MONIT
MEV        MB         PER-CENT   MB
 13.67     260.         1.4      124.5
 13.98     259.         1.8      120.9
 14.29     251.         1.7      119.1
 14.77     233.         1.8      111.4
 15.12     222.         1.6      107.6
ENDDATA              7
ENDSUBENT           28
SUBENT        13883004   20030911   20031222   20050926       0000
BIB                  9         13
REACTION   (95-AM-241(N,F)ELEM/MASS,CUM,SIG)
SAMPLE     High purity AmO2 sample, 99.95% 241Am, in quartz tubes.
            238Pu/239Pu ratio of about 6E-10.
METHOD     (ACTIV) Data irradiated for 15 hrs. Counts done at end
            of irradiation.
DETECTOR   (GELI)
MONITOR    (13-AL-27(N,A)11-NA-24,,SIG) Flux monitor.
           Neutron energy determined using Ni foils.
DECAY-DATA (95-AM-241,432.7YR,DG,662.,, DG,722.)
CORRECTION Not corrected for any additional production from down-
            scattered neutrons.
ERR-ANALYS (ERR-S) Statistical uncertainties given.
EXP-YEAR   (1973)
ENDBIB              13
NOCOMMON             0          0
DATA                 5         72
EN         MASS       ELEMENT    DATA       ERR-S
MEV        NO-DIM     NO-DIM     MB         PER-CENT
13.7        91.        38.        57.0        1.8
13.7        93.        39.       105.8       15.5
13.7        97.        40.       113.0        1.0
13.7        99.        42.       105.5       15.7
13.7       103.        44.       128.8        6.8
13.7       105.        45.       124.4        5.3
13.7       115.        48.        45.5       14.5
13.7       125.        50.        38.1       31.9
13.7       127.        51.        72.1       10.9
13.7       128.        51.        35.6        1.8
13.7       131.        53.        86.7        4.3
13.7       132.        52.        65.3        3.9
13.7       133.        53.       121.3        2.1
13.7       140.        56.        75.5        2.2
14.0        91.        38.        59.1        4.3
14.0        93.        39.       115.6       45.3
14.0        97.        40.       103.8        1.2
14.0        99.        42.        99.5       16.3
14.0       103.        44.       130.8        4.3
14.0       105.        45.       126.0        4.2
14.0       115.        48.        46.0        9.0
14.0       125.        50.        22.7       21.2
14.0       127.        51.        63.6        7.0
14.0       128.        51.        32.1        7.7
14.0       131.        53.       103.3        2.7
14.0       132.        52.        65.0        2.4
14.0       133.        53.       112.7        1.9
14.0       140.        56.        82.1        1.5
14.0       143.        58.        72.5       14.4
14.3        91.        38.        63.9        9.9
14.3        97.        40.       102.2        1.7
14.3        99.        42.        68.4       23.7
14.3       103.        44.       136.8        6.7
14.3       105.        45.       146.5        7.3
14.3       115.        48.        57.3       14.4
14.3       125.        50.        29.5       30.1
14.3       127.        51.        58.0        5.5
14.3       128.        51.        32.7       38.9
14.3       131.        53.       114.1        4.2
14.3       132.        52.        71.9        1.9
14.3       133.        53.       120.8        3.4
14.3       140.        56.        87.8        2.1
14.3       143.        58.        82.4       11.5
14.8        91.        38.        61.5        5.0
14.8        97.        40.       104.7        1.2
14.8        99.        42.        93.2       15.3
14.8       103.        44.       126.2        4.8
14.8       105.        45.       141.1        5.2
14.8       115.        48.        45.8        7.7
14.8       125.        50.        27.4       22.3
14.8       127.        51.        59.0        3.6
14.8       128.        51.        30.4        6.6
14.8       131.        53.        93.4        4.2
14.8       132.        52.        61.9        1.9
14.8       133.        53.       116.7        2.7
14.8       140.        56.        76.5        1.6
14.8       143.        58.        73.8        8.3
15.1        91.        38.        58.7        2.2
15.1        93.        39.        71.8       16.9
15.1        97.        40.       109.6        0.9
15.1        99.        42.        95.9       12.8
15.1       103.        44.       132.5        4.9
15.1       105.        45.       120.6        4.3
15.1       115.        48.        45.6        6.5
15.1       125.        50.        33.0       13.1
15.1       127.        51.        62.7        2.9
15.1       128.        51.        33.9        2.0
15.1       131.        53.        92.2        2.8
15.1       132.        52.        64.0        1.9
15.1       133.        53.       115.0        1.5
15.1       140.        56.        81.3        1.2
15.1       143.        58.        62.8       11.4
ENDDATA             74
ENDSUBENT           92
ENDENTRY             4
"

/-- the lines of `x4i3/tests/data/db/E07/E0783.x4` -/
def fileE0783 : List Str := linesOf "ENTRY            E0783   20040622              20050926       0000
SUBENT        E0783001   20040622              20050926       0000
BIB                 10         19
TITLE       ACCELERATION OF PROTONS AND DEUTERONS POLARIZED IN
            THE HORIZONTAL PLANEBY THE RCNP CYCLOTRON
AUTHOR     (K.HATANAKA,N.MATSUOKA,H.SAKAI,T.SAITO,H.TAMURA,
           K.HOSONO,M.KONDO,K.IMAI,H.SHIMIZU,K.NISHIMURA)
INSTITUTE  (2JPNOSA) RESEARCH CENTER FOR NUCLEAR PHYSICS, OSAKA
            UNIV.
           (2JPNKTO)
REFERENCE  (J,NIM,217,397,1983)
FACILITY   (CYCLO,2JPNOSA)
INC-SOURCE  BEAM-INTENSITY IS 0.5NA
            BEAM-POLARIZATION IS NOT GIVEN
           (ATOMI) with a Wien filter
SAMPLE      TARGET IS NOT POLARIZED
            TARGET IS NOT ALIGNED
PART-DET   (D)
STATUS     (CURVE) DATA TAKEN FROM GRAPH
HISTORY    (19881027T) CONVERTED FROM NRDF DATA NO. D783
           (20040401A) Author's name is corrected. Code is added
                       into INC-SOURCE. E-EXC=0.0 MeV is deleted.
ENDBIB              19
COMMON               1          3
EN
MEV
56.
ENDCOMMON            3
ENDSUBENT           26
SUBENT        E0783002   20040622              20050926       0000
BIB                  4          5
REACTION   (1-H-1(D,EL)1-H-1,SL,POL/DA,,ANA)
FLAG       (1.) DATA ERROR IS SMALLER THAN DATA POINT
ERR-ANALYS (DATA-ERR) Uncertainty scanned from figure
HISTORY    (20040401A) Quantity code is correcetd.
                       ERR-ANALYS is added.
ENDBIB               5
NOCOMMON             0          0
DATA                 4         24
ANG-CM     DATA       DATA-ERR   FLAG
ADEG       NO-DIM     NO-DIM     NO-DIM
     30.712 -2.211E-03                    1.
     38.727 -5.861E-03  0.821E-02
     46.135  1.022E-02                    1.
     55.814  4.098E-02                    1.
     64.866  7.998E-02                    1.
     69.415  1.126E-01                    1.
     74.316  1.633E-01  0.147E-01
     79.924  2.517E-01  0.115E-01
     84.442  2.663E-01  0.131E-01
     89.661  3.153E-01  0.821E-02
     94.181  3.315E-01  0.164E-01
     99.114  4.003E-01  0.115E-01
    104.318  4.411E-01  0.131E-01
    109.841  4.802E-01  0.132E-01
    115.135  3.880E-01  0.132E-01
    120.355  2.531E-01  0.131E-01
    125.595 -5.416E-02  0.214E-01
    129.340 -2.990E-01  0.197E-01
    134.447 -3.140E-01  0.180E-01
    139.629 -1.024E-01  0.197E-01
    145.538 -2.551E-02  0.148E-01
    150.255  1.040E-01  0.246E-01
    155.357  8.570E-02  0.246E-01
    160.562  1.265E-01  0.197E-01
ENDDATA             26
ENDSUBENT           36
ENDENTRY             2
"

/-- the lines of `x4i3/tests/data/db/113/11321.x4` -/
def file11321 : List Str := linesOf "ENTRY            11321   20110727   20111215   20111113       1374
SUBENT        11321001   20110727   20111215   20111113       1374
BIB                 13         39
INSTITUTE  (1USAWES)
REFERENCE  (J,PR,109,2105,1958)
AUTHOR     (R.W.Hill)
TITLE      Angular distributions of elastic scattering of 5-MeV
           neutrons.
FACILITY   (NGEN,1USAWES) electrostatic generator
INC-SOURCE (D-D) The gas target chamber was 3.2 centimeters in
           length and was separated from the vacuum system by
           an aperture 3/16-in. in diameter covered with a
           0.0001-in. thick nickel foil. A pump circulated the
           deuterium through a cooling system and returned the
           cold gas to the chamber through a jet aimed at the foil
SAMPLE     Scatterers were cylinders two inches long with
           diameters equal to approximately one-half of a mean
           free path for 5-MeV neutrons, except oxygen and barium.
DETECTOR   (SCIN) Biased scintillator. The neutron detector
           consisted of twenty layers of plastic scintillator
           0.001 inch thick separated by glass disks 0.050 inch
           thick and 2 inches in diam., all mounted on an
           RCA 6342 photomultiplier.
CORRECTION The cross sections were corrected for the difference
           in counter efficiency for the detection of the primary
           and scattered neutrons, since momentum transfer to the
           target nucleus reduces the energy of the scattered
           neutrons.Also corrections were made for the attenuation
           of the incident flux in the scatterers and for
           multiple scattering.
REL-REF    (M,,J.Blok+,J,PHY,18,809,1952) -method of the
           multiple-scattering corrections calculation
ERR-ANALYS (DATA-ERR) Statistical errors plus an estimation of
                      the errors in the multiple scattering
STATUS     (SCSRS)
           (TABLE) data received in private comm., Hill, 1961/8.
HISTORY    (19761014T) Translated from SCISRS
           (19820324A) converted to reaction formalism
           (20110727A) SD:Updated to new date formats,lower case.
                corrected according to last EXFOR rules and Dict.
                BIB updated. In Subent 010 SF4 in REACTION code
                            changed according to the ref.
ENDBIB              39
COMMON               3          3
EN         EN-RSL     ANG-RSL
MEV        MEV        ADEG
 5.         0.1        10.
ENDCOMMON            3
ENDSUBENT           46
SUBENT        11321002   20110727   20111215   20111113       1374
BIB                  1          1
REACTION   (6-C-12(N,EL)6-C-12,,DA)
ENDBIB               1
NOCOMMON             0          0
DATA                 3         13
ANG-CM     DATA-CM    DATA-ERR
ADEG       B/SR       B/SR
 30.        0.14
 40.        0.13       0.010
 50.        0.10       0.005
 60.        0.065      0.005
 70.        0.046      0.004
 80.        0.057      0.004
 90.        0.057      0.008
100.        0.085      0.010
110.        0.074      0.010
120.        0.035      0.008
130.        0.022      0.009
140.        0.026      0.007
150.        0.026      0.002
ENDDATA             15
ENDSUBENT           21
SUBENT        11321003   20110727   20111215   20111113       1374
BIB                  3         17
REACTION   (8-O-16(N,EL)8-O-16,,DA)
SAMPLE     High purity sample of sintered Al2O3
METHOD     Two methods were used to obtain the oxygen cross
           section. This cross section was measured with a high
           purity sample of sintered Al2O3, and then the
           appropriate subtraction of the Al cross section was
           made. Since the subtraction of two not too dissimilar
           numbers may be subject to considerable error, a more
           direct approach was tried. A thin-walled brass can was
           constructed in order to measure the scattering from
           water. Of all the compounds of oxygen, water has a
           decided advantage for elastic-scattering measurement in
           that the contribution from the scattering from hydrogen
           is almost negligible for angles larger than about
           40. degr. because of the large energy loss of the
           scattered neutrons. Background runs were made with the
           empty can in place.
ENDBIB              17
NOCOMMON             0          0
DATA                 3         10
COS        DATA       DATA-ERR
NO-DIM     MB/SR      MB/SR
  0.85      128.       10.
  0.74      120.        5.
  0.605      70.        5.
  0.452      50.        5.
  0.286      43.        7.
 -0.063      36.        8.
 -0.397      94.       13.
 -0.542      80.       10.
 -0.791      13.5       4.
 -.8810      15.       15.
ENDDATA             12
ENDSUBENT           34
SUBENT        11321004   20110727   20111215   20111113       1374
BIB                  1          1
REACTION   (13-AL-27(N,EL)13-AL-27,,DA)
ENDBIB               1
NOCOMMON             0          0
DATA                 3         13
COS        DATA       DATA-ERR
NO-DIM     MB/SR      MB/SR
  0.866     290.       30.
  0.766     212.       10.
  0.643     140.       10.
  0.5        70.        9.
  0.342      43.        6.
  0.174      40.        5.
  0.         30.        3.
 -0.174      30.        5.
 -0.342      25.        4.
 -0.5        20.        5.
 -0.643      22.        5.
 -0.766      22.        4.
 -0.866      25.        4.
ENDDATA             15
ENDSUBENT           21
SUBENT        11321005   20110727   20111215   20111113       1374
BIB                  2          2
REACTION   (26-FE-0(N,EL)26-FE-0,,DA)
HISTORY    (19860326A) Reaction product added.
ENDBIB               2
NOCOMMON             0          0
DATA                 3         13
COS        DATA       DATA-ERR
NO-DIM     MB/SR      MB/SR
  0.866      698.       80.
  0.766      370.       40.
  0.643      190.       40.
  0.5         94.       10.
  0.342       13.        2.
  0.174        9.        3.
  0.          25.        4.
 -0.174       28.        7.
 -0.342       36.        7.
 -0.5         21.        4.
 -0.643       15.8       5.
 -0.766        8.9       4.
 -0.866       14.        3.
ENDDATA             15
ENDSUBENT           22
SUBENT        11321006   20110727   20111215   20111113       1374
BIB                  2          2
REACTION   (28-NI-0(N,EL)28-NI-0,,DA)
HISTORY    (19860326A) Reaction product added.
ENDBIB               2
NOCOMMON             0          0
DATA                 3         13
COS        DATA       DATA-ERR
NO-DIM     MB/SR      MB/SR
  0.866     610.       80.
  0.766     320.       20.
  0.643     157.       30.
  0.5        66.       10.
  0.342      10.        4.
  0.174      10.        4.
  0.         24.8       5.
 -0.174      31.        5.
 -0.342      35.        5.
 -0.5        13.        5.
 -0.643      13.        5.
 -0.766      12.        5.
 -0.866      13.        5.
ENDDATA             15
ENDSUBENT           22
SUBENT        11321007   20110727   20111215   20111113       1374
BIB                  2          2
REACTION   (29-CU-0(N,EL)29-CU-0,,DA)
HISTORY    (19860326A) Reaction product added.
ENDBIB               2
NOCOMMON             0          0
DATA                 3         13
COS        DATA       DATA-ERR
NO-DIM     MB/SR      MB/SR
 0.866      600.
 0.766      340.
 0.643      123.
 0.500       36.        5.
 0.342        9.8       3.
 0.174       23.        5.
 0.          40.        5.
-0.174       41.        5.
-0.342       32.        5.
-0.5         16.        3.
-0.643        8.9       3.
-0.766        7.9       3.
-0.866       10.        3.
ENDDATA             15
ENDSUBENT           22
SUBENT        11321008   20110727   20111215   20111113       1374
BIB                  2          2
REACTION   (42-MO-0(N,EL)42-MO-0,,DA)
HISTORY    (19860326A) Reaction product added.
ENDBIB               2
NOCOMMON             0          0
DATA                 3         13
COS        DATA       DATA-ERR
NO-DIM     MB/SR      MB/SR
 0.866      497.       50.
 0.766      200.       50.
 0.643       44.        8.
 0.500       31.        8.
 0.342       74.        6.
 0.174      115.       15.
 0.000       83.       10.
-0.174       18.7       7.
-0.342        4.7       2.5
-0.5         17.        6.
-0.643       30.        5.
-0.766       29.        5.
-0.866       16.6       5.
ENDDATA             15
ENDSUBENT           22
SUBENT        11321009   20110727   20111215   20111113       1374
BIB                  3          4
REACTION   (56-BA-0(N,EL)56-BA-0,,DA)
SAMPLE     The barium scatterer was rectangular in cross section
           and two niches long
HISTORY    (19860326A) Reaction product added.
ENDBIB               4
NOCOMMON             0          0
DATA                 3         10
COS        DATA       DATA-ERR
NO-DIM     MB/SR      MB/SR
 0.866      820.       100.
 0.766      330.        80.
 0.643      158.        40.
 0.500      110.        20.
 0.342      100.        15.
 0.000       27.         6.
-0.342       51.        10.
-0.643       52.        10.
-0.766       44.        15.
-0.866       71.        13.
ENDDATA             12
ENDSUBENT           21
SUBENT        11321010   20110727   20111215   20111113       1374
BIB                  2          4
REACTION   (74-W-0(N,EL)74-W-0,,DA)
HISTORY    (19860326A) Reaction product added.
           (20110727A) SD: SF4 in REACTION code changed:
             56-BA-0 -> 74-W-0  according to the PR,109,2105,1958.
ENDBIB               4
NOCOMMON             0          0
DATA                 3         13
COS        DATA       DATA-ERR
NO-DIM     MB/SR      MB/SR
 0.866      780.       100.
 0.766      480.        50.
 0.643      110.        10.
 0.500       60.4       18.
 0.342       32.        10.
 0.174       41.5        9.
 0.000       54.         6.
-0.174       53.         7.
-0.342       58.        14.
-0.5         27.5       15.
-0.643       21.4        9.
-0.766       21.4        9.
-0.866       17.8       12.
ENDDATA             15
ENDSUBENT           24
SUBENT        11321011   20110727   20111215   20111113       1374
BIB                  2          2
REACTION   (82-PB-0(N,EL)82-PB-0,,DA)
HISTORY    (19860326A) Reaction product added.
ENDBIB               2
NOCOMMON             0          0
DATA                 3         13
ANG-CM     DATA-CM    DATA-ERR
ADEG       B/SR       B/SR
  30.        1.52       0.1
  40.        0.5        0.03
  50.        0.12       0.005
  60.        0.056      0.005
  70.        0.037      0.004
  80.        0.068      0.005
  90.        0.087      0.005
 100.        0.063      0.006
 110.        0.036      0.004
 120.        0.02       0.005
 130.        0.051      0.005
 140.        0.069      0.007
 150.        0.05       0.005
ENDDATA             15
ENDSUBENT           22
ENDENTRY            11
"

/-- the lines of `x4i3/tests/data/db/113/11314.x4` -/
def file11314 : List Str := linesOf "ENTRY            11314     810428              20050926       0000
SUBENT        11314001     810428              20050926       0000
BIB                  6          8
INSTITUTE  (1USAORL)
REFERENCE  (J,PR,98,728,5505)
AUTHOR     (J.L.FOWLER,C.H.JOHNSON)
TITLE      DIFFERENTIAL ELASTIC SCATTERING CROSS SECTIONS FOR
           NEUTRONS ON NITROGEN.
STATUS     (SCSRS)
HISTORY    (760714T) TRANSLATED FROM SCISRS
           (810428A) CONVERTED TO REACTION FORMALISM
ENDBIB               8
NOCOMMON             0          0
ENDSUBENT           11
SUBENT        11314002     810428              20050926       0000
BIB                  3          4
REACTION   (7-N-14(N,EL)7-N-14,,DA)
DETECTOR   (PROPC)    PROPORTIONAL COUNTER
STATUS     (CURVE) READ FROM CURVES RECEIVED IN PRIVATE
            COMMUNICATION, FOWLER, 1955.
ENDBIB               4
NOCOMMON             0          0
DATA                 4        332
EN         EN-RSL     COS-CM     DATA-CM
MEV        MEV        NO-DIM     MB/SR
 8.00   -01 5.0    -02 0.85       1.64   +02
 8.00   -01 5.0    -02 0.65       1.70   +02
 8.00   -01 5.0    -02 0.46       1.57   +02
 8.00   -01 5.0    -02 0.27000    1.67   +02
 8.00   -01 5.0    -02 0.07       1.51   +02
 8.00   -01 5.0    -02-0.11       1.56   +02
 8.00   -01 5.0    -02-0.31       1.65   +02
 8.00   -01 5.0    -02-0.51       1.43   +02
 8.00   -01 5.0    -02-0.70       1.28   +02
 9.70   -01 2.0    -02 0.49000    9.0    +01
 9.70   -01 2.0    -02 0.45000    8.8    +01
 9.70   -01 2.0    -02 0.42000    8.3    +01
 9.70   -01 2.0    -02 0.39000    7.6    +01
 9.70   -01 2.0    -02 0.36000    7.6    +01
 9.70   -01 2.0    -02 0.31000    7.6    +01
 9.70   -01 2.0    -02 0.28000    8.0    +01
 9.70   -01 2.0    -02 0.24000    8.3    +01
 9.70   -01 2.0    -02 0.20000    8.2    +01
 9.70   -01 2.0    -02 0.17000    7.8    +01
 9.70   -01 2.0    -02 0.14000    7.8    +01
 9.70   -01 2.0    -02 0.10000    7.5    +01
 9.70   -01 2.0    -02 0.06000    7.6    +01
 9.70   -01 2.0    -02 0.02000    7.8    +01
 9.70   -01 2.0    -02-0.0100     8.0    +01
 9.70   -01 2.0    -02-0.0400     8.0    +01
 9.70   -01 2.0    -02-0.0800     7.3    +01
 9.70   -01 2.0    -02-0.1200     7.8    +01
 9.70   -01 2.0    -02-0.1600     8.0    +01
 9.70   -01 2.0    -02-0.1900     7.0    +01
 9.70   -01 2.0    -02-0.2200     7.6    +01
 9.70   -01 2.0    -02-0.2600     7.6    +01
 9.70   -01 2.0    -02-0.3000     7.4    +01
 9.70   -01 2.0    -02-0.3400     7.3    +01
 9.70   -01 2.0    -02-0.3800     7.3    +01
 9.70   -01 2.0    -02-0.4100     7.0    +01
 9.70   -01 2.0    -02-0.4600     7.0    +01
 9.70   -01 2.0    -02-0.4900     6.6    +01
 9.70   -01 2.0    -02-0.5200     7.0    +01
 9.70   -01 2.0    -02-0.5400     6.5    +01
 9.70   -01 2.0    -02-0.5900     6.5    +01
 9.70   -01 2.0    -02-0.6200     7.0    +01
 9.70   -01 2.0    -02-0.6500     6.0    +01
 9.70   -01 2.0    -02-0.6800     7.0    +01
 9.70   -01 2.0    -02-0.7400     6.5    +01
 9.70   -01 2.0    -02-0.7600     6.5    +01
 9.70   -01 2.0    -02-0.8000     6.0    +01
 9.70   -01 2.0    -02-0.8400     6.3    +01
 9.70   -01 2.0    -02-0.8800     6.0    +01
 9.70   -01 2.0    -02-0.9100     5.5    +01
 9.70   -01 2.0    -02-0.9400     4.5    +01
 9.70   -01 2.0    -02-0.9800     4.0    +01
 1.082  +00 1.0    -02 0.47000    1.48   +02
 1.082  +00 1.0    -02 0.41000    1.35   +02
 1.082  +00 1.0    -02 0.34000    1.45   +02
 1.082  +00 1.0    -02 0.28000    1.33   +02
 1.082  +00 1.0    -02 0.21000    1.26   +02
 1.082  +00 1.0    -02 0.15000    1.25   +02
 1.082  +00 1.0    -02 0.10000    1.35   +02
 1.082  +00 1.0    -02 0.02000    1.45   +02
 1.082  +00 1.0    -02-0.0400     1.40   +02
 1.082  +00 1.0    -02-0.1100     1.30   +02
 1.082  +00 1.0    -02-0.1800     1.30   +02
 1.082  +00 1.0    -02-0.2300     1.47   +02
 1.082  +00 1.0    -02-0.3000     1.39   +02
 1.082  +00 1.0    -02-0.3600     1.38   +02
 1.082  +00 1.0    -02-0.4300     1.43   +02
 1.082  +00 1.0    -02-0.5000     1.42   +02
 1.082  +00 1.0    -02-0.5500     1.40   +02
 1.082  +00 1.0    -02-0.6200     1.43   +02
 1.082  +00 1.0    -02-0.6800     1.40   +02
 1.082  +00 1.0    -02-0.7600     1.45   +02
 1.082  +00 1.0    -02-0.8100     1.30   +02
 1.082  +00 1.0    -02-0.8800     1.17   +02
 1.082  +00 1.0    -02-0.9400     1.10   +02
 1.110  +00 1.0    -02 0.47000    2.14   +02
 1.110  +00 1.0    -02 0.42000    2.04   +02
 1.110  +00 1.0    -02 0.36000    1.94   +02
 1.110  +00 1.0    -02 0.30000    1.86   +02
 1.110  +00 1.0    -02 0.23000    1.82   +02
 1.110  +00 1.0    -02 0.17000    1.80   +02
 1.110  +00 1.0    -02 0.12000    1.78   +02
 1.110  +00 1.0    -02 0.05000    1.72   +02
 1.110  +00 1.0    -02-0.0200     1.69   +02
 1.110  +00 1.0    -02-0.0700     1.74   +02
 1.110  +00 1.0    -02-0.1400     1.68   +02
 1.110  +00 1.0    -02-0.2000     1.70   +02
 1.110  +00 1.0    -02-0.2600     1.78   +02
 1.110  +00 1.0    -02-0.3200     1.78   +02
 1.110  +00 1.0    -02-0.3900     1.87   +02
 1.110  +00 1.0    -02-0.4400     1.95   +02
 1.110  +00 1.0    -02-0.5000     1.90   +02
 1.110  +00 1.0    -02-0.5600     1.95   +02
 1.110  +00 1.0    -02-0.6300     2.02   +02
 1.110  +00 1.0    -02-0.6900     1.85   +02
 1.110  +00 1.0    -02-0.7600     2.07   +02
 1.110  +00 1.0    -02-0.8100     1.85   +02
 1.120  +00 1.0    -02 0.47000    3.15   +02
 1.120  +00 1.0    -02 0.43000    2.70   +02
 1.120  +00 1.0    -02 0.37000    2.20   +02
 1.120  +00 1.0    -02 0.30000    2.30   +02
 1.120  +00 1.0    -02 0.23000    2.20   +02
 1.120  +00 1.0    -02 0.18000    2.05   +02
 1.120  +00 1.0    -02 0.12000    1.90   +02
 1.120  +00 1.0    -02 0.06000    2.15   +02
 1.120  +00 1.0    -02 0.00000    1.85   +02
 1.120  +00 1.0    -02-0.0600     1.95   +02
 1.120  +00 1.0    -02-0.1200     1.85   +02
 1.120  +00 1.0    -02-0.1800     1.75   +02
 1.120  +00 1.0    -02-0.2300     1.75   +02
 1.120  +00 1.0    -02-0.3000     1.75   +02
 1.120  +00 1.0    -02-0.3700     1.80   +02
 1.120  +00 1.0    -02-0.4300     1.75   +02
 1.120  +00 1.0    -02-0.4700     1.80   +02
 1.120  +00 1.0    -02-0.5400     1.70   +02
 1.120  +00 1.0    -02-0.6000     1.90   +02
 1.120  +00 1.0    -02-0.6600     1.75   +02
 1.120  +00 1.0    -02-0.7300     1.85   +02
 1.120  +00 1.0    -02-0.8000     1.80   +02
 1.120  +00 1.0    -02-0.8600     1.70   +02
 1.120  +00 1.0    -02-0.9000     1.45   +02
 1.120  +00 1.0    -02-0.9800     1.30   +02
 1.130  +00 1.0    -02 0.48000    2.60   +02
 1.130  +00 1.0    -02 0.42000    2.40   +02
 1.130  +00 1.0    -02 0.36000    2.07   +02
 1.130  +00 1.0    -02 0.30000    1.98   +02
 1.130  +00 1.0    -02 0.25000    2.02   +02
 1.130  +00 1.0    -02 0.18000    1.82   +02
 1.130  +00 1.0    -02 0.12000    1.71   +02
 1.130  +00 1.0    -02 0.05000    1.72   +02
 1.130  +00 1.0    -02 0.00000    1.55   +02
 1.130  +00 1.0    -02-0.0600     1.65   +02
 1.130  +00 1.0    -02-0.1200     1.56   +02
 1.130  +00 1.0    -02-0.2000     1.42   +02
 1.130  +00 1.0    -02-0.2500     1.34   +02
 1.130  +00 1.0    -02-0.3200     1.40   +02
 1.130  +00 1.0    -02-0.3700     1.30   +02
 1.130  +00 1.0    -02-0.4400     1.24   +02
 1.130  +00 1.0    -02-0.5100     1.33   +02
 1.130  +00 1.0    -02-0.5600     1.33   +02
 1.130  +00 1.0    -02-0.6200     1.29   +02
 1.130  +00 1.0    -02-0.6800     1.19   +02
 1.130  +00 1.0    -02-0.7400     1.40   +02
 1.130  +00 1.0    -02-0.8000     1.21   +02
 1.130  +00 1.0    -02-0.8600     1.28   +02
 1.130  +00 1.0    -02-0.9200     1.14   +02
 1.160  +00 1.0    -02 0.45000    1.32   +02
 1.160  +00 1.0    -02 0.38500    1.35   +02
 1.160  +00 1.0    -02 0.33000    1.27   +02
 1.160  +00 1.0    -02 0.27000    1.17   +02
 1.160  +00 1.0    -02 0.20000    1.16   +02
 1.160  +00 1.0    -02 0.15000    1.20   +02
 1.160  +00 1.0    -02 0.08000    1.25   +02
 1.160  +00 1.0    -02 0.04000    1.10   +02
 1.160  +00 1.0    -02-0.0300     1.00   +02
 1.160  +00 1.0    -02-0.0700     1.05   +02
 1.160  +00 1.0    -02-0.1400     9.5    +01
 1.160  +00 1.0    -02-0.2000     1.05   +02
 1.160  +00 1.0    -02-0.2600     9.9    +01
 1.160  +00 1.0    -02-0.3200     1.10   +02
 1.160  +00 1.0    -02-0.3800     1.00   +02
 1.160  +00 1.0    -02-0.4300     1.10   +02
 1.160  +00 1.0    -02-0.5000     9.9    +01
 1.160  +00 1.0    -02-0.5500     1.05   +02
 1.160  +00 1.0    -02-0.6200     1.05   +02
 1.160  +00 1.0    -02-0.6700     9.9    +01
 1.160  +00 1.0    -02-0.7300     1.02   +02
 1.160  +00 1.0    -02-0.7800     1.05   +02
 1.160  +00 1.0    -02-0.8400     9.8    +01
 1.160  +00 1.0    -02-0.9000     9.0    +01
 1.160  +00 1.0    -02-0.9600     6.7    +01
 1.350  +00 2.0    -02 0.52000    2.15   +02
 1.350  +00 2.0    -02 0.41000    2.24   +02
 1.350  +00 2.0    -02 0.33000    1.85   +02
 1.350  +00 2.0    -02 0.23000    1.80   +02
 1.350  +00 2.0    -02 0.14000    1.80   +02
 1.350  +00 2.0    -02 0.05000    1.70   +02
 1.350  +00 2.0    -02-0.0400     1.63   +02
 1.350  +00 2.0    -02-0.1300     1.80   +02
 1.350  +00 2.0    -02-0.2200     1.68   +02
 1.350  +00 2.0    -02-0.3300     1.79   +02
 1.350  +00 2.0    -02-0.3900     1.93   +02
 1.350  +00 2.0    -02-0.4700     1.87   +02
 1.350  +00 2.0    -02-0.5700     2.03   +02
 1.350  +00 2.0    -02-0.6500     2.10   +02
 1.350  +00 2.0    -02-0.7300     2.18   +02
 1.350  +00 2.0    -02-0.8100     2.27   +02
 1.350  +00 2.0    -02-0.9200     2.33   +02
 1.377  +00 2.0    -02 0.53000    2.10   +02
 1.377  +00 2.0    -02 0.43000    1.92   +02
 1.377  +00 2.0    -02 0.34000    1.90   +02
 1.377  +00 2.0    -02 0.23000    1.70   +02
 1.377  +00 2.0    -02 0.15000    1.76   +02
 1.377  +00 2.0    -02 0.07000    1.64   +02
 1.377  +00 2.0    -02-0.0100     1.56   +02
 1.377  +00 2.0    -02-0.1100     1.58   +02
 1.377  +00 2.0    -02-0.1800     1.50   +02
 1.377  +00 2.0    -02-0.2800     1.44   +02
 1.377  +00 2.0    -02-0.3500     1.43   +02
 1.377  +00 2.0    -02-0.4400     1.40   +02
 1.377  +00 2.0    -02-0.5400     1.45   +02
 1.377  +00 2.0    -02-0.6300     1.57   +02
 1.377  +00 2.0    -02-0.7100     1.55   +02
 1.377  +00 2.0    -02-0.7900     1.58   +02
 1.377  +00 2.0    -02-0.8800     1.45   +02
 1.377  +00 2.0    -02-0.9800     1.00   +02
 1.595  +00 2.0    -02 0.44000    3.20   +02
 1.595  +00 2.0    -02 0.35000    3.03   +02
 1.595  +00 2.0    -02 0.26000    2.65   +02
 1.595  +00 2.0    -02 0.16000    2.25   +02
 1.595  +00 2.0    -02 0.08000    2.23   +02
 1.595  +00 2.0    -02-0.0200     2.03   +02
 1.595  +00 2.0    -02-0.1100     1.95   +02
 1.595  +00 2.0    -02-0.1800     1.70   +02
 1.595  +00 2.0    -02-0.2700     1.68   +02
 1.595  +00 2.0    -02-0.3600     1.50   +02
 1.595  +00 2.0    -02-0.4600     1.60   +02
 1.595  +00 2.0    -02-0.5300     1.35   +02
 1.595  +00 2.0    -02-0.6400     1.50   +02
 1.595  +00 2.0    -02-0.7300     1.25   +02
 1.595  +00 2.0    -02-0.8200     1.10   +02
 1.595  +00 2.0    -02-0.9200     1.00   +02
 1.682  +00 2.0    -02 0.50000    1.70   +02
 1.682  +00 2.0    -02 0.36000    1.53   +02
 1.682  +00 2.0    -02 0.26000    1.60   +02
 1.682  +00 2.0    -02 0.16000    1.43   +02
 1.682  +00 2.0    -02 0.07000    1.50   +02
 1.682  +00 2.0    -02-0.0500     1.30   +02
 1.682  +00 2.0    -02-0.1400     1.43   +02
 1.682  +00 2.0    -02-0.2500     1.40   +02
 1.682  +00 2.0    -02-0.3400     1.38   +02
 1.682  +00 2.0    -02-0.4500     1.40   +02
 1.682  +00 2.0    -02-0.5400     1.40   +02
 1.682  +00 2.0    -02-0.6600     1.50   +02
 1.682  +00 2.0    -02-0.7600     1.40   +02
 1.682  +00 2.0    -02-0.8700     1.25   +02
 1.682  +00 2.0    -02-0.9700     8.0    +01
 1.756  +00 2.5    -02 0.50000    1.93   +02
 1.756  +00 2.5    -02 0.40000    1.63   +02
 1.756  +00 2.5    -02 0.30000    1.55   +02
 1.756  +00 2.5    -02 0.21000    1.37   +02
 1.756  +00 2.5    -02 0.09000    1.24   +02
 1.756  +00 2.5    -02 0.00000    1.23   +02
 1.756  +00 2.5    -02-0.0900     1.27   +02
 1.756  +00 2.5    -02-0.1900     1.22   +02
 1.756  +00 2.5    -02-0.2800     1.28   +02
 1.756  +00 2.5    -02-0.3800     1.45   +02
 1.756  +00 2.5    -02-0.4700     1.44   +02
 1.756  +00 2.5    -02-0.5900     1.78   +02
 1.756  +00 2.5    -02-0.6900     2.10   +02
 1.756  +00 2.5    -02-0.7900     2.21   +02
 1.756  +00 2.5    -02-0.8800     2.45   +02
 1.779  +00 2.5    -02 0.53000    1.70   +02
 1.779  +00 2.5    -02 0.42000    1.48   +02
 1.779  +00 2.5    -02 0.32000    1.40   +02
 1.779  +00 2.5    -02 0.23000    1.30   +02
 1.779  +00 2.5    -02 0.13000    1.25   +02
 1.779  +00 2.5    -02 0.03000    1.30   +02
 1.779  +00 2.5    -02-0.0600     1.20   +02
 1.779  +00 2.5    -02-0.1500     1.20   +02
 1.779  +00 2.5    -02-0.2500     1.25   +02
 1.779  +00 2.5    -02-0.3400     1.30   +02
 1.779  +00 2.5    -02-0.4400     1.40   +02
 1.779  +00 2.5    -02-0.5400     1.80   +02
 1.779  +00 2.5    -02-0.6400     1.98   +02
 1.779  +00 2.5    -02-0.7300     2.30   +02
 1.779  +00 2.5    -02-0.8300     2.60   +02
 1.779  +00 2.5    -02-0.9200     2.40   +02
 1.796  +00 2.5    -02 0.47000    1.81   +02
 1.796  +00 2.5    -02 0.40000    1.46   +02
 1.796  +00 2.5    -02 0.30000    1.38   +02
 1.796  +00 2.5    -02 0.20000    1.25   +02
 1.796  +00 2.5    -02 0.11000    1.21   +02
 1.796  +00 2.5    -02 0.01000    1.25   +02
 1.796  +00 2.5    -02-0.1000     1.18   +02
 1.796  +00 2.5    -02-0.1800     1.06   +02
 1.796  +00 2.5    -02-0.2700     1.35   +02
 1.796  +00 2.5    -02-0.3600     1.33   +02
 1.796  +00 2.5    -02-0.4600     1.41   +02
 1.796  +00 2.5    -02-0.5600     1.42   +02
 1.796  +00 2.5    -02-0.6700     1.58   +02
 1.796  +00 2.5    -02-0.7500     1.78   +02
 1.796  +00 2.5    -02-0.8600     2.08   +02
 2.07   +00 2.     -02 0.52000    1.45   +02
 2.07   +00 2.     -02 0.42000    1.35   +02
 2.07   +00 2.     -02 0.33000    1.35   +02
 2.07   +00 2.     -02 0.24000    1.26   +02
 2.07   +00 2.     -02 0.12000    1.22   +02
 2.07   +00 2.     -02 0.03000    1.20   +02
 2.07   +00 2.     -02-0.0600     1.14   +02
 2.07   +00 2.     -02-0.1600     1.27   +02
 2.07   +00 2.     -02-0.2600     1.10   +02
 2.07   +00 2.     -02-0.3600     1.08   +02
 2.07   +00 2.     -02-0.4400     1.17   +02
 2.07   +00 2.     -02-0.5400     1.15   +02
 2.07   +00 2.     -02-0.6400     1.15   +02
 2.07   +00 2.     -02-0.7300     1.10   +02
 2.07   +00 2.     -02-0.8200     1.10   +02
 2.07   +00 2.     -02-0.9200     9.5    +01
 2.25   +00 2.     -02 0.55000    1.74   +02
 2.25   +00 2.     -02 0.46000    1.55   +02
 2.25   +00 2.     -02 0.39000    1.49   +02
 2.25   +00 2.     -02 0.30000    1.37   +02
 2.25   +00 2.     -02 0.21000    1.28   +02
 2.25   +00 2.     -02 0.12000    1.16   +02
 2.25   +00 2.     -02 0.02000    1.03   +02
 2.25   +00 2.     -02-0.0800     1.05   +02
 2.25   +00 2.     -02-0.1800     1.08   +02
 2.25   +00 2.     -02-0.2600     1.02   +02
 2.25   +00 2.     -02-0.3200     1.03   +02
 2.25   +00 2.     -02-0.4200     9.2    +01
 2.25   +00 2.     -02-0.5000     8.1    +01
 2.25   +00 2.     -02-0.5900     7.8    +01
 2.25   +00 2.     -02-0.6700     9.6    +01
 2.25   +00 2.     -02-0.7600     7.3    +01
 2.25   +00 2.     -02-0.8500     7.7    +01
 2.36   +00 2.     -02 0.49000    1.45   +02
 2.36   +00 2.     -02 0.41000    1.40   +02
 2.36   +00 2.     -02 0.33000    1.25   +02
 2.36   +00 2.     -02 0.25000    1.06   +02
 2.36   +00 2.     -02 0.17000    1.06   +02
 2.36   +00 2.     -02 0.07000    1.05   +02
 2.36   +00 2.     -02 0.00000    1.21   +02
 2.36   +00 2.     -02-0.0700     1.02   +02
 2.36   +00 2.     -02-0.1600     1.11   +02
 2.36   +00 2.     -02-0.2300     1.10   +02
 2.36   +00 2.     -02-0.3300     1.15   +02
 2.36   +00 2.     -02-0.4100     1.15   +02
 2.36   +00 2.     -02-0.5000     1.07   +02
 2.36   +00 2.     -02-0.5700     1.06   +02
 2.36   +00 2.     -02-0.6600     1.15   +02
 2.36   +00 2.     -02-0.7500     1.05   +02
 2.36   +00 2.     -02-0.8400     1.03   +02
ENDDATA            334
ENDSUBENT          343
SUBENT        11314003     810428              20050926       0000
BIB                  1          1
REACTION   (7-N-14(N,0),,J)
ENDBIB               1
NOCOMMON             0          0
DATA                 2          5
EN-RES     DATA
MEV        NO-DIM
 1.120  +00 1.5    +00
 1.401  +00 1.5    +00
 1.595  +00 2.5    +00
 1.779  +00 2.5    +00
 2.25   +00 1.5    +00
ENDDATA              7
ENDSUBENT           13
ENDENTRY             3
"

/-- the lines of `x4i3/tests/data/db/123/12326.x4` -/
def file12326 : List Str := linesOf "ENTRY            12326   20070426   20070824   20070809       1344
SUBENT        12326001   20070426   20070824   20070809       1344
BIB                  8         13
INSTITUTE  (1USALAS)
REFERENCE  (J,NP,48,433,1963)
AUTHOR     (J.C.Hopkins,B.C.Diven)
TITLE      Prompt neutrons from fission.
MONITOR    (98-CF-252(0,F),,NU)
STATUS     (SCSRS)
ERR-ANALYS (ERR-SYS) Systematic uncertainty
           (ERR-T) Total uncertainty
HISTORY    (19760804T) Translated from SCISRS
           (19841005A) Converted to reaction formalism
           (20070426A) DR Format updated and ERR-SYS and ERR-T
                        added from Table 1 of reference
                        Subentry 8 added
ENDBIB              13
COMMON               1          3
MONIT
PRT/FIS
 3.771
ENDCOMMON            3
ENDSUBENT           20
SUBENT        12326002   20070426   20070824   20070809       1344
BIB                  3          3
REACTION   (92-U-233(N,F),PR,NU,,MXW)
DETECTOR   (MTANK)    Moderating tank detector
INC-SPECT   Thermal spectrum
ENDBIB               3
NOCOMMON             0          0
DATA                 4          1
EN-DUMMY   DATA       ERR-SYS    ERR-T
MEV        PRT/FIS    PRT/FIS    PRT/FIS
   2.53E-08  2.473E+00  0.022     0.026
ENDDATA              3
ENDSUBENT           11
SUBENT        12326003   20070426   20070824   20070809       1344
BIB                  2          2
REACTION   (92-U-233(N,F),PR,NU)
DETECTOR   (MTANK)    Moderating tank detector
ENDBIB               2
NOCOMMON             0          0
DATA                 5          5
EN         EN-RSL     DATA       ERR-SYS    ERR-T
MEV        MEV        PRT/FIS    PRT/FIS    PRT/FIS
   2.80E-01    9.0E-02  2.489     0.023      0.033
   4.40E-01    8.0E-02  2.502     0.023      0.033
   9.80E-01    5.0E-02  2.553     0.023      0.035
   1.08E+00     5.E-02  2.510     0.023      0.030
   3.93E+00    2.9E-01  2.983     0.030      0.040
ENDDATA              7
ENDSUBENT           14
SUBENT        12326004   20070426   20070824   20070809       1344
BIB                  2          2
REACTION   (92-U-235(N,F),PR,NU)
DETECTOR   (MTANK) Moderating tank detector
ENDBIB               2
NOCOMMON             0          0
DATA                 5          7
EN         EN-RSL     DATA       ERR-SYS    ERR-T
MEV        MEV        PRT/FIS    PRT/FIS    PRT/FIS
   2.53E-08            2.425     0.022      0.020
   2.80E-01    9.0E-02 2.438     0.022      0.022
   4.70E-01    8.0E-02 2.456     0.022      0.022
   8.15E-01    6.0E-02 2.471     0.022      0.026
   1.08E+00     5.E-02 2.530     0.023      0.026
   3.93E+00    2.9E-01 2.937     0.029      0.030
   1.45E+01    1.0E+00 4.626     0.066      0.075
ENDDATA              9
ENDSUBENT           16
SUBENT        12326005   20070426   20070824   20070809       1344
BIB                  3          3
REACTION   (94-PU-239(N,F),PR,NU,,MXW)
DETECTOR   (MTANK)    Moderating tank detector
INC-SPECT   Thermal spectrum
ENDBIB               3
NOCOMMON             0          0
DATA                 6          1
EN-DUMMY   DATA       ERR-SYS    ERR-T      MONIT      MONIT-ERR
EV         PRT/FIS    PRT/FIS    PRT/FIS    PRT/FIS    PRT/FIS
 0.0253     2.831      0.028     0.028        3.771      0.031
ENDDATA              3
ENDSUBENT           11
SUBENT        12326006   20070426   20070824   20070809       1344
BIB                  2          2
REACTION   (94-PU-239(N,F),PR,NU)
DETECTOR   (MTANK)    Moderating tank detector
ENDBIB               2
NOCOMMON             0          0
DATA                 5          6
EN         EN-RSL     DATA       ERR-SYS    ERR-T
MEV        MEV        PRT/FIS    PRT/FIS    PRT/FIS
   2.50E-01    5.0E-02 2.931     0.029      0.039
   4.20E-01   1.10E-01 2.957     0.030      0.046
   6.10E-01    7.0E-02 2.904     0.029      0.041
   9.00E-01    8.0E-02 3.004     0.030      0.041
   3.90E+00    2.9E-01 3.422     0.038      0.039
   1.45E+01    1.0E+00 4.942     0.076      0.119
ENDDATA              8
ENDSUBENT           15
SUBENT        12326007   20070426   20070824   20070809       1344
BIB                  2          2
REACTION   (98-CF-252(0,F),,NU)
HISTORY    (19800512A) ISO-QUANT corrected to NUC-QUANT
ENDBIB               2
NOCOMMON             0          0
DATA                 2          1
DATA       DATA-ERR
PRT/FIS    PRT/FIS
  3.771      .030
ENDDATA              3
ENDSUBENT           10
SUBENT        12326008   20070426   20070824   20070809       1344
BIB                  1          1
REACTION   (94-PU-240(0,F),,NU)
ENDBIB               1
NOCOMMON             0          0
DATA                 3          1
DATA       ERR-SYS    ERR-T
PRT/FIS    PRT/FIS    PRT/FIS
  2.189    0.019      0.026
ENDDATA              3
ENDSUBENT            9
ENDENTRY             8
"

/-- the lines of `x4i3/tests/data/db/205/20576.x4` -/
def file20576 : List Str := linesOf "ENTRY            20576   20181001   20190424   20190420       2273
SUBENT        20576001   20181001   20190424   20190420       2273
BIB                 17         68
TITLE       Measurement of the energy spectrum of prompt
            neutrons from the fission of Pu239 by 0.215 MeV
            neutrons
AUTHOR     (H.H.Knitter)
INSTITUTE  (2ZZZGEL)
REFERENCE  (J,AKE,26,76,1975) Main reference. Graphs given.
FACILITY   (VDG,2ZZZGEL) 3 MeV Van de Graaff of Geel lab.
INC-SOURCE (P-LI7) Li-7(P,N)Be-7 reaction in a Li-F target of
              326.E-6 g/cm2 thickness. Average proton current
              4.5 micro-A, pulse width 1 ns. repetition rate
              1 MHz
INC-SPECT  .Mean neutron beam energy 0.215 MeV.
           .Neutron beam energy spread is 32 keV.
SAMPLE     (94-PU-239,ENR=0.9891) Isotopic composition
             98.91% Pu-239, 1.09% Pu-240. Plutonium cylinder,
             1.2 cm diam., 2.5 cm length, 54.803-g weight.
             Canned in zirkalloy container with 0.2 mm wall
             thickness
METHOD     (TOF)
REL-REF    (M,22401001,H.Knitter,J,AKE,22,84,1972) Method of
                                     corrections calculation
           (C,,T.N.Taddeucci+,J,NDS,123,135,2015)
DETECTOR   (SCIN)  NE224 liquid scintillator,5 cm diameter 3.8 cm
              length, with low noise photomultiplier RCA-8850.
              Placed at 90 degree relative to proton beam and at
              1.972 m from the axis of plutonium sample.
            .Another similar detector used for monitoring of the
             neutron flux placed at -35 degree relative to proton
             beam and distance 3.20 m from the target
           .Detector efficiencies measured at several energies
            using many reactions.
            (1-H-3(P,N)2-HE-3,,SIG)
            (1-H-2(D,N)2-HE-3,,SIG)
            (4-BE-9(A,N)6-C-12,,SIG)
            (1-H-1(N,EL)1-H-1,,SIG)
            (3-LI-7(P,N)4-BE-7,,DA)  At zero angle
EN-SEC     .Good agreement of fission neutron spectrum with
            Maxwellian
CRITIQUE   T.N.Taddeucchi et al. (2015): Multiple scattering
            effects are present and were likely severely
            underestimated in the data analysis.
ADD-RES    .Maxwellian fit of the data gives E-bar=2.12+-0.01MeV
           .Fit with the Watt formula gives
            E-bar=2.116-MeV,t=0.9649-MeV,Ef=0.6686-MeV.
           .Model independent average energy gives 2.125+-
            0.035 MeV.
           .Average of all mean fission neutron energies gives
            E-bar=2.136+-0.045MeV
STATUS     (TABLE) Numerical values of neutron spectrum given in
            private communication from H.H.Knitter, 1976.
            The average fission neutron energy calculated in text
            of Atomkernenergie,26(1975)76.
CORRECTION .Background.  Subtraction of prompt gamma rays from
            the sample and gamma rays of the target scattered
            in sample.
            Secondary interactions of fission neutrons in the
            sample accounted, method described in reference
            C,72VIENNA,,127,1972.
HISTORY    (19760608C)
           (20110707A) Date is corrected to 8 digits format.
                       Upper case text converted to the lower one.
           (20110810A) Last checking has been done.
           (20131210U) SD: Comments were added to ERR-1 (see
            ERR-ANALYS) in Subent 003
           (20181001U) SD: CRITIQUE and ref. to REL-REF were
           added. ERR-ANALYS deleted (specified in other Subents).
           MONITOR deleted (used for detector efficiency
           measurement; info moved to DETECTOR).
ENDBIB              68
COMMON               2          3
EN         EN-RSL
KEV        KEV
   215.       32.
ENDCOMMON            3
ENDSUBENT           75
SUBENT        20576002   20110810   20120427   20120411       2227
BIB                  4          7
REACTION   (94-PU-239(N,F)0-NN-1,PR,KE,,,DERIV)  Average of all
                               average fission neutron energies.
ERR-ANALYS (DATA-ERR) Not defined explicitly.
                      Supposed total error by compiler.
STATUS     (TABLE)  From text of J,AKE,26,76,1975
           (DEP,20576004)
HISTORY    (20110810U) BIB information corrected.
ENDBIB               7
NOCOMMON             0          0
DATA                 2          1
DATA       DATA-ERR
MEV        MEV
      2.136    0.045
ENDDATA              3
ENDSUBENT           15
SUBENT        20576003   20131210   20140820   20140807       2238
BIB                  4         14
REACTION   (94-PU-239(N,F),PR,NU/DE,,REL) Reference quantity
                                          not given
ERR-ANALYS (DATA-ERR)  Not specified
           (ERR-1) About 2% between 0.2 and 2.5 MeV, and above
            this energy it increases up to 5% at 19 MeV
STATUS     (TABLE)  Obtained from H.Knitter by letter
             corresponds to Fig. 2 of J,ANE,76,1975.
           (COREL,20576005)
HISTORY    (20110810A) REACTION code SF4, SF5, SF6, SF7 changed
            from \",PR,DE,N\" to \"0-NN-1,PR,NU/DE,\".
            Status code and errors specified. Data units changed
            from 1/MEV to ARB-UNITS.
           (20131210U) SD: Comments from D.Neudecker were added
            to ERR-1 (see ERR-ANALYS)
ENDBIB              14
NOCOMMON             0          0
DATA                 5        183
E          E-RSL      DATA       DATA-ERR   ERR-1
MEV        MEV        ARB-UNITS  ARB-UNITS  PER-CENT
 2.8000E-01 1.0000E-02 6.6800E+01 2.5000E+00      2.
 3.1000E-01 1.0000E-02 7.0200E+01 2.4000E+00      2.
 3.4000E-01 1.0000E-02 6.5100E+01 2.2000E+00      2.
 3.6000E-01 1.0000E-02 7.0500E+01 2.2000E+00      2.
 3.9000E-01 1.0000E-02 6.8800E+01 2.1000E+00      2.
 4.1000E-01 1.0000E-02 7.4200E+01 2.1000E+00      2.
 4.4000E-01 1.0000E-02 7.5600E+01 2.2000E+00      2.
 4.6000E-01 1.0000E-02 7.4800E+01 2.1000E+00      2.
 4.9000E-01 1.0000E-02 7.4800E+01 2.1000E+00      2.
 5.1000E-01 1.0000E-02 7.3600E+01 2.0000E+00      2.
 5.4000E-01 1.0000E-02 7.4200E+01 2.0000E+00      2.
 5.6000E-01 1.0000E-02 7.5700E+01 2.0000E+00      2.
 5.9000E-01 1.0000E-02 7.5800E+01 2.0000E+00      2.
 6.1000E-01 1.0000E-02 7.6600E+01 2.1000E+00      2.
 6.3000E-01 1.0000E-02 7.5400E+01 2.0000E+00      2.
 6.6000E-01 1.0000E-02 7.8700E+01 2.1000E+00      2.
 6.9000E-01 1.0000E-02 7.6300E+01 2.0000E+00      2.
 7.1000E-01 1.0000E-02 7.8600E+01 2.1000E+00      2.
 7.3000E-01 1.0000E-02 7.4600E+01 2.1000E+00      2.
 7.6000E-01 1.0000E-02 7.8700E+01 2.0000E+00      2.
 7.9000E-01 2.0000E-02 7.9400E+01 2.1000E+00      2.
 8.1000E-01 2.0000E-02 7.8300E+01 2.1000E+00      2.
 8.4000E-01 2.0000E-02 7.6600E+01 2.0000E+00      2.
 8.6000E-01 2.0000E-02 8.0000E+01 2.2000E+00      2.
 8.9000E-01 2.0000E-02 8.1000E+01 2.1000E+00      2.
 9.1000E-01 2.0000E-02 8.0200E+01 2.1000E+00      2.
 9.4000E-01 2.0000E-02 7.9500E+01 2.1000E+00      2.
 9.6000E-01 2.0000E-02 7.8400E+01 2.1000E+00      2.
 9.8000E-01 2.0000E-02 7.7800E+01 2.1000E+00      2.
 1.0100E+00 2.0000E-02 7.6800E+01 2.2000E+00      2.
 1.0400E+00 2.0000E-02 7.8400E+01 2.0000E+00      2.
 1.0600E+00 2.0000E-02 7.8300E+01 2.2000E+00      2.
 1.0900E+00 2.0000E-02 7.7800E+01 2.1000E+00      2.
 1.1100E+00 2.0000E-02 7.4900E+01 2.1000E+00      2.
 1.1300E+00 3.0000E-02 7.5100E+01 2.1000E+00      2.
 1.1600E+00 3.0000E-02 7.6000E+01 2.1000E+00      2.
 1.1900E+00 3.0000E-02 7.6100E+01 2.1000E+00      2.
 1.2100E+00 3.0000E-02 7.4000E+01 2.0000E+00      2.
 1.2400E+00 3.0000E-02 7.3500E+01 2.2000E+00      2.
 1.2600E+00 3.0000E-02 7.6700E+01 1.6000E+00      2.
 1.2900E+00 3.0000E-02 7.4500E+01 1.6000E+00      2.
 1.3200E+00 3.0000E-02 7.2300E+01 1.5000E+00      2.
 1.3500E+00 3.0000E-02 7.2800E+01 1.5000E+00      2.
 1.3900E+00 4.0000E-02 7.2200E+01 1.5000E+00      2.
 1.4200E+00 4.0000E-02 7.2100E+01 1.5000E+00      2.
 1.4500E+00 4.0000E-02 6.9100E+01 1.7000E+00      2.
 1.4700E+00 4.0000E-02 7.0700E+01 1.8000E+00      2.
 1.5000E+00 4.0000E-02 7.1300E+01 1.8000E+00      2.
 1.5200E+00 4.0000E-02 6.7300E+01 1.7000E+00      2.
 1.5500E+00 4.0000E-02 6.8400E+01 1.7000E+00      2.
 1.5800E+00 4.0000E-02 6.5100E+01 1.6000E+00      2.
 1.6000E+00 4.0000E-02 6.5700E+01 1.6000E+00      2.
 1.6300E+00 4.0000E-02 6.4300E+01 1.6000E+00      2.
 1.6600E+00 5.0000E-02 6.4100E+01 1.6000E+00      2.
 1.6900E+00 5.0000E-02 6.4700E+01 1.6000E+00      2.
 1.7200E+00 5.0000E-02 6.1900E+01 1.5000E+00      2.
 1.7500E+00 5.0000E-02 6.3100E+01 1.5000E+00      2.
 1.7900E+00 5.0000E-02 6.3000E+01 1.5000E+00      2.
 1.8200E+00 5.0000E-02 6.0900E+01 1.5000E+00      2.
 1.8500E+00 5.0000E-02 5.9900E+01 1.5000E+00      2.
 1.8900E+00 6.0000E-02 5.8700E+01 1.4000E+00      2.
 1.9300E+00 6.0000E-02 5.8000E+01 1.4000E+00      2.
 1.9600E+00 6.0000E-02 5.7000E+01 1.4000E+00      2.
 2.0000E+00 6.0000E-02 5.6100E+01 1.4000E+00      2.
 2.0400E+00 6.0000E-02 5.4600E+01 1.3000E+00      2.
 2.0700E+00 6.0000E-02 5.4100E+01 1.8000E+00      2.
 2.0900E+00 6.0000E-02 5.2700E+01 1.8000E+00      2.
 2.1100E+00 7.0000E-02 5.2000E+01 1.8000E+00      2.
 2.1400E+00 7.0000E-02 5.1600E+01 1.8000E+00      2.
 2.1600E+00 7.0000E-02 5.2900E+01 1.8000E+00      2.
 2.1800E+00 7.0000E-02 5.1000E+01 1.7000E+00      2.
 2.2000E+00 7.0000E-02 5.1000E+01 1.7000E+00      2.
 2.2200E+00 7.0000E-02 4.9600E+01 1.7000E+00      2.
 2.2500E+00 7.0000E-02 4.8900E+01 1.7000E+00      2.
 2.2700E+00 7.0000E-02 4.7300E+01 1.6000E+00      2.
 2.2900E+00 7.0000E-02 4.9500E+01 1.7000E+00      2.
 2.3200E+00 7.0000E-02 4.6600E+01 1.6000E+00
 2.3400E+00 7.0000E-02 4.5400E+01 1.6000E+00
 2.3700E+00 8.0000E-02 4.6200E+01 1.6000E+00
 2.3900E+00 8.0000E-02 4.6600E+01 1.6000E+00
 2.4200E+00 8.0000E-02 4.5300E+01 1.5000E+00
 2.4400E+00 8.0000E-02 4.4000E+01 1.5000E+00
 2.4700E+00 8.0000E-02 4.4600E+01 1.5000E+00
 2.5000E+00 8.0000E-02 4.1600E+01 1.4000E+00
 2.5300E+00 9.0000E-02 4.3400E+01 1.5000E+00
 2.5600E+00 9.0000E-02 4.1300E+01 1.4000E+00
 2.5800E+00 9.0000E-02 4.3200E+01 1.5000E+00
 2.6100E+00 9.0000E-02 4.1400E+01 1.4000E+00
 2.6400E+00 9.0000E-02 3.9500E+01 1.4000E+00
 2.6700E+00 9.0000E-02 3.8900E+01 1.3000E+00
 2.7000E+00 9.0000E-02 3.9700E+01 1.4000E+00
 2.7300E+00 1.0000E-01 3.7500E+01 1.3000E+00
 2.7600E+00 1.0000E-01 3.6400E+01 1.2000E+00
 2.7900E+00 1.0000E-01 3.6100E+01 1.2000E+00
 2.8200E+00 1.0000E-01 3.6600E+01 1.2000E+00
 2.8600E+00 1.0000E-01 3.6200E+01 1.2000E+00
 2.8900E+00 1.0000E-01 3.4800E+01 1.2000E+00
 2.9300E+00 1.0000E-01 3.4000E+01 1.2000E+00
 2.9600E+00 1.0000E-01 3.4100E+01 1.2000E+00
 3.0000E+00 1.1000E-01 3.3400E+01 1.2000E+00
 3.0300E+00 1.1000E-01 3.1200E+01 1.1000E+00
 3.0700E+00 1.1000E-01 3.2400E+01 1.1000E+00
 3.1100E+00 1.1000E-01 3.1500E+01 1.1000E+00
 3.1500E+00 1.2000E-01 3.0700E+01 1.1000E+00
 3.1800E+00 1.2000E-01 2.9300E+01 1.0000E+00
 3.2200E+00 1.2000E-01 2.8600E+01 1.0000E+00
 3.2600E+00 1.2000E-01 2.8300E+01 1.0000E+00
 3.3000E+00 1.2000E-01 2.7100E+01 1.0000E+00
 3.3400E+00 1.3000E-01 2.7600E+01 1.0000E+00
 3.3900E+00 1.3000E-01 2.6300E+01 9.0000E-01
 3.4300E+00 1.3000E-01 2.5400E+01 9.0000E-01
 3.4800E+00 1.4000E-01 2.4600E+01 9.0000E-01
 3.5200E+00 1.4000E-01 2.4400E+01 9.0000E-01
 3.5700E+00 1.4000E-01 2.3700E+01 8.0000E-01
 3.6100E+00 1.4000E-01 2.2400E+01 8.0000E-01
 3.6600E+00 1.5000E-01 2.1700E+01 8.0000E-01
 3.7100E+00 1.5000E-01 2.2500E+01 8.0000E-01
 3.7600E+00 1.5000E-01 2.1100E+01 8.0000E-01
 3.8100E+00 1.5500E-01 2.0000E+01 7.0000E-01
 3.8600E+00 1.5500E-01 1.9000E+01 7.0000E-01
 3.9200E+00 1.6500E-01 1.9400E+01 7.0000E-01
 3.9700E+00 1.6500E-01 1.7700E+01 7.0000E-01
 4.0300E+00 1.6500E-01 1.8000E+01 7.0000E-01
 4.0800E+00 1.7500E-01 1.6600E+01 6.0000E-01
 4.1400E+00 1.7500E-01 1.6700E+01 6.0000E-01
 4.2000E+00 1.8000E-01 1.6000E+01 6.0000E-01
 4.2600E+00 1.8500E-01 1.5300E+01 6.0000E-01
 4.3200E+00 1.8500E-01 1.5200E+01 6.0000E-01
 4.3800E+00 1.9500E-01 1.4500E+01 6.0000E-01
 4.4500E+00 1.9500E-01 1.3200E+01 5.0000E-01
 4.5100E+00 2.0000E-01 1.3200E+01 5.0000E-01
 4.5700E+00 2.0500E-01 1.3100E+01 5.0000E-01
 4.6400E+00 2.1000E-01 1.2400E+01 5.0000E-01
 4.7200E+00 2.1500E-01 1.2300E+01 5.0000E-01
 4.7900E+00 2.2000E-01 1.1300E+01 5.0000E-01
 4.8600E+00 2.2500E-01 1.0800E+01 4.0000E-01
 4.9400E+00 2.3000E-01 9.7300E+00 4.2000E-01
 5.0100E+00 2.3500E-01 1.0000E+01 4.0000E-01
 5.0900E+00 2.4000E-01 9.5600E+00 4.1000E-01
 5.1700E+00 2.4500E-01 8.7700E+00 3.9000E-01
 5.2500E+00 2.5000E-01 8.6100E+00 3.8000E-01
 5.3400E+00 2.6000E-01 8.6900E+00 3.8000E-01
 5.4200E+00 2.6000E-01 7.9600E+00 3.6000E-01
 5.5100E+00 2.7000E-01 7.1600E+00 3.4000E-01
 5.6000E+00 2.8000E-01 7.2600E+00 3.4000E-01
 5.6900E+00 2.8000E-01 6.0200E+00 3.1000E-01
 5.7900E+00 2.9000E-01 6.0600E+00 3.1000E-01
 5.8800E+00 3.0000E-01 6.0300E+00 3.1000E-01
 5.9900E+00 3.0500E-01 5.8600E+00 3.0000E-01
 6.0900E+00 3.1000E-01 5.1600E+00 2.8000E-01
 6.1900E+00 3.2000E-01 4.9700E+00 2.8000E-01
 6.3000E+00 3.3000E-01 4.8800E+00 2.7000E-01
 6.4100E+00 3.3500E-01 4.1800E+00 2.6000E-01
 6.5300E+00 3.4500E-01 4.0000E+00 2.5000E-01
 6.6400E+00 3.5500E-01 3.7100E+00 2.4000E-01
 6.7600E+00 3.6500E-01 3.6100E+00 2.4000E-01
 6.8800E+00 3.7500E-01 3.3900E+00 2.3000E-01
 7.0100E+00 3.8500E-01 2.8600E+00 2.2000E-01
 7.1400E+00 3.9500E-01 2.6700E+00 2.1000E-01
 7.2800E+00 4.0500E-01 2.5700E+00 2.1000E-01
 7.4100E+00 4.2000E-01 2.2400E+00 2.0000E-01
 7.5500E+00 4.3000E-01 2.2200E+00 2.0000E-01
 7.7000E+00 4.4000E-01 1.7100E+00 1.9000E-01
 7.8500E+00 4.6000E-01 1.9000E+00 1.9000E-01
 8.0000E+00 4.7000E-01 1.6100E+00 1.8000E-01
 8.1600E+00 4.8000E-01 1.3500E+00 1.7000E-01
 8.3300E+00 4.9500E-01 1.2900E+00 1.7000E-01
 8.5000E+00 5.1500E-01 1.0000E+00 1.6000E-01
 8.6700E+00 5.2500E-01 1.0900E+00 1.5000E-01
 8.8500E+00 5.4500E-01 8.7000E-01 1.5000E-01
 9.0400E+00 5.6000E-01 9.1000E-01 1.5000E-01
 9.2300E+00 5.8000E-01 4.9000E-01 1.4000E-01
 9.4200E+00 6.0000E-01 7.3000E-01 1.4000E-01
 9.6200E+00 6.2000E-01 4.0000E-01 1.4000E-01
 9.8400E+00 6.3500E-01 6.8000E-01 1.4000E-01
 1.0060E+01 6.5500E-01 4.8000E-01 1.3000E-01
 1.0400E+01 7.0000E-01 1.5000E-01 1.0000E-01
 1.0880E+01 7.2500E-01 3.0000E-01 9.0000E-02
 1.1400E+01 8.0500E-01 3.4000E-01 8.0000E-02
 1.1940E+01 8.6500E-01 9.0000E-02 1.1000E-01
 1.2540E+01 9.3000E-01 1.1000E-01 9.0000E-02
 1.3180E+01 9.9500E-01 5.0000E-02 1.6000E-01
 1.3870E+01 1.0350E+00 5.0000E-02 1.7000E-01
ENDDATA            185
ENDSUBENT          204
SUBENT        20576004   20110810   20120427   20120411       2227
BIB                  5         25
REACTION  1(94-PU-239(N,F)0-NN-1,PR,KE,,,DERIV)
          2(94-PU-239(N,F)0-NN-1,PR,KE,,,DERIV)
ANALYSIS  1.Average neutron energy obtained via Maxwell fitting
            of experimental data
          2.Average neutron energy obtained by independent direct
            integration of experimental data
ERR-ANALYS (ERR-S) .Statistical error
          1(ERR-T) .Total error including neutron secondary inter-
              actions in sample error, detector efficiency errors,
              and statistical error.
           (ERR-1) .Detector efficiency error
           (ERR-2) .Error due to corrections caused by neutron
                    interactions in sample
           (ERR-3,2.,5.) Errors due to systematic changes in
                   detector efficiency
          2(ERR-T) .Total error includes errors due to lower and
              upper energy levels of integration, error due to
              secondary neutron interactions in sample
           (ERR-1) .Error due to secondary neutron interactions
                    in sample
           (ERR-2,0.2,5.4) .Error due to determination of lower
              and upper energy levels of integration
STATUS     (TABLE)  .Data from text of AKE, v.26, p.76, 1975
           (DEP,20576003)
HISTORY    (20110810C)  S.M.
ENDBIB              25
COMMON               1          3
ERR-S
PER-CENT
  0.5
ENDCOMMON            3
DATA                 7          1
DATA      1ERR-T     1ERR-1     1ERR-2     1DATA      2ERR-T     2
ERR-1     2
MEV        MEV        PER-CENT   PER-CENT   MEV        MEV
PER-CENT
   2.148      0.045      1.         1.         2.125      0.035
       1.
ENDDATA              6
ENDSUBENT           40
SUBENT        20576006   20110810   20120427   20120411       2227
BIB                  5          8
REACTION   ((94-PU-239(N,F)0-NN-1,PR,KE)/
           (92-U-235(N,F)0-NN-1,PR,KE))
REL-REF    (R,,E.D.Kielhofer+,C,71VIENNA,,127,1971) Average energy
                               of U-235
ERR-ANALYS (DATA-ERR)  Not specified
STATUS     (TABLE) Data from text of AKE, v.26, p.76, 1975
           (DEP,20576002)
HISTORY    (20110810C)  S.M.
ENDBIB               8
NOCOMMON             0          0
DATA                 2          1
DATA       DATA-ERR
NO-DIM     NO-DIM
   1.037      0.020
ENDDATA              3
ENDSUBENT           16
ENDENTRY             5
"

/-- the files -/
def db : DB := ⟨fun p =>
  if p = chars!"137/13787.x4" then .ok file13787
  else if p = chars!"141/14129.x4" then .ok file14129
  else if p = chars!"219/21971.x4" then .ok file21971
  else if p = chars!"207/20795.x4" then .ok file20795
  else if p = chars!"138/13883.x4" then .ok file13883
  else if p = chars!"E07/E0783.x4" then .ok fileE0783
  else if p = chars!"113/11321.x4" then .ok file11321
  else if p = chars!"113/11314.x4" then .ok file11314
  else if p = chars!"123/12326.x4" then .ok file12326
  else if p = chars!"205/20576.x4" then .ok file20576
  else .error .ioError⟩

/-- order of the rows in `sort()` -/
def cellLt : Option Dec → Option Dec → Bool
  | some x, some y => decide ((decAdd x ⟨-y.m, y.e⟩).m < 0)
  | none, some _ => true
  | _, none => false
def rowLe : List (Option Dec) → List (Option Dec) → Bool
  | [], _ => true
  | _ :: _, [] => false
  | x :: xs, y :: ys => if cellLt x y then true else if cellLt y x then false else rowLe xs ys

/-- rows of the index for the subentries that the queries of the tests find -/
def index : List Row :=
  [chars!"13787002", chars!"14129002", chars!"21971003", chars!"20795014", chars!"20795015", chars!"13883002"].map (fun s =>
    ⟨some (s.take 5), some s, some [' '], some [], some chars!"N,2N", some ['N'], some chars!"PU-239", some chars!"SIG"⟩) ++
  [⟨some chars!"E0783", some chars!"E0783002", some [' '], some [], some chars!"D,EL", some ['D'], some chars!"H-1", some chars!"POL/DA"⟩] ++
  [chars!"11321004", chars!"11314002", chars!"12326006", chars!"20576003"].map (fun s => ⟨some (s.take 5), some s, some [' '], some [], some [], some [], some [], some []⟩)

/-- `str` of a dataset of an entry that is found, simplified in either way or not -/
def foundStr (c : Criteria) (k : DsKey) (simplify : Bool) (one : Bool) : Except PyErr Str :=
  (retrieveRaw index db c).bind fun l => (l.get k.1).bind fun raw =>
    strOf ((if simplify then simplified raw else datasets raw).bind fun ds =>
      if one then (ds.get k).bind fun d => (d.getSimplified false false).map fun d' => [(k, d')] else .ok ds) k

/-- with the texts of reactions instead of the reactions, which is what `append` compares -/
def plain (d : DataSet Measurement Dec) : DataSet Str Dec :=
  { kind := d.kind, info := { }, reaction := d.reaction.map fun r => (texts.rx r.1, r.2), monitor := none, coupled := d.coupled, labels := d.labels,
    units := d.units, data := d.data, simplified := d.simplified, frame := d.frame }

/-- `setUp` and `test_append` of the tests of datasets -/
def appended : Except PyErr Str :=
  match retrieveRaw index db { quantity := some chars!"SIG", target := some chars!"PU-239", reaction := some chars!"N,2N" } with
  | .error e => .error e
  | .ok l =>
    match foldE (fun (acc : Dict DsKey (DataSet Measurement Dec)) kv => if kv.1 = chars!"13787" then .ok acc else
        (entryOf kv.2).bind fun e => (e.getSimplifiedDataSets (x4RxOps rxDicts) [] true).map fun st => st.datasets.foldl (fun a kd => a.set kd.1 kd.2) acc) [] l with
    | .error e => .error e
    | .ok ds =>
      let keyLe (a b : DsKey × DataSet Measurement Dec) : Bool := decide ((a.1.2.1.getD []) ≤ (b.1.2.1.getD []))
      match foldE (fun (d : DataSet Str Dec) kd => d.append ⟨fun _ => none, fun _ => [], .ok⟩ (plain kd.2))
          { kind := .generic, info := { }, reaction := none, monitor := none, coupled := false } (ds.mergeSort keyLe) with
      | .error e => .error e
      | .ok d => ({ d with data := d.data.mergeSort rowLe }).str ⟨id, fun _ => [], texts.num⟩

/-- what follows the header -/
def afterHeader : Except PyErr Str → List Str
  | .ok s => (splitChar '\n' (strip s)).filter (fun l => !(chars!"#  ".isPrefixOf l && !chars!"#    ".isPrefixOf l))
  | .error _ => []

-- TestX4DataSet.test_append, line 54
#guard afterHeader appended =
  [chars!"#        Energy        Data          d(Energy)     d(Data)       ",
   chars!"#        MeV           barns         MeV           barns         ",
   chars!"        6.481         0.1009        0.2239        0.03081       ",
   chars!"        6.49          0.024         0.085         0.063         ",
   chars!"        6.5           0.419         0.0           0.053         ",
   chars!"        6.942         0.1261        0.1894        0.02015       ",
   chars!"        7.01          0.049         0.08          0.05          ",
   chars!"        7.1           0.451         0.0           0.06          ",
   chars!"        7.49          0.1525        0.2412        0.01422       ",
   chars!"        7.52          0.054         0.075         0.058         ",
   chars!"        8.0           0.49          0.0           0.057         ",
   chars!"        8.03          0.177         0.075         0.07          ",
   chars!"        8.084         0.2263        0.2582        0.0154        ",
   chars!"        8.54          0.275         0.07          0.054         ",
   chars!"        8.751         0.2669        0.293         0.01659       ",
   chars!"        9.0           0.51          0.0           0.09          ",
   chars!"        9.04          0.249         0.065         0.041         ",
   chars!"        9.504         0.3029        0.3446        0.01659       ",
   chars!"        9.55          0.354         0.065         0.056         ",
   chars!"        10.06         0.415         0.06          0.039         ",
   chars!"        10.34         0.3508        0.3961        0.02014       ",
   chars!"        10.56         0.411         0.06          0.07          ",
   chars!"        11.07         0.356         0.055         0.079         ",
   chars!"        11.34         0.3561        0.4307        0.02015       ",
   chars!"        11.57         0.418         0.055         0.049         ",
   chars!"        12.08         0.455         0.055         0.076         ",
   chars!"        12.45         0.2951        0.534         0.01776       ",
   chars!"        12.58         0.318         0.05          0.132         ",
   chars!"        13.09         0.588         0.05          0.148         ",
   chars!"        13.1          0.641         0.0           0.038         ",
   chars!"        13.77         0.2284        0.603         0.01539       ",
   chars!"        13.8          0.228         0.0           0.006384      ",
   chars!"        14.0          0.219         0.0           0.007884      ",
   chars!"        14.8          0.214         0.0           0.002996      ",
   chars!"        15.33         0.1558        0.7231        0.0154        ",
   chars!"        17.19         0.1178        0.8438        0.008262      ",
   chars!"        19.34         0.1025        1.068         0.007097"]

-- TestTheWorks.test_polarization, line 117
#guard (foundStr { SUBENT := some (.str chars!"E0783002") } (chars!"E0783", some chars!"E0783002", ' ') false false) = .ok "#  Authors:   K.Hatanaka, N.Matsuoka, H.Sakai, T.Saito, H.Tamura, K.Hosono, M.Kondo, K.Imai, H.Shimizu, K.Nishimura
#  Title:     Acceleration Of Protons And Deuterons Polarized In The Horizontal Planeby The Rcnp Cyclotron
#  Year:      1983
#  Institute: Osaka Univ., Osaka (Research Center For Nuclear Physics, Osaka Univ.); Kyoto Univ.
#  Reference: Nuclear Instrum.and Methods in Physics Res. 217, 397 (1983)
#  Subent:    E0783002
#  Reaction:  Vector analyzing power, A(y), for incident beam Spin-polarization probability d/dA for 1H(d,Elastic)1H 
#        EN            ANG-CM        DATA          DATA-ERR      FLAG          
#        MEV           ADEG          NO-DIM        NO-DIM        NO-DIM        
        56.0          30.712        -0.002211     None          1.0           
        56.0          38.727        -0.005861     0.00821       None          
        56.0          46.135        0.01022       None          1.0           
        56.0          55.814        0.04098       None          1.0           
        56.0          64.866        0.07998       None          1.0           
        56.0          69.415        0.1126        None          1.0           
        56.0          74.316        0.1633        0.0147        None          
        56.0          79.924        0.2517        0.0115        None          
        56.0          84.442        0.2663        0.0131        None          
        56.0          89.661        0.3153        0.00821       None          
        56.0          94.181        0.3315        0.0164        None          
        56.0          99.114        0.4003        0.0115        None          
        56.0          104.318       0.4411        0.0131        None          
        56.0          109.841       0.4802        0.0132        None          
        56.0          115.135       0.388         0.0132        None          
        56.0          120.355       0.2531        0.0131        None          
        56.0          125.595       -0.05416      0.0214        None          
        56.0          129.34        -0.299        0.0197        None          
        56.0          134.447       -0.314        0.018         None          
        56.0          139.629       -0.1024       0.0197        None          
        56.0          145.538       -0.02551      0.0148        None          
        56.0          150.255       0.104         0.0246        None          
        56.0          155.357       0.0857        0.0246        None          
        56.0          160.562       0.1265        0.0197        None          
        ".toList

-- TestTheWorks.test_cs_Pun2n, line 128
#guard (foundStr { target := some chars!"PU-239", reaction := some chars!"N,2N", quantity := some chars!"CS" } (chars!"13883", some chars!"13883002", ' ') true false).map strip = .ok "#  Authors:   R.W.Lougheed, W.Webster, M.N.Namboodiri, D.R.Nethaway, K.J.Moody, J.H.Landrum, R.W.Hoff, R.J.Dupzyk, J.H.Mcquaid, R.Gunnink, E.D.Watkins
#  Title:     239Pu And 241Am(N,2N) Cross-Section Measurements Near E(N) = 14 Mev
#  Year:      2002
#  Institute: Lawrence Livermore National Laboratory, Livermore, CA
#  Reference: Radiochimica Acta 90, 833 (2002)
#  Subent:    13883002
#  Reaction:  Cross section for 239Pu(n,2n)238Pu 
#  Monitor(s): ((79-AU-197(N,2N)79-AU-196,SIG), 'Flux monitor. Neutron energy determined using 54Fe(n,p) reaction.', None)
#        Energy        Data          d(Data)       
#        MeV           barns         barns         
        13.8          0.228         0.006384      
        14.0          0.219         0.007884      
        14.8          0.214         0.002996".toList

-- TestTheWorks.test_cs_Pun2n, line 131
#guard (foundStr { target := some chars!"PU-239", reaction := some chars!"N,2N", quantity := some chars!"CS" } (chars!"21971", some chars!"21971003", ' ') true false).map strip = .ok "#  Authors:   J.Frehaut, A.Bertin, R.Blois, E.Gryntakis, C.A.Philis
#  Title:     (N,2N) Cross Sections Of 2-H And 239-Pu
#  Year:      1986
#  Institute: 2FR
#  Reference: Radiation Effects 96, 219 (1986); Conf.on Nucl.Data f.Basic a.Appl.Sci.,Santa Fe 1985 2, 1561 (1985)
#  Subent:    21971003
#  Reaction:  Cross section for 239Pu(n,2n)238Pu 
#        Energy        Data          d(Energy)     d(Data)       
#        MeV           barns         MeV           barns         
        6.49          0.024         0.085         0.063         
        7.01          0.049         0.08          0.05          
        7.52          0.054         0.075         0.058         
        8.03          0.177         0.075         0.07          
        8.54          0.275         0.07          0.054         
        9.04          0.249         0.065         0.041         
        9.55          0.354         0.065         0.056         
        10.06         0.415         0.06          0.039         
        10.56         0.411         0.06          0.07          
        11.07         0.356         0.055         0.079         
        11.57         0.418         0.055         0.049         
        12.08         0.455         0.055         0.076         
        12.58         0.318         0.05          0.132         
        13.09         0.588         0.05          0.148".toList

-- TestTheWorks.test_cs_Pun2n, line 135
#guard (foundStr { target := some chars!"PU-239", reaction := some chars!"N,2N", quantity := some chars!"CS" } (chars!"20795", some chars!"20795014", ' ') true false).map strip = .ok "#  Authors:   D.S.Mather, P.F.Bampton, R.E.Coles, G.James, P.J.Nind
#  Title:     -Measurement Of (N,2N) Cross Sections For Incident Energies Between 6 And 14 Mev-.
#  Year:      1972
#  Institute: 2UK
#  Reference: Report other than progress report: AWRE-O-72/72  (1972); Report other than progress report: AWRE-O-47/69  (1969)
#  Subent:    20795014
#  Reaction:  Cross section for 239Pu(n,2n)238Pu 
#  Monitor(s): ((94-PU-239(N,F),SIG), '1917MB+-8PERCENT  AT 6.5MEV 2030MB+-8.5PERCENT AT 7.1MEV 2213MB+-9PERCENT   AT 8.0MEV 2252MB+-9.5PERCENT AT 9.0MEV', None)
#        Energy        Data          d(Data)       
#        MeV           barns         barns         
        6.5           0.419         0.053         
        7.1           0.451         0.06          
        8.0           0.49          0.057         
        9.0           0.51          0.09".toList

-- TestTheWorks.test_cs_Pun2n, line 139
#guard (foundStr { target := some chars!"PU-239", reaction := some chars!"N,2N", quantity := some chars!"CS" } (chars!"14129", some chars!"14129002", ' ') true false).map strip = .ok "#  Authors:   J.A.Becker, L.A.Bernstein, W.Younes, D.P.Mcnabb, P.E.Garrett, D.E.Archer, C.A.Mcgrath, M.A.Stoyer, H.Chen, W.E.Ormand, R.O.Nelson, M.B.Chadwick, G.D.Johns, D.Drake, P.G.Young, M.Devlin, N.Fotiades, W.S.Wilburn
#  Title:     Partial Gamma-Ray Cross Sections For The Reaction 239Pu(N,2Ng) And The 239Pu(N,2N) Cross Section
#  Year:      2002
#  Institute: Lawrence Livermore National Laboratory, Livermore, CA
#  Reference: J.Nucl.Science and Technol.Tokyo,Supplement 2, (1), 620 (2002)
#  Subent:    14129002
#  Reaction:  Cross section for 239Pu(n,2n)238Pu 
#        Energy        Data          d(Energy)     d(Data)       
#        MeV           barns         MeV           barns         
        6.481         0.1009        0.2239        0.03081       
        6.942         0.1261        0.1894        0.02015       
        7.49          0.1525        0.2412        0.01422       
        8.084         0.2263        0.2582        0.0154        
        8.751         0.2669        0.293         0.01659       
        9.504         0.3029        0.3446        0.01659       
        10.34         0.3508        0.3961        0.02014       
        11.34         0.3561        0.4307        0.02015       
        12.45         0.2951        0.534         0.01776       
        13.77         0.2284        0.603         0.01539       
        15.33         0.1558        0.7231        0.0154        
        17.19         0.1178        0.8438        0.008262      
        19.34         0.1025        1.068         0.007097".toList

-- TestTheWorks.test_angular_dist, line 146
#guard (foundStr { SUBENT := some (.str chars!"11321004") } (chars!"11321", some chars!"11321004", ' ') false false) = .ok "#  Authors:   R.W.Hill
#  Title:     Angular Distributions Of Elastic Scattering Of 5-Mev Neutrons.
#  Year:      1958
#  Institute: Westinghouse Research Lab., Pittsburgh, PA
#  Reference: Physical Review 109, 2105 (1958)
#  Subent:    11321004
#  Reaction:  Differential c/s with respect to angle for 27Al(n,Elastic)27Al 
#  Frame:     Lab
#        EN            EN-RSL        ANG-RSL       COS           DATA          DATA-ERR      
#        MEV           MEV           ADEG          NO-DIM        MB/SR         MB/SR         
        5.0           0.1           10.0          0.866         290.0         30.0          
        5.0           0.1           10.0          0.766         212.0         10.0          
        5.0           0.1           10.0          0.643         140.0         10.0          
        5.0           0.1           10.0          0.5           70.0          9.0           
        5.0           0.1           10.0          0.342         43.0          6.0           
        5.0           0.1           10.0          0.174         40.0          5.0           
        5.0           0.1           10.0          0.0           30.0          3.0           
        5.0           0.1           10.0          -0.174        30.0          5.0           
        5.0           0.1           10.0          -0.342        25.0          4.0           
        5.0           0.1           10.0          -0.5          20.0          5.0           
        5.0           0.1           10.0          -0.643        22.0          5.0           
        5.0           0.1           10.0          -0.766        22.0          4.0           
        5.0           0.1           10.0          -0.866        25.0          4.0           
        ".toList

-- TestTheWorks.test_angular_dist, line 149
#guard (foundStr { SUBENT := some (.str chars!"11321004") } (chars!"11321", some chars!"11321004", ' ') false true) = .ok "#  Authors:   R.W.Hill
#  Title:     Angular Distributions Of Elastic Scattering Of 5-Mev Neutrons.
#  Year:      1958
#  Institute: Westinghouse Research Lab., Pittsburgh, PA
#  Reference: Physical Review 109, 2105 (1958)
#  Subent:    11321004
#  Reaction:  Differential c/s with respect to angle for 27Al(n,Elastic)27Al 
#  Frame:     Lab
#        Energy        Angle         Data          d(Energy)     d(Angle)      d(Data)       
#        MeV           degrees       barns/ster    MeV           degrees       barns/ster    
        5.0           30.0029109312 0.29          0.05          5.0           0.03          
        5.0           40.0039613369 0.212         0.05          5.0           0.01          
        5.0           49.9841125607 0.14          0.05          5.0           0.01          
        5.0           60.0          0.07          0.05          5.0           0.009         
        5.0           70.0012281921 0.043         0.05          5.0           0.006         
        5.0           79.9795304514 0.04          0.05          5.0           0.005         
        5.0           90.0          0.03          0.05          5.0           0.003         
        5.0           100.020469549 0.03          0.05          5.0           0.005         
        5.0           109.998771808 0.025         0.05          5.0           0.004         
        5.0           120.0         0.02          0.05          5.0           0.005         
        5.0           130.015887439 0.022         0.05          5.0           0.005         
        5.0           139.996038663 0.022         0.05          5.0           0.004         
        5.0           149.997089069 0.025         0.05          5.0           0.004         
        ".toList

-- TestTheWorks.test_angular_dist_cm, line 155
#guard (foundStr { SUBENT := some (.str chars!"11314002") } (chars!"11314", some chars!"11314002", ' ') false false) = .ok "#  Authors:   J.L.Fowler, C.H.Johnson
#  Title:     Differential Elastic Scattering Cross Sections For Neutrons On Nitrogen.
#  Year:      1955
#  Institute: Oak Ridge National Laboratory, Oak Ridge, TN
#  Reference: Physical Review 98, 728 (1955)
#  Subent:    11314002
#  Reaction:  Differential c/s with respect to angle for 14N(n,Elastic)14N 
#  Frame:     Center of mass
#        EN            EN-RSL        COS-CM        DATA-CM       
#        MEV           MEV           NO-DIM        MB/SR         
        0.8           0.05          0.85          164.0         
        0.8           0.05          0.65          170.0         
        0.8           0.05          0.46          157.0         
        0.8           0.05          0.27          167.0         
        0.8           0.05          0.07          151.0         
        0.8           0.05          -0.11         156.0         
        0.8           0.05          -0.31         165.0         
        0.8           0.05          -0.51         143.0         
        0.8           0.05          -0.7          128.0         
        0.97          0.02          0.49          90.0          
        0.97          0.02          0.45          88.0          
        0.97          0.02          0.42          83.0          
        0.97          0.02          0.39          76.0          
        0.97          0.02          0.36          76.0          
        0.97          0.02          0.31          76.0          
        0.97          0.02          0.28          80.0          
        0.97          0.02          0.24          83.0          
        0.97          0.02          0.2           82.0          
        0.97          0.02          0.17          78.0          
        0.97          0.02          0.14          78.0          
        0.97          0.02          0.1           75.0          
        0.97          0.02          0.06          76.0          
        0.97          0.02          0.02          78.0          
        0.97          0.02          -0.01         80.0          
        0.97          0.02          -0.04         80.0          
        0.97          0.02          -0.08         73.0          
        0.97          0.02          -0.12         78.0          
        0.97          0.02          -0.16         80.0          
        0.97          0.02          -0.19         70.0          
        0.97          0.02          -0.22         76.0          
        0.97          0.02          -0.26         76.0          
        0.97          0.02          -0.3          74.0          
        0.97          0.02          -0.34         73.0          
        0.97          0.02          -0.38         73.0          
        0.97          0.02          -0.41         70.0          
        0.97          0.02          -0.46         70.0          
        0.97          0.02          -0.49         66.0          
        0.97          0.02          -0.52         70.0          
        0.97          0.02          -0.54         65.0          
        0.97          0.02          -0.59         65.0          
        0.97          0.02          -0.62         70.0          
        0.97          0.02          -0.65         60.0          
        0.97          0.02          -0.68         70.0          
        0.97          0.02          -0.74         65.0          
        0.97          0.02          -0.76         65.0          
        0.97          0.02          -0.8          60.0          
        0.97          0.02          -0.84         63.0          
        0.97          0.02          -0.88         60.0          
        0.97          0.02          -0.91         55.0          
        0.97          0.02          -0.94         45.0          
        0.97          0.02          -0.98         40.0          
        1.082         0.01          0.47          148.0         
        1.082         0.01          0.41          135.0         
        1.082         0.01          0.34          145.0         
        1.082         0.01          0.28          133.0         
        1.082         0.01          0.21          126.0         
        1.082         0.01          0.15          125.0         
        1.082         0.01          0.1           135.0         
        1.082         0.01          0.02          145.0         
        1.082         0.01          -0.04         140.0         
        1.082         0.01          -0.11         130.0         
        1.082         0.01          -0.18         130.0         
        1.082         0.01          -0.23         147.0         
        1.082         0.01          -0.3          139.0         
        1.082         0.01          -0.36         138.0         
        1.082         0.01          -0.43         143.0         
        1.082         0.01          -0.5          142.0         
        1.082         0.01          -0.55         140.0         
        1.082         0.01          -0.62         143.0         
        1.082         0.01          -0.68         140.0         
        1.082         0.01          -0.76         145.0         
        1.082         0.01          -0.81         130.0         
        1.082         0.01          -0.88         117.0         
        1.082         0.01          -0.94         110.0         
        1.11          0.01          0.47          214.0         
        1.11          0.01          0.42          204.0         
        1.11          0.01          0.36          194.0         
        1.11          0.01          0.3           186.0         
        1.11          0.01          0.23          182.0         
        1.11          0.01          0.17          180.0         
        1.11          0.01          0.12          178.0         
        1.11          0.01          0.05          172.0         
        1.11          0.01          -0.02         169.0         
        1.11          0.01          -0.07         174.0         
        1.11          0.01          -0.14         168.0         
        1.11          0.01          -0.2          170.0         
        1.11          0.01          -0.26         178.0         
        1.11          0.01          -0.32         178.0         
        1.11          0.01          -0.39         187.0         
        1.11          0.01          -0.44         195.0         
        1.11          0.01          -0.5          190.0         
        1.11          0.01          -0.56         195.0         
        1.11          0.01          -0.63         202.0         
        1.11          0.01          -0.69         185.0         
        1.11          0.01          -0.76         207.0         
        1.11          0.01          -0.81         185.0         
        1.12          0.01          0.47          315.0         
        1.12          0.01          0.43          270.0         
        1.12          0.01          0.37          220.0         
        1.12          0.01          0.3           230.0         
        1.12          0.01          0.23          220.0         
        1.12          0.01          0.18          205.0         
        1.12          0.01          0.12          190.0         
        1.12          0.01          0.06          215.0         
        1.12          0.01          0.0           185.0         
        1.12          0.01          -0.06         195.0         
        1.12          0.01          -0.12         185.0         
        1.12          0.01          -0.18         175.0         
        1.12          0.01          -0.23         175.0         
        1.12          0.01          -0.3          175.0         
        1.12          0.01          -0.37         180.0         
        1.12          0.01          -0.43         175.0         
        1.12          0.01          -0.47         180.0         
        1.12          0.01          -0.54         170.0         
        1.12          0.01          -0.6          190.0         
        1.12          0.01          -0.66         175.0         
        1.12          0.01          -0.73         185.0         
        1.12          0.01          -0.8          180.0         
        1.12          0.01          -0.86         170.0         
        1.12          0.01          -0.9          145.0         
        1.12          0.01          -0.98         130.0         
        1.13          0.01          0.48          260.0         
        1.13          0.01          0.42          240.0         
        1.13          0.01          0.36          207.0         
        1.13          0.01          0.3           198.0         
        1.13          0.01          0.25          202.0         
        1.13          0.01          0.18          182.0         
        1.13          0.01          0.12          171.0         
        1.13          0.01          0.05          172.0         
        1.13          0.01          0.0           155.0         
        1.13          0.01          -0.06         165.0         
        1.13          0.01          -0.12         156.0         
        1.13          0.01          -0.2          142.0         
        1.13          0.01          -0.25         134.0         
        1.13          0.01          -0.32         140.0         
        1.13          0.01          -0.37         130.0         
        1.13          0.01          -0.44         124.0         
        1.13          0.01          -0.51         133.0         
        1.13          0.01          -0.56         133.0         
        1.13          0.01          -0.62         129.0         
        1.13          0.01          -0.68         119.0         
        1.13          0.01          -0.74         140.0         
        1.13          0.01          -0.8          121.0         
        1.13          0.01          -0.86         128.0         
        1.13          0.01          -0.92         114.0         
        1.16          0.01          0.45          132.0         
        1.16          0.01          0.385         135.0         
        1.16          0.01          0.33          127.0         
        1.16          0.01          0.27          117.0         
        1.16          0.01          0.2           116.0         
        1.16          0.01          0.15          120.0         
        1.16          0.01          0.08          125.0         
        1.16          0.01          0.04          110.0         
        1.16          0.01          -0.03         100.0         
        1.16          0.01          -0.07         105.0         
        1.16          0.01          -0.14         95.0          
        1.16          0.01          -0.2          105.0         
        1.16          0.01          -0.26         99.0          
        1.16          0.01          -0.32         110.0         
        1.16          0.01          -0.38         100.0         
        1.16          0.01          -0.43         110.0         
        1.16          0.01          -0.5          99.0          
        1.16          0.01          -0.55         105.0         
        1.16          0.01          -0.62         105.0         
        1.16          0.01          -0.67         99.0          
        1.16          0.01          -0.73         102.0         
        1.16          0.01          -0.78         105.0         
        1.16          0.01          -0.84         98.0          
        1.16          0.01          -0.9          90.0          
        1.16          0.01          -0.96         67.0          
        1.35          0.02          0.52          215.0         
        1.35          0.02          0.41          224.0         
        1.35          0.02          0.33          185.0         
        1.35          0.02          0.23          180.0         
        1.35          0.02          0.14          180.0         
        1.35          0.02          0.05          170.0         
        1.35          0.02          -0.04         163.0         
        1.35          0.02          -0.13         180.0         
        1.35          0.02          -0.22         168.0         
        1.35          0.02          -0.33         179.0         
        1.35          0.02          -0.39         193.0         
        1.35          0.02          -0.47         187.0         
        1.35          0.02          -0.57         203.0         
        1.35          0.02          -0.65         210.0         
        1.35          0.02          -0.73         218.0         
        1.35          0.02          -0.81         227.0         
        1.35          0.02          -0.92         233.0         
        1.377         0.02          0.53          210.0         
        1.377         0.02          0.43          192.0         
        1.377         0.02          0.34          190.0         
        1.377         0.02          0.23          170.0         
        1.377         0.02          0.15          176.0         
        1.377         0.02          0.07          164.0         
        1.377         0.02          -0.01         156.0         
        1.377         0.02          -0.11         158.0         
        1.377         0.02          -0.18         150.0         
        1.377         0.02          -0.28         144.0         
        1.377         0.02          -0.35         143.0         
        1.377         0.02          -0.44         140.0         
        1.377         0.02          -0.54         145.0         
        1.377         0.02          -0.63         157.0         
        1.377         0.02          -0.71         155.0         
        1.377         0.02          -0.79         158.0         
        1.377         0.02          -0.88         145.0         
        1.377         0.02          -0.98         100.0         
        1.595         0.02          0.44          320.0         
        1.595         0.02          0.35          303.0         
        1.595         0.02          0.26          265.0         
        1.595         0.02          0.16          225.0         
        1.595         0.02          0.08          223.0         
        1.595         0.02          -0.02         203.0         
        1.595         0.02          -0.11         195.0         
        1.595         0.02          -0.18         170.0         
        1.595         0.02          -0.27         168.0         
        1.595         0.02          -0.36         150.0         
        1.595         0.02          -0.46         160.0         
        1.595         0.02          -0.53         135.0         
        1.595         0.02          -0.64         150.0         
        1.595         0.02          -0.73         125.0         
        1.595         0.02          -0.82         110.0         
        1.595         0.02          -0.92         100.0         
        1.682         0.02          0.5           170.0         
        1.682         0.02          0.36          153.0         
        1.682         0.02          0.26          160.0         
        1.682         0.02          0.16          143.0         
        1.682         0.02          0.07          150.0         
        1.682         0.02          -0.05         130.0         
        1.682         0.02          -0.14         143.0         
        1.682         0.02          -0.25         140.0         
        1.682         0.02          -0.34         138.0         
        1.682         0.02          -0.45         140.0         
        1.682         0.02          -0.54         140.0         
        1.682         0.02          -0.66         150.0         
        1.682         0.02          -0.76         140.0         
        1.682         0.02          -0.87         125.0         
        1.682         0.02          -0.97         80.0          
        1.756         0.025         0.5           193.0         
        1.756         0.025         0.4           163.0         
        1.756         0.025         0.3           155.0         
        1.756         0.025         0.21          137.0         
        1.756         0.025         0.09          124.0         
        1.756         0.025         0.0           123.0         
        1.756         0.025         -0.09         127.0         
        1.756         0.025         -0.19         122.0         
        1.756         0.025         -0.28         128.0         
        1.756         0.025         -0.38         145.0         
        1.756         0.025         -0.47         144.0         
        1.756         0.025         -0.59         178.0         
        1.756         0.025         -0.69         210.0         
        1.756         0.025         -0.79         221.0         
        1.756         0.025         -0.88         245.0         
        1.779         0.025         0.53          170.0         
        1.779         0.025         0.42          148.0         
        1.779         0.025         0.32          140.0         
        1.779         0.025         0.23          130.0         
        1.779         0.025         0.13          125.0         
        1.779         0.025         0.03          130.0         
        1.779         0.025         -0.06         120.0         
        1.779         0.025         -0.15         120.0         
        1.779         0.025         -0.25         125.0         
        1.779         0.025         -0.34         130.0         
        1.779         0.025         -0.44         140.0         
        1.779         0.025         -0.54         180.0         
        1.779         0.025         -0.64         198.0         
        1.779         0.025         -0.73         230.0         
        1.779         0.025         -0.83         260.0         
        1.779         0.025         -0.92         240.0         
        1.796         0.025         0.47          181.0         
        1.796         0.025         0.4           146.0         
        1.796         0.025         0.3           138.0         
        1.796         0.025         0.2           125.0         
        1.796         0.025         0.11          121.0         
        1.796         0.025         0.01          125.0         
        1.796         0.025         -0.1          118.0         
        1.796         0.025         -0.18         106.0         
        1.796         0.025         -0.27         135.0         
        1.796         0.025         -0.36         133.0         
        1.796         0.025         -0.46         141.0         
        1.796         0.025         -0.56         142.0         
        1.796         0.025         -0.67         158.0         
        1.796         0.025         -0.75         178.0         
        1.796         0.025         -0.86         208.0         
        2.07          0.02          0.52          145.0         
        2.07          0.02          0.42          135.0         
        2.07          0.02          0.33          135.0         
        2.07          0.02          0.24          126.0         
        2.07          0.02          0.12          122.0         
        2.07          0.02          0.03          120.0         
        2.07          0.02          -0.06         114.0         
        2.07          0.02          -0.16         127.0         
        2.07          0.02          -0.26         110.0         
        2.07          0.02          -0.36         108.0         
        2.07          0.02          -0.44         117.0         
        2.07          0.02          -0.54         115.0         
        2.07          0.02          -0.64         115.0         
        2.07          0.02          -0.73         110.0         
        2.07          0.02          -0.82         110.0         
        2.07          0.02          -0.92         95.0          
        2.25          0.02          0.55          174.0         
        2.25          0.02          0.46          155.0         
        2.25          0.02          0.39          149.0         
        2.25          0.02          0.3           137.0         
        2.25          0.02          0.21          128.0         
        2.25          0.02          0.12          116.0         
        2.25          0.02          0.02          103.0         
        2.25          0.02          -0.08         105.0         
        2.25          0.02          -0.18         108.0         
        2.25          0.02          -0.26         102.0         
        2.25          0.02          -0.32         103.0         
        2.25          0.02          -0.42         92.0          
        2.25          0.02          -0.5          81.0          
        2.25          0.02          -0.59         78.0          
        2.25          0.02          -0.67         96.0          
        2.25          0.02          -0.76         73.0          
        2.25          0.02          -0.85         77.0          
        2.36          0.02          0.49          145.0         
        2.36          0.02          0.41          140.0         
        2.36          0.02          0.33          125.0         
        2.36          0.02          0.25          106.0         
        2.36          0.02          0.17          106.0         
        2.36          0.02          0.07          105.0         
        2.36          0.02          0.0           121.0         
        2.36          0.02          -0.07         102.0         
        2.36          0.02          -0.16         111.0         
        2.36          0.02          -0.23         110.0         
        2.36          0.02          -0.33         115.0         
        2.36          0.02          -0.41         115.0         
        2.36          0.02          -0.5          107.0         
        2.36          0.02          -0.57         106.0         
        2.36          0.02          -0.66         115.0         
        2.36          0.02          -0.75         105.0         
        2.36          0.02          -0.84         103.0         
        ".toList

-- TestTheWorks.test_angular_dist_cm, line 158
#guard (foundStr { SUBENT := some (.str chars!"11314002") } (chars!"11314", some chars!"11314002", ' ') false true) = .ok "#  Authors:   J.L.Fowler, C.H.Johnson
#  Title:     Differential Elastic Scattering Cross Sections For Neutrons On Nitrogen.
#  Year:      1955
#  Institute: Oak Ridge National Laboratory, Oak Ridge, TN
#  Reference: Physical Review 98, 728 (1955)
#  Subent:    11314002
#  Reaction:  Differential c/s with respect to angle for 14N(n,Elastic)14N 
#  Frame:     Center of mass
#        Energy        Angle         Data          d(Energy)     
#        MeV           degrees       barns/ster    MeV           
        0.8           31.7883306171 0.164         0.025         
        0.8           49.4583981265 0.17          0.025         
        0.8           62.6128924973 0.157         0.025         
        0.8           74.3357331486 0.167         0.025         
        0.8           85.9860127819 0.151         0.025         
        0.8           96.3153155694 0.156         0.025         
        0.8           108.059230491 0.165         0.025         
        0.8           120.663829742 0.143         0.025         
        0.8           134.427004001 0.128         0.025         
        0.97          60.659418425  0.09          0.01          
        0.97          63.2563160496 0.088         0.01          
        0.97          65.1654125103 0.083         0.01          
        0.97          67.0455005986 0.076         0.01          
        0.97          68.8998039759 0.076         0.01          
        0.97          71.9407695092 0.076         0.01          
        0.97          73.7397952917 0.08          0.01          
        0.97          76.1134596374 0.083         0.01          
        0.97          78.4630409672 0.082         0.01          
        0.97          80.2121809433 0.078         0.01          
        0.97          81.9521537527 0.078         0.01          
        0.97          84.2608295227 0.075         0.01          
        0.97          86.5601872325 0.076         0.01          
        0.97          88.8540080016 0.078         0.01          
        0.97          90.5729673449 0.08          0.01          
        0.97          92.292442776  0.08          0.01          
        0.97          94.5885657358 0.073         0.01          
        0.97          96.8921025793 0.078         0.01          
        0.97          99.2068962213 0.08          0.01          
        0.97          100.952784199 0.07          0.01          
        0.97          102.709032994 0.076         0.01          
        0.97          105.070062145 0.076         0.01          
        0.97          107.457603124 0.074         0.01          
        0.97          109.87687407  0.073         0.01          
        0.97          112.333682658 0.073         0.01          
        0.97          114.204834801 0.07          0.01          
        0.97          117.387107503 0.07          0.01          
        0.97          119.340581575 0.066         0.01          
        0.97          121.332251498 0.07          0.01          
        0.97          122.683638846 0.065         0.01          
        0.97          126.157008201 0.065         0.01          
        0.97          128.316134474 0.07          0.01          
        0.97          130.541601874 0.06          0.01          
        0.97          132.843643044 0.07          0.01          
        0.97          137.73141557  0.065         0.01          
        0.97          139.464197889 0.065         0.01          
        0.97          143.130102354 0.06          0.01          
        0.97          147.140119621 0.063         0.01          
        0.97          151.642363424 0.06          0.01          
        0.97          155.505351529 0.055         0.01          
        0.97          160.051556411 0.045         0.01          
        0.97          168.521659045 0.04          0.01          
        1.082         61.9657034651 0.148         0.005         
        1.082         65.7951651985 0.135         0.005         
        1.082         70.1231259299 0.145         0.005         
        1.082         73.7397952917 0.133         0.005         
        1.082         77.8776477552 0.126         0.005         
        1.082         81.3730734413 0.125         0.005         
        1.082         84.2608295227 0.135         0.005         
        1.082         88.8540080016 0.145         0.005         
        1.082         92.292442776  0.14          0.005         
        1.082         96.3153155694 0.13          0.005         
        1.082         100.369759805 0.13          0.005         
        1.082         103.297071747 0.147         0.005         
        1.082         107.457603124 0.139         0.005         
        1.082         111.100196024 0.138         0.005         
        1.082         115.467560142 0.143         0.005         
        1.082         120.0         0.142         0.005         
        1.082         123.367012969 0.14          0.005         
        1.082         128.316134474 0.143         0.005         
        1.082         132.843643044 0.14          0.005         
        1.082         139.464197889 0.145         0.005         
        1.082         144.095931417 0.13          0.005         
        1.082         151.642363424 0.117         0.005         
        1.082         160.051556411 0.11          0.005         
        1.11          61.9657034651 0.214         0.005         
        1.11          65.1654125103 0.204         0.005         
        1.11          68.8998039759 0.194         0.005         
        1.11          72.5423968763 0.186         0.005         
        1.11          76.7029282528 0.182         0.005         
        1.11          80.2121809433 0.18          0.005         
        1.11          83.1078974207 0.178         0.005         
        1.11          87.1340160174 0.172         0.005         
        1.11          91.1459919984 0.169         0.005         
        1.11          94.0139872181 0.174         0.005         
        1.11          98.0478462473 0.168         0.005         
        1.11          101.536959033 0.17          0.005         
        1.11          105.070062145 0.178         0.005         
        1.11          108.662924885 0.178         0.005         
        1.11          112.954499401 0.187         0.005         
        1.11          116.103881137 0.195         0.005         
        1.11          120.0         0.19          0.005         
        1.11          124.055797743 0.195         0.005         
        1.11          129.050122536 0.202         0.005         
        1.11          133.630108868 0.185         0.005         
        1.11          139.464197889 0.207         0.005         
        1.11          144.095931417 0.185         0.005         
        1.12          61.9657034651 0.315         0.005         
        1.12          64.5324398575 0.27          0.005         
        1.12          68.2843827167 0.22          0.005         
        1.12          72.5423968763 0.23          0.005         
        1.12          76.7029282528 0.22          0.005         
        1.12          79.6302401945 0.205         0.005         
        1.12          83.1078974207 0.19          0.005         
        1.12          86.5601872325 0.215         0.005         
        1.12          90.0          0.185         0.005         
        1.12          93.4398127675 0.195         0.005         
        1.12          96.8921025793 0.185         0.005         
        1.12          100.369759805 0.175         0.005         
        1.12          103.297071747 0.175         0.005         
        1.12          107.457603124 0.175         0.005         
        1.12          111.715617283 0.18          0.005         
        1.12          115.467560142 0.175         0.005         
        1.12          118.034296535 0.18          0.005         
        1.12          122.683638846 0.17          0.005         
        1.12          126.869897646 0.19          0.005         
        1.12          131.299872792 0.175         0.005         
        1.12          136.886394054 0.185         0.005         
        1.12          143.130102354 0.18          0.005         
        1.12          149.316582891 0.17          0.005         
        1.12          154.158067237 0.145         0.005         
        1.12          168.521659045 0.13          0.005         
        1.13          61.3145979859 0.26          0.005         
        1.13          65.1654125103 0.24          0.005         
        1.13          68.8998039759 0.207         0.005         
        1.13          72.5423968763 0.198         0.005         
        1.13          75.5224878141 0.202         0.005         
        1.13          79.6302401945 0.182         0.005         
        1.13          83.1078974207 0.171         0.005         
        1.13          87.1340160174 0.172         0.005         
        1.13          90.0          0.155         0.005         
        1.13          93.4398127675 0.165         0.005         
        1.13          96.8921025793 0.156         0.005         
        1.13          101.536959033 0.142         0.005         
        1.13          104.477512186 0.134         0.005         
        1.13          108.662924885 0.14          0.005         
        1.13          111.715617283 0.13          0.005         
        1.13          116.103881137 0.124         0.005         
        1.13          120.663829742 0.133         0.005         
        1.13          124.055797743 0.133         0.005         
        1.13          128.316134474 0.129         0.005         
        1.13          132.843643044 0.119         0.005         
        1.13          137.73141557  0.14          0.005         
        1.13          143.130102354 0.121         0.005         
        1.13          149.316582891 0.128         0.005         
        1.13          156.926081934 0.114         0.005         
        1.16          63.2563160496 0.132         0.005         
        1.16          67.3562597371 0.135         0.005         
        1.16          70.7312245085 0.127         0.005         
        1.16          74.3357331486 0.117         0.005         
        1.16          78.4630409672 0.116         0.005         
        1.16          81.3730734413 0.12          0.005         
        1.16          85.4114342642 0.125         0.005         
        1.16          87.707557224  0.11          0.005         
        1.16          91.7191313209 0.1           0.005         
        1.16          94.0139872181 0.105         0.005         
        1.16          98.0478462473 0.095         0.005         
        1.16          101.536959033 0.105         0.005         
        1.16          105.070062145 0.099         0.005         
        1.16          108.662924885 0.11          0.005         
        1.16          112.333682658 0.1           0.005         
        1.16          115.467560142 0.11          0.005         
        1.16          120.0         0.099         0.005         
        1.16          123.367012969 0.105         0.005         
        1.16          128.316134474 0.105         0.005         
        1.16          132.067064802 0.099         0.005         
        1.16          136.886394054 0.102         0.005         
        1.16          141.260575402 0.105         0.005         
        1.16          147.140119621 0.098         0.005         
        1.16          154.158067237 0.09          0.005         
        1.16          163.739795292 0.067         0.005         
        1.35          58.6677485024 0.215         0.01          
        1.35          65.7951651985 0.224         0.01          
        1.35          70.7312245085 0.185         0.01          
        1.35          76.7029282528 0.18          0.01          
        1.35          81.9521537527 0.18          0.01          
        1.35          87.1340160174 0.17          0.01          
        1.35          92.292442776  0.163         0.01          
        1.35          97.4695923164 0.18          0.01          
        1.35          102.709032994 0.168         0.01          
        1.35          109.268775491 0.179         0.01          
        1.35          112.954499401 0.193         0.01          
        1.35          118.034296535 0.187         0.01          
        1.35          124.750225754 0.203         0.01          
        1.35          130.541601874 0.21          0.01          
        1.35          136.886394054 0.218         0.01          
        1.35          144.095931417 0.227         0.01          
        1.35          156.926081934 0.233         0.01          
        1.377         57.9945451722 0.21          0.01          
        1.377         64.5324398575 0.192         0.01          
        1.377         70.1231259299 0.19          0.01          
        1.377         76.7029282528 0.17          0.01          
        1.377         81.3730734413 0.176         0.01          
        1.377         85.9860127819 0.164         0.01          
        1.377         90.5729673449 0.156         0.01          
        1.377         96.3153155694 0.158         0.01          
        1.377         100.369759805 0.15          0.01          
        1.377         106.260204708 0.144         0.01          
        1.377         110.487315115 0.143         0.01          
        1.377         116.103881137 0.14          0.01          
        1.377         122.683638846 0.145         0.01          
        1.377         129.050122536 0.157         0.01          
        1.377         135.234915329 0.155         0.01          
        1.377         142.185511494 0.158         0.01          
        1.377         151.642363424 0.145         0.01          
        1.377         168.521659045 0.1           0.01          
        1.595         63.8961188627 0.32          0.01          
        1.595         69.5126848853 0.303         0.01          
        1.595         74.9299378551 0.265         0.01          
        1.595         80.7931037787 0.225         0.01          
        1.595         85.4114342642 0.223         0.01          
        1.595         91.1459919984 0.203         0.01          
        1.595         96.3153155694 0.195         0.01          
        1.595         100.369759805 0.17          0.01          
        1.595         105.664266851 0.168         0.01          
        1.595         111.100196024 0.15          0.01          
        1.595         117.387107503 0.16          0.01          
        1.595         122.005454828 0.135         0.01          
        1.595         129.7918195   0.15          0.01          
        1.595         136.886394054 0.125         0.01          
        1.595         145.084793753 0.11          0.01          
        1.595         156.926081934 0.1           0.01          
        1.682         60.0          0.17          0.01          
        1.682         68.8998039759 0.153         0.01          
        1.682         74.9299378551 0.16          0.01          
        1.682         80.7931037787 0.143         0.01          
        1.682         85.9860127819 0.15          0.01          
        1.682         92.8659839826 0.13          0.01          
        1.682         98.0478462473 0.143         0.01          
        1.682         104.477512186 0.14          0.01          
        1.682         109.87687407  0.138         0.01          
        1.682         116.74368395  0.14          0.01          
        1.682         122.683638846 0.14          0.01          
        1.682         131.299872792 0.15          0.01          
        1.682         139.464197889 0.14          0.01          
        1.682         150.4586395   0.125         0.01          
        1.682         165.930132252 0.08          0.01          
        1.756         60.0          0.193         0.0125        
        1.756         66.4218215218 0.163         0.0125        
        1.756         72.5423968763 0.155         0.0125        
        1.756         77.8776477552 0.137         0.0125        
        1.756         84.8363929092 0.124         0.0125        
        1.756         90.0          0.123         0.0125        
        1.756         95.1636070908 0.127         0.0125        
        1.756         100.952784199 0.122         0.0125        
        1.756         106.260204708 0.128         0.0125        
        1.756         112.333682658 0.145         0.0125        
        1.756         118.034296535 0.144         0.0125        
        1.756         126.157008201 0.178         0.0125        
        1.756         133.630108868 0.21          0.0125        
        1.756         142.185511494 0.221         0.0125        
        1.756         151.642363424 0.245         0.0125        
        1.779         57.9945451722 0.17          0.0125        
        1.779         65.1654125103 0.148         0.0125        
        1.779         71.3370751151 0.14          0.0125        
        1.779         76.7029282528 0.13          0.0125        
        1.779         82.5304076836 0.125         0.0125        
        1.779         88.2808686791 0.13          0.0125        
        1.779         93.4398127675 0.12          0.0125        
        1.779         98.6269265587 0.12          0.0125        
        1.779         104.477512186 0.125         0.0125        
        1.779         109.87687407  0.13          0.0125        
        1.779         116.103881137 0.14          0.0125        
        1.779         122.683638846 0.18          0.0125        
        1.779         129.7918195   0.198         0.0125        
        1.779         136.886394054 0.23          0.0125        
        1.779         146.098738003 0.26          0.0125        
        1.779         156.926081934 0.24          0.0125        
        1.796         61.9657034651 0.181         0.0125        
        1.796         66.4218215218 0.146         0.0125        
        1.796         72.5423968763 0.138         0.0125        
        1.796         78.4630409672 0.125         0.0125        
        1.796         83.6846844306 0.121         0.0125        
        1.796         89.4270326551 0.125         0.0125        
        1.796         95.7391704773 0.118         0.0125        
        1.796         100.369759805 0.106         0.0125        
        1.796         105.664266851 0.135         0.0125        
        1.796         111.100196024 0.133         0.0125        
        1.796         117.387107503 0.141         0.0125        
        1.796         124.055797743 0.142         0.0125        
        1.796         132.067064802 0.158         0.0125        
        1.796         138.590377891 0.178         0.0125        
        1.796         149.316582891 0.208         0.0125        
        2.07          58.6677485024 0.145         0.01          
        2.07          65.1654125103 0.135         0.01          
        2.07          70.7312245085 0.135         0.01          
        2.07          76.1134596374 0.126         0.01          
        2.07          83.1078974207 0.122         0.01          
        2.07          88.2808686791 0.12          0.01          
        2.07          93.4398127675 0.114         0.01          
        2.07          99.2068962213 0.127         0.01          
        2.07          105.070062145 0.11          0.01          
        2.07          111.100196024 0.108         0.01          
        2.07          116.103881137 0.117         0.01          
        2.07          122.683638846 0.115         0.01          
        2.07          129.7918195   0.115         0.01          
        2.07          136.886394054 0.11          0.01          
        2.07          145.084793753 0.11          0.01          
        2.07          156.926081934 0.095         0.01          
        2.25          56.6329870308 0.174         0.01          
        2.25          62.6128924973 0.155         0.01          
        2.25          67.0455005986 0.149         0.01          
        2.25          72.5423968763 0.137         0.01          
        2.25          77.8776477552 0.128         0.01          
        2.25          83.1078974207 0.116         0.01          
        2.25          88.8540080016 0.103         0.01          
        2.25          94.5885657358 0.105         0.01          
        2.25          100.369759805 0.108         0.01          
        2.25          105.070062145 0.102         0.01          
        2.25          108.662924885 0.103         0.01          
        2.25          114.83458749  0.092         0.01          
        2.25          120.0         0.081         0.01          
        2.25          126.157008201 0.078         0.01          
        2.25          132.067064802 0.096         0.01          
        2.25          139.464197889 0.073         0.01          
        2.25          148.211669383 0.077         0.01          
        2.36          60.659418425  0.145         0.01          
        2.36          65.7951651985 0.14          0.01          
        2.36          70.7312245085 0.125         0.01          
        2.36          75.5224878141 0.106         0.01          
        2.36          80.2121809433 0.106         0.01          
        2.36          85.9860127819 0.105         0.01          
        2.36          90.0          0.121         0.01          
        2.36          94.0139872181 0.102         0.01          
        2.36          99.2068962213 0.111         0.01          
        2.36          103.297071747 0.11          0.01          
        2.36          109.268775491 0.115         0.01          
        2.36          114.204834801 0.115         0.01          
        2.36          120.0         0.107         0.01          
        2.36          124.750225754 0.106         0.01          
        2.36          131.299872792 0.115         0.01          
        2.36          138.590377891 0.105         0.01          
        2.36          147.140119621 0.103         0.01          
        ".toList

-- TestTheWorks.test_nubar, line 164
#guard (foundStr { SUBENT := some (.str chars!"12326006") } (chars!"12326", some chars!"12326006", ' ') false false) = .ok "#  Authors:   J.C.Hopkins, B.C.Diven
#  Title:     Prompt Neutrons From Fission.
#  Year:      1963
#  Institute: Los Alamos National Laboratory, NM
#  Reference: Nuclear Physics 48, 433 (1963)
#  Subent:    12326006
#  Reaction:  Prompt neutron yield (nu-bar) for 239Pu(n,Fission) 
#        MONIT         EN            EN-RSL        DATA          ERR-SYS       ERR-T         
#        PRT/FIS       MEV           MEV           PRT/FIS       PRT/FIS       PRT/FIS       
        3.771         0.25          0.05          2.931         0.029         0.039         
        3.771         0.42          0.11          2.957         0.03          0.046         
        3.771         0.61          0.07          2.904         0.029         0.041         
        3.771         0.9           0.08          3.004         0.03          0.041         
        3.771         3.9           0.29          3.422         0.038         0.039         
        3.771         14.5          1.0           4.942         0.076         0.119         
        ".toList

-- TestTheWorks.test_nubar, line 167
#guard (foundStr { SUBENT := some (.str chars!"12326006") } (chars!"12326", some chars!"12326006", ' ') false true) = .ok "#  Authors:   J.C.Hopkins, B.C.Diven
#  Title:     Prompt Neutrons From Fission.
#  Year:      1963
#  Institute: Los Alamos National Laboratory, NM
#  Reference: Nuclear Physics 48, 433 (1963)
#  Subent:    12326006
#  Reaction:  Prompt neutron yield (nu-bar) for 239Pu(n,Fission) 
#        Energy        Data          d(Energy)     d(Data)       
#        MeV           ptcls/fis     MeV           ptcls/fis     
        0.25          2.931         0.025         0.039         
        0.42          2.957         0.055         0.046         
        0.61          2.904         0.035         0.041         
        0.9           3.004         0.04          0.041         
        3.9           3.422         0.145         0.039         
        14.5          4.942         0.5           0.119         
        ".toList

-- TestTheWorks.test_energy_spectrum, line 174
#guard (foundStr { SUBENT := some (.str chars!"20576003") } (chars!"20576", some chars!"20576003", ' ') false false).map strip = .ok "#  Authors:   H.H.Knitter
#  Title:     Measurement Of The Energy Spectrum Of Prompt Neutrons From The Fission Of Pu239 By 0.215 Mev Neutrons
#  Year:      1975
#  Institute: Inst. for Ref. Mat. and Meas. (IRNM), Geel
#  Reference: Atomkernenergie 26, 76 (1975)
#  Subent:    20576003
#  Reaction:  Relative data  for 239Pu(n,Fission) Reference quantity not given
#        EN            EN-RSL        E             E-RSL         DATA          DATA-ERR      ERR-1         
#        KEV           KEV           MEV           MEV           ARB-UNITS     ARB-UNITS     PER-CENT      
        215.0         32.0          0.28          0.01          66.8          2.5           2.0           
        215.0         32.0          0.31          0.01          70.2          2.4           2.0           
        215.0         32.0          0.34          0.01          65.1          2.2           2.0           
        215.0         32.0          0.36          0.01          70.5          2.2           2.0           
        215.0         32.0          0.39          0.01          68.8          2.1           2.0           
        215.0         32.0          0.41          0.01          74.2          2.1           2.0           
        215.0         32.0          0.44          0.01          75.6          2.2           2.0           
        215.0         32.0          0.46          0.01          74.8          2.1           2.0           
        215.0         32.0          0.49          0.01          74.8          2.1           2.0           
        215.0         32.0          0.51          0.01          73.6          2.0           2.0           
        215.0         32.0          0.54          0.01          74.2          2.0           2.0           
        215.0         32.0          0.56          0.01          75.7          2.0           2.0           
        215.0         32.0          0.59          0.01          75.8          2.0           2.0           
        215.0         32.0          0.61          0.01          76.6          2.1           2.0           
        215.0         32.0          0.63          0.01          75.4          2.0           2.0           
        215.0         32.0          0.66          0.01          78.7          2.1           2.0           
        215.0         32.0          0.69          0.01          76.3          2.0           2.0           
        215.0         32.0          0.71          0.01          78.6          2.1           2.0           
        215.0         32.0          0.73          0.01          74.6          2.1           2.0           
        215.0         32.0          0.76          0.01          78.7          2.0           2.0           
        215.0         32.0          0.79          0.02          79.4          2.1           2.0           
        215.0         32.0          0.81          0.02          78.3          2.1           2.0           
        215.0         32.0          0.84          0.02          76.6          2.0           2.0           
        215.0         32.0          0.86          0.02          80.0          2.2           2.0           
        215.0         32.0          0.89          0.02          81.0          2.1           2.0           
        215.0         32.0          0.91          0.02          80.2          2.1           2.0           
        215.0         32.0          0.94          0.02          79.5          2.1           2.0           
        215.0         32.0          0.96          0.02          78.4          2.1           2.0           
        215.0         32.0          0.98          0.02          77.8          2.1           2.0           
        215.0         32.0          1.01          0.02          76.8          2.2           2.0           
        215.0         32.0          1.04          0.02          78.4          2.0           2.0           
        215.0         32.0          1.06          0.02          78.3          2.2           2.0           
        215.0         32.0          1.09          0.02          77.8          2.1           2.0           
        215.0         32.0          1.11          0.02          74.9          2.1           2.0           
        215.0         32.0          1.13          0.03          75.1          2.1           2.0           
        215.0         32.0          1.16          0.03          76.0          2.1           2.0           
        215.0         32.0          1.19          0.03          76.1          2.1           2.0           
        215.0         32.0          1.21          0.03          74.0          2.0           2.0           
        215.0         32.0          1.24          0.03          73.5          2.2           2.0           
        215.0         32.0          1.26          0.03          76.7          1.6           2.0           
        215.0         32.0          1.29          0.03          74.5          1.6           2.0           
        215.0         32.0          1.32          0.03          72.3          1.5           2.0           
        215.0         32.0          1.35          0.03          72.8          1.5           2.0           
        215.0         32.0          1.39          0.04          72.2          1.5           2.0           
        215.0         32.0          1.42          0.04          72.1          1.5           2.0           
        215.0         32.0          1.45          0.04          69.1          1.7           2.0           
        215.0         32.0          1.47          0.04          70.7          1.8           2.0           
        215.0         32.0          1.5           0.04          71.3          1.8           2.0           
        215.0         32.0          1.52          0.04          67.3          1.7           2.0           
        215.0         32.0          1.55          0.04          68.4          1.7           2.0           
        215.0         32.0          1.58          0.04          65.1          1.6           2.0           
        215.0         32.0          1.6           0.04          65.7          1.6           2.0           
        215.0         32.0          1.63          0.04          64.3          1.6           2.0           
        215.0         32.0          1.66          0.05          64.1          1.6           2.0           
        215.0         32.0          1.69          0.05          64.7          1.6           2.0           
        215.0         32.0          1.72          0.05          61.9          1.5           2.0           
        215.0         32.0          1.75          0.05          63.1          1.5           2.0           
        215.0         32.0          1.79          0.05          63.0          1.5           2.0           
        215.0         32.0          1.82          0.05          60.9          1.5           2.0           
        215.0         32.0          1.85          0.05          59.9          1.5           2.0           
        215.0         32.0          1.89          0.06          58.7          1.4           2.0           
        215.0         32.0          1.93          0.06          58.0          1.4           2.0           
        215.0         32.0          1.96          0.06          57.0          1.4           2.0           
        215.0         32.0          2.0           0.06          56.1          1.4           2.0           
        215.0         32.0          2.04          0.06          54.6          1.3           2.0           
        215.0         32.0          2.07          0.06          54.1          1.8           2.0           
        215.0         32.0          2.09          0.06          52.7          1.8           2.0           
        215.0         32.0          2.11          0.07          52.0          1.8           2.0           
        215.0         32.0          2.14          0.07          51.6          1.8           2.0           
        215.0         32.0          2.16          0.07          52.9          1.8           2.0           
        215.0         32.0          2.18          0.07          51.0          1.7           2.0           
        215.0         32.0          2.2           0.07          51.0          1.7           2.0           
        215.0         32.0          2.22          0.07          49.6          1.7           2.0           
        215.0         32.0          2.25          0.07          48.9          1.7           2.0           
        215.0         32.0          2.27          0.07          47.3          1.6           2.0           
        215.0         32.0          2.29          0.07          49.5          1.7           2.0           
        215.0         32.0          2.32          0.07          46.6          1.6           None          
        215.0         32.0          2.34          0.07          45.4          1.6           None          
        215.0         32.0          2.37          0.08          46.2          1.6           None          
        215.0         32.0          2.39          0.08          46.6          1.6           None          
        215.0         32.0          2.42          0.08          45.3          1.5           None          
        215.0         32.0          2.44          0.08          44.0          1.5           None          
        215.0         32.0          2.47          0.08          44.6          1.5           None          
        215.0         32.0          2.5           0.08          41.6          1.4           None          
        215.0         32.0          2.53          0.09          43.4          1.5           None          
        215.0         32.0          2.56          0.09          41.3          1.4           None          
        215.0         32.0          2.58          0.09          43.2          1.5           None          
        215.0         32.0          2.61          0.09          41.4          1.4           None          
        215.0         32.0          2.64          0.09          39.5          1.4           None          
        215.0         32.0          2.67          0.09          38.9          1.3           None          
        215.0         32.0          2.7           0.09          39.7          1.4           None          
        215.0         32.0          2.73          0.1           37.5          1.3           None          
        215.0         32.0          2.76          0.1           36.4          1.2           None          
        215.0         32.0          2.79          0.1           36.1          1.2           None          
        215.0         32.0          2.82          0.1           36.6          1.2           None          
        215.0         32.0          2.86          0.1           36.2          1.2           None          
        215.0         32.0          2.89          0.1           34.8          1.2           None          
        215.0         32.0          2.93          0.1           34.0          1.2           None          
        215.0         32.0          2.96          0.1           34.1          1.2           None          
        215.0         32.0          3.0           0.11          33.4          1.2           None          
        215.0         32.0          3.03          0.11          31.2          1.1           None          
        215.0         32.0          3.07          0.11          32.4          1.1           None          
        215.0         32.0          3.11          0.11          31.5          1.1           None          
        215.0         32.0          3.15          0.12          30.7          1.1           None          
        215.0         32.0          3.18          0.12          29.3          1.0           None          
        215.0         32.0          3.22          0.12          28.6          1.0           None          
        215.0         32.0          3.26          0.12          28.3          1.0           None          
        215.0         32.0          3.3           0.12          27.1          1.0           None          
        215.0         32.0          3.34          0.13          27.6          1.0           None          
        215.0         32.0          3.39          0.13          26.3          0.9           None          
        215.0         32.0          3.43          0.13          25.4          0.9           None          
        215.0         32.0          3.48          0.14          24.6          0.9           None          
        215.0         32.0          3.52          0.14          24.4          0.9           None          
        215.0         32.0          3.57          0.14          23.7          0.8           None          
        215.0         32.0          3.61          0.14          22.4          0.8           None          
        215.0         32.0          3.66          0.15          21.7          0.8           None          
        215.0         32.0          3.71          0.15          22.5          0.8           None          
        215.0         32.0          3.76          0.15          21.1          0.8           None          
        215.0         32.0          3.81          0.155         20.0          0.7           None          
        215.0         32.0          3.86          0.155         19.0          0.7           None          
        215.0         32.0          3.92          0.165         19.4          0.7           None          
        215.0         32.0          3.97          0.165         17.7          0.7           None          
        215.0         32.0          4.03          0.165         18.0          0.7           None          
        215.0         32.0          4.08          0.175         16.6          0.6           None          
        215.0         32.0          4.14          0.175         16.7          0.6           None          
        215.0         32.0          4.2           0.18          16.0          0.6           None          
        215.0         32.0          4.26          0.185         15.3          0.6           None          
        215.0         32.0          4.32          0.185         15.2          0.6           None          
        215.0         32.0          4.38          0.195         14.5          0.6           None          
        215.0         32.0          4.45          0.195         13.2          0.5           None          
        215.0         32.0          4.51          0.2           13.2          0.5           None          
        215.0         32.0          4.57          0.205         13.1          0.5           None          
        215.0         32.0          4.64          0.21          12.4          0.5           None          
        215.0         32.0          4.72          0.215         12.3          0.5           None          
        215.0         32.0          4.79          0.22          11.3          0.5           None          
        215.0         32.0          4.86          0.225         10.8          0.4           None          
        215.0         32.0          4.94          0.23          9.73          0.42          None          
        215.0         32.0          5.01          0.235         10.0          0.4           None          
        215.0         32.0          5.09          0.24          9.56          0.41          None          
        215.0         32.0          5.17          0.245         8.77          0.39          None          
        215.0         32.0          5.25          0.25          8.61          0.38          None          
        215.0         32.0          5.34          0.26          8.69          0.38          None          
        215.0         32.0          5.42          0.26          7.96          0.36          None          
        215.0         32.0          5.51          0.27          7.16          0.34          None          
        215.0         32.0          5.6           0.28          7.26          0.34          None          
        215.0         32.0          5.69          0.28          6.02          0.31          None          
        215.0         32.0          5.79          0.29          6.06          0.31          None          
        215.0         32.0          5.88          0.3           6.03          0.31          None          
        215.0         32.0          5.99          0.305         5.86          0.3           None          
        215.0         32.0          6.09          0.31          5.16          0.28          None          
        215.0         32.0          6.19          0.32          4.97          0.28          None          
        215.0         32.0          6.3           0.33          4.88          0.27          None          
        215.0         32.0          6.41          0.335         4.18          0.26          None          
        215.0         32.0          6.53          0.345         4.0           0.25          None          
        215.0         32.0          6.64          0.355         3.71          0.24          None          
        215.0         32.0          6.76          0.365         3.61          0.24          None          
        215.0         32.0          6.88          0.375         3.39          0.23          None          
        215.0         32.0          7.01          0.385         2.86          0.22          None          
        215.0         32.0          7.14          0.395         2.67          0.21          None          
        215.0         32.0          7.28          0.405         2.57          0.21          None          
        215.0         32.0          7.41          0.42          2.24          0.2           None          
        215.0         32.0          7.55          0.43          2.22          0.2           None          
        215.0         32.0          7.7           0.44          1.71          0.19          None          
        215.0         32.0          7.85          0.46          1.9           0.19          None          
        215.0         32.0          8.0           0.47          1.61          0.18          None          
        215.0         32.0          8.16          0.48          1.35          0.17          None          
        215.0         32.0          8.33          0.495         1.29          0.17          None          
        215.0         32.0          8.5           0.515         1.0           0.16          None          
        215.0         32.0          8.67          0.525         1.09          0.15          None          
        215.0         32.0          8.85          0.545         0.87          0.15          None          
        215.0         32.0          9.04          0.56          0.91          0.15          None          
        215.0         32.0          9.23          0.58          0.49          0.14          None          
        215.0         32.0          9.42          0.6           0.73          0.14          None          
        215.0         32.0          9.62          0.62          0.4           0.14          None          
        215.0         32.0          9.84          0.635         0.68          0.14          None          
        215.0         32.0          10.06         0.655         0.48          0.13          None          
        215.0         32.0          10.4          0.7           0.15          0.1           None          
        215.0         32.0          10.88         0.725         0.3           0.09          None          
        215.0         32.0          11.4          0.805         0.34          0.08          None          
        215.0         32.0          11.94         0.865         0.09          0.11          None          
        215.0         32.0          12.54         0.93          0.11          0.09          None          
        215.0         32.0          13.18         0.995         0.05          0.16          None          
        215.0         32.0          13.87         1.035         0.05          0.17          None".toList

-- TestTheWorks.test_energy_spectrum, line 178
#guard (foundStr { SUBENT := some (.str chars!"20576003") } (chars!"20576", some chars!"20576003", ' ') false true).map strip = .ok "#  Authors:   H.H.Knitter
#  Title:     Measurement Of The Energy Spectrum Of Prompt Neutrons From The Fission Of Pu239 By 0.215 Mev Neutrons
#  Year:      1975
#  Institute: Inst. for Ref. Mat. and Meas. (IRNM), Geel
#  Reference: Atomkernenergie 26, 76 (1975)
#  Subent:    20576003
#  Reaction:  Relative data  for 239Pu(n,Fission) Reference quantity not given
#        EN            EN-RSL        E             E-RSL         DATA          DATA-ERR      ERR-1         
#        KEV           KEV           MEV           MEV           ARB-UNITS     ARB-UNITS     PER-CENT      
        215.0         32.0          0.28          0.01          66.8          2.5           2.0           
        215.0         32.0          0.31          0.01          70.2          2.4           2.0           
        215.0         32.0          0.34          0.01          65.1          2.2           2.0           
        215.0         32.0          0.36          0.01          70.5          2.2           2.0           
        215.0         32.0          0.39          0.01          68.8          2.1           2.0           
        215.0         32.0          0.41          0.01          74.2          2.1           2.0           
        215.0         32.0          0.44          0.01          75.6          2.2           2.0           
        215.0         32.0          0.46          0.01          74.8          2.1           2.0           
        215.0         32.0          0.49          0.01          74.8          2.1           2.0           
        215.0         32.0          0.51          0.01          73.6          2.0           2.0           
        215.0         32.0          0.54          0.01          74.2          2.0           2.0           
        215.0         32.0          0.56          0.01          75.7          2.0           2.0           
        215.0         32.0          0.59          0.01          75.8          2.0           2.0           
        215.0         32.0          0.61          0.01          76.6          2.1           2.0           
        215.0         32.0          0.63          0.01          75.4          2.0           2.0           
        215.0         32.0          0.66          0.01          78.7          2.1           2.0           
        215.0         32.0          0.69          0.01          76.3          2.0           2.0           
        215.0         32.0          0.71          0.01          78.6          2.1           2.0           
        215.0         32.0          0.73          0.01          74.6          2.1           2.0           
        215.0         32.0          0.76          0.01          78.7          2.0           2.0           
        215.0         32.0          0.79          0.02          79.4          2.1           2.0           
        215.0         32.0          0.81          0.02          78.3          2.1           2.0           
        215.0         32.0          0.84          0.02          76.6          2.0           2.0           
        215.0         32.0          0.86          0.02          80.0          2.2           2.0           
        215.0         32.0          0.89          0.02          81.0          2.1           2.0           
        215.0         32.0          0.91          0.02          80.2          2.1           2.0           
        215.0         32.0          0.94          0.02          79.5          2.1           2.0           
        215.0         32.0          0.96          0.02          78.4          2.1           2.0           
        215.0         32.0          0.98          0.02          77.8          2.1           2.0           
        215.0         32.0          1.01          0.02          76.8          2.2           2.0           
        215.0         32.0          1.04          0.02          78.4          2.0           2.0           
        215.0         32.0          1.06          0.02          78.3          2.2           2.0           
        215.0         32.0          1.09          0.02          77.8          2.1           2.0           
        215.0         32.0          1.11          0.02          74.9          2.1           2.0           
        215.0         32.0          1.13          0.03          75.1          2.1           2.0           
        215.0         32.0          1.16          0.03          76.0          2.1           2.0           
        215.0         32.0          1.19          0.03          76.1          2.1           2.0           
        215.0         32.0          1.21          0.03          74.0          2.0           2.0           
        215.0         32.0          1.24          0.03          73.5          2.2           2.0           
        215.0         32.0          1.26          0.03          76.7          1.6           2.0           
        215.0         32.0          1.29          0.03          74.5          1.6           2.0           
        215.0         32.0          1.32          0.03          72.3          1.5           2.0           
        215.0         32.0          1.35          0.03          72.8          1.5           2.0           
        215.0         32.0          1.39          0.04          72.2          1.5           2.0           
        215.0         32.0          1.42          0.04          72.1          1.5           2.0           
        215.0         32.0          1.45          0.04          69.1          1.7           2.0           
        215.0         32.0          1.47          0.04          70.7          1.8           2.0           
        215.0         32.0          1.5           0.04          71.3          1.8           2.0           
        215.0         32.0          1.52          0.04          67.3          1.7           2.0           
        215.0         32.0          1.55          0.04          68.4          1.7           2.0           
        215.0         32.0          1.58          0.04          65.1          1.6           2.0           
        215.0         32.0          1.6           0.04          65.7          1.6           2.0           
        215.0         32.0          1.63          0.04          64.3          1.6           2.0           
        215.0         32.0          1.66          0.05          64.1          1.6           2.0           
        215.0         32.0          1.69          0.05          64.7          1.6           2.0           
        215.0         32.0          1.72          0.05          61.9          1.5           2.0           
        215.0         32.0          1.75          0.05          63.1          1.5           2.0           
        215.0         32.0          1.79          0.05          63.0          1.5           2.0           
        215.0         32.0          1.82          0.05          60.9          1.5           2.0           
        215.0         32.0          1.85          0.05          59.9          1.5           2.0           
        215.0         32.0          1.89          0.06          58.7          1.4           2.0           
        215.0         32.0          1.93          0.06          58.0          1.4           2.0           
        215.0         32.0          1.96          0.06          57.0          1.4           2.0           
        215.0         32.0          2.0           0.06          56.1          1.4           2.0           
        215.0         32.0          2.04          0.06          54.6          1.3           2.0           
        215.0         32.0          2.07          0.06          54.1          1.8           2.0           
        215.0         32.0          2.09          0.06          52.7          1.8           2.0           
        215.0         32.0          2.11          0.07          52.0          1.8           2.0           
        215.0         32.0          2.14          0.07          51.6          1.8           2.0           
        215.0         32.0          2.16          0.07          52.9          1.8           2.0           
        215.0         32.0          2.18          0.07          51.0          1.7           2.0           
        215.0         32.0          2.2           0.07          51.0          1.7           2.0           
        215.0         32.0          2.22          0.07          49.6          1.7           2.0           
        215.0         32.0          2.25          0.07          48.9          1.7           2.0           
        215.0         32.0          2.27          0.07          47.3          1.6           2.0           
        215.0         32.0          2.29          0.07          49.5          1.7           2.0           
        215.0         32.0          2.32          0.07          46.6          1.6           None          
        215.0         32.0          2.34          0.07          45.4          1.6           None          
        215.0         32.0          2.37          0.08          46.2          1.6           None          
        215.0         32.0          2.39          0.08          46.6          1.6           None          
        215.0         32.0          2.42          0.08          45.3          1.5           None          
        215.0         32.0          2.44          0.08          44.0          1.5           None          
        215.0         32.0          2.47          0.08          44.6          1.5           None          
        215.0         32.0          2.5           0.08          41.6          1.4           None          
        215.0         32.0          2.53          0.09          43.4          1.5           None          
        215.0         32.0          2.56          0.09          41.3          1.4           None          
        215.0         32.0          2.58          0.09          43.2          1.5           None          
        215.0         32.0          2.61          0.09          41.4          1.4           None          
        215.0         32.0          2.64          0.09          39.5          1.4           None          
        215.0         32.0          2.67          0.09          38.9          1.3           None          
        215.0         32.0          2.7           0.09          39.7          1.4           None          
        215.0         32.0          2.73          0.1           37.5          1.3           None          
        215.0         32.0          2.76          0.1           36.4          1.2           None          
        215.0         32.0          2.79          0.1           36.1          1.2           None          
        215.0         32.0          2.82          0.1           36.6          1.2           None          
        215.0         32.0          2.86          0.1           36.2          1.2           None          
        215.0         32.0          2.89          0.1           34.8          1.2           None          
        215.0         32.0          2.93          0.1           34.0          1.2           None          
        215.0         32.0          2.96          0.1           34.1          1.2           None          
        215.0         32.0          3.0           0.11          33.4          1.2           None          
        215.0         32.0          3.03          0.11          31.2          1.1           None          
        215.0         32.0          3.07          0.11          32.4          1.1           None          
        215.0         32.0          3.11          0.11          31.5          1.1           None          
        215.0         32.0          3.15          0.12          30.7          1.1           None          
        215.0         32.0          3.18          0.12          29.3          1.0           None          
        215.0         32.0          3.22          0.12          28.6          1.0           None          
        215.0         32.0          3.26          0.12          28.3          1.0           None          
        215.0         32.0          3.3           0.12          27.1          1.0           None          
        215.0         32.0          3.34          0.13          27.6          1.0           None          
        215.0         32.0          3.39          0.13          26.3          0.9           None          
        215.0         32.0          3.43          0.13          25.4          0.9           None          
        215.0         32.0          3.48          0.14          24.6          0.9           None          
        215.0         32.0          3.52          0.14          24.4          0.9           None          
        215.0         32.0          3.57          0.14          23.7          0.8           None          
        215.0         32.0          3.61          0.14          22.4          0.8           None          
        215.0         32.0          3.66          0.15          21.7          0.8           None          
        215.0         32.0          3.71          0.15          22.5          0.8           None          
        215.0         32.0          3.76          0.15          21.1          0.8           None          
        215.0         32.0          3.81          0.155         20.0          0.7           None          
        215.0         32.0          3.86          0.155         19.0          0.7           None          
        215.0         32.0          3.92          0.165         19.4          0.7           None          
        215.0         32.0          3.97          0.165         17.7          0.7           None          
        215.0         32.0          4.03          0.165         18.0          0.7           None          
        215.0         32.0          4.08          0.175         16.6          0.6           None          
        215.0         32.0          4.14          0.175         16.7          0.6           None          
        215.0         32.0          4.2           0.18          16.0          0.6           None          
        215.0         32.0          4.26          0.185         15.3          0.6           None          
        215.0         32.0          4.32          0.185         15.2          0.6           None          
        215.0         32.0          4.38          0.195         14.5          0.6           None          
        215.0         32.0          4.45          0.195         13.2          0.5           None          
        215.0         32.0          4.51          0.2           13.2          0.5           None          
        215.0         32.0          4.57          0.205         13.1          0.5           None          
        215.0         32.0          4.64          0.21          12.4          0.5           None          
        215.0         32.0          4.72          0.215         12.3          0.5           None          
        215.0         32.0          4.79          0.22          11.3          0.5           None          
        215.0         32.0          4.86          0.225         10.8          0.4           None          
        215.0         32.0          4.94          0.23          9.73          0.42          None          
        215.0         32.0          5.01          0.235         10.0          0.4           None          
        215.0         32.0          5.09          0.24          9.56          0.41          None          
        215.0         32.0          5.17          0.245         8.77          0.39          None          
        215.0         32.0          5.25          0.25          8.61          0.38          None          
        215.0         32.0          5.34          0.26          8.69          0.38          None          
        215.0         32.0          5.42          0.26          7.96          0.36          None          
        215.0         32.0          5.51          0.27          7.16          0.34          None          
        215.0         32.0          5.6           0.28          7.26          0.34          None          
        215.0         32.0          5.69          0.28          6.02          0.31          None          
        215.0         32.0          5.79          0.29          6.06          0.31          None          
        215.0         32.0          5.88          0.3           6.03          0.31          None          
        215.0         32.0          5.99          0.305         5.86          0.3           None          
        215.0         32.0          6.09          0.31          5.16          0.28          None          
        215.0         32.0          6.19          0.32          4.97          0.28          None          
        215.0         32.0          6.3           0.33          4.88          0.27          None          
        215.0         32.0          6.41          0.335         4.18          0.26          None          
        215.0         32.0          6.53          0.345         4.0           0.25          None          
        215.0         32.0          6.64          0.355         3.71          0.24          None          
        215.0         32.0          6.76          0.365         3.61          0.24          None          
        215.0         32.0          6.88          0.375         3.39          0.23          None          
        215.0         32.0          7.01          0.385         2.86          0.22          None          
        215.0         32.0          7.14          0.395         2.67          0.21          None          
        215.0         32.0          7.28          0.405         2.57          0.21          None          
        215.0         32.0          7.41          0.42          2.24          0.2           None          
        215.0         32.0          7.55          0.43          2.22          0.2           None          
        215.0         32.0          7.7           0.44          1.71          0.19          None          
        215.0         32.0          7.85          0.46          1.9           0.19          None          
        215.0         32.0          8.0           0.47          1.61          0.18          None          
        215.0         32.0          8.16          0.48          1.35          0.17          None          
        215.0         32.0          8.33          0.495         1.29          0.17          None          
        215.0         32.0          8.5           0.515         1.0           0.16          None          
        215.0         32.0          8.67          0.525         1.09          0.15          None          
        215.0         32.0          8.85          0.545         0.87          0.15          None          
        215.0         32.0          9.04          0.56          0.91          0.15          None          
        215.0         32.0          9.23          0.58          0.49          0.14          None          
        215.0         32.0          9.42          0.6           0.73          0.14          None          
        215.0         32.0          9.62          0.62          0.4           0.14          None          
        215.0         32.0          9.84          0.635         0.68          0.14          None          
        215.0         32.0          10.06         0.655         0.48          0.13          None          
        215.0         32.0          10.4          0.7           0.15          0.1           None          
        215.0         32.0          10.88         0.725         0.3           0.09          None          
        215.0         32.0          11.4          0.805         0.34          0.08          None          
        215.0         32.0          11.94         0.865         0.09          0.11          None          
        215.0         32.0          12.54         0.93          0.11          0.09          None          
        215.0         32.0          13.18         0.995         0.05          0.16          None          
        215.0         32.0          13.87         1.035         0.05          0.17          None".toList

-- TestX4DBManager.test_entry_retrieve, line 164
#guard retrieveRaw index db { ENTRY := some (.str chars!"E0783") } = .ok [(chars!"E0783", [joinWith ['\n'] [chars!"SUBENT        E0783001   20040622              20050926       0000",
   chars!"BIB                 10         19",
   chars!"TITLE       ACCELERATION OF PROTONS AND DEUTERONS POLARIZED IN",
   chars!"            THE HORIZONTAL PLANEBY THE RCNP CYCLOTRON",
   chars!"AUTHOR     (K.HATANAKA,N.MATSUOKA,H.SAKAI,T.SAITO,H.TAMURA,",
   chars!"           K.HOSONO,M.KONDO,K.IMAI,H.SHIMIZU,K.NISHIMURA)",
   chars!"INSTITUTE  (2JPNOSA) RESEARCH CENTER FOR NUCLEAR PHYSICS, OSAKA",
   chars!"            UNIV.",
   chars!"           (2JPNKTO)",
   chars!"REFERENCE  (J,NIM,217,397,1983)",
   chars!"FACILITY   (CYCLO,2JPNOSA)",
   chars!"INC-SOURCE  BEAM-INTENSITY IS 0.5NA",
   chars!"            BEAM-POLARIZATION IS NOT GIVEN",
   chars!"           (ATOMI) with a Wien filter",
   chars!"SAMPLE      TARGET IS NOT POLARIZED",
   chars!"            TARGET IS NOT ALIGNED",
   chars!"PART-DET   (D)",
   chars!"STATUS     (CURVE) DATA TAKEN FROM GRAPH",
   chars!"HISTORY    (19881027T) CONVERTED FROM NRDF DATA NO. D783",
   chars!"           (20040401A) Author's name is corrected. Code is added",
   chars!"                       into INC-SOURCE. E-EXC=0.0 MeV is deleted.",
   chars!"ENDBIB              19",
   chars!"COMMON               1          3",
   chars!"EN",
   chars!"MEV",
   chars!"56.",
   chars!"ENDCOMMON            3",
   chars!"ENDSUBENT           26",
   chars!""],
  joinWith ['\n'] [chars!"SUBENT        E0783002   20040622              20050926       0000",
   chars!"BIB                  4          5",
   chars!"REACTION   (1-H-1(D,EL)1-H-1,SL,POL/DA,,ANA)",
   chars!"FLAG       (1.) DATA ERROR IS SMALLER THAN DATA POINT",
   chars!"ERR-ANALYS (DATA-ERR) Uncertainty scanned from figure",
   chars!"HISTORY    (20040401A) Quantity code is correcetd.",
   chars!"                       ERR-ANALYS is added.",
   chars!"ENDBIB               5",
   chars!"NOCOMMON             0          0",
   chars!"DATA                 4         24",
   chars!"ANG-CM     DATA       DATA-ERR   FLAG",
   chars!"ADEG       NO-DIM     NO-DIM     NO-DIM",
   chars!"     30.712 -2.211E-03                    1.",
   chars!"     38.727 -5.861E-03  0.821E-02",
   chars!"     46.135  1.022E-02                    1.",
   chars!"     55.814  4.098E-02                    1.",
   chars!"     64.866  7.998E-02                    1.",
   chars!"     69.415  1.126E-01                    1.",
   chars!"     74.316  1.633E-01  0.147E-01",
   chars!"     79.924  2.517E-01  0.115E-01",
   chars!"     84.442  2.663E-01  0.131E-01",
   chars!"     89.661  3.153E-01  0.821E-02",
   chars!"     94.181  3.315E-01  0.164E-01",
   chars!"     99.114  4.003E-01  0.115E-01",
   chars!"    104.318  4.411E-01  0.131E-01",
   chars!"    109.841  4.802E-01  0.132E-01",
   chars!"    115.135  3.880E-01  0.132E-01",
   chars!"    120.355  2.531E-01  0.131E-01",
   chars!"    125.595 -5.416E-02  0.214E-01",
   chars!"    129.340 -2.990E-01  0.197E-01",
   chars!"    134.447 -3.140E-01  0.180E-01",
   chars!"    139.629 -1.024E-01  0.197E-01",
   chars!"    145.538 -2.551E-02  0.148E-01",
   chars!"    150.255  1.040E-01  0.246E-01",
   chars!"    155.357  8.570E-02  0.246E-01",
   chars!"    160.562  1.265E-01  0.197E-01",
   chars!"ENDDATA             26",
   chars!"ENDSUBENT           36",
   chars!""]])]

-- TestX4DBManager.test_subent_retrieve, line 171
#guard retrieveRaw index db { SUBENT := some (.str chars!"E0783002") } = .ok [(chars!"E0783", [joinWith ['\n'] [chars!"SUBENT        E0783001   20040622              20050926       0000",
   chars!"BIB                 10         19",
   chars!"TITLE       ACCELERATION OF PROTONS AND DEUTERONS POLARIZED IN",
   chars!"            THE HORIZONTAL PLANEBY THE RCNP CYCLOTRON",
   chars!"AUTHOR     (K.HATANAKA,N.MATSUOKA,H.SAKAI,T.SAITO,H.TAMURA,",
   chars!"           K.HOSONO,M.KONDO,K.IMAI,H.SHIMIZU,K.NISHIMURA)",
   chars!"INSTITUTE  (2JPNOSA) RESEARCH CENTER FOR NUCLEAR PHYSICS, OSAKA",
   chars!"            UNIV.",
   chars!"           (2JPNKTO)",
   chars!"REFERENCE  (J,NIM,217,397,1983)",
   chars!"FACILITY   (CYCLO,2JPNOSA)",
   chars!"INC-SOURCE  BEAM-INTENSITY IS 0.5NA",
   chars!"            BEAM-POLARIZATION IS NOT GIVEN",
   chars!"           (ATOMI) with a Wien filter",
   chars!"SAMPLE      TARGET IS NOT POLARIZED",
   chars!"            TARGET IS NOT ALIGNED",
   chars!"PART-DET   (D)",
   chars!"STATUS     (CURVE) DATA TAKEN FROM GRAPH",
   chars!"HISTORY    (19881027T) CONVERTED FROM NRDF DATA NO. D783",
   chars!"           (20040401A) Author's name is corrected. Code is added",
   chars!"                       into INC-SOURCE. E-EXC=0.0 MeV is deleted.",
   chars!"ENDBIB              19",
   chars!"COMMON               1          3",
   chars!"EN",
   chars!"MEV",
   chars!"56.",
   chars!"ENDCOMMON            3",
   chars!"ENDSUBENT           26",
   chars!""],
  joinWith ['\n'] [chars!"SUBENT        E0783002   20040622              20050926       0000",
   chars!"BIB                  4          5",
   chars!"REACTION   (1-H-1(D,EL)1-H-1,SL,POL/DA,,ANA)",
   chars!"FLAG       (1.) DATA ERROR IS SMALLER THAN DATA POINT",
   chars!"ERR-ANALYS (DATA-ERR) Uncertainty scanned from figure",
   chars!"HISTORY    (20040401A) Quantity code is correcetd.",
   chars!"                       ERR-ANALYS is added.",
   chars!"ENDBIB               5",
   chars!"NOCOMMON             0          0",
   chars!"DATA                 4         24",
   chars!"ANG-CM     DATA       DATA-ERR   FLAG",
   chars!"ADEG       NO-DIM     NO-DIM     NO-DIM",
   chars!"     30.712 -2.211E-03                    1.",
   chars!"     38.727 -5.861E-03  0.821E-02",
   chars!"     46.135  1.022E-02                    1.",
   chars!"     55.814  4.098E-02                    1.",
   chars!"     64.866  7.998E-02                    1.",
   chars!"     69.415  1.126E-01                    1.",
   chars!"     74.316  1.633E-01  0.147E-01",
   chars!"     79.924  2.517E-01  0.115E-01",
   chars!"     84.442  2.663E-01  0.131E-01",
   chars!"     89.661  3.153E-01  0.821E-02",
   chars!"     94.181  3.315E-01  0.164E-01",
   chars!"     99.114  4.003E-01  0.115E-01",
   chars!"    104.318  4.411E-01  0.131E-01",
   chars!"    109.841  4.802E-01  0.132E-01",
   chars!"    115.135  3.880E-01  0.132E-01",
   chars!"    120.355  2.531E-01  0.131E-01",
   chars!"    125.595 -5.416E-02  0.214E-01",
   chars!"    129.340 -2.990E-01  0.197E-01",
   chars!"    134.447 -3.140E-01  0.180E-01",
   chars!"    139.629 -1.024E-01  0.197E-01",
   chars!"    145.538 -2.551E-02  0.148E-01",
   chars!"    150.255  1.040E-01  0.246E-01",
   chars!"    155.357  8.570E-02  0.246E-01",
   chars!"    160.562  1.265E-01  0.197E-01",
   chars!"ENDDATA             26",
   chars!"ENDSUBENT           36",
   chars!""]])]

-- TestX4DBManager.test_targ_reaction_cs_quant_query, line 177
#guard (query index { target := some chars!"PU-239", reaction := some chars!"N,2N", quantity := some chars!"CS" }).2.toOption.map (fun m => m.length == 5 && [(chars!"13787", [chars!"13787001", chars!"13787002"]), (chars!"14129", [chars!"14129001", chars!"14129002"]), (chars!"21971", [chars!"21971001", chars!"21971003"]), (chars!"20795", [chars!"20795001", chars!"20795014", chars!"20795015"]), (chars!"13883", [chars!"13883001", chars!"13883002"])].all (fun x => decide (x ∈ m))) = some true

-- TestX4DBManager.test_fixkey, line 112
#guard fixKey (.int 10001) = .ok chars!"10001"

-- TestX4DBManager.test_fixkey, line 113
#guard fixKey (.int 10001015) = .ok chars!"10001015"

-- TestX4DBManager.test_fixkey, line 114
#guard fixKey (.str chars!"10001") = .ok chars!"10001"

-- TestX4DBManager.test_fixkey, line 115
#guard fixKey (.str chars!"10001015") = .ok chars!"10001015"

-- TestX4DBManager.test_fixkey, line 116
#guard fixKey (.str chars!"1000101") = .error .keyError

end X4.RecordedEntries
