import Verif.Model.FieldText
/-! The inputs and expected texts of the project's own tests (`x4i3/tests/test_exfor_reaction.py`, `x4i3/tests/test_exfor_fields.py`),
compared with the model. These are tests of the model, not proofs of properties. Written by `tools/conformance.py`; the dictionaries are cut
down to the codes that occur in the inputs. -/
namespace X4.Recorded

/-- `x4i3/dicts/dict09.txt`, cut down -/
def compounds : Dict Str (List Str) := [
  (chars!"1-H-CMP", [chars!"Hydrogen Compound except water, metal-hydrides, organic or ammonium compound"]),
  (chars!"5-B-CMP", [chars!"Boron compound"]),
  (chars!"5-B-OXI", [chars!"Boron oxide"]),
  (chars!"6-C-CMP", [chars!"Carbon Compound except carbonates and hydro-carbons"]),
  (chars!"7-N-CMP", [chars!"Nitrogen compound"]),
  (chars!"11-NA-CMP", [chars!"Sodium compound"]),
  (chars!"13-AL-CMP", [chars!"Aluminium compound"]),
  (chars!"13-AL-OXI", [chars!"Aluminium Oxide"]),
  (chars!"17-CL-CMP", [chars!"Chlorine compound"]),
  (chars!"19-K-CMP", [chars!"Potassium compound"]),
  (chars!"22-TI-CMP", [chars!"Titanium compound"]),
  (chars!"22-TI-OXI", [chars!"Titanium oxide"]),
  (chars!"23-V-CMP", [chars!"Vanadium compound"]),
  (chars!"27-CO-CMP", [chars!"Cobalt compound"]),
  (chars!"27-CO-OXI", [chars!"Cobalt oxide"]),
  (chars!"29-CU-CMP", [chars!"Copper compound"]),
  (chars!"30-ZN-CMP", [chars!"Zinc compound"]),
  (chars!"39-Y-CMP", [chars!"Yttrium compound"]),
  (chars!"40-ZR-CMP", [chars!"Zirconium compound"]),
  (chars!"40-ZR-OXI", [chars!"Zirconium Oxide"]),
  (chars!"44-RU-CMP", [chars!"Ruthenium compound"]),
  (chars!"44-RU-OXI", [chars!"Ruthenium oxide"]),
  (chars!"48-CD-CMP", [chars!"Cadmium compound"]),
  (chars!"48-CD-OXI", [chars!"Cadmium oxide"]),
  (chars!"49-IN-CMP", [chars!"Indium compound"]),
  (chars!"56-BA-CMP", [chars!"Barium compound"]),
  (chars!"59-PR-CMP", [chars!"Praseodymium compound"]),
  (chars!"59-PR-OXI", [chars!"Praseodymium oxide"]),
  (chars!"60-ND-CMP", [chars!"Neodymium compound"]),
  (chars!"62-SM-CMP", [chars!"Samarium compound"]),
  (chars!"72-HF-CMP", [chars!"Hafnium compound"]),
  (chars!"79-AU-CMP", [chars!"Gold compound"]),
  (chars!"92-U-CMP", [chars!"Uranium compound"]),
  (chars!"92-U-OXI", [chars!"Uranium Oxide"]),
  (chars!"94-PU-CMP", [chars!"Plutonium compound"])]

/-- `x4i3/dicts/dict36.txt`, cut down -/
def quantities : Dict Str (List Str) := [
  (chars!"(CUM),FY", [chars!"Fission-product yield (assumed cumulative)"]),
  (chars!"(CUM),SIG", [chars!"Cross section (assumed cumulative)"]),
  (chars!"(CUM),SIG,G", [chars!"Gamma prod. cross sect.(assumed cumulative)"]),
  (chars!"(CUM),TTY", [chars!"Thick-target yield (assumed cumulative)"]),
  (chars!"(CUM)/M+,SIG", [chars!"Cross section,incl.isom.trans.,uncert.if cum"]),
  (chars!"(M),SIG", [chars!"Cross section (uncert.if isomeric trans.incl)"]),
  (chars!"(M),TTY", [chars!"Thick-target yield (uncert.if isom.trans.incl)"]),
  (chars!",AKE", [chars!"Average kinetic energy of outgoing particle"]),
  (chars!",AKE,A", [chars!"Average kinetic energy of alphas"]),
  (chars!",AKE,HF", [chars!"Average kinetic energy of heavy fragments"]),
  (chars!",AKE,N", [chars!"Average kinetic energy of neutrons"]),
  (chars!",AKE/DA,N", [chars!"Avg.kinetic en. of neutrons at a given angle"]),
  (chars!",AMP", [chars!"Scattering amplitude"]),
  (chars!",ARE", [chars!".Resonance area"]),
  (chars!",D", [chars!".Average level spacing"]),
  (chars!",DA", [chars!"Differential c/s with respect to angle"]),
  (chars!",DA,*", [chars!"Angular distribution of particle specified"]),
  (chars!",DA,*/*", [chars!"Angular distribution of particle pair specified"]),
  (chars!",DA,A", [chars!"Angular distribution of alphas"]),
  (chars!",DA,D", [chars!"Angular distribution of of deuterons"]),
  (chars!",DA,G", [chars!"Angular distribution with respect to gammas"]),
  (chars!",DA,HE3", [chars!"Angular distribution of 3He"]),
  (chars!",DA,HF", [chars!"Differential c/s d/dA of heavy fission frag."]),
  (chars!",DA,N", [chars!"Angular distribution of neutrons"]),
  (chars!",DA,N/P", [chars!"Angular distribution of neutron/proton pair"]),
  (chars!",DA,P", [chars!"Angular distribution of protons"]),
  (chars!",DA,T", [chars!"Angular distribution of tritons"]),
  (chars!",DA/DA", [chars!"Double diff. cross section d2/dA/dA"]),
  (chars!",DA/DA,*/*", [chars!"Double diff. cross section d2/dA(*)/dA(*)"]),
  (chars!",DA/DA,A/A", [chars!"Double diff. cross section d2/dA(a)/dA(a)"]),
  (chars!",DA/DA,N/A", [chars!"Double diff. cross section d2/dA(n)/dA(a)"]),
  (chars!",DA/DA,N/D", [chars!"Double diff. cross section d2/dA(n)/dA(d)"]),
  (chars!",DA/DA,N/P", [chars!"Double diff. cross section d2/dA(n)/dA(p)"]),
  (chars!",DA/DA,P/A", [chars!"Double diff. cross section d2/dA(p)/dA(a)"]),
  (chars!",DA/DA,P/D", [chars!"Double diff. cross section d2/dA(p)/dA(d)"]),
  (chars!",DA/DA,P/P", [chars!"Double diff. cross section d2/dA(p)/dA(p)"]),
  (chars!",DA/DA/DE", [chars!"Triple diff.cross section d3/dA/dA/dE"]),
  (chars!",DA/DA/DE,*/*/*", [chars!"Triple diff.cross section d3/dA(*)/dA(*)/dE(*)"]),
  (chars!",DA/DA/DE,A/A/A", [chars!"Triple diff.cross section d3/dA(a)/dA(a)/dE(a)"]),
  (chars!",DA/DA/DE,A/HE3/A", [chars!"Triple diff.cross sect. d3/dA(a)/dA(He3)/dE(a)"]),
  (chars!",DA/DA/DE,A/HE3/HE3", [chars!"Triple diff.cs d3/dA(a)/dA(He3)/dE(He3)"]),
  (chars!",DA/DA/DE,D/D/D", [chars!"Triple diff.cross section d3/dA(d)/dA(d)/dE(d)"]),
  (chars!",DA/DA/DE,D/HE3/D", [chars!"Triple diff.cross sect. d3/dA(d)/dA(He3)/dE(d)"]),
  (chars!",DA/DA/DE,N/N/N", [chars!"Triple diff.cross section d3/dA(n)/dA(n)/dE(n)"]),
  (chars!",DA/DA/DE,N/P/P", [chars!"Triple diff.cross section d3/dA(n)/dA(p)/dE(p)"]),
  (chars!",DA/DA/DE,P/A/P", [chars!"Triple diff.cross section d3/dA(p)/dA(a)/dE(p)"]),
  (chars!",DA/DA/DE,P/D/D", [chars!"Triple diff.cross section d3/dA(p)/dA(d)/dE(d)"]),
  (chars!",DA/DA/DE,P/D/P", [chars!"Triple diff.cross section d3/dA(p)/dA(d)/dE(p)"]),
  (chars!",DA/DA/DE,P/N/N", [chars!"Triple diff.cross section d3/dA(p)/dA(n)/dE(n)"]),
  (chars!",DA/DA/DE,P/P/P", [chars!"Triple diff.cross section d3/dA(p)/dA(p)/dE(p)"]),
  (chars!",DA/DA/DE,P/T/P", [chars!"Triple diff.cross section d3/dA(p)/dA(t)/dE(p)"]),
  (chars!",DA/DA/DE,T/HE3/T", [chars!"Triple diff.cross sect. d3/dA(t)/dA(He3)/dE(t)"]),
  (chars!",DA/DE", [chars!"Double diff.cross section d2/dA/dE"]),
  (chars!",DA/DE,*", [chars!"Double diff.cross sect. d2/dA/dE of part.spec."]),
  (chars!",DA/DE,A", [chars!"Double diff.cross section d2/dA/dE of alphas"]),
  (chars!",DA/DE,D", [chars!"Double diff.cross sect. d2/dA/dE of deuterons"]),
  (chars!",DA/DE,G", [chars!"Double diff. gamma prod.cross section d2/dA/dE"]),
  (chars!",DA/DE,N", [chars!"Double diff.cross section d2/dA/dE of neutrons"]),
  (chars!",DA/DE,P", [chars!"Double diff.cross section d2/dA/dE of protons"]),
  (chars!",DA/DE,T", [chars!"Double diff.cross section d2/dA/dE of tritons"]),
  (chars!",DA/DE/DE,*/*/*", [chars!"Triple diff.cross section d3/dA(*)/dE(*)/dE(*)"]),
  (chars!",DA/DE/DE,N/N/P", [chars!"Triple diff.cross section d3/dA(n)/dE(n)/dE(p)"]),
  (chars!",DE", [chars!"Energy spectrum of outgoing particles"]),
  (chars!",DE,*", [chars!"Energy spectrum of particle specified"]),
  (chars!",DE,*/*", [chars!"Energy spectrum of particle pair specified"]),
  (chars!",DE,A", [chars!"Energy spectrum of alphas"]),
  (chars!",DE,D", [chars!"Energy spectrum of deuterons"]),
  (chars!",DE,G", [chars!"Energy spectrum of gammas"]),
  (chars!",DE,N", [chars!"Energy spectrum of neutrons"]),
  (chars!",DE,N/D", [chars!"Energy spectrum of neutron/deuteron pair"]),
  (chars!",DE,N/P", [chars!"Energy spectrum of neutron/proton pair"]),
  (chars!",DE,P", [chars!"Energy spectrum of protons"]),
  (chars!",DE,P/A", [chars!"Energy spectrum of proton/alpha pair"]),
  (chars!",DE,P/D", [chars!"Energy spectrum of proton/deuteron pair"]),
  (chars!",DE,T", [chars!"Energy spectrum of tritons"]),
  (chars!",EN", [chars!".Resonance energy"]),
  (chars!",J", [chars!".Spin J"]),
  (chars!",L", [chars!".Momentum L"]),
  (chars!",POL", [chars!"Spin-polarization probability"]),
  (chars!",POL,D", [chars!"Spin-polarization probability of deuterons"]),
  (chars!",POL/DA", [chars!"Spin-polarization probability d/dA"]),
  (chars!",POL/DA,,ANA", [chars!"Analyzing power"]),
  (chars!",POL/DA,*,ANA", [chars!"Analyzing power for particle specified"]),
  (chars!",POL/DA,D", [chars!"Diff. spin-polariz. prob. d/dA of deuterons"]),
  (chars!",POL/DA,D,ANA", [chars!"Analyzing power for deuterons"]),
  (chars!",POL/DA,HE3,ANA", [chars!"Analyzing power for helium-3"]),
  (chars!",POL/DA,N,ANA", [chars!"Analyzing power for neutrons"]),
  (chars!",POL/DA,P,ANA", [chars!"Analyzing power for protons"]),
  (chars!",POL/DA/DA/DE,,ANA", [chars!"Analyzing power dA1/dA2/dE1 for 2 particles"]),
  (chars!",POL/DA/DA/DE,P,ANA", [chars!"Analyzing power dA1/dA2/dE1 for 2 protons"]),
  (chars!",POL/DA/DE", [chars!"Diff.spin-pol.probab.w.resp.to angle and energy"]),
  (chars!",POL/DA/DE,,ANA", [chars!"Analyzing power / dE"]),
  (chars!",POL/DA/DE,A,ANA", [chars!"Analyzing power dA/dE for alphas"]),
  (chars!",POL/DA/DE,D,ANA", [chars!"Analyzing power dA/dE for deuterons"]),
  (chars!",POL/DA/DE,N,ANA", [chars!"Analyzing power dA/dE for neutrons"]),
  (chars!",POL/DA/DE,P,ANA", [chars!"Analyzing power dA/dE for protons"]),
  (chars!",POL/DA/DE,P/P,ANA", [chars!"Analyzing power d2/dA/dE for proton pair"]),
  (chars!",RI", [chars!"Resonance integral"]),
  (chars!",SIG", [chars!"Cross section"]),
  (chars!",SIG,,RES", [chars!".Cross section at resonance"]),
  (chars!",SIG,G", [chars!"Gamma-production cross section"]),
  (chars!",SIG/RAT", [chars!"Cross section ratio"]),
  (chars!",TTY", [chars!"Thick-target yield"]),
  (chars!",TTY/DA", [chars!"Differential thick target yield d/dA"]),
  (chars!",TTY/DA/DE", [chars!"Differential thick target yield d/dA/dE"]),
  (chars!",TTY/DE", [chars!"Differential thick target yield d/dE"]),
  (chars!"2,DE", [chars!"Energy spectrum of 2nd secondary particle"]),
  (chars!"BA,AMP", [chars!"Bound-atom scattering amplitude"]),
  (chars!"BA,SIG", [chars!"Bound-atom cross section"]),
  (chars!"BA/COH,AMP", [chars!"Bound-atom coherent scattering amplitude"]),
  (chars!"BA/PAR,AMP", [chars!"Partial bound-atom scattering amplitude"]),
  (chars!"COH,AMP", [chars!"Coherent scattering amplitude"]),
  (chars!"COH,SIG", [chars!"Coherent cross section"]),
  (chars!"CUM,FY", [chars!"Cumulative fission-product yield"]),
  (chars!"CUM,FY/RAT", [chars!"Cummulative fission-product yield isom. ratio"]),
  (chars!"CUM,SIG", [chars!"Cumulative cross section"]),
  (chars!"CUM,TTY", [chars!"Cumulative thick-target yield"]),
  (chars!"CUM/(M),SIG", [chars!"Cumulative cross sect.(uncert.isom.trans.incl.)"]),
  (chars!"CUM/(M),TTY", [chars!"Cum.thick-target yield (uncert.isom.trans.incl)"]),
  (chars!"CUM/M-,SIG", [chars!"Cumulative cross section, excluding isom.trans."]),
  (chars!"CUM/M-,TTY", [chars!"Cumulative thick-target yield,exclud.isom.trans"]),
  (chars!"CUM/TER,FY", [chars!"Cumulative fission prod. yield for ternary fiss"]),
  (chars!"DI,DA", [chars!"Differential c/s d/dA,direct interaction contr."]),
  (chars!"DI,DA/DE", [chars!"Double diff. c/s d2/dA/dEdir.interaction contr"]),
  (chars!"DI,DE", [chars!"En.spectrum of outg.partl.,dir.interact.contr."]),
  (chars!"DI,SIG", [chars!"Cross section, direct interaction contribution"]),
  (chars!"DI/PAR,DA", [chars!"Partial diff. c/s d/dA,direct interaction contr"]),
  (chars!"DI/PAR,DA/DE", [chars!"Partial double diff. c/s d2/dA/dE, ir.int.contr"]),
  (chars!"DI/PAR,SIG", [chars!"Partial cross section, direct interact.contrib."]),
  (chars!"INC,AMP", [chars!"Incoherent scattering amplitude"]),
  (chars!"INC,SIG", [chars!"Incoherent scattering cross section"]),
  (chars!"M+,RI", [chars!"Resonance integral, including via isomer.trans."]),
  (chars!"M+,SIG", [chars!"Cross section, incl. form. via isomeric trans."]),
  (chars!"M+,TTY", [chars!"Thick-target yield, incl. via isomeric trans."]),
  (chars!"M-,SIG", [chars!"Cross section, excluding isomeric transition"]),
  (chars!"M-,TTY", [chars!"Thick-target yield, excluding isomeric transit."]),
  (chars!"PAR,AKE,G", [chars!"Average gamma energy for specific group of g's"]),
  (chars!"PAR,AKE,G/N", [chars!"Av.gamma energy as fct.of energ.of emitt.neutr."]),
  (chars!"PAR,AKE,N", [chars!"Average energy for specific group of neutrons"]),
  (chars!"PAR,ARE", [chars!"Partial resonance area"]),
  (chars!"PAR,DA", [chars!"Partial differential cross section d/dA"]),
  (chars!"PAR,DA,*", [chars!"Partial angular distr. of particle specified"]),
  (chars!"PAR,DA,A", [chars!"Partial angular distribution of alphas"]),
  (chars!"PAR,DA,D", [chars!"Partial angular distribution of deuterons"]),
  (chars!"PAR,DA,G", [chars!"Partial diff. gamma em. cross section d/dA"]),
  (chars!"PAR,DA,HE3", [chars!"Partial angular distribution of He-3 particles"]),
  (chars!"PAR,DA,N", [chars!"Partial angular distribution of neutrons"]),
  (chars!"PAR,DA,N/P", [chars!"Partial angular distrib. of neutron/proton pair"]),
  (chars!"PAR,DA,P", [chars!"Partial angular distribution of protons"]),
  (chars!"PAR,DA,T", [chars!"Partial angular distribution of tritons"]),
  (chars!"PAR,DA/DA", [chars!"Partial double diff.cross section d2/dA/dA"]),
  (chars!"PAR,DA/DA,*/*", [chars!"Partial double diff.cross sect. d2/dA(*)/dA(*)"]),
  (chars!"PAR,DA/DA,N/A", [chars!"Partial double diff.cross sect. d2/dA(n)/dA(p)"]),
  (chars!"PAR,DA/DA/DE", [chars!"Partial triple diff.cross-section"]),
  (chars!"PAR,DA/DA/DE,*/*/*", [chars!"Par.triple diff.cross sect.d3/dA(*)/dA(*)/dE(*)"]),
  (chars!"PAR,DA/DA/DE,P/A/P", [chars!"Partial triple diff.cross-section"]),
  (chars!"PAR,DA/DE", [chars!"Partial double diff.cross-section"]),
  (chars!"PAR,DA/DE,G", [chars!"Partial double diff.gamma-emiss.cross-section"]),
  (chars!"PAR,DE", [chars!"Spectrum of outgoing particles for specif.level"]),
  (chars!"PAR,POL", [chars!"Partial polarization"]),
  (chars!"PAR,POL,G", [chars!"Polarization  for gamma-ray specified"]),
  (chars!"PAR,POL/DA", [chars!"Diff. spin-polarization prob.for partial react."]),
  (chars!"PAR,POL/DA,,ANA", [chars!"Partial analyzing power"]),
  (chars!"PAR,POL/DA/DA/DE,,ANA", [chars!"Partial analyz.power dA1/dA2/dE1 f. 2 particles"]),
  (chars!"PAR,SIG", [chars!"Partial cross section"]),
  (chars!"PAR,SIG,,RES", [chars!"Partial cross section at resonance"]),
  (chars!"PAR,SIG,*", [chars!"Partial cross section for particle specified"]),
  (chars!"PAR,SIG,A", [chars!"Partial cross section for alpha group"]),
  (chars!"PAR,SIG,G", [chars!"Partial gamma-production cross section"]),
  (chars!"PAR,SIG,P", [chars!"Partial cross section for protons"]),
  (chars!"PAR,SIG,*/*", [chars!"Partial cross section for particle pair specif."]),
  (chars!"PAR,TTY", [chars!"Partial thick target yield"]),
  (chars!"PAR,TTY,G", [chars!"Partial thick target gamma yield"]),
  (chars!"PAR,TTY/DA", [chars!"Partial differential thick target yield d/dA"]),
  (chars!"PAR/CUM,DA", [chars!"Partial angular distribution, cumulative"]),
  (chars!"PAR/CUM,SIG", [chars!"Partial cumulative cross section"]),
  (chars!"PAR/M+,DA,G", [chars!"Ang.distr.of discrete gammas incl.isom.trans."]),
  (chars!"PAR/M-,DA,G", [chars!"Ang.distr.of discrete gammas excl.isom.trans."]),
  (chars!"PR,AKE,N", [chars!"Average kinetic energy of prompt neutrons"]),
  (chars!"PR,DA,N", [chars!"Angular distribution of prompt fission neutrons"]),
  (chars!"PR,DA/DE,N", [chars!"Double diff.spect of pr.fiss.neutrons d2/dA/dE"]),
  (chars!"PR,DE,N", [chars!"Energy spectrum of prompt fission neutrons"]),
  (chars!"PR,SIG", [chars!"Prompt fission cross section"]),
  (chars!"PR/PAR,DA,G", [chars!"Prompt partial diff. gamma emiss.cross section"]),
  (chars!"PR/TER,DA,N", [chars!"Ang.dist.of prompt fission neuts,ternary fiss."]),
  (chars!"SEC,FY", [chars!"Post-neutron-emission fission-product yield"]),
  (chars!"SL,POL/DA,,ANA", [chars!"Spin correlation parameter, A(SL)"]),
  (chars!"SL,POL/DA,,C", [chars!"Spin correlation parameter, C(SL)"]),
  (chars!"SL,POL/DA,,D", [chars!"Spin rotation parameter, D(SL)"]),
  (chars!"SL,POL/DA,,K", [chars!"Spin-transfer parameter, K(SL)"]),
  (chars!"SL,POL/DA,N,D", [chars!"Spin rotation parameter, D(SL), for neutrons"]),
  (chars!"SL,POL/DA,P,D", [chars!"Spin rotation parameter, D(SL), for protons"]),
  (chars!"SL/PAR,POL/DA,,ANA", [chars!"Partl.spin correlation parameter A(SL)"]),
  (chars!"SL/PAR,POL/DA,,D", [chars!"Spin-rotation parameter, D(SL), partl.reaction"]),
  (chars!"SL/PAR,POL/DA,,K", [chars!"Spin-transfer parameter, K(SL), partl.reaction"]),
  (chars!"TER,AKE,*", [chars!"Avg. kin.en. of particle specif., ternary fiss."]),
  (chars!"TER,AKE,A", [chars!"Avg. kinetic energy of alphas, ternary fission"]),
  (chars!"TER,AKE,D", [chars!"Avg. kinetic energy of deuterons, ternary fiss."]),
  (chars!"TER,AKE,HF", [chars!"Avg.kin.energy of heavy fiss.frag.,tern. fiss."]),
  (chars!"TER,AKE,LCP", [chars!"Avg. kin.energy light chg. part., ternary fiss."]),
  (chars!"TER,AKE,P", [chars!"Avg. kinetic energy of protons, ternary fission"]),
  (chars!"TER,AKE,T", [chars!"Avg. kinetic energy of tritons, ternary fission"]),
  (chars!"TER,DA,*", [chars!"Ang. distr. of particle specif.,ternary fission"]),
  (chars!"TER,DA,A", [chars!"Angular distrution of alphas, ternary fission"]),
  (chars!"TER,DA,N", [chars!"Ang. distr. of fission neutrons,ternary fission"]),
  (chars!"TER,DA/DE,*", [chars!"Double-diff. cs d2/dA/dE of alphas,ternary fiss"]),
  (chars!"TER,DA/DE,A", [chars!"Double-diff. cs d2/dA/dE alphas, ternary fiss."]),
  (chars!"TER,DE,*", [chars!"Energy spectr.of particle specif.,ternary fiss."]),
  (chars!"TER,DE,A", [chars!"Energy spectrum of alphas, ternary fission"]),
  (chars!"TER,DE,D", [chars!"Energy spectrum of deuterons, ternary fission"]),
  (chars!"TER,DE,P", [chars!"Energy spectrum of protons, ternary fission"]),
  (chars!"TER,DE,T", [chars!"Energy spectrum of tritons, ternary fission"]),
  (chars!"TER,FY", [chars!"Fission-product yield, ternary fission"]),
  (chars!"TER,FY,A", [chars!"Alpha yield from ternary fission"]),
  (chars!"TER,FY,LCP", [chars!"Light-charged-particle yield, ternary fission"]),
  (chars!"TER,FY,T", [chars!"Triton yield from ternary fission"]),
  (chars!"TER,SIG", [chars!"Ternary fission cross section"]),
  (chars!"TER,SIG,,RES", [chars!".Ternary fission cross section at resonance"]),
  (chars!"TER,SIG,A", [chars!"Alpha-emission cross section, ternary fission"])]

/-- `x4i3/dicts/dict34.txt`, cut down -/
def modifiers : Dict Str (List Str) := [
  (chars!"AMP", [chars!"Amplitude (for resonance parameters)"]),
  (chars!"ANA", [chars!"Vector analyzing power, A(y), for incident beam"]),
  (chars!"C", [chars!"Spin correlation parameter"]),
  (chars!"D", [chars!"Spin rotation parameter"]),
  (chars!"G", [chars!"times statistical weight factor"]),
  (chars!"K", [chars!"Spin transfer parameter"]),
  (chars!"RES", [chars!"at peak of resonance"]),
  (chars!"(A)", [chars!"Uncertain if corrected for natural isotopic abund."]),
  (chars!"A", [chars!"Data times natural isotopic abundance"]),
  (chars!"MXW", [chars!"Maxwellian average"]),
  (chars!"SPA", [chars!"Spectrum average"])]

/-- `x4i3/dicts/dict03.txt`, cut down -/
def institutes : Dict Str (List Str) := [
  (chars!"ANL", [chars!"Argonne National Laboratory, Argonne, IL", chars!"USA"]),
  (chars!"BON", [chars!"Univ. of Bonn", chars!"GER"]),
  (chars!"BUL", [chars!"Bulgaria", chars!"BUL"]),
  (chars!"DUB", [chars!"Joint Inst.for Nucl.Res., Dubna", chars!"ZZZ"]),
  (chars!"IFJ", [chars!"Inst.Fiz.Jadr., Krakow", chars!"POL"]),
  (chars!"JUL", [chars!"Kernforschungsanlage Juelich", chars!"GER"]),
  (chars!"KTO", [chars!"Kyoto Univ.", chars!"JAP"]),
  (chars!"OSA", [chars!"Osaka Univ., Osaka", chars!"JPN"]),
  (chars!"SLK", [chars!"Slovakia", chars!"SLK"]),
  (chars!"SOF", [chars!"Univ.of Sofia", chars!"BUL"]),
  (chars!"TRM", [chars!"Bhabha Atomic Res. Centre, Trombay", chars!"IND"]),
  (chars!"UJK", [chars!"Krakow, Jagellonian Univ", chars!"POL"]),
  (chars!"UK", [chars!"United Kingdom", chars!"UK"]),
  (chars!"USA", [chars!"United States of America", chars!"USA"])]

/-- `x4i3/dicts/dict04.txt`, cut down -/
def types : Dict Str (List Str) := [
  (chars!"0", [chars!"DATA", chars!"Experimental data library"]),
  (chars!"3", [chars!"DATA", chars!"Evaluated data library"]),
  (chars!"4", [chars!"DATA", chars!"Experimental data library"]),
  (chars!"A", [chars!"CONF", chars!"Abstract of conference"]),
  (chars!"B", [chars!"BOOK", chars!"Book"]),
  (chars!"C", [chars!"CONF", chars!"Conference"]),
  (chars!"J", [chars!"JOUR", chars!"Journal"]),
  (chars!"K", [chars!"JOUR", chars!"Abstract of journal"]),
  (chars!"P", [chars!"PROG", chars!"Progress report"]),
  (chars!"R", [chars!"REPT", chars!"Report other than progress report"]),
  (chars!"S", [chars!"REPT", chars!"Report containing conference proc."]),
  (chars!"T", [chars!"THES", chars!"Thesis or dissertation"]),
  (chars!"W", [chars!"PRIV", chars!"Private communication"]),
  (chars!"X", [chars!"PREP", chars!"Preprint"])]

/-- `x4i3/dicts/dict05.txt`, cut down -/
def journals : Dict Str (List Str) := [
  (chars!"ABS", [chars!"Memoires de l'Acad. Roy.Belg.,Cl.Sci.", chars!"BLG"]),
  (chars!"AKE", [chars!"Atomkernenergie", chars!"GER"]),
  (chars!"ANA", [chars!"Analyst (London)", chars!"UK"]),
  (chars!"AND", [chars!"Atomic Data and Nuclear Data Tables", chars!"USA"]),
  (chars!"ANE", [chars!"Annals of Nuclear Energy", chars!"UK"]),
  (chars!"APP", [chars!"Acta Physica Polonica", chars!"POL"]),
  (chars!"APP/A", [chars!"Acta Physica Polonica, Part A", chars!"POL"]),
  (chars!"APP/B", [chars!"Acta Physica Polonica, Part B", chars!"POL"]),
  (chars!"AT", [chars!"Atomes", chars!"FR"]),
  (chars!"CJP", [chars!"Canadian Journal of Physics", chars!"CAN"]),
  (chars!"DA", [chars!"Dissertation Abstracts", chars!"USA"]),
  (chars!"DA/B", [chars!"Dissertation Abstracts B (Sciences)", chars!"USA"]),
  (chars!"EN", [chars!"Energia Nucleare (Milan)", chars!"ITY"]),
  (chars!"EXP", [chars!"Experientia", chars!"SWT"]),
  (chars!"INC", [chars!"Inorganic and Nuclear Chemistry Letters", chars!"UK"]),
  (chars!"ND/A", [chars!"Nuclear Data Tables (Nuclear Data Sect.A)", chars!"USA"]),
  (chars!"ND/B", [chars!"Nuclear Data Sheets (Nuclear Data Sect.B)", chars!"USA"]),
  (chars!"NE", [chars!"Nuclear Engineering International", chars!"UK"]),
  (chars!"NIM", [chars!"Nuclear Instrum.and Methods in Physics Res.", chars!"NED"]),
  (chars!"NIM/A", [chars!"Nucl. Instrum. Methods in Physics Res., Sect.A", chars!"NED"]),
  (chars!"NIM/B", [chars!"Nucl. Instrum. Methods in Physics Res., Sect.B", chars!"NED"]),
  (chars!"NP", [chars!"Nuclear Physics", chars!"NED"]),
  (chars!"NP/A", [chars!"Nuclear Physics, Section A", chars!"NED"]),
  (chars!"NP/B", [chars!"Nuclear Physics, Section B", chars!"NED"]),
  (chars!"NST", [chars!"J. of Nuclear Science and Technology, Tokyo", chars!"JPN"]),
  (chars!"NSTS", [chars!"J.Nucl.Science and Technol.Tokyo,Supplement", chars!"JPN"]),
  (chars!"PR", [chars!"Physical Review", chars!"USA"]),
  (chars!"PR/A", [chars!"Physical Review, Part A, General Physics", chars!"USA"]),
  (chars!"PR/B", [chars!"Physical Review, Part B, Condensed Matter", chars!"USA"]),
  (chars!"PR/C", [chars!"Physical Review, Part C, Nuclear Physics", chars!"USA"]),
  (chars!"PR/D", [chars!"Physical Review, Part D, Particles and Fields", chars!"USA"]),
  (chars!"YK", [chars!"Vop. At.Nauki i Tekhn.,Ser.Yadernye Konstanty", chars!"RUS"]),
  (chars!"ZN", [chars!"Zeitschrift fuer Naturforschung", chars!"GER"]),
  (chars!"ZN/A", [chars!"Zeitschrift fuer Naturforschung, Section A", chars!"GER"]),
  (chars!"ZN/B", [chars!"Zeitschrift fuer Naturforschung, Section B", chars!"GER"])]

/-- `x4i3/dicts/dict07.txt`, cut down -/
def books : Dict Str (List Str) := [
]

/-- the dictionaries of the grammars, exfor_dicts.py:58-110 -/
def dicts : TextDicts :=
  ⟨[(chars!"ReferenceTypes", types), (chars!"Journals", journals), (chars!"ConferencesAndBooks", books)], institutes, compounds⟩
/-- the dictionaries of the reactions, exfor_reactions.py:217-263 -/
def rxDicts : RxDicts := ⟨compounds, quantities, modifiers⟩

/-- `str` or `repr` of an object made from a text, exfor_reactions.py and exfor_particle.py -/
def rxText (how cls text : Str) : Except PyErr Str :=
  if cls = chars!"X4Process" then match processOfStr compounds text with
    | .error e => .error e
    | .ok p => if how = chars!"repr" then p.repr else p.str compounds
  else if cls = chars!"X4Reaction" then match reactionOfStr compounds text with
    | .error e => .error e
    | .ok r => if how = chars!"repr" then r.repr else r.str rxDicts
  else if cls = chars!"X4ReactionCombination" then match parseExpression text with
    | .error e => .error e
    | .ok ts => match combination compounds maxDepth ts with
      | .error e => .error e
      | .ok d => if how = chars!"repr" then (Measurement.comb d).repr else (Measurement.comb d).str rxDicts
  else match (if cls = chars!"X4Particle" then particleOfStr text else if cls = chars!"X4Nucleus" then nucleusOfStr text
      else if cls = chars!"X4Isomer" then isomerOfStr text else compoundOfStr text) with
    | .error e => .error e
    | .ok p => if how = chars!"repr" then p.exfor else p.pretty compounds

/-- `str` or `repr` of a field made from its lines, exfor_field.py -/
def fieldText (how tag : Str) (lines : List Str) : Except PyErr Str :=
  match buildField (x4Parsers dicts) (some tag) lines with
  | .error e => .error e
  | .ok b => if how = chars!"repr" then b.repr else b.str rxDicts

/-- TestX4Nucleus.test_za, line 40 -/
example : rxText chars!"str" chars!"X4Nucleus" chars!"94-PU-240" = .ok chars!"240Pu" := by decide +kernel

/-- TestX4Nucleus.test_za, line 42 -/
example : rxText chars!"repr" chars!"X4Nucleus" chars!"94-PU-240" = .ok chars!"94-PU-240" := by decide +kernel

/-- TestX4Nucleus.test_za, line 47 -/
example : rxText chars!"str" chars!"X4Nucleus" chars!"94-Pu-240" = .ok chars!"240Pu" := by decide +kernel

/-- TestX4Nucleus.test_za, line 49 -/
example : rxText chars!"repr" chars!"X4Nucleus" chars!"94-Pu-240" = .ok chars!"94-PU-240" := by decide +kernel

/-- TestX4Nucleus.test_za, line 54 -/
example : rxText chars!"str" chars!"X4Nucleus" chars!"94-Pu-240-" = .ok chars!"240Pu" := by decide +kernel

/-- TestX4Nucleus.test_za, line 56 -/
example : rxText chars!"repr" chars!"X4Nucleus" chars!"94-Pu-240-" = .ok chars!"94-PU-240" := by decide +kernel

/-- TestX4Nucleus.test_isomers, line 63 -/
example : rxText chars!"str" chars!"X4Isomer" chars!"94-PU-240-M" = .ok chars!"240mPu" := by decide +kernel

/-- TestX4Nucleus.test_isomers, line 64 -/
example : rxText chars!"repr" chars!"X4Isomer" chars!"94-PU-240-M" = .ok chars!"94-PU-240-M" := by decide +kernel

/-- TestX4Nucleus.test_isomers, line 70 -/
example : rxText chars!"str" chars!"X4Isomer" chars!"94-Pu-240-M2" = .ok chars!"240m2Pu" := by decide +kernel

/-- TestX4Nucleus.test_isomers, line 71 -/
example : rxText chars!"repr" chars!"X4Isomer" chars!"94-Pu-240-M2" = .ok chars!"94-PU-240-M2" := by decide +kernel

/-- TestX4Particle.test_pi, line 90 -/
example : rxText chars!"str" chars!"X4Particle" chars!"PIP" = .ok chars!"pi+" := by decide +kernel

/-- TestX4Particle.test_n, line 93 -/
example : rxText chars!"str" chars!"X4Particle" chars!"N" = .ok chars!"n" := by decide +kernel

/-- TestX4Particle.test_a, line 96 -/
example : rxText chars!"str" chars!"X4Particle" chars!"A" = .ok chars!"alpha" := by decide +kernel

/-- TestX4Particle.test_he3, line 99 -/
example : rxText chars!"str" chars!"X4Particle" chars!"HE3" = .ok chars!"He3" := by decide +kernel

/-- TestX4ChemicalCompound.test, line 108 -/
example : rxText chars!"str" chars!"X4ChemicalCompound" chars!"19-K-CMP" = .ok chars!"Potassium compound" := by decide +kernel

/-- TextX4Process.test_n2n, line 115 -/
example : rxText chars!"str" chars!"X4Process" chars!"94-PU-240(N,2n)" = .ok chars!"240Pu(n,2n)239Pu" := by decide +kernel

/-- TextX4Process.test_nnprime, line 119 -/
example : rxText chars!"str" chars!"X4Process" chars!"94-PU-240(N,N)94-PU-240" = .ok chars!"240Pu(n,n)240Pu" := by decide +kernel

/-- TextX4Process.test_ntot, line 123 -/
example : rxText chars!"str" chars!"X4Process" chars!"94-PU-240(N,TOT)" = .ok chars!"240Pu(n,Total)" := by decide +kernel

/-- TextX4Process.test_nf, line 127 -/
example : rxText chars!"str" chars!"X4Process" chars!"94-PU-240(N,F)" = .ok chars!"240Pu(n,Fission)" := by decide +kernel

/-- TextX4Process.test_spontaneous_fission, line 131 -/
example : rxText chars!"str" chars!"X4Process" chars!"94-PU-240(0,F)" = .ok chars!"240Pu(None,Fission)" := by decide +kernel

/-- TextX4Process.test_2p4n, line 135 -/
example : rxText chars!"str" chars!"X4Process" chars!"94-PU-240(P,2p+4n)" = .ok chars!"240Pu(p,2p+4n)235Np" := by decide +kernel

/-- TextX4Process.test_heavy_ion, line 139 -/
example : rxText chars!"str" chars!"X4Process" chars!"94-PU-240(94-PU-240,X)" = .ok chars!"240Pu(240Pu,Unspecified)" := by decide +kernel

/-- TextX4Process.test_spallation, line 143 -/
example : rxText chars!"str" chars!"X4Process" chars!"94-PU-240(P,A+6-C-14+4N)" = .ok chars!"240Pu(p,alpha+14C+4n)219Fr" := by decide +kernel

/-- TextX4Process.test_kitchen_sink, line 147 -/
example : rxText chars!"str" chars!"X4Process" chars!"94-PU-240(P,A+6-C-14+4N+X)" = .ok chars!"240Pu(p,alpha+14C+4n+Unspecified)" := by decide +kernel

/-- TextX4Process.test_isomer_target, line 151 -/
example : rxText chars!"str" chars!"X4Process" chars!"94-PU-240-M(N,2n)" = .ok chars!"240mPu(n,2n)239Pu" := by decide +kernel

/-- TextX4Process.test_simple_but_important, line 155 -/
example : rxText chars!"str" chars!"X4Process" chars!"94-PU-239(N,2N)94-PU-238" = .ok chars!"239Pu(n,2n)238Pu" := by decide +kernel

/-- TextX4Process.test_chemical_target, line 168 -/
example : rxText chars!"str" chars!"X4Process" chars!"19-K-CMP(N,TOT)" = .ok chars!"Potassium compound(n,Total)" := by decide +kernel

/-- TextX4Process.test_chemical_target, line 170 -/
example : rxText chars!"repr" chars!"X4Process" chars!"19-K-CMP(N,TOT)" = .ok chars!"19-K-CMP(N,TOT)" := by decide +kernel

/-- TestX4Reaction.test_simple_cs, line 178 -/
example : rxText chars!"str" chars!"X4Reaction" chars!"(94-PU-239(N,F),,SIG)" = .ok chars!"Cross section for 239Pu(n,Fission)" := by decide +kernel

/-- TestX4Reaction.test_hard_cs, line 182 -/
example : rxText chars!"str" chars!"X4Reaction" chars!"(94-PU-239(P,A+6-C-14+4N),,SIG)" = .ok chars!"Cross section for 239Pu(p,alpha+14C+4n)218Fr" := by decide +kernel

/-- TestX4Reaction.test_maxwellian_ave_cs, line 186 -/
example : rxText chars!"str" chars!"X4Reaction" chars!"(94-PU-239(N,ABS),,SIG,,MXW)" = .ok chars!"Maxwellian average Cross section for 239Pu(n,Absorption)" := by decide +kernel

/-- TestX4Reaction.test_what_the_heck_is_this, line 190 -/
example : rxText chars!"str" chars!"X4Reaction" chars!"(92-U-238-M(0,F),TER,AKE,LCP)" = .ok chars!"Avg. kin.energy light chg. part., ternary fiss. for 238mU(None,Fission)" := by decide +kernel

/-- TestX4Reaction.test_resonance_energy, line 194 -/
example : rxText chars!"str" chars!"X4Reaction" chars!"(94-PU-240(N,0),,EN)" = .ok chars!".Resonance energy for 240Pu(n,None)" := by decide +kernel

/-- TestX4Reaction.test_analyzing_power, line 198 -/
example : rxText chars!"str" chars!"X4Reaction" chars!"(1-H-1(D,EL)1-H-1,SL,POL/DA,,ANA)" = .ok chars!"Vector analyzing power, A(y), for incident beam Spin-polarization probability d/dA for 1H(d,Elastic)1H" := by decide +kernel

/-- TestX4ReactionCombination.test_sum, line 204 -/
example : rxText chars!"str" chars!"X4ReactionCombination" chars!"((92-U-235(N,G)92-U-236,,SIG)+(92-U-235(N,F),,SIG))" = .ok chars!"(( Cross section for 235U(n,gamma)236U )+( Cross section for 235U(n,Fission) ))" := by decide +kernel

/-- TestX4ReactionCombination.test_ratio, line 210 -/
example : rxText chars!"str" chars!"X4ReactionCombination" chars!"((92-U-234(N,F),,SIG)/(92-U-235(N,F),,SIG))" = .ok chars!"(( Cross section for 234U(n,Fission) )/( Cross section for 235U(n,Fission) ))" := by decide +kernel

/-- TestX4ReactionCombination.test_tautology, line 216 -/
example : rxText chars!"str" chars!"X4ReactionCombination" chars!"((19-K-CMP(N,TOT),,SIG)=(17-CL-CMP(N,TOT),,SIG))" = .ok chars!"(( Cross section for Potassium compound(n,Total) )=( Cross section for Chlorine compound(n,Total) ))" := by decide +kernel

/-- TestX4ReactionCombination.test_doubleslash, line 220 -/
example : rxText chars!"str" chars!"X4ReactionCombination" chars!"((98-CF-252(0,F),PR,DE,N)//(92-U-235(N,F),PR,DE,N,MXW))" = .ok chars!"(( Energy spectrum of prompt fission neutrons for 252Cf(None,Fission) )//( Maxwellian average Energy spectrum of outgoing particles for 235U(n,Fission) ))" := by decide +kernel

/-- TestX4ReactionCombination.test_pathological, line 224 -/
example : rxText chars!"str" chars!"X4ReactionCombination" chars!"(((94-PU-239(N,F),,SIG)-(92-U-238-M(0,F),TER,AKE,LCP))/(94-PU-239(N,ABS),,SIG,,MXW))" = .ok chars!"((( Cross section for 239Pu(n,Fission) )-( Avg. kin.energy light chg. part., ternary fiss. for 238mU(None,Fission) ))/( Maxwellian average Cross section for 239Pu(n,Absorption) ))" := by decide +kernel

/-- TestX4ReactionCombination.test_sum_with_isomer, line 228 -/
example : rxText chars!"str" chars!"X4ReactionCombination" chars!"((79-AU-197(N,2N)79-AU-196-G,,SIG)+(79-AU-197(N,2N)79-AU-196-M1,,SIG))" = .ok chars!"(( Cross section for 197Au(n,2n)196m0Au )+( Cross section for 197Au(n,2n)196mAu ))" := by decide +kernel

/-- TestX4ReactionCombination.test_you_are_friggen_kidding, line 234 -/
example : rxText chars!"str" chars!"X4ReactionCombination" chars!"((79-AU-197(N,2N)79-AU-196-M2,,SIG)/(79-AU-197(N,2N)79-AU-196-G+M1,,SIG))" = .ok chars!"(( Cross section for 197Au(n,2n)196m2Au )/( (( Cross section for 197Au(n,2n)196m0Au )+( Cross section for 197Au(n,2n)196mAu )) ))" := by decide +kernel

/-- TestX4PlainField.test_repr, line 62 -/
example : fieldText chars!"repr" chars!"XX" [chars!"INC-SOURCE  BEAM-INTENSITY IS 0.5NA", chars!"            BEAM-POLARIZATION IS NOT GIVEN", chars!"           (ATOMI) with a Wien filter"] = .ok chars!"INC-SOURCE  BEAM-INTENSITY IS 0.5NA\n            BEAM-POLARIZATION IS NOT GIVEN\n           (ATOMI) with a Wien filter" := by decide +kernel

/-- TestX4PlainFieldPointer.test_repr, line 80 -/
example : fieldText chars!"repr" chars!"XX" [chars!"REACTION  1((30-ZN-64(N,G)30-ZN-65,,RI)/", chars!"           (30-ZN-64(N,G)30-ZN-65,,SIG))", chars!"          2(30-ZN-64(N,G)30-ZN-65,,RI)", chars!"           Reduced resonance integral and ratio to thermal", chars!"           absorption cross section"] = .ok chars!"REACTION  1((30-ZN-64(N,G)30-ZN-65,,RI)/\n           (30-ZN-64(N,G)30-ZN-65,,SIG))\n          2(30-ZN-64(N,G)30-ZN-65,,RI)\n           Reduced resonance integral and ratio to thermal\n           absorption cross section" := by decide +kernel

/-- TestX4ReactionField.test_repr, line 93 -/
example : fieldText chars!"repr" chars!"REACTION" [chars!"REACTION   ((30-ZN-64(N,G)30-ZN-65,,RI)/", chars!"           (30-ZN-64(N,G)30-ZN-65,,SIG))"] = .ok chars!"REACTION   ((30-ZN-64(N,G)30-ZN-65,,RI)/\n           (30-ZN-64(N,G)30-ZN-65,,SIG))" := by decide +kernel

/-- TestX4ReactionField.test_str, line 96 -/
example : fieldText chars!"str" chars!"REACTION" [chars!"REACTION   ((30-ZN-64(N,G)30-ZN-65,,RI)/", chars!"           (30-ZN-64(N,G)30-ZN-65,,SIG))"] = .ok chars!"(( Resonance integral for 64Zn(n,gamma)65Zn )/( Cross section for 64Zn(n,gamma)65Zn ))" := by decide +kernel

/-- TestX4ReactionField.test_you_gotta_be_kidding, line 107 -/
example : fieldText chars!"str" chars!"REACTION" [chars!"REACTION   ((79-AU-197(N,2N)79-AU-196-M2,,SIG)/", chars!"           (79-AU-197(N,2N)79-AU-196-G+M1,,SIG))", chars!"           Isomeric ratio sigma(m2)/sigma(g.s.+ m1)"] = .ok chars!"(( Cross section for 197Au(n,2n)196m2Au )/( (( Cross section for 197Au(n,2n)196m0Au )+( Cross section for 197Au(n,2n)196mAu )) ))" := by decide +kernel

/-- TestX4ReactionField.test_no_you_really_gotta_be_kidding, line 114 -/
example : fieldText chars!"str" chars!"REACTION" [chars!"REACTION   (48-CD-116(N,2N)48-CD-115-M/G,,SIG/RAT)"] = .ok chars!"(( Cross section ratio for 116Cd(n,2n)115mCd )/( Cross section ratio for 116Cd(n,2n)115m0Cd ))" := by decide +kernel

/-- TestX4ReactionField.test_please_stop, line 122 -/
example : fieldText chars!"str" chars!"REACTION" [chars!"REACTION  1(40-ZR-88(N,N+P)39-Y-87-M/T,,SIG/RAT)", chars!"          2(40-ZR-88(N,N+P)39-Y-87,,SIG)"] = .ok chars!"[1] (( Cross section ratio for 88Zr(n,n+p)87mY )/( Cross section ratio for 88Zr(n,n+p)87mY )); [2] Cross section for 88Zr(n,n+p)87Y" := by decide +kernel

/-- TestX4ReactionField.test_oh_god_no, line 129 -/
example : fieldText chars!"str" chars!"REACTION" [chars!"REACTION   (96-CM-248(10-NE-22,5N)106-SG-265-M1+M2,,SIG)"] = .ok chars!"(( Cross section for 248Cm(22Ne,5n)265mSg )+( Cross section for 248Cm(22Ne,5n)265m2Sg ))" := by decide +kernel

/-- TestX4ReactionField.test_oh_god_no, line 138 -/
example : fieldText chars!"str" chars!"REACTION" [chars!"REACTION  1(44-RU-OXI(N,THS)44-RU-OXI,BA/COH,AMP)", chars!"          2(44-RU-OXI(N,THS)44-RU-OXI,BA/COH,AMP)", chars!"          3(44-RU-OXI(N,THS)44-RU-OXI,BA/COH,AMP) Bound molecule", chars!"            coherent scattering length at zero neutron energy."] = .ok chars!"[1] Bound-atom coherent scattering amplitude for Ruthenium oxide(n,ThermalScattering)Ruthenium oxide; [2] Bound-atom coherent scattering amplitude for Ruthenium oxide(n,ThermalScattering)Ruthenium oxide; [3] Bound-atom coherent scattering amplitude for Ruthenium oxide(n,ThermalScattering)Ruthenium oxide, Bound molecule coherent scattering length at zero neutron energy." := by decide +kernel

/-- TestX4ReactionField.test_oh_god_no, line 146 -/
example : fieldText chars!"str" chars!"REACTION" [chars!"REACTION  1(72-HF-178-M2(N,G)72-HF-179-G,,SIG)", chars!"          2(72-HF-178-M2(N,G)72-HF-179-G,,RI)", chars!"          3(72-HF-178-M2(N,G)72-HF-179-M2/G,,SIG/RAT)", chars!"          4(72-HF-178-M2(N,G)72-HF-179-M2,,SIG)", chars!"          5(72-HF-178-M2(N,G)72-HF-179-M2,,RI)"] = .ok chars!"[1] Cross section for 178m2Hf(n,gamma)179m0Hf; [2] Resonance integral for 178m2Hf(n,gamma)179m0Hf; [3] (( Cross section ratio for 178m2Hf(n,gamma)179m2Hf )/( Cross section ratio for 178m2Hf(n,gamma)179m0Hf )); [4] Cross section for 178m2Hf(n,gamma)179m2Hf; [5] Resonance integral for 178m2Hf(n,gamma)179m2Hf" := by decide +kernel

/-- TestX4ReactionField.test_oh_god_no, line 152 -/
example : fieldText chars!"str" chars!"REACTION" [chars!"REACTION   (72-HF-178-M2(N,G)72-HF-179-G+M2,,SIG,,RES)    Indivi-", chars!"            dual resonance contribution in capture cross-section"] = .ok chars!"(( Cross section for 178m2Hf(n,gamma)179m0Hf )+( Cross section for 178m2Hf(n,gamma)179m2Hf ))" := by decide +kernel

/-- TestX4ReactionField.test_oh_god_no, line 158 -/
example : fieldText chars!"str" chars!"REACTION" [chars!"REACTION   ((94-PU-239(N,F),,SIG)/", chars!"           (92-U-235(N,F),,SIG))"] = .ok chars!"(( Cross section for 239Pu(n,Fission) )/( Cross section for 235U(n,Fission) ))" := by decide +kernel

/-- TestX4ReactionField.test_oh_god_no, line 164 -/
example : fieldText chars!"str" chars!"REACTION" [chars!"REACTION   ((92-U-233(N,F),,SIG)/", chars!"           (92-U-235(N,F),,SIG))"] = .ok chars!"(( Cross section for 233U(n,Fission) )/( Cross section for 235U(n,Fission) ))" := by decide +kernel

/-- TestX4ReactionFieldPointer.test_repr, line 176 -/
example : fieldText chars!"repr" chars!"REACTION" [chars!"REACTION  1((30-ZN-64(N,G)30-ZN-65,,RI)/", chars!"           (30-ZN-64(N,G)30-ZN-65,,SIG))", chars!"          2(30-ZN-64(N,G)30-ZN-65,,RI)", chars!"           Reduced resonance integral and ratio to thermal", chars!"           absorption cross section"] = .ok chars!"REACTION  1((30-ZN-64(N,G)30-ZN-65,,RI)/\n           (30-ZN-64(N,G)30-ZN-65,,SIG))\n          2(30-ZN-64(N,G)30-ZN-65,,RI)\n           Reduced resonance integral and ratio to thermal\n           absorption cross section" := by decide +kernel

/-- TestX4ReactionFieldPointer.test_str, line 179 -/
example : fieldText chars!"str" chars!"REACTION" [chars!"REACTION  1((30-ZN-64(N,G)30-ZN-65,,RI)/", chars!"           (30-ZN-64(N,G)30-ZN-65,,SIG))", chars!"          2(30-ZN-64(N,G)30-ZN-65,,RI)", chars!"           Reduced resonance integral and ratio to thermal", chars!"           absorption cross section"] = .ok chars!"[1] (( Resonance integral for 64Zn(n,gamma)65Zn )/( Cross section for 64Zn(n,gamma)65Zn )); [2] Resonance integral for 64Zn(n,gamma)65Zn, Reduced resonance integral and ratio to thermal absorption cross section" := by decide +kernel

/-- TestX4TitleField.test_oneline, line 195 -/
example : fieldText chars!"str" chars!"TITLE" [chars!"TITLE       ACCELERATION OF PROTONS AND DEUTERONS POLARIZED"] = .ok chars!"Acceleration Of Protons And Deuterons Polarized" := by decide +kernel

/-- TestX4TitleField.test_oneline, line 197 -/
example : fieldText chars!"repr" chars!"TITLE" [chars!"TITLE       ACCELERATION OF PROTONS AND DEUTERONS POLARIZED"] = .ok chars!"TITLE       ACCELERATION OF PROTONS AND DEUTERONS POLARIZED" := by decide +kernel

/-- TestX4TitleField.test_multiline, line 204 -/
example : fieldText chars!"str" chars!"TITLE" [chars!"TITLE      MEASURED ACTIVATION CROSS SECTIONS BELOW 10 MEV FOR THE", chars!"            51-V(N,P)51-TI AND 51-V(N,ALPHA)48-SC REACTIONS."] = .ok chars!"Measured Activation Cross Sections Below 10 Mev For The 51-V(N,P)51-Ti And 51-V(N,Alpha)48-Sc Reactions." := by decide +kernel

/-- TestX4TitleField.test_multiline, line 206 -/
example : fieldText chars!"repr" chars!"TITLE" [chars!"TITLE      MEASURED ACTIVATION CROSS SECTIONS BELOW 10 MEV FOR THE", chars!"            51-V(N,P)51-TI AND 51-V(N,ALPHA)48-SC REACTIONS."] = .ok chars!"TITLE      MEASURED ACTIVATION CROSS SECTIONS BELOW 10 MEV FOR THE\n            51-V(N,P)51-TI AND 51-V(N,ALPHA)48-SC REACTIONS." := by decide +kernel

/-- TestX4MonitorField.test_oneline, line 245 -/
example : fieldText chars!"repr" chars!"MONITOR" [chars!"MONITOR    (92-U-235(N,F),,SIG)"] = .ok chars!"MONITOR    (92-U-235(N,F),,SIG)" := by decide +kernel

/-- TestX4MonitorField.test_oneline, line 247 -/
example : fieldText chars!"str" chars!"MONITOR" [chars!"MONITOR    (92-U-235(N,F),,SIG)"] = .ok chars!"[((92-U-235(N,F),SIG), '', None)]" := by decide +kernel

/-- TestX4MonitorField.test_oneline_pointer, line 251 -/
example : fieldText chars!"repr" chars!"MONITOR" [chars!"MONITOR   1(79-AU-197(N,2N)79-AU-196,,SIG)"] = .ok chars!"MONITOR   1(79-AU-197(N,2N)79-AU-196,,SIG)" := by decide +kernel

/-- TestX4MonitorField.test_oneline_pointer, line 254 -/
example : fieldText chars!"str" chars!"MONITOR" [chars!"MONITOR   1(79-AU-197(N,2N)79-AU-196,,SIG)"] = .ok chars!"[1] [((79-AU-197(N,2N)79-AU-196,SIG), '', None)]" := by decide +kernel

/-- TestX4MonitorField.test_multiline, line 258 -/
example : fieldText chars!"repr" chars!"MONITOR" [chars!"MONITOR    (62-SM-147(N,A)60-ND-144,,SIG) Data were normalized", chars!"           over the interval 300-2500 eV to the data given", chars!"           in monitor reference"] = .ok chars!"MONITOR    (62-SM-147(N,A)60-ND-144,,SIG) Data were normalized\n           over the interval 300-2500 eV to the data given\n           in monitor reference" := by decide +kernel

/-- TestX4MonitorField.test_multiline, line 261 -/
example : fieldText chars!"str" chars!"MONITOR" [chars!"MONITOR    (62-SM-147(N,A)60-ND-144,,SIG) Data were normalized", chars!"           over the interval 300-2500 eV to the data given", chars!"           in monitor reference"] = .ok chars!"[((62-SM-147(N,A)60-ND-144,SIG), 'Data were normalized over the interval 300-2500 eV to the data given in monitor reference', None)]" := by decide +kernel

/-- TestX4MonitorField.test_multiline_boring, line 271 -/
example : fieldText chars!"repr" chars!"MONITOR" [chars!"MONITOR    Reactor grade graphite samples with thickness of 7", chars!"           cm and 13 cm were useded for monitoring"] = .ok chars!"MONITOR    Reactor grade graphite samples with thickness of 7\n           cm and 13 cm were useded for monitoring" := by decide +kernel

/-- TestX4MonitorField.test_multiline_boring, line 274 -/
example : fieldText chars!"str" chars!"MONITOR" [chars!"MONITOR    Reactor grade graphite samples with thickness of 7", chars!"           cm and 13 cm were useded for monitoring"] = .ok chars!"[(None, 'Reactor grade graphite samples with thickness of 7 cm and 13 cm were useded for monitoring', None)]" := by decide +kernel

/-- TestX4MonitorField.test_two_monitors, line 280 -/
example : fieldText chars!"repr" chars!"MONITOR" [chars!"MONITOR    ((MONIT1)79-AU-197(N,G)79-AU-198,,RI)", chars!"           ((MONIT2)27-CO-59(N,G)27-CO-60,,RI)"] = .ok chars!"MONITOR    ((MONIT1)79-AU-197(N,G)79-AU-198,,RI)\n           ((MONIT2)27-CO-59(N,G)27-CO-60,,RI)" := by decide +kernel

/-- TestX4MonitorField.test_two_monitors, line 283 -/
example : fieldText chars!"str" chars!"MONITOR" [chars!"MONITOR    ((MONIT1)79-AU-197(N,G)79-AU-198,,RI)", chars!"           ((MONIT2)27-CO-59(N,G)27-CO-60,,RI)"] = .ok chars!"[((79-AU-197(N,G)79-AU-198,RI), '', 'MONIT1'), ((27-CO-59(N,G)27-CO-60,RI), '', 'MONIT2')]" := by decide +kernel

/-- TestX4MonitorField.test_three_monitors, line 289 -/
example : fieldText chars!"repr" chars!"MONITOR" [chars!"MONITOR    (22-TI-0(D,X)23-V-48,,SIG) 21 MeV", chars!"           (13-AL-27(D,X)11-NA-22,,SIG)  40 MeV", chars!"           (13-AL-27(D,X)11-NA-24,,SIG)  40 MeV"] = .ok chars!"MONITOR    (22-TI-0(D,X)23-V-48,,SIG) 21 MeV\n           (13-AL-27(D,X)11-NA-22,,SIG)  40 MeV\n           (13-AL-27(D,X)11-NA-24,,SIG)  40 MeV" := by decide +kernel

/-- TestX4MonitorField.test_two_monitors_many_lines, line 297 -/
example : fieldText chars!"repr" chars!"MONITOR" [chars!"MONITOR    ((MONIT1)79-AU-197(N,G)79-AU-198,,SIG,,MXW) Monitor in", chars!"             form of alloy of 0.134% in thin Al metal foil", chars!"           ((MONIT3)27-CO-59(N,G)27-CO-60,,SIG,,MXW) Monitor in", chars!"           form of dilute  alloy  of 0.438% in thin Al metal foil"] = .ok chars!"MONITOR    ((MONIT1)79-AU-197(N,G)79-AU-198,,SIG,,MXW) Monitor in\n             form of alloy of 0.134% in thin Al metal foil\n           ((MONIT3)27-CO-59(N,G)27-CO-60,,SIG,,MXW) Monitor in\n           form of dilute  alloy  of 0.438% in thin Al metal foil" := by decide +kernel

/-- TestX4MonitorField.test_two_monitors_many_lines, line 302 -/
example : fieldText chars!"str" chars!"MONITOR" [chars!"MONITOR    ((MONIT1)79-AU-197(N,G)79-AU-198,,SIG,,MXW) Monitor in", chars!"             form of alloy of 0.134% in thin Al metal foil", chars!"           ((MONIT3)27-CO-59(N,G)27-CO-60,,SIG,,MXW) Monitor in", chars!"           form of dilute  alloy  of 0.438% in thin Al metal foil"] = .ok chars!"[((79-AU-197(N,G)79-AU-198,SIG,MXW), 'Monitor in form of alloy of 0.134% in thin Al metal foil', 'MONIT1'), ((27-CO-59(N,G)27-CO-60,SIG,MXW), 'Monitor in form of dilute  alloy  of 0.438% in thin Al metal foil', 'MONIT3')]" := by decide +kernel

/-- TestX4MonitorField.test_combo, line 308 -/
example : fieldText chars!"str" chars!"MONITOR" [chars!"MONITOR    ((29-CU-63(A,N+P)30-ZN-65,,TTY)+", chars!"           (29-CU-63(A,2N)31-GA-65,,TTY))"] = .ok chars!"[((( (29-CU-63(A,N+P)30-ZN-65,TTY) )+( (29-CU-63(A,2N)31-GA-65,TTY) )), '', None)]" := by decide +kernel

/-- TestX4MonitorField.test_simple_boring, line 314 -/
example : fieldText chars!"str" chars!"MONITOR" [chars!"MONITOR    No information"] = .ok chars!"[(None, 'No information', None)]" := by decide +kernel

/-- TestX4MonitorField.test_kitchen_sink, line 318 -/
example : fieldText chars!"str" chars!"MONITOR" [chars!"MONITOR    ((MONIT1)(95-AM-241(N,F)42-MO-99,CUM,FY,,SPA)+", chars!"           (95-AM-241(N,F)43-TC-99-M,CUM,FY,,SPA)) USED FOR", chars!"            NORMALIZATION OF THE LIGHT-MASS PEAK, I.E. A = 91", chars!"            TO 105.", chars!"           ((MONIT2)95-AM-241(N,F)56-BA-139,CUM,FY,,SPA) USED FOR", chars!"            NORMALIZATION OF THE HEAVY-MASS PEAK, I.E. A = 131 TO", chars!"            147."] = .ok chars!"[((( (95-AM-241(N,F+42-MO-99),CUM,FY,SPA) )+( (95-AM-241(N,F+43-TC-99-M),CUM,FY,SPA) )), 'USED FOR NORMALIZATION OF THE LIGHT-MASS PEAK, I.E. A = 91 TO 105.', 'MONIT1'), ((95-AM-241(N,F+56-BA-139),CUM,FY,SPA), 'USED FOR NORMALIZATION OF THE HEAVY-MASS PEAK, I.E. A = 131 TO 147.', 'MONIT2')]" := by decide +kernel

/-- TestX4AuthorField.test_oneline, line 340 -/
example : fieldText chars!"repr" chars!"AUTHOR" [chars!"AUTHOR     (D.L.SMITH,J.W.MEADOWS,I.KANNO)"] = .ok chars!"AUTHOR     (D.L.SMITH,J.W.MEADOWS,I.KANNO)" := by decide +kernel

/-- TestX4AuthorField.test_oneline, line 345 -/
example : fieldText chars!"str" chars!"AUTHOR" [chars!"AUTHOR     (D.L.SMITH,J.W.MEADOWS,I.KANNO)"] = .ok chars!"D.L.Smith, J.W.Meadows, I.Kanno" := by decide +kernel

/-- TestX4AuthorField.test_multiline, line 353 -/
example : fieldText chars!"repr" chars!"AUTHOR" [chars!"AUTHOR     (K.HATANAKA,N.MATSUOKA,H.SAKAI,T.SAITO,H.TAMURA,", chars!"           K.HOSONO,M.KONDO,K.IMAI,H.SHIMIZU,K.NISHIMURA)"] = .ok chars!"AUTHOR     (K.HATANAKA,N.MATSUOKA,H.SAKAI,T.SAITO,H.TAMURA,\n           K.HOSONO,M.KONDO,K.IMAI,H.SHIMIZU,K.NISHIMURA)" := by decide +kernel

/-- TestX4AuthorField.test_multiline, line 360 -/
example : fieldText chars!"str" chars!"AUTHOR" [chars!"AUTHOR     (K.HATANAKA,N.MATSUOKA,H.SAKAI,T.SAITO,H.TAMURA,", chars!"           K.HOSONO,M.KONDO,K.IMAI,H.SHIMIZU,K.NISHIMURA)"] = .ok chars!"K.Hatanaka, N.Matsuoka, H.Sakai, T.Saito, H.Tamura, K.Hosono, M.Kondo, K.Imai, H.Shimizu, K.Nishimura" := by decide +kernel

/-- TestX4AuthorField.test_really_long, line 364 -/
example : fieldText chars!"repr" chars!"AUTHOR" [chars!"AUTHOR     (A.Budzanowski, A.Chatterjee, R.Gebel, P.Hawranek,", chars!"           R.Jahn, V.Jha, K.Kilian, S.Kliczewski, Da.Kirillov,", chars!"           Di.Kirillov, D.Kolev, M.Kravcikova, M.Lesiak, J.Lieb,", chars!"           H.Machner, A.Magiera, R.Maier, G.Martinska, S.Nedev,", chars!"           N.Piskunov, D.Prasuhn, D.Protic, J.Ritman,", chars!"           P.von Rossen, B.J.Roy, I.Sitnik, R.Siudak, R.Tsenov,", chars!"           J.Urban, G.Vankova, C.Wilkin) GEM Collaboration"] = .ok chars!"AUTHOR     (A.Budzanowski, A.Chatterjee, R.Gebel, P.Hawranek,\n           R.Jahn, V.Jha, K.Kilian, S.Kliczewski, Da.Kirillov,\n           Di.Kirillov, D.Kolev, M.Kravcikova, M.Lesiak, J.Lieb,\n           H.Machner, A.Magiera, R.Maier, G.Martinska, S.Nedev,\n           N.Piskunov, D.Prasuhn, D.Protic, J.Ritman,\n           P.von Rossen, B.J.Roy, I.Sitnik, R.Siudak, R.Tsenov,\n           J.Urban, G.Vankova, C.Wilkin) GEM Collaboration" := by decide +kernel

/-- TestX4AuthorField.test_really_long, line 404 -/
example : fieldText chars!"str" chars!"AUTHOR" [chars!"AUTHOR     (A.Budzanowski, A.Chatterjee, R.Gebel, P.Hawranek,", chars!"           R.Jahn, V.Jha, K.Kilian, S.Kliczewski, Da.Kirillov,", chars!"           Di.Kirillov, D.Kolev, M.Kravcikova, M.Lesiak, J.Lieb,", chars!"           H.Machner, A.Magiera, R.Maier, G.Martinska, S.Nedev,", chars!"           N.Piskunov, D.Prasuhn, D.Protic, J.Ritman,", chars!"           P.von Rossen, B.J.Roy, I.Sitnik, R.Siudak, R.Tsenov,", chars!"           J.Urban, G.Vankova, C.Wilkin) GEM Collaboration"] = .ok chars!"A.Budzanowski, A.Chatterjee, R.Gebel, P.Hawranek, R.Jahn, V.Jha, K.Kilian, S.Kliczewski, Da.Kirillov, Di.Kirillov, D.Kolev, M.Kravcikova, M.Lesiak, J.Lieb, H.Machner, A.Magiera, R.Maier, G.Martinska, S.Nedev, N.Piskunov, D.Prasuhn, D.Protic, J.Ritman, P.Von Rossen, B.J.Roy, I.Sitnik, R.Siudak, R.Tsenov, J.Urban, G.Vankova, C.Wilkin" := by decide +kernel

/-- TestX4InstituteField.test_oneline, line 434 -/
example : fieldText chars!"repr" chars!"INSTITUTE" [chars!"INSTITUTE  (1USAANL)"] = .ok chars!"INSTITUTE  (1USAANL)" := by decide +kernel

/-- TestX4InstituteField.test_oneline, line 439 -/
example : fieldText chars!"str" chars!"INSTITUTE" [chars!"INSTITUTE  (1USAANL)"] = .ok chars!"Argonne National Laboratory, Argonne, IL" := by decide +kernel

/-- TestX4InstituteField.test_multiline, line 443 -/
example : fieldText chars!"repr" chars!"INSTITUTE" [chars!"INSTITUTE  (2JPNOSA) RESEARCH CENTER FOR NUCLEAR PHYSICS, OSAKA", chars!"            UNIV.", chars!"           (2JPNKTO)"] = .ok chars!"INSTITUTE  (2JPNOSA) RESEARCH CENTER FOR NUCLEAR PHYSICS, OSAKA\n            UNIV.\n           (2JPNKTO)" := by decide +kernel

/-- TestX4InstituteField.test_multiline, line 448 -/
example : fieldText chars!"str" chars!"INSTITUTE" [chars!"INSTITUTE  (2JPNOSA) RESEARCH CENTER FOR NUCLEAR PHYSICS, OSAKA", chars!"            UNIV.", chars!"           (2JPNKTO)"] = .ok chars!"Osaka Univ., Osaka (Research Center For Nuclear Physics, Osaka Univ.); Kyoto Univ." := by decide +kernel

/-- TestX4InstituteField.test_really_long, line 452 -/
example : fieldText chars!"repr" chars!"INSTITUTE" [chars!"INSTITUTE  (3POLIFJ)", chars!"           (3INDTRM)", chars!"           (2GERJUL)", chars!"           (3POLUJK)", chars!"           (2GERBON)", chars!"           (2GERUDE)", chars!"           (4ZZZDUB)", chars!"           (3BULSOF)", chars!"           (3SLKSLK) Technical university, Kosice, Slovakia", chars!"           (1USAUSA) George Mason University, Fairfax, VA, USA", chars!"           (3SLKSLK) P.J. Safarik University, Kosice, Slovakia", chars!"           (3BULBUL) University of chemical technology and", chars!"                      Metallurgy, Sofia, Bulgaria", chars!"           (2UK UK) Department of physics and Astronomy, UCL,", chars!"                    London, UK"] = .ok chars!"INSTITUTE  (3POLIFJ)\n           (3INDTRM)\n           (2GERJUL)\n           (3POLUJK)\n           (2GERBON)\n           (2GERUDE)\n           (4ZZZDUB)\n           (3BULSOF)\n           (3SLKSLK) Technical university, Kosice, Slovakia\n           (1USAUSA) George Mason University, Fairfax, VA, USA\n           (3SLKSLK) P.J. Safarik University, Kosice, Slovakia\n           (3BULBUL) University of chemical technology and\n                      Metallurgy, Sofia, Bulgaria\n           (2UK UK) Department of physics and Astronomy, UCL,\n                    London, UK" := by decide +kernel

/-- TestX4InstituteField.test_really_long, line 457 -/
example : fieldText chars!"str" chars!"INSTITUTE" [chars!"INSTITUTE  (3POLIFJ)", chars!"           (3INDTRM)", chars!"           (2GERJUL)", chars!"           (3POLUJK)", chars!"           (2GERBON)", chars!"           (2GERUDE)", chars!"           (4ZZZDUB)", chars!"           (3BULSOF)", chars!"           (3SLKSLK) Technical university, Kosice, Slovakia", chars!"           (1USAUSA) George Mason University, Fairfax, VA, USA", chars!"           (3SLKSLK) P.J. Safarik University, Kosice, Slovakia", chars!"           (3BULBUL) University of chemical technology and", chars!"                      Metallurgy, Sofia, Bulgaria", chars!"           (2UK UK) Department of physics and Astronomy, UCL,", chars!"                    London, UK"] = .ok chars!"Inst.Fiz.Jadr., Krakow; Bhabha Atomic Res. Centre, Trombay; Kernforschungsanlage Juelich; Krakow, Jagellonian Univ; Univ. of Bonn; 2GERUDE; Joint Inst.for Nucl.Res., Dubna; Univ.of Sofia; Slovakia (Technical University, Kosice, Slovakia); United States of America (George Mason University, Fairfax, Va, Usa); Slovakia (P.J. Safarik University, Kosice, Slovakia); Bulgaria (University Of Chemical Technology And Metallurgy, Sofia, Bulgaria); 2UK (Department Of Physics And Astronomy, Ucl, London, Uk)" := by decide +kernel

/-- TestX4ReferenceField.test_oneline, line 496 -/
example : fieldText chars!"repr" chars!"REFERENCE" [chars!"REFERENCE  (J,NIM,217,397,1983)"] = .ok chars!"REFERENCE  (J,NIM,217,397,1983)" := by decide +kernel

/-- TestX4ReferenceField.test_oneline, line 501 -/
example : fieldText chars!"str" chars!"REFERENCE" [chars!"REFERENCE  (J,NIM,217,397,1983)"] = .ok chars!"Nuclear Instrum.and Methods in Physics Res. 217, 397 (1983)" := by decide +kernel

/-- TestX4ReferenceField.test_doi, line 505 -/
example : fieldText chars!"repr" chars!"REFERENCE" [chars!"REFERENCE  (J,PR/C,72,034302,2005)", chars!"           #DOi=10.1103/PhysRevC.72.034302"] = .ok chars!"REFERENCE  (J,PR/C,72,034302,2005)\n           #DOi=10.1103/PhysRevC.72.034302" := by decide +kernel

/-- TestX4ReferenceField.test_doi, line 510 -/
example : fieldText chars!"str" chars!"REFERENCE" [chars!"REFERENCE  (J,PR/C,72,034302,2005)", chars!"           #DOi=10.1103/PhysRevC.72.034302"] = .ok chars!"Physical Review, Part C, Nuclear Physics 72, 034302 (2005)" := by decide +kernel

/-- TestX4ReferenceField.test_multiline, line 514 -/
example : fieldText chars!"repr" chars!"REFERENCE" [chars!"REFERENCE  (J,ANE,11,623,8412)", chars!"           (P,ANL-NDM-85,8406)"] = .ok chars!"REFERENCE  (J,ANE,11,623,8412)\n           (P,ANL-NDM-85,8406)" := by decide +kernel

/-- TestX4ReferenceField.test_multiline, line 519 -/
example : fieldText chars!"str" chars!"REFERENCE" [chars!"REFERENCE  (J,ANE,11,623,8412)", chars!"           (P,ANL-NDM-85,8406)"] = .ok chars!"Annals of Nuclear Energy 11, 623 (1984); Progress report: ANL-NDM-85  (1984)" := by decide +kernel

/-- TestX4ReferenceField.test_reallylong, line 523 -/
example : fieldText chars!"repr" chars!"REFERENCE" [chars!"REFERENCE  (J,APP/B,2,489,1971) Full information", chars!"           (P,INR-1318,29,197104)Partial,total sigmas cfd theory", chars!"           (P,INDC(SEC)-18,120,197108) Identical to INR-1318", chars!"           (R,INR-1224,197009)Experim.set-up described.Full paper", chars!"           (P,INR-1197,26,197005)Small reprt.Same info as INR-1224", chars!"           (J,CJP,47,2849,196912) Theo. Calculation of (n,g) sigma"] = .ok chars!"REFERENCE  (J,APP/B,2,489,1971) Full information\n           (P,INR-1318,29,197104)Partial,total sigmas cfd theory\n           (P,INDC(SEC)-18,120,197108) Identical to INR-1318\n           (R,INR-1224,197009)Experim.set-up described.Full paper\n           (P,INR-1197,26,197005)Small reprt.Same info as INR-1224\n           (J,CJP,47,2849,196912) Theo. Calculation of (n,g) sigma" := by decide +kernel

/-- TestX4ReferenceField.test_reallylong, line 528 -/
example : fieldText chars!"str" chars!"REFERENCE" [chars!"REFERENCE  (J,APP/B,2,489,1971) Full information", chars!"           (P,INR-1318,29,197104)Partial,total sigmas cfd theory", chars!"           (P,INDC(SEC)-18,120,197108) Identical to INR-1318", chars!"           (R,INR-1224,197009)Experim.set-up described.Full paper", chars!"           (P,INR-1197,26,197005)Small reprt.Same info as INR-1224", chars!"           (J,CJP,47,2849,196912) Theo. Calculation of (n,g) sigma"] = .ok chars!"Acta Physica Polonica, Part B 2, 489 (1971); Progress report: INR-1318 29 (1971); Progress report: INDC(SEC)-18 120 (1971); Report other than progress report: INR-1224  (1970); Progress report: INR-1197 26 (1970); Canadian Journal of Physics 47, 2849 (1969)" := by decide +kernel

/-- TestX4ReferenceField.test_tautology, line 532 -/
example : fieldText chars!"repr" chars!"REFERENCE" [chars!"REFERENCE  ((W,KOBAYASHI,73)=(R,KURRI-TR-6,1,73))", chars!"            ANNU.REP.RES.REACTOR INST., KYOTO UNIV.", chars!"           (P,EANDC(J)-26,39,7208) PROG.REP. FOR NP-237 AND TH-232"] = .ok chars!"REFERENCE  ((W,KOBAYASHI,73)=(R,KURRI-TR-6,1,73))\n            ANNU.REP.RES.REACTOR INST., KYOTO UNIV.\n           (P,EANDC(J)-26,39,7208) PROG.REP. FOR NP-237 AND TH-232" := by decide +kernel

/-- TestX4ReferenceField.test_tautology, line 537 -/
example : fieldText chars!"str" chars!"REFERENCE" [chars!"REFERENCE  ((W,KOBAYASHI,73)=(R,KURRI-TR-6,1,73))", chars!"            ANNU.REP.RES.REACTOR INST., KYOTO UNIV.", chars!"           (P,EANDC(J)-26,39,7208) PROG.REP. FOR NP-237 AND TH-232"] = .ok chars!"Private communication: Kobayashi  (1973); Report other than progress report: KURRI-TR-6 1 (1973); Progress report: EANDC(J)-26 39 (1972)" := by decide +kernel

/-- TestX4ReferenceField.test_another_tautology, line 541 -/
example : fieldText chars!"repr" chars!"REFERENCE" [chars!"REFERENCE  (J,NP,70,421,6508)", chars!"           ((R,JAERI-1078,6507)=(R,EANDC(J)-5S,6507))", chars!"           (W,NISHIMURA,7110)"] = .ok chars!"REFERENCE  (J,NP,70,421,6508)\n           ((R,JAERI-1078,6507)=(R,EANDC(J)-5S,6507))\n           (W,NISHIMURA,7110)" := by decide +kernel

/-- TestX4ReferenceField.test_another_tautology, line 546 -/
example : fieldText chars!"str" chars!"REFERENCE" [chars!"REFERENCE  (J,NP,70,421,6508)", chars!"           ((R,JAERI-1078,6507)=(R,EANDC(J)-5S,6507))", chars!"           (W,NISHIMURA,7110)"] = .ok chars!"Nuclear Physics 70, 421 (1965); Report other than progress report: JAERI-1078  (1965); Report other than progress report: EANDC(J)-5S  (1965); Private communication: Nishimura  (1971)" := by decide +kernel

/-- TestX4ReferenceField.test_tautology_string, line 550 -/
example : fieldText chars!"repr" chars!"REFERENCE" [chars!"REFERENCE  ((R,CEA-N-1459,7108)=(R,EANDC(E)-142L,7108)=", chars!"           (R,INDC(FR)-4L,7108)) INTERNAL REPT,EXP.DESCR.,RES.PAR.", chars!"            RESONANCE PARAMETERS CODED IN ENTRY 20121.", chars!"           (W,TELLIER,7110)     DATA ON TAPES."] = .ok chars!"REFERENCE  ((R,CEA-N-1459,7108)=(R,EANDC(E)-142L,7108)=\n           (R,INDC(FR)-4L,7108)) INTERNAL REPT,EXP.DESCR.,RES.PAR.\n            RESONANCE PARAMETERS CODED IN ENTRY 20121.\n           (W,TELLIER,7110)     DATA ON TAPES." := by decide +kernel

/-- TestX4ReferenceField.test_tautology_string, line 555 -/
example : fieldText chars!"str" chars!"REFERENCE" [chars!"REFERENCE  ((R,CEA-N-1459,7108)=(R,EANDC(E)-142L,7108)=", chars!"           (R,INDC(FR)-4L,7108)) INTERNAL REPT,EXP.DESCR.,RES.PAR.", chars!"            RESONANCE PARAMETERS CODED IN ENTRY 20121.", chars!"           (W,TELLIER,7110)     DATA ON TAPES."] = .ok chars!"Report other than progress report: CEA-N-1459  (1971); Report other than progress report: EANDC(E)-142L  (1971); Report other than progress report: INDC(FR)-4L  (1971); Private communication: Tellier  (1971)" := by decide +kernel

/-- TestX4ReferenceField.test_ya_tautology_example, line 559 -/
example : fieldText chars!"repr" chars!"REFERENCE" [chars!"REFERENCE  (J,NST,31,1239,199412)  Main reference, data are given", chars!"           ((S,JAERI-M-94-019,171,199311)=", chars!"           (S,INDC(JPN)-169/L,171,199311))"] = .ok chars!"REFERENCE  (J,NST,31,1239,199412)  Main reference, data are given\n           ((S,JAERI-M-94-019,171,199311)=\n           (S,INDC(JPN)-169/L,171,199311))" := by decide +kernel

/-- TestX4ReferenceField.test_ya_tautology_example, line 564 -/
example : fieldText chars!"str" chars!"REFERENCE" [chars!"REFERENCE  (J,NST,31,1239,199412)  Main reference, data are given", chars!"           ((S,JAERI-M-94-019,171,199311)=", chars!"           (S,INDC(JPN)-169/L,171,199311))"] = .ok chars!"J. of Nuclear Science and Technology, Tokyo 31, 1239 (1994); Report containing conference proc.: JAERI-M-94-019 171 (1993); Report containing conference proc.: INDC(JPN)-169/L 171 (1993)" := by decide +kernel

/-- TestX4ReferenceField.test_tricky_tautology_example, line 568 -/
example : fieldText chars!"repr" chars!"REFERENCE" [chars!"REFERENCE  ((R,YK-5(49),17,198211)=", chars!"           (J,YK,1982,(5),17,198211))  Main Reference"] = .ok chars!"REFERENCE  ((R,YK-5(49),17,198211)=\n           (J,YK,1982,(5),17,198211))  Main Reference" := by decide +kernel

/-- TestX4ReferenceField.test_tricky_tautology_example, line 573 -/
example : fieldText chars!"str" chars!"REFERENCE" [chars!"REFERENCE  ((R,YK-5(49),17,198211)=", chars!"           (J,YK,1982,(5),17,198211))  Main Reference"] = .ok chars!"Report other than progress report: YK-5(49) 17 (1982); Vop. At.Nauki i Tekhn.,Ser.Yadernye Konstanty 1982, (5), 17 (1982)" := by decide +kernel

/-- TestX4ReferenceField.test_bathroom_sink, line 577 -/
example : fieldText chars!"repr" chars!"REFERENCE" [chars!"REFERENCE  (P,NEANDC(E)-232,(3),5,198203) Main reference,", chars!"                                        DATA ARE GIVEN.", chars!"           (P,NEANDC(E)-222,(3),3,198103)", chars!"           ((R,ANL-83-4,1983)=", chars!"           (R,NEANDC(US)-214,1983))  ANL-83-4 report.", chars!"                                     Data are given", chars!"           (P,NEANDC(E)-212,(3),10,198006)"] = .ok chars!"REFERENCE  (P,NEANDC(E)-232,(3),5,198203) Main reference,\n                                        DATA ARE GIVEN.\n           (P,NEANDC(E)-222,(3),3,198103)\n           ((R,ANL-83-4,1983)=\n           (R,NEANDC(US)-214,1983))  ANL-83-4 report.\n                                     Data are given\n           (P,NEANDC(E)-212,(3),10,198006)" := by decide +kernel

/-- TestX4ReferenceField.test_bathroom_sink, line 582 -/
example : fieldText chars!"str" chars!"REFERENCE" [chars!"REFERENCE  (P,NEANDC(E)-232,(3),5,198203) Main reference,", chars!"                                        DATA ARE GIVEN.", chars!"           (P,NEANDC(E)-222,(3),3,198103)", chars!"           ((R,ANL-83-4,1983)=", chars!"           (R,NEANDC(US)-214,1983))  ANL-83-4 report.", chars!"                                     Data are given", chars!"           (P,NEANDC(E)-212,(3),10,198006)"] = .ok chars!"Progress report: NEANDC(E)-232 (3), 5 (1982); Progress report: NEANDC(E)-222 (3), 3 (1981); Report other than progress report: ANL-83-4  (1983); Report other than progress report: NEANDC(US)-214  (1983); Progress report: NEANDC(E)-212 (3), 10 (1980)" := by decide +kernel

/-- TestX4ReferenceField.test_kitchen_sink, line 586 -/
example : fieldText chars!"repr" chars!"REFERENCE" [chars!"REFERENCE  (J,NSTS,2,(1),204,200208)  Main referene, Graphs Given", chars!"           (J,NSTS,1,683,2000)        Details of Experiment", chars!"           (J,NIM/A,446,(3),536,2000) Graphs and Experimental", chars!"                                      details", chars!"           ((S,JAERI-C-2000-005,243,19991119)=", chars!"           (S,INDC(JPN)-185/U,243,19991119)) Graphs and", chars!"                                        Experimental Details", chars!"           ((S,JAERI-C-99-002,153,19981120)=", chars!"           (S,INDC(JPN)-182/U,153,19981120)) Graphs and", chars!"                                        Experimental Details"] = .ok chars!"REFERENCE  (J,NSTS,2,(1),204,200208)  Main referene, Graphs Given\n           (J,NSTS,1,683,2000)        Details of Experiment\n           (J,NIM/A,446,(3),536,2000) Graphs and Experimental\n                                      details\n           ((S,JAERI-C-2000-005,243,19991119)=\n           (S,INDC(JPN)-185/U,243,19991119)) Graphs and\n                                        Experimental Details\n           ((S,JAERI-C-99-002,153,19981120)=\n           (S,INDC(JPN)-182/U,153,19981120)) Graphs and\n                                        Experimental Details" := by decide +kernel

/-- TestX4ReferenceField.test_kitchen_sink, line 591 -/
example : fieldText chars!"str" chars!"REFERENCE" [chars!"REFERENCE  (J,NSTS,2,(1),204,200208)  Main referene, Graphs Given", chars!"           (J,NSTS,1,683,2000)        Details of Experiment", chars!"           (J,NIM/A,446,(3),536,2000) Graphs and Experimental", chars!"                                      details", chars!"           ((S,JAERI-C-2000-005,243,19991119)=", chars!"           (S,INDC(JPN)-185/U,243,19991119)) Graphs and", chars!"                                        Experimental Details", chars!"           ((S,JAERI-C-99-002,153,19981120)=", chars!"           (S,INDC(JPN)-182/U,153,19981120)) Graphs and", chars!"                                        Experimental Details"] = .ok chars!"J.Nucl.Science and Technol.Tokyo,Supplement 2, (1), 204 (2002); J.Nucl.Science and Technol.Tokyo,Supplement 1, 683 (2000); Nucl. Instrum. Methods in Physics Res., Sect.A 446, (3), 536 (2000); Report containing conference proc.: JAERI-C-2000-005 243 (1999); Report containing conference proc.: INDC(JPN)-185/U 243 (1999); Report containing conference proc.: JAERI-C-99-002 153 (1998); Report containing conference proc.: INDC(JPN)-182/U 153 (1998)" := by decide +kernel

end X4.Recorded
