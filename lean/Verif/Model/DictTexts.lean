import Verif.Py.Chars
/-! The dictionary files which the grammars of x4i3 are built from, generated by
tools/tables.py: the lines of the files (without line ends) and the list of keys.
That the keys are the ones the code reads is proved in `Verif.Props.Dicts`. -/
namespace X4

/-- x4i3/dicts/dict33.txt -/
def particleFile : List Str := [
  chars!"Title = \"Particle types\"",
  chars!"NumFields = 2",
  chars!"FieldBreaks = [ 11 ]",
  chars!"",
  chars!"0           No particle (incident or outgoing)",
  chars!"A           Alphas",
  chars!"AR          Annihilation radiation",
  chars!"AN          Antineutrons",
  chars!"AP          Antiprotons",
  chars!"B           Decay Betas (unspecified whether B+ or B-)                          ",
  chars!"B+          Decay Beta+ (positrons)                                        ",
  chars!"B-          Decay Beta-",
  chars!"D           Deuterons",
  chars!"DG          Decay Gammas (Used for gammas emitted from metastable states and for gammas following a particle-emitting decay (e.g., beta decay) )",
  chars!"DN          Delayed Neutrons",
  chars!"E           Electrons (Where no more specific code applies, e.g., Auger)      ",
  chars!"EC          Electron Capture",
  chars!"ER          Evaporation Residues  ",
  chars!"ETA         Eta mesons ",
  chars!"FF          Fission Fragments",
  chars!"G           Gammas (except decay gammas)                                   ",
  chars!"HCP         Heavy Charged Particle ",
  chars!"HE2         He-2 ",
  chars!"HE3         He-3 ",
  chars!"HE6         He-6",
  chars!"HF          Heavy Fragment ",
  chars!"ICE         Internal-Conversion Electrons",
  chars!"K           Kaons,unspecified",
  chars!"KN          Kaons,negative",
  chars!"KP          Kaons,positive",
  chars!"LCP         Light Charged Particle (Z less than 7) ",
  chars!"LF          Light Fragment ",
  chars!"N           Neutrons",
  chars!"P           Protons",
  chars!"PI          Pions,unspecified",
  chars!"PI0         Pions,neutral",
  chars!"PIN         Pions,negative",
  chars!"PIP         Pions,positive",
  chars!"PN          Prompt Neutrons",
  chars!"RCL         Recoil Nucleus",
  chars!"RSD         Residual Nucleus",
  chars!"SF          Fragments from Spontaneous Fission",
  chars!"T           Tritons",
  chars!"XR          X-rays (all types, K, L, M, etc.)                           "]

/-- the keys of x4i3/dicts/dict33.txt -/
def particleKeys : List Str := [
  chars!"0",
  chars!"A",
  chars!"AR",
  chars!"AN",
  chars!"AP",
  chars!"B",
  chars!"B+",
  chars!"B-",
  chars!"D",
  chars!"DG",
  chars!"DN",
  chars!"E",
  chars!"EC",
  chars!"ER",
  chars!"ETA",
  chars!"FF",
  chars!"G",
  chars!"HCP",
  chars!"HE2",
  chars!"HE3",
  chars!"HE6",
  chars!"HF",
  chars!"ICE",
  chars!"K",
  chars!"KN",
  chars!"KP",
  chars!"LCP",
  chars!"LF",
  chars!"N",
  chars!"P",
  chars!"PI",
  chars!"PI0",
  chars!"PIN",
  chars!"PIP",
  chars!"PN",
  chars!"RCL",
  chars!"RSD",
  chars!"SF",
  chars!"T",
  chars!"XR"]

/-- x4i3/dicts/dict09.txt -/
def compoundFile : List Str := [
  chars!"Title = \"Chemical Compounds\"",
  chars!"NumFields = 2",
  chars!"FieldBreaks = [ 11 ]",
  chars!"",
  chars!"1-D-D2O     Heavy Water === Obsolete, use 1-H-D2O                               ",
  chars!"1-D-DXX     Deuterium Compound  === Obsolete, use 1-H-DXX                               ",
  chars!"1-H-ARM",
  chars!"1-H-BNZ     Benzene, benzyl compounds: C6-H6                                                 ",
  chars!"1-H-BUT     Butane, butyl compounds: C4-H10                                                ",
  chars!"1-H-CMP     Hydrogen Compound except water, metal-hydrides, organic or ammonium compound                                              ",
  chars!"1-H-CXX     Organic Compound except BNZ, MTH, PFN, PHL, PLE                        ",
  chars!"1-H-D2O     Heavy Water",
  chars!"1-H-DXX     Deuterium Compound including mixed H-D compunds and excluding heavy water and Zr-deuteride                                      ",
  chars!"1-H-ETH     Ethane, ethyl compounds: C2-H6                                                 ",
  chars!"1-H-MTH     Methane, methyl compounds: C-H4                                                  ",
  chars!"1-H-PFN     Paraffin",
  chars!"1-H-PHL     Phenol, phenyl compounds: C6-H5-OH. Di-, Ter-, Poly-                            ",
  chars!"1-H-PLE     Polyethylene",
  chars!"1-H-PRO     Propane, propyl compounds: C3-H8                                                 ",
  chars!"1-H-TXX     Tritium Compound including mixed H-T or D-T compounds and excluding Zr-tritide                                            ",
  chars!"1-H-WTR     Water, Ice, Steam",
  chars!"1-T-TXX     Tritium Compound === Obsolete, use 1-H-TXX                               ",
  chars!"2-HE-CMP    Helium Compound",
  chars!"3-LI-CMP    Lithium Compound",
  chars!"4-BE-CMP    Beryllium Compound",
  chars!"4-BE-OXI    Beryllium oxide",
  chars!"5-B-CMP     Boron compound",
  chars!"5-B-OXI     Boron oxide",
  chars!"6-C-CMP     Carbon Compound except carbonates and hydro-carbons                   ",
  chars!"7-N-AIR     Air",
  chars!"7-N-AMM     Ammonium Compound",
  chars!"7-N-CMP     Nitrogen compound",
  chars!"8-O-CMP     Oxygen compound",
  chars!"9-F-CMP     Fluorine compound",
  chars!"11-NA-CMP   Sodium compound",
  chars!"12-MG-CMP   Magnesium compound",
  chars!"12-MG-OXI   Magnesium compound",
  chars!"13-AL-CMP   Aluminium compound",
  chars!"13-AL-OXI   Aluminium Oxide",
  chars!"14-SI-CMP   Silicon compound",
  chars!"14-SI-OXI   Silicon Oxide: Si-O2, glass, quartz                                  ",
  chars!"15-P-CMP    Phosphorus compound",
  chars!"16-S-CMP    Sulphur compound",
  chars!"17-CL-CMP   Chlorine compound",
  chars!"19-K-CMP    Potassium compound",
  chars!"20-CA-CMP   Calcium compound",
  chars!"20-CA-OXI   Calcium oxide",
  chars!"22-TI-CMP   Titanium compound",
  chars!"22-TI-OXI   Titanium oxide",
  chars!"23-V-CMP    Vanadium compound",
  chars!"24-CR-CMP   Chromium compound",
  chars!"25-MN-CMP   Manganese compound",
  chars!"26-FE-CMP   Iron Compound, steel to be entered under 26-FE-0                     ",
  chars!"26-FE-OXI   Iron oxide",
  chars!"27-CO-CMP   Cobalt compound",
  chars!"27-CO-OXI   Cobalt oxide",
  chars!"28-NI-CMP   Nickel compound",
  chars!"29-CU-CMP   Copper compound",
  chars!"30-ZN-CMP   Zinc compound",
  chars!"32-GE-CMP   Germanium compound",
  chars!"32-GE-OXI   Germanium oxide",
  chars!"33-AS-CMP   Arsenic compound",
  chars!"33-AS-OXI   Arsenic oxide",
  chars!"34-SE-CMP   Selenium compound",
  chars!"35-BR-CMP   Bromine compound",
  chars!"37-RB-CMP   Rubidium compound",
  chars!"38-SR-CMP   Strontium compound",
  chars!"39-Y-CMP    Yttrium compound",
  chars!"40-ZR-ALY   Zircalloy",
  chars!"40-ZR-CMP   Zirconium compound",
  chars!"40-ZR-HYD   Zirconium Hydride including deuteride and tritide                       ",
  chars!"40-ZR-OXI   Zirconium Oxide",
  chars!"41-NB-CMP   Niobium compound",
  chars!"44-RU-CMP   Ruthenium compound",
  chars!"44-RU-OXI   Ruthenium oxide",
  chars!"45-RH-CMP   Rhodium compound",
  chars!"46-PD-CMP   Palladium compound",
  chars!"47-AG-CMP   Silver compound",
  chars!"48-CD-CMP   Cadmium compound",
  chars!"48-CD-OXI   Cadmium oxide",
  chars!"49-IN-CMP   Indium compound",
  chars!"50-SN-CMP   Tin compound",
  chars!"50-SN-OXI   Tin oxide",
  chars!"51-SB-CMP   Antimony compound",
  chars!"52-TE-CMP   Tellurium compound",
  chars!"52-TE-OXI   Tellurium oxide",
  chars!"53-I-CMP    Iodine compound",
  chars!"55-CS-CMP   Cesium compound",
  chars!"56-BA-CMP   Barium compound",
  chars!"57-LA-CMP   Lanthanum compound",
  chars!"57-LA-OXI   Lanthanum oxide",
  chars!"58-CE-CMP   Cerium compound",
  chars!"58-CE-OXI   Cerium oxide",
  chars!"59-PR-CMP   Praseodymium compound",
  chars!"59-PR-OXI   Praseodymium oxide",
  chars!"60-ND-CMP   Neodymium compound",
  chars!"62-SM-CMP   Samarium compound",
  chars!"63-EU-CMP   Europium compound",
  chars!"63-EU-OXI   Europium oxide",
  chars!"65-TB-CMP   Terbium compound",
  chars!"65-TB-OXI   Terbium oxide",
  chars!"66-DY-CMP   Dysprosium compound",
  chars!"66-DY-OXI   Dysprosium oxide",
  chars!"67-HO-CMP   Holmium  compound",
  chars!"67-HO-OXI   Holmium  oxide",
  chars!"68-ER-CMP   Erbium compound",
  chars!"68-ER-OXI   Erbium oxide",
  chars!"69-TM-OXI   Thulium oxide",
  chars!"70-YB-CMP   Ytterbium compound",
  chars!"71-LU-OXI   Lutetium oxide",
  chars!"72-HF-CMP   Hafnium compound",
  chars!"73-TA-CMP   Tantalum compound",
  chars!"73-TA-OXI   Tantalum oxide",
  chars!"74-W-CMP    Tungsten compound",
  chars!"74-W-OXI    Tungsten oxide",
  chars!"75-RE-CMP   Rhenium compound",
  chars!"78-PT-CMP   Platinum compound",
  chars!"79-AU-CMP   Gold compound",
  chars!"80-HG-CMP   Mercury compound",
  chars!"81-TL-CMP   Thallium compound",
  chars!"81-TL-OXI   Thallium oxide",
  chars!"82-PB-CMP   Lead compound",
  chars!"83-BI-CMP   Bismuth compound",
  chars!"83-BI-OXI   Bismuth oxide",
  chars!"90-TH-CMP   Thorium compound",
  chars!"90-TH-OXI   Thorium oxide",
  chars!"92-U-CMP    Uranium compound",
  chars!"92-U-OXI    Uranium Oxide",
  chars!"94-PU-CMP   Plutonium compound"]

/-- the keys of x4i3/dicts/dict09.txt -/
def compoundKeys : List Str := [
  chars!"1-D-D2O",
  chars!"1-D-DXX",
  chars!"1-H-ARM",
  chars!"1-H-BNZ",
  chars!"1-H-BUT",
  chars!"1-H-CMP",
  chars!"1-H-CXX",
  chars!"1-H-D2O",
  chars!"1-H-DXX",
  chars!"1-H-ETH",
  chars!"1-H-MTH",
  chars!"1-H-PFN",
  chars!"1-H-PHL",
  chars!"1-H-PLE",
  chars!"1-H-PRO",
  chars!"1-H-TXX",
  chars!"1-H-WTR",
  chars!"1-T-TXX",
  chars!"2-HE-CMP",
  chars!"3-LI-CMP",
  chars!"4-BE-CMP",
  chars!"4-BE-OXI",
  chars!"5-B-CMP",
  chars!"5-B-OXI",
  chars!"6-C-CMP",
  chars!"7-N-AIR",
  chars!"7-N-AMM",
  chars!"7-N-CMP",
  chars!"8-O-CMP",
  chars!"9-F-CMP",
  chars!"11-NA-CMP",
  chars!"12-MG-CMP",
  chars!"12-MG-OXI",
  chars!"13-AL-CMP",
  chars!"13-AL-OXI",
  chars!"14-SI-CMP",
  chars!"14-SI-OXI",
  chars!"15-P-CMP",
  chars!"16-S-CMP",
  chars!"17-CL-CMP",
  chars!"19-K-CMP",
  chars!"20-CA-CMP",
  chars!"20-CA-OXI",
  chars!"22-TI-CMP",
  chars!"22-TI-OXI",
  chars!"23-V-CMP",
  chars!"24-CR-CMP",
  chars!"25-MN-CMP",
  chars!"26-FE-CMP",
  chars!"26-FE-OXI",
  chars!"27-CO-CMP",
  chars!"27-CO-OXI",
  chars!"28-NI-CMP",
  chars!"29-CU-CMP",
  chars!"30-ZN-CMP",
  chars!"32-GE-CMP",
  chars!"32-GE-OXI",
  chars!"33-AS-CMP",
  chars!"33-AS-OXI",
  chars!"34-SE-CMP",
  chars!"35-BR-CMP",
  chars!"37-RB-CMP",
  chars!"38-SR-CMP",
  chars!"39-Y-CMP",
  chars!"40-ZR-ALY",
  chars!"40-ZR-CMP",
  chars!"40-ZR-HYD",
  chars!"40-ZR-OXI",
  chars!"41-NB-CMP",
  chars!"44-RU-CMP",
  chars!"44-RU-OXI",
  chars!"45-RH-CMP",
  chars!"46-PD-CMP",
  chars!"47-AG-CMP",
  chars!"48-CD-CMP",
  chars!"48-CD-OXI",
  chars!"49-IN-CMP",
  chars!"50-SN-CMP",
  chars!"50-SN-OXI",
  chars!"51-SB-CMP",
  chars!"52-TE-CMP",
  chars!"52-TE-OXI",
  chars!"53-I-CMP",
  chars!"55-CS-CMP",
  chars!"56-BA-CMP",
  chars!"57-LA-CMP",
  chars!"57-LA-OXI",
  chars!"58-CE-CMP",
  chars!"58-CE-OXI",
  chars!"59-PR-CMP",
  chars!"59-PR-OXI",
  chars!"60-ND-CMP",
  chars!"62-SM-CMP",
  chars!"63-EU-CMP",
  chars!"63-EU-OXI",
  chars!"65-TB-CMP",
  chars!"65-TB-OXI",
  chars!"66-DY-CMP",
  chars!"66-DY-OXI",
  chars!"67-HO-CMP",
  chars!"67-HO-OXI",
  chars!"68-ER-CMP",
  chars!"68-ER-OXI",
  chars!"69-TM-OXI",
  chars!"70-YB-CMP",
  chars!"71-LU-OXI",
  chars!"72-HF-CMP",
  chars!"73-TA-CMP",
  chars!"73-TA-OXI",
  chars!"74-W-CMP",
  chars!"74-W-OXI",
  chars!"75-RE-CMP",
  chars!"78-PT-CMP",
  chars!"79-AU-CMP",
  chars!"80-HG-CMP",
  chars!"81-TL-CMP",
  chars!"81-TL-OXI",
  chars!"82-PB-CMP",
  chars!"83-BI-CMP",
  chars!"83-BI-OXI",
  chars!"90-TH-CMP",
  chars!"90-TH-OXI",
  chars!"92-U-CMP",
  chars!"92-U-OXI",
  chars!"94-PU-CMP"]

/-- x4i3/dicts/dict04.txt -/
def refTypeFile : List Str := [
  chars!"Title = \"Reference Types\"",
  chars!"NumFields = 3",
  chars!"FieldBreaks = [ 1, 6 ]",
  chars!"",
  chars!"0 DATA Experimental data library                         ",
  chars!"3 DATA Evaluated data library                            ",
  chars!"4 DATA Experimental data library                         ",
  chars!"A CONF Abstract of conference                 ",
  chars!"B BOOK Book                                  ",
  chars!"C CONF Conference                            ",
  chars!"J JOUR Journal                               ",
  chars!"K JOUR Abstract of journal                    ",
  chars!"P PROG Progress report                       ",
  chars!"R REPT Report other than progress report     ",
  chars!"S REPT Report containing conference proc.    ",
  chars!"T THES Thesis or dissertation                ",
  chars!"W PRIV Private communication                             ",
  chars!"X PREP Preprint"]

/-- the keys of x4i3/dicts/dict04.txt -/
def refTypeKeys : List Str := [
  chars!"0",
  chars!"3",
  chars!"4",
  chars!"A",
  chars!"B",
  chars!"C",
  chars!"J",
  chars!"K",
  chars!"P",
  chars!"R",
  chars!"S",
  chars!"T",
  chars!"W",
  chars!"X"]

end X4
