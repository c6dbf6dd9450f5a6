import Verif.Py.Str
/-! Model of `x4i3/endl_Z.py`. The table is generated by tools/tables.py. -/
namespace X4

/-- `endl_ZLabels`, endl_Z.py:29-148. -/
def endlZLabels : List (Int × Str × Str) := [
  (0, "n".toList, "Neutron".toList),
  (1, "H".toList, "Hydrogen".toList),
  (2, "He".toList, "Helium".toList),
  (3, "Li".toList, "Lithium".toList),
  (4, "Be".toList, "Beryllium".toList),
  (5, "B".toList, "Boron".toList),
  (6, "C".toList, "Carbon".toList),
  (7, "N".toList, "Nitrogen".toList),
  (8, "O".toList, "Oxygen".toList),
  (9, "F".toList, "Fluorine".toList),
  (10, "Ne".toList, "Neon".toList),
  (11, "Na".toList, "Sodium".toList),
  (12, "Mg".toList, "Magnesium".toList),
  (13, "Al".toList, "Aluminium".toList),
  (14, "Si".toList, "Silicon".toList),
  (15, "P".toList, "Phosphorus".toList),
  (16, "S".toList, "Sulphur".toList),
  (17, "Cl".toList, "Chlorine".toList),
  (18, "Ar".toList, "Argon".toList),
  (19, "K".toList, "Potassium".toList),
  (20, "Ca".toList, "Calcium".toList),
  (21, "Sc".toList, "Scandium".toList),
  (22, "Ti".toList, "Titanium".toList),
  (23, "V".toList, "Vanadium".toList),
  (24, "Cr".toList, "Chromium".toList),
  (25, "Mn".toList, "Manganese".toList),
  (26, "Fe".toList, "Iron".toList),
  (27, "Co".toList, "Cobalt".toList),
  (28, "Ni".toList, "Nickel".toList),
  (29, "Cu".toList, "Copper".toList),
  (30, "Zn".toList, "Zinc".toList),
  (31, "Ga".toList, "Gallium".toList),
  (32, "Ge".toList, "Germanium".toList),
  (33, "As".toList, "Arsenic".toList),
  (34, "Se".toList, "Selenium".toList),
  (35, "Br".toList, "Bromine".toList),
  (36, "Kr".toList, "Krypton".toList),
  (37, "Rb".toList, "Rubidium".toList),
  (38, "Sr".toList, "Strontium".toList),
  (39, "Y".toList, "Yttrium".toList),
  (40, "Zr".toList, "Zirconium".toList),
  (41, "Nb".toList, "Niobium".toList),
  (42, "Mo".toList, "Molybdenum".toList),
  (43, "Tc".toList, "Technetium".toList),
  (44, "Ru".toList, "Ruthenium".toList),
  (45, "Rh".toList, "Rhodium".toList),
  (46, "Pd".toList, "Palladium".toList),
  (47, "Ag".toList, "Silver".toList),
  (48, "Cd".toList, "Cadmium".toList),
  (49, "In".toList, "Indium".toList),
  (50, "Sn".toList, "Tin".toList),
  (51, "Sb".toList, "Antimony".toList),
  (52, "Te".toList, "Tellurium".toList),
  (53, "I".toList, "Iodine".toList),
  (54, "Xe".toList, "Xenon".toList),
  (55, "Cs".toList, "Cesium".toList),
  (56, "Ba".toList, "Barium".toList),
  (57, "La".toList, "Lanthanum".toList),
  (58, "Ce".toList, "Cerium".toList),
  (59, "Pr".toList, "Praseodymium".toList),
  (60, "Nd".toList, "Neodymium".toList),
  (61, "Pm".toList, "Promethium".toList),
  (62, "Sm".toList, "Samarium".toList),
  (63, "Eu".toList, "Europium".toList),
  (64, "Gd".toList, "Gadolinium".toList),
  (65, "Tb".toList, "Terbium".toList),
  (66, "Dy".toList, "Dysprosium".toList),
  (67, "Ho".toList, "Holmium".toList),
  (68, "Er".toList, "Erbium".toList),
  (69, "Tm".toList, "Thulium".toList),
  (70, "Yb".toList, "Ytterbium".toList),
  (71, "Lu".toList, "Lutetium".toList),
  (72, "Hf".toList, "Hafnium".toList),
  (73, "Ta".toList, "Tantalum".toList),
  (74, "W".toList, "Tungsten".toList),
  (75, "Re".toList, "Rhenium".toList),
  (76, "Os".toList, "Osmium".toList),
  (77, "Ir".toList, "Iridium".toList),
  (78, "Pt".toList, "Platinum".toList),
  (79, "Au".toList, "Gold".toList),
  (80, "Hg".toList, "Mercury".toList),
  (81, "Tl".toList, "Thallium".toList),
  (82, "Pb".toList, "Lead".toList),
  (83, "Bi".toList, "Bismuth".toList),
  (84, "Po".toList, "Polonium".toList),
  (85, "At".toList, "Astatine".toList),
  (86, "Rn".toList, "Radon".toList),
  (87, "Fr".toList, "Francium".toList),
  (88, "Ra".toList, "Radium".toList),
  (89, "Ac".toList, "Actinium".toList),
  (90, "Th".toList, "Thorium".toList),
  (91, "Pa".toList, "Protactinium".toList),
  (92, "U".toList, "Uranium".toList),
  (93, "Np".toList, "Neptunium".toList),
  (94, "Pu".toList, "Plutonium".toList),
  (95, "Am".toList, "Americium".toList),
  (96, "Cm".toList, "Curium".toList),
  (97, "Bk".toList, "Berkelium".toList),
  (98, "Cf".toList, "Californium".toList),
  (99, "Es".toList, "Einsteinium".toList),
  (100, "Fm".toList, "Fermium".toList),
  (101, "Md".toList, "Mendelevium".toList),
  (102, "No".toList, "Nobelium".toList),
  (103, "Lr".toList, "Lawrencium".toList),
  (104, "Rf".toList, "Rutherfordium".toList),
  (105, "Db".toList, "Dubnium".toList),
  (106, "Sg".toList, "Seaborgium".toList),
  (107, "Bh".toList, "Bohrium".toList),
  (108, "Hs".toList, "Hassium".toList),
  (109, "Mt".toList, "Meitnerium".toList),
  (110, "Ds".toList, "Darmstadtium".toList),
  (111, "Rg".toList, "Roentgenium".toList),
  (112, "Cn".toList, "Copernicium".toList),
  (113, "Uut".toList, "Ununtrium".toList),
  (114, "Fl".toList, "Flerovium".toList),
  (115, "Uup".toList, "Ununpentium".toList),
  (116, "Lv".toList, "Livermorium".toList),
  (117, "Uus".toList, "Ununseptium".toList),
  (118, "Uuo".toList, "Ununoctium".toList)]

/-- the loop of `endl_ZSymbol`, endl_Z.py:158-163 -/
def zSymbolIn (Z : Int) : List (Int × Str × Str) → Option Str
  | [] => none
  | i :: r => if i.1 = Z then some i.2.1 else zSymbolIn Z r
/-- `endl_ZSymbol`, endl_Z.py:158-163. -/
def endlZSymbol (Z : Int) : Option Str := zSymbolIn Z endlZLabels

/-- the loop of `endl_SymbolZ`, endl_Z.py:168-173 -/
def symbolZIn (sym : Str) : List (Int × Str × Str) → Option Int
  | [] => none
  | i :: r => if i.2.1 = sym then some i.1 else symbolZIn sym r
/-- `endl_SymbolZ`, endl_Z.py:168-173. -/
def endlSymbolZ (sym : Str) : Option Int := symbolZIn sym endlZLabels

/-- the loop of `endl_ZLabel`, endl_Z.py:178-183 -/
def zLabelIn (Z : Int) : List (Int × Str × Str) → Option Str
  | [] => none
  | i :: r => if i.1 = Z then some i.2.2 else zLabelIn Z r
/-- `endl_ZLabel`, endl_Z.py:178-183. -/
def endlZLabel (Z : Int) : Option Str := zLabelIn Z endlZLabels

end X4
