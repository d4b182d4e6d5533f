import Verif.Chem.Model
/-!
Generated from `src/compute/chemistry/chem_CH4_O2_FFCMY.cpp` by `tools/genchem.py`: do not edit. 12 species, 38 reactions.
-/
namespace PG.Chem.FFCMY
open PG.Chem

/-- names of the species, from the head of the file -/
def names : List String := ["H2", "H", "O2", "O", "OH", "HO2", "H2O", "CH3", "CH4", "CO", "CH2O", "CO2"]

/-- reactions 0 to 19, within src/compute/chemistry/chem_CH4_O2_FFCMY.cpp:149-559 -/
def rx0 : List Rxn := [
  ⟨⟨⟨10900000000000002, -5⟩, ⟨0, 0⟩, ⟨7704291057866103, -12⟩⟩, .none, [(1, -1), (2, -1), (3, 1), (4, 1)], 0, [(1, 1), (2, 1)], [(3, 1), (4, 1)], true⟩,
  ⟨⟨⟨38200000000000005, -7⟩, ⟨0, 0⟩, ⟨40005952913151878, -13⟩⟩, .none, [(0, -1), (1, 1), (3, -1), (4, 1)], 0, [(0, 1), (3, 1)], [(1, 1), (4, 1)], true⟩,
  ⟨⟨⟨8790000000000001, -4⟩, ⟨0, 0⟩, ⟨9651750652506327, -12⟩⟩, .none, [(0, -1), (1, 1), (3, -1), (4, 1)], 0, [(0, 1), (3, 1)], [(1, 1), (4, 1)], true⟩,
  ⟨⟨⟨21600000000000003, -11⟩, ⟨151, -2⟩, ⟨17295655366352578, -13⟩⟩, .none, [(0, -1), (1, 1), (4, -1), (6, 1)], 0, [(0, 1), (4, 1)], [(1, 1), (6, 1)], true⟩,
  ⟨⟨⟨3350000000000001, -14⟩, ⟨242, -2⟩, ⟨-9702072605856204, -13⟩⟩, .none, [(3, 1), (4, -2), (6, 1)], 0, [(4, 2)], [(3, 1), (6, 1)], true⟩,
  ⟨⟨⟨4580000000000001, 1⟩, ⟨-14, -1⟩, ⟨5253108710193616, -11⟩⟩, .three (.all [(0, ⟨25, -1⟩), (6, ⟨12, 0⟩), (8, ⟨2, 0⟩), (9, ⟨19, -1⟩), (10, ⟨25, -1⟩), (11, ⟨38, -1⟩)]), [(0, -1), (1, 2)], 1, [(0, 1)], [(1, 2)], true⟩,
  ⟨⟨⟨4710000000000001, -3⟩, ⟨-1, 0⟩, ⟨0, 0⟩⟩, .three (.all [(0, ⟨25, -1⟩), (6, ⟨12, 0⟩), (8, ⟨2, 0⟩), (9, ⟨19, -1⟩), (10, ⟨25, -1⟩), (11, ⟨38, -1⟩)]), [(1, -1), (3, -1), (4, 1)], -1, [(1, 1), (3, 1)], [(4, 1)], true⟩,
  ⟨⟨⟨6060000000000001, 9⟩, ⟨-3322, -3⟩, ⟨607889196466509, -10⟩⟩, .three (.all [(0, ⟨3, 0⟩), (2, ⟨15, -1⟩), (6, ⟨0, 0⟩), (8, ⟨7, 0⟩), (9, ⟨19, -1⟩), (10, ⟨25, -1⟩), (11, ⟨38, -1⟩)]), [(1, 1), (4, 1), (6, -1)], 1, [(6, 1)], [(1, 1), (4, 1)], true⟩,
  ⟨⟨⟨10100000000000001, 7⟩, ⟨-244, -2⟩, ⟨6048698792655164, -11⟩⟩, .three (.only 6), [(1, 1), (4, 1), (6, -1)], 1, [(6, 1)], [(1, 1), (4, 1)], true⟩,
  ⟨⟨⟨4650000000000001, -6⟩, ⟨44, -2⟩, ⟨0, 0⟩⟩, .troe (.all [(0, ⟨2, 0⟩), (2, ⟨78, -2⟩), (6, ⟨14, 0⟩), (8, ⟨2, 0⟩), (9, ⟨19, -1⟩), (10, ⟨25, -1⟩), (11, ⟨38, -1⟩)]) ⟨⟨19100000000000002, -1⟩, ⟨-172, -2⟩, ⟨264190255086852, -12⟩⟩ ⟨5, -1⟩ ⟨30, 0⟩ ⟨90000, 0⟩ ⟨90000, 0⟩, [(1, -1), (2, -1), (5, 1)], -1, [(1, 1), (2, 1)], [(5, 1)], true⟩,
  ⟨⟨⟨36800000000000005, -13⟩, ⟨2087, -3⟩, ⟨-7321844212407042, -13⟩⟩, .none, [(0, 1), (1, -1), (2, 1), (5, -1)], 0, [(1, 1), (5, 1)], [(0, 1), (2, 1)], true⟩,
  ⟨⟨⟨7080000000000002, -5⟩, ⟨0, 0⟩, ⟨15096586004962973, -14⟩⟩, .none, [(1, -1), (4, 2), (5, -1)], 0, [(1, 1), (5, 1)], [(4, 2)], true⟩,
  ⟨⟨⟨14500000000000002, -7⟩, ⟨0, 0⟩, ⟨0, 0⟩⟩, .none, [(1, -1), (3, 1), (5, -1), (6, 1)], 0, [(1, 1), (5, 1)], [(3, 1), (6, 1)], true⟩,
  ⟨⟨⟨16300000000000002, -6⟩, ⟨0, 0⟩, ⟨-22393269240695076, -14⟩⟩, .none, [(2, 1), (3, -1), (4, 1), (5, -1)], 0, [(3, 1), (5, 1)], [(2, 1), (4, 1)], true⟩,
  ⟨⟨⟨7000000000000001, -6⟩, ⟨0, 0⟩, ⟨-5500189501141509, -13⟩⟩, .none, [(2, 1), (4, -1), (5, -1), (6, 1)], 0, [(4, 1), (5, 1)], [(2, 1), (6, 1)], true⟩,
  ⟨⟨⟨45000000000000006, -5⟩, ⟨0, 0⟩, ⟨550018950114151, -11⟩⟩, .none, [(2, 1), (4, -1), (5, -1), (6, 1)], 0, [(4, 1), (5, 1)], [(2, 1), (6, 1)], true⟩,
  ⟨⟨⟨10600000000000002, -6⟩, ⟨-308, -3⟩, ⟨34938532210819303, -13⟩⟩, .lind (.all [(0, ⟨25, -1⟩), (6, ⟨12, 0⟩), (8, ⟨2, 0⟩), (9, ⟨19, -1⟩), (10, ⟨25, -1⟩), (11, ⟨38, -1⟩)]) ⟨⟨14000000000000002, -1⟩, ⟨-21, -1⟩, ⟨27677074342432115, -13⟩⟩, [(3, -1), (9, -1), (11, 1)], -1, [(3, 1), (9, 1)], [(11, 1)], true⟩,
  ⟨⟨⟨25300000000000005, -7⟩, ⟨0, 0⟩, ⟨24003571747891125, -12⟩⟩, .none, [(2, -1), (3, 1), (9, -1), (11, 1)], 0, [(2, 1), (9, 1)], [(3, 1), (11, 1)], true⟩,
  ⟨⟨⟨8460000000000001, -14⟩, ⟨2053, -3⟩, ⟨-1791461539255606, -13⟩⟩, .none, [(1, 1), (4, -1), (9, -1), (11, 1)], 0, [(4, 1), (9, 1)], [(1, 1), (11, 1)], true⟩,
  ⟨⟨⟨8640000000000002, -6⟩, ⟨-664, -3⟩, ⟨16706888512159023, -14⟩⟩, .none, [(1, 1), (4, -1), (9, -1), (11, 1)], 0, [(4, 1), (9, 1)], [(1, 1), (11, 1)], true⟩]

/-- reactions 20 to 37, within src/compute/chemistry/chem_CH4_O2_FFCMY.cpp:149-559 -/
def rx20 : List Rxn := [
  ⟨⟨⟨15700000000000003, -14⟩, ⟨218, -2⟩, ⟨9029771309101852, -12⟩⟩, .none, [(4, 1), (5, -1), (9, -1), (11, 1)], 0, [(5, 1), (9, 1)], [(4, 1), (11, 1)], true⟩,
  ⟨⟨⟨3070000000000001, -12⟩, ⟨25, -1⟩, ⟨38184298201886345, -13⟩⟩, .none, [(0, 1), (1, -1), (7, 1), (8, -1)], 0, [(1, 1), (8, 1)], [(0, 1), (7, 1)], true⟩,
  ⟨⟨⟨23100000000000003, -11⟩, ⟨156, -2⟩, ⟨4269817741737027, -12⟩⟩, .none, [(3, -1), (4, 1), (7, 1), (8, -1)], 0, [(3, 1), (8, 1)], [(4, 1), (7, 1)], true⟩,
  ⟨⟨⟨10000000000000002, -13⟩, ⟨2182, -3⟩, ⟨1230874978937981, -12⟩⟩, .none, [(4, -1), (6, 1), (7, 1), (8, -1)], 0, [(4, 1), (8, 1)], [(6, 1), (7, 1)], true⟩,
  ⟨⟨⟨14100000000000003, -5⟩, ⟨0, 0⟩, ⟨0, 0⟩⟩, .troe (.all [(0, ⟨2, 0⟩), (6, ⟨6, 0⟩), (8, ⟨2, 0⟩), (9, ⟨15, -1⟩), (10, ⟨25, -1⟩), (11, ⟨2, 0⟩)]) ⟨⟨635, 27⟩, ⟨-557, -2⟩, ⟨19212921788982876, -13⟩⟩ ⟨37, -2⟩ ⟨3315, 0⟩ ⟨61, 0⟩ ⟨90000, 0⟩, [(1, -1), (7, -1), (8, 1)], -1, [(1, 1), (7, 1)], [(8, 1)], true⟩,
  ⟨⟨⟨10800000000000002, -5⟩, ⟨0, 0⟩, ⟨0, 0⟩⟩, .none, [(1, 1), (3, -1), (7, -1), (10, 1)], 0, [(3, 1), (7, 1)], [(1, 1), (10, 1)], true⟩,
  ⟨⟨⟨23100000000000004, -6⟩, ⟨0, 0⟩, ⟨0, 0⟩⟩, .none, [(0, 1), (1, 1), (3, -1), (7, -1), (9, 1)], 1, [(3, 1), (7, 1)], [(0, 1), (1, 1), (9, 1)], false⟩,
  ⟨⟨⟨11600000000000001, -14⟩, ⟨235, -2⟩, ⟨-7659001299851215, -13⟩⟩, .none, [(2, 1), (5, -1), (7, -1), (8, 1)], 0, [(5, 1), (7, 1)], [(2, 1), (8, 1)], true⟩,
  ⟨⟨⟨20800000000000004, -6⟩, ⟨0, 0⟩, ⟨-2968995247642718, -13⟩⟩, .none, [(1, 1), (4, 1), (5, -1), (7, -1), (10, 1)], 1, [(5, 1), (7, 1)], [(1, 1), (4, 1), (10, 1)], false⟩,
  ⟨⟨⟨25100000000000005, -7⟩, ⟨0, 0⟩, ⟨14239603139414574, -12⟩⟩, .none, [(1, 1), (2, -1), (3, 1), (7, -1), (10, 1)], 1, [(2, 1), (7, 1)], [(1, 1), (3, 1), (10, 1)], false⟩,
  ⟨⟨⟨22800000000000004, -18⟩, ⟨253, -2⟩, ⟨49154484032159435, -13⟩⟩, .none, [(2, -1), (4, 1), (7, -1), (10, 1)], 0, [(2, 1), (7, 1)], [(4, 1), (10, 1)], true⟩,
  ⟨⟨⟨10600000000000002, -18⟩, ⟨336, -2⟩, ⟨21688761893796805, -13⟩⟩, .none, [(1, 1), (7, -1), (8, 1), (9, 1), (10, -1)], 1, [(7, 1), (10, 1)], [(1, 1), (8, 1), (9, 1)], false⟩,
  ⟨⟨⟨37000000000000, 0⟩, ⟨0, 0⟩, ⟨36219729143107164, -12⟩⟩, .troe (.all [(0, ⟨2, 0⟩), (6, ⟨6, 0⟩), (8, ⟨2, 0⟩), (9, ⟨15, -1⟩), (10, ⟨25, -1⟩), (11, ⟨2, 0⟩)]) ⟨⟨44000000000000005, 19⟩, ⟨-61, -1⟩, ⟨47302636148883976, -12⟩⟩ ⟨932, -3⟩ ⟨19700000000000003, -14⟩ ⟨1540, 0⟩ ⟨10300, 0⟩, [(0, 1), (9, 1), (10, -1)], 1, [(10, 1)], [(0, 1), (9, 1)], true⟩,
  ⟨⟨⟨5670000000000001, -6⟩, ⟨361, -3⟩, ⟨2319338829895811, -12⟩⟩, .three (.only 1), [(0, 1), (9, 1), (10, -1)], 1, [(10, 1)], [(0, 1), (9, 1)], false⟩,
  ⟨⟨⟨11400000000000002, -6⟩, ⟨582, -3⟩, ⟨7243845184714733, -12⟩⟩, .three (.only 1), [(0, 1), (9, 1), (10, -1)], 1, [(10, 1)], [(0, 1), (9, 1)], false⟩,
  ⟨⟨⟨41600000000000006, -8⟩, ⟨57, -2⟩, ⟨1389892351523591, -12⟩⟩, .none, [(1, 1), (3, -1), (4, 1), (9, 1), (10, -1)], 1, [(3, 1), (10, 1)], [(1, 1), (4, 1), (9, 1)], false⟩,
  ⟨⟨⟨7820000000000001, -11⟩, ⟨163, -2⟩, ⟨-5308966078411978, -13⟩⟩, .none, [(1, 1), (4, -1), (6, 1), (9, 1), (10, -1)], 1, [(4, 1), (10, 1)], [(1, 1), (6, 1), (9, 1)], false⟩,
  ⟨⟨⟨24400000000000006, -14⟩, ⟨25, -1⟩, ⟨18347384191365, -9⟩⟩, .none, [(1, 1), (2, -1), (5, 1), (9, 1), (10, -1)], 1, [(2, 1), (10, 1)], [(1, 1), (5, 1), (9, 1)], false⟩]

/-- source terms of species 0 to 11, within src/compute/chemistry/chem_CH4_O2_FFCMY.cpp:564-593 -/
def src0 : List (List (ℕ × ℤ)) := [
  [(1, -1), (2, -1), (3, -1), (5, -1), (10, 1), (21, 1), (26, 1), (32, 1), (33, 1), (34, 1)],
  [(0, -1), (1, 1), (2, 1), (3, 1), (5, 2), (6, -1), (7, 1), (8, 1), (9, -1), (10, -1), (11, -1), (12, -1), (18, 1), (19, 1), (21, -1), (24, -1), (25, 1), (26, 1), (28, 1), (29, 1), (31, 1), (35, 1), (36, 1), (37, 1)],
  [(0, -1), (9, -1), (10, 1), (13, 1), (14, 1), (15, 1), (17, -1), (27, 1), (29, -1), (30, -1), (37, -1)],
  [(0, 1), (1, -1), (2, -1), (4, 1), (6, -1), (12, 1), (13, -1), (16, -1), (17, 1), (22, -1), (25, -1), (26, -1), (29, 1), (35, -1)],
  [(0, 1), (1, 1), (2, 1), (3, -1), (4, -2), (6, 1), (7, 1), (8, 1), (11, 2), (13, 1), (14, -1), (15, -1), (18, -1), (19, -1), (20, 1), (22, 1), (23, -1), (28, 1), (30, 1), (35, 1), (36, -1)],
  [(9, 1), (10, -1), (11, -1), (12, -1), (13, -1), (14, -1), (15, -1), (20, -1), (27, -1), (28, -1), (37, 1)],
  [(3, 1), (4, 1), (7, -1), (8, -1), (12, 1), (14, 1), (15, 1), (23, 1), (36, 1)],
  [(21, 1), (22, 1), (23, 1), (24, -1), (25, -1), (26, -1), (27, -1), (28, -1), (29, -1), (30, -1), (31, -1)],
  [(21, -1), (22, -1), (23, -1), (24, 1), (27, 1), (31, 1)],
  [(16, -1), (17, -1), (18, -1), (19, -1), (20, -1), (26, 1), (31, 1), (32, 1), (33, 1), (34, 1), (35, 1), (36, 1), (37, 1)],
  [(25, 1), (28, 1), (29, 1), (30, 1), (31, -1), (32, -1), (33, -1), (34, -1), (35, -1), (36, -1), (37, -1)],
  [(16, 1), (17, 1), (18, 1), (19, 1), (20, 1)]]

/-- the mechanism of src/compute/chemistry/chem_CH4_O2_FFCMY.cpp -/
def mech : Mech := ⟨12, rx0 ++ rx20, src0⟩

end PG.Chem.FFCMY
