import Verif.Chem.Model
/-!
Generated from `src/compute/chemistry/chem_C2H4_Air_Skeletal.cpp` by `tools/genchem.py`: do not edit. 32 species, 206 reactions.
-/
namespace PG.Chem.Skeletal
open PG.Chem

/-- names of the species, from the head of the file -/
def names : List String := ["H2", "H", "O", "O2", "OH", "H2O", "HO2", "H2O2", "CH", "CH2", "CH2*", "CH3", "CH4", "CO", "CO2", "HCO", "CH2O", "CH3O", "C2H2", "H2CC", "C2H3", "C2H4", "C2H5", "C2H6", "HCCO", "CH2CO", "CH2CHO", "CH3CHO", "aC3H5", "C3H6", "nC3H7", "N2"]

/-- reactions 0 to 19, within src/compute/chemistry/chem_C2H4_Air_Skeletal.cpp:169-2374 -/
def rx0 : List Rxn := [
  ⟨⟨⟨8300000000000002, -5⟩, ⟨0, 0⟩, ⟨7252903136317711, -12⟩⟩, .none, [(1, -1), (2, 1), (3, -1), (4, 1)], 0, [(1, 1), (3, 1)], [(2, 1), (4, 1)], true⟩,
  ⟨⟨⟨5000000000000001, -14⟩, ⟨267, -2⟩, ⟨31652508657072367, -13⟩⟩, .none, [(0, -1), (1, 1), (2, -1), (4, 1)], 0, [(0, 1), (2, 1)], [(1, 1), (4, 1)], true⟩,
  ⟨⟨⟨21600000000000003, -11⟩, ⟨151, -2⟩, ⟨17260429999007665, -13⟩⟩, .none, [(0, -1), (1, 1), (4, -1), (5, 1)], 0, [(0, 1), (4, 1)], [(1, 1), (5, 1)], true⟩,
  ⟨⟨⟨357, -1⟩, ⟨24, -1⟩, ⟨-10617932156823956, -13⟩⟩, .none, [(2, 1), (4, -2), (5, 1)], 0, [(4, 2)], [(2, 1), (5, 1)], true⟩,
  ⟨⟨⟨10000000000000002, -4⟩, ⟨-1, 0⟩, ⟨0, 0⟩⟩, .three (.all [(0, ⟨0, 0⟩), (5, ⟨0, 0⟩), (12, ⟨2, 0⟩), (14, ⟨0, 0⟩), (18, ⟨3, 0⟩), (21, ⟨3, 0⟩), (23, ⟨3, 0⟩)]), [(0, 1), (1, -2)], -1, [(1, 2)], [(0, 1)], true⟩,
  ⟨⟨⟨9000000000000002, -5⟩, ⟨-6, -1⟩, ⟨0, 0⟩⟩, .three (.only 0), [(0, 1), (1, -2)], -1, [(1, 2)], [(0, 1)], true⟩,
  ⟨⟨⟨6000000000000001, -2⟩, ⟨-125, -2⟩, ⟨0, 0⟩⟩, .three (.only 5), [(0, 1), (1, -2)], -1, [(1, 2)], [(0, 1)], true⟩,
  ⟨⟨⟨5500000000000001, -1⟩, ⟨-2, 0⟩, ⟨0, 0⟩⟩, .three (.only 14), [(0, 1), (1, -2)], -1, [(1, 2)], [(0, 1)], true⟩,
  ⟨⟨⟨22000000000000004, 0⟩, ⟨-2, 0⟩, ⟨0, 0⟩⟩, .three (.all [(0, ⟨73, -2⟩), (5, ⟨365, -2⟩), (12, ⟨2, 0⟩), (18, ⟨3, 0⟩), (21, ⟨3, 0⟩), (23, ⟨3, 0⟩)]), [(1, -1), (4, -1), (5, 1)], -1, [(1, 1), (4, 1)], [(5, 1)], true⟩,
  ⟨⟨⟨5000000000000001, -4⟩, ⟨-1, 0⟩, ⟨0, 0⟩⟩, .three (.all [(0, ⟨2, 0⟩), (5, ⟨6, 0⟩), (12, ⟨2, 0⟩), (13, ⟨15, -1⟩), (14, ⟨2, 0⟩), (18, ⟨3, 0⟩), (21, ⟨3, 0⟩), (23, ⟨3, 0⟩)]), [(1, -1), (2, -1), (4, 1)], -1, [(1, 1), (2, 1)], [(4, 1)], true⟩,
  ⟨⟨⟨12000000000000002, -5⟩, ⟨-1, 0⟩, ⟨0, 0⟩⟩, .three (.all [(0, ⟨24, -1⟩), (5, ⟨154, -1⟩), (12, ⟨2, 0⟩), (13, ⟨175, -2⟩), (14, ⟨36, -1⟩), (18, ⟨3, 0⟩), (21, ⟨3, 0⟩), (23, ⟨3, 0⟩)]), [(2, -2), (3, 1)], -1, [(2, 2)], [(3, 1)], true⟩,
  ⟨⟨⟨28000000000000005, -4⟩, ⟨-86, -2⟩, ⟨0, 0⟩⟩, .three (.all [(3, ⟨0, 0⟩), (5, ⟨0, 0⟩), (13, ⟨75, -2⟩), (14, ⟨15, -1⟩), (18, ⟨3, 0⟩), (21, ⟨3, 0⟩), (23, ⟨15, -1⟩), (31, ⟨0, 0⟩)]), [(1, -1), (3, -1), (6, 1)], -1, [(1, 1), (3, 1)], [(6, 1)], true⟩,
  ⟨⟨⟨30000000000000006, -2⟩, ⟨-172, -2⟩, ⟨0, 0⟩⟩, .three (.only 3), [(1, -1), (3, -1), (6, 1)], -1, [(1, 1), (3, 1)], [(6, 1)], true⟩,
  ⟨⟨⟨16520000000000004, -3⟩, ⟨-76, -2⟩, ⟨0, 0⟩⟩, .three (.only 5), [(1, -1), (3, -1), (6, 1)], -1, [(1, 1), (3, 1)], [(6, 1)], true⟩,
  ⟨⟨⟨26000000000000004, -3⟩, ⟨-124, -2⟩, ⟨0, 0⟩⟩, .three (.only 31), [(1, -1), (3, -1), (6, 1)], -1, [(1, 1), (3, 1)], [(6, 1)], true⟩,
  ⟨⟨⟨7400000000000002, -5⟩, ⟨-37, -2⟩, ⟨0, 0⟩⟩, .troe (.all [(0, ⟨2, 0⟩), (5, ⟨6, 0⟩), (12, ⟨2, 0⟩), (13, ⟨15, -1⟩), (14, ⟨2, 0⟩), (18, ⟨3, 0⟩), (21, ⟨3, 0⟩), (23, ⟨3, 0⟩)]) ⟨⟨23000000000000005, -4⟩, ⟨-9, -1⟩, ⟨-8554732069479018, -13⟩⟩ ⟨7346, -4⟩ ⟨94, 0⟩ ⟨1756, 0⟩ ⟨5182, 0⟩, [(4, -2), (7, 1)], -1, [(4, 2)], [(7, 1)], true⟩,
  ⟨⟨⟨39700000000000005, -7⟩, ⟨0, 0⟩, ⟨33766030697767184, -14⟩⟩, .none, [(1, -1), (2, 1), (5, 1), (6, -1)], 0, [(1, 1), (6, 1)], [(2, 1), (5, 1)], true⟩,
  ⟨⟨⟨16600000000000002, -6⟩, ⟨0, 0⟩, ⟨4126400174689879, -13⟩⟩, .none, [(0, 1), (1, -1), (3, 1), (6, -1)], 0, [(1, 1), (6, 1)], [(0, 1), (3, 1)], true⟩,
  ⟨⟨⟨7080000000000002, -5⟩, ⟨0, 0⟩, ⟨15096586004962973, -14⟩⟩, .none, [(1, -1), (4, 2), (6, -1)], 0, [(1, 1), (6, 1)], [(4, 2)], true⟩,
  ⟨⟨⟨20000000000000004, -6⟩, ⟨0, 0⟩, ⟨0, 0⟩⟩, .none, [(2, -1), (3, 1), (4, 1), (6, -1)], 0, [(2, 1), (6, 1)], [(3, 1), (4, 1)], true⟩]

/-- reactions 20 to 39, within src/compute/chemistry/chem_C2H4_Air_Skeletal.cpp:169-2374 -/
def rx20 : List Rxn := [
  ⟨⟨⟨4640000000000001, -5⟩, ⟨0, 0⟩, ⟨-25160976674938286, -14⟩⟩, .none, [(3, 1), (4, -1), (5, 1), (6, -1)], 0, [(4, 1), (6, 1)], [(3, 1), (5, 1)], true⟩,
  ⟨⟨⟨13000000000000001, -8⟩, ⟨0, 0⟩, ⟨-8202478396029882, -13⟩⟩, .none, [(3, 1), (6, -2), (7, 1)], 0, [(6, 2)], [(3, 1), (7, 1)], true⟩,
  ⟨⟨⟨42000000000000006, -5⟩, ⟨0, 0⟩, ⟨6038634401985189, -12⟩⟩, .none, [(3, 1), (6, -2), (7, 1)], 0, [(6, 2)], [(3, 1), (7, 1)], true⟩,
  ⟨⟨⟨12100000000000002, -12⟩, ⟨2, 0⟩, ⟨2616741574193582, -12⟩⟩, .none, [(0, 1), (1, -1), (6, 1), (7, -1)], 0, [(1, 1), (7, 1)], [(0, 1), (6, 1)], true⟩,
  ⟨⟨⟨10000000000000002, -6⟩, ⟨0, 0⟩, ⟨18115903205955567, -13⟩⟩, .none, [(1, -1), (4, 1), (5, 1), (7, -1)], 0, [(1, 1), (7, 1)], [(4, 1), (5, 1)], true⟩,
  ⟨⟨⟨9630, 0⟩, ⟨2, 0⟩, ⟨20128781339950629, -13⟩⟩, .none, [(2, -1), (4, 1), (6, 1), (7, -1)], 0, [(2, 1), (7, 1)], [(4, 1), (6, 1)], true⟩,
  ⟨⟨⟨17500000000000002, -7⟩, ⟨0, 0⟩, ⟨16103025071960505, -14⟩⟩, .none, [(4, -1), (5, 1), (6, 1), (7, -1)], 0, [(4, 1), (7, 1)], [(5, 1), (6, 1)], true⟩,
  ⟨⟨⟨5800000000000001, -4⟩, ⟨0, 0⟩, ⟨4810778740248201, -12⟩⟩, .none, [(4, -1), (5, 1), (6, 1), (7, -1)], 0, [(4, 1), (7, 1)], [(5, 1), (6, 1)], true⟩,
  ⟨⟨⟨6020000000000001, -7⟩, ⟨0, 0⟩, ⟨15096586004962971, -13⟩⟩, .three (.all [(0, ⟨2, 0⟩), (3, ⟨6, 0⟩), (5, ⟨6, 0⟩), (12, ⟨2, 0⟩), (13, ⟨15, -1⟩), (14, ⟨35, -1⟩), (18, ⟨3, 0⟩), (21, ⟨3, 0⟩), (23, ⟨3, 0⟩)]), [(2, -1), (13, -1), (14, 1)], -1, [(2, 1), (13, 1)], [(14, 1)], true⟩,
  ⟨⟨⟨4760000000000001, -11⟩, ⟨1228, -3⟩, ⟨352253673449136, -13⟩⟩, .none, [(1, 1), (4, -1), (13, -1), (14, 1)], 0, [(4, 1), (13, 1)], [(1, 1), (14, 1)], true⟩,
  ⟨⟨⟨4300000000000001, -11⟩, ⟨15, -1⟩, ⟨4005627486650175, -11⟩⟩, .troe (.all [(0, ⟨2, 0⟩), (5, ⟨6, 0⟩), (12, ⟨2, 0⟩), (13, ⟨15, -1⟩), (14, ⟨2, 0⟩), (18, ⟨3, 0⟩), (21, ⟨3, 0⟩), (23, ⟨3, 0⟩)]) ⟨⟨507, 19⟩, ⟨-342, -2⟩, ⟨4244656765062089, -11⟩⟩ ⟨932, -3⟩ ⟨19700000000000003, -14⟩ ⟨1540, 0⟩ ⟨10300, 0⟩, [(0, -1), (13, -1), (16, 1)], -1, [(0, 1), (13, 1)], [(16, 1)], true⟩,
  ⟨⟨⟨25000000000000005, -7⟩, ⟨0, 0⟩, ⟨24053893701241002, -12⟩⟩, .none, [(2, 1), (3, -1), (13, -1), (14, 1)], 0, [(3, 1), (13, 1)], [(2, 1), (14, 1)], true⟩,
  ⟨⟨⟨15000000000000003, -5⟩, ⟨0, 0⟩, ⟨11875980990570872, -12⟩⟩, .none, [(4, 1), (6, -1), (13, -1), (14, 1)], 0, [(6, 1), (13, 1)], [(4, 1), (14, 1)], true⟩,
  ⟨⟨⟨5700000000000001, -5⟩, ⟨0, 0⟩, ⟨0, 0⟩⟩, .none, [(1, 1), (2, -1), (8, -1), (13, 1)], 0, [(2, 1), (8, 1)], [(1, 1), (13, 1)], true⟩,
  ⟨⟨⟨30000000000000004, -6⟩, ⟨0, 0⟩, ⟨0, 0⟩⟩, .none, [(1, 1), (4, -1), (8, -1), (15, 1)], 0, [(4, 1), (8, 1)], [(1, 1), (15, 1)], true⟩,
  ⟨⟨⟨11070000000000001, -11⟩, ⟨179, -2⟩, ⟨8403766209429388, -13⟩⟩, .none, [(0, -1), (1, 1), (8, -1), (9, 1)], 0, [(0, 1), (8, 1)], [(1, 1), (9, 1)], true⟩,
  ⟨⟨⟨5710000000000001, -6⟩, ⟨0, 0⟩, ⟨-37993074779156814, -14⟩⟩, .none, [(1, 1), (5, -1), (8, -1), (16, 1)], 0, [(5, 1), (8, 1)], [(1, 1), (16, 1)], true⟩,
  ⟨⟨⟨33000000000000004, -6⟩, ⟨0, 0⟩, ⟨0, 0⟩⟩, .none, [(2, 1), (3, -1), (8, -1), (15, 1)], 0, [(3, 1), (8, 1)], [(2, 1), (15, 1)], true⟩,
  ⟨⟨⟨5000000000000001, -5⟩, ⟨0, 0⟩, ⟨0, 0⟩⟩, .troe (.all [(0, ⟨2, 0⟩), (5, ⟨6, 0⟩), (12, ⟨2, 0⟩), (13, ⟨15, -1⟩), (14, ⟨2, 0⟩), (18, ⟨3, 0⟩), (21, ⟨3, 0⟩), (23, ⟨3, 0⟩)]) ⟨⟨26900000000000003, 6⟩, ⟨-374, -2⟩, ⟨9742330168536105, -13⟩⟩ ⟨5757, -4⟩ ⟨23700000000000003, -14⟩ ⟨1652, 0⟩ ⟨5069, 0⟩, [(8, -1), (13, -1), (24, 1)], -1, [(8, 1), (13, 1)], [(24, 1)], true⟩,
  ⟨⟨⟨34000000000000005, -7⟩, ⟨0, 0⟩, ⟨34722147811414834, -14⟩⟩, .none, [(8, -1), (13, 1), (14, -1), (15, 1)], 0, [(8, 1), (14, 1)], [(13, 1), (15, 1)], true⟩]

/-- reactions 40 to 59, within src/compute/chemistry/chem_C2H4_Air_Skeletal.cpp:169-2374 -/
def rx40 : List Rxn := [
  ⟨⟨⟨10900000000000002, -7⟩, ⟨48, -2⟩, ⟨-1308370787096791, -13⟩⟩, .troe (.all [(0, ⟨2, 0⟩), (5, ⟨6, 0⟩), (12, ⟨2, 0⟩), (13, ⟨15, -1⟩), (14, ⟨2, 0⟩), (18, ⟨3, 0⟩), (21, ⟨3, 0⟩), (23, ⟨3, 0⟩)]) ⟨⟨13500000000000003, 2⟩, ⟨-257, -2⟩, ⟨7170878352357412, -13⟩⟩ ⟨7824, -4⟩ ⟨271, 0⟩ ⟨2755, 0⟩ ⟨6570, 0⟩, [(1, -1), (15, -1), (16, 1)], -1, [(1, 1), (15, 1)], [(16, 1)], true⟩,
  ⟨⟨⟨7340000000000002, -5⟩, ⟨0, 0⟩, ⟨0, 0⟩⟩, .none, [(0, 1), (1, -1), (13, 1), (15, -1)], 0, [(1, 1), (15, 1)], [(0, 1), (13, 1)], true⟩,
  ⟨⟨⟨30000000000000004, -6⟩, ⟨0, 0⟩, ⟨0, 0⟩⟩, .none, [(2, -1), (4, 1), (13, 1), (15, -1)], 0, [(2, 1), (15, 1)], [(4, 1), (13, 1)], true⟩,
  ⟨⟨⟨30000000000000004, -6⟩, ⟨0, 0⟩, ⟨0, 0⟩⟩, .none, [(1, 1), (2, -1), (14, 1), (15, -1)], 0, [(2, 1), (15, 1)], [(1, 1), (14, 1)], true⟩,
  ⟨⟨⟨5000000000000001, -5⟩, ⟨0, 0⟩, ⟨0, 0⟩⟩, .none, [(4, -1), (5, 1), (13, 1), (15, -1)], 0, [(4, 1), (15, 1)], [(5, 1), (13, 1)], true⟩,
  ⟨⟨⟨18700000000000003, -2⟩, ⟨-1, 0⟩, ⟨8554732069479018, -12⟩⟩, .three (.all [(0, ⟨2, 0⟩), (5, ⟨6, 0⟩), (12, ⟨2, 0⟩), (13, ⟨15, -1⟩), (14, ⟨2, 0⟩), (18, ⟨3, 0⟩), (21, ⟨3, 0⟩), (23, ⟨3, 0⟩)]), [(1, 1), (13, 1), (15, -1)], 1, [(15, 1)], [(1, 1), (13, 1)], true⟩,
  ⟨⟨⟨7600000000000001, -6⟩, ⟨0, 0⟩, ⟨2012878133995063, -13⟩⟩, .none, [(3, -1), (6, 1), (13, 1), (15, -1)], 0, [(3, 1), (15, 1)], [(6, 1), (13, 1)], true⟩,
  ⟨⟨⟨25000000000000004, -3⟩, ⟨-8, -1⟩, ⟨0, 0⟩⟩, .troe (.all [(0, ⟨2, 0⟩), (5, ⟨6, 0⟩), (12, ⟨2, 0⟩), (13, ⟨15, -1⟩), (14, ⟨2, 0⟩), (18, ⟨3, 0⟩), (21, ⟨3, 0⟩), (23, ⟨3, 0⟩)]) ⟨⟨32000000000000005, 5⟩, ⟨-314, -2⟩, ⟨6189600262034819, -13⟩⟩ ⟨68, -2⟩ ⟨78, 0⟩ ⟨1995, 0⟩ ⟨5590, 0⟩, [(1, -1), (9, -1), (11, 1)], -1, [(1, 1), (9, 1)], [(11, 1)], true⟩,
  ⟨⟨⟨5000000000000001, -13⟩, ⟨2, 0⟩, ⟨3638277227196076, -12⟩⟩, .none, [(0, -1), (1, 1), (9, -1), (11, 1)], 0, [(0, 1), (9, 1)], [(1, 1), (11, 1)], true⟩,
  ⟨⟨⟨8000000000000002, -5⟩, ⟨0, 0⟩, ⟨0, 0⟩⟩, .none, [(1, 1), (2, -1), (9, -1), (15, 1)], 0, [(2, 1), (9, 1)], [(1, 1), (15, 1)], true⟩,
  ⟨⟨⟨10560000000000002, -6⟩, ⟨0, 0⟩, ⟨7548293002481486, -13⟩⟩, .none, [(3, -1), (4, 1), (9, -1), (15, 1)], 0, [(3, 1), (9, 1)], [(4, 1), (15, 1)], true⟩,
  ⟨⟨⟨26400000000000005, -7⟩, ⟨0, 0⟩, ⟨7548293002481486, -13⟩⟩, .none, [(1, 2), (3, -1), (9, -1), (14, 1)], 1, [(3, 1), (9, 1)], [(1, 2), (14, 1)], true⟩,
  ⟨⟨⟨20000000000000004, -6⟩, ⟨0, 0⟩, ⟨0, 0⟩⟩, .none, [(1, 1), (4, -1), (9, -1), (16, 1)], 0, [(4, 1), (9, 1)], [(1, 1), (16, 1)], true⟩,
  ⟨⟨⟨11300000000000002, -12⟩, ⟨2, 0⟩, ⟨15096586004962971, -13⟩⟩, .none, [(4, -1), (5, 1), (8, 1), (9, -1)], 0, [(4, 1), (9, 1)], [(5, 1), (8, 1)], true⟩,
  ⟨⟨⟨20000000000000004, -6⟩, ⟨0, 0⟩, ⟨0, 0⟩⟩, .none, [(4, 1), (6, -1), (9, -1), (16, 1)], 0, [(6, 1), (9, 1)], [(4, 1), (16, 1)], true⟩,
  ⟨⟨⟨8100000000000001, -7⟩, ⟨5, -1⟩, ⟨22695200960794336, -13⟩⟩, .troe (.all [(0, ⟨2, 0⟩), (5, ⟨6, 0⟩), (12, ⟨2, 0⟩), (13, ⟨15, -1⟩), (14, ⟨2, 0⟩), (18, ⟨3, 0⟩), (21, ⟨3, 0⟩), (23, ⟨3, 0⟩)]) ⟨⟨26900000000000006, 11⟩, ⟨-511, -2⟩, ⟨3570342590173743, -12⟩⟩ ⟨5907, -4⟩ ⟨275, 0⟩ ⟨1226, 0⟩ ⟨5185, 0⟩, [(9, -1), (13, -1), (25, 1)], -1, [(9, 1), (13, 1)], [(25, 1)], true⟩,
  ⟨⟨⟨4000000000000001, -5⟩, ⟨0, 0⟩, ⟨0, 0⟩⟩, .none, [(1, 1), (8, -1), (9, -1), (18, 1)], 0, [(8, 1), (9, 1)], [(1, 1), (18, 1)], true⟩,
  ⟨⟨⟨32000000000000004, -6⟩, ⟨0, 0⟩, ⟨0, 0⟩⟩, .none, [(0, 1), (9, -2), (18, 1)], 0, [(9, 2)], [(0, 1), (18, 1)], true⟩,
  ⟨⟨⟨15000000000000002, -6⟩, ⟨0, 0⟩, ⟨30193172009925945, -14⟩⟩, .none, [(9, 1), (10, -1)], 0, [(10, 1), (31, 1)], [(9, 1), (31, 1)], true⟩,
  ⟨⟨⟨30000000000000004, -6⟩, ⟨0, 0⟩, ⟨0, 0⟩⟩, .none, [(0, 1), (1, -1), (8, 1), (10, -1)], 0, [(1, 1), (10, 1)], [(0, 1), (8, 1)], true⟩]

/-- reactions 60 to 79, within src/compute/chemistry/chem_C2H4_Air_Skeletal.cpp:169-2374 -/
def rx60 : List Rxn := [
  ⟨⟨⟨15000000000000002, -6⟩, ⟨0, 0⟩, ⟨0, 0⟩⟩, .none, [(0, 1), (2, -1), (10, -1), (13, 1)], 0, [(2, 1), (10, 1)], [(0, 1), (13, 1)], true⟩,
  ⟨⟨⟨15000000000000002, -6⟩, ⟨0, 0⟩, ⟨0, 0⟩⟩, .none, [(1, 1), (2, -1), (10, -1), (15, 1)], 0, [(2, 1), (10, 1)], [(1, 1), (15, 1)], true⟩,
  ⟨⟨⟨30000000000000004, -6⟩, ⟨0, 0⟩, ⟨0, 0⟩⟩, .none, [(1, 1), (4, -1), (10, -1), (16, 1)], 0, [(4, 1), (10, 1)], [(1, 1), (16, 1)], true⟩,
  ⟨⟨⟨7000000000000002, -5⟩, ⟨0, 0⟩, ⟨0, 0⟩⟩, .none, [(0, -1), (1, 1), (10, -1), (11, 1)], 0, [(0, 1), (10, 1)], [(1, 1), (11, 1)], true⟩,
  ⟨⟨⟨28000000000000004, -6⟩, ⟨0, 0⟩, ⟨0, 0⟩⟩, .none, [(1, 1), (3, -1), (4, 1), (10, -1), (13, 1)], 1, [(3, 1), (10, 1)], [(1, 1), (4, 1), (13, 1)], true⟩,
  ⟨⟨⟨12000000000000002, -6⟩, ⟨0, 0⟩, ⟨0, 0⟩⟩, .none, [(3, -1), (5, 1), (10, -1), (13, 1)], 0, [(3, 1), (10, 1)], [(5, 1), (13, 1)], true⟩,
  ⟨⟨⟨30000000000000004, -6⟩, ⟨0, 0⟩, ⟨0, 0⟩⟩, .none, [(9, 1), (10, -1)], 0, [(5, 1), (10, 1)], [(5, 1), (9, 1)], true⟩,
  ⟨⟨⟨9000000000000002, -6⟩, ⟨0, 0⟩, ⟨0, 0⟩⟩, .none, [(9, 1), (10, -1)], 0, [(10, 1), (13, 1)], [(9, 1), (13, 1)], true⟩,
  ⟨⟨⟨7000000000000001, -6⟩, ⟨0, 0⟩, ⟨0, 0⟩⟩, .none, [(9, 1), (10, -1)], 0, [(10, 1), (14, 1)], [(9, 1), (14, 1)], true⟩,
  ⟨⟨⟨14000000000000002, -6⟩, ⟨0, 0⟩, ⟨0, 0⟩⟩, .none, [(10, -1), (13, 1), (14, -1), (16, 1)], 0, [(10, 1), (14, 1)], [(13, 1), (16, 1)], true⟩,
  ⟨⟨⟨5400000000000001, -7⟩, ⟨454, -3⟩, ⟨1308370787096791, -12⟩⟩, .troe (.all [(0, ⟨2, 0⟩), (5, ⟨6, 0⟩), (12, ⟨2, 0⟩), (13, ⟨15, -1⟩), (14, ⟨2, 0⟩), (18, ⟨3, 0⟩), (21, ⟨3, 0⟩), (23, ⟨3, 0⟩)]) ⟨⟨22000000000000006, 8⟩, ⟨-48, -1⟩, ⟨27979006062531375, -13⟩⟩ ⟨758, -3⟩ ⟨94, 0⟩ ⟨1555, 0⟩ ⟨4200, 0⟩, [(1, -1), (16, -1), (17, 1)], -1, [(1, 1), (16, 1)], [(17, 1)], true⟩,
  ⟨⟨⟨23000000000000004, -9⟩, ⟨105, -2⟩, ⟨16480439722084577, -13⟩⟩, .none, [(0, 1), (1, -1), (15, 1), (16, -1)], 0, [(1, 1), (16, 1)], [(0, 1), (15, 1)], true⟩,
  ⟨⟨⟨3900000000000001, -5⟩, ⟨0, 0⟩, ⟨17813971485856307, -13⟩⟩, .none, [(2, -1), (4, 1), (15, 1), (16, -1)], 0, [(2, 1), (16, 1)], [(4, 1), (15, 1)], true⟩,
  ⟨⟨⟨34300000000000005, -10⟩, ⟨118, -2⟩, ⟨-2249391314739483, -13⟩⟩, .none, [(4, -1), (5, 1), (15, 1), (16, -1)], 0, [(4, 1), (16, 1)], [(5, 1), (15, 1)], true⟩,
  ⟨⟨⟨10000000000000002, -5⟩, ⟨0, 0⟩, ⟨2012878133995063, -11⟩⟩, .none, [(3, -1), (6, 1), (15, 1), (16, -1)], 0, [(3, 1), (16, 1)], [(6, 1), (15, 1)], true⟩,
  ⟨⟨⟨10000000000000001, -7⟩, ⟨0, 0⟩, ⟨40257562679901257, -13⟩⟩, .none, [(6, -1), (7, 1), (15, 1), (16, -1)], 0, [(6, 1), (16, 1)], [(7, 1), (15, 1)], true⟩,
  ⟨⟨⟨9460000000000002, -5⟩, ⟨0, 0⟩, ⟨-25915805975186436, -14⟩⟩, .none, [(1, 1), (8, -1), (16, -1), (25, 1)], 0, [(8, 1), (16, 1)], [(1, 1), (25, 1)], true⟩,
  ⟨⟨⟨12700000000000002, -3⟩, ⟨-63, -2⟩, ⟨1927330813300273, -13⟩⟩, .troe (.all [(0, ⟨2, 0⟩), (5, ⟨6, 0⟩), (12, ⟨2, 0⟩), (13, ⟨15, -1⟩), (14, ⟨2, 0⟩), (18, ⟨3, 0⟩), (21, ⟨3, 0⟩), (23, ⟨3, 0⟩)]) ⟨⟨24770000000000003, 11⟩, ⟨-476, -2⟩, ⟨12278556617369884, -13⟩⟩ ⟨783, -3⟩ ⟨74, 0⟩ ⟨2941, 0⟩ ⟨6964, 0⟩, [(1, -1), (11, -1), (12, 1)], -1, [(1, 1), (11, 1)], [(12, 1)], true⟩,
  ⟨⟨⟨8430000000000002, -5⟩, ⟨0, 0⟩, ⟨0, 0⟩⟩, .none, [(1, 1), (2, -1), (11, -1), (16, 1)], 0, [(2, 1), (11, 1)], [(1, 1), (16, 1)], true⟩,
  ⟨⟨⟨5600000000000001, -11⟩, ⟨16, -1⟩, ⟨27274498715633104, -13⟩⟩, .none, [(4, -1), (5, 1), (9, 1), (11, -1)], 0, [(4, 1), (11, 1)], [(5, 1), (9, 1)], true⟩]

/-- reactions 80 to 99, within src/compute/chemistry/chem_C2H4_Air_Skeletal.cpp:169-2374 -/
def rx80 : List Rxn := [
  ⟨⟨⟨25010000000000004, -6⟩, ⟨0, 0⟩, ⟨0, 0⟩⟩, .none, [(4, -1), (5, 1), (10, 1), (11, -1)], 0, [(4, 1), (11, 1)], [(5, 1), (10, 1)], true⟩,
  ⟨⟨⟨30830000000000004, -6⟩, ⟨0, 0⟩, ⟨14492722564764454, -12⟩⟩, .none, [(2, 1), (3, -1), (11, -1), (17, 1)], 0, [(3, 1), (11, 1)], [(2, 1), (17, 1)], true⟩,
  ⟨⟨⟨3600000000000001, -8⟩, ⟨0, 0⟩, ⟨4498782629478966, -12⟩⟩, .none, [(3, -1), (4, 1), (11, -1), (16, 1)], 0, [(3, 1), (11, 1)], [(4, 1), (16, 1)], true⟩,
  ⟨⟨⟨10000000000000001, -7⟩, ⟨0, 0⟩, ⟨0, 0⟩⟩, .none, [(3, 1), (6, -1), (11, -1), (12, 1)], 0, [(6, 1), (11, 1)], [(3, 1), (12, 1)], true⟩,
  ⟨⟨⟨13400000000000002, -6⟩, ⟨0, 0⟩, ⟨0, 0⟩⟩, .none, [(4, 1), (6, -1), (11, -1), (17, 1)], 0, [(6, 1), (11, 1)], [(4, 1), (17, 1)], true⟩,
  ⟨⟨⟨24500000000000004, -15⟩, ⟨247, -2⟩, ⟨26066771835236063, -13⟩⟩, .none, [(6, 1), (7, -1), (11, -1), (12, 1)], 0, [(7, 1), (11, 1)], [(6, 1), (12, 1)], true⟩,
  ⟨⟨⟨30000000000000004, -6⟩, ⟨0, 0⟩, ⟨0, 0⟩⟩, .none, [(1, 1), (8, -1), (11, -1), (20, 1)], 0, [(8, 1), (11, 1)], [(1, 1), (20, 1)], true⟩,
  ⟨⟨⟨8480000000000002, -6⟩, ⟨0, 0⟩, ⟨0, 0⟩⟩, .none, [(11, -1), (12, 1), (13, 1), (15, -1)], 0, [(11, 1), (15, 1)], [(12, 1), (13, 1)], true⟩,
  ⟨⟨⟨18000000000000004, -6⟩, ⟨0, 0⟩, ⟨0, 0⟩⟩, .troe (.all [(0, ⟨2, 0⟩), (5, ⟨6, 0⟩), (12, ⟨2, 0⟩), (13, ⟨15, -1⟩), (14, ⟨2, 0⟩), (18, ⟨3, 0⟩), (21, ⟨3, 0⟩), (23, ⟨3, 0⟩)]) ⟨⟨22000000000000004, 26⟩, ⟨-9588, -3⟩, ⟨2566419620843705, -12⟩⟩ ⟨6173, -4⟩ ⟨13076000000000002, -15⟩ ⟨2078, 0⟩ ⟨5093, 0⟩, [(11, -1), (15, -1), (27, 1)], -1, [(11, 1), (15, 1)], [(27, 1)], true⟩,
  ⟨⟨⟨33200000000000003, -16⟩, ⟨281, -2⟩, ⟨2948866466302767, -12⟩⟩, .none, [(11, -1), (12, 1), (15, 1), (16, -1)], 0, [(11, 1), (16, 1)], [(12, 1), (15, 1)], true⟩,
  ⟨⟨⟨4000000000000001, -5⟩, ⟨0, 0⟩, ⟨0, 0⟩⟩, .none, [(1, 1), (9, -1), (11, -1), (21, 1)], 0, [(9, 1), (11, 1)], [(1, 1), (21, 1)], true⟩,
  ⟨⟨⟨12000000000000002, -6⟩, ⟨0, 0⟩, ⟨-28683513409429645, -14⟩⟩, .none, [(1, 1), (10, -1), (11, -1), (21, 1)], 0, [(10, 1), (11, 1)], [(1, 1), (21, 1)], true⟩,
  ⟨⟨⟨21200000000000004, -3⟩, ⟨-97, -2⟩, ⟨31199611076923475, -14⟩⟩, .troe (.all [(0, ⟨2, 0⟩), (5, ⟨6, 0⟩), (12, ⟨2, 0⟩), (13, ⟨15, -1⟩), (14, ⟨2, 0⟩), (18, ⟨3, 0⟩), (21, ⟨3, 0⟩), (23, ⟨3, 0⟩)]) ⟨⟨17700000000000004, 28⟩, ⟨-967, -2⟩, ⟨3130025498362323, -12⟩⟩ ⟨5325, -4⟩ ⟨151, 0⟩ ⟨1038, 0⟩ ⟨4970, 0⟩, [(11, -2), (23, 1)], -1, [(11, 2)], [(23, 1)], true⟩,
  ⟨⟨⟨4990000000000001, -6⟩, ⟨1, -1⟩, ⟨5334127055086917, -12⟩⟩, .none, [(1, 1), (11, -2), (22, 1)], 0, [(11, 2)], [(1, 1), (22, 1)], true⟩,
  ⟨⟨⟨5000000000000001, -5⟩, ⟨0, 0⟩, ⟨0, 0⟩⟩, .none, [(11, -1), (13, 1), (21, 1), (24, -1)], 0, [(11, 1), (24, 1)], [(13, 1), (21, 1)], true⟩,
  ⟨⟨⟨20000000000000004, -6⟩, ⟨0, 0⟩, ⟨0, 0⟩⟩, .none, [(0, 1), (1, -1), (16, 1), (17, -1)], 0, [(1, 1), (17, 1)], [(0, 1), (16, 1)], true⟩,
  ⟨⟨⟨32000000000000004, -6⟩, ⟨0, 0⟩, ⟨0, 0⟩⟩, .none, [(1, -1), (4, 1), (11, 1), (17, -1)], 0, [(1, 1), (17, 1)], [(4, 1), (11, 1)], true⟩,
  ⟨⟨⟨16000000000000002, -6⟩, ⟨0, 0⟩, ⟨0, 0⟩⟩, .none, [(1, -1), (5, 1), (10, 1), (17, -1)], 0, [(1, 1), (17, 1)], [(5, 1), (10, 1)], true⟩,
  ⟨⟨⟨10000000000000002, -6⟩, ⟨0, 0⟩, ⟨0, 0⟩⟩, .none, [(2, -1), (4, 1), (16, 1), (17, -1)], 0, [(2, 1), (17, 1)], [(4, 1), (16, 1)], true⟩,
  ⟨⟨⟨5000000000000001, -6⟩, ⟨0, 0⟩, ⟨0, 0⟩⟩, .none, [(4, -1), (5, 1), (16, 1), (17, -1)], 0, [(4, 1), (17, 1)], [(5, 1), (16, 1)], true⟩]

/-- reactions 100 to 119, within src/compute/chemistry/chem_C2H4_Air_Skeletal.cpp:169-2374 -/
def rx100 : List Rxn := [
  ⟨⟨⟨42800000000000005, -32⟩, ⟨76, -1⟩, ⟨-1776364953250643, -12⟩⟩, .none, [(3, -1), (6, 1), (16, 1), (17, -1)], 0, [(3, 1), (17, 1)], [(6, 1), (16, 1)], true⟩,
  ⟨⟨⟨6600000000000001, -10⟩, ⟨162, -2⟩, ⟨5454899743126621, -12⟩⟩, .none, [(0, 1), (1, -1), (11, 1), (12, -1)], 0, [(1, 1), (12, 1)], [(0, 1), (11, 1)], true⟩,
  ⟨⟨⟨10200000000000001, -10⟩, ⟨15, -1⟩, ⟨4327687988089386, -12⟩⟩, .none, [(2, -1), (4, 1), (11, 1), (12, -1)], 0, [(2, 1), (12, 1)], [(4, 1), (11, 1)], true⟩,
  ⟨⟨⟨10000000000000001, -11⟩, ⟨16, -1⟩, ⟨15700449445161491, -13⟩⟩, .none, [(4, -1), (5, 1), (11, 1), (12, -1)], 0, [(4, 1), (12, 1)], [(5, 1), (11, 1)], true⟩,
  ⟨⟨⟨6000000000000001, -5⟩, ⟨0, 0⟩, ⟨0, 0⟩⟩, .none, [(1, 1), (8, -1), (12, -1), (21, 1)], 0, [(8, 1), (12, 1)], [(1, 1), (21, 1)], true⟩,
  ⟨⟨⟨24600000000000005, -13⟩, ⟨2, 0⟩, ⟨41616255420347925, -13⟩⟩, .none, [(9, -1), (11, 2), (12, -1)], 0, [(9, 1), (12, 1)], [(11, 2)], true⟩,
  ⟨⟨⟨16000000000000002, -6⟩, ⟨0, 0⟩, ⟨-28683513409429645, -14⟩⟩, .none, [(10, -1), (11, 2), (12, -1)], 0, [(10, 1), (12, 1)], [(11, 2)], true⟩,
  ⟨⟨⟨10000000000000002, -5⟩, ⟨0, 0⟩, ⟨0, 0⟩⟩, .none, [(1, -1), (10, 1), (13, 1), (24, -1)], 0, [(1, 1), (24, 1)], [(10, 1), (13, 1)], true⟩,
  ⟨⟨⟨10000000000000002, -5⟩, ⟨0, 0⟩, ⟨0, 0⟩⟩, .none, [(1, 1), (2, -1), (13, 2), (24, -1)], 1, [(2, 1), (24, 1)], [(1, 1), (13, 2)], true⟩,
  ⟨⟨⟨16000000000000002, -7⟩, ⟨0, 0⟩, ⟨42974948160794594, -14⟩⟩, .none, [(3, -1), (4, 1), (13, 2), (24, -1)], 1, [(3, 1), (24, 1)], [(4, 1), (13, 2)], true⟩,
  ⟨⟨⟨5000000000000001, -5⟩, ⟨0, 0⟩, ⟨0, 0⟩⟩, .none, [(8, -1), (13, 1), (18, 1), (24, -1)], 0, [(8, 1), (24, 1)], [(13, 1), (18, 1)], true⟩,
  ⟨⟨⟨30000000000000004, -6⟩, ⟨0, 0⟩, ⟨0, 0⟩⟩, .none, [(9, -1), (13, 1), (20, 1), (24, -1)], 0, [(9, 1), (24, 1)], [(13, 1), (20, 1)], true⟩,
  ⟨⟨⟨10000000000000002, -6⟩, ⟨0, 0⟩, ⟨0, 0⟩⟩, .none, [(13, 2), (18, 1), (24, -2)], 1, [(24, 2)], [(13, 2), (18, 1)], true⟩,
  ⟨⟨⟨800000000000000, 0⟩, ⟨-52, -2⟩, ⟨25538391325062363, -12⟩⟩, .lind (.all [(0, ⟨2, 0⟩), (5, ⟨6, 0⟩), (12, ⟨2, 0⟩), (13, ⟨15, -1⟩), (14, ⟨2, 0⟩), (18, ⟨25, -1⟩), (21, ⟨25, -1⟩), (23, ⟨3, 0⟩)]) ⟨⟨24500000000000005, -4⟩, ⟨-64, -2⟩, ⟨25010010814888657, -12⟩⟩, [(18, -1), (19, 1)], 0, [(18, 1)], [(19, 1)], true⟩,
  ⟨⟨⟨386000000, 0⟩, ⟨162, -2⟩, ⟨18643387985359645, -12⟩⟩, .troe (.all [(0, ⟨2, 0⟩), (5, ⟨6, 0⟩), (12, ⟨2, 0⟩), (13, ⟨15, -1⟩), (14, ⟨2, 0⟩), (18, ⟨3, 0⟩), (21, ⟨3, 0⟩), (23, ⟨3, 0⟩)]) ⟨⟨2565, 21⟩, ⟨-34, -1⟩, ⟨18014615178252938, -12⟩⟩ ⟨19816, -4⟩ ⟨53837, -1⟩ ⟨42932, -4⟩ ⟨-795, -4⟩, [(1, 1), (18, 1), (20, -1)], 1, [(20, 1)], [(1, 1), (18, 1)], true⟩,
  ⟨⟨⟨16320000000000004, -12⟩, ⟨2, 0⟩, ⟨956117113647655, -12⟩⟩, .none, [(1, 1), (2, -1), (18, -1), (24, 1)], 0, [(2, 1), (18, 1)], [(1, 1), (24, 1)], true⟩,
  ⟨⟨⟨4080000000000001, -12⟩, ⟨2, 0⟩, ⟨956117113647655, -12⟩⟩, .none, [(2, -1), (9, 1), (13, 1), (18, -1)], 0, [(2, 1), (18, 1)], [(9, 1), (13, 1)], true⟩,
  ⟨⟨⟨21800000000000005, -23⟩, ⟨45, -1⟩, ⟨-5032195334987657, -13⟩⟩, .none, [(1, 1), (4, -1), (18, -1), (25, 1)], 0, [(4, 1), (18, 1)], [(1, 1), (25, 1)], true⟩,
  ⟨⟨⟨4830000000000001, -22⟩, ⟨4, 0⟩, ⟨-10064390669975314, -13⟩⟩, .none, [(4, -1), (11, 1), (13, 1), (18, -1)], 0, [(4, 1), (18, 1)], [(11, 1), (13, 1)], true⟩,
  ⟨⟨⟨10000000000000002, -12⟩, ⟨2, 0⟩, ⟨30193172009925943, -13⟩⟩, .none, [(13, 1), (15, -1), (18, -1), (20, 1)], 0, [(15, 1), (18, 1)], [(13, 1), (20, 1)], true⟩]

/-- reactions 120 to 139, within src/compute/chemistry/chem_C2H4_Air_Skeletal.cpp:169-2374 -/
def rx120 : List Rxn := [
  ⟨⟨⟨22000000000000006, 33⟩, ⟨-1182, -2⟩, ⟨179800339319109, -10⟩⟩, .three (.all []), [(11, -1), (18, -1), (28, 1)], -1, [(11, 1), (18, 1)], [(28, 1)], true⟩,
  ⟨⟨⟨10000000000000002, -5⟩, ⟨0, 0⟩, ⟨0, 0⟩⟩, .none, [(18, 1), (19, -1)], 0, [(1, 1), (19, 1)], [(1, 1), (18, 1)], true⟩,
  ⟨⟨⟨10000000000000002, -5⟩, ⟨0, 0⟩, ⟨0, 0⟩⟩, .none, [(2, -1), (9, 1), (13, 1), (19, -1)], 0, [(2, 1), (19, 1)], [(9, 1), (13, 1)], true⟩,
  ⟨⟨⟨20000000000000004, -6⟩, ⟨0, 0⟩, ⟨0, 0⟩⟩, .none, [(1, 1), (4, -1), (19, -1), (25, 1)], 0, [(4, 1), (19, 1)], [(1, 1), (25, 1)], true⟩,
  ⟨⟨⟨10000000000000002, -6⟩, ⟨0, 0⟩, ⟨0, 0⟩⟩, .none, [(3, -1), (9, 1), (14, 1), (19, -1)], 0, [(3, 1), (19, 1)], [(9, 1), (14, 1)], true⟩,
  ⟨⟨⟨33000000000000006, -5⟩, ⟨-6, -2⟩, ⟨4277366034739509, -12⟩⟩, .troe (.all [(0, ⟨2, 0⟩), (5, ⟨6, 0⟩), (12, ⟨2, 0⟩), (13, ⟨15, -1⟩), (14, ⟨2, 0⟩), (18, ⟨3, 0⟩), (21, ⟨3, 0⟩), (23, ⟨3, 0⟩)]) ⟨⟨38000000000000014, 19⟩, ⟨-764, -2⟩, ⟨5988312448635313, -12⟩⟩ ⟨337, -3⟩ ⟨1707, 0⟩ ⟨3200, 0⟩ ⟨4131, 0⟩, [(1, -1), (25, -1), (26, 1)], -1, [(1, 1), (25, 1)], [(26, 1)], true⟩,
  ⟨⟨⟨5000000000000001, -5⟩, ⟨0, 0⟩, ⟨40257562679901257, -13⟩⟩, .none, [(0, 1), (1, -1), (24, 1), (25, -1)], 0, [(1, 1), (25, 1)], [(0, 1), (24, 1)], true⟩,
  ⟨⟨⟨15000000000000002, -10⟩, ⟨143, -2⟩, ⟨13536605451116798, -13⟩⟩, .none, [(1, -1), (11, 1), (13, 1), (25, -1)], 0, [(1, 1), (25, 1)], [(11, 1), (13, 1)], true⟩,
  ⟨⟨⟨10000000000000002, -6⟩, ⟨0, 0⟩, ⟨40257562679901257, -13⟩⟩, .none, [(2, -1), (4, 1), (24, 1), (25, -1)], 0, [(2, 1), (25, 1)], [(4, 1), (24, 1)], true⟩,
  ⟨⟨⟨17500000000000002, -7⟩, ⟨0, 0⟩, ⟨6793463702233338, -13⟩⟩, .none, [(2, -1), (9, 1), (14, 1), (25, -1)], 0, [(2, 1), (25, 1)], [(9, 1), (14, 1)], true⟩,
  ⟨⟨⟨7500000000000001, -6⟩, ⟨0, 0⟩, ⟨10064390669975314, -13⟩⟩, .none, [(4, -1), (5, 1), (24, 1), (25, -1)], 0, [(4, 1), (25, 1)], [(5, 1), (24, 1)], true⟩,
  ⟨⟨⟨6080000000000001, -6⟩, ⟨27, -2⟩, ⟨1409014693796544, -13⟩⟩, .troe (.all [(0, ⟨2, 0⟩), (5, ⟨6, 0⟩), (12, ⟨2, 0⟩), (13, ⟨15, -1⟩), (14, ⟨2, 0⟩), (18, ⟨3, 0⟩), (21, ⟨3, 0⟩), (23, ⟨3, 0⟩)]) ⟨⟨14000000000000004, 8⟩, ⟨-386, -2⟩, ⟨16706888512159023, -13⟩⟩ ⟨782, -3⟩ ⟨20749999999999997, -14⟩ ⟨2663, 0⟩ ⟨6095, 0⟩, [(1, -1), (20, -1), (21, 1)], -1, [(1, 1), (20, 1)], [(21, 1)], true⟩,
  ⟨⟨⟨30000000000000004, -6⟩, ⟨0, 0⟩, ⟨0, 0⟩⟩, .none, [(0, 1), (1, -1), (18, 1), (20, -1)], 0, [(1, 1), (20, 1)], [(0, 1), (18, 1)], true⟩,
  ⟨⟨⟨6000000000000001, -5⟩, ⟨0, 0⟩, ⟨0, 0⟩⟩, .none, [(0, 1), (1, -1), (19, 1), (20, -1)], 0, [(1, 1), (20, 1)], [(0, 1), (19, 1)], true⟩,
  ⟨⟨⟨4800000000000001, -5⟩, ⟨0, 0⟩, ⟨0, 0⟩⟩, .none, [(1, 1), (2, -1), (20, -1), (25, 1)], 0, [(2, 1), (20, 1)], [(1, 1), (25, 1)], true⟩,
  ⟨⟨⟨4800000000000001, -5⟩, ⟨0, 0⟩, ⟨0, 0⟩⟩, .none, [(2, -1), (11, 1), (13, 1), (20, -1)], 0, [(2, 1), (20, 1)], [(11, 1), (13, 1)], true⟩,
  ⟨⟨⟨30110000000000004, -6⟩, ⟨0, 0⟩, ⟨0, 0⟩⟩, .none, [(4, -1), (5, 1), (18, 1), (20, -1)], 0, [(4, 1), (20, 1)], [(5, 1), (18, 1)], true⟩,
  ⟨⟨⟨13400000000000002, -13⟩, ⟨161, -2⟩, ⟨-19293436914342678, -14⟩⟩, .none, [(3, -1), (6, 1), (18, 1), (20, -1)], 0, [(3, 1), (20, 1)], [(6, 1), (18, 1)], true⟩,
  ⟨⟨⟨30000000000000006, -8⟩, ⟨29, -2⟩, ⟨55354148684864235, -16⟩⟩, .none, [(2, 1), (3, -1), (20, -1), (26, 1)], 0, [(3, 1), (20, 1)], [(2, 1), (26, 1)], true⟩,
  ⟨⟨⟨4600000000000001, -2⟩, ⟨-139, -2⟩, ⟨5082517288337534, -13⟩⟩, .none, [(3, -1), (15, 1), (16, 1), (20, -1)], 0, [(3, 1), (20, 1)], [(15, 1), (16, 1)], true⟩]

/-- reactions 140 to 159, within src/compute/chemistry/chem_C2H4_Air_Skeletal.cpp:169-2374 -/
def rx140 : List Rxn := [
  ⟨⟨⟨10000000000000002, -6⟩, ⟨0, 0⟩, ⟨0, 0⟩⟩, .none, [(4, 1), (6, -1), (20, -1), (26, 1)], 0, [(6, 1), (20, 1)], [(4, 1), (26, 1)], true⟩,
  ⟨⟨⟨12100000000000002, -9⟩, ⟨0, 0⟩, ⟨-2999188419652644, -13⟩⟩, .none, [(6, 1), (7, -1), (20, -1), (21, 1)], 0, [(7, 1), (20, 1)], [(6, 1), (21, 1)], true⟩,
  ⟨⟨⟨9033000000000002, -5⟩, ⟨0, 0⟩, ⟨0, 0⟩⟩, .none, [(13, 1), (15, -1), (20, -1), (21, 1)], 0, [(15, 1), (20, 1)], [(13, 1), (21, 1)], true⟩,
  ⟨⟨⟨39200000000000006, -8⟩, ⟨0, 0⟩, ⟨0, 0⟩⟩, .none, [(11, -1), (12, 1), (18, 1), (20, -1)], 0, [(11, 1), (20, 1)], [(12, 1), (18, 1)], true⟩,
  ⟨⟨⟨25000000000000004, -6⟩, ⟨0, 0⟩, ⟨0, 0⟩⟩, .troe (.all [(0, ⟨2, 0⟩), (5, ⟨6, 0⟩), (12, ⟨2, 0⟩), (13, ⟨15, -1⟩), (14, ⟨2, 0⟩), (18, ⟨3, 0⟩), (21, ⟨3, 0⟩), (23, ⟨3, 0⟩)]) ⟨⟨42700000000000004, 36⟩, ⟨-1194, -2⟩, ⟨4916354198376241, -12⟩⟩ ⟨175, -3⟩ ⟨13406, -1⟩ ⟨60000, 0⟩ ⟨101398, -1⟩, [(11, -1), (20, -1), (29, 1)], -1, [(11, 1), (20, 1)], [(29, 1)], true⟩,
  ⟨⟨⟨15000000000000003, 5⟩, ⟨-283, -2⟩, ⟨936894127468002, -11⟩⟩, .none, [(1, 1), (11, -1), (20, -1), (28, 1)], 0, [(11, 1), (20, 1)], [(1, 1), (28, 1)], true⟩,
  ⟨⟨⟨78, 40⟩, ⟨-9147, -3⟩, ⟨23600996121092114, -12⟩⟩, .none, [(11, 1), (13, 1), (26, -1)], 1, [(26, 1)], [(11, 1), (13, 1)], true⟩,
  ⟨⟨⟨10000000000000002, -5⟩, ⟨0, 0⟩, ⟨0, 0⟩⟩, .troe (.all [(0, ⟨2, 0⟩), (5, ⟨6, 0⟩), (12, ⟨2, 0⟩), (13, ⟨15, -1⟩), (14, ⟨2, 0⟩), (18, ⟨3, 0⟩), (21, ⟨3, 0⟩), (23, ⟨3, 0⟩)]) ⟨⟨5200000000000002, 18⟩, ⟨-7297, -3⟩, ⟨2365131807444199, -12⟩⟩ ⟨55, -2⟩ ⟨8900, 0⟩ ⟨4350, 0⟩ ⟨7244, 0⟩, [(1, -1), (26, -1), (27, 1)], -1, [(1, 1), (26, 1)], [(27, 1)], true⟩,
  ⟨⟨⟨9000000000000002, -5⟩, ⟨0, 0⟩, ⟨0, 0⟩⟩, .none, [(1, -1), (11, 1), (15, 1), (26, -1)], 0, [(1, 1), (26, 1)], [(11, 1), (15, 1)], true⟩,
  ⟨⟨⟨20000000000000004, -6⟩, ⟨0, 0⟩, ⟨20128781339950629, -13⟩⟩, .none, [(0, 1), (1, -1), (25, 1), (26, -1)], 0, [(1, 1), (26, 1)], [(0, 1), (25, 1)], true⟩,
  ⟨⟨⟨20000000000000004, -6⟩, ⟨0, 0⟩, ⟨20128781339950629, -13⟩⟩, .none, [(2, -1), (4, 1), (25, 1), (26, -1)], 0, [(2, 1), (26, 1)], [(4, 1), (25, 1)], true⟩,
  ⟨⟨⟨10000000000000002, -6⟩, ⟨0, 0⟩, ⟨10064390669975314, -13⟩⟩, .none, [(4, -1), (5, 1), (25, 1), (26, -1)], 0, [(4, 1), (26, 1)], [(5, 1), (25, 1)], true⟩,
  ⟨⟨⟨14000000000000003, -8⟩, ⟨0, 0⟩, ⟨0, 0⟩⟩, .none, [(3, -1), (6, 1), (25, 1), (26, -1)], 0, [(3, 1), (26, 1)], [(6, 1), (25, 1)], true⟩,
  ⟨⟨⟨18000000000000004, -9⟩, ⟨0, 0⟩, ⟨0, 0⟩⟩, .none, [(3, -1), (4, 1), (13, 1), (16, 1), (26, -1)], 1, [(3, 1), (26, 1)], [(4, 1), (13, 1), (16, 1)], true⟩,
  ⟨⟨⟨8000000000000, 0⟩, ⟨44, -2⟩, ⟨4467079798868544, -11⟩⟩, .troe (.all [(0, ⟨2, 0⟩), (5, ⟨6, 0⟩), (12, ⟨2, 0⟩), (13, ⟨15, -1⟩), (14, ⟨2, 0⟩), (18, ⟨3, 0⟩), (21, ⟨3, 0⟩), (23, ⟨3, 0⟩)]) ⟨⟨7000000000000001, 32⟩, ⟨-931, -2⟩, ⟨5025150261518675, -11⟩⟩ ⟨7345, -4⟩ ⟨180, 0⟩ ⟨1035, 0⟩ ⟨5417, 0⟩, [(0, 1), (19, 1), (21, -1)], 1, [(21, 1)], [(0, 1), (19, 1)], true⟩,
  ⟨⟨⟨10800000000000002, -7⟩, ⟨454, -3⟩, ⟨9158595509677536, -13⟩⟩, .troe (.all [(0, ⟨2, 0⟩), (5, ⟨6, 0⟩), (12, ⟨2, 0⟩), (13, ⟨15, -1⟩), (14, ⟨2, 0⟩), (18, ⟨3, 0⟩), (21, ⟨3, 0⟩), (23, ⟨3, 0⟩)]) ⟨⟨12000000000000001, 20⟩, ⟨-762, -2⟩, ⟨3507440148486397, -12⟩⟩ ⟨9753, -4⟩ ⟨20999999999999997, -14⟩ ⟨9839999999999999, -13⟩ ⟨4374, 0⟩, [(1, -1), (21, -1), (22, 1)], -1, [(1, 1), (21, 1)], [(22, 1)], true⟩,
  ⟨⟨⟨5070000000000001, -11⟩, ⟨193, -2⟩, ⟨6516692958809016, -12⟩⟩, .none, [(0, 1), (1, -1), (20, 1), (21, -1)], 0, [(1, 1), (21, 1)], [(0, 1), (20, 1)], true⟩,
  ⟨⟨⟨15100000000000004, -12⟩, ⟨191, -2⟩, ⟨1882041055285384, -12⟩⟩, .none, [(2, -1), (4, 1), (20, 1), (21, -1)], 0, [(2, 1), (21, 1)], [(4, 1), (20, 1)], true⟩,
  ⟨⟨⟨19200000000000004, -12⟩, ⟨183, -2⟩, ⟨11070829736972846, -14⟩⟩, .none, [(2, -1), (11, 1), (15, 1), (21, -1)], 0, [(2, 1), (21, 1)], [(11, 1), (15, 1)], true⟩,
  ⟨⟨⟨38400000000000006, -14⟩, ⟨183, -2⟩, ⟨11070829736972846, -14⟩⟩, .none, [(2, -1), (9, 1), (16, 1), (21, -1)], 0, [(2, 1), (21, 1)], [(9, 1), (16, 1)], true⟩]

/-- reactions 160 to 179, within src/compute/chemistry/chem_C2H4_Air_Skeletal.cpp:169-2374 -/
def rx160 : List Rxn := [
  ⟨⟨⟨36000000000000005, -13⟩, ⟨2, 0⟩, ⟨12580488337469144, -13⟩⟩, .none, [(4, -1), (5, 1), (20, 1), (21, -1)], 0, [(4, 1), (21, 1)], [(5, 1), (20, 1)], true⟩,
  ⟨⟨⟨4220000000000001, -5⟩, ⟨0, 0⟩, ⟨3059574763672496, -11⟩⟩, .none, [(3, -1), (6, 1), (20, 1), (21, -1)], 0, [(3, 1), (21, 1)], [(6, 1), (20, 1)], true⟩,
  ⟨⟨⟨20000000000000002, -7⟩, ⟨0, 0⟩, ⟨704507346898272, -11⟩⟩, .none, [(4, 1), (6, -1), (21, -1), (27, 1)], 0, [(6, 1), (21, 1)], [(4, 1), (27, 1)], true⟩,
  ⟨⟨⟨10000000000000002, -12⟩, ⟨2, 0⟩, ⟨40257562679901257, -13⟩⟩, .none, [(13, 1), (15, -1), (21, -1), (22, 1)], 0, [(15, 1), (21, 1)], [(13, 1), (22, 1)], true⟩,
  ⟨⟨⟨20000000000000004, -6⟩, ⟨0, 0⟩, ⟨30193172009925943, -13⟩⟩, .none, [(1, 1), (9, -1), (21, -1), (28, 1)], 0, [(9, 1), (21, 1)], [(1, 1), (28, 1)], true⟩,
  ⟨⟨⟨5000000000000001, -5⟩, ⟨0, 0⟩, ⟨0, 0⟩⟩, .none, [(10, -1), (12, 1), (19, 1), (21, -1)], 0, [(10, 1), (21, 1)], [(12, 1), (19, 1)], true⟩,
  ⟨⟨⟨5000000000000001, -5⟩, ⟨0, 0⟩, ⟨0, 0⟩⟩, .none, [(1, 1), (10, -1), (21, -1), (28, 1)], 0, [(10, 1), (21, 1)], [(1, 1), (28, 1)], true⟩,
  ⟨⟨⟨22700000000000003, -14⟩, ⟨2, 0⟩, ⟨4629619708188645, -12⟩⟩, .none, [(11, -1), (12, 1), (20, 1), (21, -1)], 0, [(11, 1), (21, 1)], [(12, 1), (20, 1)], true⟩,
  ⟨⟨⟨33000000000000006, -8⟩, ⟨0, 0⟩, ⟨3874790407940496, -12⟩⟩, .none, [(11, -1), (21, -1), (30, 1)], -1, [(11, 1), (21, 1)], [(30, 1)], true⟩,
  ⟨⟨⟨52100000000000006, -2⟩, ⟨-99, -2⟩, ⟨7950868629280499, -13⟩⟩, .troe (.all [(0, ⟨2, 0⟩), (5, ⟨6, 0⟩), (12, ⟨2, 0⟩), (13, ⟨15, -1⟩), (14, ⟨2, 0⟩), (18, ⟨3, 0⟩), (21, ⟨3, 0⟩), (23, ⟨3, 0⟩)]) ⟨⟨19900000000000005, 19⟩, ⟨-708, -2⟩, ⟨3364022581439249, -12⟩⟩ ⟨8422, -4⟩ ⟨125, 0⟩ ⟨2219, 0⟩ ⟨6882, 0⟩, [(1, -1), (22, -1), (23, 1)], -1, [(1, 1), (22, 1)], [(23, 1)], true⟩,
  ⟨⟨⟨20000000000000002, -7⟩, ⟨0, 0⟩, ⟨0, 0⟩⟩, .none, [(0, 1), (1, -1), (21, 1), (22, -1)], 0, [(1, 1), (22, 1)], [(0, 1), (21, 1)], true⟩,
  ⟨⟨⟨16040000000000002, -6⟩, ⟨0, 0⟩, ⟨0, 0⟩⟩, .none, [(2, -1), (11, 1), (16, 1), (22, -1)], 0, [(2, 1), (22, 1)], [(11, 1), (16, 1)], true⟩,
  ⟨⟨⟨8020000000000002, -5⟩, ⟨0, 0⟩, ⟨0, 0⟩⟩, .none, [(1, 1), (2, -1), (22, -1), (27, 1)], 0, [(2, 1), (22, 1)], [(1, 1), (27, 1)], true⟩,
  ⟨⟨⟨20000000000000004, -9⟩, ⟨0, 0⟩, ⟨0, 0⟩⟩, .none, [(3, -1), (6, 1), (21, 1), (22, -1)], 0, [(3, 1), (22, 1)], [(6, 1), (21, 1)], true⟩,
  ⟨⟨⟨30000000000000006, -8⟩, ⟨0, 0⟩, ⟨0, 0⟩⟩, .none, [(3, 1), (6, -1), (22, -1), (23, 1)], 0, [(6, 1), (22, 1)], [(3, 1), (23, 1)], true⟩,
  ⟨⟨⟨30000000000000006, -8⟩, ⟨0, 0⟩, ⟨0, 0⟩⟩, .none, [(6, -1), (7, 1), (21, 1), (22, -1)], 0, [(6, 1), (22, 1)], [(7, 1), (21, 1)], true⟩,
  ⟨⟨⟨24000000000000004, -6⟩, ⟨0, 0⟩, ⟨0, 0⟩⟩, .none, [(4, 1), (6, -1), (11, 1), (16, 1), (22, -1)], 1, [(6, 1), (22, 1)], [(4, 1), (11, 1), (16, 1)], true⟩,
  ⟨⟨⟨8700000000000002, -9⟩, ⟨0, 0⟩, ⟨49013582562779783, -14⟩⟩, .none, [(6, 1), (7, -1), (22, -1), (23, 1)], 0, [(7, 1), (22, 1)], [(6, 1), (23, 1)], true⟩,
  ⟨⟨⟨12000000000000002, -5⟩, ⟨0, 0⟩, ⟨0, 0⟩⟩, .none, [(13, 1), (15, -1), (22, -1), (23, 1)], 0, [(15, 1), (22, 1)], [(13, 1), (23, 1)], true⟩,
  ⟨⟨⟨11500000000000001, -11⟩, ⟨19, -1⟩, ⟨3789243087245706, -12⟩⟩, .none, [(0, 1), (1, -1), (22, 1), (23, -1)], 0, [(1, 1), (23, 1)], [(0, 1), (22, 1)], true⟩]

/-- reactions 180 to 199, within src/compute/chemistry/chem_C2H4_Air_Skeletal.cpp:169-2374 -/
def rx180 : List Rxn := [
  ⟨⟨⟨8980000000000001, -11⟩, ⟨192, -2⟩, ⟨2863319145607977, -12⟩⟩, .none, [(2, -1), (4, 1), (22, 1), (23, -1)], 0, [(2, 1), (23, 1)], [(4, 1), (22, 1)], true⟩,
  ⟨⟨⟨35400000000000005, -13⟩, ⟨212, -2⟩, ⟨4378009941439262, -13⟩⟩, .none, [(4, -1), (5, 1), (22, 1), (23, -1)], 0, [(4, 1), (23, 1)], [(5, 1), (22, 1)], true⟩,
  ⟨⟨⟨4000000000000001, -5⟩, ⟨0, 0⟩, ⟨-27677074342432115, -14⟩⟩, .none, [(10, -1), (11, 1), (22, 1), (23, -1)], 0, [(10, 1), (23, 1)], [(11, 1), (22, 1)], true⟩,
  ⟨⟨⟨6140000000000002, -12⟩, ⟨174, -2⟩, ⟨5258644125062102, -12⟩⟩, .none, [(11, -1), (12, 1), (22, 1), (23, -1)], 0, [(11, 1), (23, 1)], [(12, 1), (22, 1)], true⟩,
  ⟨⟨⟨20000000000000003, -5⟩, ⟨0, 0⟩, ⟨0, 0⟩⟩, .troe (.all [(0, ⟨2, 0⟩), (5, ⟨6, 0⟩), (12, ⟨2, 0⟩), (13, ⟨15, -1⟩), (14, ⟨2, 0⟩), (18, ⟨3, 0⟩), (21, ⟨3, 0⟩), (23, ⟨3, 0⟩)]) ⟨⟨13300000000000002, 38⟩, ⟨-12, 0⟩, ⟨3003113532013934, -12⟩⟩ ⟨2, -2⟩ ⟨10966, -1⟩ ⟨10966, -1⟩ ⟨68595, -1⟩, [(1, -1), (28, -1), (29, 1)], -1, [(1, 1), (28, 1)], [(29, 1)], true⟩,
  ⟨⟨⟨20000000000000004, -6⟩, ⟨0, 0⟩, ⟨10064390669975314, -13⟩⟩, .none, [(1, -1), (12, 1), (19, 1), (28, -1)], 0, [(1, 1), (28, 1)], [(12, 1), (19, 1)], true⟩,
  ⟨⟨⟨26600000000000005, -7⟩, ⟨0, 0⟩, ⟨0, 0⟩⟩, .none, [(3, 1), (6, -1), (28, -1), (29, 1)], 0, [(6, 1), (28, 1)], [(3, 1), (29, 1)], true⟩,
  ⟨⟨⟨6600000000000001, -6⟩, ⟨0, 0⟩, ⟨0, 0⟩⟩, .none, [(4, 1), (6, -1), (16, 1), (20, 1), (28, -1)], 1, [(6, 1), (28, 1)], [(4, 1), (16, 1), (20, 1)], true⟩,
  ⟨⟨⟨6000000000000001, -5⟩, ⟨0, 0⟩, ⟨0, 0⟩⟩, .none, [(13, 1), (15, -1), (28, -1), (29, 1)], 0, [(15, 1), (28, 1)], [(13, 1), (29, 1)], true⟩,
  ⟨⟨⟨13300000000000002, -6⟩, ⟨0, 0⟩, ⟨16408479328794253, -13⟩⟩, .troe (.all [(0, ⟨2, 0⟩), (5, ⟨6, 0⟩), (12, ⟨2, 0⟩), (13, ⟨15, -1⟩), (14, ⟨2, 0⟩), (23, ⟨3, 0⟩)]) ⟨⟨6260000000000001, 17⟩, ⟨-666, -2⟩, ⟨352253673449136, -11⟩⟩ ⟨1, 0⟩ ⟨1000, 0⟩ ⟨1310, 0⟩ ⟨48097, 0⟩, [(1, -1), (29, -1), (30, 1)], -1, [(1, 1), (29, 1)], [(30, 1)], true⟩,
  ⟨⟨⟨16000000000000002, 3⟩, ⟨-239, -2⟩, ⟨5625994384516201, -12⟩⟩, .none, [(1, -1), (11, 1), (21, 1), (29, -1)], 0, [(1, 1), (29, 1)], [(11, 1), (21, 1)], true⟩,
  ⟨⟨⟨17000000000000003, -14⟩, ⟨25, -1⟩, ⟨12530166384119266, -13⟩⟩, .none, [(0, 1), (1, -1), (28, 1), (29, -1)], 0, [(1, 1), (29, 1)], [(0, 1), (28, 1)], true⟩,
  ⟨⟨⟨12000000000000001, -11⟩, ⟨165, -2⟩, ⟨1645527874540964, -13⟩⟩, .none, [(1, 1), (2, -1), (11, 1), (25, 1), (29, -1)], 1, [(2, 1), (29, 1)], [(1, 1), (11, 1), (25, 1)], true⟩,
  ⟨⟨⟨3500000000000001, -11⟩, ⟨165, -2⟩, ⟨-4891293865608003, -13⟩⟩, .none, [(2, -1), (15, 1), (22, 1), (29, -1)], 0, [(2, 1), (29, 1)], [(15, 1), (22, 1)], true⟩,
  ⟨⟨⟨18000000000000003, -8⟩, ⟨7, -1⟩, ⟨29589308569727427, -13⟩⟩, .none, [(2, -1), (4, 1), (28, 1), (29, -1)], 0, [(2, 1), (29, 1)], [(4, 1), (28, 1)], true⟩,
  ⟨⟨⟨31000000000000005, -13⟩, ⟨2, 0⟩, ⟨-1499594209826322, -13⟩⟩, .none, [(4, -1), (5, 1), (28, 1), (29, -1)], 0, [(4, 1), (29, 1)], [(5, 1), (28, 1)], true⟩,
  ⟨⟨⟨9600000000000001, -15⟩, ⟨26, -1⟩, ⟨6999783710967831, -12⟩⟩, .none, [(6, -1), (7, 1), (28, 1), (29, -1)], 0, [(6, 1), (29, 1)], [(7, 1), (28, 1)], true⟩,
  ⟨⟨⟨22000000000000006, -19⟩, ⟨35, -1⟩, ⟨28557708526054957, -13⟩⟩, .none, [(11, -1), (12, 1), (28, 1), (29, -1)], 0, [(11, 1), (29, 1)], [(12, 1), (28, 1)], true⟩,
  ⟨⟨⟨37000000000000005, 5⟩, ⟨-292, -2⟩, ⟨6292760266402065, -12⟩⟩, .none, [(1, -1), (11, 1), (22, 1), (30, -1)], 0, [(1, 1), (30, 1)], [(11, 1), (22, 1)], true⟩,
  ⟨⟨⟨18000000000000002, -7⟩, ⟨0, 0⟩, ⟨0, 0⟩⟩, .none, [(0, 1), (1, -1), (29, 1), (30, -1)], 0, [(1, 1), (30, 1)], [(0, 1), (29, 1)], true⟩]

/-- reactions 200 to 205, within src/compute/chemistry/chem_C2H4_Air_Skeletal.cpp:169-2374 -/
def rx200 : List Rxn := [
  ⟨⟨⟨9600000000000002, -5⟩, ⟨0, 0⟩, ⟨0, 0⟩⟩, .none, [(2, -1), (16, 1), (22, 1), (30, -1)], 0, [(2, 1), (30, 1)], [(16, 1), (22, 1)], true⟩,
  ⟨⟨⟨24000000000000004, -6⟩, ⟨0, 0⟩, ⟨0, 0⟩⟩, .none, [(4, -1), (5, 1), (29, 1), (30, -1)], 0, [(4, 1), (30, 1)], [(5, 1), (29, 1)], true⟩,
  ⟨⟨⟨9000000000000001, -8⟩, ⟨0, 0⟩, ⟨0, 0⟩⟩, .none, [(3, -1), (6, 1), (29, 1), (30, -1)], 0, [(3, 1), (30, 1)], [(6, 1), (29, 1)], true⟩,
  ⟨⟨⟨24000000000000004, -6⟩, ⟨0, 0⟩, ⟨0, 0⟩⟩, .none, [(4, 1), (6, -1), (16, 1), (22, 1), (30, -1)], 1, [(6, 1), (30, 1)], [(4, 1), (16, 1), (22, 1)], true⟩,
  ⟨⟨⟨11000000000000002, -6⟩, ⟨0, 0⟩, ⟨0, 0⟩⟩, .none, [(11, -1), (12, 1), (29, 1), (30, -1)], 0, [(11, 1), (30, 1)], [(12, 1), (29, 1)], true⟩,
  ⟨⟨⟨39000000000000004, 13⟩, ⟨-522, -2⟩, ⟨9937076128000126, -12⟩⟩, .none, [(11, 1), (20, -1), (22, -1), (28, 1)], 0, [(20, 1), (22, 1)], [(11, 1), (28, 1)], true⟩]

/-- source terms of species 0 to 19, within src/compute/chemistry/chem_C2H4_Air_Skeletal.cpp:2379-2535 -/
def src0 : List (List (ℕ × ℤ)) := [
  [(1, -1), (2, -1), (4, 1), (5, 1), (6, 1), (7, 1), (17, 1), (23, 1), (30, -1), (35, -1), (41, 1), (48, -1), (57, 1), (59, 1), (60, 1), (63, -1), (71, 1), (95, 1), (101, 1), (126, 1), (132, 1), (133, 1), (149, 1), (154, 1), (156, 1), (170, 1), (179, 1), (191, 1), (199, 1)],
  [(0, -1), (1, 1), (2, 1), (4, -2), (5, -2), (6, -2), (7, -2), (8, -1), (9, -1), (11, -1), (12, -1), (13, -1), (14, -1), (16, -1), (17, -1), (18, -1), (23, -1), (24, -1), (29, 1), (33, 1), (34, 1), (35, 1), (36, 1), (40, -1), (41, -1), (43, 1), (45, 1), (47, -1), (48, 1), (49, 1), (51, 2), (52, 1), (56, 1), (59, -1), (61, 1), (62, 1), (63, 1), (64, 1), (70, -1), (71, -1), (76, 1), (77, -1), (78, 1), (86, 1), (90, 1), (91, 1), (93, 1), (95, -1), (96, -1), (97, -1), (101, -1), (104, 1), (107, -1), (108, 1), (114, 1), (115, 1), (117, 1), (123, 1), (125, -1), (126, -1), (127, -1), (131, -1), (132, -1), (133, -1), (134, 1), (145, 1), (147, -1), (148, -1), (149, -1), (155, -1), (156, -1), (164, 1), (166, 1), (169, -1), (170, -1), (172, 1), (179, -1), (184, -1), (185, -1), (189, -1), (190, -1), (191, -1), (192, 1), (198, -1), (199, -1)],
  [(0, 1), (1, -1), (3, 1), (9, -1), (10, -2), (16, 1), (19, -1), (25, -1), (28, -1), (31, 1), (33, -1), (37, 1), (42, -1), (43, -1), (49, -1), (60, -1), (61, -1), (72, -1), (78, -1), (81, 1), (98, -1), (102, -1), (108, -1), (115, -1), (116, -1), (122, -1), (128, -1), (129, -1), (134, -1), (135, -1), (138, 1), (150, -1), (157, -1), (158, -1), (159, -1), (171, -1), (172, -1), (180, -1), (192, -1), (193, -1), (194, -1), (200, -1)],
  [(0, -1), (10, 1), (11, -1), (12, -1), (13, -1), (14, -1), (17, 1), (19, 1), (20, 1), (21, 1), (22, 1), (31, -1), (37, -1), (46, -1), (50, -1), (51, -1), (64, -1), (65, -1), (74, -1), (81, -1), (82, -1), (83, 1), (100, -1), (109, -1), (124, -1), (137, -1), (138, -1), (139, -1), (152, -1), (153, -1), (161, -1), (173, -1), (174, 1), (186, 1), (202, -1)],
  [(0, 1), (1, 1), (2, -1), (3, -2), (8, -1), (9, 1), (15, -2), (18, 2), (19, 1), (20, -1), (24, 1), (25, 1), (26, -1), (27, -1), (29, -1), (32, 1), (34, -1), (42, 1), (44, -1), (50, 1), (52, -1), (53, -1), (54, 1), (62, -1), (64, 1), (72, 1), (73, -1), (79, -1), (80, -1), (82, 1), (84, 1), (96, 1), (98, 1), (99, -1), (102, 1), (103, -1), (109, 1), (117, -1), (118, -1), (123, -1), (128, 1), (130, -1), (136, -1), (140, 1), (150, 1), (151, -1), (153, 1), (157, 1), (160, -1), (162, 1), (176, 1), (180, 1), (181, -1), (187, 1), (194, 1), (195, -1), (201, -1), (203, 1)],
  [(2, 1), (3, 1), (8, 1), (16, 1), (20, 1), (24, 1), (26, 1), (27, 1), (36, -1), (44, 1), (53, 1), (65, 1), (73, 1), (79, 1), (80, 1), (97, 1), (99, 1), (103, 1), (130, 1), (136, 1), (151, 1), (160, 1), (181, 1), (195, 1), (201, 1)],
  [(11, 1), (12, 1), (13, 1), (14, 1), (16, -1), (17, -1), (18, -1), (19, -1), (20, -1), (21, -2), (22, -2), (23, 1), (25, 1), (26, 1), (27, 1), (32, -1), (46, 1), (54, -1), (74, 1), (75, -1), (83, -1), (84, -1), (85, 1), (100, 1), (137, 1), (140, -1), (141, 1), (152, 1), (161, 1), (162, -1), (173, 1), (174, -1), (175, -1), (176, -1), (177, 1), (186, -1), (187, -1), (196, -1), (202, 1), (203, -1)],
  [(15, 1), (21, 1), (22, 1), (23, -1), (24, -1), (25, -1), (26, -1), (27, -1), (75, 1), (85, -1), (141, -1), (175, 1), (177, -1), (196, 1)],
  [(33, -1), (34, -1), (35, -1), (36, -1), (37, -1), (38, -1), (39, -1), (53, 1), (56, -1), (59, 1), (76, -1), (86, -1), (104, -1), (110, -1)],
  [(35, 1), (47, -1), (48, -1), (49, -1), (50, -1), (51, -1), (52, -1), (53, -1), (54, -1), (55, -1), (56, -1), (57, -2), (58, 1), (66, 1), (67, 1), (68, 1), (79, 1), (90, -1), (105, -1), (111, -1), (116, 1), (122, 1), (124, 1), (129, 1), (159, 1), (164, -1)],
  [(58, -1), (59, -1), (60, -1), (61, -1), (62, -1), (63, -1), (64, -1), (65, -1), (66, -1), (67, -1), (68, -1), (69, -1), (80, 1), (91, -1), (97, 1), (106, -1), (107, 1), (165, -1), (166, -1), (182, -1)],
  [(47, 1), (48, 1), (63, 1), (77, -1), (78, -1), (79, -1), (80, -1), (81, -1), (82, -1), (83, -1), (84, -1), (85, -1), (86, -1), (87, -1), (88, -1), (89, -1), (90, -1), (91, -1), (92, -2), (93, -2), (94, -1), (96, 1), (101, 1), (102, 1), (103, 1), (105, 2), (106, 2), (118, 1), (120, -1), (127, 1), (135, 1), (143, -1), (144, -1), (145, -1), (146, 1), (148, 1), (158, 1), (167, -1), (168, -1), (171, 1), (176, 1), (182, 1), (183, -1), (190, 1), (192, 1), (197, -1), (198, 1), (204, -1), (205, 1)],
  [(77, 1), (83, 1), (85, 1), (87, 1), (89, 1), (101, -1), (102, -1), (103, -1), (104, -1), (105, -1), (106, -1), (143, 1), (165, 1), (167, 1), (183, 1), (185, 1), (197, 1), (204, 1)],
  [(28, -1), (29, -1), (30, -1), (31, -1), (32, -1), (33, 1), (38, -1), (39, 1), (41, 1), (42, 1), (44, 1), (45, 1), (46, 1), (55, -1), (60, 1), (64, 1), (65, 1), (69, 1), (87, 1), (94, 1), (107, 1), (108, 2), (109, 2), (110, 1), (111, 1), (112, 2), (116, 1), (118, 1), (119, 1), (122, 1), (127, 1), (135, 1), (142, 1), (146, 1), (153, 1), (163, 1), (178, 1), (188, 1)],
  [(28, 1), (29, 1), (31, 1), (32, 1), (39, -1), (43, 1), (51, 1), (69, -1), (124, 1), (129, 1)],
  [(34, 1), (37, 1), (39, 1), (40, -1), (41, -1), (42, -1), (43, -1), (44, -1), (45, -1), (46, -1), (49, 1), (50, 1), (61, 1), (71, 1), (72, 1), (73, 1), (74, 1), (75, 1), (87, -1), (88, -1), (89, 1), (119, -1), (139, 1), (142, -1), (148, 1), (158, 1), (163, -1), (178, -1), (188, -1), (193, 1)],
  [(30, 1), (36, 1), (40, 1), (52, 1), (54, 1), (62, 1), (69, 1), (70, -1), (71, -1), (72, -1), (73, -1), (74, -1), (75, -1), (76, -1), (78, 1), (82, 1), (89, -1), (95, 1), (98, 1), (99, 1), (100, 1), (139, 1), (153, 1), (159, 1), (171, 1), (176, 1), (187, 1), (200, 1), (203, 1)],
  [(70, 1), (81, 1), (84, 1), (95, -1), (96, -1), (97, -1), (98, -1), (99, -1), (100, -1)],
  [(56, 1), (57, 1), (110, 1), (112, 1), (113, -1), (114, 1), (115, -1), (116, -1), (117, -1), (118, -1), (119, -1), (120, -1), (121, 1), (132, 1), (136, 1), (137, 1), (143, 1)],
  [(113, 1), (121, -1), (122, -1), (123, -1), (124, -1), (133, 1), (154, 1), (165, 1), (185, 1)]]

/-- source terms of species 20 to 31, within src/compute/chemistry/chem_C2H4_Air_Skeletal.cpp:2379-2535 -/
def src20 : List (List (ℕ × ℤ)) := [
  [(86, 1), (111, 1), (114, -1), (119, 1), (131, -1), (132, -1), (133, -1), (134, -1), (135, -1), (136, -1), (137, -1), (138, -1), (139, -1), (140, -1), (141, -1), (142, -1), (143, -1), (144, -1), (145, -1), (156, 1), (157, 1), (160, 1), (161, 1), (167, 1), (187, 1), (205, -1)],
  [(90, 1), (91, 1), (94, 1), (104, 1), (131, 1), (141, 1), (142, 1), (154, -1), (155, -1), (156, -1), (157, -1), (158, -1), (159, -1), (160, -1), (161, -1), (162, -1), (163, -1), (164, -1), (165, -1), (166, -1), (167, -1), (168, -1), (170, 1), (173, 1), (175, 1), (190, 1)],
  [(93, 1), (155, 1), (163, 1), (169, -1), (170, -1), (171, -1), (172, -1), (173, -1), (174, -1), (175, -1), (176, -1), (177, -1), (178, -1), (179, 1), (180, 1), (181, 1), (182, 1), (183, 1), (193, 1), (198, 1), (200, 1), (203, 1), (205, -1)],
  [(92, 1), (169, 1), (174, 1), (177, 1), (178, 1), (179, -1), (180, -1), (181, -1), (182, -1), (183, -1)],
  [(38, 1), (94, -1), (107, -1), (108, -1), (109, -1), (110, -1), (111, -1), (112, -2), (115, 1), (126, 1), (128, 1), (130, 1)],
  [(55, 1), (76, 1), (117, 1), (123, 1), (125, -1), (126, -1), (127, -1), (128, -1), (129, -1), (130, -1), (134, 1), (149, 1), (150, 1), (151, 1), (152, 1), (192, 1)],
  [(125, 1), (138, 1), (140, 1), (146, -1), (147, -1), (148, -1), (149, -1), (150, -1), (151, -1), (152, -1), (153, -1)],
  [(88, 1), (147, 1), (162, 1), (172, 1)],
  [(120, 1), (145, 1), (164, 1), (166, 1), (184, -1), (185, -1), (186, -1), (187, -1), (188, -1), (191, 1), (194, 1), (195, 1), (196, 1), (197, 1), (205, 1)],
  [(144, 1), (184, 1), (186, 1), (188, 1), (189, -1), (190, -1), (191, -1), (192, -1), (193, -1), (194, -1), (195, -1), (196, -1), (197, -1), (199, 1), (201, 1), (202, 1), (204, 1)],
  [(168, 1), (189, 1), (198, -1), (199, -1), (200, -1), (201, -1), (202, -1), (203, -1), (204, -1)],
  []]

/-- the mechanism of src/compute/chemistry/chem_C2H4_Air_Skeletal.cpp -/
def mech : Mech := ⟨32, rx0 ++ rx20 ++ rx40 ++ rx60 ++ rx80 ++ rx100 ++ rx120 ++ rx140 ++ rx160 ++ rx180 ++ rx200, src0 ++ src20⟩

end PG.Chem.Skeletal
