import Verif.Chem.Model
/-!
Generated from `src/compute/chemistry/chem_GRI30.cpp` by `tools/genchem.py`: do not edit. 53 species, 325 reactions.
-/
namespace PG.Chem.GRI30
open PG.Chem

/-- names of the species, from the head of the file -/
def names : List String := ["H2", "H", "O", "O2", "OH", "H2O", "HO2", "H2O2", "C", "CH", "CH2", "CH2(S)", "CH3", "CH4", "CO", "CO2", "HCO", "CH2O", "CH2OH", "CH3O", "CH3OH", "C2H", "C2H2", "C2H3", "C2H4", "C2H5", "C2H6", "HCCO", "CH2CO", "HCCOH", "N", "NH", "NH2", "NH3", "NNH", "NO", "NO2", "N2O", "HNO", "CN", "HCN", "H2CN", "HCNN", "HCNO", "HOCN", "HNCO", "NCO", "N2", "AR", "C3H7", "C3H8", "CH2CHO", "CH3CHO"]

/-- reactions 0 to 19, within src/compute/chemistry/chem_GRI30.cpp:186-3715 -/
def rx0 : List Rxn := [
  ⟨⟨⟨12000000000000002, -5⟩, ⟨-1, 0⟩, ⟨0, 0⟩⟩, .three (.all [(0, ⟨24, -1⟩), (5, ⟨154, -1⟩), (13, ⟨2, 0⟩), (14, ⟨175, -2⟩), (15, ⟨36, -1⟩), (26, ⟨3, 0⟩), (48, ⟨83, -2⟩)]), [(2, -2), (3, 1)], -1, [(2, 2)], [(3, 1)], true⟩,
  ⟨⟨⟨5000000000000001, -4⟩, ⟨-1, 0⟩, ⟨0, 0⟩⟩, .three (.all [(0, ⟨2, 0⟩), (5, ⟨6, 0⟩), (13, ⟨2, 0⟩), (14, ⟨15, -1⟩), (15, ⟨2, 0⟩), (26, ⟨3, 0⟩), (48, ⟨7, -1⟩)]), [(1, -1), (2, -1), (4, 1)], -1, [(1, 1), (2, 1)], [(4, 1)], true⟩,
  ⟨⟨⟨387, -1⟩, ⟨27, -1⟩, ⟨31501542797022735, -13⟩⟩, .none, [(0, -1), (1, 1), (2, -1), (4, 1)], 0, [(0, 1), (2, 1)], [(1, 1), (4, 1)], true⟩,
  ⟨⟨⟨20000000000000004, -6⟩, ⟨0, 0⟩, ⟨0, 0⟩⟩, .none, [(2, -1), (3, 1), (4, 1), (6, -1)], 0, [(2, 1), (6, 1)], [(3, 1), (4, 1)], true⟩,
  ⟨⟨⟨9630, 0⟩, ⟨2, 0⟩, ⟨20128781339950629, -13⟩⟩, .none, [(2, -1), (4, 1), (6, 1), (7, -1)], 0, [(2, 1), (7, 1)], [(4, 1), (6, 1)], true⟩,
  ⟨⟨⟨5700000000000001, -5⟩, ⟨0, 0⟩, ⟨0, 0⟩⟩, .none, [(1, 1), (2, -1), (9, -1), (14, 1)], 0, [(2, 1), (9, 1)], [(1, 1), (14, 1)], true⟩,
  ⟨⟨⟨8000000000000002, -5⟩, ⟨0, 0⟩, ⟨0, 0⟩⟩, .none, [(1, 1), (2, -1), (10, -1), (16, 1)], 0, [(2, 1), (10, 1)], [(1, 1), (16, 1)], true⟩,
  ⟨⟨⟨15000000000000002, -6⟩, ⟨0, 0⟩, ⟨0, 0⟩⟩, .none, [(0, 1), (2, -1), (11, -1), (14, 1)], 0, [(2, 1), (11, 1)], [(0, 1), (14, 1)], true⟩,
  ⟨⟨⟨15000000000000002, -6⟩, ⟨0, 0⟩, ⟨0, 0⟩⟩, .none, [(1, 1), (2, -1), (11, -1), (16, 1)], 0, [(2, 1), (11, 1)], [(1, 1), (16, 1)], true⟩,
  ⟨⟨⟨5060000000000001, -5⟩, ⟨0, 0⟩, ⟨0, 0⟩⟩, .none, [(1, 1), (2, -1), (12, -1), (17, 1)], 0, [(2, 1), (12, 1)], [(1, 1), (17, 1)], true⟩,
  ⟨⟨⟨10200000000000001, -10⟩, ⟨15, -1⟩, ⟨4327687988089386, -12⟩⟩, .none, [(2, -1), (4, 1), (12, 1), (13, -1)], 0, [(2, 1), (13, 1)], [(4, 1), (12, 1)], true⟩,
  ⟨⟨⟨18000000000000004, -9⟩, ⟨0, 0⟩, ⟨12001785873945562, -13⟩⟩, .lind (.all [(0, ⟨2, 0⟩), (3, ⟨6, 0⟩), (5, ⟨6, 0⟩), (13, ⟨2, 0⟩), (14, ⟨15, -1⟩), (15, ⟨35, -1⟩), (26, ⟨3, 0⟩), (48, ⟨5, -1⟩)]) ⟨⟨6020000000000001, -7⟩, ⟨0, 0⟩, ⟨15096586004962971, -13⟩⟩, [(2, -1), (14, -1), (15, 1)], -1, [(2, 1), (14, 1)], [(15, 1)], true⟩,
  ⟨⟨⟨30000000000000004, -6⟩, ⟨0, 0⟩, ⟨0, 0⟩⟩, .none, [(2, -1), (4, 1), (14, 1), (16, -1)], 0, [(2, 1), (16, 1)], [(4, 1), (14, 1)], true⟩,
  ⟨⟨⟨30000000000000004, -6⟩, ⟨0, 0⟩, ⟨0, 0⟩⟩, .none, [(1, 1), (2, -1), (15, 1), (16, -1)], 0, [(2, 1), (16, 1)], [(1, 1), (15, 1)], true⟩,
  ⟨⟨⟨3900000000000001, -5⟩, ⟨0, 0⟩, ⟨17813971485856307, -13⟩⟩, .none, [(2, -1), (4, 1), (16, 1), (17, -1)], 0, [(2, 1), (17, 1)], [(4, 1), (16, 1)], true⟩,
  ⟨⟨⟨10000000000000002, -6⟩, ⟨0, 0⟩, ⟨0, 0⟩⟩, .none, [(2, -1), (4, 1), (17, 1), (18, -1)], 0, [(2, 1), (18, 1)], [(4, 1), (17, 1)], true⟩,
  ⟨⟨⟨10000000000000002, -6⟩, ⟨0, 0⟩, ⟨0, 0⟩⟩, .none, [(2, -1), (4, 1), (17, 1), (19, -1)], 0, [(2, 1), (19, 1)], [(4, 1), (17, 1)], true⟩,
  ⟨⟨⟨38800000000000006, -14⟩, ⟨25, -1⟩, ⟨15599805538461737, -13⟩⟩, .none, [(2, -1), (4, 1), (18, 1), (20, -1)], 0, [(2, 1), (20, 1)], [(4, 1), (18, 1)], true⟩,
  ⟨⟨⟨13000000000000003, -14⟩, ⟨25, -1⟩, ⟨2516097667493829, -12⟩⟩, .none, [(2, -1), (4, 1), (19, 1), (20, -1)], 0, [(2, 1), (20, 1)], [(4, 1), (19, 1)], true⟩,
  ⟨⟨⟨5000000000000001, -5⟩, ⟨0, 0⟩, ⟨0, 0⟩⟩, .none, [(2, -1), (9, 1), (14, 1), (21, -1)], 0, [(2, 1), (21, 1)], [(9, 1), (14, 1)], true⟩]

/-- reactions 20 to 39, within src/compute/chemistry/chem_GRI30.cpp:186-3715 -/
def rx20 : List Rxn := [
  ⟨⟨⟨13500000000000002, -12⟩, ⟨2, 0⟩, ⟨956117113647655, -12⟩⟩, .none, [(1, 1), (2, -1), (22, -1), (27, 1)], 0, [(2, 1), (22, 1)], [(1, 1), (27, 1)], true⟩,
  ⟨⟨⟨4600000000000001, 1⟩, ⟨-141, -2⟩, ⟨14568205494789268, -12⟩⟩, .none, [(2, -1), (4, 1), (21, 1), (22, -1)], 0, [(2, 1), (22, 1)], [(4, 1), (21, 1)], true⟩,
  ⟨⟨⟨6940000000000001, -12⟩, ⟨2, 0⟩, ⟨956117113647655, -12⟩⟩, .none, [(2, -1), (10, 1), (14, 1), (22, -1)], 0, [(2, 1), (22, 1)], [(10, 1), (14, 1)], true⟩,
  ⟨⟨⟨30000000000000004, -6⟩, ⟨0, 0⟩, ⟨0, 0⟩⟩, .none, [(1, 1), (2, -1), (23, -1), (28, 1)], 0, [(2, 1), (23, 1)], [(1, 1), (28, 1)], true⟩,
  ⟨⟨⟨12500000000000002, -12⟩, ⟨183, -2⟩, ⟨11070829736972846, -14⟩⟩, .none, [(2, -1), (12, 1), (16, 1), (24, -1)], 0, [(2, 1), (24, 1)], [(12, 1), (16, 1)], true⟩,
  ⟨⟨⟨22400000000000004, -6⟩, ⟨0, 0⟩, ⟨0, 0⟩⟩, .none, [(2, -1), (12, 1), (17, 1), (25, -1)], 0, [(2, 1), (25, 1)], [(12, 1), (17, 1)], true⟩,
  ⟨⟨⟨8980000000000001, -11⟩, ⟨192, -2⟩, ⟨2863319145607977, -12⟩⟩, .none, [(2, -1), (4, 1), (25, 1), (26, -1)], 0, [(2, 1), (26, 1)], [(4, 1), (25, 1)], true⟩,
  ⟨⟨⟨10000000000000002, -5⟩, ⟨0, 0⟩, ⟨0, 0⟩⟩, .none, [(1, 1), (2, -1), (14, 2), (27, -1)], 1, [(2, 1), (27, 1)], [(1, 1), (14, 2)], true⟩,
  ⟨⟨⟨10000000000000002, -6⟩, ⟨0, 0⟩, ⟨40257562679901257, -13⟩⟩, .none, [(2, -1), (4, 1), (27, 1), (28, -1)], 0, [(2, 1), (28, 1)], [(4, 1), (27, 1)], true⟩,
  ⟨⟨⟨17500000000000002, -7⟩, ⟨0, 0⟩, ⟨6793463702233338, -13⟩⟩, .none, [(2, -1), (10, 1), (15, 1), (28, -1)], 0, [(2, 1), (28, 1)], [(10, 1), (15, 1)], true⟩,
  ⟨⟨⟨25000000000000005, -7⟩, ⟨0, 0⟩, ⟨24053893701241002, -12⟩⟩, .none, [(2, 1), (3, -1), (14, -1), (15, 1)], 0, [(3, 1), (14, 1)], [(2, 1), (15, 1)], true⟩,
  ⟨⟨⟨10000000000000002, -5⟩, ⟨0, 0⟩, ⟨2012878133995063, -11⟩⟩, .none, [(3, -1), (6, 1), (16, 1), (17, -1)], 0, [(3, 1), (17, 1)], [(6, 1), (16, 1)], true⟩,
  ⟨⟨⟨28000000000000005, -4⟩, ⟨-86, -2⟩, ⟨0, 0⟩⟩, .three (.all [(3, ⟨0, 0⟩), (5, ⟨0, 0⟩), (14, ⟨75, -2⟩), (15, ⟨15, -1⟩), (26, ⟨15, -1⟩), (47, ⟨0, 0⟩), (48, ⟨0, 0⟩)]), [(1, -1), (3, -1), (6, 1)], -1, [(1, 1), (3, 1)], [(6, 1)], true⟩,
  ⟨⟨⟨20800000000000004, -3⟩, ⟨-124, -2⟩, ⟨0, 0⟩⟩, .three (.only 3), [(1, -1), (3, -1), (6, 1)], -1, [(1, 1), (3, 1)], [(6, 1)], true⟩,
  ⟨⟨⟨11260000000000002, -3⟩, ⟨-76, -2⟩, ⟨0, 0⟩⟩, .three (.only 5), [(1, -1), (3, -1), (6, 1)], -1, [(1, 1), (3, 1)], [(6, 1)], true⟩,
  ⟨⟨⟨26000000000000004, -3⟩, ⟨-124, -2⟩, ⟨0, 0⟩⟩, .three (.only 47), [(1, -1), (3, -1), (6, 1)], -1, [(1, 1), (3, 1)], [(6, 1)], true⟩,
  ⟨⟨⟨7000000000000001, -4⟩, ⟨-8, -1⟩, ⟨0, 0⟩⟩, .three (.only 48), [(1, -1), (3, -1), (6, 1)], -1, [(1, 1), (3, 1)], [(6, 1)], true⟩,
  ⟨⟨⟨26500000000000004, -3⟩, ⟨-6707, -4⟩, ⟨8575364070352467, -12⟩⟩, .none, [(1, -1), (2, 1), (3, -1), (4, 1)], 0, [(1, 1), (3, 1)], [(2, 1), (4, 1)], true⟩,
  ⟨⟨⟨10000000000000002, -4⟩, ⟨-1, 0⟩, ⟨0, 0⟩⟩, .three (.all [(0, ⟨0, 0⟩), (5, ⟨0, 0⟩), (13, ⟨2, 0⟩), (15, ⟨0, 0⟩), (26, ⟨3, 0⟩), (48, ⟨63, -2⟩)]), [(0, 1), (1, -2)], -1, [(1, 2)], [(0, 1)], true⟩,
  ⟨⟨⟨9000000000000002, -5⟩, ⟨-6, -1⟩, ⟨0, 0⟩⟩, .three (.only 0), [(0, 1), (1, -2)], -1, [(1, 2)], [(0, 1)], true⟩]

/-- reactions 40 to 59, within src/compute/chemistry/chem_GRI30.cpp:186-3715 -/
def rx40 : List Rxn := [
  ⟨⟨⟨6000000000000001, -2⟩, ⟨-125, -2⟩, ⟨0, 0⟩⟩, .three (.only 5), [(0, 1), (1, -2)], -1, [(1, 2)], [(0, 1)], true⟩,
  ⟨⟨⟨5500000000000001, -1⟩, ⟨-2, 0⟩, ⟨0, 0⟩⟩, .three (.only 15), [(0, 1), (1, -2)], -1, [(1, 2)], [(0, 1)], true⟩,
  ⟨⟨⟨22000000000000004, 0⟩, ⟨-2, 0⟩, ⟨0, 0⟩⟩, .three (.all [(0, ⟨73, -2⟩), (5, ⟨365, -2⟩), (13, ⟨2, 0⟩), (26, ⟨3, 0⟩), (48, ⟨38, -2⟩)]), [(1, -1), (4, -1), (5, 1)], -1, [(1, 1), (4, 1)], [(5, 1)], true⟩,
  ⟨⟨⟨39700000000000005, -7⟩, ⟨0, 0⟩, ⟨33766030697767184, -14⟩⟩, .none, [(1, -1), (2, 1), (5, 1), (6, -1)], 0, [(1, 1), (6, 1)], [(2, 1), (5, 1)], true⟩,
  ⟨⟨⟨4480000000000001, -5⟩, ⟨0, 0⟩, ⟨5374384617766818, -13⟩⟩, .none, [(0, 1), (1, -1), (3, 1), (6, -1)], 0, [(1, 1), (6, 1)], [(0, 1), (3, 1)], true⟩,
  ⟨⟨⟨8400000000000002, -5⟩, ⟨0, 0⟩, ⟨31954440377171625, -14⟩⟩, .none, [(1, -1), (4, 2), (6, -1)], 0, [(1, 1), (6, 1)], [(4, 2)], true⟩,
  ⟨⟨⟨12100000000000002, -12⟩, ⟨2, 0⟩, ⟨2616741574193582, -12⟩⟩, .none, [(0, 1), (1, -1), (6, 1), (7, -1)], 0, [(1, 1), (7, 1)], [(0, 1), (6, 1)], true⟩,
  ⟨⟨⟨10000000000000002, -6⟩, ⟨0, 0⟩, ⟨18115903205955567, -13⟩⟩, .none, [(1, -1), (4, 1), (5, 1), (7, -1)], 0, [(1, 1), (7, 1)], [(4, 1), (5, 1)], true⟩,
  ⟨⟨⟨16500000000000003, -5⟩, ⟨0, 0⟩, ⟨0, 0⟩⟩, .none, [(0, 1), (1, -1), (8, 1), (9, -1)], 0, [(1, 1), (9, 1)], [(0, 1), (8, 1)], true⟩,
  ⟨⟨⟨6000000000000001, -4⟩, ⟨0, 0⟩, ⟨0, 0⟩⟩, .troe (.all [(0, ⟨2, 0⟩), (5, ⟨6, 0⟩), (13, ⟨2, 0⟩), (14, ⟨15, -1⟩), (15, ⟨2, 0⟩), (26, ⟨3, 0⟩), (48, ⟨7, -1⟩)]) ⟨⟨10400000000000002, 4⟩, ⟨-276, -2⟩, ⟨8051512535980252, -13⟩⟩ ⟨562, -3⟩ ⟨91, 0⟩ ⟨5836, 0⟩ ⟨8552, 0⟩, [(1, -1), (10, -1), (12, 1)], -1, [(1, 1), (10, 1)], [(12, 1)], true⟩,
  ⟨⟨⟨30000000000000004, -6⟩, ⟨0, 0⟩, ⟨0, 0⟩⟩, .none, [(0, 1), (1, -1), (9, 1), (11, -1)], 0, [(1, 1), (11, 1)], [(0, 1), (9, 1)], true⟩,
  ⟨⟨⟨13900000000000002, -3⟩, ⟨-534, -3⟩, ⟨26972566995533845, -14⟩⟩, .troe (.all [(0, ⟨2, 0⟩), (5, ⟨6, 0⟩), (13, ⟨3, 0⟩), (14, ⟨15, -1⟩), (15, ⟨2, 0⟩), (26, ⟨3, 0⟩), (48, ⟨7, -1⟩)]) ⟨⟨26200000000000006, 11⟩, ⟨-476, -2⟩, ⟨12278556617369884, -13⟩⟩ ⟨783, -3⟩ ⟨74, 0⟩ ⟨2941, 0⟩ ⟨6964, 0⟩, [(1, -1), (12, -1), (13, 1)], -1, [(1, 1), (12, 1)], [(13, 1)], true⟩,
  ⟨⟨⟨6600000000000001, -10⟩, ⟨162, -2⟩, ⟨5454899743126621, -12⟩⟩, .none, [(0, 1), (1, -1), (12, 1), (13, -1)], 0, [(1, 1), (13, 1)], [(0, 1), (12, 1)], true⟩,
  ⟨⟨⟨10900000000000002, -7⟩, ⟨48, -2⟩, ⟨-1308370787096791, -13⟩⟩, .troe (.all [(0, ⟨2, 0⟩), (5, ⟨6, 0⟩), (13, ⟨2, 0⟩), (14, ⟨15, -1⟩), (15, ⟨2, 0⟩), (26, ⟨3, 0⟩), (48, ⟨7, -1⟩)]) ⟨⟨24700000000000005, 2⟩, ⟨-257, -2⟩, ⟨21386830173697544, -14⟩⟩ ⟨7824, -4⟩ ⟨271, 0⟩ ⟨2755, 0⟩ ⟨6570, 0⟩, [(1, -1), (16, -1), (17, 1)], -1, [(1, 1), (16, 1)], [(17, 1)], true⟩,
  ⟨⟨⟨7340000000000002, -5⟩, ⟨0, 0⟩, ⟨0, 0⟩⟩, .none, [(0, 1), (1, -1), (14, 1), (16, -1)], 0, [(1, 1), (16, 1)], [(0, 1), (14, 1)], true⟩,
  ⟨⟨⟨5400000000000001, -7⟩, ⟨454, -3⟩, ⟨18115903205955567, -13⟩⟩, .troe (.all [(0, ⟨2, 0⟩), (5, ⟨6, 0⟩), (13, ⟨2, 0⟩), (14, ⟨15, -1⟩), (15, ⟨2, 0⟩), (26, ⟨3, 0⟩)]) ⟨⟨12700000000000002, 10⟩, ⟨-482, -2⟩, ⟨32860235537469403, -13⟩⟩ ⟨7187, -4⟩ ⟨10300000000000001, -14⟩ ⟨1291, 0⟩ ⟨4160, 0⟩, [(1, -1), (17, -1), (18, 1)], -1, [(1, 1), (17, 1)], [(18, 1)], true⟩,
  ⟨⟨⟨5400000000000001, -7⟩, ⟨454, -3⟩, ⟨1308370787096791, -12⟩⟩, .troe (.all [(0, ⟨2, 0⟩), (5, ⟨6, 0⟩), (13, ⟨2, 0⟩), (14, ⟨15, -1⟩), (15, ⟨2, 0⟩), (26, ⟨3, 0⟩)]) ⟨⟨22000000000000006, 8⟩, ⟨-48, -1⟩, ⟨27979006062531375, -13⟩⟩ ⟨758, -3⟩ ⟨94, 0⟩ ⟨1555, 0⟩ ⟨4200, 0⟩, [(1, -1), (17, -1), (19, 1)], -1, [(1, 1), (17, 1)], [(19, 1)], true⟩,
  ⟨⟨⟨57400000000000015, -12⟩, ⟨19, -1⟩, ⟨13798279608536157, -13⟩⟩, .none, [(0, 1), (1, -1), (16, 1), (17, -1)], 0, [(1, 1), (17, 1)], [(0, 1), (16, 1)], true⟩,
  ⟨⟨⟨10550000000000002, -7⟩, ⟨5, -1⟩, ⟨4327687988089385, -14⟩⟩, .troe (.all [(0, ⟨2, 0⟩), (5, ⟨6, 0⟩), (13, ⟨2, 0⟩), (14, ⟨15, -1⟩), (15, ⟨2, 0⟩), (26, ⟨3, 0⟩)]) ⟨⟨4360000000000001, 10⟩, ⟨-465, -2⟩, ⟨255635523017373, -11⟩⟩ ⟨6, -1⟩ ⟨100, 0⟩ ⟨90000, 0⟩ ⟨10000, 0⟩, [(1, -1), (18, -1), (20, 1)], -1, [(1, 1), (18, 1)], [(20, 1)], true⟩,
  ⟨⟨⟨20000000000000004, -6⟩, ⟨0, 0⟩, ⟨0, 0⟩⟩, .none, [(0, 1), (1, -1), (17, 1), (18, -1)], 0, [(1, 1), (18, 1)], [(0, 1), (17, 1)], true⟩]

/-- reactions 60 to 79, within src/compute/chemistry/chem_GRI30.cpp:186-3715 -/
def rx60 : List Rxn := [
  ⟨⟨⟨16500000000000003, -8⟩, ⟨65, -2⟩, ⟨-14291434751364946, -14⟩⟩, .none, [(1, -1), (4, 1), (12, 1), (18, -1)], 0, [(1, 1), (18, 1)], [(4, 1), (12, 1)], true⟩,
  ⟨⟨⟨32800000000000004, -6⟩, ⟨-9, -2⟩, ⟨3069639154342471, -13⟩⟩, .none, [(1, -1), (5, 1), (11, 1), (18, -1)], 0, [(1, 1), (18, 1)], [(5, 1), (11, 1)], true⟩,
  ⟨⟨⟨24300000000000005, -7⟩, ⟨515, -3⟩, ⟨25160976674938286, -15⟩⟩, .troe (.all [(0, ⟨2, 0⟩), (5, ⟨6, 0⟩), (13, ⟨2, 0⟩), (14, ⟨15, -1⟩), (15, ⟨2, 0⟩), (26, ⟨3, 0⟩)]) ⟨⟨4660000000000001, 20⟩, ⟨-744, -2⟩, ⟨7085331031662621, -12⟩⟩ ⟨7, -1⟩ ⟨100, 0⟩ ⟨90000, 0⟩ ⟨10000, 0⟩, [(1, -1), (19, -1), (20, 1)], -1, [(1, 1), (19, 1)], [(20, 1)], true⟩,
  ⟨⟨⟨4150000000000001, -11⟩, ⟨163, -2⟩, ⟨9681943824516253, -13⟩⟩, .none, [(18, 1), (19, -1)], 0, [(1, 1), (19, 1)], [(1, 1), (18, 1)], true⟩,
  ⟨⟨⟨20000000000000004, -6⟩, ⟨0, 0⟩, ⟨0, 0⟩⟩, .none, [(0, 1), (1, -1), (17, 1), (19, -1)], 0, [(1, 1), (19, 1)], [(0, 1), (17, 1)], true⟩,
  ⟨⟨⟨15000000000000002, -7⟩, ⟨5, -1⟩, ⟨-5535414868486423, -14⟩⟩, .none, [(1, -1), (4, 1), (12, 1), (19, -1)], 0, [(1, 1), (19, 1)], [(4, 1), (12, 1)], true⟩,
  ⟨⟨⟨26200000000000003, -5⟩, ⟨-23, -2⟩, ⟨5384449008436793, -13⟩⟩, .none, [(1, -1), (5, 1), (11, 1), (19, -1)], 0, [(1, 1), (19, 1)], [(5, 1), (11, 1)], true⟩,
  ⟨⟨⟨17000000000000004, -12⟩, ⟨21, -1⟩, ⟨2450679128138989, -12⟩⟩, .none, [(0, 1), (1, -1), (18, 1), (20, -1)], 0, [(1, 1), (20, 1)], [(0, 1), (18, 1)], true⟩,
  ⟨⟨⟨4200000000000001, -12⟩, ⟨21, -1⟩, ⟨2450679128138989, -12⟩⟩, .none, [(0, 1), (1, -1), (19, 1), (20, -1)], 0, [(1, 1), (20, 1)], [(0, 1), (19, 1)], true⟩,
  ⟨⟨⟨10000000000000002, -2⟩, ⟨-1, 0⟩, ⟨0, 0⟩⟩, .troe (.all [(0, ⟨2, 0⟩), (5, ⟨6, 0⟩), (13, ⟨2, 0⟩), (14, ⟨15, -1⟩), (15, ⟨2, 0⟩), (26, ⟨3, 0⟩), (48, ⟨7, -1⟩)]) ⟨⟨3750000000000001, 12⟩, ⟨-48, -1⟩, ⟨956117113647655, -12⟩⟩ ⟨6464, -4⟩ ⟨132, 0⟩ ⟨1315, 0⟩ ⟨5566, 0⟩, [(1, -1), (21, -1), (22, 1)], -1, [(1, 1), (21, 1)], [(22, 1)], true⟩,
  ⟨⟨⟨5600000000000001, -6⟩, ⟨0, 0⟩, ⟨12077268803970378, -13⟩⟩, .troe (.all [(0, ⟨2, 0⟩), (5, ⟨6, 0⟩), (13, ⟨2, 0⟩), (14, ⟨15, -1⟩), (15, ⟨2, 0⟩), (26, ⟨3, 0⟩), (48, ⟨7, -1⟩)]) ⟨⟨38000000000000006, 18⟩, ⟨-727, -2⟩, ⟨36332450318610886, -13⟩⟩ ⟨7507, -4⟩ ⟨9850000000000001, -14⟩ ⟨1302, 0⟩ ⟨4167, 0⟩, [(1, -1), (22, -1), (23, 1)], -1, [(1, 1), (22, 1)], [(23, 1)], true⟩,
  ⟨⟨⟨6080000000000001, -6⟩, ⟨27, -2⟩, ⟨1409014693796544, -13⟩⟩, .troe (.all [(0, ⟨2, 0⟩), (5, ⟨6, 0⟩), (13, ⟨2, 0⟩), (14, ⟨15, -1⟩), (15, ⟨2, 0⟩), (26, ⟨3, 0⟩), (48, ⟨7, -1⟩)]) ⟨⟨14000000000000004, 8⟩, ⟨-386, -2⟩, ⟨16706888512159023, -13⟩⟩ ⟨782, -3⟩ ⟨20749999999999997, -14⟩ ⟨2663, 0⟩ ⟨6095, 0⟩, [(1, -1), (23, -1), (24, 1)], -1, [(1, 1), (23, 1)], [(24, 1)], true⟩,
  ⟨⟨⟨30000000000000004, -6⟩, ⟨0, 0⟩, ⟨0, 0⟩⟩, .none, [(0, 1), (1, -1), (22, 1), (23, -1)], 0, [(1, 1), (23, 1)], [(0, 1), (22, 1)], true⟩,
  ⟨⟨⟨5400000000000001, -7⟩, ⟨454, -3⟩, ⟨9158595509677536, -13⟩⟩, .troe (.all [(0, ⟨2, 0⟩), (5, ⟨6, 0⟩), (13, ⟨2, 0⟩), (14, ⟨15, -1⟩), (15, ⟨2, 0⟩), (26, ⟨3, 0⟩), (48, ⟨7, -1⟩)]) ⟨⟨60000000000000005, 19⟩, ⟨-762, -2⟩, ⟨3507440148486397, -12⟩⟩ ⟨9753, -4⟩ ⟨20999999999999997, -14⟩ ⟨9839999999999999, -13⟩ ⟨4374, 0⟩, [(1, -1), (24, -1), (25, 1)], -1, [(1, 1), (24, 1)], [(25, 1)], true⟩,
  ⟨⟨⟨13250000000000002, -13⟩, ⟨253, -2⟩, ⟨6159407090024893, -12⟩⟩, .none, [(0, 1), (1, -1), (23, 1), (24, -1)], 0, [(1, 1), (24, 1)], [(0, 1), (23, 1)], true⟩,
  ⟨⟨⟨52100000000000006, -2⟩, ⟨-99, -2⟩, ⟨7950868629280499, -13⟩⟩, .troe (.all [(0, ⟨2, 0⟩), (5, ⟨6, 0⟩), (13, ⟨2, 0⟩), (14, ⟨15, -1⟩), (15, ⟨2, 0⟩), (26, ⟨3, 0⟩), (48, ⟨7, -1⟩)]) ⟨⟨19900000000000005, 19⟩, ⟨-708, -2⟩, ⟨3364022581439249, -12⟩⟩ ⟨8422, -4⟩ ⟨125, 0⟩ ⟨2219, 0⟩ ⟨6882, 0⟩, [(1, -1), (25, -1), (26, 1)], -1, [(1, 1), (25, 1)], [(26, 1)], true⟩,
  ⟨⟨⟨20000000000000002, -7⟩, ⟨0, 0⟩, ⟨0, 0⟩⟩, .none, [(0, 1), (1, -1), (24, 1), (25, -1)], 0, [(1, 1), (25, 1)], [(0, 1), (24, 1)], true⟩,
  ⟨⟨⟨11500000000000001, -11⟩, ⟨19, -1⟩, ⟨3789243087245706, -12⟩⟩, .none, [(0, 1), (1, -1), (25, 1), (26, -1)], 0, [(1, 1), (26, 1)], [(0, 1), (25, 1)], true⟩,
  ⟨⟨⟨10000000000000002, -5⟩, ⟨0, 0⟩, ⟨0, 0⟩⟩, .none, [(1, -1), (11, 1), (14, 1), (27, -1)], 0, [(1, 1), (27, 1)], [(11, 1), (14, 1)], true⟩,
  ⟨⟨⟨5000000000000001, -5⟩, ⟨0, 0⟩, ⟨40257562679901257, -13⟩⟩, .none, [(0, 1), (1, -1), (27, 1), (28, -1)], 0, [(1, 1), (28, 1)], [(0, 1), (27, 1)], true⟩]

/-- reactions 80 to 99, within src/compute/chemistry/chem_GRI30.cpp:186-3715 -/
def rx80 : List Rxn := [
  ⟨⟨⟨11300000000000002, -6⟩, ⟨0, 0⟩, ⟨1725036560833769, -12⟩⟩, .none, [(1, -1), (12, 1), (14, 1), (28, -1)], 0, [(1, 1), (28, 1)], [(12, 1), (14, 1)], true⟩,
  ⟨⟨⟨10000000000000002, -6⟩, ⟨0, 0⟩, ⟨0, 0⟩⟩, .none, [(28, 1), (29, -1)], 0, [(1, 1), (29, 1)], [(1, 1), (28, 1)], true⟩,
  ⟨⟨⟨4300000000000001, -11⟩, ⟨15, -1⟩, ⟨4005627486650175, -11⟩⟩, .troe (.all [(0, ⟨2, 0⟩), (5, ⟨6, 0⟩), (13, ⟨2, 0⟩), (14, ⟨15, -1⟩), (15, ⟨2, 0⟩), (26, ⟨3, 0⟩), (48, ⟨7, -1⟩)]) ⟨⟨507, 19⟩, ⟨-342, -2⟩, ⟨4244656765062089, -11⟩⟩ ⟨932, -3⟩ ⟨19700000000000003, -14⟩ ⟨1540, 0⟩ ⟨10300, 0⟩, [(0, -1), (14, -1), (17, 1)], -1, [(0, 1), (14, 1)], [(17, 1)], true⟩,
  ⟨⟨⟨21600000000000003, -11⟩, ⟨151, -2⟩, ⟨17260429999007665, -13⟩⟩, .none, [(0, -1), (1, 1), (4, -1), (5, 1)], 0, [(0, 1), (4, 1)], [(1, 1), (5, 1)], true⟩,
  ⟨⟨⟨7400000000000002, -5⟩, ⟨-37, -2⟩, ⟨0, 0⟩⟩, .troe (.all [(0, ⟨2, 0⟩), (5, ⟨6, 0⟩), (13, ⟨2, 0⟩), (14, ⟨15, -1⟩), (15, ⟨2, 0⟩), (26, ⟨3, 0⟩), (48, ⟨7, -1⟩)]) ⟨⟨23000000000000005, -4⟩, ⟨-9, -1⟩, ⟨-8554732069479018, -13⟩⟩ ⟨7346, -4⟩ ⟨94, 0⟩ ⟨1756, 0⟩ ⟨5182, 0⟩, [(4, -2), (7, 1)], -1, [(4, 2)], [(7, 1)], true⟩,
  ⟨⟨⟨357, -1⟩, ⟨24, -1⟩, ⟨-10617932156823956, -13⟩⟩, .none, [(2, 1), (4, -2), (5, 1)], 0, [(4, 2)], [(2, 1), (5, 1)], true⟩,
  ⟨⟨⟨14500000000000002, -6⟩, ⟨0, 0⟩, ⟨-25160976674938286, -14⟩⟩, .none, [(3, 1), (4, -1), (5, 1), (6, -1)], 0, [(4, 1), (6, 1)], [(3, 1), (5, 1)], true⟩,
  ⟨⟨⟨20000000000000002, -7⟩, ⟨0, 0⟩, ⟨21487474080397297, -14⟩⟩, .none, [(4, -1), (5, 1), (6, 1), (7, -1)], 0, [(4, 1), (7, 1)], [(5, 1), (6, 1)], true⟩,
  ⟨⟨⟨17000000000000002, -1⟩, ⟨0, 0⟩, ⟨14799686480198701, -12⟩⟩, .none, [(4, -1), (5, 1), (6, 1), (7, -1)], 0, [(4, 1), (7, 1)], [(5, 1), (6, 1)], true⟩,
  ⟨⟨⟨5000000000000001, -5⟩, ⟨0, 0⟩, ⟨0, 0⟩⟩, .none, [(1, 1), (4, -1), (8, -1), (14, 1)], 0, [(4, 1), (8, 1)], [(1, 1), (14, 1)], true⟩,
  ⟨⟨⟨30000000000000004, -6⟩, ⟨0, 0⟩, ⟨0, 0⟩⟩, .none, [(1, 1), (4, -1), (9, -1), (16, 1)], 0, [(4, 1), (9, 1)], [(1, 1), (16, 1)], true⟩,
  ⟨⟨⟨20000000000000004, -6⟩, ⟨0, 0⟩, ⟨0, 0⟩⟩, .none, [(1, 1), (4, -1), (10, -1), (17, 1)], 0, [(4, 1), (10, 1)], [(1, 1), (17, 1)], true⟩,
  ⟨⟨⟨11300000000000002, -12⟩, ⟨2, 0⟩, ⟨15096586004962971, -13⟩⟩, .none, [(4, -1), (5, 1), (9, 1), (10, -1)], 0, [(4, 1), (10, 1)], [(5, 1), (9, 1)], true⟩,
  ⟨⟨⟨30000000000000004, -6⟩, ⟨0, 0⟩, ⟨0, 0⟩⟩, .none, [(1, 1), (4, -1), (11, -1), (17, 1)], 0, [(4, 1), (11, 1)], [(1, 1), (17, 1)], true⟩,
  ⟨⟨⟨27900000000000005, -1⟩, ⟨-143, -2⟩, ⟨6692819795533584, -13⟩⟩, .troe (.all [(0, ⟨2, 0⟩), (5, ⟨6, 0⟩), (13, ⟨2, 0⟩), (14, ⟨15, -1⟩), (15, ⟨2, 0⟩), (26, ⟨3, 0⟩)]) ⟨⟨4000000000000001, 15⟩, ⟨-592, -2⟩, ⟨15801093351861243, -13⟩⟩ ⟨412, -3⟩ ⟨195, 0⟩ ⟨5900, 0⟩ ⟨6394, 0⟩, [(4, -1), (12, -1), (20, 1)], -1, [(4, 1), (12, 1)], [(20, 1)], true⟩,
  ⟨⟨⟨5600000000000001, -11⟩, ⟨16, -1⟩, ⟨27274498715633104, -13⟩⟩, .none, [(4, -1), (5, 1), (10, 1), (12, -1)], 0, [(4, 1), (12, 1)], [(5, 1), (10, 1)], true⟩,
  ⟨⟨⟨6440000000000001, -1⟩, ⟨-134, -2⟩, ⟨7130620789677511, -13⟩⟩, .none, [(4, -1), (5, 1), (11, 1), (12, -1)], 0, [(4, 1), (12, 1)], [(5, 1), (11, 1)], true⟩,
  ⟨⟨⟨10000000000000001, -11⟩, ⟨16, -1⟩, ⟨15700449445161491, -13⟩⟩, .none, [(4, -1), (5, 1), (12, 1), (13, -1)], 0, [(4, 1), (13, 1)], [(5, 1), (12, 1)], true⟩,
  ⟨⟨⟨4760000000000001, -11⟩, ⟨1228, -3⟩, ⟨352253673449136, -13⟩⟩, .none, [(1, 1), (4, -1), (14, -1), (15, 1)], 0, [(4, 1), (14, 1)], [(1, 1), (15, 1)], true⟩,
  ⟨⟨⟨5000000000000001, -5⟩, ⟨0, 0⟩, ⟨0, 0⟩⟩, .none, [(4, -1), (5, 1), (14, 1), (16, -1)], 0, [(4, 1), (16, 1)], [(5, 1), (14, 1)], true⟩]

/-- reactions 100 to 119, within src/compute/chemistry/chem_GRI30.cpp:186-3715 -/
def rx100 : List Rxn := [
  ⟨⟨⟨34300000000000005, -10⟩, ⟨118, -2⟩, ⟨-2249391314739483, -13⟩⟩, .none, [(4, -1), (5, 1), (16, 1), (17, -1)], 0, [(4, 1), (17, 1)], [(5, 1), (16, 1)], true⟩,
  ⟨⟨⟨5000000000000001, -6⟩, ⟨0, 0⟩, ⟨0, 0⟩⟩, .none, [(4, -1), (5, 1), (17, 1), (18, -1)], 0, [(4, 1), (18, 1)], [(5, 1), (17, 1)], true⟩,
  ⟨⟨⟨5000000000000001, -6⟩, ⟨0, 0⟩, ⟨0, 0⟩⟩, .none, [(4, -1), (5, 1), (17, 1), (19, -1)], 0, [(4, 1), (19, 1)], [(5, 1), (17, 1)], true⟩,
  ⟨⟨⟨14400000000000002, -13⟩, ⟨2, 0⟩, ⟨-42270440813896323, -14⟩⟩, .none, [(4, -1), (5, 1), (18, 1), (20, -1)], 0, [(4, 1), (20, 1)], [(5, 1), (18, 1)], true⟩,
  ⟨⟨⟨6300000000000001, -12⟩, ⟨2, 0⟩, ⟨7548293002481486, -13⟩⟩, .none, [(4, -1), (5, 1), (19, 1), (20, -1)], 0, [(4, 1), (20, 1)], [(5, 1), (19, 1)], true⟩,
  ⟨⟨⟨20000000000000004, -6⟩, ⟨0, 0⟩, ⟨0, 0⟩⟩, .none, [(1, 1), (4, -1), (21, -1), (27, 1)], 0, [(4, 1), (21, 1)], [(1, 1), (27, 1)], true⟩,
  ⟨⟨⟨21800000000000005, -23⟩, ⟨45, -1⟩, ⟨-5032195334987657, -13⟩⟩, .none, [(1, 1), (4, -1), (22, -1), (28, 1)], 0, [(4, 1), (22, 1)], [(1, 1), (28, 1)], true⟩,
  ⟨⟨⟨5040000000000001, -13⟩, ⟨23, -1⟩, ⟨6793463702233337, -12⟩⟩, .none, [(1, 1), (4, -1), (22, -1), (29, 1)], 0, [(4, 1), (22, 1)], [(1, 1), (29, 1)], true⟩,
  ⟨⟨⟨33700, 0⟩, ⟨2, 0⟩, ⟨704507346898272, -11⟩⟩, .none, [(4, -1), (5, 1), (21, 1), (22, -1)], 0, [(4, 1), (22, 1)], [(5, 1), (21, 1)], true⟩,
  ⟨⟨⟨4830000000000001, -22⟩, ⟨4, 0⟩, ⟨-10064390669975314, -13⟩⟩, .none, [(4, -1), (12, 1), (14, 1), (22, -1)], 0, [(4, 1), (22, 1)], [(12, 1), (14, 1)], true⟩,
  ⟨⟨⟨5000000000000001, -6⟩, ⟨0, 0⟩, ⟨0, 0⟩⟩, .none, [(4, -1), (5, 1), (22, 1), (23, -1)], 0, [(4, 1), (23, 1)], [(5, 1), (22, 1)], true⟩,
  ⟨⟨⟨36000000000000005, -13⟩, ⟨2, 0⟩, ⟨12580488337469144, -13⟩⟩, .none, [(4, -1), (5, 1), (23, 1), (24, -1)], 0, [(4, 1), (24, 1)], [(5, 1), (23, 1)], true⟩,
  ⟨⟨⟨35400000000000005, -13⟩, ⟨212, -2⟩, ⟨4378009941439262, -13⟩⟩, .none, [(4, -1), (5, 1), (25, 1), (26, -1)], 0, [(4, 1), (26, 1)], [(5, 1), (25, 1)], true⟩,
  ⟨⟨⟨7500000000000001, -6⟩, ⟨0, 0⟩, ⟨10064390669975314, -13⟩⟩, .none, [(4, -1), (5, 1), (27, 1), (28, -1)], 0, [(4, 1), (28, 1)], [(5, 1), (27, 1)], true⟩,
  ⟨⟨⟨13000000000000001, -8⟩, ⟨0, 0⟩, ⟨-8202478396029882, -13⟩⟩, .none, [(3, 1), (6, -2), (7, 1)], 0, [(6, 2)], [(3, 1), (7, 1)], true⟩,
  ⟨⟨⟨42000000000000006, -5⟩, ⟨0, 0⟩, ⟨6038634401985189, -12⟩⟩, .none, [(3, 1), (6, -2), (7, 1)], 0, [(6, 2)], [(3, 1), (7, 1)], true⟩,
  ⟨⟨⟨20000000000000004, -6⟩, ⟨0, 0⟩, ⟨0, 0⟩⟩, .none, [(4, 1), (6, -1), (10, -1), (17, 1)], 0, [(6, 1), (10, 1)], [(4, 1), (17, 1)], true⟩,
  ⟨⟨⟨10000000000000001, -7⟩, ⟨0, 0⟩, ⟨0, 0⟩⟩, .none, [(3, 1), (6, -1), (12, -1), (13, 1)], 0, [(6, 1), (12, 1)], [(3, 1), (13, 1)], true⟩,
  ⟨⟨⟨3780000000000001, -5⟩, ⟨0, 0⟩, ⟨0, 0⟩⟩, .none, [(4, 1), (6, -1), (12, -1), (19, 1)], 0, [(6, 1), (12, 1)], [(4, 1), (19, 1)], true⟩,
  ⟨⟨⟨15000000000000003, -5⟩, ⟨0, 0⟩, ⟨11875980990570872, -12⟩⟩, .none, [(4, 1), (6, -1), (14, -1), (15, 1)], 0, [(6, 1), (14, 1)], [(4, 1), (15, 1)], true⟩]

/-- reactions 120 to 139, within src/compute/chemistry/chem_GRI30.cpp:186-3715 -/
def rx120 : List Rxn := [
  ⟨⟨⟨5600000000000001, -12⟩, ⟨2, 0⟩, ⟨6038634401985189, -12⟩⟩, .none, [(6, -1), (7, 1), (16, 1), (17, -1)], 0, [(6, 1), (17, 1)], [(7, 1), (16, 1)], true⟩,
  ⟨⟨⟨5800000000000001, -5⟩, ⟨0, 0⟩, ⟨28985445129528904, -14⟩⟩, .none, [(2, 1), (3, -1), (8, -1), (14, 1)], 0, [(3, 1), (8, 1)], [(2, 1), (14, 1)], true⟩,
  ⟨⟨⟨5000000000000001, -5⟩, ⟨0, 0⟩, ⟨0, 0⟩⟩, .none, [(1, 1), (8, -1), (10, -1), (21, 1)], 0, [(8, 1), (10, 1)], [(1, 1), (21, 1)], true⟩,
  ⟨⟨⟨5000000000000001, -5⟩, ⟨0, 0⟩, ⟨0, 0⟩⟩, .none, [(1, 1), (8, -1), (12, -1), (22, 1)], 0, [(8, 1), (12, 1)], [(1, 1), (22, 1)], true⟩,
  ⟨⟨⟨6710000000000001, -5⟩, ⟨0, 0⟩, ⟨0, 0⟩⟩, .none, [(2, 1), (3, -1), (9, -1), (16, 1)], 0, [(3, 1), (9, 1)], [(2, 1), (16, 1)], true⟩,
  ⟨⟨⟨10800000000000002, -5⟩, ⟨0, 0⟩, ⟨15650127491811616, -13⟩⟩, .none, [(0, -1), (1, 1), (9, -1), (10, 1)], 0, [(0, 1), (9, 1)], [(1, 1), (10, 1)], true⟩,
  ⟨⟨⟨5710000000000001, -6⟩, ⟨0, 0⟩, ⟨-37993074779156814, -14⟩⟩, .none, [(1, 1), (5, -1), (9, -1), (17, 1)], 0, [(5, 1), (9, 1)], [(1, 1), (17, 1)], true⟩,
  ⟨⟨⟨4000000000000001, -5⟩, ⟨0, 0⟩, ⟨0, 0⟩⟩, .none, [(1, 1), (9, -1), (10, -1), (22, 1)], 0, [(9, 1), (10, 1)], [(1, 1), (22, 1)], true⟩,
  ⟨⟨⟨30000000000000004, -6⟩, ⟨0, 0⟩, ⟨0, 0⟩⟩, .none, [(1, 1), (9, -1), (12, -1), (23, 1)], 0, [(9, 1), (12, 1)], [(1, 1), (23, 1)], true⟩,
  ⟨⟨⟨6000000000000001, -5⟩, ⟨0, 0⟩, ⟨0, 0⟩⟩, .none, [(1, 1), (9, -1), (13, -1), (24, 1)], 0, [(9, 1), (13, 1)], [(1, 1), (24, 1)], true⟩,
  ⟨⟨⟨5000000000000001, -5⟩, ⟨0, 0⟩, ⟨0, 0⟩⟩, .troe (.all [(0, ⟨2, 0⟩), (5, ⟨6, 0⟩), (13, ⟨2, 0⟩), (14, ⟨15, -1⟩), (15, ⟨2, 0⟩), (26, ⟨3, 0⟩), (48, ⟨7, -1⟩)]) ⟨⟨26900000000000003, 6⟩, ⟨-374, -2⟩, ⟨9742330168536105, -13⟩⟩ ⟨5757, -4⟩ ⟨23700000000000003, -14⟩ ⟨1652, 0⟩ ⟨5069, 0⟩, [(9, -1), (14, -1), (27, 1)], -1, [(9, 1), (14, 1)], [(27, 1)], true⟩,
  ⟨⟨⟨19000000000000003, -5⟩, ⟨0, 0⟩, ⟨7946842873012509, -12⟩⟩, .none, [(9, -1), (14, 1), (15, -1), (16, 1)], 0, [(9, 1), (15, 1)], [(14, 1), (16, 1)], true⟩,
  ⟨⟨⟨9460000000000002, -5⟩, ⟨0, 0⟩, ⟨-25915805975186436, -14⟩⟩, .none, [(1, 1), (9, -1), (17, -1), (28, 1)], 0, [(9, 1), (17, 1)], [(1, 1), (28, 1)], true⟩,
  ⟨⟨⟨5000000000000001, -5⟩, ⟨0, 0⟩, ⟨0, 0⟩⟩, .none, [(9, -1), (14, 1), (22, 1), (27, -1)], 0, [(9, 1), (27, 1)], [(14, 1), (22, 1)], true⟩,
  ⟨⟨⟨5000000000000001, -6⟩, ⟨0, 0⟩, ⟨7548293002481486, -13⟩⟩, .none, [(1, 1), (3, -1), (4, 1), (10, -1), (14, 1)], 1, [(3, 1), (10, 1)], [(1, 1), (4, 1), (14, 1)], false⟩,
  ⟨⟨⟨5000000000000001, -13⟩, ⟨2, 0⟩, ⟨3638277227196076, -12⟩⟩, .none, [(0, -1), (1, 1), (10, -1), (12, 1)], 0, [(0, 1), (10, 1)], [(1, 1), (12, 1)], true⟩,
  ⟨⟨⟨16000000000000002, -4⟩, ⟨0, 0⟩, ⟨6010454108109258, -12⟩⟩, .none, [(0, 1), (10, -2), (22, 1)], 0, [(10, 2)], [(0, 1), (22, 1)], true⟩,
  ⟨⟨⟨4000000000000001, -5⟩, ⟨0, 0⟩, ⟨0, 0⟩⟩, .none, [(1, 1), (10, -1), (12, -1), (24, 1)], 0, [(10, 1), (12, 1)], [(1, 1), (24, 1)], true⟩,
  ⟨⟨⟨24600000000000005, -13⟩, ⟨2, 0⟩, ⟨41616255420347925, -13⟩⟩, .none, [(10, -1), (12, 2), (13, -1)], 0, [(10, 1), (13, 1)], [(12, 2)], true⟩,
  ⟨⟨⟨8100000000000001, -7⟩, ⟨5, -1⟩, ⟨22695200960794336, -13⟩⟩, .troe (.all [(0, ⟨2, 0⟩), (5, ⟨6, 0⟩), (13, ⟨2, 0⟩), (14, ⟨15, -1⟩), (15, ⟨2, 0⟩), (26, ⟨3, 0⟩), (48, ⟨7, -1⟩)]) ⟨⟨26900000000000006, 11⟩, ⟨-511, -2⟩, ⟨3570342590173743, -12⟩⟩ ⟨5907, -4⟩ ⟨275, 0⟩ ⟨1226, 0⟩ ⟨5185, 0⟩, [(10, -1), (14, -1), (28, 1)], -1, [(10, 1), (14, 1)], [(28, 1)], true⟩]

/-- reactions 140 to 159, within src/compute/chemistry/chem_GRI30.cpp:186-3715 -/
def rx140 : List Rxn := [
  ⟨⟨⟨30000000000000004, -6⟩, ⟨0, 0⟩, ⟨0, 0⟩⟩, .none, [(10, -1), (14, 1), (23, 1), (27, -1)], 0, [(10, 1), (27, 1)], [(14, 1), (23, 1)], true⟩,
  ⟨⟨⟨15000000000000002, -6⟩, ⟨0, 0⟩, ⟨30193172009925945, -14⟩⟩, .none, [(10, 1), (11, -1)], 0, [(11, 1), (47, 1)], [(10, 1), (47, 1)], true⟩,
  ⟨⟨⟨9000000000000002, -6⟩, ⟨0, 0⟩, ⟨30193172009925945, -14⟩⟩, .none, [(10, 1), (11, -1)], 0, [(11, 1), (48, 1)], [(10, 1), (48, 1)], true⟩,
  ⟨⟨⟨28000000000000004, -6⟩, ⟨0, 0⟩, ⟨0, 0⟩⟩, .none, [(1, 1), (3, -1), (4, 1), (11, -1), (14, 1)], 1, [(3, 1), (11, 1)], [(1, 1), (4, 1), (14, 1)], true⟩,
  ⟨⟨⟨12000000000000002, -6⟩, ⟨0, 0⟩, ⟨0, 0⟩⟩, .none, [(3, -1), (5, 1), (11, -1), (14, 1)], 0, [(3, 1), (11, 1)], [(5, 1), (14, 1)], true⟩,
  ⟨⟨⟨7000000000000002, -5⟩, ⟨0, 0⟩, ⟨0, 0⟩⟩, .none, [(0, -1), (1, 1), (11, -1), (12, 1)], 0, [(0, 1), (11, 1)], [(1, 1), (12, 1)], true⟩,
  ⟨⟨⟨48200000000000006, -2⟩, ⟨-116, -2⟩, ⟨5761863658560868, -13⟩⟩, .troe (.all [(0, ⟨2, 0⟩), (5, ⟨6, 0⟩), (13, ⟨2, 0⟩), (14, ⟨15, -1⟩), (15, ⟨2, 0⟩), (26, ⟨3, 0⟩)]) ⟨⟨188, 30⟩, ⟨-636, -2⟩, ⟨2536226448833779, -12⟩⟩ ⟨6027, -4⟩ ⟨208, 0⟩ ⟨39219999999999995, -13⟩ ⟨10180, 0⟩, [(5, -1), (11, -1), (20, 1)], -1, [(5, 1), (11, 1)], [(20, 1)], true⟩,
  ⟨⟨⟨30000000000000004, -6⟩, ⟨0, 0⟩, ⟨0, 0⟩⟩, .none, [(10, 1), (11, -1)], 0, [(5, 1), (11, 1)], [(5, 1), (10, 1)], true⟩,
  ⟨⟨⟨12000000000000002, -6⟩, ⟨0, 0⟩, ⟨-28683513409429645, -14⟩⟩, .none, [(1, 1), (11, -1), (12, -1), (24, 1)], 0, [(11, 1), (12, 1)], [(1, 1), (24, 1)], true⟩,
  ⟨⟨⟨16000000000000002, -6⟩, ⟨0, 0⟩, ⟨-28683513409429645, -14⟩⟩, .none, [(11, -1), (12, 2), (13, -1)], 0, [(11, 1), (13, 1)], [(12, 2)], true⟩,
  ⟨⟨⟨9000000000000002, -6⟩, ⟨0, 0⟩, ⟨0, 0⟩⟩, .none, [(10, 1), (11, -1)], 0, [(11, 1), (14, 1)], [(10, 1), (14, 1)], true⟩,
  ⟨⟨⟨7000000000000001, -6⟩, ⟨0, 0⟩, ⟨0, 0⟩⟩, .none, [(10, 1), (11, -1)], 0, [(11, 1), (15, 1)], [(10, 1), (15, 1)], true⟩,
  ⟨⟨⟨14000000000000002, -6⟩, ⟨0, 0⟩, ⟨0, 0⟩⟩, .none, [(11, -1), (14, 1), (15, -1), (17, 1)], 0, [(11, 1), (15, 1)], [(14, 1), (17, 1)], true⟩,
  ⟨⟨⟨4000000000000001, -5⟩, ⟨0, 0⟩, ⟨-27677074342432115, -14⟩⟩, .none, [(11, -1), (12, 1), (25, 1), (26, -1)], 0, [(11, 1), (26, 1)], [(12, 1), (25, 1)], true⟩,
  ⟨⟨⟨3560000000000001, -5⟩, ⟨0, 0⟩, ⟨1533813138104238, -11⟩⟩, .none, [(2, 1), (3, -1), (12, -1), (19, 1)], 0, [(3, 1), (12, 1)], [(2, 1), (19, 1)], true⟩,
  ⟨⟨⟨23100000000000005, -7⟩, ⟨0, 0⟩, ⟨10222904823027426, -12⟩⟩, .none, [(3, -1), (4, 1), (12, -1), (17, 1)], 0, [(3, 1), (12, 1)], [(4, 1), (17, 1)], true⟩,
  ⟨⟨⟨24500000000000004, -15⟩, ⟨247, -2⟩, ⟨26066771835236063, -13⟩⟩, .none, [(6, 1), (7, -1), (12, -1), (13, 1)], 0, [(7, 1), (12, 1)], [(6, 1), (13, 1)], true⟩,
  ⟨⟨⟨6770000000000001, -2⟩, ⟨-118, -2⟩, ⟨3291055749081928, -13⟩⟩, .troe (.all [(0, ⟨2, 0⟩), (5, ⟨6, 0⟩), (13, ⟨2, 0⟩), (14, ⟨15, -1⟩), (15, ⟨2, 0⟩), (26, ⟨3, 0⟩), (48, ⟨7, -1⟩)]) ⟨⟨3400000000000001, 20⟩, ⟨-703, -2⟩, ⟨1389892351523591, -12⟩⟩ ⟨619, -3⟩ ⟨732, -1⟩ ⟨1180, 0⟩ ⟨9999, 0⟩, [(12, -2), (26, 1)], -1, [(12, 2)], [(26, 1)], true⟩,
  ⟨⟨⟨6840000000000001, -6⟩, ⟨1, -1⟩, ⟨5334127055086917, -12⟩⟩, .none, [(1, 1), (12, -2), (25, 1)], 0, [(12, 2)], [(1, 1), (25, 1)], true⟩,
  ⟨⟨⟨26480000000000004, -6⟩, ⟨0, 0⟩, ⟨0, 0⟩⟩, .none, [(12, -1), (13, 1), (14, 1), (16, -1)], 0, [(12, 1), (16, 1)], [(13, 1), (14, 1)], true⟩]

/-- reactions 160 to 179, within src/compute/chemistry/chem_GRI30.cpp:186-3715 -/
def rx160 : List Rxn := [
  ⟨⟨⟨33200000000000003, -16⟩, ⟨281, -2⟩, ⟨2948866466302767, -12⟩⟩, .none, [(12, -1), (13, 1), (16, 1), (17, -1)], 0, [(12, 1), (17, 1)], [(13, 1), (16, 1)], true⟩,
  ⟨⟨⟨30000000000000004, -12⟩, ⟨15, -1⟩, ⟨5002002162977731, -12⟩⟩, .none, [(12, -1), (13, 1), (18, 1), (20, -1)], 0, [(12, 1), (20, 1)], [(13, 1), (18, 1)], true⟩,
  ⟨⟨⟨10000000000000002, -12⟩, ⟨15, -1⟩, ⟨5002002162977731, -12⟩⟩, .none, [(12, -1), (13, 1), (19, 1), (20, -1)], 0, [(12, 1), (20, 1)], [(13, 1), (19, 1)], true⟩,
  ⟨⟨⟨22700000000000003, -14⟩, ⟨2, 0⟩, ⟨4629619708188645, -12⟩⟩, .none, [(12, -1), (13, 1), (23, 1), (24, -1)], 0, [(12, 1), (24, 1)], [(13, 1), (23, 1)], true⟩,
  ⟨⟨⟨6140000000000002, -12⟩, ⟨174, -2⟩, ⟨5258644125062102, -12⟩⟩, .none, [(12, -1), (13, 1), (25, 1), (26, -1)], 0, [(12, 1), (26, 1)], [(13, 1), (25, 1)], true⟩,
  ⟨⟨⟨15000000000000002, -1⟩, ⟨-1, 0⟩, ⟨8554732069479018, -12⟩⟩, .three (.only 5), [(1, 1), (14, 1), (16, -1)], 1, [(16, 1)], [(1, 1), (14, 1)], true⟩,
  ⟨⟨⟨18700000000000003, -2⟩, ⟨-1, 0⟩, ⟨8554732069479018, -12⟩⟩, .three (.all [(0, ⟨2, 0⟩), (5, ⟨0, 0⟩), (13, ⟨2, 0⟩), (14, ⟨15, -1⟩), (15, ⟨2, 0⟩), (26, ⟨3, 0⟩)]), [(1, 1), (14, 1), (16, -1)], 1, [(16, 1)], [(1, 1), (14, 1)], true⟩,
  ⟨⟨⟨13450000000000002, -6⟩, ⟨0, 0⟩, ⟨2012878133995063, -13⟩⟩, .none, [(3, -1), (6, 1), (14, 1), (16, -1)], 0, [(3, 1), (16, 1)], [(6, 1), (14, 1)], true⟩,
  ⟨⟨⟨18000000000000004, -6⟩, ⟨0, 0⟩, ⟨4528975801488892, -13⟩⟩, .none, [(3, -1), (6, 1), (17, 1), (18, -1)], 0, [(3, 1), (18, 1)], [(6, 1), (17, 1)], true⟩,
  ⟨⟨⟨42800000000000005, -32⟩, ⟨76, -1⟩, ⟨-1776364953250643, -12⟩⟩, .none, [(3, -1), (6, 1), (17, 1), (19, -1)], 0, [(3, 1), (19, 1)], [(6, 1), (17, 1)], true⟩,
  ⟨⟨⟨10000000000000002, -6⟩, ⟨0, 0⟩, ⟨-37993074779156814, -14⟩⟩, .none, [(3, -1), (14, 1), (16, 1), (21, -1)], 0, [(3, 1), (21, 1)], [(14, 1), (16, 1)], true⟩,
  ⟨⟨⟨5680000000000001, -8⟩, ⟨9, -1⟩, ⟨10029165302630402, -13⟩⟩, .none, [(0, -1), (1, 1), (21, -1), (22, 1)], 0, [(0, 1), (21, 1)], [(1, 1), (22, 1)], true⟩,
  ⟨⟨⟨4580000000000001, -2⟩, ⟨-139, -2⟩, ⟨5107678265012472, -13⟩⟩, .none, [(3, -1), (16, 1), (17, 1), (23, -1)], 0, [(3, 1), (23, 1)], [(16, 1), (17, 1)], true⟩,
  ⟨⟨⟨8000000000000, 0⟩, ⟨44, -2⟩, ⟨43664358921687905, -12⟩⟩, .troe (.all [(0, ⟨2, 0⟩), (5, ⟨6, 0⟩), (13, ⟨2, 0⟩), (14, ⟨15, -1⟩), (15, ⟨2, 0⟩), (26, ⟨3, 0⟩), (48, ⟨7, -1⟩)]) ⟨⟨15800000000000006, 32⟩, ⟨-93, -1⟩, ⟨49214870376179286, -12⟩⟩ ⟨7345, -4⟩ ⟨180, 0⟩ ⟨1035, 0⟩ ⟨5417, 0⟩, [(0, 1), (22, 1), (24, -1)], 1, [(24, 1)], [(0, 1), (22, 1)], true⟩,
  ⟨⟨⟨8400000000000001, -7⟩, ⟨0, 0⟩, ⟨19499756923077173, -13⟩⟩, .none, [(3, -1), (6, 1), (24, 1), (25, -1)], 0, [(3, 1), (25, 1)], [(6, 1), (24, 1)], true⟩,
  ⟨⟨⟨32000000000000005, -7⟩, ⟨0, 0⟩, ⟨42974948160794594, -14⟩⟩, .none, [(3, -1), (4, 1), (14, 2), (27, -1)], 1, [(3, 1), (27, 1)], [(4, 1), (14, 2)], true⟩,
  ⟨⟨⟨10000000000000002, -6⟩, ⟨0, 0⟩, ⟨0, 0⟩⟩, .none, [(14, 2), (22, 1), (27, -2)], 1, [(27, 2)], [(14, 2), (22, 1)], true⟩,
  ⟨⟨⟨27000000000000004, -6⟩, ⟨0, 0⟩, ⟨17864293439206185, -14⟩⟩, .none, [(2, 1), (30, -1), (35, -1), (47, 1)], 0, [(30, 1), (35, 1)], [(2, 1), (47, 1)], true⟩,
  ⟨⟨⟨9000000000000002, -9⟩, ⟨1, 0⟩, ⟨32709269677419775, -13⟩⟩, .none, [(2, 1), (3, -1), (30, -1), (35, 1)], 0, [(3, 1), (30, 1)], [(2, 1), (35, 1)], true⟩,
  ⟨⟨⟨33600000000000008, -6⟩, ⟨0, 0⟩, ⟨19373952039702482, -14⟩⟩, .none, [(1, 1), (4, -1), (30, -1), (35, 1)], 0, [(4, 1), (30, 1)], [(1, 1), (35, 1)], true⟩]

/-- reactions 180 to 199, within src/compute/chemistry/chem_GRI30.cpp:186-3715 -/
def rx180 : List Rxn := [
  ⟨⟨⟨14000000000000002, -7⟩, ⟨0, 0⟩, ⟨5439803157121658, -12⟩⟩, .none, [(2, -1), (3, 1), (37, -1), (47, 1)], 0, [(2, 1), (37, 1)], [(3, 1), (47, 1)], true⟩,
  ⟨⟨⟨29000000000000004, -6⟩, ⟨0, 0⟩, ⟨11649532200496427, -12⟩⟩, .none, [(2, -1), (35, 2), (37, -1)], 0, [(2, 1), (37, 1)], [(35, 2)], true⟩,
  ⟨⟨⟨38700000000000006, -5⟩, ⟨0, 0⟩, ⟨9500784792456698, -12⟩⟩, .none, [(1, -1), (4, 1), (37, -1), (47, 1)], 0, [(1, 1), (37, 1)], [(4, 1), (47, 1)], true⟩,
  ⟨⟨⟨20000000000000002, -7⟩, ⟨0, 0⟩, ⟨10597803375484007, -12⟩⟩, .none, [(4, -1), (6, 1), (37, -1), (47, 1)], 0, [(4, 1), (37, 1)], [(6, 1), (47, 1)], true⟩,
  ⟨⟨⟨79100000000, 0⟩, ⟨0, 0⟩, ⟨28190358266600855, -12⟩⟩, .lind (.all [(0, ⟨2, 0⟩), (5, ⟨6, 0⟩), (13, ⟨2, 0⟩), (14, ⟨15, -1⟩), (15, ⟨2, 0⟩), (26, ⟨3, 0⟩), (48, ⟨625, -3⟩)]) ⟨⟨6370000000000001, -4⟩, ⟨0, 0⟩, ⟨2850235437737009, -11⟩⟩, [(2, 1), (37, -1), (47, 1)], 1, [(37, 1)], [(2, 1), (47, 1)], true⟩,
  ⟨⟨⟨21100000000000005, -7⟩, ⟨0, 0⟩, ⟨-24154537607940756, -14⟩⟩, .none, [(4, 1), (6, -1), (35, -1), (36, 1)], 0, [(6, 1), (35, 1)], [(4, 1), (36, 1)], true⟩,
  ⟨⟨⟨10600000000000002, -2⟩, ⟨-141, -2⟩, ⟨0, 0⟩⟩, .three (.all [(0, ⟨2, 0⟩), (5, ⟨6, 0⟩), (13, ⟨2, 0⟩), (14, ⟨15, -1⟩), (15, ⟨2, 0⟩), (26, ⟨3, 0⟩), (48, ⟨7, -1⟩)]), [(2, -1), (35, -1), (36, 1)], -1, [(2, 1), (35, 1)], [(36, 1)], true⟩,
  ⟨⟨⟨39000000000000005, -7⟩, ⟨0, 0⟩, ⟨-12077268803970378, -14⟩⟩, .none, [(2, -1), (3, 1), (35, 1), (36, -1)], 0, [(2, 1), (36, 1)], [(3, 1), (35, 1)], true⟩,
  ⟨⟨⟨13200000000000002, -5⟩, ⟨0, 0⟩, ⟨18115903205955567, -14⟩⟩, .none, [(1, -1), (4, 1), (35, 1), (36, -1)], 0, [(1, 1), (36, 1)], [(4, 1), (35, 1)], true⟩,
  ⟨⟨⟨4000000000000001, -5⟩, ⟨0, 0⟩, ⟨0, 0⟩⟩, .none, [(1, 1), (2, -1), (31, -1), (35, 1)], 0, [(2, 1), (31, 1)], [(1, 1), (35, 1)], true⟩,
  ⟨⟨⟨32000000000000004, -6⟩, ⟨0, 0⟩, ⟨1660624460545927, -13⟩⟩, .none, [(0, 1), (1, -1), (30, 1), (31, -1)], 0, [(1, 1), (31, 1)], [(0, 1), (30, 1)], true⟩,
  ⟨⟨⟨20000000000000004, -6⟩, ⟨0, 0⟩, ⟨0, 0⟩⟩, .none, [(1, 1), (4, -1), (31, -1), (38, 1)], 0, [(4, 1), (31, 1)], [(1, 1), (38, 1)], true⟩,
  ⟨⟨⟨20000000000000002, -10⟩, ⟨12, -1⟩, ⟨0, 0⟩⟩, .none, [(4, -1), (5, 1), (30, 1), (31, -1)], 0, [(4, 1), (31, 1)], [(5, 1), (30, 1)], true⟩,
  ⟨⟨⟨46100000000000006, -14⟩, ⟨2, 0⟩, ⟨32709269677419775, -13⟩⟩, .none, [(2, 1), (3, -1), (31, -1), (38, 1)], 0, [(3, 1), (31, 1)], [(2, 1), (38, 1)], true⟩,
  ⟨⟨⟨12800000000000002, -13⟩, ⟨15, -1⟩, ⟨5032195334987657, -14⟩⟩, .none, [(3, -1), (4, 1), (31, -1), (35, 1)], 0, [(3, 1), (31, 1)], [(4, 1), (35, 1)], true⟩,
  ⟨⟨⟨15000000000000002, -6⟩, ⟨0, 0⟩, ⟨0, 0⟩⟩, .none, [(1, 1), (30, -1), (31, -1), (47, 1)], 0, [(30, 1), (31, 1)], [(1, 1), (47, 1)], true⟩,
  ⟨⟨⟨20000000000000004, -6⟩, ⟨0, 0⟩, ⟨6969590538957906, -12⟩⟩, .none, [(0, 1), (5, -1), (31, -1), (38, 1)], 0, [(5, 1), (31, 1)], [(0, 1), (38, 1)], true⟩,
  ⟨⟨⟨21600000000000004, -6⟩, ⟨-23, -2⟩, ⟨0, 0⟩⟩, .none, [(4, 1), (31, -1), (35, -1), (47, 1)], 0, [(31, 1), (35, 1)], [(4, 1), (47, 1)], true⟩,
  ⟨⟨⟨36500000000000006, -5⟩, ⟨-45, -2⟩, ⟨0, 0⟩⟩, .none, [(1, 1), (31, -1), (35, -1), (37, 1)], 0, [(31, 1), (35, 1)], [(1, 1), (37, 1)], true⟩,
  ⟨⟨⟨30000000000000005, -7⟩, ⟨0, 0⟩, ⟨0, 0⟩⟩, .none, [(2, -1), (4, 1), (31, 1), (32, -1)], 0, [(2, 1), (32, 1)], [(4, 1), (31, 1)], true⟩]

/-- reactions 200 to 219, within src/compute/chemistry/chem_GRI30.cpp:186-3715 -/
def rx200 : List Rxn := [
  ⟨⟨⟨3900000000000001, -5⟩, ⟨0, 0⟩, ⟨0, 0⟩⟩, .none, [(1, 1), (2, -1), (32, -1), (38, 1)], 0, [(2, 1), (32, 1)], [(1, 1), (38, 1)], true⟩,
  ⟨⟨⟨4000000000000001, -5⟩, ⟨0, 0⟩, ⟨1836751297270495, -12⟩⟩, .none, [(0, 1), (1, -1), (31, 1), (32, -1)], 0, [(1, 1), (32, 1)], [(0, 1), (31, 1)], true⟩,
  ⟨⟨⟨9000000000000001, -11⟩, ⟨15, -1⟩, ⟨-23148098540943224, -14⟩⟩, .none, [(4, -1), (5, 1), (31, 1), (32, -1)], 0, [(4, 1), (32, 1)], [(5, 1), (31, 1)], true⟩,
  ⟨⟨⟨330000000, 0⟩, ⟨0, 0⟩, ⟨0, 0⟩⟩, .none, [(1, 1), (34, -1), (47, 1)], 1, [(34, 1)], [(1, 1), (47, 1)], true⟩,
  ⟨⟨⟨13000000000000002, -5⟩, ⟨-11, -2⟩, ⟨2506033276823853, -12⟩⟩, .three (.all [(0, ⟨2, 0⟩), (5, ⟨6, 0⟩), (13, ⟨2, 0⟩), (14, ⟨15, -1⟩), (15, ⟨2, 0⟩), (26, ⟨3, 0⟩), (48, ⟨7, -1⟩)]), [(1, 1), (34, -1), (47, 1)], 1, [(34, 1)], [(1, 1), (47, 1)], true⟩,
  ⟨⟨⟨5000000000000001, -6⟩, ⟨0, 0⟩, ⟨0, 0⟩⟩, .none, [(3, -1), (6, 1), (34, -1), (47, 1)], 0, [(3, 1), (34, 1)], [(6, 1), (47, 1)], true⟩,
  ⟨⟨⟨25000000000000004, -6⟩, ⟨0, 0⟩, ⟨0, 0⟩⟩, .none, [(2, -1), (4, 1), (34, -1), (47, 1)], 0, [(2, 1), (34, 1)], [(4, 1), (47, 1)], true⟩,
  ⟨⟨⟨7000000000000002, -5⟩, ⟨0, 0⟩, ⟨0, 0⟩⟩, .none, [(2, -1), (31, 1), (34, -1), (35, 1)], 0, [(2, 1), (34, 1)], [(31, 1), (35, 1)], true⟩,
  ⟨⟨⟨5000000000000001, -5⟩, ⟨0, 0⟩, ⟨0, 0⟩⟩, .none, [(0, 1), (1, -1), (34, -1), (47, 1)], 0, [(1, 1), (34, 1)], [(0, 1), (47, 1)], true⟩,
  ⟨⟨⟨20000000000000004, -6⟩, ⟨0, 0⟩, ⟨0, 0⟩⟩, .none, [(4, -1), (5, 1), (34, -1), (47, 1)], 0, [(4, 1), (34, 1)], [(5, 1), (47, 1)], true⟩,
  ⟨⟨⟨25000000000000004, -6⟩, ⟨0, 0⟩, ⟨0, 0⟩⟩, .none, [(12, -1), (13, 1), (34, -1), (47, 1)], 0, [(12, 1), (34, 1)], [(13, 1), (47, 1)], true⟩,
  ⟨⟨⟨4480000000000001, -2⟩, ⟨-132, -2⟩, ⟨37238245478908664, -14⟩⟩, .three (.all [(0, ⟨2, 0⟩), (5, ⟨6, 0⟩), (13, ⟨2, 0⟩), (14, ⟨15, -1⟩), (15, ⟨2, 0⟩), (26, ⟨3, 0⟩), (48, ⟨7, -1⟩)]), [(1, -1), (35, -1), (38, 1)], -1, [(1, 1), (35, 1)], [(38, 1)], true⟩,
  ⟨⟨⟨25000000000000004, -6⟩, ⟨0, 0⟩, ⟨0, 0⟩⟩, .none, [(2, -1), (4, 1), (35, 1), (38, -1)], 0, [(2, 1), (38, 1)], [(4, 1), (35, 1)], true⟩,
  ⟨⟨⟨9000000000000001, -7⟩, ⟨72, -2⟩, ⟨3321248921091854, -13⟩⟩, .none, [(0, 1), (1, -1), (35, 1), (38, -1)], 0, [(1, 1), (38, 1)], [(0, 1), (35, 1)], true⟩,
  ⟨⟨⟨13000000000000002, -12⟩, ⟨19, -1⟩, ⟨-4780585568238275, -13⟩⟩, .none, [(4, -1), (5, 1), (35, 1), (38, -1)], 0, [(4, 1), (38, 1)], [(5, 1), (35, 1)], true⟩,
  ⟨⟨⟨10000000000000002, -6⟩, ⟨0, 0⟩, ⟨6541853935483955, -12⟩⟩, .none, [(3, -1), (6, 1), (35, 1), (38, -1)], 0, [(3, 1), (38, 1)], [(6, 1), (35, 1)], true⟩,
  ⟨⟨⟨7700000000000002, -5⟩, ⟨0, 0⟩, ⟨0, 0⟩⟩, .none, [(2, -1), (14, 1), (30, 1), (39, -1)], 0, [(2, 1), (39, 1)], [(14, 1), (30, 1)], true⟩,
  ⟨⟨⟨4000000000000001, -5⟩, ⟨0, 0⟩, ⟨0, 0⟩⟩, .none, [(1, 1), (4, -1), (39, -1), (46, 1)], 0, [(4, 1), (39, 1)], [(1, 1), (46, 1)], true⟩,
  ⟨⟨⟨8000000000000001, -6⟩, ⟨0, 0⟩, ⟨37540177199007926, -13⟩⟩, .none, [(4, 1), (5, -1), (39, -1), (40, 1)], 0, [(5, 1), (39, 1)], [(4, 1), (40, 1)], true⟩,
  ⟨⟨⟨6140000000000001, -6⟩, ⟨0, 0⟩, ⟨-2214165947394569, -13⟩⟩, .none, [(2, 1), (3, -1), (39, -1), (46, 1)], 0, [(3, 1), (39, 1)], [(2, 1), (46, 1)], true⟩]

/-- reactions 220 to 239, within src/compute/chemistry/chem_GRI30.cpp:186-3715 -/
def rx220 : List Rxn := [
  ⟨⟨⟨29500000000000006, -14⟩, ⟨245, -2⟩, ⟨11272117550372352, -13⟩⟩, .none, [(0, -1), (1, 1), (39, -1), (40, 1)], 0, [(0, 1), (39, 1)], [(1, 1), (40, 1)], true⟩,
  ⟨⟨⟨23500000000000004, -6⟩, ⟨0, 0⟩, ⟨0, 0⟩⟩, .none, [(2, -1), (14, 1), (35, 1), (46, -1)], 0, [(2, 1), (46, 1)], [(14, 1), (35, 1)], true⟩,
  ⟨⟨⟨5400000000000001, -5⟩, ⟨0, 0⟩, ⟨0, 0⟩⟩, .none, [(1, -1), (14, 1), (31, 1), (46, -1)], 0, [(1, 1), (46, 1)], [(14, 1), (31, 1)], true⟩,
  ⟨⟨⟨25000000000000005, -7⟩, ⟨0, 0⟩, ⟨0, 0⟩⟩, .none, [(1, 1), (4, -1), (14, 1), (35, 1), (46, -1)], 1, [(4, 1), (46, 1)], [(1, 1), (14, 1), (35, 1)], true⟩,
  ⟨⟨⟨20000000000000004, -6⟩, ⟨0, 0⟩, ⟨0, 0⟩⟩, .none, [(14, 1), (30, -1), (46, -1), (47, 1)], 0, [(30, 1), (46, 1)], [(14, 1), (47, 1)], true⟩,
  ⟨⟨⟨20000000000000002, -7⟩, ⟨0, 0⟩, ⟨10064390669975315, -12⟩⟩, .none, [(3, -1), (15, 1), (35, 1), (46, -1)], 0, [(3, 1), (46, 1)], [(15, 1), (35, 1)], true⟩,
  ⟨⟨⟨31000000000000006, -5⟩, ⟨0, 0⟩, ⟨27199015785608288, -12⟩⟩, .three (.all [(0, ⟨2, 0⟩), (5, ⟨6, 0⟩), (13, ⟨2, 0⟩), (14, ⟨15, -1⟩), (15, ⟨2, 0⟩), (26, ⟨3, 0⟩), (48, ⟨7, -1⟩)]), [(14, 1), (30, 1), (46, -1)], 1, [(46, 1)], [(14, 1), (30, 1)], true⟩,
  ⟨⟨⟨19000000000000003, -2⟩, ⟨-152, -2⟩, ⟨37238245478908664, -14⟩⟩, .none, [(14, 1), (35, -1), (37, 1), (46, -1)], 0, [(35, 1), (46, 1)], [(14, 1), (37, 1)], true⟩,
  ⟨⟨⟨38000000000000005, -1⟩, ⟨-2, 0⟩, ⟨4025756267990126, -13⟩⟩, .none, [(15, 1), (35, -1), (46, -1), (47, 1)], 0, [(35, 1), (46, 1)], [(15, 1), (47, 1)], true⟩,
  ⟨⟨⟨10400000000000003, 10⟩, ⟨-33, -1⟩, ⟨63707592940943745, -12⟩⟩, .three (.all [(0, ⟨2, 0⟩), (5, ⟨6, 0⟩), (13, ⟨2, 0⟩), (14, ⟨15, -1⟩), (15, ⟨2, 0⟩), (26, ⟨3, 0⟩), (48, ⟨7, -1⟩)]), [(1, 1), (39, 1), (40, -1)], 1, [(40, 1)], [(1, 1), (39, 1)], true⟩,
  ⟨⟨⟨203, -1⟩, ⟨264, -2⟩, ⟨2506033276823853, -12⟩⟩, .none, [(1, 1), (2, -1), (40, -1), (46, 1)], 0, [(2, 1), (40, 1)], [(1, 1), (46, 1)], true⟩,
  ⟨⟨⟨507, -2⟩, ⟨264, -2⟩, ⟨2506033276823853, -12⟩⟩, .none, [(2, -1), (14, 1), (31, 1), (40, -1)], 0, [(2, 1), (40, 1)], [(14, 1), (31, 1)], true⟩,
  ⟨⟨⟨39100000000000005, -10⟩, ⟨158, -2⟩, ⟨13385639591067169, -12⟩⟩, .none, [(2, -1), (4, 1), (39, 1), (40, -1)], 0, [(2, 1), (40, 1)], [(4, 1), (39, 1)], true⟩,
  ⟨⟨⟨1100, 0⟩, ⟨203, -2⟩, ⟨6728045162878498, -12⟩⟩, .none, [(1, 1), (4, -1), (40, -1), (44, 1)], 0, [(4, 1), (40, 1)], [(1, 1), (44, 1)], true⟩,
  ⟨⟨⟨4400000000000001, -15⟩, ⟨226, -2⟩, ⟨32206050143921007, -13⟩⟩, .none, [(1, 1), (4, -1), (40, -1), (45, 1)], 0, [(4, 1), (40, 1)], [(1, 1), (45, 1)], true⟩,
  ⟨⟨⟨16000000000000003, -17⟩, ⟨256, -2⟩, ⟨4528975801488891, -12⟩⟩, .none, [(4, -1), (14, 1), (32, 1), (40, -1)], 0, [(4, 1), (40, 1)], [(14, 1), (32, 1)], true⟩,
  ⟨⟨⟨33000000000000004, -6⟩, ⟨0, 0⟩, ⟨0, 0⟩⟩, .lind (.all [(0, ⟨2, 0⟩), (5, ⟨6, 0⟩), (13, ⟨2, 0⟩), (14, ⟨15, -1⟩), (15, ⟨2, 0⟩), (26, ⟨3, 0⟩), (48, ⟨7, -1⟩)]) ⟨⟨14000000000000003, 4⟩, ⟨-34, -1⟩, ⟨956117113647655, -12⟩⟩, [(1, -1), (40, -1), (41, 1)], -1, [(1, 1), (40, 1)], [(41, 1)], true⟩,
  ⟨⟨⟨6000000000000001, -5⟩, ⟨0, 0⟩, ⟨2012878133995063, -13⟩⟩, .none, [(10, 1), (30, -1), (41, -1), (47, 1)], 0, [(30, 1), (41, 1)], [(10, 1), (47, 1)], true⟩,
  ⟨⟨⟨6300000000000001, -5⟩, ⟨0, 0⟩, ⟨231581629316132, -10⟩⟩, .none, [(8, -1), (30, 1), (39, 1), (47, -1)], 0, [(8, 1), (47, 1)], [(30, 1), (39, 1)], true⟩,
  ⟨⟨⟨31200000000000005, -10⟩, ⟨88, -2⟩, ⟨10129809209330155, -12⟩⟩, .none, [(9, -1), (30, 1), (40, 1), (47, -1)], 0, [(9, 1), (47, 1)], [(30, 1), (40, 1)], true⟩]

/-- reactions 240 to 259, within src/compute/chemistry/chem_GRI30.cpp:186-3715 -/
def rx240 : List Rxn := [
  ⟨⟨⟨31000000000000005, -7⟩, ⟨15, -2⟩, ⟨0, 0⟩⟩, .troe (.all [(0, ⟨2, 0⟩), (5, ⟨6, 0⟩), (13, ⟨2, 0⟩), (14, ⟨15, -1⟩), (15, ⟨2, 0⟩), (26, ⟨3, 0⟩)]) ⟨⟨13000000000000002, 3⟩, ⟨-316, -2⟩, ⟨37238245478908664, -14⟩⟩ ⟨667, -3⟩ ⟨235, 0⟩ ⟨2117, 0⟩ ⟨4536, 0⟩, [(9, -1), (42, 1), (47, -1)], -1, [(9, 1), (47, 1)], [(42, 1)], true⟩,
  ⟨⟨⟨10000000000000002, -6⟩, ⟨0, 0⟩, ⟨3723824547890866, -11⟩⟩, .none, [(10, -1), (31, 1), (40, 1), (47, -1)], 0, [(10, 1), (47, 1)], [(31, 1), (40, 1)], true⟩,
  ⟨⟨⟨10000000000000001, -8⟩, ⟨0, 0⟩, ⟨32709269677419772, -12⟩⟩, .none, [(11, -1), (31, 1), (40, 1), (47, -1)], 0, [(11, 1), (47, 1)], [(31, 1), (40, 1)], true⟩,
  ⟨⟨⟨19000000000000004, -6⟩, ⟨0, 0⟩, ⟨0, 0⟩⟩, .none, [(2, 1), (8, -1), (35, -1), (39, 1)], 0, [(8, 1), (35, 1)], [(2, 1), (39, 1)], true⟩,
  ⟨⟨⟨29000000000000004, -6⟩, ⟨0, 0⟩, ⟨0, 0⟩⟩, .none, [(8, -1), (14, 1), (30, 1), (35, -1)], 0, [(8, 1), (35, 1)], [(14, 1), (30, 1)], true⟩,
  ⟨⟨⟨4100000000000001, -5⟩, ⟨0, 0⟩, ⟨0, 0⟩⟩, .none, [(2, 1), (9, -1), (35, -1), (40, 1)], 0, [(9, 1), (35, 1)], [(2, 1), (40, 1)], true⟩,
  ⟨⟨⟨16200000000000002, -6⟩, ⟨0, 0⟩, ⟨0, 0⟩⟩, .none, [(1, 1), (9, -1), (35, -1), (46, 1)], 0, [(9, 1), (35, 1)], [(1, 1), (46, 1)], true⟩,
  ⟨⟨⟨24600000000000004, -6⟩, ⟨0, 0⟩, ⟨0, 0⟩⟩, .none, [(9, -1), (16, 1), (30, 1), (35, -1)], 0, [(9, 1), (35, 1)], [(16, 1), (30, 1)], true⟩,
  ⟨⟨⟨31000000000000006, -2⟩, ⟨-138, -2⟩, ⟨6390888075434325, -13⟩⟩, .none, [(1, 1), (10, -1), (35, -1), (45, 1)], 0, [(10, 1), (35, 1)], [(1, 1), (45, 1)], true⟩,
  ⟨⟨⟨29000000000000006, -5⟩, ⟨-69, -2⟩, ⟨38244684545906193, -14⟩⟩, .none, [(4, 1), (10, -1), (35, -1), (40, 1)], 0, [(10, 1), (35, 1)], [(4, 1), (40, 1)], true⟩,
  ⟨⟨⟨3800000000000001, -5⟩, ⟨-36, -2⟩, ⟨29186732942928415, -14⟩⟩, .none, [(1, 1), (10, -1), (35, -1), (43, 1)], 0, [(10, 1), (35, 1)], [(1, 1), (43, 1)], true⟩,
  ⟨⟨⟨31000000000000006, -2⟩, ⟨-138, -2⟩, ⟨6390888075434325, -13⟩⟩, .none, [(1, 1), (11, -1), (35, -1), (45, 1)], 0, [(11, 1), (35, 1)], [(1, 1), (45, 1)], true⟩,
  ⟨⟨⟨29000000000000006, -5⟩, ⟨-69, -2⟩, ⟨38244684545906193, -14⟩⟩, .none, [(4, 1), (11, -1), (35, -1), (40, 1)], 0, [(11, 1), (35, 1)], [(4, 1), (40, 1)], true⟩,
  ⟨⟨⟨3800000000000001, -5⟩, ⟨-36, -2⟩, ⟨29186732942928415, -14⟩⟩, .none, [(1, 1), (11, -1), (35, -1), (43, 1)], 0, [(11, 1), (35, 1)], [(1, 1), (43, 1)], true⟩,
  ⟨⟨⟨9600000000000002, -5⟩, ⟨0, 0⟩, ⟨14492722564764454, -12⟩⟩, .none, [(5, 1), (12, -1), (35, -1), (40, 1)], 0, [(12, 1), (35, 1)], [(5, 1), (40, 1)], true⟩,
  ⟨⟨⟨10000000000000001, -7⟩, ⟨0, 0⟩, ⟨10945024853598155, -12⟩⟩, .none, [(4, 1), (12, -1), (35, -1), (41, 1)], 0, [(12, 1), (35, 1)], [(4, 1), (41, 1)], true⟩,
  ⟨⟨⟨22000000000000004, -6⟩, ⟨0, 0⟩, ⟨0, 0⟩⟩, .none, [(1, 1), (2, -1), (14, 1), (42, -1), (47, 1)], 1, [(2, 1), (42, 1)], [(1, 1), (14, 1), (47, 1)], true⟩,
  ⟨⟨⟨20000000000000002, -7⟩, ⟨0, 0⟩, ⟨0, 0⟩⟩, .none, [(2, -1), (35, 1), (40, 1), (42, -1)], 0, [(2, 1), (42, 1)], [(35, 1), (40, 1)], true⟩,
  ⟨⟨⟨12000000000000002, -6⟩, ⟨0, 0⟩, ⟨0, 0⟩⟩, .none, [(2, 1), (3, -1), (16, 1), (42, -1), (47, 1)], 1, [(3, 1), (42, 1)], [(2, 1), (16, 1), (47, 1)], true⟩,
  ⟨⟨⟨12000000000000002, -6⟩, ⟨0, 0⟩, ⟨0, 0⟩⟩, .none, [(1, 1), (4, -1), (16, 1), (42, -1), (47, 1)], 1, [(4, 1), (42, 1)], [(1, 1), (16, 1), (47, 1)], true⟩]

/-- reactions 260 to 279, within src/compute/chemistry/chem_GRI30.cpp:186-3715 -/
def rx260 : List Rxn := [
  ⟨⟨⟨10000000000000002, -5⟩, ⟨0, 0⟩, ⟨0, 0⟩⟩, .none, [(1, -1), (10, 1), (42, -1), (47, 1)], 0, [(1, 1), (42, 1)], [(10, 1), (47, 1)], true⟩,
  ⟨⟨⟨9800000000000001, -11⟩, ⟨141, -2⟩, ⟨4277366034739509, -12⟩⟩, .none, [(2, -1), (15, 1), (31, 1), (45, -1)], 0, [(2, 1), (45, 1)], [(15, 1), (31, 1)], true⟩,
  ⟨⟨⟨15000000000000003, -11⟩, ⟨157, -2⟩, ⟨22141659473945692, -12⟩⟩, .none, [(2, -1), (14, 1), (38, 1), (45, -1)], 0, [(2, 1), (45, 1)], [(14, 1), (38, 1)], true⟩,
  ⟨⟨⟨2200, 0⟩, ⟨211, -2⟩, ⟨5736702681885929, -12⟩⟩, .none, [(2, -1), (4, 1), (45, -1), (46, 1)], 0, [(2, 1), (45, 1)], [(4, 1), (46, 1)], true⟩,
  ⟨⟨⟨22500000000000004, -12⟩, ⟨17, -1⟩, ⟨191223422729531, -11⟩⟩, .none, [(1, -1), (14, 1), (32, 1), (45, -1)], 0, [(1, 1), (45, 1)], [(14, 1), (32, 1)], true⟩,
  ⟨⟨⟨10500000000000003, -14⟩, ⟨25, -1⟩, ⟨66928197955335845, -13⟩⟩, .none, [(0, 1), (1, -1), (45, -1), (46, 1)], 0, [(1, 1), (45, 1)], [(0, 1), (46, 1)], true⟩,
  ⟨⟨⟨3300000000000001, -11⟩, ⟨15, -1⟩, ⟨18115903205955567, -13⟩⟩, .none, [(4, -1), (5, 1), (45, -1), (46, 1)], 0, [(4, 1), (45, 1)], [(5, 1), (46, 1)], true⟩,
  ⟨⟨⟨3300000000000001, -12⟩, ⟨15, -1⟩, ⟨18115903205955567, -13⟩⟩, .none, [(4, -1), (15, 1), (32, 1), (45, -1)], 0, [(4, 1), (45, 1)], [(15, 1), (32, 1)], true⟩,
  ⟨⟨⟨11800000000000002, -3⟩, ⟨0, 0⟩, ⟨4263275887801543, -11⟩⟩, .three (.all [(0, ⟨2, 0⟩), (5, ⟨6, 0⟩), (13, ⟨2, 0⟩), (14, ⟨15, -1⟩), (15, ⟨2, 0⟩), (26, ⟨3, 0⟩), (48, ⟨7, -1⟩)]), [(14, 1), (31, 1), (45, -1)], 1, [(45, 1)], [(14, 1), (31, 1)], true⟩,
  ⟨⟨⟨21000000000000002, -4⟩, ⟨-69, -2⟩, ⟨14341756704714824, -13⟩⟩, .none, [(43, -1), (45, 1)], 0, [(1, 1), (43, 1)], [(1, 1), (45, 1)], true⟩,
  ⟨⟨⟨27000000000000006, -8⟩, ⟨18, -2⟩, ⟨10668254110173834, -13⟩⟩, .none, [(1, -1), (4, 1), (40, 1), (43, -1)], 0, [(1, 1), (43, 1)], [(4, 1), (40, 1)], true⟩,
  ⟨⟨⟨17000000000000003, -5⟩, ⟨-75, -2⟩, ⟨1454304451811433, -12⟩⟩, .none, [(1, -1), (14, 1), (32, 1), (43, -1)], 0, [(1, 1), (43, 1)], [(14, 1), (32, 1)], true⟩,
  ⟨⟨⟨20000000000000004, -12⟩, ⟨2, 0⟩, ⟨10064390669975314, -13⟩⟩, .none, [(44, -1), (45, 1)], 0, [(1, 1), (44, 1)], [(1, 1), (45, 1)], true⟩,
  ⟨⟨⟨9000000000000002, -6⟩, ⟨0, 0⟩, ⟨0, 0⟩⟩, .none, [(14, 1), (27, -1), (35, -1), (43, 1)], 0, [(27, 1), (35, 1)], [(14, 1), (43, 1)], true⟩,
  ⟨⟨⟨6100000000000001, -4⟩, ⟨-31, -2⟩, ⟨14593366471464208, -14⟩⟩, .none, [(1, 1), (12, -1), (30, -1), (41, 1)], 0, [(12, 1), (30, 1)], [(1, 1), (41, 1)], true⟩,
  ⟨⟨⟨37000000000000005, -7⟩, ⟨15, -2⟩, ⟨-4528975801488892, -14⟩⟩, .none, [(0, 1), (12, -1), (30, -1), (40, 1)], 0, [(12, 1), (30, 1)], [(0, 1), (40, 1)], true⟩,
  ⟨⟨⟨540, 0⟩, ⟨24, -1⟩, ⟨4989421674640263, -12⟩⟩, .none, [(0, 1), (1, -1), (32, 1), (33, -1)], 0, [(1, 1), (33, 1)], [(0, 1), (32, 1)], true⟩,
  ⟨⟨⟨5000000000000001, -11⟩, ⟨16, -1⟩, ⟨48057465449132127, -14⟩⟩, .none, [(4, -1), (5, 1), (32, 1), (33, -1)], 0, [(4, 1), (33, 1)], [(5, 1), (32, 1)], true⟩,
  ⟨⟨⟨9400000000000002, -12⟩, ⟨194, -2⟩, ⟨32507981864020267, -13⟩⟩, .none, [(2, -1), (4, 1), (32, 1), (33, -1)], 0, [(2, 1), (33, 1)], [(4, 1), (32, 1)], true⟩,
  ⟨⟨⟨10000000000000002, -6⟩, ⟨0, 0⟩, ⟨7221200305707288, -12⟩⟩, .none, [(14, 1), (15, -1), (31, -1), (38, 1)], 0, [(15, 1), (31, 1)], [(14, 1), (38, 1)], true⟩]

/-- reactions 280 to 299, within src/compute/chemistry/chem_GRI30.cpp:186-3715 -/
def rx280 : List Rxn := [
  ⟨⟨⟨6160000000000001, -3⟩, ⟨-752, -3⟩, ⟨17361073905707417, -14⟩⟩, .none, [(35, 1), (36, -1), (39, -1), (46, 1)], 0, [(36, 1), (39, 1)], [(35, 1), (46, 1)], true⟩,
  ⟨⟨⟨32500000000000005, -7⟩, ⟨0, 0⟩, ⟨-35476977111662984, -14⟩⟩, .none, [(15, 1), (36, -1), (37, 1), (46, -1)], 0, [(36, 1), (46, 1)], [(15, 1), (37, 1)], true⟩,
  ⟨⟨⟨30000000000000005, -7⟩, ⟨0, 0⟩, ⟨5686380728536053, -12⟩⟩, .none, [(14, 1), (15, -1), (30, -1), (35, 1)], 0, [(15, 1), (30, 1)], [(14, 1), (35, 1)], true⟩,
  ⟨⟨⟨33700000000000008, -6⟩, ⟨0, 0⟩, ⟨0, 0⟩⟩, .none, [(0, 1), (1, 1), (2, -1), (12, -1), (14, 1)], 1, [(2, 1), (12, 1)], [(0, 1), (1, 1), (14, 1)], false⟩,
  ⟨⟨⟨6700000000000001, -12⟩, ⟨183, -2⟩, ⟨11070829736972846, -14⟩⟩, .none, [(1, 1), (2, -1), (24, -1), (51, 1)], 0, [(2, 1), (24, 1)], [(1, 1), (51, 1)], true⟩,
  ⟨⟨⟨10960000000000002, -5⟩, ⟨0, 0⟩, ⟨0, 0⟩⟩, .none, [(1, 1), (2, -1), (25, -1), (52, 1)], 0, [(2, 1), (25, 1)], [(1, 1), (52, 1)], true⟩,
  ⟨⟨⟨5000000000000001, -3⟩, ⟨0, 0⟩, ⟨8720794515533611, -12⟩⟩, .none, [(3, 1), (4, -1), (5, 1), (6, -1)], 0, [(4, 1), (6, 1)], [(3, 1), (5, 1)], true⟩,
  ⟨⟨⟨8000000000000001, -9⟩, ⟨5, -1⟩, ⟨-8831502812903339, -13⟩⟩, .none, [(0, 1), (4, -1), (12, -1), (17, 1)], 0, [(4, 1), (12, 1)], [(0, 1), (17, 1)], false⟩,
  ⟨⟨⟨19700000000000002, -7⟩, ⟨43, -2⟩, ⟨-18619122739454332, -14⟩⟩, .troe (.all [(0, ⟨2, 0⟩), (5, ⟨6, 0⟩), (13, ⟨2, 0⟩), (14, ⟨15, -1⟩), (15, ⟨2, 0⟩), (26, ⟨3, 0⟩), (48, ⟨7, -1⟩)]) ⟨⟨4820000000000001, 4⟩, ⟨-28, -1⟩, ⟨2968995247642718, -13⟩⟩ ⟨578, -3⟩ ⟨122, 0⟩ ⟨2535, 0⟩ ⟨9365, 0⟩, [(0, -1), (9, -1), (12, 1)], -1, [(0, 1), (9, 1)], [(12, 1)], true⟩,
  ⟨⟨⟨5800000000000001, -6⟩, ⟨0, 0⟩, ⟨7548293002481486, -13⟩⟩, .none, [(1, 2), (3, -1), (10, -1), (15, 1)], 1, [(3, 1), (10, 1)], [(1, 2), (15, 1)], false⟩,
  ⟨⟨⟨24000000000000005, -7⟩, ⟨0, 0⟩, ⟨7548293002481486, -13⟩⟩, .none, [(2, 1), (3, -1), (10, -1), (17, 1)], 0, [(3, 1), (10, 1)], [(2, 1), (17, 1)], true⟩,
  ⟨⟨⟨20000000000000003, -5⟩, ⟨0, 0⟩, ⟨5529879453617937, -12⟩⟩, .none, [(1, 2), (10, -2), (22, 1)], 1, [(10, 2)], [(1, 2), (22, 1)], false⟩,
  ⟨⟨⟨6820000000000001, -8⟩, ⟨25, -2⟩, ⟨-470510263821346, -12⟩⟩, .none, [(0, 1), (5, -1), (11, -1), (17, 1)], 0, [(5, 1), (11, 1)], [(0, 1), (17, 1)], false⟩,
  ⟨⟨⟨30300000000000006, -8⟩, ⟨29, -2⟩, ⟨55354148684864235, -16⟩⟩, .none, [(2, 1), (3, -1), (23, -1), (51, 1)], 0, [(3, 1), (23, 1)], [(2, 1), (51, 1)], true⟩,
  ⟨⟨⟨13370000000000002, -13⟩, ⟨161, -2⟩, ⟨-19323630086352605, -14⟩⟩, .none, [(3, -1), (6, 1), (22, 1), (23, -1)], 0, [(3, 1), (23, 1)], [(6, 1), (22, 1)], true⟩,
  ⟨⟨⟨29200000000000005, -7⟩, ⟨0, 0⟩, ⟨9098209165657685, -13⟩⟩, .none, [(2, -1), (4, 1), (51, 1), (52, -1)], 0, [(2, 1), (52, 1)], [(4, 1), (51, 1)], true⟩,
  ⟨⟨⟨29200000000000005, -7⟩, ⟨0, 0⟩, ⟨9098209165657685, -13⟩⟩, .none, [(2, -1), (4, 1), (12, 1), (14, 1), (52, -1)], 1, [(2, 1), (52, 1)], [(4, 1), (12, 1), (14, 1)], false⟩,
  ⟨⟨⟨30100000000000004, -6⟩, ⟨0, 0⟩, ⟨19701044736476677, -12⟩⟩, .none, [(3, -1), (6, 1), (12, 1), (14, 1), (52, -1)], 1, [(3, 1), (52, 1)], [(6, 1), (12, 1), (14, 1)], false⟩,
  ⟨⟨⟨20500000000000005, -10⟩, ⟨116, -2⟩, ⟨12102429780645316, -13⟩⟩, .none, [(0, 1), (1, -1), (51, 1), (52, -1)], 0, [(1, 1), (52, 1)], [(0, 1), (51, 1)], true⟩,
  ⟨⟨⟨20500000000000005, -10⟩, ⟨116, -2⟩, ⟨12102429780645316, -13⟩⟩, .none, [(0, 1), (1, -1), (12, 1), (14, 1), (52, -1)], 1, [(1, 1), (52, 1)], [(0, 1), (12, 1), (14, 1)], false⟩]

/-- reactions 300 to 319, within src/compute/chemistry/chem_GRI30.cpp:186-3715 -/
def rx300 : List Rxn := [
  ⟨⟨⟨23430000000000004, -9⟩, ⟨73, -2⟩, ⟨-5600833407841262, -13⟩⟩, .none, [(4, -1), (5, 1), (12, 1), (14, 1), (52, -1)], 1, [(4, 1), (52, 1)], [(5, 1), (12, 1), (14, 1)], false⟩,
  ⟨⟨⟨30100000000000005, -7⟩, ⟨0, 0⟩, ⟨59998864979057835, -13⟩⟩, .none, [(6, -1), (7, 1), (12, 1), (14, 1), (52, -1)], 1, [(6, 1), (52, 1)], [(7, 1), (12, 1), (14, 1)], false⟩,
  ⟨⟨⟨27200000000000005, -13⟩, ⟨177, -2⟩, ⟨2979059638312693, -12⟩⟩, .three (.only 12), [(13, 1), (14, 1), (52, -1)], 1, [(52, 1)], [(13, 1), (14, 1)], false⟩,
  ⟨⟨⟨48650000000000006, -8⟩, ⟨422, -3⟩, ⟨-8831502812903339, -13⟩⟩, .troe (.all [(0, ⟨2, 0⟩), (5, ⟨6, 0⟩), (13, ⟨2, 0⟩), (14, ⟨15, -1⟩), (15, ⟨2, 0⟩), (26, ⟨3, 0⟩), (48, ⟨7, -1⟩)]) ⟨⟨10120000000000002, 20⟩, ⟨-763, -2⟩, ⟨19394080821042432, -13⟩⟩ ⟨465, -3⟩ ⟨201, 0⟩ ⟨17729999999999998, -13⟩ ⟨5333, 0⟩, [(1, -1), (28, -1), (51, 1)], -1, [(1, 1), (28, 1)], [(51, 1)], true⟩,
  ⟨⟨⟨15000000000000003, -5⟩, ⟨0, 0⟩, ⟨0, 0⟩⟩, .none, [(1, 1), (2, -1), (10, 1), (15, 1), (51, -1)], 1, [(2, 1), (51, 1)], [(1, 1), (10, 1), (15, 1)], false⟩,
  ⟨⟨⟨18100000000000004, -9⟩, ⟨0, 0⟩, ⟨0, 0⟩⟩, .none, [(3, -1), (4, 1), (14, 1), (17, 1), (51, -1)], 1, [(3, 1), (51, 1)], [(4, 1), (14, 1), (17, 1)], false⟩,
  ⟨⟨⟨23500000000000004, -9⟩, ⟨0, 0⟩, ⟨0, 0⟩⟩, .none, [(3, -1), (4, 1), (16, 2), (51, -1)], 1, [(3, 1), (51, 1)], [(4, 1), (16, 2)], false⟩,
  ⟨⟨⟨22000000000000004, -6⟩, ⟨0, 0⟩, ⟨0, 0⟩⟩, .none, [(1, -1), (12, 1), (16, 1), (51, -1)], 0, [(1, 1), (51, 1)], [(12, 1), (16, 1)], true⟩,
  ⟨⟨⟨11000000000000002, -6⟩, ⟨0, 0⟩, ⟨0, 0⟩⟩, .none, [(0, 1), (1, -1), (28, 1), (51, -1)], 0, [(1, 1), (51, 1)], [(0, 1), (28, 1)], true⟩,
  ⟨⟨⟨12000000000000002, -6⟩, ⟨0, 0⟩, ⟨0, 0⟩⟩, .none, [(4, -1), (5, 1), (28, 1), (51, -1)], 0, [(4, 1), (51, 1)], [(5, 1), (28, 1)], true⟩,
  ⟨⟨⟨30100000000000004, -6⟩, ⟨0, 0⟩, ⟨0, 0⟩⟩, .none, [(4, -1), (16, 1), (18, 1), (51, -1)], 0, [(4, 1), (51, 1)], [(16, 1), (18, 1)], true⟩,
  ⟨⟨⟨9430000000000002, -6⟩, ⟨0, 0⟩, ⟨0, 0⟩⟩, .troe (.all [(0, ⟨2, 0⟩), (5, ⟨6, 0⟩), (13, ⟨2, 0⟩), (14, ⟨15, -1⟩), (15, ⟨2, 0⟩), (26, ⟨3, 0⟩), (48, ⟨7, -1⟩)]) ⟨⟨27100000000000003, 52⟩, ⟨-1682, -2⟩, ⟨6574563205161375, -12⟩⟩ ⟨1527, -4⟩ ⟨291, 0⟩ ⟨2742, 0⟩ ⟨7748, 0⟩, [(12, -1), (25, -1), (50, 1)], -1, [(12, 1), (25, 1)], [(50, 1)], true⟩,
  ⟨⟨⟨19300000000000003, -14⟩, ⟨268, -2⟩, ⟨18699637864814135, -13⟩⟩, .none, [(2, -1), (4, 1), (49, 1), (50, -1)], 0, [(2, 1), (50, 1)], [(4, 1), (49, 1)], true⟩,
  ⟨⟨⟨13200000000000002, -13⟩, ⟨254, -2⟩, ⟨33997511683176613, -13⟩⟩, .none, [(0, 1), (1, -1), (49, 1), (50, -1)], 0, [(1, 1), (50, 1)], [(0, 1), (49, 1)], true⟩,
  ⟨⟨⟨31600000000000004, -12⟩, ⟨18, -1⟩, ⟨4700070442878472, -13⟩⟩, .none, [(4, -1), (5, 1), (49, 1), (50, -1)], 0, [(4, 1), (50, 1)], [(5, 1), (49, 1)], true⟩,
  ⟨⟨⟨37800000000000006, -17⟩, ⟨272, -2⟩, ⟨7548293002481486, -13⟩⟩, .none, [(6, 1), (7, -1), (49, -1), (50, 1)], 0, [(7, 1), (49, 1)], [(6, 1), (50, 1)], true⟩,
  ⟨⟨⟨9030000000000002, -19⟩, ⟨365, -2⟩, ⟨360003254265017, -11⟩⟩, .none, [(12, -1), (13, 1), (49, 1), (50, -1)], 0, [(12, 1), (50, 1)], [(13, 1), (49, 1)], true⟩,
  ⟨⟨⟨25500000000000005, -13⟩, ⟨16, -1⟩, ⟨28683513409429647, -13⟩⟩, .troe (.all [(0, ⟨2, 0⟩), (5, ⟨6, 0⟩), (13, ⟨2, 0⟩), (14, ⟨15, -1⟩), (15, ⟨2, 0⟩), (26, ⟨3, 0⟩), (48, ⟨7, -1⟩)]) ⟨⟨30000000000000007, 41⟩, ⟨-146, -1⟩, ⟨9143498923672574, -12⟩⟩ ⟨1894, -4⟩ ⟨277, 0⟩ ⟨8748, 0⟩ ⟨7891, 0⟩, [(12, -1), (24, -1), (49, 1)], -1, [(12, 1), (24, 1)], [(49, 1)], true⟩,
  ⟨⟨⟨9640000000000002, -5⟩, ⟨0, 0⟩, ⟨0, 0⟩⟩, .none, [(2, -1), (17, 1), (25, 1), (49, -1)], 0, [(2, 1), (49, 1)], [(17, 1), (25, 1)], true⟩,
  ⟨⟨⟨3613000000000001, -5⟩, ⟨0, 0⟩, ⟨0, 0⟩⟩, .troe (.all [(0, ⟨2, 0⟩), (5, ⟨6, 0⟩), (13, ⟨2, 0⟩), (14, ⟨15, -1⟩), (15, ⟨2, 0⟩), (26, ⟨3, 0⟩), (48, ⟨7, -1⟩)]) ⟨⟨4420000000000001, 40⟩, ⟨-13545, -3⟩, ⟨57150642419454825, -13⟩⟩ ⟨315, -3⟩ ⟨369, 0⟩ ⟨32849999999999995, -13⟩ ⟨6667, 0⟩, [(1, -1), (49, -1), (50, 1)], -1, [(1, 1), (49, 1)], [(50, 1)], true⟩]

/-- reactions 320 to 324, within src/compute/chemistry/chem_GRI30.cpp:186-3715 -/
def rx320 : List Rxn := [
  ⟨⟨⟨40600000000000005, -13⟩, ⟨219, -2⟩, ⟨4478653848139015, -13⟩⟩, .none, [(1, -1), (12, 1), (25, 1), (49, -1)], 0, [(1, 1), (49, 1)], [(12, 1), (25, 1)], true⟩,
  ⟨⟨⟨24100000000000004, -6⟩, ⟨0, 0⟩, ⟨0, 0⟩⟩, .none, [(4, -1), (18, 1), (25, 1), (49, -1)], 0, [(4, 1), (49, 1)], [(18, 1), (25, 1)], true⟩,
  ⟨⟨⟨25500000000000004, -9⟩, ⟨255, -3⟩, ⟨-4745360200893361, -13⟩⟩, .none, [(3, 1), (6, -1), (49, -1), (50, 1)], 0, [(6, 1), (49, 1)], [(3, 1), (50, 1)], true⟩,
  ⟨⟨⟨24100000000000004, -6⟩, ⟨0, 0⟩, ⟨0, 0⟩⟩, .none, [(4, 1), (6, -1), (17, 1), (25, 1), (49, -1)], 1, [(6, 1), (49, 1)], [(4, 1), (17, 1), (25, 1)], false⟩,
  ⟨⟨⟨19270000000000004, -6⟩, ⟨-32, -2⟩, ⟨0, 0⟩⟩, .none, [(12, -1), (25, 2), (49, -1)], 0, [(12, 1), (49, 1)], [(25, 2)], true⟩]

/-- source terms of species 0 to 19, within src/compute/chemistry/chem_GRI30.cpp:3720-3970 -/
def src0 : List (List (ℕ × ℤ)) := [
  [(2, -1), (7, 1), (38, 1), (39, 1), (40, 1), (41, 1), (44, 1), (46, 1), (48, 1), (50, 1), (52, 1), (54, 1), (57, 1), (59, 1), (64, 1), (67, 1), (68, 1), (72, 1), (74, 1), (76, 1), (77, 1), (79, 1), (82, -1), (83, -1), (125, -1), (135, -1), (136, 1), (145, -1), (171, -1), (173, 1), (190, 1), (196, 1), (201, 1), (208, 1), (213, 1), (220, -1), (265, 1), (275, 1), (276, 1), (283, 1), (287, 1), (288, -1), (292, 1), (298, 1), (299, 1), (308, 1), (313, 1)],
  [(1, -1), (2, 1), (5, 1), (6, 1), (8, 1), (9, 1), (13, 1), (20, 1), (23, 1), (27, 1), (32, -1), (33, -1), (34, -1), (35, -1), (36, -1), (37, -1), (38, -2), (39, -2), (40, -2), (41, -2), (42, -1), (43, -1), (44, -1), (45, -1), (46, -1), (47, -1), (48, -1), (49, -1), (50, -1), (51, -1), (52, -1), (53, -1), (54, -1), (55, -1), (56, -1), (57, -1), (58, -1), (59, -1), (60, -1), (61, -1), (62, -1), (64, -1), (65, -1), (66, -1), (67, -1), (68, -1), (69, -1), (70, -1), (71, -1), (72, -1), (73, -1), (74, -1), (75, -1), (76, -1), (77, -1), (78, -1), (79, -1), (80, -1), (83, 1), (89, 1), (90, 1), (91, 1), (93, 1), (98, 1), (105, 1), (106, 1), (107, 1), (122, 1), (123, 1), (125, 1), (126, 1), (127, 1), (128, 1), (129, 1), (132, 1), (134, 1), (135, 1), (137, 1), (143, 1), (145, 1), (148, 1), (158, 1), (165, 1), (166, 1), (171, 1), (179, 1), (182, -1), (188, -1), (189, 1), (190, -1), (191, 1), (195, 1), (198, 1), (200, 1), (201, -1), (203, 1), (204, 1), (208, -1), (211, -1), (213, -1), (217, 1), (220, 1), (222, -1), (223, 1), (229, 1), (230, 1), (233, 1), (234, 1), (236, -1), (246, 1), (248, 1), (250, 1), (251, 1), (253, 1), (256, 1), (259, 1), (260, -1), (264, -1), (265, -1), (270, -1), (271, -1), (274, 1), (276, -1), (283, 1), (284, 1), (285, 1), (289, 2), (291, 2), (298, -1), (299, -1), (303, -1), (304, 1), (307, -1), (308, -1), (313, -1), (319, -1), (320, -1)],
  [(0, -2), (1, -1), (2, -1), (3, -1), (4, -1), (5, -1), (6, -1), (7, -1), (8, -1), (9, -1), (10, -1), (11, -1), (12, -1), (13, -1), (14, -1), (15, -1), (16, -1), (17, -1), (18, -1), (19, -1), (20, -1), (21, -1), (22, -1), (23, -1), (24, -1), (25, -1), (26, -1), (27, -1), (28, -1), (29, -1), (30, 1), (37, 1), (43, 1), (85, 1), (121, 1), (124, 1), (154, 1), (177, 1), (178, 1), (180, -1), (181, -1), (184, 1), (186, -1), (187, -1), (189, -1), (193, 1), (199, -1), (200, -1), (206, -1), (207, -1), (212, -1), (216, -1), (219, 1), (221, -1), (230, -1), (231, -1), (232, -1), (243, 1), (245, 1), (256, -1), (257, -1), (258, 1), (261, -1), (262, -1), (263, -1), (278, -1), (283, -1), (284, -1), (285, -1), (290, 1), (293, 1), (295, -1), (296, -1), (304, -1), (312, -1), (318, -1)],
  [(0, 1), (3, 1), (30, -1), (31, -1), (32, -1), (33, -1), (34, -1), (35, -1), (36, -1), (37, -1), (44, 1), (86, 1), (114, 1), (115, 1), (117, 1), (121, -1), (124, -1), (134, -1), (143, -1), (144, -1), (154, -1), (155, -1), (167, -1), (168, -1), (169, -1), (170, -1), (172, -1), (174, -1), (175, -1), (178, -1), (180, 1), (187, 1), (193, -1), (194, -1), (205, -1), (215, -1), (219, -1), (225, -1), (258, -1), (286, 1), (289, -1), (290, -1), (293, -1), (294, -1), (297, -1), (305, -1), (306, -1), (322, 1)],
  [(1, 1), (2, 1), (3, 1), (4, 1), (10, 1), (12, 1), (14, 1), (15, 1), (16, 1), (17, 1), (18, 1), (21, 1), (26, 1), (28, 1), (37, 1), (42, -1), (45, 2), (47, 1), (60, 1), (65, 1), (83, -1), (84, -2), (85, -2), (86, -1), (87, -1), (88, -1), (89, -1), (90, -1), (91, -1), (92, -1), (93, -1), (94, -1), (95, -1), (96, -1), (97, -1), (98, -1), (99, -1), (100, -1), (101, -1), (102, -1), (103, -1), (104, -1), (105, -1), (106, -1), (107, -1), (108, -1), (109, -1), (110, -1), (111, -1), (112, -1), (113, -1), (116, 1), (118, 1), (119, 1), (134, 1), (143, 1), (155, 1), (175, 1), (179, -1), (182, 1), (183, -1), (185, 1), (188, 1), (191, -1), (192, -1), (194, 1), (197, 1), (199, 1), (202, -1), (206, 1), (209, -1), (212, 1), (214, -1), (217, -1), (218, 1), (223, -1), (232, 1), (233, -1), (234, -1), (235, -1), (249, 1), (252, 1), (255, 1), (259, -1), (263, 1), (266, -1), (267, -1), (270, 1), (277, -1), (278, 1), (286, -1), (287, -1), (295, 1), (296, 1), (300, -1), (305, 1), (306, 1), (309, -1), (310, -1), (312, 1), (314, -1), (321, -1), (323, 1)],
  [(42, 1), (43, 1), (47, 1), (61, 1), (66, 1), (83, 1), (85, 1), (86, 1), (87, 1), (88, 1), (92, 1), (95, 1), (96, 1), (97, 1), (99, 1), (100, 1), (101, 1), (102, 1), (103, 1), (104, 1), (108, 1), (110, 1), (111, 1), (112, 1), (113, 1), (126, -1), (144, 1), (146, -1), (192, 1), (196, -1), (202, 1), (209, 1), (214, 1), (218, -1), (254, 1), (266, 1), (277, 1), (286, 1), (292, -1), (300, 1), (309, 1), (314, 1)],
  [(3, -1), (4, 1), (31, 1), (32, 1), (33, 1), (34, 1), (35, 1), (36, 1), (43, -1), (44, -1), (45, -1), (46, 1), (86, -1), (87, 1), (88, 1), (114, -2), (115, -2), (116, -1), (117, -1), (118, -1), (119, -1), (120, -1), (156, 1), (167, 1), (168, 1), (169, 1), (174, 1), (183, 1), (185, -1), (205, 1), (215, 1), (286, -1), (294, 1), (297, 1), (301, -1), (315, 1), (322, -1), (323, -1)],
  [(4, -1), (46, -1), (47, -1), (84, 1), (87, -1), (88, -1), (114, 1), (115, 1), (120, 1), (156, -1), (301, 1), (315, -1)],
  [(48, 1), (89, -1), (121, -1), (122, -1), (123, -1), (238, -1), (243, -1), (244, -1)],
  [(5, -1), (19, 1), (48, -1), (50, 1), (90, -1), (92, 1), (124, -1), (125, -1), (126, -1), (127, -1), (128, -1), (129, -1), (130, -1), (131, -1), (132, -1), (133, -1), (239, -1), (240, -1), (245, -1), (246, -1), (247, -1), (288, -1)],
  [(6, -1), (22, 1), (29, 1), (49, -1), (91, -1), (92, -1), (95, 1), (116, -1), (122, -1), (125, 1), (127, -1), (134, -1), (135, -1), (136, -2), (137, -1), (138, -1), (139, -1), (140, -1), (141, 1), (142, 1), (147, 1), (150, 1), (151, 1), (237, 1), (241, -1), (248, -1), (249, -1), (250, -1), (260, 1), (289, -1), (290, -1), (291, -2), (304, 1)],
  [(7, -1), (8, -1), (50, -1), (61, 1), (66, 1), (78, 1), (93, -1), (96, 1), (141, -1), (142, -1), (143, -1), (144, -1), (145, -1), (146, -1), (147, -1), (148, -1), (149, -1), (150, -1), (151, -1), (152, -1), (153, -1), (242, -1), (251, -1), (252, -1), (253, -1), (292, -1)],
  [(9, -1), (10, 1), (24, 1), (25, 1), (49, 1), (51, -1), (52, 1), (60, 1), (65, 1), (80, 1), (94, -1), (95, -1), (96, -1), (97, 1), (109, 1), (117, -1), (118, -1), (123, -1), (128, -1), (135, 1), (137, -1), (138, 2), (145, 1), (148, -1), (149, 2), (153, 1), (154, -1), (155, -1), (156, -1), (157, -2), (158, -2), (159, -1), (160, -1), (161, -1), (162, -1), (163, -1), (164, -1), (210, -1), (254, -1), (255, -1), (274, -1), (275, -1), (283, -1), (287, -1), (288, 1), (296, 1), (297, 1), (299, 1), (300, 1), (301, 1), (307, 1), (311, -1), (316, -1), (317, -1), (320, 1), (324, -1)],
  [(10, -1), (51, 1), (52, -1), (97, -1), (117, 1), (129, -1), (138, -1), (149, -1), (156, 1), (159, 1), (160, 1), (161, 1), (162, 1), (163, 1), (164, 1), (210, 1), (302, 1), (316, 1)],
  [(5, 1), (7, 1), (11, -1), (12, 1), (19, 1), (22, 1), (27, 2), (30, -1), (54, 1), (78, 1), (80, 1), (82, -1), (89, 1), (98, -1), (99, 1), (109, 1), (119, -1), (121, 1), (130, -1), (131, 1), (133, 1), (134, 1), (139, -1), (140, 1), (143, 1), (144, 1), (152, 1), (159, 1), (165, 1), (166, 1), (167, 1), (170, 1), (175, 2), (176, 2), (216, 1), (221, 1), (222, 1), (223, 1), (224, 1), (226, 1), (227, 1), (231, 1), (235, 1), (244, 1), (256, 1), (262, 1), (264, 1), (268, 1), (271, 1), (273, 1), (279, 1), (282, 1), (283, 1), (296, 1), (297, 1), (299, 1), (300, 1), (301, 1), (302, 1), (305, 1)],
  [(11, 1), (13, 1), (29, 1), (30, 1), (98, 1), (119, 1), (131, -1), (152, -1), (225, 1), (228, 1), (261, 1), (267, 1), (279, -1), (281, 1), (282, -1), (289, 1), (304, 1)],
  [(6, 1), (8, 1), (12, -1), (13, -1), (14, 1), (24, 1), (31, 1), (53, -1), (54, -1), (57, 1), (90, 1), (99, -1), (100, 1), (120, 1), (124, 1), (131, 1), (159, -1), (160, 1), (165, -1), (166, -1), (167, -1), (170, 1), (172, 1), (247, 1), (258, 1), (259, 1), (306, 2), (307, 1), (310, 1)],
  [(9, 1), (14, -1), (15, 1), (16, 1), (25, 1), (31, -1), (53, 1), (55, -1), (56, -1), (57, -1), (59, 1), (64, 1), (82, 1), (91, 1), (93, 1), (100, -1), (101, 1), (102, 1), (116, 1), (120, -1), (126, 1), (132, -1), (152, 1), (155, 1), (160, -1), (168, 1), (169, 1), (172, 1), (287, 1), (290, 1), (292, 1), (305, 1), (318, 1), (323, 1)],
  [(15, -1), (17, 1), (55, 1), (58, -1), (59, -1), (60, -1), (61, -1), (63, 1), (67, 1), (101, -1), (103, 1), (161, 1), (168, -1), (310, 1), (321, 1)],
  [(16, -1), (18, 1), (56, 1), (62, -1), (63, -1), (64, -1), (65, -1), (66, -1), (68, 1), (102, -1), (104, 1), (118, 1), (154, 1), (162, 1), (169, -1)]]

/-- source terms of species 20 to 39, within src/compute/chemistry/chem_GRI30.cpp:3720-3970 -/
def src20 : List (List (ℕ × ℤ)) := [
  [(17, -1), (18, -1), (58, 1), (62, 1), (67, -1), (68, -1), (94, 1), (103, -1), (104, -1), (146, 1), (161, -1), (162, -1)],
  [(19, -1), (21, 1), (69, -1), (105, -1), (108, 1), (122, 1), (170, -1), (171, -1)],
  [(20, -1), (21, -1), (22, -1), (69, 1), (70, -1), (72, 1), (106, -1), (107, -1), (108, -1), (109, -1), (110, 1), (123, 1), (127, 1), (133, 1), (136, 1), (171, 1), (173, 1), (176, 1), (291, 1), (294, 1)],
  [(23, -1), (70, 1), (71, -1), (72, -1), (74, 1), (110, -1), (111, 1), (128, 1), (140, 1), (163, 1), (172, -1), (293, -1), (294, -1)],
  [(24, -1), (71, 1), (73, -1), (74, -1), (76, 1), (111, -1), (129, 1), (137, 1), (148, 1), (163, -1), (173, -1), (174, 1), (284, -1), (317, -1)],
  [(25, -1), (26, 1), (73, 1), (75, -1), (76, -1), (77, 1), (112, 1), (153, 1), (158, 1), (164, 1), (174, -1), (285, -1), (311, -1), (318, 1), (320, 1), (321, 1), (323, 1), (324, 2)],
  [(26, -1), (75, 1), (77, -1), (112, -1), (153, -1), (157, 1), (164, -1)],
  [(20, 1), (27, -1), (28, 1), (78, -1), (79, 1), (105, 1), (113, 1), (130, 1), (133, -1), (140, -1), (175, -1), (176, -2), (273, -1)],
  [(23, 1), (28, -1), (29, -1), (79, -1), (80, -1), (81, 1), (106, 1), (113, -1), (132, 1), (139, 1), (303, -1), (308, 1), (309, 1)],
  [(81, -1), (107, 1)],
  [(177, -1), (178, -1), (179, -1), (190, 1), (192, 1), (195, -1), (216, 1), (224, -1), (226, 1), (237, -1), (238, 1), (239, 1), (244, 1), (247, 1), (274, -1), (275, -1), (282, -1)],
  [(189, -1), (190, -1), (191, -1), (192, -1), (193, -1), (194, -1), (195, -1), (196, -1), (197, -1), (198, -1), (199, 1), (201, 1), (202, 1), (207, 1), (222, 1), (231, 1), (241, 1), (242, 1), (261, 1), (268, 1), (279, -1)],
  [(199, -1), (200, -1), (201, -1), (202, -1), (235, 1), (264, 1), (267, 1), (271, 1), (276, 1), (277, 1), (278, 1)],
  [(276, -1), (277, -1), (278, -1)],
  [(203, -1), (204, -1), (205, -1), (206, -1), (207, -1), (208, -1), (209, -1), (210, -1)],
  [(177, -1), (178, 1), (179, 1), (181, 2), (185, -1), (186, -1), (187, 1), (188, 1), (189, 1), (194, 1), (197, -1), (198, -1), (207, 1), (211, -1), (212, 1), (213, 1), (214, 1), (215, 1), (221, 1), (223, 1), (225, 1), (227, -1), (228, -1), (243, -1), (244, -1), (245, -1), (246, -1), (247, -1), (248, -1), (249, -1), (250, -1), (251, -1), (252, -1), (253, -1), (254, -1), (255, -1), (257, 1), (273, -1), (280, 1), (282, 1)],
  [(185, 1), (186, 1), (187, -1), (188, -1), (280, -1), (281, -1)],
  [(180, -1), (181, -1), (182, -1), (183, -1), (184, -1), (198, 1), (227, 1), (281, 1)],
  [(191, 1), (193, 1), (196, 1), (200, 1), (211, 1), (212, -1), (213, -1), (214, -1), (215, -1), (262, 1), (279, 1)],
  [(216, -1), (217, -1), (218, -1), (219, -1), (220, -1), (229, 1), (232, 1), (238, 1), (243, 1), (280, -1)]]

/-- source terms of species 40 to 52, within src/compute/chemistry/chem_GRI30.cpp:3720-3970 -/
def src40 : List (List (ℕ × ℤ)) := [
  [(218, 1), (220, 1), (229, -1), (230, -1), (231, -1), (232, -1), (233, -1), (234, -1), (235, -1), (236, -1), (239, 1), (241, 1), (242, 1), (245, 1), (249, 1), (252, 1), (254, 1), (257, 1), (270, 1), (275, 1)],
  [(236, 1), (237, -1), (255, 1), (274, 1)],
  [(240, 1), (256, -1), (257, -1), (258, -1), (259, -1), (260, -1)],
  [(250, 1), (253, 1), (269, -1), (270, -1), (271, -1), (273, 1)],
  [(233, 1), (272, -1)],
  [(234, 1), (248, 1), (251, 1), (261, -1), (262, -1), (263, -1), (264, -1), (265, -1), (266, -1), (267, -1), (268, -1), (269, 1), (272, 1)],
  [(217, 1), (219, 1), (221, -1), (222, -1), (223, -1), (224, -1), (225, -1), (226, -1), (227, -1), (228, -1), (230, 1), (246, 1), (263, 1), (265, 1), (266, 1), (280, 1), (281, -1)],
  [(177, 1), (180, 1), (182, 1), (183, 1), (184, 1), (195, 1), (197, 1), (203, 1), (204, 1), (205, 1), (206, 1), (208, 1), (209, 1), (210, 1), (224, 1), (228, 1), (237, 1), (238, -1), (239, -1), (240, -1), (241, -1), (242, -1), (256, 1), (258, 1), (259, 1), (260, 1)],
  [],
  [(312, 1), (313, 1), (314, 1), (315, -1), (316, 1), (317, 1), (318, -1), (319, -1), (320, -1), (321, -1), (322, -1), (323, -1), (324, -1)],
  [(311, 1), (312, -1), (313, -1), (314, -1), (315, 1), (316, -1), (319, 1), (322, 1)],
  [(284, 1), (293, 1), (295, 1), (298, 1), (303, 1), (304, -1), (305, -1), (306, -1), (307, -1), (308, -1), (309, -1), (310, -1)],
  [(285, 1), (295, -1), (296, -1), (297, -1), (298, -1), (299, -1), (300, -1), (301, -1), (302, -1)]]

/-- the mechanism of src/compute/chemistry/chem_GRI30.cpp -/
def mech : Mech := ⟨53, rx0 ++ rx20 ++ rx40 ++ rx60 ++ rx80 ++ rx100 ++ rx120 ++ rx140 ++ rx160 ++ rx180 ++ rx200 ++ rx220 ++ rx240 ++ rx260 ++ rx280 ++ rx300 ++ rx320, src0 ++ src20 ++ src40⟩

end PG.Chem.GRI30
