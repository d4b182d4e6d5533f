import Verif.Chem.Red22Model

/-! Generated by `tools/genred22.py` from `src/compute/chemistry/chem_C2H4_Air_Red22.cpp`; do not edit. -/
namespace PG.Chem.Red22

/-- molecular weights used for the concentrations, chem_C2H4_Air_Red22.cpp:95-116 -/
def weights : List Dec := [
  ⟨201593995, -8⟩, ⟨100796998, -8⟩, ⟨159994001, -7⟩, ⟨319988003, -7⟩, ⟨170073701, -7⟩, ⟨180153401, -7⟩,
  ⟨330067703, -7⟩, ⟨340147402, -7⟩, ⟨150350603, -7⟩, ⟨160430303, -7⟩, ⟨280105505, -7⟩, ⟨440099506, -7⟩,
  ⟨300264904, -7⟩, ⟨260382407, -7⟩, ⟨280541806, -7⟩, ⟨300701206, -7⟩, ⟨410296708, -7⟩, ⟨420376408, -7⟩,
  ⟨440535808, -7⟩, ⟨41073301, -6⟩, ⟨420812709, -7⟩, ⟨280133991, -7⟩]

/-- the 206 reactions: rate constants and equilibrium constants (lines 414-1039), third bodies, fall-off and concentrations
    (1041-1787), factors `XQ` (2058-2236), sources (2238-3035) -/
def rx0 : List Rx := [
  ⟨.arr ⟨⟨320498617, -7⟩, ⟨0, 0⟩, ⟨-725286183, -5⟩⟩, [2, 4], [1, 3], 0, .none, false, false, [1, 3], [2, 4], [], [], [(1, -1), (2, 1), (3, -1), (4, 1)]⟩,
  ⟨.arr ⟨⟨108197783, -7⟩, ⟨267, -2⟩, ⟨-316523284, -5⟩⟩, [1, 4], [0, 2], 0, .none, false, false, [0, 2], [1, 4], [], [], [(0, -1), (1, 1), (2, -1), (4, 1)]⟩,
  ⟨.arr ⟨⟨19190789, -6⟩, ⟨151, -2⟩, ⟨-172603317, -5⟩⟩, [1, 5], [0, 4], 0, .none, false, false, [0, 4], [1, 5], [], [], [(0, -1), (1, 1), (4, -1), (5, 1)]⟩,
  ⟨.arr ⟨⟨10482906, -6⟩, ⟨24, -1⟩, ⟨106178717, -5⟩⟩, [2, 5], [4, 4], 0, .none, false, false, [4, 4], [2, 5], [], [], [(2, 1), (4, -2), (5, 1)]⟩,
  ⟨.arr ⟨⟨414465317, -7⟩, ⟨-1, 0⟩, ⟨0, 0⟩⟩, [0], [1, 1], -1, .three [(0, ⟨-1, 0⟩), (5, ⟨-1, 0⟩), (9, ⟨1, 0⟩), (11, ⟨-1, 0⟩), (15, ⟨2, 0⟩), (13, ⟨2, 0⟩), (14, ⟨2, 0⟩)], true, true, [1, 1], [0], [], [], [(0, 1), (1, -2)]⟩,
  ⟨.arr ⟨⟨390385861, -7⟩, ⟨-6, -1⟩, ⟨0, 0⟩⟩, [0], [1, 1], -1, .none, false, false, [0, 1, 1], [0, 0], [], [], [(0, 1), (1, -2)]⟩,
  ⟨.arr ⟨⟨455408762, -7⟩, ⟨-125, -2⟩, ⟨0, 0⟩⟩, [0], [1, 1], -1, .none, false, false, [1, 1, 5], [0, 5], [], [], [(0, 1), (1, -2)]⟩,
  ⟨.arr ⟨⟨4775645, -5⟩, ⟨-2, 0⟩, ⟨0, 0⟩⟩, [0], [1, 1], -1, .none, false, false, [1, 1, 11], [0, 11], [], [], [(0, 1), (1, -2)]⟩,
  ⟨.scaled ⟨4, 1⟩ 7, [5], [1, 4], -1, .three [(0, ⟨-27, -2⟩), (5, ⟨265, -2⟩), (9, ⟨1, 0⟩), (15, ⟨2, 0⟩), (13, ⟨2, 0⟩), (14, ⟨2, 0⟩)], true, true, [1, 4], [5], [], [], [(1, -1), (4, -1), (5, 1)]⟩,
  ⟨.scaled ⟨5, -1⟩ 4, [4], [1, 2], -1, .three [(0, ⟨1, 0⟩), (5, ⟨5, 0⟩), (9, ⟨1, 0⟩), (10, ⟨5, -1⟩), (11, ⟨1, 0⟩), (15, ⟨2, 0⟩), (13, ⟨2, 0⟩), (14, ⟨2, 0⟩)], true, true, [1, 2], [4], [], [], [(1, -1), (2, -1), (4, 1)]⟩,
  ⟨.scaled ⟨12, -2⟩ 4, [3], [2, 2], -1, .three [(0, ⟨14, -1⟩), (5, ⟨144, -1⟩), (9, ⟨1, 0⟩), (10, ⟨75, -2⟩), (11, ⟨26, -1⟩), (15, ⟨2, 0⟩), (13, ⟨2, 0⟩), (14, ⟨2, 0⟩)], true, true, [2, 2], [3], [], [], [(2, -2), (3, 1)]⟩,
  ⟨.arr ⟨⟨424761511, -7⟩, ⟨-86, -2⟩, ⟨0, 0⟩⟩, [6], [1, 3], -1, .three [(3, ⟨-1, 0⟩), (5, ⟨-1, 0⟩), (10, ⟨-25, -2⟩), (11, ⟨5, -1⟩), (15, ⟨5, -1⟩), (21, ⟨-1, 0⟩), (13, ⟨2, 0⟩), (14, ⟨2, 0⟩)], true, true, [1, 3], [6], [], [], [(1, -1), (3, -1), (6, 1)]⟩,
  ⟨.arr ⟨⟨471503141, -7⟩, ⟨-172, -2⟩, ⟨0, 0⟩⟩, [6], [1, 3], -1, .none, false, false, [1, 3, 3], [3, 6], [], [], [(1, -1), (3, -1), (6, 1)]⟩,
  ⟨.arr ⟨⟨442511034, -7⟩, ⟨-76, -2⟩, ⟨0, 0⟩⟩, [6], [1, 3], -1, .none, false, false, [1, 3, 5], [5, 6], [], [], [(1, -1), (3, -1), (6, 1)]⟩,
  ⟨.arr ⟨⟨447046282, -7⟩, ⟨-124, -2⟩, ⟨0, 0⟩⟩, [6], [1, 3], -1, .none, false, false, [1, 3, 21], [6, 21], [], [], [(1, -1), (3, -1), (6, 1)]⟩,
  ⟨.arr ⟨⟨319350862, -7⟩, ⟨-37, -2⟩, ⟨0, 0⟩⟩, [7], [4, 4], -1, .troe [(0, ⟨1, 0⟩), (5, ⟨5, 0⟩), (9, ⟨1, 0⟩), (10, ⟨5, -1⟩), (11, ⟨1, 0⟩), (15, ⟨2, 0⟩), (13, ⟨2, 0⟩), (14, ⟨2, 0⟩)] ⟨⟨422794408, -7⟩, ⟨-9, -1⟩, ⟨855468335, -6⟩⟩ ⟨2654, -4⟩ ⟨94, 0⟩ ⟨7346, -4⟩ ⟨1756, 0⟩ ⟨-5182, 0⟩, true, true, [4, 4], [7], [], [], [(4, -2), (7, 1)]⟩,
  ⟨.arr ⟨⟨290097872, -7⟩, ⟨0, 0⟩, ⟨-337658384, -6⟩⟩, [2, 5], [1, 6], 0, .none, false, false, [1, 6], [2, 5], [], [], [(1, -1), (2, 1), (5, 1), (6, -1)]⟩,
  ⟨.arr ⟨⟨304404238, -7⟩, ⟨0, 0⟩, ⟨-412637667, -6⟩⟩, [0, 3], [1, 6], 0, .none, false, false, [1, 6], [0, 3], [], [], [(0, 1), (1, -1), (3, 1), (6, -1)]⟩,
  ⟨.arr ⟨⟨318908801, -7⟩, ⟨0, 0⟩, ⟨-150965, -3⟩⟩, [4, 4], [1, 6], 0, .none, false, false, [1, 6], [4, 4], [], [], [(1, -1), (4, 2), (6, -1)]⟩,
  ⟨.const ⟨2, 13⟩, [3, 4], [2, 6], 0, .none, false, false, [2, 6], [3, 4], [], [], [(2, -1), (3, 1), (4, 1), (6, -1)]⟩,
  ⟨.arr ⟨⟨314683206, -7⟩, ⟨0, 0⟩, ⟨251608334, -6⟩⟩, [3, 5], [4, 6], 0, .none, false, false, [4, 6], [3, 5], [], [], [(3, 1), (4, -1), (5, 1), (6, -1)]⟩,
  ⟨.arr ⟨⟨255908003, -7⟩, ⟨0, 0⟩, ⟨820243168, -6⟩⟩, [3, 7], [6, 6], 0, .none, false, false, [6, 6], [3, 7], [], [], [(3, 1), (6, -2), (7, 1)]⟩,
  ⟨.arr ⟨⟨336712758, -7⟩, ⟨0, 0⟩, ⟨-603860001, -5⟩⟩, [3, 7], [6, 6], 0, .none, false, false, [6, 6], [3, 7], [], [], [(3, 1), (6, -2), (7, 1)]⟩,
  ⟨.arr ⟨⟨16308716, -6⟩, ⟨2, 0⟩, ⟨-261672667, -5⟩⟩, [0, 6], [1, 7], 0, .none, false, false, [1, 7], [0, 6], [], [], [(0, 1), (1, -1), (6, 1), (7, -1)]⟩,
  ⟨.arr ⟨⟨299336062, -7⟩, ⟨0, 0⟩, ⟨-181158, -2⟩⟩, [4, 5], [1, 7], 0, .none, false, false, [1, 7], [4, 5], [], [], [(1, -1), (4, 1), (5, 1), (7, -1)]⟩,
  ⟨.arr ⟨⟨160803938, -7⟩, ⟨2, 0⟩, ⟨-201286667, -5⟩⟩, [4, 6], [2, 7], 0, .none, false, false, [2, 7], [4, 6], [], [], [(2, -1), (4, 1), (6, 1), (7, -1)]⟩,
  ⟨.arr ⟨⟨281906369, -7⟩, ⟨0, 0⟩, ⟨-161029334, -6⟩⟩, [5, 6], [4, 7], 0, .none, false, false, [4, 7], [5, 6], [], [], [(4, -1), (5, 1), (6, 1), (7, -1)]⟩,
  ⟨.arr ⟨⟨339940492, -7⟩, ⟨0, 0⟩, ⟨-481075134, -5⟩⟩, [5, 6], [4, 7], 0, .none, false, false, [4, 7], [5, 6], [], [], [(4, -1), (5, 1), (6, 1), (7, -1)]⟩,
  ⟨.arr ⟨⟨340312786, -7⟩, ⟨0, 0⟩, ⟨-150965, -2⟩⟩, [14], [2, 13], -1, .three [(0, ⟨1, 0⟩), (3, ⟨5, 0⟩), (5, ⟨5, 0⟩), (9, ⟨1, 0⟩), (10, ⟨5, -1⟩), (11, ⟨25, -1⟩), (15, ⟨2, 0⟩), (13, ⟨2, 0⟩), (14, ⟨2, 0⟩)], true, true, [2, 10], [11], [], [], [(2, -1), (10, -1), (11, 1)]⟩,
  ⟨.arr ⟨⟨176783433, -7⟩, ⟨1228, -3⟩, ⟨-352251667, -7⟩⟩, [1, 14], [4, 13], 0, .none, false, false, [4, 10], [1, 11], [], [], [(1, 1), (4, -1), (10, -1), (11, 1)]⟩]

/-- continued -/
def rx1 : List Rx := [
  ⟨.arr ⟨⟨175767107, -7⟩, ⟨15, -1⟩, ⟨-400560467, -4⟩⟩, [16], [0, 13], -1, .troe [(0, ⟨1, 0⟩), (5, ⟨5, 0⟩), (9, ⟨1, 0⟩), (10, ⟨5, -1⟩), (11, ⟨1, 0⟩), (15, ⟨2, 0⟩), (13, ⟨2, 0⟩), (14, ⟨2, 0⟩)] ⟨⟨637931383, -7⟩, ⟨-342, -2⟩, ⟨-424463259, -4⟩⟩ ⟨68, -3⟩ ⟨197, 0⟩ ⟨932, -3⟩ ⟨154, 1⟩ ⟨-103, 2⟩, true, true, [0, 10], [12], [], [], [(0, -1), (10, -1), (12, 1)]⟩,
  ⟨.arr ⟨⟨285473118, -7⟩, ⟨0, 0⟩, ⟨-240537567, -4⟩⟩, [2, 14], [3, 13], 0, .none, false, false, [3, 10], [2, 11], [], [], [(2, 1), (3, -1), (10, -1), (11, 1)]⟩,
  ⟨.arr ⟨⟨326416564, -7⟩, ⟨0, 0⟩, ⟨-118759134, -4⟩⟩, [4, 14], [6, 13], 0, .none, false, false, [6, 10], [4, 11], [], [], [(4, 1), (6, -1), (10, -1), (11, 1)]⟩,
  ⟨.const ⟨57, 12⟩, [1, 13], [2, 8], 0, .none, false, false, [2], [1, 10], [0], [], [(1, 1), (2, -1), (10, 1)]⟩,
  ⟨.const ⟨3, 13⟩, [1, 15], [4, 8], 0, .none, false, false, [4], [1], [0], [3], [(1, 1), (4, -1)]⟩,
  ⟨.arr ⟨⟨185223344, -7⟩, ⟨179, -2⟩, ⟨-840371835, -6⟩⟩, [1, 9], [0, 8], 0, .none, false, false, [0], [1], [0], [1], [(0, -1), (1, 1)]⟩,
  ⟨.arr ⟨⟨293732401, -7⟩, ⟨0, 0⟩, ⟨379928584, -6⟩⟩, [1, 16], [5, 8], 0, .none, false, false, [5], [1, 12], [0], [], [(1, 1), (5, -1), (12, 1)]⟩,
  ⟨.const ⟨33, 12⟩, [2, 15], [3, 8], 0, .none, false, false, [3], [2], [0], [3], [(2, 1), (3, -1)]⟩,
  ⟨.const ⟨5, 13⟩, [24], [8, 13], -1, .troe [(0, ⟨1, 0⟩), (5, ⟨5, 0⟩), (9, ⟨1, 0⟩), (10, ⟨5, -1⟩), (11, ⟨1, 0⟩), (15, ⟨2, 0⟩), (13, ⟨2, 0⟩), (14, ⟨2, 0⟩)] ⟨⟨654619238, -7⟩, ⟨-374, -2⟩, ⟨-974227469, -6⟩⟩ ⟨4243, -4⟩ ⟨237, 0⟩ ⟨5757, -4⟩ ⟨1652, 0⟩ ⟨-5069, 0⟩, true, true, [10], [16], [0], [], [(10, -1), (16, 1)]⟩,
  ⟨.arr ⟨⟨288547965, -7⟩, ⟨0, 0⟩, ⟨-347219501, -6⟩⟩, [13, 15], [8, 14], 0, .none, false, false, [11], [10], [0], [3], [(10, 1), (11, -1)]⟩,
  ⟨.arr ⟨⟨277171988, -7⟩, ⟨48, -2⟩, ⟨130836334, -6⟩⟩, [16], [1, 15], -1, .troe [(0, ⟨1, 0⟩), (5, ⟨5, 0⟩), (9, ⟨1, 0⟩), (10, ⟨5, -1⟩), (11, ⟨1, 0⟩), (15, ⟨2, 0⟩), (13, ⟨2, 0⟩), (14, ⟨2, 0⟩)] ⟨⟨555621468, -7⟩, ⟨-257, -2⟩, ⟨-717083751, -6⟩⟩ ⟨2176, -4⟩ ⟨271, 0⟩ ⟨7824, -4⟩ ⟨2755, 0⟩ ⟨-657, 1⟩, true, true, [1], [12], [3], [], [(1, -1), (12, 1)]⟩,
  ⟨.const ⟨734, 11⟩, [0, 13], [1, 15], 0, .none, false, false, [1], [0, 10], [3], [], [(0, 1), (1, -1), (10, 1)]⟩,
  ⟨.const ⟨3, 13⟩, [4, 13], [2, 15], 0, .none, false, false, [2], [4, 10], [3], [], [(2, -1), (4, 1), (10, 1)]⟩,
  ⟨.const ⟨3, 13⟩, [1, 14], [2, 15], 0, .none, false, false, [2], [1, 11], [3], [], [(1, 1), (2, -1), (11, 1)]⟩,
  ⟨.const ⟨5, 13⟩, [5, 13], [4, 15], 0, .none, false, false, [4], [5, 10], [3], [], [(4, -1), (5, 1), (10, 1)]⟩,
  ⟨.arr ⟨⟨39769885, -6⟩, ⟨-1, 0⟩, ⟨-855468335, -5⟩⟩, [1, 13], [15], 1, .three [(0, ⟨1, 0⟩), (5, ⟨5, 0⟩), (9, ⟨1, 0⟩), (10, ⟨5, -1⟩), (11, ⟨1, 0⟩), (15, ⟨2, 0⟩), (13, ⟨2, 0⟩), (14, ⟨2, 0⟩)], true, true, [], [1, 10], [3], [], [(1, 1), (10, 1)]⟩,
  ⟨.arr ⟨⟨296591694, -7⟩, ⟨0, 0⟩, ⟨-201286667, -6⟩⟩, [6, 13], [3, 15], 0, .none, false, false, [3], [6, 10], [3], [], [(3, -1), (6, 1), (10, 1)]⟩,
  ⟨.arr ⟨⟨377576522, -7⟩, ⟨-8, -1⟩, ⟨0, 0⟩⟩, [11], [1, 9], -1, .troe [(0, ⟨1, 0⟩), (5, ⟨5, 0⟩), (9, ⟨1, 0⟩), (10, ⟨5, -1⟩), (11, ⟨1, 0⟩), (15, ⟨2, 0⟩), (13, ⟨2, 0⟩), (14, ⟨2, 0⟩)] ⟨⟨633329483, -7⟩, ⟨-314, -2⟩, ⟨-618956501, -6⟩⟩ ⟨32, -2⟩ ⟨78, 0⟩ ⟨68, -2⟩ ⟨1995, 0⟩ ⟨-559, 1⟩, true, true, [1], [8], [1], [], [(1, -1), (8, 1)]⟩,
  ⟨.arr ⟨⟨131223634, -7⟩, ⟨2, 0⟩, ⟨-363825651, -5⟩⟩, [1, 11], [0, 9], 0, .none, false, false, [0], [1, 8], [1], [], [(0, -1), (1, 1), (8, 1)]⟩,
  ⟨.const ⟨8, 13⟩, [1, 15], [2, 9], 0, .none, false, false, [2], [1], [1], [3], [(1, 1), (2, -1)]⟩,
  ⟨.arr ⟨⟨299880944, -7⟩, ⟨0, 0⟩, ⟨-754825001, -6⟩⟩, [4, 15], [3, 9], 0, .none, false, false, [3], [4], [1], [3], [(3, -1), (4, 1)]⟩,
  ⟨.scaled ⟨25, -2⟩ 50, [1, 1, 14], [3, 9], 1, .none, false, false, [3], [1, 1, 11], [1], [], [(1, 2), (3, -1), (11, 1)]⟩,
  ⟨.const ⟨2, 13⟩, [1, 16], [4, 9], 0, .none, false, false, [4], [1, 12], [1], [], [(1, 1), (4, -1), (12, 1)]⟩,
  ⟨.arr ⟨⟨162403133, -7⟩, ⟨2, 0⟩, ⟨-150965, -2⟩⟩, [5, 8], [4, 9], 0, .none, false, false, [4], [5], [1], [0], [(4, -1), (5, 1)]⟩,
  ⟨.const ⟨2, 13⟩, [4, 16], [6, 9], 0, .none, false, false, [6], [4, 12], [1], [], [(4, 1), (6, -1), (12, 1)]⟩,
  ⟨.arr ⟨⟨274203001, -7⟩, ⟨5, -1⟩, ⟨-226950717, -5⟩⟩, [25], [9, 13], -1, .troe [(0, ⟨1, 0⟩), (5, ⟨5, 0⟩), (9, ⟨1, 0⟩), (10, ⟨5, -1⟩), (11, ⟨1, 0⟩), (15, ⟨2, 0⟩), (13, ⟨2, 0⟩), (14, ⟨2, 0⟩)] ⟨⟨769748493, -7⟩, ⟨-511, -2⟩, ⟨-357032226, -5⟩⟩ ⟨4093, -4⟩ ⟨275, 0⟩ ⟨5907, -4⟩ ⟨1226, 0⟩ ⟨-5185, 0⟩, true, true, [10], [17], [1], [], [(10, -1), (17, 1)]⟩,
  ⟨.const ⟨4, 13⟩, [1, 18], [8, 9], 0, .none, false, false, [], [1, 13], [], [], [(1, 1), (13, 1)]⟩,
  ⟨.const ⟨32, 12⟩, [0, 18], [9, 9], 0, .none, false, false, [], [0, 13], [], [], [(0, 1), (13, 1)]⟩,
  ⟨.arr ⟨⟨303390713, -7⟩, ⟨0, 0⟩, ⟨-301930001, -6⟩⟩, [9], [10], 0, .none, false, false, [21], [21], [2], [1], []⟩,
  ⟨.const ⟨3, 13⟩, [0, 8], [1, 10], 0, .none, false, false, [1], [0], [2], [0], [(0, 1), (1, -1)]⟩]

/-- continued -/
def rx2 : List Rx := [
  ⟨.const ⟨15, 12⟩, [0, 13], [2, 10], 0, .none, false, false, [2], [0, 10], [2], [], [(0, 1), (2, -1), (10, 1)]⟩,
  ⟨.const ⟨15, 12⟩, [1, 15], [2, 10], 0, .none, false, false, [2], [1], [2], [3], [(1, 1), (2, -1)]⟩,
  ⟨.const ⟨3, 13⟩, [1, 16], [4, 10], 0, .none, false, false, [4], [1, 12], [2], [], [(1, 1), (4, -1), (12, 1)]⟩,
  ⟨.const ⟨7, 13⟩, [1, 11], [0, 10], 0, .none, false, false, [0], [1, 8], [2], [], [(0, -1), (1, 1), (8, 1)]⟩,
  ⟨.const ⟨28, 12⟩, [1, 4, 13], [3, 10], 1, .none, false, false, [3], [1, 4, 10], [2], [], [(1, 1), (3, -1), (4, 1), (10, 1)]⟩,
  ⟨.const ⟨12, 12⟩, [5, 13], [3, 10], 0, .none, false, false, [3], [5, 10], [2], [], [(3, -1), (5, 1), (10, 1)]⟩,
  ⟨.const ⟨3, 13⟩, [9], [10], 0, .none, false, false, [5], [5], [2], [1], []⟩,
  ⟨.const ⟨9, 12⟩, [9], [10], 0, .none, false, false, [10], [10], [2], [1], []⟩,
  ⟨.const ⟨7, 12⟩, [9], [10], 0, .none, false, false, [11], [11], [2], [1], []⟩,
  ⟨.const ⟨14, 12⟩, [13, 16], [10, 14], 0, .none, false, false, [11], [10, 12], [2], [], [(10, 1), (11, -1), (12, 1)]⟩,
  ⟨.arr ⟨⟨27014835, -6⟩, ⟨454, -3⟩, ⟨-130836334, -5⟩⟩, [17], [1, 16], -1, .troe [(0, ⟨1, 0⟩), (5, ⟨5, 0⟩), (9, ⟨1, 0⟩), (10, ⟨5, -1⟩), (11, ⟨1, 0⟩), (15, ⟨2, 0⟩), (13, ⟨2, 0⟩), (14, ⟨2, 0⟩)] ⟨⟨698660102, -7⟩, ⟨-48, -1⟩, ⟨-279788467, -5⟩⟩ ⟨242, -3⟩ ⟨94, 0⟩ ⟨758, -3⟩ ⟨1555, 0⟩ ⟨-42, 2⟩, true, true, [1, 12], [], [], [4], [(1, -1), (12, -1)]⟩,
  ⟨.arr ⟨⟨238587601, -7⟩, ⟨105, -2⟩, ⟨-164803459, -5⟩⟩, [0, 15], [1, 16], 0, .none, false, false, [1, 12], [0], [], [3], [(0, 1), (1, -1), (12, -1)]⟩,
  ⟨.arr ⟨⟨312945828, -7⟩, ⟨0, 0⟩, ⟨-1781387, -3⟩⟩, [4, 15], [2, 16], 0, .none, false, false, [2, 12], [4], [], [3], [(2, -1), (4, 1), (12, -1)]⟩,
  ⟨.arr ⟨⟨219558261, -7⟩, ⟨118, -2⟩, ⟨22493785, -5⟩⟩, [5, 15], [4, 16], 0, .none, false, false, [4, 12], [5], [], [3], [(4, -1), (5, 1), (12, -1)]⟩,
  ⟨.arr ⟨⟨322361913, -7⟩, ⟨0, 0⟩, ⟨-201286667, -4⟩⟩, [6, 15], [3, 16], 0, .none, false, false, [3, 12], [6], [], [3], [(3, -1), (6, 1), (12, -1)]⟩,
  ⟨.arr ⟨⟨276310211, -7⟩, ⟨0, 0⟩, ⟨-402573334, -5⟩⟩, [7, 15], [6, 16], 0, .none, false, false, [6, 12], [7], [], [3], [(6, -1), (7, 1), (12, -1)]⟩,
  ⟨.arr ⟨⟨321806786, -7⟩, ⟨0, 0⟩, ⟨259156584, -6⟩⟩, [1, 25], [8, 16], 0, .none, false, false, [12], [1, 17], [0], [], [(1, 1), (12, -1), (17, 1)]⟩,
  ⟨.arr ⟨⟨370803784, -7⟩, ⟨-63, -2⟩, ⟨-192731984, -6⟩⟩, [12], [1, 11], -1, .troe [(0, ⟨1, 0⟩), (5, ⟨5, 0⟩), (9, ⟨1, 0⟩), (10, ⟨5, -1⟩), (11, ⟨1, 0⟩), (15, ⟨2, 0⟩), (13, ⟨2, 0⟩), (14, ⟨2, 0⟩)] ⟨⟨768923562, -7⟩, ⟨-476, -2⟩, ⟨-122784867, -5⟩⟩ ⟨217, -3⟩ ⟨74, 0⟩ ⟨783, -3⟩ ⟨2941, 0⟩ ⟨-6964, 0⟩, true, true, [1, 8], [9], [], [], [(1, -1), (8, -1), (9, 1)]⟩,
  ⟨.const ⟨843, 11⟩, [1, 16], [2, 11], 0, .none, false, false, [2, 8], [1, 12], [], [], [(1, 1), (2, -1), (8, -1), (12, 1)]⟩,
  ⟨.arr ⟨⟨178408622, -7⟩, ⟨16, -1⟩, ⟨-272743434, -5⟩⟩, [5, 9], [4, 11], 0, .none, false, false, [4, 8], [5], [], [1], [(4, -1), (5, 1), (8, -1)]⟩,
  ⟨.const ⟨2501, 10⟩, [5, 10], [4, 11], 0, .none, false, false, [4, 8], [5], [], [2], [(4, -1), (5, 1), (8, -1)]⟩,
  ⟨.arr ⟨⟨310595094, -7⟩, ⟨0, 0⟩, ⟨-1449264, -2⟩⟩, [2, 17], [3, 11], 0, .none, false, false, [3, 8], [2], [], [4], [(2, 1), (3, -1), (8, -1)]⟩,
  ⟨.arr ⟨⟨243067848, -7⟩, ⟨0, 0⟩, ⟨-449875701, -5⟩⟩, [4, 16], [3, 11], 0, .none, false, false, [3, 8], [4, 12], [], [], [(3, -1), (4, 1), (8, -1), (12, 1)]⟩,
  ⟨.const ⟨1, 12⟩, [3, 12], [6, 11], 0, .none, false, false, [6, 8], [3, 9], [], [], [(3, 1), (6, -1), (8, -1), (9, 1)]⟩,
  ⟨.const ⟨134, 11⟩, [4, 17], [6, 11], 0, .none, false, false, [6, 8], [4], [], [4], [(4, 1), (6, -1), (8, -1)]⟩,
  ⟨.arr ⟨⟨101064284, -7⟩, ⟨247, -2⟩, ⟨-260666234, -5⟩⟩, [6, 12], [7, 11], 0, .none, false, false, [7, 8], [6, 9], [], [], [(6, 1), (7, -1), (8, -1), (9, 1)]⟩,
  ⟨.const ⟨3, 13⟩, [1, 20], [8, 11], 0, .none, false, false, [8], [1], [0], [6], [(1, 1), (8, -1)]⟩,
  ⟨.const ⟨848, 10⟩, [12, 13], [11, 15], 0, .none, false, false, [8], [9, 10], [3], [], [(8, -1), (9, 1), (10, 1)]⟩,
  ⟨.const ⟨18, 12⟩, [27], [11, 15], -1, .troe [(0, ⟨1, 0⟩), (5, ⟨5, 0⟩), (9, ⟨1, 0⟩), (10, ⟨5, -1⟩), (11, ⟨1, 0⟩), (15, ⟨2, 0⟩), (13, ⟨2, 0⟩), (14, ⟨2, 0⟩)] ⟨⟨111312542, -6⟩, ⟨-9588, -3⟩, ⟨-2566405, -3⟩⟩ ⟨3827, -4⟩ ⟨13076, -3⟩ ⟨6173, -4⟩ ⟨2078, 0⟩ ⟨-5093, 0⟩, true, true, [8], [18], [3], [], [(8, -1), (18, 1)]⟩,
  ⟨.arr ⟨⟨810772006, -8⟩, ⟨281, -2⟩, ⟨-294884967, -5⟩⟩, [12, 15], [11, 16], 0, .none, false, false, [8, 12], [9], [], [3], [(8, -1), (9, 1), (12, -1)]⟩]

/-- continued -/
def rx3 : List Rx := [
  ⟨.const ⟨4, 13⟩, [1, 21], [9, 11], 0, .none, false, false, [8], [1, 14], [1], [], [(1, 1), (8, -1), (14, 1)]⟩,
  ⟨.arr ⟨⟨301159278, -7⟩, ⟨0, 0⟩, ⟨286833501, -6⟩⟩, [1, 21], [10, 11], 0, .none, false, false, [8], [1, 14], [2], [], [(1, 1), (8, -1), (14, 1)]⟩,
  ⟨.arr ⟨⟨375927776, -7⟩, ⟨-97, -2⟩, ⟨-311994334, -6⟩⟩, [23], [11, 11], -1, .troe [(0, ⟨1, 0⟩), (5, ⟨5, 0⟩), (9, ⟨1, 0⟩), (10, ⟨5, -1⟩), (11, ⟨1, 0⟩), (15, ⟨2, 0⟩), (13, ⟨2, 0⟩), (14, ⟨2, 0⟩)] ⟨⟨115700234, -6⟩, ⟨-967, -2⟩, ⟨-313000767, -5⟩⟩ ⟨4675, -4⟩ ⟨151, 0⟩ ⟨5325, -4⟩ ⟨1038, 0⟩ ⟨-497, 1⟩, true, true, [8, 8], [15], [], [], [(8, -2), (15, 1)]⟩,
  ⟨.arr ⟨⟨29238457, -6⟩, ⟨1, -1⟩, ⟨-533409668, -5⟩⟩, [1, 22], [11, 11], 0, .none, false, false, [8, 8], [1], [], [7], [(1, 1), (8, -2)]⟩,
  ⟨.const ⟨5, 13⟩, [13, 21], [11, 24], 0, .none, false, false, [8, 16], [10, 14], [], [], [(8, -1), (10, 1), (14, 1), (16, -1)]⟩,
  ⟨.const ⟨2, 13⟩, [0, 16], [1, 17], 0, .none, false, false, [1], [0, 12], [4], [], [(0, 1), (1, -1), (12, 1)]⟩,
  ⟨.const ⟨32, 12⟩, [4, 11], [1, 17], 0, .none, false, false, [1], [4, 8], [4], [], [(1, -1), (4, 1), (8, 1)]⟩,
  ⟨.const ⟨16, 12⟩, [5, 10], [1, 17], 0, .none, false, false, [1], [5], [4], [2], [(1, -1), (5, 1)]⟩,
  ⟨.const ⟨1, 13⟩, [4, 16], [2, 17], 0, .none, false, false, [2], [4, 12], [4], [], [(2, -1), (4, 1), (12, 1)]⟩,
  ⟨.const ⟨5, 12⟩, [5, 16], [4, 17], 0, .none, false, false, [4], [5, 12], [4], [], [(4, -1), (5, 1), (12, 1)]⟩,
  ⟨.arr ⟨⟨-284796532, -7⟩, ⟨76, -1⟩, ⟨177635484, -5⟩⟩, [6, 16], [3, 17], 0, .none, false, false, [3], [6, 12], [4], [], [(3, -1), (6, 1), (12, 1)]⟩,
  ⟨.arr ⟨⟨203077504, -7⟩, ⟨162, -2⟩, ⟨-545486868, -5⟩⟩, [0, 11], [1, 12], 0, .none, false, false, [1, 9], [0, 8], [], [], [(0, 1), (1, -1), (8, 1), (9, -1)]⟩,
  ⟨.arr ⟨⟨207430685, -7⟩, ⟨15, -1⟩, ⟨-432766334, -5⟩⟩, [4, 11], [2, 12], 0, .none, false, false, [2, 9], [4, 8], [], [], [(2, -1), (4, 1), (8, 1), (9, -1)]⟩,
  ⟨.arr ⟨⟨184206807, -7⟩, ⟨16, -1⟩, ⟨-1570036, -3⟩⟩, [5, 11], [4, 12], 0, .none, false, false, [4, 9], [5, 8], [], [], [(4, -1), (5, 1), (8, 1), (9, -1)]⟩,
  ⟨.const ⟨6, 13⟩, [1, 21], [8, 12], 0, .none, false, false, [9], [1, 14], [0], [], [(1, 1), (9, -1), (14, 1)]⟩,
  ⟨.arr ⟨⟨147156719, -7⟩, ⟨2, 0⟩, ⟨-416160184, -5⟩⟩, [11, 11], [9, 12], 0, .none, false, false, [9], [8, 8], [1], [], [(8, 2), (9, -1)]⟩,
  ⟨.scaled ⟨133333333, -8⟩ 91, [11, 11], [10, 12], 0, .none, false, false, [9], [8, 8], [2], [], [(8, 2), (9, -1)]⟩,
  ⟨.const ⟨1, 14⟩, [10, 13], [1, 24], 0, .none, false, false, [1, 16], [10], [], [2], [(1, -1), (10, 1), (16, -1)]⟩,
  ⟨.const ⟨1, 14⟩, [1, 13, 13], [2, 24], 1, .none, false, false, [2, 16], [1, 10, 10], [], [], [(1, 1), (2, -1), (10, 2), (16, -1)]⟩,
  ⟨.arr ⟨⟨281010247, -7⟩, ⟨0, 0⟩, ⟨-429747034, -6⟩⟩, [4, 13, 13], [3, 24], 1, .none, false, false, [3, 16], [4, 10, 10], [], [], [(3, -1), (4, 1), (10, 2), (16, -1)]⟩,
  ⟨.const ⟨5, 13⟩, [13, 18], [8, 24], 0, .none, false, false, [16], [10, 13], [0], [], [(10, 1), (13, 1), (16, -1)]⟩,
  ⟨.const ⟨3, 13⟩, [13, 20], [9, 24], 0, .none, false, false, [16], [10], [1], [6], [(10, 1), (16, -1)]⟩,
  ⟨.const ⟨1, 13⟩, [13, 13, 18], [24, 24], 1, .none, false, false, [16, 16], [10, 10, 13], [], [], [(10, 2), (13, 1), (16, -2)]⟩,
  ⟨.arr ⟨⟨343156328, -7⟩, ⟨-52, -2⟩, ⟨-255382459, -4⟩⟩, [19], [18], 0, .lind [(0, ⟨1, 0⟩), (5, ⟨5, 0⟩), (9, ⟨1, 0⟩), (10, ⟨5, -1⟩), (11, ⟨1, 0⟩), (15, ⟨2, 0⟩), (13, ⟨15, -1⟩), (14, ⟨15, -1⟩)] ⟨⟨354348644, -7⟩, ⟨-64, -2⟩, ⟨-250098684, -4⟩⟩, true, true, [13], [], [], [5], [(13, -1)]⟩,
  ⟨.arr ⟨⟨197713479, -7⟩, ⟨162, -2⟩, ⟨-186432818, -4⟩⟩, [1, 18], [20], 1, .troe [(0, ⟨1, 0⟩), (5, ⟨5, 0⟩), (9, ⟨1, 0⟩), (10, ⟨5, -1⟩), (11, ⟨1, 0⟩), (15, ⟨2, 0⟩), (13, ⟨2, 0⟩), (14, ⟨2, 0⟩)] ⟨⟨63111756, -6⟩, ⟨-34, -1⟩, ⟨-180145126, -4⟩⟩ ⟨-9816, -4⟩ ⟨53837, -1⟩ ⟨19816, -4⟩ ⟨42932, -4⟩ ⟨795, -4⟩, true, true, [], [1, 13], [6], [], [(1, 1), (13, 1)]⟩,
  ⟨.arr ⟨⟨166079019, -7⟩, ⟨2, 0⟩, ⟨-956111669, -6⟩⟩, [1, 24], [2, 18], 0, .none, false, false, [2, 13], [1, 16], [], [], [(1, 1), (2, -1), (13, -1), (16, 1)]⟩,
  ⟨.scaled ⟨25, -2⟩ 115, [9, 13], [2, 18], 0, .none, false, false, [2, 13], [10], [], [1], [(2, -1), (10, 1), (13, -1)]⟩,
  ⟨.arr ⟨⟨-84310155, -7⟩, ⟨45, -1⟩, ⟨503216668, -6⟩⟩, [1, 25], [4, 18], 0, .none, false, false, [4, 13], [1, 17], [], [], [(1, 1), (4, -1), (13, -1), (17, 1)]⟩,
  ⟨.arr ⟨⟨-76354939, -7⟩, ⟨4, 0⟩, ⟨100643334, -5⟩⟩, [11, 13], [4, 18], 0, .none, false, false, [4, 13], [8, 10], [], [], [(4, -1), (8, 1), (10, 1), (13, -1)]⟩,
  ⟨.arr ⟨⟨161180957, -7⟩, ⟨2, 0⟩, ⟨-301930001, -5⟩⟩, [13, 20], [15, 18], 0, .none, false, false, [13], [10], [3], [6], [(10, 1), (13, -1)]⟩]

/-- continued -/
def rx4 : List Rx := [
  ⟨.arr ⟨⟨127430637, -6⟩, ⟨-1182, -2⟩, ⟨-179799315, -4⟩⟩, [28], [11, 18], -1, .three [], true, true, [8, 13], [19], [], [], [(8, -1), (13, -1), (19, 1)]⟩,
  ⟨.const ⟨1, 14⟩, [18], [19], 0, .none, false, false, [1], [1, 13], [5], [], [(13, 1)]⟩,
  ⟨.const ⟨1, 14⟩, [9, 13], [2, 19], 0, .none, false, false, [2], [10], [5], [1], [(2, -1), (10, 1)]⟩,
  ⟨.const ⟨2, 13⟩, [1, 25], [4, 19], 0, .none, false, false, [4], [1, 17], [5], [], [(1, 1), (4, -1), (17, 1)]⟩,
  ⟨.const ⟨1, 13⟩, [9, 14], [3, 19], 0, .none, false, false, [3], [11], [5], [1], [(3, -1), (11, 1)]⟩,
  ⟨.arr ⟨⟨334301138, -7⟩, ⟨-6, -2⟩, ⟨-427734167, -5⟩⟩, [26], [1, 25], -1, .troe [(0, ⟨1, 0⟩), (5, ⟨5, 0⟩), (9, ⟨1, 0⟩), (10, ⟨5, -1⟩), (11, ⟨1, 0⟩), (15, ⟨2, 0⟩), (13, ⟨2, 0⟩), (14, ⟨2, 0⟩)] ⟨⟨957409899, -7⟩, ⟨-764, -2⟩, ⟨-598827834, -5⟩⟩ ⟨663, -3⟩ ⟨1707, 0⟩ ⟨337, -3⟩ ⟨32, 2⟩ ⟨-4131, 0⟩, true, true, [1, 17], [], [], [8], [(1, -1), (17, -1)]⟩,
  ⟨.scaled ⟨5, 1⟩ 75, [0, 24], [1, 25], 0, .none, false, false, [1, 17], [0, 16], [], [], [(0, 1), (1, -1), (16, 1), (17, -1)]⟩,
  ⟨.arr ⟨⟨211287309, -7⟩, ⟨143, -2⟩, ⟨-135365284, -5⟩⟩, [11, 13], [1, 25], 0, .none, false, false, [1, 17], [8, 10], [], [], [(1, -1), (8, 1), (10, 1), (17, -1)]⟩,
  ⟨.scaled ⟨1, 1⟩ 75, [4, 24], [2, 25], 0, .none, false, false, [2, 17], [4, 16], [], [], [(2, -1), (4, 1), (16, 1), (17, -1)]⟩,
  ⟨.arr ⟨⟨281906369, -7⟩, ⟨0, 0⟩, ⟨-679342501, -6⟩⟩, [9, 14], [2, 25], 0, .none, false, false, [2, 17], [11], [], [1], [(2, -1), (11, 1), (17, -1)]⟩,
  ⟨.arr ⟨⟨296459241, -7⟩, ⟨0, 0⟩, ⟨-100643334, -5⟩⟩, [5, 24], [4, 25], 0, .none, false, false, [4, 17], [5, 16], [], [], [(4, -1), (5, 1), (16, 1), (17, -1)]⟩,
  ⟨.arr ⟨⟨294360258, -7⟩, ⟨27, -2⟩, ⟨-140900667, -6⟩⟩, [21], [1, 20], -1, .troe [(0, ⟨1, 0⟩), (5, ⟨5, 0⟩), (9, ⟨1, 0⟩), (10, ⟨5, -1⟩), (11, ⟨1, 0⟩), (15, ⟨2, 0⟩), (13, ⟨2, 0⟩), (14, ⟨2, 0⟩)] ⟨⟨69414025, -6⟩, ⟨-386, -2⟩, ⟨-167067934, -5⟩⟩ ⟨218, -3⟩ ⟨2075, -1⟩ ⟨782, -3⟩ ⟨2663, 0⟩ ⟨-6095, 0⟩, true, true, [1], [14], [6], [], [(1, -1), (14, 1)]⟩,
  ⟨.const ⟨3, 13⟩, [0, 18], [1, 20], 0, .none, false, false, [1], [0, 13], [6], [], [(0, 1), (1, -1), (13, 1)]⟩,
  ⟨.const ⟨6, 13⟩, [0, 19], [1, 20], 0, .none, false, false, [1], [0], [6], [5], [(0, 1), (1, -1)]⟩,
  ⟨.const ⟨48, 12⟩, [1, 25], [2, 20], 0, .none, false, false, [2], [1, 17], [6], [], [(1, 1), (2, -1), (17, 1)]⟩,
  ⟨.const ⟨48, 12⟩, [11, 13], [2, 20], 0, .none, false, false, [2], [8, 10], [6], [], [(2, -1), (8, 1), (10, 1)]⟩,
  ⟨.const ⟨3011, 10⟩, [5, 18], [4, 20], 0, .none, false, false, [4], [5, 13], [6], [], [(4, -1), (5, 1), (13, 1)]⟩,
  ⟨.arr ⟨⟨141081802, -7⟩, ⟨161, -2⟩, ⟨19293327, -5⟩⟩, [6, 18], [3, 20], 0, .none, false, false, [3], [6, 13], [6], [], [(3, -1), (6, 1), (13, 1)]⟩,
  ⟨.arr ⟨⟨264270483, -7⟩, ⟨29, -2⟩, ⟨-553538334, -8⟩⟩, [2, 26], [3, 20], 0, .none, false, false, [3], [2], [6], [8], [(2, 1), (3, -1)]⟩,
  ⟨.arr ⟨⟨383674178, -7⟩, ⟨-139, -2⟩, ⟨-508248834, -6⟩⟩, [15, 16], [3, 20], 0, .none, false, false, [3], [12], [6], [3], [(3, -1), (12, 1)]⟩,
  ⟨.const ⟨1, 13⟩, [4, 26], [6, 20], 0, .none, false, false, [6], [4], [6], [8], [(4, 1), (6, -1)]⟩,
  ⟨.arr ⟨⟨232164713, -7⟩, ⟨0, 0⟩, ⟨299917134, -6⟩⟩, [6, 21], [7, 20], 0, .none, false, false, [7], [6, 14], [6], [], [(6, 1), (7, -1), (14, 1)]⟩,
  ⟨.const ⟨9033, 10⟩, [13, 21], [15, 20], 0, .none, false, false, [], [10, 14], [], [], [(10, 1), (14, 1)]⟩,
  ⟨.const ⟨392, 9⟩, [12, 18], [11, 20], 0, .none, false, false, [8], [9, 13], [6], [], [(8, -1), (9, 1), (13, 1)]⟩,
  ⟨.const ⟨25, 12⟩, [29], [11, 20], -1, .troe [(0, ⟨1, 0⟩), (5, ⟨5, 0⟩), (9, ⟨1, 0⟩), (10, ⟨5, -1⟩), (11, ⟨1, 0⟩), (15, ⟨2, 0⟩), (13, ⟨2, 0⟩), (14, ⟨2, 0⟩)] ⟨⟨135001549, -6⟩, ⟨-1194, -2⟩, ⟨-49163262, -4⟩⟩ ⟨825, -3⟩ ⟨13406, -1⟩ ⟨175, -3⟩ ⟨6, 4⟩ ⟨-101398, -1⟩, true, true, [8], [20], [6], [], [(8, -1), (20, 1)]⟩,
  ⟨.arr ⟨⟨556675073, -7⟩, ⟨-283, -2⟩, ⟨-936888792, -5⟩⟩, [1, 28], [11, 20], 0, .none, false, false, [8], [1, 19], [6], [], [(1, 1), (8, -1), (19, 1)]⟩,
  ⟨.arr ⟨⟨964601125, -7⟩, ⟨-9147, -3⟩, ⟨-236008617, -4⟩⟩, [11, 13], [26], 1, .none, false, false, [], [8, 10], [8], [], [(8, 1), (10, 1)]⟩,
  ⟨.const ⟨1, 14⟩, [27], [1, 26], -1, .troe [(0, ⟨1, 0⟩), (5, ⟨5, 0⟩), (9, ⟨1, 0⟩), (10, ⟨5, -1⟩), (11, ⟨1, 0⟩), (15, ⟨2, 0⟩), (13, ⟨2, 0⟩), (14, ⟨2, 0⟩)] ⟨⟨914494773, -7⟩, ⟨-7297, -3⟩, ⟨-236511834, -5⟩⟩ ⟨45, -2⟩ ⟨89, 2⟩ ⟨55, -2⟩ ⟨435, 1⟩ ⟨-7244, 0⟩, true, true, [1], [18], [8], [], [(1, -1), (18, 1)]⟩,
  ⟨.const ⟨9, 13⟩, [11, 15], [1, 26], 0, .none, false, false, [1], [8], [8], [3], [(1, -1), (8, 1)]⟩,
  ⟨.arr ⟨⟨306267534, -7⟩, ⟨0, 0⟩, ⟨-201286667, -5⟩⟩, [0, 25], [1, 26], 0, .none, false, false, [1], [0, 17], [8], [], [(0, 1), (1, -1), (17, 1)]⟩]

/-- continued -/
def rx5 : List Rx := [
  ⟨.scaled ⟨1, 0⟩ 149, [4, 25], [2, 26], 0, .none, false, false, [2], [4, 17], [8], [], [(2, -1), (4, 1), (17, 1)]⟩,
  ⟨.scaled ⟨133333333, -8⟩ 130, [5, 25], [4, 26], 0, .none, false, false, [4], [5, 17], [8], [], [(4, -1), (5, 1), (17, 1)]⟩,
  ⟨.const ⟨14, 10⟩, [6, 25], [3, 26], 0, .none, false, false, [3], [6, 17], [8], [], [(3, -1), (6, 1), (17, 1)]⟩,
  ⟨.const ⟨18, 9⟩, [4, 13, 16], [3, 26], 1, .none, false, false, [3], [4, 10, 12], [8], [], [(3, -1), (4, 1), (10, 1), (12, 1)]⟩,
  ⟨.arr ⟨⟨297104627, -7⟩, ⟨44, -2⟩, ⟨-446705436, -4⟩⟩, [0, 19], [21], 1, .troe [(0, ⟨1, 0⟩), (5, ⟨5, 0⟩), (9, ⟨1, 0⟩), (10, ⟨5, -1⟩), (11, ⟨1, 0⟩), (15, ⟨2, 0⟩), (13, ⟨2, 0⟩), (14, ⟨2, 0⟩)] ⟨⟨117075165, -6⟩, ⟨-931, -2⟩, ⟨-502512164, -4⟩⟩ ⟨2655, -4⟩ ⟨18, 1⟩ ⟨7345, -4⟩ ⟨1035, 0⟩ ⟨-5417, 0⟩, true, true, [14], [0], [], [5], [(0, 1), (14, -1)]⟩,
  ⟨.arr ⟨⟨277079822, -7⟩, ⟨454, -3⟩, ⟨-915854335, -6⟩⟩, [22], [1, 21], -1, .troe [(0, ⟨1, 0⟩), (5, ⟨5, 0⟩), (9, ⟨1, 0⟩), (10, ⟨5, -1⟩), (11, ⟨1, 0⟩), (15, ⟨2, 0⟩), (13, ⟨2, 0⟩), (14, ⟨2, 0⟩)] ⟨⟨968908955, -7⟩, ⟨-762, -2⟩, ⟨-350742017, -5⟩⟩ ⟨247, -4⟩ ⟨21, 1⟩ ⟨9753, -4⟩ ⟨984, 0⟩ ⟨-4374, 0⟩, true, true, [1, 14], [], [], [7], [(1, -1), (14, -1)]⟩,
  ⟨.arr ⟨⟨177414365, -7⟩, ⟨193, -2⟩, ⟨-651665585, -5⟩⟩, [0, 20], [1, 21], 0, .none, false, false, [1, 14], [0], [], [6], [(0, 1), (1, -1), (14, -1)]⟩,
  ⟨.arr ⟨⟨165302053, -7⟩, ⟨191, -2⟩, ⟨-188203034, -5⟩⟩, [4, 20], [2, 21], 0, .none, false, false, [2, 14], [4], [], [6], [(2, -1), (4, 1), (14, -1)]⟩,
  ⟨.arr ⟨⟨167704208, -7⟩, ⟨183, -2⟩, ⟨-110707667, -6⟩⟩, [11, 15], [2, 21], 0, .none, false, false, [2, 14], [8], [], [3], [(2, -1), (8, 1), (14, -1)]⟩,
  ⟨.scaled ⟨2, -2⟩ 158, [9, 16], [2, 21], 0, .none, false, false, [2, 14], [12], [], [1], [(2, -1), (12, 1), (14, -1)]⟩,
  ⟨.arr ⟨⟨150964444, -7⟩, ⟨2, 0⟩, ⟨-125804167, -5⟩⟩, [5, 20], [4, 21], 0, .none, false, false, [4, 14], [5], [], [6], [(4, -1), (5, 1), (14, -1)]⟩,
  ⟨.arr ⟨⟨313734413, -7⟩, ⟨0, 0⟩, ⟨-305955734, -4⟩⟩, [6, 20], [3, 21], 0, .none, false, false, [3, 14], [6], [], [6], [(3, -1), (6, 1), (14, -1)]⟩,
  ⟨.arr ⟨⟨283241683, -7⟩, ⟨0, 0⟩, ⟨-704503335, -5⟩⟩, [4, 27], [6, 21], 0, .none, false, false, [6, 14], [4, 18], [], [], [(4, 1), (6, -1), (14, -1), (18, 1)]⟩,
  ⟨.arr ⟨⟨161180957, -7⟩, ⟨2, 0⟩, ⟨-402573334, -5⟩⟩, [13, 22], [15, 21], 0, .none, false, false, [14], [10], [3], [7], [(10, 1), (14, -1)]⟩,
  ⟨.arr ⟨⟨306267534, -7⟩, ⟨0, 0⟩, ⟨-301930001, -5⟩⟩, [1, 28], [9, 21], 0, .none, false, false, [14], [1, 19], [1], [], [(1, 1), (14, -1), (19, 1)]⟩,
  ⟨.const ⟨5, 13⟩, [12, 19], [10, 21], 0, .none, false, false, [14], [9], [2], [5], [(9, 1), (14, -1)]⟩,
  ⟨.const ⟨5, 13⟩, [1, 28], [10, 21], 0, .none, false, false, [14], [1, 19], [2], [], [(1, 1), (14, -1), (19, 1)]⟩,
  ⟨.arr ⟨⟨123327053, -7⟩, ⟨2, 0⟩, ⟨-462959334, -5⟩⟩, [12, 20], [11, 21], 0, .none, false, false, [8, 14], [9], [], [6], [(8, -1), (9, 1), (14, -1)]⟩,
  ⟨.arr ⟨⟨265223585, -7⟩, ⟨0, 0⟩, ⟨-387476834, -5⟩⟩, [30], [11, 21], -1, .none, false, false, [8, 14], [], [], [9], [(8, -1), (14, -1)]⟩,
  ⟨.arr ⟨⟨407945264, -7⟩, ⟨-99, -2⟩, ⟨-795082335, -6⟩⟩, [23], [1, 22], -1, .troe [(0, ⟨1, 0⟩), (5, ⟨5, 0⟩), (9, ⟨1, 0⟩), (10, ⟨5, -1⟩), (11, ⟨1, 0⟩), (15, ⟨2, 0⟩), (13, ⟨2, 0⟩), (14, ⟨2, 0⟩)] ⟨⟨950941235, -7⟩, ⟨-708, -2⟩, ⟨-336400342, -5⟩⟩ ⟨1578, -4⟩ ⟨125, 0⟩ ⟨8422, -4⟩ ⟨2219, 0⟩ ⟨-6882, 0⟩, true, true, [1], [15], [7], [], [(1, -1), (15, 1)]⟩,
  ⟨.const ⟨2, 12⟩, [0, 21], [1, 22], 0, .none, false, false, [1], [0, 14], [7], [], [(0, 1), (1, -1), (14, 1)]⟩,
  ⟨.const ⟨1604, 10⟩, [11, 16], [2, 22], 0, .none, false, false, [2], [8, 12], [7], [], [(2, -1), (8, 1), (12, 1)]⟩,
  ⟨.const ⟨802, 11⟩, [1, 27], [2, 22], 0, .none, false, false, [2], [1, 18], [7], [], [(1, 1), (2, -1), (18, 1)]⟩,
  ⟨.const ⟨2, 10⟩, [6, 21], [3, 22], 0, .none, false, false, [3], [6, 14], [7], [], [(3, -1), (6, 1), (14, 1)]⟩,
  ⟨.const ⟨3, 11⟩, [3, 23], [6, 22], 0, .none, false, false, [6], [3, 15], [7], [], [(3, 1), (6, -1), (15, 1)]⟩,
  ⟨.const ⟨3, 11⟩, [7, 21], [6, 22], 0, .none, false, false, [6], [7, 14], [7], [], [(6, -1), (7, 1), (14, 1)]⟩,
  ⟨.const ⟨24, 12⟩, [4, 11, 16], [6, 22], 1, .none, false, false, [6], [4, 8, 12], [7], [], [(4, 1), (6, -1), (8, 1), (12, 1)]⟩,
  ⟨.arr ⟨⟨228865889, -7⟩, ⟨0, 0⟩, ⟨-490133034, -6⟩⟩, [6, 23], [7, 22], 0, .none, false, false, [7], [6, 15], [7], [], [(6, 1), (7, -1), (15, 1)]⟩,
  ⟨.const ⟨12, 13⟩, [13, 23], [15, 22], 0, .none, false, false, [], [10, 15], [], [], [(10, 1), (15, 1)]⟩,
  ⟨.arr ⟨⟨185604427, -7⟩, ⟨19, -1⟩, ⟨-378922151, -5⟩⟩, [0, 22], [1, 23], 0, .none, false, false, [1, 15], [0], [], [7], [(0, 1), (1, -1), (15, -1)]⟩]

/-- continued -/
def rx6 : List Rx := [
  ⟨.arr ⟨⟨183130955, -7⟩, ⟨192, -2⟩, ⟨-286330284, -5⟩⟩, [4, 22], [2, 23], 0, .none, false, false, [2, 15], [4], [], [7], [(2, -1), (4, 1), (15, -1)]⟩,
  ⟨.arr ⟨⟨150796373, -7⟩, ⟨212, -2⟩, ⟨-437798501, -6⟩⟩, [5, 22], [4, 23], 0, .none, false, false, [4, 15], [5], [], [7], [(4, -1), (5, 1), (15, -1)]⟩,
  ⟨.arr ⟨⟨313199006, -7⟩, ⟨0, 0⟩, ⟨276769167, -6⟩⟩, [11, 22], [10, 23], 0, .none, false, false, [15], [8], [2], [7], [(8, 1), (15, -1)]⟩,
  ⟨.arr ⟨⟨156303353, -7⟩, ⟨174, -2⟩, ⟨-525861418, -5⟩⟩, [12, 22], [11, 23], 0, .none, false, false, [8, 15], [9], [], [7], [(8, -1), (9, 1), (15, -1)]⟩,
  ⟨.const ⟨2, 14⟩, [29], [1, 28], -1, .troe [(0, ⟨1, 0⟩), (5, ⟨5, 0⟩), (9, ⟨1, 0⟩), (10, ⟨5, -1⟩), (11, ⟨1, 0⟩), (15, ⟨2, 0⟩), (13, ⟨2, 0⟩), (14, ⟨2, 0⟩)] ⟨⟨138440285, -6⟩, ⟨-12, 0⟩, ⟨-300309643, -5⟩⟩ ⟨98, -2⟩ ⟨10966, -1⟩ ⟨2, -2⟩ ⟨10966, -1⟩ ⟨-68595, -1⟩, true, true, [1, 19], [20], [], [], [(1, -1), (19, -1), (20, 1)]⟩,
  ⟨.scaled ⟨266666667, -8⟩ 130, [12, 19], [1, 28], 0, .none, false, false, [1, 19], [9], [], [5], [(1, -1), (9, 1), (19, -1)]⟩,
  ⟨.const ⟨266, 10⟩, [3, 29], [6, 28], 0, .none, false, false, [6, 19], [3, 20], [], [], [(3, 1), (6, -1), (19, -1), (20, 1)]⟩,
  ⟨.const ⟨66, 11⟩, [4, 16, 20], [6, 28], 1, .none, false, false, [6, 19], [4, 12], [], [6], [(4, 1), (6, -1), (12, 1), (19, -1)]⟩,
  ⟨.const ⟨6, 13⟩, [13, 29], [15, 28], 0, .none, false, false, [19], [10, 20], [3], [], [(10, 1), (19, -1), (20, 1)]⟩,
  ⟨.arr ⟨⟨302187852, -7⟩, ⟨0, 0⟩, ⟨-164083859, -5⟩⟩, [30], [1, 29], -1, .troe [(0, ⟨1, 0⟩), (5, ⟨5, 0⟩), (9, ⟨1, 0⟩), (10, ⟨5, -1⟩), (11, ⟨1, 0⟩), (15, ⟨2, 0⟩)] ⟨⟨893324137, -7⟩, ⟨-666, -2⟩, ⟨-352251667, -5⟩⟩ ⟨0, 0⟩ ⟨1, 3⟩ ⟨1, 0⟩ ⟨131, 1⟩ ⟨-48097, 0⟩, true, true, [1, 20], [], [], [9], [(1, -1), (20, -1)]⟩,
  ⟨.arr ⟨⟨511268757, -7⟩, ⟨-239, -2⟩, ⟨-562596234, -5⟩⟩, [11, 21], [1, 29], 0, .none, false, false, [1, 20], [8, 14], [], [], [(1, -1), (8, 1), (14, 1), (20, -1)]⟩,
  ⟨.arr ⟨⟨120435537, -7⟩, ⟨25, -1⟩, ⟨-12530095, -4⟩⟩, [0, 28], [1, 29], 0, .none, false, false, [1, 20], [0, 19], [], [], [(0, 1), (1, -1), (19, 1), (20, -1)]⟩,
  ⟨.arr ⟨⟨186030023, -7⟩, ⟨165, -2⟩, ⟨-16455185, -5⟩⟩, [1, 11, 25], [2, 29], 1, .none, false, false, [2, 20], [1, 8, 17], [], [], [(1, 1), (2, -1), (8, 1), (17, 1), (20, -1)]⟩,
  ⟨.arr ⟨⟨173708586, -7⟩, ⟨165, -2⟩, ⟨489126601, -6⟩⟩, [15, 22], [2, 29], 0, .none, false, false, [2, 20], [], [], [], [(2, -1), (20, -1)]⟩,
  ⟨.arr ⟨⟨259162227, -7⟩, ⟨7, -1⟩, ⟨-295891401, -5⟩⟩, [4, 28], [2, 29], 0, .none, false, false, [2, 20], [4, 19], [], [], [(2, -1), (4, 1), (19, 1), (20, -1)]⟩,
  ⟨.arr ⟨⟨149469127, -7⟩, ⟨2, 0⟩, ⟨149958567, -6⟩⟩, [5, 28], [4, 29], 0, .none, false, false, [4, 20], [5, 19], [], [], [(4, -1), (5, 1), (19, 1), (20, -1)]⟩,
  ⟨.arr ⟨⟨916951838, -8⟩, ⟨26, -1⟩, ⟨-699974385, -5⟩⟩, [7, 28], [6, 29], 0, .none, false, false, [6, 20], [7, 19], [], [], [(6, -1), (7, 1), (19, 1), (20, -1)]⟩,
  ⟨.arr ⟨⟨78845736, -8⟩, ⟨35, -1⟩, ⟨-285575459, -5⟩⟩, [12, 28], [11, 29], 0, .none, false, false, [8, 20], [9, 19], [], [], [(8, -1), (9, 1), (19, 1), (20, -1)]⟩,
  ⟨.arr ⟨⟨565703751, -7⟩, ⟨-292, -2⟩, ⟨-629272443, -5⟩⟩, [11, 22], [1, 30], 0, .none, false, false, [1], [8], [9], [7], [(1, -1), (8, 1)]⟩,
  ⟨.const ⟨18, 11⟩, [0, 29], [1, 30], 0, .none, false, false, [1], [0, 20], [9], [], [(0, 1), (1, -1), (20, 1)]⟩,
  ⟨.const ⟨96, 12⟩, [16, 22], [2, 30], 0, .none, false, false, [2], [12], [9], [7], [(2, -1), (12, 1)]⟩,
  ⟨.const ⟨24, 12⟩, [5, 29], [4, 30], 0, .none, false, false, [4], [5, 20], [9], [], [(4, -1), (5, 1), (20, 1)]⟩,
  ⟨.const ⟨9, 10⟩, [6, 29], [3, 30], 0, .none, false, false, [3], [6, 20], [9], [], [(3, -1), (6, 1), (20, 1)]⟩,
  ⟨.const ⟨24, 12⟩, [4, 16, 22], [6, 30], 1, .none, false, false, [6], [4, 12], [9], [7], [(4, 1), (6, -1), (12, 1)]⟩,
  ⟨.const ⟨11, 12⟩, [12, 29], [11, 30], 0, .none, false, false, [8], [9, 20], [9], [], [(8, -1), (9, 1), (20, 1)]⟩,
  ⟨.arr ⟨⟨750436995, -7⟩, ⟨-522, -2⟩, ⟨-993701954, -5⟩⟩, [11, 28], [20, 22], 0, .none, false, false, [], [8, 19], [], [], [(8, 1), (19, 1)]⟩]

/-- all reactions in order -/
def rxns : List Rx := rx0 ++ rx1 ++ rx2 ++ rx3 ++ rx4 ++ rx5 ++ rx6

/-- directions set to zero, lines 1791-1796 -/
def zeroed : List Dir := [(true, 56), (true, 57), (true, 142), (true, 178), (false, 193), (true, 205)]

/-- the balances `DEN`, `A<i>_<k>` of the ten quasi-steady species before elimination (i = 1..10) -/
def rows : List Row := [
  ⟨[(true, 33), (true, 34), (true, 35), (true, 36), (true, 37), (true, 38), (true, 39), (true, 76), (true, 86), (true, 104), (true, 110), (false, 53), (false, 59)],
   [(0, [(false, 33), (false, 36), (false, 38), (false, 56), (false, 76), (false, 104), (false, 110)]),
    (2, [(false, 35), (true, 53)]),
    (3, [(true, 59)]),
    (4, [(false, 34), (false, 37), (false, 39)]),
    (7, [(false, 86)])]⟩,
  ⟨[(true, 47), (true, 48), (true, 49), (true, 50), (true, 51), (true, 52), (true, 53), (true, 54), (true, 55), (true, 90), (true, 105), (true, 111), (true, 164), (false, 35), (false, 58), (false, 66), (false, 67), (false, 68), (false, 79), (false, 116), (false, 122), (false, 124), (false, 129), (false, 159)],
   [(0, [(false, 47), (false, 48), (false, 51), (false, 52), (false, 54), (false, 55), (false, 56), (false, 57), (false, 57), (true, 79), (false, 90), (false, 105), (true, 116), (true, 129), (true, 159), (false, 164)]),
    (1, [(true, 35), (false, 53)]),
    (3, [(true, 58), (true, 66), (true, 67), (true, 68)]),
    (4, [(false, 49), (false, 50)]),
    (6, [(true, 122), (true, 124)]),
    (7, [(false, 111)])]⟩,
  ⟨[(true, 58), (true, 59), (true, 60), (true, 61), (true, 62), (true, 63), (true, 64), (true, 65), (true, 66), (true, 67), (true, 68), (true, 69), (true, 91), (true, 106), (true, 165), (true, 166), (true, 182), (false, 80), (false, 97), (false, 107)],
   [(0, [(false, 60), (false, 62), (false, 63), (false, 64), (false, 65), (false, 69), (true, 80), (false, 91), (false, 106), (true, 107), (false, 166)]),
    (1, [(false, 59)]),
    (2, [(false, 58), (false, 66), (false, 67), (false, 68)]),
    (4, [(false, 61)]),
    (5, [(true, 97)]),
    (6, [(false, 165)]),
    (8, [(false, 182)])]⟩,
  ⟨[(true, 40), (true, 41), (true, 42), (true, 43), (true, 44), (true, 45), (true, 46), (true, 87), (true, 88), (true, 119), (true, 163), (true, 188), (false, 34), (false, 37), (false, 39), (false, 49), (false, 50), (false, 61), (false, 71), (false, 72), (false, 73), (false, 74), (false, 75), (false, 89), (false, 139), (false, 148), (false, 158)],
   [(0, [(false, 40), (false, 41), (false, 42), (false, 43), (false, 44), (false, 45), (false, 46), (true, 71), (true, 72), (true, 73), (true, 74), (true, 75), (false, 87), (false, 88), (true, 89), (false, 142), (true, 158), (false, 178), (false, 188), (true, 193)]),
    (1, [(true, 34), (true, 37), (true, 39)]),
    (2, [(true, 49), (true, 50)]),
    (3, [(true, 61)]),
    (7, [(false, 119), (true, 139)]),
    (8, [(false, 163)]),
    (9, [(true, 148)])]⟩,
  ⟨[(true, 95), (true, 96), (true, 97), (true, 98), (true, 99), (true, 100), (false, 70), (false, 81), (false, 84)],
   [(0, [(true, 70), (true, 81), (true, 84), (false, 95), (false, 96), (false, 98), (false, 99), (false, 100)]),
    (3, [(false, 97)])]⟩,
  ⟨[(true, 121), (true, 122), (true, 123), (true, 124), (false, 113), (false, 133), (false, 154), (false, 165), (false, 185)],
   [(0, [(true, 113), (false, 121), (false, 123), (true, 154), (true, 185)]),
    (2, [(false, 122), (false, 124)]),
    (3, [(true, 165)]),
    (7, [(true, 133)])]⟩,
  ⟨[(true, 114), (true, 131), (true, 132), (true, 133), (true, 134), (true, 135), (true, 136), (true, 137), (true, 138), (true, 139), (true, 140), (true, 141), (true, 143), (true, 144), (true, 145), (false, 86), (false, 111), (false, 119), (false, 156), (false, 157), (false, 160), (false, 161), (false, 167), (false, 187)],
   [(0, [(false, 114), (false, 131), (false, 132), (false, 134), (false, 135), (false, 136), (false, 137), (false, 141), (false, 142), (false, 143), (false, 144), (false, 145), (true, 156), (true, 157), (true, 160), (true, 161), (true, 167), (true, 187), (false, 205)]),
    (1, [(true, 86)]),
    (2, [(true, 111)]),
    (4, [(true, 119), (false, 139)]),
    (6, [(false, 133)]),
    (9, [(false, 138), (false, 140)])]⟩,
  ⟨[(true, 169), (true, 170), (true, 171), (true, 172), (true, 173), (true, 174), (true, 175), (true, 176), (true, 177), (false, 93), (false, 155), (false, 163), (false, 179), (false, 180), (false, 181), (false, 182), (false, 183), (false, 198), (false, 200), (false, 203)],
   [(0, [(true, 93), (true, 155), (false, 169), (false, 170), (false, 171), (false, 172), (false, 173), (false, 174), (false, 175), (false, 176), (false, 177), (false, 178), (true, 179), (true, 180), (true, 181), (true, 183), (true, 193), (false, 205)]),
    (3, [(true, 182)]),
    (4, [(true, 163)]),
    (10, [(true, 198), (true, 200), (true, 203)])]⟩,
  ⟨[(true, 146), (true, 147), (true, 148), (true, 149), (true, 150), (true, 151), (true, 152), (true, 153), (false, 125), (false, 138), (false, 140)],
   [(0, [(true, 125), (false, 146), (false, 147), (false, 149), (false, 150), (false, 151), (false, 152), (false, 153)]),
    (4, [(false, 148)]),
    (7, [(true, 138), (true, 140)])]⟩,
  ⟨[(true, 198), (true, 199), (true, 200), (true, 201), (true, 202), (true, 203), (true, 204), (false, 168), (false, 189)],
   [(0, [(true, 168), (true, 189), (false, 199), (false, 201), (false, 202), (false, 204)]),
    (8, [(false, 198), (false, 200), (false, 203)])]⟩]

/-- the elimination statements in order, up to line 2056 -/
def prog : List Stmt := [
  .acc (3, 0) false (3, 5) (5, 0), .den (3, 5) (5, 3), .div (3, 0), .div (3, 4), .div (3, 2), .div (3, 1),
  .div (3, 6), .div (3, 8), .acc (8, 0) false (8, 10) (10, 0), .den (8, 10) (10, 8), .div (8, 0), .div (8, 3),
  .div (8, 4), .acc (4, 0) false (4, 9) (9, 0), .acc (4, 7) false (4, 9) (9, 7), .den (4, 9) (9, 4), .div (4, 0),
  .div (4, 3), .div (4, 7), .div (4, 2), .div (4, 1), .div (4, 8), .acc (7, 0) false (7, 9) (9, 0),
  .acc (7, 4) false (7, 9) (9, 4), .den (7, 9) (9, 7), .div (7, 0), .div (7, 4), .div (7, 2), .div (7, 1),
  .div (7, 6), .acc (3, 0) false (3, 8) (8, 0), .acc (3, 4) false (3, 8) (8, 4), .den (3, 8) (8, 3), .div (3, 0),
  .div (3, 4), .div (3, 2), .div (3, 1), .div (3, 6), .acc (4, 0) false (4, 8) (8, 0),
  .acc (4, 3) false (4, 8) (8, 3), .den (4, 8) (8, 4), .div (4, 0), .div (4, 3), .div (4, 7), .div (4, 2),
  .div (4, 1), .acc (3, 0) false (3, 6) (6, 0), .acc (3, 7) true (3, 6) (6, 7), .acc (3, 2) false (3, 6) (6, 2),
  .den (3, 6) (6, 3), .div (3, 0), .div (3, 4), .div (3, 7), .div (3, 2), .div (3, 1),
  .acc (7, 0) false (7, 6) (6, 0), .acc (7, 3) true (7, 6) (6, 3), .acc (7, 2) false (7, 6) (6, 2),
  .den (7, 6) (6, 7), .div (7, 0), .div (7, 3), .div (7, 4), .div (7, 2), .div (7, 1),
  .acc (2, 0) false (2, 6) (6, 0), .acc (2, 3) false (2, 6) (6, 3), .acc (2, 7) false (2, 6) (6, 7),
  .den (2, 6) (6, 2), .div (2, 0), .div (2, 3), .div (2, 4), .div (2, 7), .div (2, 1),
  .acc (3, 0) false (3, 1) (1, 0), .acc (3, 4) false (3, 1) (1, 4), .acc (3, 7) false (3, 1) (1, 7),
  .acc (3, 2) false (3, 1) (1, 2), .den (3, 1) (1, 3), .div (3, 0), .div (3, 4), .div (3, 7), .div (3, 2),
  .acc (4, 0) false (4, 1) (1, 0), .acc (4, 3) false (4, 1) (1, 3), .acc (4, 7) false (4, 1) (1, 7),
  .acc (4, 2) false (4, 1) (1, 2), .den (4, 1) (1, 4), .div (4, 0), .div (4, 3), .div (4, 7), .div (4, 2),
  .acc (7, 0) false (7, 1) (1, 0), .acc (7, 3) false (7, 1) (1, 3), .acc (7, 4) false (7, 1) (1, 4),
  .acc (7, 2) false (7, 1) (1, 2), .den (7, 1) (1, 7), .div (7, 0), .div (7, 3), .div (7, 4), .div (7, 2),
  .acc (2, 0) false (2, 1) (1, 0), .acc (2, 3) false (2, 1) (1, 3), .acc (2, 4) false (2, 1) (1, 4),
  .acc (2, 7) false (2, 1) (1, 7), .den (2, 1) (1, 2), .div (2, 0), .div (2, 3), .div (2, 4), .div (2, 7),
  .acc (3, 0) false (3, 2) (2, 0), .acc (3, 4) false (3, 2) (2, 4), .acc (3, 7) false (3, 2) (2, 7),
  .den (3, 2) (2, 3), .div (3, 0), .div (3, 4), .div (3, 7), .acc (4, 0) false (4, 2) (2, 0),
  .acc (4, 3) false (4, 2) (2, 3), .acc (4, 7) false (4, 2) (2, 7), .den (4, 2) (2, 4), .div (4, 0), .div (4, 3),
  .div (4, 7), .acc (7, 0) false (7, 2) (2, 0), .acc (7, 3) false (7, 2) (2, 3), .acc (7, 4) false (7, 2) (2, 4),
  .den (7, 2) (2, 7), .div (7, 0), .div (7, 3), .div (7, 4), .acc (3, 0) false (3, 7) (7, 0),
  .acc (3, 4) false (3, 7) (7, 4), .den (3, 7) (7, 3), .div (3, 0), .div (3, 4), .acc (4, 0) false (4, 7) (7, 0),
  .acc (4, 3) false (4, 7) (7, 3), .den (4, 7) (7, 4), .div (4, 0), .div (4, 3), .acc (3, 0) false (3, 4) (4, 0),
  .den (3, 4) (4, 3), .div (3, 0)]

/-- the assignments to `XQ[]` in order, lines 2058-2069: target, row of `A`, terms (column of `A`, index of `XQ`) -/
def back : List Back := [
  ⟨2, 3, []⟩, ⟨3, 4, [(3, 2)]⟩, ⟨6, 7, [(3, 2), (4, 3)]⟩, ⟨1, 2, [(3, 2), (4, 3), (7, 6)]⟩,
  ⟨0, 1, [(3, 2), (4, 3), (7, 6), (2, 1)]⟩, ⟨5, 6, [(3, 2), (7, 6), (2, 1)]⟩, ⟨7, 8, [(3, 2), (4, 3)]⟩,
  ⟨8, 9, [(4, 3), (7, 6)]⟩, ⟨9, 10, [(8, 7)]⟩, ⟨4, 5, [(3, 2)]⟩]

end PG.Chem.Red22
