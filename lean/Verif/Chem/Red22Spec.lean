import Verif.Chem.Red22

/-!
Specification vocabulary for the reduced ethylene mechanism (C102, C103): the species, the stoichiometry read off the
equilibrium constants, and what "quasi-steady", "mass action" and "leaves the radical pool" mean. Nothing here refers to the
elimination or to the balances `A<i>_<k>`.
-/
namespace PG.Chem.Red22

/-- the 31 species in the order of `EG[]` with their atoms (C, H, O) -/
def species : List (String × List ℕ) := [
  ("H2", [0, 2, 0]), ("H", [0, 1, 0]), ("O", [0, 0, 1]), ("O2", [0, 0, 2]), ("OH", [0, 1, 1]), ("H2O", [0, 2, 1]),
  ("HO2", [0, 1, 2]), ("H2O2", [0, 2, 2]), ("CH", [1, 1, 0]), ("CH2", [1, 2, 0]), ("CH2*", [1, 2, 0]), ("CH3", [1, 3, 0]),
  ("CH4", [1, 4, 0]), ("CO", [1, 0, 1]), ("CO2", [1, 0, 2]), ("HCO", [1, 1, 1]), ("CH2O", [1, 2, 1]), ("CH3O", [1, 3, 1]),
  ("C2H2", [2, 2, 0]), ("H2CC", [2, 2, 0]), ("C2H3", [2, 3, 0]), ("C2H4", [2, 4, 0]), ("C2H5", [2, 5, 0]), ("C2H6", [2, 6, 0]),
  ("HCCO", [2, 1, 1]), ("CH2CO", [2, 2, 1]), ("CH2CHO", [2, 3, 1]), ("CH3CHO", [2, 4, 1]), ("aC3H5", [3, 5, 0]),
  ("C3H6", [3, 6, 0]), ("nC3H7", [3, 7, 0])]

/-- the transported species in the order of `Y[]` (head of the file, lines 13-33), N2 is `Y[21]` and takes no part -/
def transported : List String := ["H2", "H", "O", "O2", "OH", "H2O", "HO2", "H2O2", "CH3", "CH4", "CO", "CO2", "CH2O",
  "C2H2", "C2H4", "C2H6", "HCCO", "CH2CO", "CH3CHO", "aC3H5", "C3H6"]

/-- the quasi-steady radicals in the order of `XQ[]` (comments of lines 1797-1905) -/
def radicals : List String := ["CH", "CH2", "CH2*", "HCO", "CH3O", "H2CC", "C2H3", "C2H5", "CH2CHO", "nC3H7"]

/-- position in `EG[]` of a species -/
def egOf (s : String) : ℕ := (species.map Prod.fst).idxOf s

/-- position in `EG[]` of transported species `n`, of radical `q` -/
def egT (n : ℕ) : ℕ := egOf (transported.getD n "")
def egQ (q : ℕ) : ℕ := egOf (radicals.getD q "")

/-- the mechanism of the file -/
def mech : Mech := ⟨rxns, zeroed, rows, prog, back⟩

/-- reaction `r` -/
def rx (r : ℕ) : Rx := rxns.getD r noRx

/-- net stoichiometric coefficient of species `e` in a reaction, read off its equilibrium constant -/
def nu (x : Rx) (e : ℕ) : ℤ := (x.prods.count e : ℤ) - x.reacs.count e

/-- species consumed, species made by a direction of a reaction -/
def uses (t : Dir) : List ℕ := if t.1 then (rx t.2).reacs else (rx t.2).prods
def makes (t : Dir) : List ℕ := if t.1 then (rx t.2).prods else (rx t.2).reacs

/-- atoms of element `el` (C, H, O) in species `e` -/
def atomsE (e el : ℕ) : ℕ := ((species.map Prod.snd).getD e []).getD el 0

/-- is the species a radical -/
def isRad (e : ℕ) : Bool := radicals.contains ((species.map Prod.fst).getD e "")

/-- its position in `Y[]` or `XQ[]` -/
def pos (e : ℕ) : ℕ :=
  if isRad e then radicals.idxOf ((species.map Prod.fst).getD e "") else transported.idxOf ((species.map Prod.fst).getD e "")

/-- catalytic colliders written out in `RF[r]`: concentrations there beyond those of the species consumed -/
def coll (x : Rx) : List ℕ := x.fwd.diff ((x.reacs.filter fun e => !isRad e).map pos)

noncomputable section

/-- concentration of species `e`: transported or quasi-steady -/
def concE (v : Env) (e : ℕ) : ℝ := if isRad e then mech.xq v (pos e) else v.cs (pos e)

/-- what the chemistry part may assume: positive temperature and reference tables, nonnegative concentrations -/
structure Env.Ok (v : Env) : Prop where
  T : 0 < v.T
  pref : 0 < v.pref
  EG : ∀ e, 0 < v.EG e
  cs : ∀ n < 22, 0 ≤ v.cs n

/-- the radical pool can empty: `CH` is consumed by some reaction at a positive rate (per unit of its concentration), and every
    other radical by some reaction that makes no radical -/
structure Drains (v : Env) : Prop where
  ch : ∃ t : Dir, egQ 0 ∈ uses t ∧ t.2 < 206 ∧ 0 < rate2 rxns zeroed v t
  others : ∀ q < 10, q ≠ 0 → ∃ t : Dir, egQ q ∈ uses t ∧ t.2 < 206 ∧ (∀ e ∈ makes t, isRad e = false) ∧ 0 < rate2 rxns zeroed v t

end
end PG.Chem.Red22
