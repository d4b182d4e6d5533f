import Verif.Chem.Spec
import Verif.Chem.FFCMY
import Verif.Chem.Skeletal
import Verif.Chem.GRI30

/-!
Chemical formulas of the species of the three mechanisms: numbers of C, H, O, N and Ar atoms. These are knowledge about
the species names, not taken from the code.
-/
namespace PG.Chem

/-- formulas of the species of `FFCMY` -/
def formulasFFCMY : List (String × List ℕ) := [
  ("H2", [0, 2, 0, 0, 0]), ("H", [0, 1, 0, 0, 0]), ("O2", [0, 0, 2, 0, 0]), ("O", [0, 0, 1, 0, 0]), ("OH", [0, 1, 1, 0, 0]), ("HO2", [0, 1, 2, 0, 0]),
  ("H2O", [0, 2, 1, 0, 0]), ("CH3", [1, 3, 0, 0, 0]), ("CH4", [1, 4, 0, 0, 0]), ("CO", [1, 0, 1, 0, 0]), ("CH2O", [1, 2, 1, 0, 0]), ("CO2", [1, 0, 2, 0, 0])]

/-- the table lists the species in the order of the kernel -/
example : formulasFFCMY.map Prod.fst = FFCMY.names := rfl

/-- formulas of the species of `Skeletal` -/
def formulasSkeletal : List (String × List ℕ) := [
  ("H2", [0, 2, 0, 0, 0]), ("H", [0, 1, 0, 0, 0]), ("O", [0, 0, 1, 0, 0]), ("O2", [0, 0, 2, 0, 0]), ("OH", [0, 1, 1, 0, 0]), ("H2O", [0, 2, 1, 0, 0]),
  ("HO2", [0, 1, 2, 0, 0]), ("H2O2", [0, 2, 2, 0, 0]), ("CH", [1, 1, 0, 0, 0]), ("CH2", [1, 2, 0, 0, 0]), ("CH2*", [1, 2, 0, 0, 0]), ("CH3", [1, 3, 0, 0, 0]),
  ("CH4", [1, 4, 0, 0, 0]), ("CO", [1, 0, 1, 0, 0]), ("CO2", [1, 0, 2, 0, 0]), ("HCO", [1, 1, 1, 0, 0]), ("CH2O", [1, 2, 1, 0, 0]), ("CH3O", [1, 3, 1, 0, 0]),
  ("C2H2", [2, 2, 0, 0, 0]), ("H2CC", [2, 2, 0, 0, 0]), ("C2H3", [2, 3, 0, 0, 0]), ("C2H4", [2, 4, 0, 0, 0]), ("C2H5", [2, 5, 0, 0, 0]), ("C2H6", [2, 6, 0, 0, 0]),
  ("HCCO", [2, 1, 1, 0, 0]), ("CH2CO", [2, 2, 1, 0, 0]), ("CH2CHO", [2, 3, 1, 0, 0]), ("CH3CHO", [2, 4, 1, 0, 0]), ("aC3H5", [3, 5, 0, 0, 0]), ("C3H6", [3, 6, 0, 0, 0]),
  ("nC3H7", [3, 7, 0, 0, 0]), ("N2", [0, 0, 0, 2, 0])]

/-- the table lists the species in the order of the kernel -/
example : formulasSkeletal.map Prod.fst = Skeletal.names := rfl

/-- formulas of the species of `GRI30` -/
def formulasGRI30 : List (String × List ℕ) := [
  ("H2", [0, 2, 0, 0, 0]), ("H", [0, 1, 0, 0, 0]), ("O", [0, 0, 1, 0, 0]), ("O2", [0, 0, 2, 0, 0]), ("OH", [0, 1, 1, 0, 0]), ("H2O", [0, 2, 1, 0, 0]),
  ("HO2", [0, 1, 2, 0, 0]), ("H2O2", [0, 2, 2, 0, 0]), ("C", [1, 0, 0, 0, 0]), ("CH", [1, 1, 0, 0, 0]), ("CH2", [1, 2, 0, 0, 0]), ("CH2(S)", [1, 2, 0, 0, 0]),
  ("CH3", [1, 3, 0, 0, 0]), ("CH4", [1, 4, 0, 0, 0]), ("CO", [1, 0, 1, 0, 0]), ("CO2", [1, 0, 2, 0, 0]), ("HCO", [1, 1, 1, 0, 0]), ("CH2O", [1, 2, 1, 0, 0]),
  ("CH2OH", [1, 3, 1, 0, 0]), ("CH3O", [1, 3, 1, 0, 0]), ("CH3OH", [1, 4, 1, 0, 0]), ("C2H", [2, 1, 0, 0, 0]), ("C2H2", [2, 2, 0, 0, 0]), ("C2H3", [2, 3, 0, 0, 0]),
  ("C2H4", [2, 4, 0, 0, 0]), ("C2H5", [2, 5, 0, 0, 0]), ("C2H6", [2, 6, 0, 0, 0]), ("HCCO", [2, 1, 1, 0, 0]), ("CH2CO", [2, 2, 1, 0, 0]), ("HCCOH", [2, 2, 1, 0, 0]),
  ("N", [0, 0, 0, 1, 0]), ("NH", [0, 1, 0, 1, 0]), ("NH2", [0, 2, 0, 1, 0]), ("NH3", [0, 3, 0, 1, 0]), ("NNH", [0, 1, 0, 2, 0]), ("NO", [0, 0, 1, 1, 0]),
  ("NO2", [0, 0, 2, 1, 0]), ("N2O", [0, 0, 1, 2, 0]), ("HNO", [0, 1, 1, 1, 0]), ("CN", [1, 0, 0, 1, 0]), ("HCN", [1, 1, 0, 1, 0]), ("H2CN", [1, 2, 0, 1, 0]),
  ("HCNN", [1, 1, 0, 2, 0]), ("HCNO", [1, 1, 1, 1, 0]), ("HOCN", [1, 1, 1, 1, 0]), ("HNCO", [1, 1, 1, 1, 0]), ("NCO", [1, 0, 1, 1, 0]), ("N2", [0, 0, 0, 2, 0]),
  ("AR", [0, 0, 0, 0, 1]), ("C3H7", [3, 7, 0, 0, 0]), ("C3H8", [3, 8, 0, 0, 0]), ("CH2CHO", [2, 3, 1, 0, 0]), ("CH3CHO", [2, 4, 1, 0, 0])]

/-- the table lists the species in the order of the kernel -/
example : formulasGRI30.map Prod.fst = GRI30.names := rfl

end PG.Chem
