import Verif.Chem.Model
import Verif.Thermo.Lemmas

/-!
Model of the sub-stepping part of the chemistry kernels, `chem_CH4_O2_FFCMY.cpp`:50-78 and 594-619 (the same text in the
other two kernels; `chem_C2H4_Air_Red22.cpp`:60-91, 3061-3085 differs in that the last species has no source and
`omega(0) = 0`). The production rates are a parameter: a function of temperature and mass fractions (density and pressure
are constant during the loop).
-/
noncomputable section
namespace PG.Chem
open PG.Thermo Finset

/-- local variables of the sub-step loop: `T`, `Y[]`, `dYdt[]`, `dTdt` -/
structure CSt where
  T : ℝ
  Y : ℕ → ℝ
  d : ℕ → ℝ
  dT : ℝ

/-- lines 64-78: clip to [0,1], last species by difference, rescale when the sum exceeds one. An array of `ns` entries:
    zero outside -/
def clipAll (ns : ℕ) (Y : ℕ → ℝ) (n : ℕ) : ℝ := if n < ns then localY ns (clipY ns Y) n else 0

/-- `cp`, lines 108-122 -/
def cpOf (th : Th) (ns : ℕ) (T : ℝ) (Y : ℕ → ℝ) : ℝ := ∑ n ∈ range ns, cps th T n * Y n

/-- one pass of the loop, lines 62-602 -/
def subStep (th : Th) (ns : ℕ) (rates : ℝ → (ℕ → ℝ) → ℕ → ℝ) (rho tSub : ℝ) (s : CSt) : CSt :=
  let Y := clipAll ns s.Y
  let d := rates s.T Y
  let dT := (-∑ n ∈ range ns, hND th s.T n * d n) / (cpOf th ns s.T Y * rho)
  ⟨s.T + dT * tSub, fun n => if n < ns then Y n + d n / rho * tSub else 0, d, dT⟩

/-- state at the start of the loop, lines 50-60: `T`, the stored mass fractions, `dTdt = 0`; `Y[ns-1]` and `dYdt` are
    uninitialised in the code, they are written before being read -/
def initSt (ns : ℕ) (T : ℝ) (q : ℕ → ℝ) : CSt := ⟨T, fun n => if n < ns - 1 then q n else 0, fun _ => 0, 0⟩

/-- the loop over `nChemSubSteps` with `tSub = dt / nChemSubSteps` -/
def runSub (th : Th) (ns : ℕ) (rates : ℝ → (ℕ → ℝ) → ℕ → ℝ) (rho dt : ℝ) (nSub : ℕ) (T : ℝ) (q : ℕ → ℝ) : CSt :=
  (subStep th ns rates rho (dt / nSub))^[nSub] (initSt ns T q)

/-- new `dQ(5+n)`, lines 606-608 -/
def chemdQ (th : Th) (ns : ℕ) (rates : ℝ → (ℕ → ℝ) → ℕ → ℝ) (rho dt : ℝ) (nSub : ℕ) (T : ℝ) (q Q dQ : ℕ → ℝ) (n : ℕ) : ℝ :=
  if n < ns - 1 then dQ n + ((runSub th ns rates rho dt nSub T q).Y n * rho - Q n) / dt else dQ n

/-- `omega`, lines 611-614: `dTdt`, then `dYdt/rho` of the stored species -/
def chemOmega (th : Th) (ns : ℕ) (rates : ℝ → (ℕ → ℝ) → ℕ → ℝ) (rho dt : ℝ) (nSub : ℕ) (T : ℝ) (q : ℕ → ℝ) (n : ℕ) : ℝ :=
  let s := runSub th ns rates rho dt nSub T q
  if n = 0 then s.dT else s.d (n - 1) / rho

end PG.Chem
