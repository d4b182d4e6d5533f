import Verif.Thermo.Model
import Mathlib.Analysis.SpecialFunctions.Log.Basic
import Mathlib.Data.List.GetD

/-!
Model of the finite-rate chemistry kernels of `src/compute/chemistry`: `chem_CH4_O2_FFCMY.cpp`,
`chem_C2H4_Air_Skeletal.cpp`, `chem_GRI30.cpp`. Apart from the reaction tables the three files are the same text with
other array sizes. The tables (one `Rxn` per `// Reaction #r` block, one source row per `dYdt[n]` statement) are extracted
statement by statement by `tools/genchem.py`, which stops at any statement it does not know; this file gives the meaning
of the statements. Line numbers below are those of `chem_CH4_O2_FFCMY.cpp`. Doubles are reals. The kernel is a loop over
independent cells; the model is the body for one cell. `chem_C2H4_Air_Red22.cpp` (quasi-steady-state algebra) is
modelled in `Red22Model.lean`; its sub-step loop is `Loop.lean`, which takes any rate function.
-/
namespace PG.Chem

/-- a decimal literal: the number `m · 10^e` -/
structure Dec where
  m : ℤ
  e : ℤ
deriving DecidableEq

/-- a rate constant `A T^b exp(-E/T)`. The code writes it `exp(log(A) + b * logT - (E * Tinv))` or, without the
    exponential, `A`, `A * Tinv`, `A * Tinv * Tinv` (e.g. lines 149, 176-177) -/
structure Arr where
  A : Dec
  b : Dec
  E : Dec
deriving DecidableEq

/-- third-body concentration `cTBC` (e.g. lines 198-200): the sum of all concentrations, with the listed species weighted
    by the listed coefficient, or the concentration of one species -/
inductive Eff where
  | all (exceptions : List (ℕ × Dec))
  | only (n : ℕ)
deriving DecidableEq

/-- what happens to `k_f` between its Arrhenius value and the rates of progress: nothing, `k_f *= cTBC`, or
    `k_f *= pmod` with the Lindemann or the Troe form -/
inductive Mod where
  | none
  | three (eff : Eff)
  | lind (eff : Eff) (k0 : Arr)
  | troe (eff : Eff) (k0 : Arr) (a T3 T1 T2 : Dec)
deriving DecidableEq

/-- one `// Reaction #r` block: `k_f`, its modification, the terms of `dG`, the exponent of `prefRuT` in `K_c`, the
    concentrations multiplied into `q_f` and `q_b` with their powers, and whether `q[r] = q_f + q_b` or `q[r] = q_f` -/
structure Rxn where
  k : Arr
  mod : Mod
  dG : List (ℕ × ℤ)
  kc : ℤ
  fwd : List (ℕ × ℕ)
  bwd : List (ℕ × ℕ)
  rev : Bool
deriving DecidableEq

/-- a mechanism: number of species, reactions, and for each species the terms `(r, c)` of its source `Σ c q[r]` -/
structure Mech where
  ns : ℕ
  rxns : List Rxn
  src : List (List (ℕ × ℤ))

noncomputable section
open PG.Thermo Finset

/-- value of a literal -/
def Dec.val (d : Dec) : ℝ := d.m * (10 : ℝ) ^ d.e

/-- value of a rate constant; `log` and `exp` are the real ones -/
def Arr.val (k : Arr) (T : ℝ) : ℝ := k.A.val * Real.exp (k.b.val * Real.log T - k.E.val * (1 / T))

/-- weight of species `n` in a third-body sum -/
def coef (l : List (ℕ × Dec)) (n : ℕ) : ℝ := ((l.lookup n).getD ⟨1, 0⟩).val

/-- `cTBC`, e.g. lines 198-200 -/
def Eff.val (e : Eff) (ns : ℕ) (cs : ℕ → ℝ) : ℝ :=
  match e with
  | .all l => ∑ n ∈ range ns, coef l n * cs n
  | .only n => cs n

/-- C's `log10` -/
def log10 (x : ℝ) : ℝ := Real.log x / Real.log 10

/-- `Fcent`, e.g. lines 255-257 -/
def fcent (a T3 T1 T2 T : ℝ) : ℝ := (1 - a) * Real.exp (-T / T3) + a * Real.exp (-T / T1) + Real.exp (-T2 * (1 / T))

/-- `F_pdr`, e.g. lines 258-265: `C`, `N`, `A`, `f1`, then `pow(10.0, log10(Fcent) / (1.0 + f1 * f1))` -/
def fpdr (Fcent Pr : ℝ) : ℝ :=
  let C := -(4 / 10) - 67 / 100 * log10 Fcent
  let N := 75 / 100 - 127 / 100 * log10 Fcent
  let A := log10 Pr + C
  let f1 := A / (N - 14 / 100 * A)
  Real.exp (Real.log 10 * (log10 Fcent / (1 + f1 * f1)))

/-- the factor applied to the Arrhenius value `kf` of `k_f` -/
def Mod.val (m : Mod) (ns : ℕ) (T : ℝ) (cs : ℕ → ℝ) (kf : ℝ) : ℝ :=
  match m with
  | .none => 1
  | .three e => e.val ns cs
  | .lind e k0 =>
    let Pr := e.val ns cs * k0.val T / kf
    Pr / (1 + Pr)
  | .troe e k0 a T3 T1 T2 =>
    let Pr := e.val ns cs * k0.val T / kf
    Pr / (1 + Pr) * fpdr (fcent a.val T3.val T1.val T2.val T) Pr

/-- product of powers of concentrations, e.g. `cs[1] * pow(cs[2], 2.0)` -/
def conc (l : List (ℕ × ℕ)) (cs : ℕ → ℝ) : ℝ := (l.map fun p => cs p.1 ^ p.2).prod

/-- everything a reaction block reads: temperature, `prefRuT = 101325/(Ru T)` (line 147), `gbs[]`, `cs[]` -/
structure Env where
  T : ℝ
  pref : ℝ
  gbs : ℕ → ℝ
  cs : ℕ → ℝ

/-- `k_f` after its modification -/
def Rxn.kf (r : Rxn) (ns : ℕ) (v : Env) : ℝ := r.k.val v.T * r.mod.val ns v.T v.cs (r.k.val v.T)

/-- `dG`, e.g. line 150 -/
def Rxn.gibbs (r : Rxn) (gbs : ℕ → ℝ) : ℝ := (r.dG.map fun p => (p.2 : ℝ) * gbs p.1).sum

/-- `K_c`, e.g. lines 151, 188, 203: `exp(-dG)` times `prefRuT` to the power -1, 0 or 1 -/
def Rxn.Kc (r : Rxn) (v : Env) : ℝ := v.pref ^ r.kc * Real.exp (-r.gibbs v.gbs)

/-- `q_f` and `q_b`, e.g. lines 152-153 -/
def Rxn.qf (r : Rxn) (ns : ℕ) (v : Env) : ℝ := r.kf ns v * conc r.fwd v.cs
def Rxn.qb (r : Rxn) (ns : ℕ) (v : Env) : ℝ := -r.kf ns v / r.Kc v * conc r.bwd v.cs

/-- `q[r]`, e.g. line 154 -/
def Rxn.rate (r : Rxn) (ns : ℕ) (v : Env) : ℝ := if r.rev then r.qf ns v + r.qb ns v else r.qf ns v

/-- the array `q[]`; reads outside the array cannot happen in a checked mechanism and give 0 -/
def Mech.q (m : Mech) (v : Env) (r : ℕ) : ℝ := ((m.rxns.map fun x => x.rate m.ns v)[r]?).getD 0

/-- `dYdt[n]`, lines 564-593: `MW(n)` times the signed sum of rates -/
def Mech.dYdt (m : Mech) (MW : ℕ → ℝ) (v : Env) (n : ℕ) : ℝ :=
  MW n * ((m.src.getD n []).map fun p => (p.2 : ℝ) * m.q v p.1).sum

/-- `cs[n]`, lines 80-83 -/
def concs (MW : ℕ → ℝ) (rho : ℝ) (Y : ℕ → ℝ) (n : ℕ) : ℝ := rho * Y n / MW n

/-- `hi[n]`, lines 113-115: the species enthalpy divided by `Ru T / MW` -/
def hND (th : Th) (T : ℝ) (n : ℕ) : ℝ :=
  let m := nasaM th T n
  th.NASA7 n (m+0) + th.NASA7 n (m+1) * (T/2) + th.NASA7 n (m+2) * (T^2/3) + th.NASA7 n (m+3) * (T^3/4)
    + th.NASA7 n (m+4) * (T^4/5) + th.NASA7 n (m+5) * (1/T)

/-- `scs`, lines 117-120 -/
def sND (th : Th) (T : ℝ) (n : ℕ) : ℝ :=
  let m := nasaM th T n
  th.NASA7 n (m+0) * Real.log T + th.NASA7 n (m+1) * T + th.NASA7 n (m+2) * (T^2/2) + th.NASA7 n (m+3) * (T^3/3)
    + th.NASA7 n (m+4) * (T^4/4) + th.NASA7 n (m+6)

/-- what the rate part sees for a cell at `T`, `rho`, `Y`: lines 79-147 -/
def envOf (th : Th) (T rho : ℝ) (Y : ℕ → ℝ) : Env :=
  ⟨T, 101325 / (th.Ru * T), fun n => hND th T n - sND th T n, concs th.MW rho Y⟩

/-- mass production rates of the mechanism at `T`, `rho`, `Y` -/
def Mech.rates (m : Mech) (th : Th) (rho T : ℝ) (Y : ℕ → ℝ) : ℕ → ℝ := m.dYdt th.MW (envOf th T rho Y)

end
end PG.Chem
