import Verif.Thermo.Model

/-! Specification vocabulary for C22-C25, independent of the kernels' local variables. -/
noncomputable section
namespace PG.Thermo
open Finset

/-- mass fraction of every species, the last one implied -/
def fullY (ns : ℕ) (y : ℕ → ℝ) (n : ℕ) : ℝ := if n = ns - 1 then 1 - ∑ k ∈ range (ns - 1), y k else y n

/-- physically sensible species table: at least one species, positive gas constant, weights and `cp > Ru/MW` -/
structure Th.Ok (th : Th) : Prop where
  ns : 1 ≤ th.ns
  Ru : 0 < th.Ru
  MW : ∀ n < th.ns, 0 < th.MW n
  cp : ∀ n < th.ns, th.Ru / th.MW n < th.cp0 n

/-- stored mass fractions nonnegative, summing to at most one -/
def OkY (ns : ℕ) (y : ℕ → ℝ) : Prop := (∀ n < ns - 1, 0 ≤ y n) ∧ ∑ n ∈ range (ns - 1), y n ≤ 1

/-- admissible primitives -/
structure Prim.Ok (ns : ℕ) (q : Prim) : Prop where
  p : 0 < q.p
  T : 0 < q.T
  Y : OkY ns q.Y

/-- admissible conserved variables: positive density, positive internal energy, species densities nonnegative and summing
    to at most the density -/
structure Cons.Ok (ns : ℕ) (Q : Cons) : Prop where
  rho : 0 < Q.rho
  e : (Q.rhou^2 + Q.rhov^2 + Q.rhow^2) / (2 * Q.rho) < Q.rhoE
  Y : ∀ n < ns - 1, 0 ≤ Q.rhoY n
  sum : ∑ n ∈ range (ns - 1), Q.rhoY n ≤ Q.rho

/-- the same primitives, on the stored species -/
def Prim.Same (ns : ℕ) (a b : Prim) : Prop :=
  a.p = b.p ∧ a.u = b.u ∧ a.v = b.v ∧ a.w = b.w ∧ a.T = b.T ∧ ∀ n < ns - 1, a.Y n = b.Y n

/-- the same conserved variables, on the stored species -/
def Cons.Same (ns : ℕ) (a b : Cons) : Prop :=
  a.rho = b.rho ∧ a.rhou = b.rhou ∧ a.rhov = b.rhov ∧ a.rhow = b.rhow ∧ a.rhoE = b.rhoE ∧
    ∀ n < ns - 1, a.rhoY n = b.rhoY n

/-- the same derived quantities, on all species -/
def Qh.Same (ns : ℕ) (a b : Qh) : Prop :=
  a.gamma = b.gamma ∧ a.cp = b.cp ∧ a.rhoh = b.rhoh ∧ a.c = b.c ∧ a.rhoe = b.rhoe ∧ ∀ n < ns, a.hi n = b.hi n

/-- mixture gas constant `Ru Σ Y_n / MW_n` -/
def gasConst (th : Th) (Y : ℕ → ℝ) : ℝ := th.Ru * ∑ n ∈ range th.ns, Y n / th.MW n

/-- A consistent ideal-gas cell: primitives and conserved variables describe one state, the ideal-gas law, `h = e + p/rho`,
    total = internal + kinetic energy, `c² = gamma R T`. The mass fractions are those given by the conserved species. -/
structure Consistent (th : Th) (c : Cell) : Prop where
  eos : c.q.p = c.Q.rho * gasConst th (fullY th.ns (fun n => c.Q.rhoY n / c.Q.rho)) * c.q.T
  mom : c.Q.rhou = c.Q.rho * c.q.u ∧ c.Q.rhov = c.Q.rho * c.q.v ∧ c.Q.rhow = c.Q.rho * c.q.w
  enthalpy : c.qh.rhoh = c.qh.rhoe + c.q.p
  energy : c.Q.rhoE = c.qh.rhoe + c.Q.rho * (c.q.u^2 + c.q.v^2 + c.q.w^2) / 2
  sound : c.qh.c^2 = c.qh.gamma * gasConst th (fullY th.ns (fun n => c.Q.rhoY n / c.Q.rho)) * c.q.T
  soundPos : 0 < c.qh.c
  gamma : 1 < c.qh.gamma
  rho : 0 < c.Q.rho
  p : 0 < c.q.p
  T : 0 < c.q.T
  mayer : c.qh.gamma * (c.qh.cp - gasConst th (fullY th.ns (fun n => c.Q.rhoY n / c.Q.rho))) = c.qh.cp

end PG.Thermo
