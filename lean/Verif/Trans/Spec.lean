import Verif.Trans.Model
/-!
Specification for the transport kernels: composition of a cell, mixture rules, "depends only on the cell's state".
-/
noncomputable section
namespace PG.Trans
open Finset

/-- mass fraction of species `n`, the last one by difference -/
def massFrac (ns : ℕ) (c : TrIn) (n : ℕ) : ℝ := if n < ns - 1 then c.Y n else 1 - ∑ m ∈ range (ns - 1), c.Y m

/-- mole fraction of species `n` -/
def moleFrac (ns : ℕ) (MW : ℕ → ℝ) (c : TrIn) (n : ℕ) : ℝ :=
  massFrac ns c n / MW n / ∑ m ∈ range ns, massFrac ns c m / MW m

/-- admissible composition: all mass fractions, the implied last one included, non-negative -/
def Admissible (ns : ℕ) (c : TrIn) : Prop := (∀ n < ns - 1, 0 ≤ c.Y n) ∧ ∑ m ∈ range (ns - 1), c.Y m ≤ 1

/-- two results agree on everything stored -/
def Same (ns : ℕ) (a b : TrOut) : Prop := a.mu = b.mu ∧ a.kappa = b.kappa ∧ ∀ n < ns, a.D n = b.D n

/-- The property of C77: whatever the cells, their distribution over workers and the order, each processed cell ends with the
    same result, a function of its own state. -/
def StateOnly (ns : ℕ) (step : Scr → TrIn → Scr × TrOut) (f : TrIn → TrOut) : Prop :=
  ∀ (κ : Type) (cells : κ → TrIn) (sched : List (ℕ × κ)), ∀ ev ∈ sched,
    ∃ r, (run step cells sched).out ev.2 = some r ∧ Same ns r (f (cells ev.2))

/-- constant-property model: Wilke viscosity and mean conductivity of the tabulated species values, unit Lewis number -/
def constSpec (tb : Tab) (c : TrIn) : TrOut :=
  let X := moleFrac tb.ns tb.MW c
  let k := (∑ n ∈ range tb.ns, X n * tb.kappa0 n + 1 / ∑ n ∈ range tb.ns, X n / tb.kappa0 n) / 2
  ⟨wilke tb.ns tb.MW tb.mu0 X, k, fun _ => k / (c.rho * c.cp)⟩

/-- species viscosity from its fit `√(μ/√T) = Σ a_i (ln T)^i` (kineticTheoryPoly.py:242-254) -/
def fitMu (tb : Tab) (T : ℝ) (n : ℕ) : ℝ := Real.sqrt T * (∑ i ∈ range 5, tb.muPoly n i * Real.log T ^ i) ^ 2
/-- species conductivity from its fit `κ/√T = Σ b_i (ln T)^i` (kineticTheoryPoly.py:256-268) -/
def fitKappa (tb : Tab) (T : ℝ) (n : ℕ) : ℝ := Real.sqrt T * ∑ i ∈ range 5, tb.kappaPoly n i * Real.log T ^ i
/-- row order of the binary diffusion fits (kineticTheoryPoly.py:273-279): `for k: for j in range(k, ns)` -/
def pairList (ns : ℕ) : List (ℕ × ℕ) := (List.range ns).flatMap fun k => (List.range (ns - k)).map fun j => (k, k + j)
/-- binary diffusion coefficient at unit pressure from its fit `D/T^{3/2}`: `r` is the row of the (unordered) pair -/
def fitD (tb : Tab) (T : ℝ) (r : ℕ) : ℝ := T * Real.sqrt T * ∑ i ∈ range 5, tb.DijPoly r i * Real.log T ^ i

/-- the composition is not exactly one pure species other than the last -/
def NotPure (ns : ℕ) (MW : ℕ → ℝ) (c : TrIn) : Prop := ∀ n < ns - 1, moleFrac ns MW c n ≠ 1

end PG.Trans
