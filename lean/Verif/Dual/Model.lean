import Mathlib.Data.Real.Basic
import Mathlib.Analysis.Real.Sqrt
import Mathlib.Algebra.BigOperators.Intervals
import Mathlib.Tactic.Ring
import Mathlib.Tactic.Linarith
import Mathlib.Tactic.FieldSimp
import Mathlib.Tactic.NormNum
/-
Model of invertDQ: /repo/src/compute/timeIntegration/dualTime.cpp:244-594, for one cell. Matrices and vectors are functions
of indices 0..ne-1 (entries outside are never read). Doubles are reals. Kokkos' token bookkeeping is left out.
-/
noncomputable section
namespace PG.Dual
open Finset

/-! ### Linear solve (dualTime.cpp:516-592) -/

/-- matrix in place plus row permutation -/
structure LU where
  A : ℕ → ℕ → ℝ
  perm : ℕ → ℕ

/-- pivot search over rows m = l .. ne-1 (dualTime.cpp:527-534): first entry of largest magnitude; row 0 when the column
    is zero. State: (pivot, pivotInd). -/
def pivotStep (A : ℕ → ℕ → ℝ) (l : ℕ) (acc : ℝ × ℕ) (m : ℕ) : ℝ × ℕ :=
  if |acc.1| < |A m l| then (A m l, m) else acc

/-- pivotInd after the loop -/
def pivotInd (ne : ℕ) (A : ℕ → ℕ → ℝ) (l : ℕ) : ℕ :=
  ((List.range' l (ne - l)).foldl (pivotStep A l) (0, 0)).2

/-- exchange of entries `a` and `b` (dualTime.cpp:536-544) -/
def swapAt {α : Type} (f : ℕ → α) (a b : ℕ) : ℕ → α := fun p => if p = a then f b else if p = b then f a else f p

/-- elimination below row l (dualTime.cpp:546-552): each row p > l is changed on its own, row l is only read -/
def eliminate (l : ℕ) (A : ℕ → ℕ → ℝ) : ℕ → ℕ → ℝ := fun p q =>
  if l < p then (if q < l then A p q else if q = l then A p l / A l l else A p q - A p l / A l l * A l q) else A p q

/-- one pass of the outer loop (dualTime.cpp:523-553) -/
def luStep (ne : ℕ) (s : LU) (l : ℕ) : LU :=
  let r := pivotInd ne s.A l
  ⟨eliminate l (swapAt s.A l r), swapAt s.perm l r⟩

/-- the decomposition (dualTime.cpp:519-553) -/
def luFactor (ne : ℕ) (A : ℕ → ℕ → ℝ) : LU := (List.range ne).foldl (luStep ne) ⟨A, id⟩

/-- forward substitution (dualTime.cpp:573-577): z_l = b_l - Σ_{q<l} L(l,q) z_q -/
def forward (A : ℕ → ℕ → ℝ) (b : ℕ → ℝ) (l : ℕ) : ℝ := b l - ∑ q : Fin l, A l q * forward A b q
termination_by l
decreasing_by exact q.2

/-- back substitution (dualTime.cpp:586-592), indexed by the distance `d` from the last row: row l = ne-1-d uses the rows
    already solved, q = ne-1 .. l+1 (distances 0 .. d-1) -/
def backward (ne : ℕ) (A : ℕ → ℕ → ℝ) (z : ℕ → ℝ) (d : ℕ) : ℝ :=
  (z (ne - 1 - d) - ∑ c : Fin d, A (ne - 1 - d) (ne - 1 - c) * backward ne A z c) / A (ne - 1 - d) (ne - 1 - d)
termination_by d
decreasing_by exact c.2

/-- the whole solve: dQ after invertDQ (dualTime.cpp:516-592) -/
def solve (ne : ℕ) (A : ℕ → ℕ → ℝ) (b : ℕ → ℝ) (l : ℕ) : ℝ :=
  let f := luFactor ne A
  backward ne f.A (forward f.A (fun l => b (f.perm l))) (ne - 1 - l)

/-! ### Matrix (dualTime.cpp:338-514) -/

/-- what the matrix is built from: primitives, density, qh entries (cp, specific enthalpy h = qh2/rho, sound speed, species
    enthalpies), molecular weights, number of species -/
structure Cell where
  ns : ℕ
  p : ℝ
  u : ℝ
  v : ℝ
  w : ℝ
  T : ℝ
  Y : ℕ → ℝ
  rho : ℝ
  cp : ℝ
  h : ℝ
  c : ℝ
  hi : ℕ → ℝ
  MW : ℕ → ℝ

variable (a : Cell)

/-- ne = 5 + ns - 1 -/
def Cell.ne : ℕ := 5 + a.ns - 1

/-- all ns mass fractions (dualTime.cpp:352-360): the last one is one minus the others, no clipping -/
def Cell.fullY (n : ℕ) : ℝ := if n = a.ns - 1 then 1 - ∑ m ∈ range (a.ns - 1), a.Y m else a.Y n

/-- denom (dualTime.cpp:354-360) -/
def Cell.denom : ℝ := (∑ n ∈ range (a.ns - 1), a.fullY n / a.MW n) + a.fullY (a.ns - 1) / a.MW (a.ns - 1)

/-- MWmix (dualTime.cpp:363-367) -/
def Cell.MWmix : ℝ := ∑ n ∈ range a.ns, a.MW n * (a.fullY n / a.MW n / a.denom)

/-- total enthalpy (dualTime.cpp:349-350) -/
def Cell.H : ℝ := a.h + 0.5 * (a.u ^ 2 + a.v ^ 2 + a.w ^ 2)

/-- density derivatives (dualTime.cpp:370-375) -/
def Cell.rho_p : ℝ := a.rho / a.p
def Cell.rho_T : ℝ := -a.rho / a.T
def Cell.rho_Y (n : ℕ) : ℝ := -a.rho * (a.MWmix * (1 / a.MW n - 1 / a.MW (a.ns - 1)))

/-- the block matrix with the given first-column factor Theta, before multiplication by mult (dualTime.cpp:452-514) -/
def Cell.mat (Theta : ℝ) (l m : ℕ) : ℝ :=
  -- the five rows of a column whose density derivative is d, energy entry e
  let dcol (d e : ℝ) : ℝ :=
    if l = 0 then d else if l = 1 then d * a.u else if l = 2 then d * a.v else if l = 3 then d * a.w
    else if l = 4 then e else a.Y (l - 5) * d
  if m = 0 then dcol Theta (Theta * a.H + a.T * a.rho_T / a.rho)
  else if m = 1 then (if l = 1 then a.rho else if l = 4 then a.rho * a.u else 0)
  else if m = 2 then (if l = 2 then a.rho else if l = 4 then a.rho * a.v else 0)
  else if m = 3 then (if l = 3 then a.rho else if l = 4 then a.rho * a.w else 0)
  else if m = 4 then dcol a.rho_T (a.rho_T * a.H + a.rho * a.cp)
  else dcol (a.rho_Y (m - 5)) (a.H * a.rho_Y (m - 5) + a.rho * (a.hi (m - 5) - a.hi (a.ns - 1)))
    + (if l = m then a.rho else 0)

/-- reference velocity (dualTime.cpp:402-424); `lims` are the viscous limits i,j,kMult*d/nu that are finite (none when
    inviscid) -/
def refVel (U c : ℝ) (lims : List ℝ) : ℝ :=
  let eps : ℝ := 1/100000
  let Ur := if U < eps * c then eps * c else if eps * c < U ∧ U < c then U else c
  lims.foldl min Ur

/-- Theta of the preconditioner (dualTime.cpp:427) -/
def Cell.theta0 (Ur : ℝ) : ℝ := 1 / Ur ^ 2 - a.rho_T / (a.rho * a.cp)

/-- GdQ (dualTime.cpp:384-514): Γ + 3/2 dtau/dt dQ/dq -/
def Cell.GdQ (Ur dtau dt : ℝ) (l m : ℕ) : ℝ :=
  1 * a.mat (a.theta0 Ur) l m + 3 / 2 * dtau / dt * a.mat a.rho_p l m

/-- invertDQ on one cell -/
def Cell.invert (Ur dtau dt : ℝ) (dQ : ℕ → ℝ) : ℕ → ℝ := solve a.ne (a.GdQ Ur dtau dt) dQ

end PG.Dual
