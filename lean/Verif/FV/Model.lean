import Verif.Base.Vec
import Mathlib.Algebra.BigOperators.Group.Finset.Basic
import Mathlib.Algebra.BigOperators.Intervals
import Mathlib.Algebra.BigOperators.Ring.Finset
/-
Model of /repo/src/compute/utils/applyFluxes.cpp, dQzero.cpp and of the advective part of /repo/src/peregrinepy/RHS.py.
Arrays are functions of their indices, doubles are reals. The Kokkos parallel_for bodies write only their own (i,j,k,l)
entry of dQ and read no dQ of another cell, so the loop is modelled as a pointwise map over the index range.
-/
namespace PG.FV

/-- cell-centred scalar array -/
abbrev A3 := ℕ → ℕ → ℕ → ℝ
/-- array with component index -/
abbrev A4 := ℕ → ℕ → ℕ → ℕ → ℝ

/-- block extents `ni nj nk` (nodes), halo width `ng`, number of equations `ne` (block_.hpp) -/
structure Dims where
  ni : ℕ
  nj : ℕ
  nk : ℕ
  ng : ℕ
  ne : ℕ

/-- Iteration space range_cc of the three kernels: `{ng,ng,ng,0}` to `{ni+ng-1, nj+ng-1, nk+ng-1, ne}`
    (applyFluxes.cpp:11-12, 32-33, 69-70). -/
def InRange (b : Dims) (i j k l : ℕ) : Prop :=
  (b.ng ≤ i ∧ i < b.ni + b.ng - 1) ∧ (b.ng ≤ j ∧ j < b.nj + b.ng - 1) ∧ (b.ng ≤ k ∧ k < b.nk + b.ng - 1) ∧ l < b.ne

instance (b : Dims) (i j k l : ℕ) : Decidable (InRange b i j k l) := by unfold InRange; infer_instance

/-- the three face flux arrays -/
structure Fluxes where
  iF : A4
  jF : A4
  kF : A4

/-- dQzero (dQzero.cpp:5-11): deep_copy of 0.0 -/
def dQzero : A4 := fun _ _ _ _ => 0

/-- applyFlux (applyFluxes.cpp:6-25) -/
noncomputable def applyFlux (b : Dims) (J : A3) (F : Fluxes) (dQ : A4) : A4 := fun i j k l =>
  if InRange b i j k l then
    dQ i j k l + (F.iF i j k l + F.jF i j k l + F.kF i j k l) / J i j k
      - (F.iF (i+1) j k l + F.jF i (j+1) k l + F.kF i j (k+1) l) / J i j k
  else dQ i j k l

/-- applyHybridFlux (applyFluxes.cpp:27-62); `phi` is the switch array with direction as last index -/
noncomputable def applyHybridFlux (b : Dims) (J : A3) (phi : A4) (primary : ℝ) (F : Fluxes) (dQ : A4) : A4 :=
  fun i j k l =>
  if InRange b i j k l then
    let iFphi := max (phi i j k 0) (phi (i-1) j k 0)
    let iFphi1 := max (phi i j k 0) (phi (i+1) j k 0)
    let jFphi := max (phi i j k 1) (phi i (j-1) k 1)
    let jFphi1 := max (phi i j k 1) (phi i (j+1) k 1)
    let kFphi := max (phi i j k 2) (phi i j (k-1) 2)
    let kFphi1 := max (phi i j k 2) (phi i j (k+1) 2)
    let dPrimary := 2 * primary - 1
    dQ i j k l + (F.iF i j k l * (primary - iFphi * dPrimary) + F.jF i j k l * (primary - jFphi * dPrimary)
        + F.kF i j k l * (primary - kFphi * dPrimary)) / J i j k
      - (F.iF (i+1) j k l * (primary - iFphi1 * dPrimary) + F.jF i (j+1) k l * (primary - jFphi1 * dPrimary)
        + F.kF i j (k+1) l * (primary - kFphi1 * dPrimary)) / J i j k
  else dQ i j k l

/-- applyDissipationFlux (applyFluxes.cpp:64-83) -/
noncomputable def applyDissipationFlux (b : Dims) (J : A3) (F : Fluxes) (dQ : A4) : A4 := fun i j k l =>
  if InRange b i j k l then
    dQ i j k l - (F.iF i j k l + F.jF i j k l + F.kF i j k l) / J i j k
      + (F.iF (i+1) j k l + F.jF i (j+1) k l + F.kF i j (k+1) l) / J i j k
  else dQ i j k l

/-- Advective part of RHS (RHS.py:12-22) without a switch: only the primary flux is applied (setRHS binds the secondary
    calls to no-ops, multiBlock/__init__.py). -/
noncomputable def rhsPlain (b : Dims) (J : A3) (F1 : Fluxes) : A4 := applyFlux b J F1 dQzero

/-- Advective part of RHS (RHS.py:12-22) with hybrid blending: primary applied with 1.0, secondary with 0.0 -/
noncomputable def rhsHybrid (b : Dims) (J : A3) (phi : A4) (F1 F2 : Fluxes) : A4 :=
  applyHybridFlux b J phi 0 F2 (applyHybridFlux b J phi 1 F1 dQzero)

/-- Advective part of RHS (RHS.py:12-22) with scalar dissipation as secondary flux: primary by applyFlux, secondary by
    applyDissipationFlux -/
noncomputable def rhsDissipation (b : Dims) (J : A3) (F1 D : Fluxes) : A4 :=
  applyDissipationFlux b J D (applyFlux b J F1 dQzero)

end PG.FV
