import Mathlib.Analysis.SpecialFunctions.Pow.Real
import Mathlib.Algebra.BigOperators.Fin
import Mathlib.LinearAlgebra.Matrix.Notation
import Verif.Base.Vec
/-!
Model of the subgrid models `src/compute/subgrid/{smagorinsky,mixedScaleModel}.cpp` and of the order in which the transport
coefficients `qt` are set, multiplied and increased by `consistify.py` and `RHS.py`.

Cells are indexed by integers. Doubles are reals.
-/
namespace PG.Subgrid
open PG

/-- block shape: `ni × nj × nk` grid nodes, `ng` halo layers, `ne` equations (block_.hpp) -/
structure Blk where
  ni : ℤ
  nj : ℤ
  nk : ℤ
  ng : ℤ
  ne : ℕ

/-- the loop of the subgrid models and of the viscous sponge: the interior cells and one layer around them
    (smagorinsky.cpp:18-19, mixedScaleModel.cpp:18-19, viscousSponge.cpp:8-9) -/
def SubLoop (b : Blk) (i j k : ℤ) : Prop :=
  (b.ng - 1 ≤ i ∧ i < b.ni + b.ng) ∧ (b.ng - 1 ≤ j ∧ j < b.nj + b.ng) ∧ (b.ng - 1 ≤ k ∧ k < b.nk + b.ng)

instance (b : Blk) (i j k : ℤ) : Decidable (SubLoop b i j k) := by unfold SubLoop; infer_instance

/-- what the models read in a cell besides the velocities: gradients of u, v, w (`dqdx dqdy dqdz`, entries 1-3), cell volume
    `J`, density `Q(0)`, heat capacity `qh(1)` -/
structure Data where
  gu : V3
  gv : V3
  gw : V3
  J : ℝ
  rho : ℝ
  cp : ℝ

/-- the strain rate array `S`, smagorinsky.cpp:38-48, mixedScaleModel.cpp:42-52 -/
noncomputable def strain (d : Data) : Fin 3 → Fin 3 → ℝ
  | 0, 0 => d.gu.x
  | 1, 1 => d.gv.y
  | 2, 2 => d.gw.z
  | 0, 1 => 1 / 2 * (d.gu.y + d.gv.x)
  | 1, 0 => 1 / 2 * (d.gu.y + d.gv.x)
  | 0, 2 => 1 / 2 * (d.gu.z + d.gw.x)
  | 2, 0 => 1 / 2 * (d.gu.z + d.gw.x)
  | 1, 2 => 1 / 2 * (d.gv.z + d.gw.y)
  | 2, 1 => 1 / 2 * (d.gv.z + d.gw.y)

/-- `magSij`, smagorinsky.cpp:50-56, mixedScaleModel.cpp:54-60 -/
noncomputable def magS (d : Data) : ℝ := Real.sqrt (2 * ∑ l, ∑ m, strain d l m * strain d l m)

/-- `delta`, smagorinsky.cpp:58, mixedScaleModel.cpp:87 -/
noncomputable def delta (d : Data) : ℝ := d.J ^ ((1 : ℝ) / 3)

/-- `nusgs` of smagorinsky.cpp:60 with Cs = 0.18 -/
noncomputable def nuSmag (d : Data) : ℝ := (18 / 100 * delta d) ^ (2 : ℝ) * magS d

/-- velocities of the cells -/
abbrev Vel := ℤ → ℤ → ℤ → V3

/-- velocity filter of mixedScaleModel.cpp:62-82 applied to the component `f` -/
noncomputable def filter (f : V3 → ℝ) (U : Vel) (i j k : ℤ) : ℝ :=
  1 / 3 * (1 / 4 * f (U (i - 1) j k) + 1 / 2 * f (U i j k) + 1 / 4 * f (U (i + 1) j k) +
    1 / 4 * f (U i (j - 1) k) + 1 / 2 * f (U i j k) + 1 / 4 * f (U i (j + 1) k) +
    1 / 4 * f (U i j (k - 1)) + 1 / 2 * f (U i j k) + 1 / 4 * f (U i j (k + 1)))

/-- kinetic energy of the filtered-out velocity, mixedScaleModel.cpp:84-85 -/
noncomputable def qc2 (U : Vel) (i j k : ℤ) : ℝ :=
  1 / 2 * (((U i j k).x - filter V3.x U i j k) ^ 2 + ((U i j k).y - filter V3.y U i j k) ^ 2 +
    ((U i j k).z - filter V3.z U i j k) ^ 2)

/-- `nusgs` of mixedScaleModel.cpp:89-90 with Cm = 0.06, alpha = 0.5 -/
noncomputable def nuMixed (d : Data) (qc : ℝ) : ℝ :=
  6 / 100 * magS d ^ ((1 : ℝ) / 2) * qc ^ ((1 - (1 : ℝ) / 2) / 2) * delta d ^ (1 + (1 : ℝ) / 2)

/-- addition to the transport coefficients of a cell: viscosity (entry 0), conductivity (1, Prt = 0.4), the `ne - 4` diffusion
    coefficients (2.., Sct = 1) (smagorinsky.cpp:62-74, mixedScaleModel.cpp:92-104) -/
noncomputable def addSgs (ne : ℕ) (nu : ℝ) (d : Data) (qt : ℕ → ℝ) : ℕ → ℝ
  | 0 => qt 0 + nu * d.rho
  | 1 => qt 1 + nu * d.rho * d.cp / (4 / 10)
  | n + 2 => if n + 5 ≤ ne then qt (n + 2) + nu / 1 else qt (n + 2)

/-- the configured subgrid model -/
inductive Model
  | null
  | smagorinsky
  | mixedScale

/-- subgrid viscosity of a cell -/
noncomputable def nuOf (m : Model) (D : ℤ → ℤ → ℤ → Data) (U : Vel) (i j k : ℤ) : ℝ :=
  match m with
  | .null => 0
  | .smagorinsky => nuSmag (D i j k)
  | .mixedScale => nuMixed (D i j k) (qc2 U i j k)

/-- transport coefficients of a block -/
abbrev Qt := ℤ → ℤ → ℤ → ℕ → ℝ

/-- one call of the subgrid model on a block -/
noncomputable def apply (m : Model) (b : Blk) (D : ℤ → ℤ → ℤ → Data) (U : Vel) (qt : Qt) : Qt := fun i j k =>
  match m with
  | .null => qt i j k
  | .smagorinsky => if SubLoop b i j k then addSgs b.ne (nuSmag (D i j k)) (D i j k) (qt i j k) else qt i j k
  | .mixedScale =>
    if SubLoop b i j k then addSgs b.ne (nuMixed (D i j k) (qc2 U i j k)) (D i j k) (qt i j k) else qt i j k

/-! ### when the coefficients are set and increased -/

/-- what `consistify` and `RHS` do to the coefficients: `consistify` with the flow field `D, U` computes the molecular
    coefficients everywhere (transport kernels with nface = -1, consistify.py:38) and multiplies the viscosity by the sponge
    factor in the cells of the loop (consistify.py:43-48); `RHS` adds the subgrid part (RHS.py:46) for the gradients it has just
    computed and then uses the coefficients -/
inductive Call
  | consistify (mol : Qt) (sponge : ℤ → ℤ → ℤ → ℝ)
  | rhs (D : ℤ → ℤ → ℤ → Data) (U : Vel)

/-- effect of one call on the coefficients -/
noncomputable def call (m : Model) (b : Blk) (qt : Qt) : Call → Qt
  | .consistify mol sp => fun i j k n => if n = 0 ∧ SubLoop b i j k then mol i j k 0 * sp i j k else mol i j k n
  | .rhs D U => apply m b D U qt

/-- integrators with their sequences of calls in one step: `c` a consistify, `r` an RHS (integrators/rk1.py:15-22, rk2.py:16-30,
    maccormack.py:21-34, rk3.py:22-45, rk34.py:16-48, rk4.py:16-48, dualTime.py:48-94: 20 sub-iterations of three stages, strang.py:33-58 twice, 90 between) -/
def callsOf : String → List Char
  | "rk1" => ['r', 'c']
  | "rk2" => ['r', 'c', 'r', 'c']
  | "maccormack" => ['r', 'c', 'r', 'c']
  | "rk3" => ['r', 'c', 'r', 'c', 'r', 'c']
  | "rk34" => ['r', 'c', 'r', 'c', 'r', 'c', 'r', 'c']
  | "rk4" => ['r', 'c', 'r', 'c', 'r', 'c', 'r', 'c']
  | "dualTime" => (List.replicate 20 ['r', 'c', 'r', 'c', 'r', 'c']).flatten
  | "strang" => ['r', 'c', 'r', 'c', 'r', 'c', 'c', 'r', 'c', 'r', 'c', 'r', 'c']
  | _ => []

/-- kind of a call -/
def Call.kind : Call → Char
  | .consistify _ _ => 'c'
  | .rhs _ _ => 'r'

end PG.Subgrid
