import Verif.Safe.Table
import Verif.Safe.Props
/-!
The footprints of `Safe.Model` against the text of the kernels: every access the generated table `Safe/Table.lean` lists for a
kernel of the run is to an element of an allocated array.
-/
namespace PG.Safe.Src
open PG.Safe
open PG.Config (Sel Solver Env Apply start truthy)
open PG.BC (FType)

/-! ### what is claimed -/

/-- the array a name in the text stands for; `flux` and `face` are the arrays of the direction given to `computeFlux` -/
def arrOf (e : Dir) : String → Option Arr
  | "centre" => some .centre
  | "J" => some .J
  | "metric" => some .metric
  | "face" => some (.face e)
  | "facei" => some (.face .i)
  | "facej" => some (.face .j)
  | "facek" => some (.face .k)
  | "flux" => some (.flux e)
  | "fluxi" => some (.flux .i)
  | "fluxj" => some (.flux .j)
  | "fluxk" => some (.flux .k)
  | "Q" => some .Q
  | "q" => some .q
  | "dQ" => some .dQ
  | "grad" => some .grad
  | "qh" => some .qh
  | "qt" => some .qt
  | "omega" => some .omega
  | "Q0" => some (.stage 0)
  | "Q1" => some (.stage 1)
  | "Q2" => some (.stage 2)
  | "Q3" => some (.stage 3)
  | "Qn" => some .Qn
  | "Qnm1" => some .Qnm1
  | "dtau" => some .dtau
  | "phi" => some .phi
  | _ => none

/-- the access of a work item at `i j k` of a kernel called for direction `e`: each component is in an existing array at indices
    that exist -/
def SAcc.Legal (d : Dims) (s : Sel) (fd : Fc → FaceData) (e : Dir) (a : SAcc) (i j k : ℤ) : Prop :=
  ∃ A, arrOf e a.arr = some A ∧ allocated s fd A ∧ ∀ c, a.lo d.ns ≤ c → c < a.hi d.ns → 0 ≤ c ∧ c < comps d A ∧
    Inside d A (i + (a.o.1 + (e.v a.m).1)) (j + (a.o.2.1 + (e.v a.m).2.1)) (k + (a.o.2.2 + (e.v a.m).2.2))

/-- index boxes `getRange3` gives the kernels that take a face number: interior (0) for chemistry, the whole block (-1) for the
    thermodynamics and the transport properties, RHS.py:54, consistify.py:24, 36 -/
def callBox (d : Dims) (dir : String) : List ℤ :=
  if dir = "chemistry" then [d.ng, d.ni + d.ng - 1, d.ng, d.nj + d.ng - 1, d.ng, d.nk + d.ng - 1]
  else [0, d.ni + 2 * d.ng - 1, 0, d.nj + 2 * d.ng - 1, 0, d.nk + 2 * d.ng - 1]

/-- work items of a kernel -/
def SKernel.Item (d : Dims) (e : Dir) (K : SKernel) (i j k : ℤ) : Prop :=
  match (match K.box with | some f => f d e | none => callBox d K.dir) with
  | [a, b, a', b', a'', b''] => a ≤ i ∧ i < b ∧ a' ≤ j ∧ j < b' ∧ a'' ≤ k ∧ k < b''
  | _ => False

/-- every access of every work item is legal; those under `if (viscous)` only when diffusion is solved -/
def SKernel.Legal (d : Dims) (s : Sel) (fd : Fc → FaceData) (viscous : Bool) (K : SKernel) : Prop :=
  ∀ e i j k, K.Item d e i j k → ∀ a ∈ K.acc, (a.viscous = true → viscous = true) → a.Legal d s fd e i j k

/-- functions of a submodule called during a run (consistify.py:12-50, RHS.py:11-54, the integrators, runPeregrine.py:50-118) -/
def called (s : Sel) (r : Solver) : String → List String
  | "advFlux" => r.primary :: r.secondary.toList
  | "thermo" => [r.eos]
  | "transport" => r.trans.toList
  | "switches" => r.switch.toList
  | "subgrid" => if r.diffusion then r.sgs.toList else []
  | "diffFlux" => if r.diffusion then ["alphaDampingFlux"] else []
  | "chemistry" => r.expChem.toList ++ r.impChem.toList
  | "utils" => ["CFLmax", "checkNan", "applyFlux", "applyHybridFlux", "applyDissipationFlux"] ++
      (if r.diffusion then ["dq2FD"] else []) ++ (if r.sponge then ["viscousSponge"] else [])
  | "timeIntegration" => match s.integrator with
    | .str "rk2" => ["rk2s1", "rk2s2"]
    | .str "maccormack" => ["corrector"]
    | .str "rk3" => ["rk3s1", "rk3s2", "rk3s3"]
    | .str "strang" => ["rk3s1", "rk3s2", "rk3s3"]
    | .str "rk34" => ["rk34s1", "rk34s2", "rk34s3", "rk34s4"]
    | .str "rk4" => ["rk4s1", "rk4s2", "rk4s3", "rk4s4"]
    | .str "dualTime" => ["dQdt", "localDtau", "DTrk3s1", "DTrk3s2", "DTrk3s3", "residual", "invertDQ"]
    | _ => []
  | _ => []

/-! ### kernels of the boundary conditions -/

/-- the array a name in the text of a boundary condition stands for; `normal` are the normals of the direction of the face -/
def faceArr (f : Fc) : String → Option Arr
  | "q" => some .q
  | "Q" => some .Q
  | "qh" => some .qh
  | "grad" => some .grad
  | "bc" => some (.bc f)
  | "rot" => some (.rot f)
  | "alphas" => some (.alphas f)
  | "normal" => some (.face f.dir)
  | "normali" => some (.face .i)
  | _ => none

/-- slice indices in round `g` of the halo loop: `firstHaloIdx -= plus * g` and `secondInteriorCellIdx += plus * g` in every round,
    from the values of getFaceSliceIdxs (rangeMap.cpp:124-158); arrays over the face itself have no slice index -/
def sliceIx (d : Dims) (f : Fc) (g : ℕ) : String → Option ℤ
  | "firstHaloIdx" => some (f.haloOf d g)
  | "firstInteriorCellIdx" => some (f.int d)
  | "secondInteriorCellIdx" => some (f.secondOf d g)
  | "blockFaceIdx" => some (f.face d)
  | "target" => some (f.int d)
  | _ => none

/-- the same in the second halo loop of constantMassFluxSubsonicInlet, which starts from the values the first loop left,
    moved back: inlets.cpp:276-284 -/
def sliceIxReset (d : Dims) (f : Fc) (g : ℕ) : String → Option ℤ
  | "firstHaloIdx" => some (f.haloOf d (d.ng - 1) + f.plus * (d.ng - 1) - f.plus * cum g)
  | "secondInteriorCellIdx" => some (f.secondOf d (d.ng - 1) - f.plus * (d.ng - 1) - f.plus + f.plus * cum g)
  | "target" => some (f.int d)
  | _ => none

/-- slice indices of a kernel -/
def FKernel.ix (d : Dims) (f : Fc) (g : ℕ) (K : FKernel) : String → Option ℤ :=
  if K.file = "boundaryConditions/inlets.cpp" ∧ K.line = 291 then sliceIxReset d f g else sliceIx d f g

/-- the access, at all tangential indices: each component is in an existing array at indices that exist -/
def FAcc.Legal (d : Dims) (s : Sel) (fd : Fc → FaceData) (f : Fc) (ix : String → Option ℤ) (a : FAcc) : Prop :=
  ∃ A m, faceArr f a.arr = some A ∧ ix a.slice = some m ∧ allocated s fd A ∧ ∀ c, a.lo d.ns ≤ c → c < a.hi d.ns →
    0 ≤ c ∧ c < comps d A ∧ ∀ i j k, planeIx d f.dir i j k → normalIx f.dir i j k = m → Inside d A i j k

/-- rounds of the halo loop; the terms after the gradients have none -/
def FKernel.Round (d : Dims) (K : FKernel) (g : ℕ) : Prop := if K.terms = "postDqDxyz" then g = 0 else g < d.ng

/-- every access is legal in every round -/
def FKernel.Legal (d : Dims) (s : Sel) (fd : Fc → FaceData) (f : Fc) (K : FKernel) : Prop :=
  ∀ g, K.Round d g → ∀ a ∈ K.acc, a.Legal d s fd f (K.ix d f g)

/-- function of a boundary type: the name of the type (solverFace.py:103-116); faces inside the domain and translational
    periodicity have none that does anything -/
def functionOf : FType → String
  | .b0 => "b0"
  | .periodicTransLow => "periodicTransLow"
  | .periodicTransHigh => "periodicTransHigh"
  | .periodicRotLow => "periodicRotLow"
  | .periodicRotHigh => "periodicRotHigh"
  | .constantVelocitySubsonicInlet => "constantVelocitySubsonicInlet"
  | .supersonicInlet => "supersonicInlet"
  | .constantMassFluxSubsonicInlet => "constantMassFluxSubsonicInlet"
  | .cubicSplineSubsonicInlet => "cubicSplineSubsonicInlet"
  | .stagnationSubsonicInlet => "stagnationSubsonicInlet"
  | .constantPressureSubsonicExit => "constantPressureSubsonicExit"
  | .supersonicExit => "supersonicExit"
  | .adiabaticNoSlipWall => "adiabaticNoSlipWall"
  | .adiabaticSlipWall => "adiabaticSlipWall"
  | .adiabaticMovingWall => "adiabaticMovingWall"
  | .isoTNoSlipWall => "isoTNoSlipWall"
  | .isoTSlipWall => "isoTSlipWall"
  | .isoTMovingWall => "isoTMovingWall"

/-- whether a kernel belongs to a boundary type; the spline inlet calls the constant-velocity inlet (inlets.cpp:151, 153) -/
def FKernel.For (K : FKernel) (t : FType) : Prop :=
  K.func = functionOf t ∨ (t = .cubicSplineSubsonicInlet ∧ K.func = "constantVelocitySubsonicInlet")

/-! ### proofs -/

/-- the footprint of a launch contains the accesses of a kernel -/
def Covers (d : Dims) (viscous : Bool) (K : SKernel) (e : Dir) (L : Launch) : Prop :=
  (∀ i j k, K.Item d e i j k → L.i0 ≤ i ∧ i < L.i1 ∧ L.j0 ≤ j ∧ j < L.j1 ∧ L.k0 ≤ k ∧ k < L.k1) ∧
    ∀ a ∈ K.acc, (a.viscous = true → viscous = true) → ∃ A, arrOf e a.arr = some A ∧
      (∃ b ∈ L.accs, b.arr = A) ∧ ∀ c, a.lo d.ns ≤ c → c < a.hi d.ns → ∃ b ∈ L.accs, b.arr = A ∧
        b.o = (a.o.1 + (e.v a.m).1, a.o.2.1 + (e.v a.m).2.1, a.o.2.2 + (e.v a.m).2.2) ∧ b.lo ≤ c ∧ c < b.hi

theorem legal_of_covers {d : Dims} {s : Sel} {fd : Fc → FaceData} {v : Bool} {K : SKernel}
    (h : ∀ e, ∃ L : Launch, L.Safe d s fd ∧ Covers d v K e L) : K.Legal d s fd v := by
  intro e i j k hI a ha hv
  obtain ⟨L, hL, h1, h2⟩ := h e
  obtain ⟨A, hA, ⟨b0, hb0, hbA⟩, hc⟩ := h2 a ha hv
  obtain ⟨i1, i2, i3, i4, i5, i6⟩ := h1 i j k hI
  refine ⟨A, hA, ?_, fun c c1 c2 => ?_⟩
  · rw [← hbA]; exact (hL i j k i1 i2 i3 i4 i5 i6 b0 hb0).1
  · obtain ⟨b, hb, rfl, ho, l1, l2⟩ := hc c c1 c2
    have := (hL i j k i1 i2 i3 i4 i5 i6 b hb).2 c l1 l2
    rw [ho] at this
    exact this

end PG.Safe.Src
