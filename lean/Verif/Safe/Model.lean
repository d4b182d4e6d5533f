import Verif.Config.Model
import Verif.BC.ReadBcs
/-!
Array footprints of the kernels of a run: which element of which array each kernel launch reads or writes, and which arrays
exist with which extents.

The launches are those of one block. What a kernel computes is modelled elsewhere (Flux, Diff, Thermo, BC, Time, ...); here
only the addresses matter. A launch is a box of indices together with the accesses done at each index. Component loops are
kept as half-open ranges. Consecutive stages of an integrator that launch the same kernels on the same arrays are listed
once. Kernel-private scratch arrays (`Y`, `hi`, `GdQ`, ... sized by `ns` and `ne`), the species tables, the
set-up of the metrics and the files are not included.
-/
namespace PG.Safe
open PG.Config (Sel Solver Apply Val truthy)
open PG.BC (FType)

/-- block dimensions (block_.hpp): grid nodes, halo layers, species -/
structure Dims where
  ni : ℤ
  nj : ℤ
  nk : ℤ
  ng : ℕ
  ns : ℤ

/-- number of equations `ne = 5 + ns - 1`, solverBlock.py:83-88 -/
def Dims.ne (d : Dims) : ℤ := d.ns + 4

inductive Dir
  | i
  | j
  | k
deriving DecidableEq

/-- nodes in a direction -/
def Dims.n (d : Dims) : Dir → ℤ
  | .i => d.ni
  | .j => d.nj
  | .k => d.nk

/-- a face of the block -/
structure Fc where
  dir : Dir
  low : Bool
deriving DecidableEq

/-- faces 1 to 6 -/
def faces : List Fc := [⟨.i, true⟩, ⟨.i, false⟩, ⟨.j, true⟩, ⟨.j, false⟩, ⟨.k, true⟩, ⟨.k, false⟩]

/-- variables exchanged during a run (communicate.py) -/
inductive CV
  | Q
  | q
  | grad
  | phi
deriving DecidableEq

/-- arrays; `grad` stands for dqdx, dqdy, dqdz; `centre` for xc, yc, zc; `face d` for the centres, areas and normals of the
    faces in a direction; `stage m` for Q0, Q1, ...; `bc` for qBcVals and QBcVals; `rot` for the two rotation matrices;
    `alphas` for intervalAlphas; `sbuf`, `rbuf` for tempRecvBuffer_ and recvBuffer_ of a variable -/
inductive Arr
  | centre
  | J
  | metric
  | face (d : Dir)
  | Q
  | q
  | dQ
  | grad
  | qh
  | qt
  | omega
  | stage (m : ℕ)
  | Qn
  | Qnm1
  | dtau
  | flux (d : Dir)
  | phi
  | bc (f : Fc)
  | rot (f : Fc)
  | alphas (f : Fc)
  | sbuf (f : Fc) (v : CV)
  | rbuf (f : Fc) (v : CV)
deriving DecidableEq

/-! ### extents -/

/-- index of a cell array in a direction with `n` nodes: extent `n + 2 ng - 1`, solverBlock.py:73 -/
def inC (ng : ℕ) (n i : ℤ) : Prop := 0 ≤ i ∧ i < n + 2 * ng - 1

/-- index of a face array along its own direction: extent `n + 2 ng`, solverBlock.py:74-76 -/
def inF (ng : ℕ) (n i : ℤ) : Prop := 0 ≤ i ∧ i < n + 2 * ng

/-- cells of the block -/
def cellIx (d : Dims) (i j k : ℤ) : Prop := inC d.ng d.ni i ∧ inC d.ng d.nj j ∧ inC d.ng d.nk k

/-- faces of the block in a direction -/
def faceIx (d : Dims) : Dir → ℤ → ℤ → ℤ → Prop
  | .i, i, j, k => inF d.ng d.ni i ∧ inC d.ng d.nj j ∧ inC d.ng d.nk k
  | .j, i, j, k => inC d.ng d.ni i ∧ inF d.ng d.nj j ∧ inC d.ng d.nk k
  | .k, i, j, k => inC d.ng d.ni i ∧ inC d.ng d.nj j ∧ inF d.ng d.nk k

/-- the two tangential indices of a cell slice -/
def planeIx (d : Dims) : Dir → ℤ → ℤ → ℤ → Prop
  | .i, _, j, k => inC d.ng d.nj j ∧ inC d.ng d.nk k
  | .j, i, _, k => inC d.ng d.ni i ∧ inC d.ng d.nk k
  | .k, i, j, _ => inC d.ng d.ni i ∧ inC d.ng d.nj j

/-- the index normal to a face -/
def normalIx : Dir → ℤ → ℤ → ℤ → ℤ
  | .i, i, _, _ => i
  | .j, _, j, _ => j
  | .k, _, _, k => k

/-- layers of a communication buffer, solverFace.py:258-262 -/
def layers (d : Dims) : CV → ℤ
  | .Q => d.ng
  | .q => d.ng
  | _ => 1

/-- components of a communication buffer, solverFace.py:263-267 -/
def bufComps (d : Dims) : CV → ℤ
  | .phi => 3
  | _ => d.ne

/-- number of components: cQshape solverBlock.py:78-83; qh 145-151; qt 156-163; omega 168-175; phi 213-219;
    qBcVals readBcs.py:95-114; intervalAlphas (4 coefficients of 3 components) prepInlets.py:81-84; rotation matrices 3 x 3
    solverFace.py:110-114; the others have one value per name -/
def comps (d : Dims) : Arr → ℤ
  | .centre => 3
  | .J => 1
  | .metric => 9
  | .face _ => 10
  | .Q => d.ne
  | .q => d.ne
  | .dQ => d.ne
  | .grad => d.ne
  | .qh => 5 + d.ns
  | .qt => 2 + d.ns
  | .omega => 1 + d.ns - 1
  | .stage _ => d.ne
  | .Qn => d.ne
  | .Qnm1 => d.ne
  | .dtau => 1
  | .flux _ => d.ne
  | .phi => 3
  | .bc _ => d.ne
  | .rot _ => 9
  | .alphas _ => 12
  | .sbuf _ v => bufComps d v
  | .rbuf _ v => bufComps d v

/-- indices that exist, solverBlock.py:66-220, solverFace.py:254-300. A two-dimensional face array has no index normal to the
    face; in a communication buffer the normal index is the layer. -/
def Inside (d : Dims) : Arr → ℤ → ℤ → ℤ → Prop
  | .face e, i, j, k => faceIx d e i j k
  | .flux e, i, j, k => faceIx d e i j k
  | .bc f, i, j, k => planeIx d f.dir i j k
  | .alphas f, i, j, k => planeIx d f.dir i j k
  | .rot _, _, _, _ => True
  | .sbuf f v, i, j, k => planeIx d f.dir i j k ∧ 0 ≤ normalIx f.dir i j k ∧ normalIx f.dir i j k < layers d v
  | .rbuf f v, i, j, k => planeIx d f.dir i j k ∧ 0 ≤ normalIx f.dir i j k ∧ normalIx f.dir i j k < layers d v
  | _, i, j, k => cellIx d i j k

/-! ### allocation -/

/-- what a face holds: target values, spline coefficients, rotation matrices, a neighbour -/
structure FaceData where
  target : Bool
  spline : Bool
  rotation : Bool
  neighbour : Bool

/-- storage arrays of an integrator, solverBlock.py:180-189 -/
def nstorage : Val → ℕ
  | .str "rk2" => 1
  | .str "maccormack" => 1
  | .str "rk3" => 1
  | .str "rk34" => 1
  | .str "rk4" => 4
  | .str "strang" => 2
  | .str "dualTime" => 2
  | _ => 0

/-- arrays that are allocated, solverBlock.py:66-220: the gradients and `qt` with diffusion (135, 159), `omega` with chemistry
    (167), the storage of the integrator (190-197); on faces what readBcs and setBlockCommunication prepared -/
def allocated (s : Sel) (fd : Fc → FaceData) : Arr → Prop
  | .grad => truthy s.diffusion = true
  | .qt => truthy s.diffusion = true
  | .omega => truthy s.chemistry = true
  | .stage m => m < nstorage s.integrator
  | .Qn => s.integrator = .str "dualTime"
  | .Qnm1 => s.integrator = .str "dualTime"
  | .dtau => s.integrator = .str "dualTime"
  | .bc f => (fd f).target = true
  | .rot f => (fd f).rotation = true
  | .alphas f => (fd f).spline = true
  | .sbuf f _ => (fd f).neighbour = true
  | .rbuf f _ => (fd f).neighbour = true
  | _ => True

/-! ### launches -/

/-- an access: array, offset to the index of the launch, components `lo ≤ c < hi` -/
structure Acc where
  arr : Arr
  o : ℤ × ℤ × ℤ
  lo : ℤ
  hi : ℤ

/-- a kernel launch: index box (half-open) and the accesses at each index -/
structure Launch where
  i0 : ℤ
  i1 : ℤ
  j0 : ℤ
  j1 : ℤ
  k0 : ℤ
  k1 : ℤ
  accs : List Acc

/-- `n` steps in a direction -/
def Dir.v (e : Dir) (n : ℤ) : ℤ × ℤ × ℤ :=
  match e with
  | .i => (n, 0, 0)
  | .j => (0, n, 0)
  | .k => (0, 0, n)

/-- access at the index itself, one value per name -/
def at0 (d : Dims) (a : Arr) : Acc := ⟨a, (0, 0, 0), 0, comps d a⟩

/-- interior box: getRange3 case 0, rangeMap.cpp:16-20, and the ranges written out in the kernels -/
def interior (d : Dims) (accs : List Acc) : Launch :=
  ⟨d.ng, d.ni + d.ng - 1, d.ng, d.nj + d.ng - 1, d.ng, d.nk + d.ng - 1, accs⟩

/-- whole block: getRange3 case -1, rangeMap.cpp:11-15 -/
def whole (d : Dims) (accs : List Acc) : Launch :=
  ⟨0, d.ni + 2 * d.ng - 1, 0, d.nj + 2 * d.ng - 1, 0, d.nk + 2 * d.ng - 1, accs⟩

/-- interior and one halo layer: mixedScaleModel.cpp:18-19, smagorinsky.cpp:18-19, viscousSponge.cpp:8-9 -/
def ringed (d : Dims) (accs : List Acc) : Launch :=
  ⟨d.ng - 1, d.ni + d.ng, d.ng - 1, d.nj + d.ng, d.ng - 1, d.nk + d.ng, accs⟩

/-- face range in a direction, e.g. KEEP.cpp:11-13, fourthOrderKEEP.cpp:11-12, alphaDampingFlux.cpp:29-31 -/
def faceBox (d : Dims) (e : Dir) (accs : List Acc) : Launch :=
  ⟨d.ng, d.ni + d.ng - 1 + (e.v 1).1, d.ng, d.nj + d.ng - 1 + (e.v 1).2.1, d.ng, d.nk + d.ng - 1 + (e.v 1).2.2, accs⟩

/-- cells `a ≤ normal index < b` of the block: getRange3 cases 1-6 (rangeMap.cpp:21-52), or one slice with both tangential
    indices over all cells (getFaceSlice and `{0, 0}, {q1.extent(0), q1.extent(1)}`) -/
def slab (d : Dims) (e : Dir) (a b : ℤ) (accs : List Acc) : Launch :=
  match e with
  | .i => ⟨a, b, 0, d.nj + 2 * d.ng - 1, 0, d.nk + 2 * d.ng - 1, accs⟩
  | .j => ⟨0, d.ni + 2 * d.ng - 1, a, b, 0, d.nk + 2 * d.ng - 1, accs⟩
  | .k => ⟨0, d.ni + 2 * d.ng - 1, 0, d.nj + 2 * d.ng - 1, a, b, accs⟩

/-- an element access is legal: the array is allocated and the indices are inside it -/
def Acc.Legal (d : Dims) (s : Sel) (fd : Fc → FaceData) (a : Acc) (i j k : ℤ) : Prop :=
  allocated s fd a.arr ∧ ∀ c, a.lo ≤ c → c < a.hi →
    0 ≤ c ∧ c < comps d a.arr ∧ Inside d a.arr (i + a.o.1) (j + a.o.2.1) (k + a.o.2.2)

/-- every access of the launch is legal -/
def Launch.Safe (d : Dims) (s : Sel) (fd : Fc → FaceData) (L : Launch) : Prop :=
  ∀ i j k, L.i0 ≤ i → i < L.i1 → L.j0 ≤ j → j < L.j1 → L.k0 ≤ k → k < L.k1 → ∀ a ∈ L.accs, a.Legal d s fd i j k

/-! ### residual -/

/-- advective schemes, per face direction: KEEP.cpp:14-76, KEEPpe.cpp, KEPaEC.cpp, centralDifference.cpp, rusanov.cpp, hllc.cpp
    (cells 0 and -1); fourthOrderKEEP.cpp:14-170, muscl2hllc.cpp:31-260, muscl2rusanov.cpp:32-180 (cells -2 to 1);
    scalarDissipation.cpp:20-104 (cells 0, -1, -2 of `Q` along the direction, and cell i+1 in every direction) -/
def advAccs (d : Dims) (name : String) (e : Dir) : List Acc :=
  let two (l : List (Arr × ℤ × ℤ)) : List Acc :=
    l.flatMap fun a => [⟨a.1, (0, 0, 0), a.2.1, a.2.2⟩, ⟨a.1, e.v (-1), a.2.1, a.2.2⟩]
  let four (l : List (Arr × ℤ × ℤ)) : List Acc :=
    l.flatMap fun a => [⟨a.1, e.v (-2), a.2.1, a.2.2⟩, ⟨a.1, e.v (-1), a.2.1, a.2.2⟩, ⟨a.1, (0, 0, 0), a.2.1, a.2.2⟩,
      ⟨a.1, e.v 1, a.2.1, a.2.2⟩]
  let own : List Acc := [at0 d (.flux e), at0 d (.face e)]
  match name with
  | "KEEP" => own ++ two [(.Q, 0, 1), (.q, 0, 4), (.q, 5, d.ne), (.qh, 4, 5)]
  | "KEEPpe" => own ++ two [(.Q, 0, 1), (.q, 0, 4), (.q, 5, d.ne), (.qh, 4, 5)]
  | "KEPaEC" => own ++ two [(.Q, 0, 1), (.q, 0, 4), (.q, 5, d.ne), (.qh, 4, 5)]
  | "centralDifference" => own ++ two [(.Q, 0, d.ne), (.q, 0, 4)]
  | "rusanov" => own ++ two [(.Q, 0, 1), (.Q, 4, d.ne), (.q, 0, 4), (.qh, 3, 4)]
  | "hllc" => own ++ two [(.Q, 0, d.ne), (.q, 0, 4), (.q, 5, d.ne), (.qh, 3, 4)]
  | "fourthOrderKEEP" => own ++ four [(.Q, 0, 1), (.q, 0, 4), (.q, 5, d.ne), (.qh, 4, 5)]
  | "muscl2hllc" => own ++ four [(.Q, 0, 1), (.q, 0, 4), (.q, 5, d.ne), (.qh, 3, 5)]
  | "muscl2rusanov" => own ++ four [(.Q, 0, 1), (.Q, 5, d.ne), (.q, 0, 4), (.q, 5, d.ne), (.qh, 3, 5)]
  | "scalarDissipation" => own ++ two [(.phi, 0, 3), (.q, 1, 4), (.qh, 3, 4), (.Q, 0, d.ne)] ++
      [⟨.Q, (1, 0, 0), 0, d.ne⟩, ⟨.Q, e.v (-2), 0, d.ne⟩]
  | _ => []

/-- an advective kernel: three face ranges -/
def adv (d : Dims) (name : String) : List Launch := [Dir.i, .j, .k].map fun e => faceBox d e (advAccs d name e)

/-- fluxes of the two faces in each direction -/
def fluxDiff (d : Dims) : List Acc :=
  [Dir.i, .j, .k].flatMap fun e => [⟨.flux e, (0, 0, 0), 0, d.ne⟩, ⟨.flux e, e.v 1, 0, d.ne⟩]

/-- the switch on both faces in each direction, applyFluxes.cpp:38-43 -/
def switchAcc : List Acc :=
  [Dir.i, .j, .k].flatMap fun e => [⟨.phi, (0, 0, 0), 0, 3⟩, ⟨.phi, e.v (-1), 0, 3⟩, ⟨.phi, e.v 1, 0, 3⟩]

/-- applyFlux, applyHybridFlux, applyDissipationFlux, applyFluxes.cpp:6-83 -/
def apply (d : Dims) : Apply → Launch
  | .hybrid => interior d ([at0 d .dQ, at0 d .J] ++ fluxDiff d ++ switchAcc)
  | _ => interior d ([at0 d .dQ, at0 d .J] ++ fluxDiff d)

/-- neighbours in the three directions -/
def cross (a : Arr) (lo hi : ℤ) : List Acc :=
  [Dir.i, .j, .k].flatMap fun e => [⟨a, e.v (-1), lo, hi⟩, ⟨a, e.v 1, lo, hi⟩]

/-- dq2FD.cpp:8-30 -/
def dq2FD (d : Dims) : Launch := interior d ([at0 d .grad, at0 d .metric] ++ cross .q 0 d.ne)

/-- alphaDampingFlux.cpp:19-247 -/
def alphaDamping (d : Dims) : List Launch := [Dir.i, .j, .k].map fun e =>
  faceBox d e ([at0 d (.flux e), at0 d (.face e)] ++
    [(Arr.qt, (0 : ℤ), 2 + d.ns), (.centre, 0, 3), (.grad, 1, d.ne), (.q, 1, d.ne), (.Q, 0, 1), (.qh, 5, d.ne + 1)].flatMap
      fun a => [⟨a.1, (0, 0, 0), a.2.1, a.2.2⟩, ⟨a.1, e.v (-1), a.2.1, a.2.2⟩])

/-- mixedScaleModel.cpp:16-105 (velocities of the six neighbours), smagorinsky.cpp:16-77 -/
def subgrid (d : Dims) : String → List Launch
  | "mixedScaleModel" => [ringed d ([⟨.q, (0, 0, 0), 1, 4⟩, ⟨.grad, (0, 0, 0), 1, 4⟩, at0 d .J, ⟨.Q, (0, 0, 0), 0, 1⟩,
      ⟨.qh, (0, 0, 0), 1, 2⟩, ⟨.qt, (0, 0, 0), 0, 2⟩, ⟨.qt, (0, 0, 0), 2, 2 + (d.ne - 5) + 1⟩] ++ cross .q 1 4)]
  | "smagorinsky" => [ringed d [⟨.grad, (0, 0, 0), 1, 4⟩, at0 d .J, ⟨.Q, (0, 0, 0), 0, 1⟩, ⟨.qh, (0, 0, 0), 1, 2⟩,
      ⟨.qt, (0, 0, 0), 0, 2⟩, ⟨.qt, (0, 0, 0), 2, 2 + (d.ne - 5) + 1⟩]]
  | _ => []

/-- the mechanism kernels read and write components of their own number of species `nm`, whatever `ns` is: chem_GRI30.cpp:82-110
    and the last loops (3970-3992), chem_C2H4_Air_Red22.cpp:55-80, chem_C2H4_Air_Skeletal.cpp:65-90,
    chem_CH4_O2_FFCMY.cpp:45-70, 590-616 -/
def chemAccs (nm : ℤ) : List Acc :=
  [⟨.q, (0, 0, 0), 0, 1⟩, ⟨.q, (0, 0, 0), 4, 5⟩, ⟨.q, (0, 0, 0), 5, 5 + (nm - 1)⟩, ⟨.Q, (0, 0, 0), 0, 1⟩,
    ⟨.Q, (0, 0, 0), 5, 5 + (nm - 1)⟩, ⟨.dQ, (0, 0, 0), 5, 5 + (nm - 1)⟩, ⟨.omega, (0, 0, 0), 0, 1⟩,
    ⟨.omega, (0, 0, 0), 0 + 1, (nm - 1) + 1⟩]

/-- explicit chemistry over the interior -/
def chem (d : Dims) (m : String) : Launch := interior d (chemAccs (PG.Config.mechNs m))

/-! ### thermodynamics, transport, switches -/

/-- cpg.cpp:31-236, tpg.cpp:34-317, cubic.cpp:74-657: all components of q, Q, qh -/
def eosAccs (d : Dims) : List Acc := [at0 d .q, at0 d .Q, ⟨.qh, (0, 0, 0), 0, 5⟩, ⟨.qh, (0, 0, 0), 5, 5 + d.ns⟩]

/-- constantProps.cpp, kineticTheory.cpp, kineticTheoryUnityLewis.cpp, chungDenseGasUnityLewis.cpp, union of what they address -/
def transAccs (d : Dims) : List Acc :=
  [⟨.q, (0, 0, 0), 0, 1⟩, ⟨.q, (0, 0, 0), 4, 5⟩, ⟨.q, (0, 0, 0), 5, 5 + (d.ns - 1)⟩, ⟨.Q, (0, 0, 0), 0, 1⟩,
    ⟨.qh, (0, 0, 0), 0, 2⟩, ⟨.qt, (0, 0, 0), 0, 2⟩, ⟨.qt, (0, 0, 0), 2, 2 + d.ns⟩]

/-- jameson.cpp:9-35, vanLeer.cpp:9-43, vanAlbada.cpp:9-35 -/
def switchK (d : Dims) : Launch := interior d ([⟨.q, (0, 0, 0), 0, 1⟩, at0 d .phi] ++ cross .q 0 1)

/-- viscousSponge.cpp:5-39 -/
def spongeK (d : Dims) : Launch := ringed d [at0 d .centre, ⟨.qt, (0, 0, 0), 0, 1⟩]

/-! ### boundary conditions -/

/-- `plus`, rangeMap.cpp:124-158 -/
def Fc.plus (f : Fc) : ℤ := if f.low then 1 else -1
/-- firstHaloIdx, rangeMap.cpp:124-158 -/
def Fc.halo (d : Dims) (f : Fc) : ℤ := if f.low then d.ng - 1 else d.n f.dir + d.ng - 1
/-- firstInteriorCellIdx, rangeMap.cpp:124-158 -/
def Fc.int (d : Dims) (f : Fc) : ℤ := if f.low then d.ng else d.n f.dir + d.ng - 2
/-- blockFaceIdx, rangeMap.cpp:124-158 -/
def Fc.face (d : Dims) (f : Fc) : ℤ := if f.low then d.ng else d.n f.dir + d.ng - 1

/-- `0 + 1 + ... + g`: the index is moved by `plus * g` in every round, e.g. walls.cpp:57 -/
def cum : ℕ → ℤ
  | 0 => 0
  | g + 1 => cum g + (g + 1)

/-- halo slice of round `g`, e.g. inlets.cpp:27-28, walls.cpp:56-57 -/
def Fc.haloOf (d : Dims) (f : Fc) (g : ℕ) : ℤ := f.halo d - f.plus * cum g
/-- secondInteriorCellIdx in round `g`, inlets.cpp:20,29, exits.cpp:20,52 -/
def Fc.secondOf (d : Dims) (f : Fc) (g : ℕ) : ℤ := f.int d + f.plus + f.plus * cum g

/-- access to slice `t` from a launch over slice `s` -/
def Fc.on (f : Fc) (s t : ℤ) (a : Arr) (lo hi : ℤ) : Acc := ⟨a, f.dir.v (t - s), lo, hi⟩

/-- equation of state on the halo of a face (getRange3 cases 1-6), called at the end of the euler terms -/
def eosHalo (d : Dims) (f : Fc) : Launch :=
  if f.low then slab d f.dir 0 d.ng (eosAccs d) else slab d f.dir (d.n f.dir + d.ng - 1) (d.n f.dir + 2 * d.ng - 1) (eosAccs d)

/-- rounds of the halo loop -/
def rounds (d : Dims) (f : Fc) (accs : ℕ → List Acc) : List Launch :=
  (List.range d.ng).map fun g => slab d f.dir (f.int d) (f.int d + 1) (accs g)

/-- halo and first interior slice of the primitives -/
def haloInt (d : Dims) (f : Fc) (g : ℕ) : List Acc :=
  [f.on (f.int d) (f.int d) .q 0 d.ne, f.on (f.int d) (f.haloOf d g) .q 0 d.ne]

/-- normals on the face of the block -/
def normals (d : Dims) (f : Fc) (e : Dir) : Acc := f.on (f.int d) (f.face d) (.face e) 0 10

/-- target values -/
def targets (d : Dims) (f : Fc) : Acc := f.on (f.int d) (f.int d) (.bc f) 0 d.ne

/-- second interior slice -/
def second (d : Dims) (f : Fc) (g : ℕ) : Acc := f.on (f.int d) (f.secondOf d g) .q 0 d.ne

/-- the second loop of constantMassFluxSubsonicInlet, inlets.cpp:274-320: indices after the reset -/
def massFluxRounds (d : Dims) (f : Fc) : List Launch :=
  let h0 := f.halo d - f.plus * cum (d.ng - 1) + f.plus * (d.ng - 1)
  let s0 := f.int d + f.plus + f.plus * cum (d.ng - 1) - f.plus * (d.ng - 1) - f.plus
  rounds d f fun g =>
    let h := h0 - f.plus * cum g
    let t := s0 + f.plus * cum g
    [f.on (f.int d) h .q 1 4, f.on (f.int d) t .q 1 4, f.on (f.int d) h .Q 0 5, f.on (f.int d) t .Q 0 1,
      f.on (f.int d) (f.int d) (.bc f) 1 4]

/-- the spline evaluation, inlets.cpp:109-148: all tangential indices but the last -/
def splineRound (d : Dims) (f : Fc) : Launch :=
  let accs : List Acc := [⟨.bc f, (0, 0, 0), 1, 4⟩, ⟨.alphas f, (0, 0, 0), 0, 12⟩]
  match f.dir with
  | .i => ⟨0, 1, 0, d.nj + 2 * d.ng - 2, 0, d.nk + 2 * d.ng - 2, accs⟩
  | .j => ⟨0, d.ni + 2 * d.ng - 2, 0, 1, 0, d.nk + 2 * d.ng - 2, accs⟩
  | .k => ⟨0, d.ni + 2 * d.ng - 2, 0, d.nj + 2 * d.ng - 2, 0, 1, accs⟩

/-- euler terms: inlets.cpp:22-54, 90-150, 170-191, 233-321, 366-434; exits.cpp:22-82, 124-190; walls.cpp:29-81, 162-214,
    255-307, 386-438, 517-569, 632-684; periodics.cpp:21-59, 108-146 -/
def euler (d : Dims) (f : Fc) : FType → List Launch
  | .b0 => []
  | .periodicTransLow => []
  | .periodicTransHigh => []
  | .periodicRotLow => rounds d f fun g => haloInt d f g ++ [f.on (f.int d) (f.haloOf d g) .Q 0 4, ⟨.rot f, (0, 0, 0), 0, 9⟩]
  | .periodicRotHigh => rounds d f fun g => haloInt d f g ++ [f.on (f.int d) (f.haloOf d g) .Q 0 4, ⟨.rot f, (0, 0, 0), 0, 9⟩]
  | .constantVelocitySubsonicInlet => (rounds d f fun g => haloInt d f g ++ [second d f g, targets d f]) ++ [eosHalo d f]
  | .supersonicInlet => (rounds d f fun g => haloInt d f g ++ [second d f g, targets d f]) ++ [eosHalo d f]
  | .constantMassFluxSubsonicInlet =>
      (rounds d f fun g => haloInt d f g ++ [second d f g, targets d f]) ++ [eosHalo d f] ++ massFluxRounds d f
  | .cubicSplineSubsonicInlet =>
      [splineRound d f] ++ (rounds d f fun g => haloInt d f g ++ [second d f g, targets d f]) ++ [eosHalo d f]
  | .stagnationSubsonicInlet => (rounds d f fun g => haloInt d f g ++ [f.on (f.int d) (f.int d) .Q 0 d.ne,
      f.on (f.int d) (f.int d) .qh 0 5, normals d f .i, targets d f]) ++ [eosHalo d f]
  | .constantPressureSubsonicExit =>
      (rounds d f fun g => haloInt d f g ++ [second d f g, normals d f f.dir, targets d f]) ++ [eosHalo d f]
  | .supersonicExit => (rounds d f fun g => haloInt d f g ++ [second d f g, normals d f f.dir]) ++ [eosHalo d f]
  | .adiabaticNoSlipWall => (rounds d f fun g => haloInt d f g ++ [normals d f f.dir]) ++ [eosHalo d f]
  | .adiabaticSlipWall => (rounds d f fun g => haloInt d f g ++ [normals d f f.dir]) ++ [eosHalo d f]
  | .adiabaticMovingWall => (rounds d f fun g => haloInt d f g ++ [normals d f f.dir]) ++ [eosHalo d f]
  | .isoTNoSlipWall => (rounds d f fun g => haloInt d f g ++ [normals d f f.dir, targets d f]) ++ [eosHalo d f]
  | .isoTSlipWall => (rounds d f fun g => haloInt d f g ++ [normals d f f.dir, targets d f]) ++ [eosHalo d f]
  | .isoTMovingWall => (rounds d f fun g => haloInt d f g ++ [normals d f f.dir, targets d f]) ++ [eosHalo d f]

/-- preDqDxyz terms: walls.cpp:83-100, 309-325, 440-457, 686-703 -/
def pre (d : Dims) (f : Fc) : FType → List Launch
  | .adiabaticNoSlipWall => rounds d f fun g => haloInt d f g
  | .adiabaticMovingWall => rounds d f fun g => haloInt d f g ++ [targets d f]
  | .isoTNoSlipWall => rounds d f fun g => haloInt d f g
  | .isoTMovingWall => rounds d f fun g => haloInt d f g ++ [targets d f]
  | _ => []

/-- first halo and first interior slice of the gradients -/
def gradSlices (d : Dims) (f : Fc) (more : List Acc) : List Launch :=
  [slab d f.dir (f.int d) (f.int d + 1)
    ([f.on (f.int d) (f.int d) .grad 0 d.ne, f.on (f.int d) (f.halo d) .grad 0 d.ne] ++ more)]

/-- postDqDxyz terms: all inlets, exits and walls (e.g. walls.cpp:101-147); periodics.cpp:60-93, 147-180 -/
def post (d : Dims) (f : Fc) : FType → List Launch
  | .b0 => []
  | .periodicTransLow => []
  | .periodicTransHigh => []
  | .periodicRotLow => gradSlices d f [⟨.rot f, (0, 0, 0), 0, 9⟩]
  | .periodicRotHigh => gradSlices d f [⟨.rot f, (0, 0, 0), 0, 9⟩]
  | _ => gradSlices d f []

/-! ### halo exchange -/

/-- arrays of a variable -/
def CV.arr : CV → Arr
  | .Q => .Q
  | .q => .q
  | .grad => .grad
  | .phi => .phi

/-- send and receive slices of layer `g`, solverFace.py:158-164, 171-224: cells `ng + g` and `g` on a low face,
    `n + 2 ng - 1 - 2 ng + g` and `n + 2 ng - 1 - ng + g` on a high face; for the gradients and phi only the first
    (solverFace.py:229-234). Reversal of the order (solverFace.py:245-247) permutes the buffer layers, not their number. -/
def sliceOf (d : Dims) (f : Fc) (send : Bool) (v : CV) (g : ℕ) : ℤ :=
  let one := v = .grad ∨ v = .phi
  match send, f.low with
  | true, true => d.ng + (if one then 0 else g)
  | true, false => d.n f.dir + 2 * d.ng - 1 + (-2 * d.ng + (if one then d.ng - 1 else g))
  | false, true => if one then d.ng - 1 else g
  | false, false => d.n f.dir + 2 * d.ng - 1 + (-d.ng + (if one then 0 else g))

/-- buffer layer of round `g`; `rev` when the send slices are reversed -/
def layerOf (d : Dims) (rev : Bool) (v : CV) (g : ℕ) : ℤ :=
  if rev = true ∧ (v = .Q ∨ v = .q) then d.ng - 1 - g else g

/-- number of slices exchanged -/
def nslices (d : Dims) : CV → ℕ
  | .Q => d.ng
  | .q => d.ng
  | _ => 1

/-- extractSendBuffer and placeRecvBuffer for one face, communicate.py:34-92, sendRecvBuffer.cpp:6-72 -/
def comm (d : Dims) (rev : Fc → Bool) (fd : Fc → FaceData) (v : CV) : List Launch :=
  faces.flatMap fun f => if (fd f).neighbour = true then
    (List.range (nslices d v)).flatMap fun g =>
      let s := sliceOf d f true v g
      let t := sliceOf d f false v g
      [slab d f.dir s (s + 1) [⟨v.arr, (0, 0, 0), 0, comps d v.arr⟩, ⟨.sbuf f v, f.dir.v (layerOf d (rev f) v g - s), 0, comps d v.arr⟩],
        slab d f.dir t (t + 1) [⟨v.arr, (0, 0, 0), 0, comps d v.arr⟩, ⟨.rbuf f v, f.dir.v (g - t), 0, comps d v.arr⟩]]
    else []

/-! ### the program -/

/-- a block and what surrounds it: dimensions, type and data of each face, whether the send slices are reversed -/
structure Site where
  d : Dims
  typ : Fc → FType
  data : Fc → FaceData
  rev : Fc → Bool

/-- consistify.py:12-50 -/
def consistify (b : Site) (r : Solver) (given : CV) : List Launch :=
  comm b.d b.rev b.data given ++ [whole b.d (eosAccs b.d)] ++ faces.flatMap (fun f => euler b.d f (b.typ f)) ++
    (if r.trans.isSome then [whole b.d (transAccs b.d)] else []) ++ (if r.switch.isSome then [switchK b.d] else []) ++
    (if r.sponge then [spongeK b.d] else []) ++ (if r.phiComm then comm b.d b.rev b.data .phi else [])

/-- RHS.py:11-54 -/
def rhs (b : Site) (r : Solver) : List Launch :=
  [whole b.d [at0 b.d .dQ]] ++ adv b.d r.primary ++ [apply b.d r.applyPrimary] ++
    (r.secondary.map (adv b.d)).getD [] ++ (r.applySecondary.map fun a => [apply b.d a]).getD [] ++
    (if r.diffusion then
      faces.flatMap (fun f => pre b.d f (b.typ f)) ++ [dq2FD b.d] ++ comm b.d b.rev b.data .grad ++
        faces.flatMap (fun f => post b.d f (b.typ f)) ++ (r.sgs.map (subgrid b.d)).getD [] ++ alphaDamping b.d ++ [apply b.d .plain]
      else []) ++
    (r.expChem.map fun m => [chem b.d m]).getD []

/-- interior kernel on whole cells of some arrays -/
def stageK (d : Dims) (l : List Arr) : Launch := interior d (l.map (at0 d))

/-- face geometry used for cell lengths and contravariant velocities, cfl.cpp:33-67, dualTime.cpp:57-85 -/
def lengths (d : Dims) : List Acc :=
  [Dir.i, .j, .k].flatMap fun e => [⟨.face e, (0, 0, 0), 0, 10⟩, ⟨.face e, e.v 1, 0, 10⟩]

/-- kernels of the time integrators: rk1.py:20 (axpby.cpp:32-46), rk2Stages.cpp, maccormack.py:17-28 and maccormackStages.cpp,
    rk3Stages.cpp, rk34Stages.cpp, rk4Stages.cpp, strang.py:9-14, 67-86, dualTime.cpp:21-330, dualTime.py:55-101, 112-130 -/
def stages (b : Site) (r : Solver) : Val → List Launch
  | .str "rk1" => [whole b.d [at0 b.d .Q, at0 b.d .dQ]]
  | .str "rk2" => [stageK b.d [.stage 0, .Q, .dQ]]
  | .str "maccormack" => [whole b.d [at0 b.d (.stage 0), at0 b.d .Q], whole b.d [at0 b.d .Q, at0 b.d .dQ],
      stageK b.d [.stage 0, .Q, .dQ]]
  | .str "rk3" => [stageK b.d [.stage 0, .Q, .dQ]]
  | .str "rk34" => [stageK b.d [.stage 0, .Q, .dQ]]
  | .str "rk4" => [stageK b.d [.stage 0, .stage 1, .Q, .dQ], stageK b.d [.stage 2, .stage 0, .Q, .dQ],
      stageK b.d [.stage 3, .stage 0, .Q, .dQ], stageK b.d [.stage 0, .stage 1, .stage 2, .stage 3, .Q, .dQ]]
  | .str "strang" => [stageK b.d [.stage 0, .Q, .dQ],
      interior b.d [⟨.q, (0, 0, 0), 4, b.d.ne⟩, at0 b.d .omega, ⟨.Q, (0, 0, 0), 0, 1⟩, ⟨.Q, (0, 0, 0), 5, b.d.ne⟩]] ++
      (r.impChem.map fun m => [interior b.d (chemAccs (PG.Config.mechNs m))]).getD []
  | .str "dualTime" =>
      [interior b.d (lengths b.d ++ [⟨.q, (0, 0, 0), 1, 4⟩, ⟨.qh, (0, 0, 0), 3, 4⟩, at0 b.d .dtau] ++
          (if r.diffusion then [⟨.qt, (0, 0, 0), 0, 1⟩, ⟨.Q, (0, 0, 0), 0, 1⟩] else [])),
        stageK b.d [.dQ, .Q, .Qn, .Qnm1],
        interior b.d ([⟨.q, (0, 0, 0), 0, 5 + (b.d.ns - 1)⟩, ⟨.Q, (0, 0, 0), 0, 1⟩, ⟨.qh, (0, 0, 0), 1, 4⟩,
          ⟨.qh, (0, 0, 0), 5, b.d.ne + 1⟩, at0 b.d .dtau, at0 b.d .dQ] ++
          (if r.diffusion then lengths b.d ++ [⟨.qt, (0, 0, 0), 0, 1⟩] else [])),
        stageK b.d [.stage 0, .q, .dtau, .dQ], stageK b.d [.q, .stage 0],
        whole b.d [at0 b.d .Qnm1, at0 b.d .Qn, at0 b.d .Q]]
  | _ => []

/-- variable given to `consistify` by the integrator: `q` in dual time (dualTime.py:70), else `Q` -/
def given : Val → CV
  | .str "dualTime" => .q
  | _ => .Q

/-- CFLmax, cfl.cpp:9-89, and checkNan, checkNan.cpp:7-33 -/
def monitors (d : Dims) : List Launch :=
  [interior d (lengths d ++ [⟨.q, (0, 0, 0), 1, 4⟩, ⟨.qh, (0, 0, 0), 3, 4⟩]), interior d [at0 d .Q]]

/-- every kernel launch on a block during a run: set-up of the state (bootstrapCase.py:176-187: equation of state on the whole
    block, consistify), the steps and the monitors of runPeregrine.py:50-118 -/
def run (b : Site) (s : Sel) (r : Solver) : List Launch :=
  consistify b r .Q ++ rhs b r ++ stages b r s.integrator ++ consistify b r (given s.integrator) ++ monitors b.d

end PG.Safe
