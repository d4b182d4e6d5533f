import Verif.Base.Vec
import Verif.Thermo.Model
import Mathlib.Analysis.SpecialFunctions.Pow.Real
/-!
Model of the boundary conditions, `src/compute/boundaryConditions/{walls,inlets,exits,periodics}.cpp`, and of the index
helpers they use, `src/compute/rangeMap.cpp`. Doubles are reals. A four-dimensional view indexed `(i,j,k,l)` is a function
from cell indices to the record of everything stored for the cell; a `Kokkos::parallel_for` over a face slice writes every
cell of that slice from values read before the kernel (each thread writes only its own cell and reads only its own cell and
cells of other slices). The species loops `n = 5 .. ne-1` copy or combine whole species vectors (entries past the stored
ones do not exist in the code).
-/
noncomputable section
namespace PG.BC
open PG.Thermo

/-- cell index `(i,j,k)`, starting at 0 with the outermost halo -/
abbrev Ix := Fin 3 → ℤ

/-- block sizes: `n d` nodes in direction `d` (b.ni, b.nj, b.nk) and `ng` halo layers -/
structure Dims where
  n : Fin 3 → ℤ
  ng : ℕ

/-- number of cells stored in direction `d`: block_.hpp allocates `n + 2 ng - 1` -/
def Dims.ext (dm : Dims) (d : Fin 3) : ℤ := dm.n d + 2 * dm.ng - 1

/-- block face `_nface = 2*dir + 1` (low) or `2*dir + 2` (high) -/
structure Face where
  dir : Fin 3
  low : Bool

/-- getFaceSliceIdxs, rangeMap.cpp:122-158: firstHaloIdx -/
def firstHalo (dm : Dims) (f : Face) : ℤ := if f.low then dm.ng - 1 else dm.n f.dir + dm.ng - 1
/-- rangeMap.cpp:122-158: firstInteriorCellIdx -/
def firstInterior (dm : Dims) (f : Face) : ℤ := if f.low then dm.ng else dm.n f.dir + dm.ng - 2
/-- rangeMap.cpp:122-158: blockFaceIdx -/
def blockFace (dm : Dims) (f : Face) : ℤ := if f.low then dm.ng else dm.n f.dir + dm.ng - 1
/-- rangeMap.cpp:122-158: plus, the inward index step -/
def plus (f : Face) : ℤ := if f.low then 1 else -1

/-- getRange3, rangeMap.cpp:21-53: cells of the halo of face `f`, all layers, full extent in the other directions -/
def inFaceRange (dm : Dims) (f : Face) (c : Ix) : Prop :=
  (∀ t, 0 ≤ c t ∧ c t < dm.ext t) ∧ (if f.low then c f.dir < dm.ng else dm.n f.dir + dm.ng - 1 ≤ c f.dir)

/-- the cell of slice `s` with the same tangential indices: `getFaceSlice(view, nface, s)(i, j)`, rangeMap.cpp:65-120 -/
def at_ (f : Face) (s : ℤ) (c : Ix) : Ix := Function.update c f.dir s

/-- the two-index position `(i,j)` in a face array such as `face.qBcVals(i, j, ·)`: the normal index is dropped -/
def tan (f : Face) (c : Ix) : Ix := Function.update c f.dir 0

/-- a kernel over `range_face` writing slice `s` of a view: `(i,j)` ranges over the full extents -/
def writeSlice {α : Type} (dm : Dims) (f : Face) (s : ℤ) (val : Ix → α) (A : Ix → α) : Ix → α :=
  open Classical in
  fun c => if c f.dir = s ∧ (∀ t, t ≠ f.dir → 0 ≤ c t ∧ c t < dm.ext t) then val c else A c

/-- the kernel `eos(b, th, face._nface, "prims")` over getRange3 (cpg.cpp:30-134), with the per-cell body as parameter -/
def eosFace (dm : Dims) (f : Face) (eos : Cell → Cell) (A : Ix → Cell) : Ix → Cell :=
  open Classical in
  fun c => if inFaceRange dm f c then eos (A c) else A c

/-- target values stored for a face cell: face.qBcVals, face.QBcVals -/
structure BcVal where
  q : Prim
  Q : Cons

/-- face data: unit normals of the three face families (b.inx.. , b.jnx.. , b.knx..), target values, rotation matrices
    (rows) -/
structure FaceData where
  nrm : Fin 3 → Ix → V3
  bc : Ix → BcVal
  rotUp : Fin 3 → V3
  rotDown : Fin 3 → V3

/-- the boundary functions bound in bindingsBoundaryConditions.cpp (cubicSplineSubsonicInlet is in `Spline`) -/
inductive Kind
  | adiabaticNoSlipWall | adiabaticSlipWall | adiabaticMovingWall
  | isoTNoSlipWall | isoTSlipWall | isoTMovingWall
  | constantVelocitySubsonicInlet | supersonicInlet | constantMassFluxSubsonicInlet | stagnationSubsonicInlet
  | constantPressureSubsonicExit | supersonicExit
  | periodicRotHigh | periodicRotLow
  deriving DecidableEq

/-- `u·n` as written in the kernels (walls.cpp:67-68) -/
def uDotn (q : Prim) (n : V3) : ℝ := q.u * n.x + q.v * n.y + q.w * n.z

/-- all six walls, "euler": walls.cpp:60-79,193-212,286-305 (adiabatic, `T = q1.T`), 417-436,548-567,663-682
    (isothermal, `T` prescribed) -/
def wallEuler (n : V3) (q1 : Prim) (T : ℝ) : Prim :=
  let un := uDotn q1 n
  { p := q1.p, u := q1.u - 2 * un * n.x, v := q1.v - 2 * un * n.y, w := q1.w - 2 * un * n.z, T := T, Y := q1.Y }

/-- velocity treatment shared by the two exits, exits.cpp:61-75 and 166-180; `dplus = -plus` -/
def exitVel (dplus : ℝ) (n : V3) (q1 q2 q0 : Prim) : Prim :=
  let un := uDotn q1 n * dplus
  if 0 < un then { q0 with u := 2 * q1.u - q2.u, v := 2 * q1.v - q2.v, w := 2 * q1.w - q2.w }
  else { q0 with u := q1.u - 2 * un * n.x * dplus, v := q1.v - 2 * un * n.y * dplus, w := q1.w - 2 * un * n.z * dplus }

/-- constantPressureSubsonicExit, exits.cpp:55-80 -/
def pressureExit (dplus : ℝ) (n : V3) (bc q0 q1 q2 : Prim) : Prim :=
  exitVel dplus n q1 q2 { q0 with p := bc.p, T := q1.T, Y := q1.Y }

/-- supersonicExit, exits.cpp:159-188 -/
def superExit (dplus : ℝ) (n : V3) (q0 q1 q2 : Prim) : Prim :=
  let p := min (max 0 (2 * q1.p - q2.p)) q1.p
  let T := max 0 (2 * q1.T - q2.T)
  let Y := fun m => max 0 (min 1 (2 * q1.Y m - q2.Y m))
  exitVel dplus n q1 q2 { q0 with p := p, T := T, Y := Y }

/-! stagnation inlet, inlets.cpp:384-432 -/

/-- inlets.cpp:395-396: speed of the interior cell -/
def stagV (q1 : Prim) : ℝ := Real.sqrt (q1.u ^ 2 + q1.v ^ 2 + q1.w ^ 2)
/-- inlets.cpp:397-398: total enthalpy of the interior cell -/
def stagHt (g c : ℝ) (q1 : Prim) : ℝ := c ^ 2 / (g - 1) + 0.5 * stagV q1 ^ 2
/-- inlets.cpp:399: outgoing Riemann invariant -/
def stagJm (g c : ℝ) (n : V3) (q1 : Prim) : ℝ := -(uDotn q1 n) + 2 * c / (g - 1)
/-- inlets.cpp:402-408: boundary sound speed, the larger root of the quadratic -/
def stagCb (g Jm Ht : ℝ) : ℝ :=
  let aq := 1 + 2 / (g - 1)
  let bq := -2 * Jm
  let cq := (g - 1) * (0.5 * Jm ^ 2 - Ht)
  let t1 := -bq / (2 * aq)
  let t2 := Real.sqrt (bq ^ 2 - 4 * aq * cq) / (2 * aq)
  max (t1 + t2) (t1 - t2)
/-- inlets.cpp:411: boundary normal speed -/
def stagVb (g Jm Ht : ℝ) : ℝ := 2 * stagCb g Jm Ht / (g - 1) - Jm

/-- inlets.cpp:384-432 -/
def stagEuler (n : V3) (bc : Prim) (c1 : Cell) : Prim :=
  let g := c1.qh.gamma
  let Jm := stagJm g c1.qh.c n c1.q
  let Ht := stagHt g c1.qh.c c1.q
  let Vb := stagVb g Jm Ht
  let Mb := Vb / stagCb g Jm Ht
  { p := bc.p * (1 + (g - 1) / 2 * Mb ^ 2) ^ (-g / (g - 1))
    u := Vb * n.x, v := Vb * n.y, w := Vb * n.z
    T := bc.T / (1 + (g - 1) / 2 * Mb ^ 2)
    Y := bc.Y }

/-- a 3x3 matrix (rows) applied to a vector, as written out in periodics.cpp:39-47 -/
def rot (M : Fin 3 → V3) (v : V3) : V3 := ⟨V3.dot (M 0) v, V3.dot (M 1) v, V3.dot (M 2) v⟩

/-- periodics.cpp:31-58 (High, with the Up matrix) and 118-145 (Low, with the Down matrix) -/
def rotCell (M : Fin 3 → V3) (c : Cell) : Cell :=
  let v := rot M ⟨c.q.u, c.q.v, c.q.w⟩
  let q := { c.q with u := v.x, v := v.y, w := v.z }
  let Q := { c.Q with rhou := v.x * c.Q.rho, rhov := v.y * c.Q.rho, rhow := v.z * c.Q.rho }
  { c with q := q, Q := Q }

/-- The "euler" kernel body writing halo cell `c0` from the first interior cell `c1` and the second-interior slice cell
    `c2`; `n` is the unit normal of the block face, `ni` the i-family normal sliced at the same place (what the stagnation
    inlet reads, inlets.cpp:373-375).
    walls.cpp:60-79,193-212,286-305,417-436,548-567,663-682; inlets.cpp:34-52,184-189,245-263,384-432;
    exits.cpp:55-80,159-188; periodics.cpp:31-58,118-145 -/
def law (k : Kind) (f : Face) (F : FaceData) (n ni : V3) (bc : BcVal) (c0 c1 c2 : Cell) : Cell :=
  match k with
  | .adiabaticNoSlipWall | .adiabaticSlipWall | .adiabaticMovingWall => { c0 with q := wallEuler n c1.q c1.q.T }
  | .isoTNoSlipWall | .isoTSlipWall | .isoTMovingWall => { c0 with q := wallEuler n c1.q bc.q.T }
  | .constantVelocitySubsonicInlet =>
      { c0 with q := ⟨2 * c1.q.p - c2.q.p, bc.q.u, bc.q.v, bc.q.w, bc.q.T, bc.q.Y⟩ }
  | .supersonicInlet => { c0 with q := bc.q }
  | .constantMassFluxSubsonicInlet => { c0 with q := ⟨2 * c1.q.p - c2.q.p, 0, 0, 0, bc.q.T, bc.q.Y⟩ }
  | .stagnationSubsonicInlet => { c0 with q := stagEuler ni bc.q c1 }
  | .constantPressureSubsonicExit => { c0 with q := pressureExit (-(plus f : ℝ)) n bc.q c0.q c1.q c2.q }
  | .supersonicExit => { c0 with q := superExit (-(plus f : ℝ)) n c0.q c1.q c2.q }
  | .periodicRotHigh => rotCell F.rotUp c0
  | .periodicRotLow => rotCell F.rotDown c0

/-- inlets.cpp:289-320: second pass of the mass flux inlet, halo cell `c0`, slice cell `c2` -/
def massFluxFix (bc : BcVal) (c0 c2 : Cell) : Cell :=
  let u := 4 * bc.Q.rhou / (c0.Q.rho + c2.Q.rho) - c2.q.u
  let v := 4 * bc.Q.rhov / (c0.Q.rho + c2.Q.rho) - c2.q.v
  let w := 4 * bc.Q.rhow / (c0.Q.rho + c2.Q.rho) - c2.q.w
  let rho := c0.Q.rho
  let tke := 0.5 * (u ^ 2 + v ^ 2 + w ^ 2) * rho
  let q := { c0.q with u := u, v := v, w := w }
  let Q := { c0.Q with rhou := u * rho, rhov := v * rho, rhow := w * rho, rhoE := c0.Q.rhoE + tke }
  { c0 with q := q, Q := Q }

/-- loop variables of the slice loops: firstHaloIdx, secondInteriorCellIdx and the block data -/
structure LoopSt where
  h : ℤ
  s : ℤ
  A : Ix → Cell

/-- one trip `for (int g = 0; g < b.ng; g++)`, walls.cpp:56-79, exits.cpp:49-52: note that both indices are shifted
    cumulatively by `plus*g`. `body c c0 c1 c2` is the kernel body. -/
def loopBody (dm : Dims) (f : Face) (body : Ix → Cell → Cell → Cell → Cell) (st : LoopSt) (g : ℕ) : LoopSt :=
  let h := st.h - plus f * g
  let s := st.s + plus f * g
  ⟨h, s, writeSlice dm f h (fun c => body c (st.A c) (st.A (at_ f (firstInterior dm f) c)) (st.A (at_ f s c))) st.A⟩

/-- the slice loop -/
def haloLoop (dm : Dims) (f : Face) (body : Ix → Cell → Cell → Cell → Cell) (st : LoopSt) : LoopSt :=
  (List.range dm.ng).foldl (loopBody dm f body) st

/-- kernel body at tangential position `c` -/
def bodyOf (k : Kind) (dm : Dims) (f : Face) (F : FaceData) (c : Ix) (c0 c1 c2 : Cell) : Cell :=
  law k f F (F.nrm f.dir (at_ f (blockFace dm f) c)) (F.nrm 0 (at_ f (blockFace dm f) c)) (F.bc (tan f c)) c0 c1 c2

/-- branch `terms == "euler"` of every boundary function. -/
def eulerBC (k : Kind) (dm : Dims) (f : Face) (F : FaceData) (eos : Cell → Cell) (A : Ix → Cell) : Ix → Cell :=
  let st := haloLoop dm f (bodyOf k dm f F) ⟨firstHalo dm f, firstInterior dm f + plus f, A⟩
  match k with
  | .periodicRotHigh | .periodicRotLow => st.A
  | .constantMassFluxSubsonicInlet =>
      (haloLoop dm f (fun c c0 _ c2 => massFluxFix (F.bc (tan f c)) c0 c2)
        ⟨st.h + plus f * (dm.ng - 1), st.s - plus f * (dm.ng - 1) - plus f, eosFace dm f eos st.A⟩).A
  | _ => eosFace dm f eos st.A

/-- branch `terms == "preDqDxyz"`: velocity of no-slip and moving walls, walls.cpp:83-99,309-324,440-456,686-702 -/
def preLaw (k : Kind) (bc : BcVal) (c0 c1 : Cell) : Cell :=
  match k with
  | .adiabaticNoSlipWall | .isoTNoSlipWall => { c0 with q := { c0.q with u := -c1.q.u, v := -c1.q.v, w := -c1.q.w } }
  | .adiabaticMovingWall | .isoTMovingWall =>
      { c0 with q := { c0.q with u := 2 * bc.q.u - c1.q.u, v := 2 * bc.q.v - c1.q.v, w := 2 * bc.q.w - c1.q.w } }
  | _ => c0

/-- the kinds that have a "preDqDxyz" branch -/
def hasPre : Kind → Bool
  | .adiabaticNoSlipWall | .isoTNoSlipWall | .adiabaticMovingWall | .isoTMovingWall => true
  | _ => false

/-- branch `terms == "preDqDxyz"` -/
def preBC (k : Kind) (dm : Dims) (f : Face) (F : FaceData) (A : Ix → Cell) : Ix → Cell :=
  if hasPre k then
    (haloLoop dm f (fun c c0 c1 _ => preLaw k (F.bc (tan f c)) c0 c1) ⟨firstHalo dm f, firstInterior dm f + plus f, A⟩).A
  else A

/-- stored gradients of one cell: variable `l` (0 p, 1-3 velocity, 4 T, 5.. species) to (dqdx, dqdy, dqdz) -/
abbrev Grad := ℕ → V3

/-- sign with which gradient `l` is copied into the first halo layer, walls.cpp:116-146, 232-239, 340-370, 472-501,
    585-616, 718-746 (all walls); inlets and exits copy (+1): inlets.cpp:72-79, exits.cpp:100-107 -/
def gradSign (k : Kind) (l : ℕ) : ℝ :=
  match k with
  | .adiabaticNoSlipWall | .adiabaticMovingWall => if l = 1 ∨ l = 2 ∨ l = 3 then 1 else -1
  | .adiabaticSlipWall => -1
  | .isoTNoSlipWall | .isoTMovingWall => if l = 1 ∨ l = 2 ∨ l = 3 ∨ l = 4 then 1 else -1
  | .isoTSlipWall => if l = 4 then 1 else -1
  | _ => 1

/-- "postDqDxyz" kernel body; periodics rotate each variable's gradient in place, periodics.cpp:71-92, 158-179 -/
def postLaw (k : Kind) (F : FaceData) (g0 g1 : Grad) : Grad :=
  match k with
  | .periodicRotHigh => fun l => rot F.rotUp (g0 l)
  | .periodicRotLow => fun l => rot F.rotDown (g0 l)
  | _ => fun l => V3.smul (gradSign k l) (g1 l)

/-- branch `terms == "postDqDxyz"`: only the first halo slice -/
def postBC (k : Kind) (dm : Dims) (f : Face) (F : FaceData) (G : Ix → Grad) : Ix → Grad :=
  writeSlice dm f (firstHalo dm f) (fun c => postLaw k F (G c) (G (at_ f (firstInterior dm f) c))) G

/-- block data touched by boundary conditions -/
structure Blk where
  A : Ix → Cell
  G : Ix → Grad

/-- a boundary function called with its `terms` string -/
def applyBC (k : Kind) (dm : Dims) (f : Face) (F : FaceData) (eos : Cell → Cell) (terms : String) (b : Blk) : Blk :=
  if terms = "euler" then { b with A := eulerBC k dm f F eos b.A }
  else if terms = "preDqDxyz" then { b with A := preBC k dm f F b.A }
  else if terms = "postDqDxyz" then { b with G := postBC k dm f F b.G }
  else b

/-! ### rotation matrices, multiBlock/gridFace.py:22-72 -/

/-- gridFace.py:38-52 for cosine `ct`, sine `st` and axis components -/
def rotMat (a : V3) (ct st : ℝ) : Fin 3 → V3
  | 0 => ⟨ct + a.x ^ 2 * (1 - ct), a.x * a.y * (1 - ct) - a.z * st, a.x * a.z * (1 - ct) + a.y * st⟩
  | 1 => ⟨a.y * a.x * (1 - ct) + a.z * st, ct + a.y ^ 2 * (1 - ct), a.y * a.z * (1 - ct) - a.x * st⟩
  | 2 => ⟨a.z * a.x * (1 - ct) - a.y * st, a.z * a.y * (1 - ct) + a.x * st, ct + a.z ^ 2 * (1 - ct)⟩

/-- gridFace.py:34-52: `periodicRotMatrixUp` from the axis as passed and the span in degrees -/
def rotUp (a : V3) (span : ℝ) : Fin 3 → V3 :=
  let th := span * Real.pi / 180
  rotMat a (Real.cos th) (Real.sin th)
/-- gridFace.py:54-67: `periodicRotMatrixDown` -/
def rotDown (a : V3) (span : ℝ) : Fin 3 → V3 :=
  let th := span * Real.pi / 180
  rotMat a (Real.cos (-th)) (Real.sin (-th))

/-- topologyFace.py:105-108: the stored axis is normalised -/
def storedAxis (a : V3) : V3 := V3.smul (1 / Real.sqrt (V3.dot a a)) a

end PG.BC
