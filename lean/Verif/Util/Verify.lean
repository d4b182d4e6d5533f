import Verif.Topo.Props
import Verif.Base.Vec
/-!
Model of the grid checker `utilities/verifyGrid.py` (verify, extractFace).

Simplifications. Doubles are reals. Exceptions and failed assertions are `none`; the printed warnings are the result `some false`.
Sizes are at least two, so numpy never broadcasts and arrays of different shapes raise. Periodic faces have their periodic data
(`readBcs` sets them); the rotation matrices are functions.
-/
namespace PG.Util
open PG PG.Topo

/-- a face as the checker sees it -/
structure VFace where
  bcType : String
  bcFam : Option String
  neighbor : Option ℕ
  ori : Option Ori
  axis : V3
  span : ℝ
  rotUp : V3 → V3
  rotDown : V3 → V3

/-- a block: number, sizes, nodes and faces by number -/
structure VBlk where
  num : ℕ
  ni : ℕ
  nj : ℕ
  nk : ℕ
  x : ℕ → ℕ → ℕ → V3
  face : ℕ → VFace

/-- a two-dimensional array of points -/
structure A2 where
  m : ℕ
  n : ℕ
  a : ℕ → ℕ → V3

/-- extractFace, verifyGrid.py:38-55; index -1 is the last one -/
def extract (b : VBlk) : ℕ → A2
  | 1 => ⟨b.nj, b.nk, fun s t => b.x 0 s t⟩
  | 2 => ⟨b.nj, b.nk, fun s t => b.x (b.ni - 1) s t⟩
  | 3 => ⟨b.ni, b.nk, fun s t => b.x s 0 t⟩
  | 4 => ⟨b.ni, b.nk, fun s t => b.x s (b.nj - 1) t⟩
  | 5 => ⟨b.ni, b.nj, fun s t => b.x s t 0⟩
  | _ => ⟨b.ni, b.nj, fun s t => b.x s t (b.nk - 1)⟩

/-- `.T`, `np.flip(., 0)`, `np.flip(., 1)` -/
def A2.transpose (f : A2) : A2 := ⟨f.n, f.m, fun s t => f.a t s⟩
def A2.flip0 (f : A2) : A2 := ⟨f.m, f.n, fun s t => f.a (f.m - 1 - s) t⟩
def A2.flip1 (f : A2) : A2 := ⟨f.m, f.n, fun s t => f.a s (f.n - 1 - t)⟩
def A2.map (g : V3 → V3) (f : A2) : A2 := ⟨f.m, f.n, fun s t => g (f.a s t)⟩

/-- boundary types accepted for a face without neighbour, verifyGrid.py:69-84 -/
def acceptedBcs : List String :=
  ["constantVelocitySubsonicInlet", "supersonicInlet", "constantMassFluxSubsonicInlet", "cubicSplineSubsonicInlet",
   "constantPressureSubsonicExit", "supersonicExit", "adiabaticNoSlipWall", "adiabaticSlipWall", "adiabaticMovingWall",
   "isoTNoSlipWall", "isoTSlipWall", "isoTMovingWall"]

/-- boundary types that need no family, verifyGrid.py:99-103 -/
def familyFree : List String := ["supersonicExit", "adiabaticNoSlipWall", "adiabaticSlipWall"]

/-- largeIndexMapping, verifyGrid.py:31 -/
def largeIndex : ℕ → Char
  | 0 => 'k' | 1 => 'k' | _ => 'j'

/-- needToTranspose, verifyGrid.py:32-35 -/
def needToTranspose (big big2 : Char) : List ℕ :=
  if big = 'k' then (if big2 = 'k' then [1, 2, 4, 5] else [1, 4])
  else (if big2 = 'k' then [1, 2, 4, 5] else [1, 4])

/-- the periodic shift of a point of a face, verifyGrid.py:154-181 -/
def shift (f : VFace) (p : V3) : V3 :=
  if f.bcType = "periodicTransLow" then p + V3.smul f.span f.axis
  else if f.bcType = "periodicTransHigh" then p - V3.smul f.span f.axis
  else if f.bcType = "periodicRotLow" then f.rotUp p
  else if f.bcType = "periodicRotHigh" then f.rotDown p
  else p

/-- our face rearranged in the order of the neighbour's, verifyGrid.py:126-152: `ix2`, `ix` are the normal axes of the neighbour's
    face and ours, `d0`, `d1` the digits of the neighbour's orientation for its in-plane axes -/
def rearrange (ix2 ix d0 d1 : ℕ) (f : A2) : A2 :=
  let f := if d1 ∈ needToTranspose (largeIndex ix2) (largeIndex ix) then f.transpose else f
  let f := if d0 ∈ [4, 5, 6] then f.flip0 else f
  if d1 ∈ [4, 5, 6] then f.flip1 else f

/-- the digits of an orientation other than that of the normal axis, verifyGrid.py:126-130 -/
def inPlane (o : Ori) (ix : ℕ) : ℕ × ℕ :=
  match ix with
  | 0 => (o.get 1, o.get 2)
  | 1 => (o.get 0, o.get 2)
  | _ => (o.get 0, o.get 1)

/-- mb.getBlock -/
def getBlock (mb : List VBlk) (n : ℕ) : Option VBlk := mb.find? fun b => b.num = n

/-- 1e-10, verifyGrid.py:194 -/
noncomputable def tol : ℝ := 1 / 10 ^ 10

open Classical in
/-- one face, verifyGrid.py:60-212: the flag of a coordinate mismatch -/
noncomputable def checkFace (mb : List VBlk) (b : VBlk) (nface : ℕ) : Option Bool :=
  let f := b.face nface
  match f.neighbor with
  | none =>
    if f.bcType ∈ acceptedBcs ∧ f.ori = none ∧ (f.bcType ∈ familyFree ∨ f.bcFam ≠ none) then some false else none
  | some n => do
    let b2 ← getBlock mb n
    let o ← f.ori
    let nface2 ← neighborNface nface o
    let nO ← neighborOrientation o
    let back ← (b2.face nface2).neighbor
    if back ≠ b.num then none
    else
      let f2 := extract b2 nface2
      let ix2 ← faceToOrientIndex nface2
      let ix ← faceToOrientIndex nface
      let d := inPlane nO ix2
      let f1 := (rearrange ix2 ix d.1 d.2 (extract b nface)).map (shift f)
      if f1.m = f2.m ∧ f1.n = f2.n then
        some (decide (∃ s t, s < f2.m ∧ t < f2.n ∧
          (|(f1.a s t).x - (f2.a s t).x| > tol ∨ |(f1.a s t).y - (f2.a s t).y| > tol ∨ |(f1.a s t).z - (f2.a s t).z| > tol)))
      else none

open Classical in
/-- the flag of a left-handed block, verifyGrid.py:214-234 -/
noncomputable def leftHanded (b : VBlk) : Bool :=
  let vI := b.x 1 0 0 - b.x 0 0 0
  let vJ := b.x 0 1 0 - b.x 0 0 0
  let vK := b.x 0 0 1 - b.x 0 0 0
  decide (V3.dot vK (V3.cross vI vJ) < 0)

/-- one block: its faces 1 to 6, then its handedness -/
noncomputable def checkBlk (mb : List VBlk) (b : VBlk) : Option Bool :=
  ([1, 2, 3, 4, 5, 6].foldlM (fun w nf => (checkFace mb b nf).map (w || ·)) false).map (· || leftHanded b)

/-- verify, verifyGrid.py:58-239: `some true` is "Grid is valid!" -/
noncomputable def verify (mb : List VBlk) : Option Bool :=
  (mb.foldlM (fun w b => (checkBlk mb b).map (w || ·)) false).map (!·)

end PG.Util
