import Verif.Base.Vec
import Verif.Topo.Model
import Mathlib.Tactic.IntervalCases
/-!
Model of `src/peregrinepy/grid/create.py`: cubicConnectivity, cube, multiBlockCube.

Simplifications. Doubles are reals; `np.linspace(a, b, n)` has the entries `a + t (b - a)/(n - 1)`, `t = 0..n-1` (its last entry,
assigned as `b`, is the same real number). Blocks are fresh: faces not written keep type `b0` without neighbour.
-/
namespace PG.Grid
open PG

/-- what cubicConnectivity sets on a face -/
structure FaceC where
  bcType : String
  neighbor : Option ℤ
  orientation : Option String
deriving DecidableEq

/-- the three numbers of blocks `mbDims` -/
structure Dims3 where
  a : ℤ
  b : ℤ
  c : ℤ

/-- block position in the grid of blocks -/
structure Pos where
  i : ℤ
  j : ℤ
  k : ℤ

/-- `blkNum`, create.py:232 -/
def blkNum (m : Dims3) (p : Pos) : ℤ := p.k * m.b * m.a + p.j * m.a + p.i

/-- a face on the low side of a direction with `m` blocks, index `idx` and block number stride `stride` (create.py:20-34, 54-68,
    88-102; the strides of the three directions are 1, `mbDims[0]` and `mbDims[0]*mbDims[1]`) -/
def lowFace (periodic : Bool) (num idx m stride : ℤ) : FaceC :=
  if idx = 0 then
    if periodic then ⟨"periodicTransLow", some (num + stride * (m - 1)), some "123"⟩
    else ⟨"adiabaticNoSlipWall", none, none⟩
  else ⟨"b0", some (num - stride), some "123"⟩

/-- a face on the high side (create.py:37-51, 71-85, 105-119) -/
def highFace (periodic : Bool) (num idx m stride : ℤ) : FaceC :=
  if idx = m - 1 then
    if periodic then ⟨"periodicTransHigh", some (num - stride * (m - 1)), some "123"⟩
    else ⟨"adiabaticNoSlipWall", none, none⟩
  else ⟨"b0", some (num + stride), some "123"⟩

/-- cubicConnectivity, create.py:14-119: the face `f` (1..6) of the block at `p` -/
def cubicConnectivity (m : Dims3) (per : Bool × Bool × Bool) (p : Pos) (f : ℕ) : FaceC :=
  match f with
  | 1 => lowFace per.1 (blkNum m p) p.i m.a 1
  | 2 => highFace per.1 (blkNum m p) p.i m.a 1
  | 3 => lowFace per.2.1 (blkNum m p) p.j m.b m.a
  | 4 => highFace per.2.1 (blkNum m p) p.j m.b m.a
  | 5 => lowFace per.2.2 (blkNum m p) p.k m.c (m.a * m.b)
  | 6 => highFace per.2.2 (blkNum m p) p.k m.c (m.a * m.b)
  | _ => ⟨"b0", none, none⟩

/-- `np.linspace(a, b, n)[t]` -/
noncomputable def linspace (a b : ℝ) (n t : ℤ) : ℝ := a + t * ((b - a) / (n - 1))

/-- cube, create.py:122-178: node `(a, b, c)` of a block with `dims` nodes -/
noncomputable def cube (origin lengths : V3) (dims : Dims3) (a b c : ℤ) : V3 :=
  ⟨linspace origin.x (origin.x + lengths.x) dims.a a, linspace origin.y (origin.y + lengths.y) dims.b b,
   linspace origin.z (origin.z + lengths.z) dims.c c⟩

/-- origins of the blocks, create.py:225-227 -/
noncomputable def blkOrigin (origin lengths : V3) (m : Dims3) (p : Pos) : V3 :=
  ⟨linspace origin.x (origin.x + lengths.x) (m.a + 1) p.i, linspace origin.y (origin.y + lengths.y) (m.b + 1) p.j,
   linspace origin.z (origin.z + lengths.z) (m.c + 1) p.k⟩

/-- the list `lengths` assigned inside the loop, create.py:238-242; it replaces the argument of the same name -/
noncomputable def blkLengths (origin lengths : V3) (m : Dims3) (p : Pos) : V3 :=
  blkOrigin origin lengths m ⟨p.i + 1, p.j + 1, p.k + 1⟩ - blkOrigin origin lengths m p

/-- node `(a, b, c)` of the block at `p` created by multiBlockCube (create.py:229-249) -/
noncomputable def cubeNode (origin lengths : V3) (m dims : Dims3) (p : Pos) (a b c : ℤ) : V3 :=
  cube (blkOrigin origin lengths m p) (blkLengths origin lengths m p) dims a b c

/-- periodic span and axis recorded on a face (create.py:257-273): after the loop variable `lengths` was reassigned, the span is
    that of the block -/
noncomputable def periodicInfo (origin lengths : V3) (m : Dims3) (per : Bool × Bool × Bool) (p : Pos) (f : ℕ) : Option (ℝ × V3) :=
  let t := (cubicConnectivity m per p f).bcType
  if t = "periodicTransLow" ∨ t = "periodicTransHigh" then
    if f = 1 ∨ f = 2 then some ((blkLengths origin lengths m p).x, ⟨1, 0, 0⟩)
    else if f = 3 ∨ f = 4 then some ((blkLengths origin lengths m p).y, ⟨0, 1, 0⟩)
    else if f = 5 ∨ f = 6 then some ((blkLengths origin lengths m p).z, ⟨0, 0, 1⟩)
    else none
  else none

/-! ### specification -/

/-- positions in the grid of blocks -/
def InGrid (m : Dims3) (p : Pos) : Prop := (0 ≤ p.i ∧ p.i < m.a) ∧ (0 ≤ p.j ∧ p.j < m.b) ∧ (0 ≤ p.k ∧ p.k < m.c)

/-- faces lie opposite to each other in pairs -/
def opposite : ℕ → ℕ
  | 1 => 2
  | 2 => 1
  | 3 => 4
  | 4 => 3
  | 5 => 6
  | 6 => 5
  | f => f

/-- the position next to `p` across the face `f`, wrapping around -/
def across (m : Dims3) (p : Pos) : ℕ → Pos
  | 1 => ⟨(p.i - 1) % m.a, p.j, p.k⟩
  | 2 => ⟨(p.i + 1) % m.a, p.j, p.k⟩
  | 3 => ⟨p.i, (p.j - 1) % m.b, p.k⟩
  | 4 => ⟨p.i, (p.j + 1) % m.b, p.k⟩
  | 5 => ⟨p.i, p.j, (p.k - 1) % m.c⟩
  | 6 => ⟨p.i, p.j, (p.k + 1) % m.c⟩
  | _ => p

/-- the face `f` lies on the boundary of the grid of blocks -/
def Outer (m : Dims3) (p : Pos) : ℕ → Prop
  | 1 => p.i = 0
  | 2 => p.i = m.a - 1
  | 3 => p.j = 0
  | 4 => p.j = m.b - 1
  | 5 => p.k = 0
  | 6 => p.k = m.c - 1
  | _ => False

/-- the direction of the face `f` was asked to be periodic -/
def PeriodicDir (per : Bool × Bool × Bool) : ℕ → Bool
  | 1 => per.1
  | 2 => per.1
  | 3 => per.2.1
  | 4 => per.2.1
  | 5 => per.2.2
  | 6 => per.2.2
  | _ => false

/-- type of an outer periodic face: low or high side -/
def periodicName : ℕ → String
  | 1 => "periodicTransLow"
  | 3 => "periodicTransLow"
  | 5 => "periodicTransLow"
  | _ => "periodicTransHigh"

end PG.Grid
