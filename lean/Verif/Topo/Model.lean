/-
Model of block-face topology:
  /repo/src/peregrinepy/multiBlock/topologyFace.py
-/
namespace PG.Topo

/-- Orientation string of a face: three decimal digits, kept as numbers.
    Models `topologyFace.orientation` (topologyFace.py:89-98) after the `int(orientation[i])` conversions of
    topologyFace.py:126 and 142.  Simplification: strings that are not three digits are not represented
    (in the code they raise at `int(...)` / indexing). -/
structure Ori where
  d0 : Nat
  d1 : Nat
  d2 : Nat
deriving DecidableEq, Repr

/-- `orientation[i]` for `i = 0,1,2` (string indexing, topologyFace.py:126,142). -/
def Ori.get (o : Ori) : Nat → Nat
  | 0 => o.d0
  | 1 => o.d1
  | _ => o.d2

/-- `faceToOrientIndexMapping = {1: 0, 2: 0, 3: 1, 4: 1, 5: 2, 6: 2}` (topologyFace.py:118; the same table is in
    solverFace.py:324).  Other keys raise `KeyError`, here `none`. -/
def faceToOrientIndex : Nat → Option Nat
  | 1 => some 0 | 2 => some 0 | 3 => some 1 | 4 => some 1 | 5 => some 2 | 6 => some 2
  | _ => none

/-- `orientToSmallFaceMapping` (topologyFace.py:121). -/
def orientToSmallFace : Nat → Option Nat
  | 1 => some 2 | 2 => some 4 | 3 => some 6 | 4 => some 1 | 5 => some 3 | 6 => some 5
  | _ => none

/-- `orientToLargeFaceMapping` (topologyFace.py:124). -/
def orientToLargeFace : Nat → Option Nat
  | 1 => some 1 | 2 => some 3 | 3 => some 5 | 4 => some 2 | 5 => some 4 | 6 => some 6
  | _ => none

/-- `topologyFace.neighborNface` (topologyFace.py:110-133). `none` is the `KeyError`. -/
def neighborNface (nface : Nat) (o : Ori) : Option Nat := do
  let ix ← faceToOrientIndex nface
  let direction := o.get ix
  if nface = 1 ∨ nface = 3 ∨ nface = 5 then orientToSmallFace direction
  else orientToLargeFace direction

/-- `dirToOrientIndexMapping = {1: 0, 2: 1, 3: 2, 4: 0, 5: 1, 6: 2}` (topologyFace.py:139). -/
def dirToOrientIndex : Nat → Option Nat
  | 1 => some 0 | 2 => some 1 | 3 => some 2 | 4 => some 0 | 5 => some 1 | 6 => some 2
  | _ => none

/-- One pass of the loop body topologyFace.py:141-150: the assignment it makes to the list
    `neighborOrientation`, as a function update. -/
def neighborOrientationStep (o : Ori) (i : Nat) (acc : Nat → Option Nat) : Option (Nat → Option Nat) := do
  let n := o.get i
  let indx ← dirToOrientIndex n
  if indx = i then
    some (fun k => if k = indx then some n else acc k)
  else if n = 1 ∨ n = 2 ∨ n = 3 then
    some (fun k => if k = indx then some (i + 1) else acc k)
  else
    some (fun k => if k = indx then some (i + 4) else acc k)

/-- `topologyFace.neighborOrientation` (topologyFace.py:135-156); `none` is a `KeyError` or the failed
    assertion `None not in neighborOrientation`. -/
def neighborOrientation (o : Ori) : Option Ori := do
  let a0 ← neighborOrientationStep o 0 (fun _ => none)
  let a1 ← neighborOrientationStep o 1 a0
  let a2 ← neighborOrientationStep o 2 a1
  let x ← a2 0
  let y ← a2 1
  let z ← a2 2
  some ⟨x, y, z⟩

end PG.Topo
