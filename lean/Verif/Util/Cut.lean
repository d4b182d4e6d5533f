import Verif.Util.Verify
import Mathlib.Analysis.Real.Sqrt
/-!
Model of `utilities/cutGrid.py` with a list of cut operations: cutPath, cutBlock, findInteriorNeighbor, performCutOperations and the
final check.

Simplifications. Doubles are reals and `int(a / b)` of positive integers is their integer quotient. Block numbers are distinct (they are
positions), so `getBlock` finds the block of that number and an update in place changes that one. A neighbour number that is not that of
a block, a missing orientation or a digit that is none of 1..6 is an error, `none`. `incompleteBlocks` and `foundFaces`, two lists of equal
length, are one list of pairs. Copying the periodic axis to a new face recomputes its rotation matrices from the normalised axis; they are
copied here, which is the same for unit axes.
-/
namespace PG.Util
open PG PG.Topo

/-- axes "i", "j", "k" as 0, 1, 2; the faces at the high and low end of an axis (cutGrid.py:164-172) -/
def hiFace (a : ℕ) : ℕ := 2 * a + 2
def loFace (a : ℕ) : ℕ := 2 * a + 1

/-- number of nodes along an axis, `getattr(blk, f"n{axis}")` -/
def dim (b : VBlk) : ℕ → ℕ
  | 0 => b.ni | 1 => b.nj | _ => b.nk

/-! ### cutBlock -/

/-- `array[0 : cutIndex + 1]` along the axis, cutGrid.py:230-244 -/
def keepLow (b : VBlk) (a idx : ℕ) : VBlk :=
  match a with
  | 0 => { b with ni := idx + 1 }
  | 1 => { b with nj := idx + 1 }
  | _ => { b with nk := idx + 1 }

/-- `array[cutIndex::]` along the axis, cutGrid.py:230-244 -/
def keepHigh (b : VBlk) (a idx : ℕ) : VBlk :=
  match a with
  | 0 => { b with ni := b.ni - idx, x := fun i j k => b.x (i + idx) j k }
  | 1 => { b with nj := b.nj - idx, x := fun i j k => b.x i (j + idx) k }
  | _ => { b with nk := b.nk - idx, x := fun i j k => b.x i j (k + idx) }

/-- does the type start with "periodic"? -/
def isPeriodic (t : String) : Bool := t.toList.take 8 == "periodic".toList

/-- type, family, orientation and, for a periodic face, the periodic data copied to a face of a new block (topologyFace.py:7-17 gives the
    defaults), with the given neighbour; cutGrid.py:178-184 and 213-222 -/
def copyInfo (f : VFace) (nb : Option ℕ) : VFace :=
  if isPeriodic f.bcType then { f with neighbor := nb }
  else ⟨f.bcType, f.bcFam, nb, f.ori, 0, 0, id, id⟩

/-- faces of the new block, cutGrid.py:174-184, 195-227 -/
def newFaces (old : VBlk) (a : ℕ) (nf : ℕ) : VFace :=
  if nf = hiFace a then copyInfo (old.face nf) (old.face nf).neighbor
  else if nf = loFace a then ⟨"b0", none, some old.num, some ⟨1, 2, 3⟩, 0, 0, id, id⟩
  else copyInfo (old.face nf) none

/-- change one face of a block -/
def modFace (b : VBlk) (nf : ℕ) (g : VFace → VFace) : VBlk := { b with face := fun m => if m = nf then g (b.face m) else b.face m }

/-- change the block of a number -/
def modBlk (mb : List VBlk) (num : ℕ) (g : VBlk → VBlk) : List VBlk := mb.map fun b => if b.num = num then g b else b

/-- number of an appended block, topology.py:39-42 -/
def nextNum (mb : List VBlk) : ℕ := (mb.map VBlk.num).foldr max 0 + 1

/-- incompleteBlocks with their foundFaces -/
abbrev Inc := List (ℕ × (ℕ → Bool))

/-- the flags of both blocks after cutBlock, cutGrid.py:159-162, 186-187, 196-197, 224-227 -/
def cutFlags (old : VBlk) (a nf : ℕ) : Bool := nf == hiFace a || nf == loFace a || (old.face nf).neighbor.isNone

/-- the neighbour at the high end gets the new block as neighbour, cutGrid.py:188-193 -/
def relink (mb : List VBlk) (old : VBlk) (a : ℕ) : Option (List VBlk) :=
  match (old.face (hiFace a)).neighbor with
  | none => some mb
  | some m => do
    let _ ← getBlock mb m
    let o ← (old.face (hiFace a)).ori
    let nf ← neighborNface (hiFace a) o
    some (modBlk mb m fun b => modFace b nf fun f => { f with neighbor := some (nextNum mb) })

/-- what is left of the old block: its high face now faces the new block, cutGrid.py:198-207, 230-244 -/
def leftBlk (a idx new : ℕ) (b : VBlk) : VBlk :=
  keepLow (modFace b (hiFace a) fun f => { f with neighbor := some new, ori := some ⟨1, 2, 3⟩, bcType := "b0", bcFam := none }) a idx

/-- the new block, cutGrid.py:157-158, 174-244 -/
def rightBlk (a idx new : ℕ) (old : VBlk) : VBlk := { keepHigh old a idx with num := new, face := newFaces old a }

/-- cutBlock, cutGrid.py:149-244 -/
def cutBlock (mb : List VBlk) (num a idx : ℕ) (inc : Inc) : Option (List VBlk × Inc) := do
  let old ← getBlock mb num
  if idx + 1 < dim old a then do
    let mb1 ← relink mb old a
    some (modBlk mb1 num (leftBlk a idx (nextNum mb)) ++ [rightBlk a idx (nextNum mb) old],
      inc ++ [(num, cutFlags old a), (nextNum mb, cutFlags old a)])
  else none

/-! ### cutPath -/

/-- an entry of blocksToCut: block, axis, switch -/
abbrev Entry := ℕ × ℕ × Bool

/-- the four faces along the axis, cutGrid.py:260-265 -/
def splitFaces : ℕ → List ℕ
  | 0 => [3, 4, 5, 6]
  | 1 => [1, 2, 5, 6]
  | _ => [1, 2, 3, 4]

/-- one split face, cutGrid.py:267-281: the new `blocksToCut`, `blocksToCheck` -/
def pathFace (b : VBlk) (a : ℕ) (sw : Bool) (st : List Entry × List Entry) (nf : ℕ) : Option (List Entry × List Entry) :=
  match (b.face nf).neighbor with
  | none => some st
  | some m =>
    if m ∈ st.1.map Prod.fst then some st
    else do
      let o ← (b.face nf).ori
      let d := o.get a
      let sw' := if d ∈ [4, 5, 6] then !sw else sw
      let a' ← dirToOrientIndex d
      some (st.1 ++ [(m, a', sw')], st.2 ++ [(m, a', sw')])

/-- the while loop, cutGrid.py:255-283, `fuel` times at most -/
def pathLoop (mb : List VBlk) : ℕ → List Entry × List Entry → Option (List Entry)
  | _, (cut, []) => some cut
  | 0, (_, _ :: _) => none
  | fuel + 1, (cut, (num, a, sw) :: rest) => do
    let b ← getBlock mb num
    let st ← (splitFaces a).foldlM (pathFace b a sw) (cut, rest)
    pathLoop mb fuel st

/-- cutPath, cutGrid.py:247-285. New entries go to the end of `blocksToCheck`, which is popped at the front, so removing the head first
    makes no difference. The fuel is the number of blocks: see `cutPath_terminates`. -/
def cutPath (mb : List VBlk) (num a : ℕ) : Option (List Entry) := pathLoop mb mb.length ([(num, a, false)], [(num, a, false)])

/-! ### findInteriorNeighbor -/

/-- mean of the corners of a face, cutGrid.py:29-58, 85-87 -/
noncomputable def faceMean (b : VBlk) (nf : ℕ) : V3 :=
  let f := extract b nf
  V3.smul (1 / 4) (f.a 0 0 + f.a 0 (f.n - 1) + f.a (f.m - 1) 0 + f.a (f.m - 1) (f.n - 1))

/-- distance of two points, cutGrid.py:126-130 -/
noncomputable def dist3 (p q : V3) : ℝ := Real.sqrt ((p.x - q.x) ^ 2 + (p.y - q.y) ^ 2 + (p.z - q.z) ^ 2)

/-- is the face found? flags of the first entry of that number (each block has one) -/
def isFound (inc : Inc) (num nf : ℕ) : Bool :=
  match inc.find? fun e => e.1 = num with
  | some e => e.2 nf
  | none => false

/-- foundFaces[index][nface - 1] = True -/
def setFound (inc : Inc) (num nf : ℕ) : Inc := inc.map fun e => if e.1 = num then (e.1, fun m => if m = nf then true else e.2 m) else e

open Classical in
/-- one test face, cutGrid.py:110-135 -/
noncomputable def tryMatch (num nf : ℕ) (st : List VBlk × Inc) (t : ℕ × ℕ) : List VBlk × Inc :=
  if isFound st.2 t.1 t.2 then st
  else if num = t.1 ∧ nf = t.2 then st
  else
    match getBlock st.1 num, getBlock st.1 t.1 with
    | some b, some b' =>
      if dist3 (shift (b.face nf) (faceMean b nf)) (faceMean b' t.2) < 1 / 10 ^ 9 then
        (modBlk (modBlk st.1 num fun b => modFace b nf fun f => { f with neighbor := some t.1 }) t.1 fun b =>
          modFace b t.2 fun f => { f with neighbor := some num }, setFound (setFound st.2 num nf) t.1 t.2)
      else st
    | _, _ => st

/-- pairs (block, face) of the incomplete blocks -/
def allFaces (inc : Inc) : List (ℕ × ℕ) := inc.flatMap fun e => [1, 2, 3, 4, 5, 6].map fun nf => (e.1, nf)

/-- one face, cutGrid.py:79-135 -/
noncomputable def findFace (st : List VBlk × Inc) (t : ℕ × ℕ) : List VBlk × Inc :=
  match getBlock st.1 t.1 with
  | none => st
  | some b =>
    if (b.face t.2).bcType ≠ "b0" ∧ isPeriodic (b.face t.2).bcType = false then st
    else if isFound st.2 t.1 t.2 then st
    else (allFaces st.2).foldl (tryMatch t.1 t.2) st

/-- findInteriorNeighbor and the assertion that all faces are found, cutGrid.py:61-146, 309-311 -/
noncomputable def findInteriorNeighbor (mb : List VBlk) (inc : Inc) : Option (List VBlk) :=
  let st := (allFaces inc).foldl findFace (mb, inc)
  if (allFaces st.2).all fun t => isFound st.2 t.1 t.2 then some st.1 else none

/-! ### performCutOperations -/

/-- one cut of an operation, cutGrid.py:295-311: `og` is the original number of nodes, `cut` counts the cuts -/
noncomputable def oneCut (num a nCuts og cut : ℕ) (mb : List VBlk) : Option (List VBlk) := do
  let path ← cutPath mb num a
  let b ← getBlock mb num
  let cutNx := dim b a
  let cutIndex := og * (nCuts - cut) / (nCuts + 1)
  let switchCutIndex := cutNx - cutIndex - 1
  let st ← path.foldlM (fun (st : List VBlk × Inc) e => do
    let b ← getBlock st.1 e.1
    if dim b e.2.1 ≠ cutNx then none
    else cutBlock st.1 e.1 e.2.1 (if e.2.2 then switchCutIndex else cutIndex) st.2) (mb, [])
  findInteriorNeighbor st.1 st.2

/-- an operation: block, axis, number of cuts; cutGrid.py:290-311 -/
noncomputable def cutOp (mb : List VBlk) (op : ℕ × ℕ × ℕ) : Option (List VBlk) := do
  let b ← getBlock mb op.1
  (List.range op.2.2).foldlM (fun mb cut => oneCut op.1 op.2.1 op.2.2 (dim b op.2.1) cut mb) mb

/-- performCutOperations, cutGrid.py:288-311 -/
noncomputable def performCutOperations (mb : List VBlk) (ops : List (ℕ × ℕ × ℕ)) : Option (List VBlk) := ops.foldlM cutOp mb

open Classical in
/-- the utility with cut operations, cutGrid.py:389-413 and 462-481: the grid that is written -/
noncomputable def cutGrid (mb : List VBlk) (ops : List (ℕ × ℕ × ℕ)) : Option (List VBlk) := do
  let out ← performCutOperations mb ops
  if verify out = some true then some out else none

end PG.Util
