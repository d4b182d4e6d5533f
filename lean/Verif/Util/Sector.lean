import Verif.Topo.Props
import Verif.BC.Model
import Mathlib.Data.Real.Basic
/-!
Model of `utilities/copyRotateSectorGrid.py`: a sector grid is copied and rotated into several sectors.

Simplifications. Doubles are reals. The three passes write every face they touch once, so each pass is given face by face; an exception
(`None + int`, "What is this face?", `nseg <= 1`) is `none`. Blocks are numbered by their position, as `readGrid` leaves them.
Faces are numbered 1 to 6.
-/
namespace PG.Util
open PG PG.Topo

/-- connectivity of a face -/
structure CFace where
  bcType : String
  bcFam : Option String
  ori : Option Ori
  nb : Option ℕ
deriving DecidableEq

/-- a face of a new grid, topologyFace.py:7-17 -/
def freshFace : CFace := ⟨"adiabaticNoSlipWall", none, none, none⟩

/-- block `j` is in `lowside` (`highside`), copyRotateSectorGrid.py:91-115: it has a face of that type -/
def inLow (frm : ℕ → ℕ → CFace) (j : ℕ) : Bool := [1, 2, 3, 4, 5, 6].any fun nf => (frm j nf).bcType == "periodicRotLow"
def inHigh (frm : ℕ → ℕ → CFace) (j : ℕ) : Bool := [1, 2, 3, 4, 5, 6].any fun nf => (frm j nf).bcType == "periodicRotHigh"

/-- connectivity of a face of a copy, pass `i` of the loop, copyRotateSectorGrid.py:166-203 -/
def copyFace (nblks nseg i : ℕ) (lo hi : Bool) (f : CFace) : Option CFace :=
  match f.nb with
  | none => some ⟨f.bcType, f.bcFam, none, none⟩
  | some n =>
    if f.bcType.toList.take 8 = "periodic".toList then
      if lo then some ⟨"b0", none, f.ori, some (n + nblks * i)⟩
      else if hi then
        if i = nseg - 2 then some ⟨"periodicRotHigh", f.bcFam, f.ori, some n⟩
        else some ⟨"b0", none, f.ori, some (n + nblks * (i + 2))⟩
      else some { freshFace with bcFam := f.bcFam, ori := f.ori }
    else if f.bcType = "b0" then some ⟨"b0", none, f.ori, some (n + nblks * (i + 1))⟩
    else none

/-- the last pass on a face of the original sector, copyRotateSectorGrid.py:213-235 -/
def finalOrig (nblks nseg : ℕ) (is360 lo hi : Bool) (f : CFace) : Option CFace :=
  if lo then
    if f.bcType = "periodicRotLow" then do
      let n ← f.nb
      let m := n + nblks * (nseg - 1)
      if is360 then some ⟨"b0", none, f.ori, some m⟩ else some ⟨f.bcType, f.bcFam, f.ori, some m⟩
    else some f
  else if hi then
    if f.bcType = "periodicRotHigh" then do
      let n ← f.nb
      some ⟨"b0", none, f.ori, some (n + nblks)⟩
    else some f
  else some f

/-- the last pass on a face `g` of the last sector, made from face `f`, copyRotateSectorGrid.py:236-243 -/
def finalLast (is360 lo hi : Bool) (f g : CFace) : CFace :=
  if lo then g
  else if hi then
    if f.bcType = "periodicRotHigh" then (if is360 then { g with bcType := "b0", bcFam := none } else g) else g
  else g

/-- connectivity of face `nf` of block `b` of the new grid -/
def sector (frm : ℕ → ℕ → CFace) (nblks nseg : ℕ) (is360 : Bool) (b nf : ℕ) : Option CFace :=
  if nseg ≤ 1 then none
  else
    let s := b / nblks
    let j := b % nblks
    let f := frm j nf
    if s = 0 then finalOrig nblks nseg is360 (inLow frm j) (inHigh frm j) f
    else do
      let g ← copyFace nblks nseg (s - 1) (inLow frm j) (inHigh frm j) f
      some (if s = nseg - 1 then finalLast is360 (inLow frm j) (inHigh frm j) f g else g)

/-- a node of block `b` of the new grid, copyRotateSectorGrid.py:95-98, 117-164: `x j c` is node `c` of block `j` of the sector, the
    angle in degrees and the axis as passed -/
noncomputable def sectorNode {C : Type} (x : ℕ → C → V3) (nblks : ℕ) (axis : V3) (sectorAngle : ℝ) (b : ℕ) (c : C) : V3 :=
  let s := b / nblks
  let j := b % nblks
  if s = 0 then x j c
  else
    let angle := sectorAngle * s * Real.pi / 180
    BC.rot (BC.rotMat axis (Real.cos angle) (Real.sin angle)) (x j c)

end PG.Util
