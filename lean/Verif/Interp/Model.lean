import Verif.Base.Vec
import Mathlib.Data.List.Basic
import Mathlib.Data.Real.Basic
import Mathlib.Algebra.BigOperators.Group.List.Basic
import Mathlib.Algebra.Order.BigOperators.Group.List
/-!
Model of the interpolation of solutions between grids: `src/peregrinepy/interpolation/{blocksToBlock,bounds}.py`.

Simplifications. Doubles are reals. The scipy interpolants are arbitrary functions of the source points and values. The point location
in the Delaunay triangulation of the test points is exact: a point is found iff it is a convex combination of them; degenerate test
geometry (an error of Qhull) is not modelled.
-/
namespace PG.Interp
open PG

/-- `np.min`, `np.max` of a list of numbers (an error for an empty one, not modelled here) -/
noncomputable def lmin (l : List ℝ) : ℝ := l.foldr min (l.headD 0)
noncomputable def lmax (l : List ℝ) : ℝ := l.foldr max (l.headD 0)

/-! ### blocksToBlock.py -/

/-- a source block: cell centres and the values of variable `n`, flattened alike -/
structure FromBlk where
  xc : List V3
  q : ℕ → List ℝ

/-- an interpolant: points, values, query (blocksToBlock.py:51-65) -/
abbrev Interpolant := List V3 → List ℝ → V3 → ℝ

/-- values of variable `n` of all source blocks (blocksToBlock.py:47-49) -/
def qvFrom (bs : List FromBlk) (n : ℕ) : List ℝ := bs.flatMap fun b => b.q n

/-- the two `np.where`, blocksToBlock.py:73-75 -/
noncomputable def clip (src : List ℝ) (v : ℝ) : ℝ :=
  let v1 := if v > lmax src then lmax src else v
  if v1 < lmin src then lmin src else v1

/-- the value of variable `n` at a target centre, blocksToBlock.py:42-77; `none` is the error of `np.max` on no data -/
noncomputable def blocksToBlock (interp : Interpolant) (bs : List FromBlk) (n : ℕ) (tgt : List V3) : Option (List ℝ) :=
  if qvFrom bs n = [] then none
  else some (tgt.map fun p => clip (qvFrom bs n) (interp (bs.flatMap FromBlk.xc) (qvFrom bs n) p))

/-! ### bounds.py -/

/-- a source block of the search: number, sizes and nodes -/
structure SBlk where
  num : ℕ
  ni : ℕ
  nj : ℕ
  nk : ℕ
  x : ℕ → ℕ → ℕ → V3

/-- all nodes -/
def SBlk.nodes (b : SBlk) : List V3 :=
  (List.range b.ni).flatMap fun i => (List.range b.nj).flatMap fun j => (List.range b.nk).map fun k => b.x i j k

/-- the test points of ptsInBlkBounds, bounds.py:29-228: the eight corners and, for a direction of more than four nodes, middles of
    edges and faces; index -1 is the last one -/
def cube (b : SBlk) : List V3 :=
  let li := b.ni - 1
  let lj := b.nj - 1
  let lk := b.nk - 1
  let mi := b.ni / 2
  let mj := b.nj / 2
  let mk := b.nk / 2
  [b.x 0 0 0, b.x li 0 0, b.x 0 lj 0, b.x 0 0 lk, b.x li lj 0, b.x li 0 lk, b.x 0 lj lk, b.x li lj lk] ++
  (if 4 < b.ni then
    [b.x mi 0 0, b.x mi lj 0, b.x mi 0 lk, b.x mi lj lk] ++
    (if 4 < b.nj then [b.x mi mj 0, b.x mi mj lk] else []) ++
    (if 4 < b.nk then [b.x mi 0 mk, b.x mi lj mk] else []) else []) ++
  (if 4 < b.nj then
    [b.x 0 mj 0, b.x li mj 0, b.x 0 mj lk, b.x li mj lk] ++
    (if 4 < b.nk then [b.x 0 mj mk, b.x li mj mk] else []) else []) ++
  (if 4 < b.nk then [b.x 0 0 mk, b.x li 0 mk, b.x 0 lj mk, b.x li lj mk] else [])

/-- `find_simplex(p) >= 0` for the triangulation of the points (bounds.py:230-231): `p` is in their convex hull -/
def InHull (l : List V3) (p : V3) : Prop :=
  ∃ w : List ℝ, w.length = l.length ∧ (∀ a ∈ w, 0 ≤ a) ∧ w.sum = 1 ∧
    p.x = (List.zipWith (fun a v => a * v.x) w l).sum ∧ p.y = (List.zipWith (fun a v => a * v.y) w l).sum ∧
    p.z = (List.zipWith (fun a v => a * v.z) w l).sum

open Classical in
/-- is the source block passed over? bounds.py:296-304. The last line of the condition binds to the last test only:
    `a or b or c or d or e or (f and not verboseSearch)`. -/
noncomputable def skip (verbose : Bool) (tgt : List V3) (b : SBlk) : Bool :=
  decide (lmin (b.nodes.map V3.x) > lmax (tgt.map V3.x)) || decide (lmax (b.nodes.map V3.x) < lmin (tgt.map V3.x)) ||
  decide (lmin (b.nodes.map V3.y) > lmax (tgt.map V3.y)) || decide (lmax (b.nodes.map V3.y) < lmin (tgt.map V3.y)) ||
  decide (lmin (b.nodes.map V3.z) > lmax (tgt.map V3.z)) || (decide (lmax (b.nodes.map V3.z) < lmin (tgt.map V3.z)) && !verbose)

open Classical in
/-- the loop over the source blocks for one target block with cell centres `tgt`, bounds.py:292-315; `found` is `ptFound` -/
noncomputable def search (verbose : Bool) (tgt : List V3) : List SBlk → List Bool → List ℕ
  | [], _ => []
  | b :: bs, found =>
    if skip verbose tgt b then search verbose tgt bs found
    else
      let inb := tgt.map fun p => decide (InHull (cube b) p)
      let found' := if true ∈ inb then List.zipWith (fun x y => x || y) found inb else found
      let hit := if true ∈ inb then [b.num] else []
      if verbose = false ∧ false ∉ found' then hit else hit ++ search verbose tgt bs found'

/-- findBounds, bounds.py:236-320 -/
noncomputable def findBounds (verbose : Bool) (mbTo : List (List V3)) (mbFrom : List SBlk) : List (List ℕ) :=
  mbTo.map fun tgt => search verbose tgt mbFrom (tgt.map fun _ => false)

end PG.Interp
