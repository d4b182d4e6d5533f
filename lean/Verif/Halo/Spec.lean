import Verif.Halo.Model
import Verif.Topo.Spec
/-
Specification of a block-to-block connection, independent of slices, buffers and flips.

Interior coordinates: cell (or node) coordinate `c a` along axis `a ∈ {0,1,2}` runs from `0` to `last a` inside the
block; array index = coordinate + ng.  Halo positions have coordinates `-1, -2, …` or `last+1, last+2, …`.
-/
namespace PG.Halo
open PG.Topo

/-- Largest interior coordinate along an axis: cells `n-2`, nodes `n-1`. -/
def last (kind : Kind) (d : Dims) (a : Nat) : Int :=
  let n := match a with | 0 => d.ni | 1 => d.nj | _ => d.nk
  match kind with | .node => n - 1 | _ => n - 2

/-- Index distance between A's outermost and B's outermost position across the shared face: cells are adjacent
    (1), nodes on the face coincide (0). -/
def gap (kind : Kind) : Int := match kind with | .node => 0 | _ => 1

/-- Position `c` (in A's coordinates, possibly beyond A's face `nf`) and position `c'` (in B's coordinates) are the same
    place, where B is glued to face `nf` of A with A's orientation `o`: in the two in-plane axes coordinates agree up to
    reversal; along the normal axis the numbering continues through the shared face. -/
def Glued (kind : Kind) (nf : Nat) (o : Ori) (dA dB : Dims) (c c' : Nat → Int) : Prop :=
  ∀ i, i < 3 →
    let d := o.get i
    let p := axisOf d
    c' p =
      if i = normalAxis nf then
        (if isLow nf then (if reversed d then -gap kind - c i else last kind dB p + gap kind + c i)
         else (if reversed d then last kind dB p - (c i - last kind dA i - gap kind) else c i - last kind dA i - gap kind))
      else (if reversed d then last kind dB p - c i else c i)

/-- How far position `c` is beyond face `nf` of A: 1 for the first halo layer, 2 for the second, ... -/
def depthBehind (kind : Kind) (nf : Nat) (dA : Dims) (c : Nat → Int) : Int :=
  if isLow nf then - c (normalAxis nf) else c (normalAxis nf) - last kind dA (normalAxis nf)

/-- Number of layers exchanged. -/
def layers (kind : Kind) (ng : Int) : Int := match kind with | .ccFirst => 1 | _ => ng

/-- In-plane axes of a face position are inside the array (interior or halo). -/
def inPlaneArray (kind : Kind) (nf : Nat) (ng : Int) (dA : Dims) (c : Nat → Int) : Prop :=
  ∀ i, i < 3 → i ≠ normalAxis nf → -ng ≤ c i ∧ c i ≤ last kind dA i + ng

/-- In-plane axes of a face position are interior. -/
def inPlaneInterior (kind : Kind) (nf : Nat) (dA : Dims) (c : Nat → Int) : Prop :=
  ∀ i, i < 3 → i ≠ normalAxis nf → 0 ≤ c i ∧ c i ≤ last kind dA i

/-- Array lookup at interior coordinates. -/
def at' {α} (ng : Int) (v : Arr3 α) (c : Nat → Int) : α := v (c 0 + ng) (c 1 + ng) (c 2 + ng)

/-- The two blocks have the same number of points along the shared in-plane directions. -/
def SizesMatch (nf : Nat) (o : Ori) (dA dB : Dims) : Prop :=
  ∀ i, i < 3 → i ≠ normalAxis nf → last .node dA i = last .node dB (axisOf (o.get i))

end PG.Halo

namespace PG.Halo
open PG.Topo

/-- Block `b` is owned by rank `r`. -/
def Owns (world : List (List Block)) (r : Nat) (b : Block) : Prop := ∃ mb, world[r]? = some mb ∧ b ∈ mb

/-- A legal decomposed multi-block topology: block numbers identify blocks, face numbers identify faces, blocks have
    at least one cell, and every connection is declared reciprocally, with matching sizes, on the rank recorded in
    `commRank`. -/
structure WellConnected (world : List (List Block)) : Prop where
  uniq : ∀ r r' b b', Owns world r b → Owns world r' b' → b.nblki = b'.nblki → r = r' ∧ b = b'
  nodup : ∀ mb ∈ world, mb.Nodup
  nface_range : ∀ r b, Owns world r b → ∀ f ∈ b.faces, 1 ≤ f.nface ∧ f.nface ≤ 6
  nface_distinct : ∀ r b, Owns world r b → b.faces.Pairwise (fun f g => f.nface ≠ g.nface)
  cells : ∀ r b, Owns world r b → 2 ≤ b.dims.ni ∧ 2 ≤ b.dims.nj ∧ 2 ≤ b.dims.nk
  conn : ∀ r b, Owns world r b → ∀ f ∈ b.faces, ∀ nb, f.neighbor = some nb →
    f.ori.Legal ∧ ∃ b', Owns world f.commRank b' ∧ b'.nblki = nb ∧ SizesMatch f.nface f.ori b.dims b'.dims ∧
      ∃ f' ∈ b'.faces, f'.neighbor = some b.nblki ∧ neighborNface f.nface f.ori = some f'.nface ∧
        neighborOrientation f.ori = some f'.ori

/-- Position `c` lies in one of the halo layers behind face `nf`. -/
def Behind (kind : Kind) (nf : Nat) (ng : Nat) (d : Dims) (c : Nat → Int) : Prop :=
  1 ≤ depthBehind kind nf d c ∧ depthBehind kind nf d c ≤ layers kind ng

/-- Position `c` is an interior position of the block. -/
def Interior (kind : Kind) (d : Dims) (c : Nat → Int) : Prop := ∀ i, i < 3 → 0 ≤ c i ∧ c i ≤ last kind d i

end PG.Halo
