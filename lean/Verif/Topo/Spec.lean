import Verif.Topo.Model
/-
Independent reading of what an orientation string means, used by all topology theorems.

A digit `d` in position `i` of the orientation of a face of block A towards block B says:
walking along A's index axis `i` one walks along B's index axis `(d-1) mod 3`, in the same direction if `d ≤ 3`
and in the opposite direction if `d ≥ 4`.
-/
namespace PG.Topo

/-- The axis of the neighbour a digit points along. -/
def axisOf (d : Nat) : Nat := (d - 1) % 3
/-- Does the digit reverse the direction? -/
def reversed (d : Nat) : Bool := decide (4 ≤ d)

/-- A legal orientation: digits 1..6 that use each of the neighbour's axes once. These are the 48 signed
    permutations. -/
def Ori.Legal (o : Ori) : Prop :=
  (1 ≤ o.d0 ∧ o.d0 ≤ 6) ∧ (1 ≤ o.d1 ∧ o.d1 ≤ 6) ∧ (1 ≤ o.d2 ∧ o.d2 ≤ 6) ∧
  axisOf o.d0 ≠ axisOf o.d1 ∧ axisOf o.d0 ≠ axisOf o.d2 ∧ axisOf o.d1 ≠ axisOf o.d2

instance (o : Ori) : Decidable o.Legal := by unfold Ori.Legal; infer_instance

/-- Axis normal to a face number, and whether the face is at the low end of that axis. Faces 1,3,5 are the low
    faces of axes 0,1,2 and 2,4,6 the high ones. -/
def normalAxis (nface : Nat) : Nat := (nface - 1) / 2
def isLow (nface : Nat) : Bool := nface % 2 == 1

end PG.Topo
