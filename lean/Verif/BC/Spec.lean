import Verif.BC.Model
/-!
Specification vocabulary for boundary conditions: where halo layers and interior layers are, what a wall, a stored cell and
a stagnation state are.
-/
noncomputable section
namespace PG.BC
open PG.Thermo

/-- index of halo layer `g` next to face `f`, counted outward from the block (`g = 0` touches the block) -/
def haloLayer (dm : Dims) (f : Face) (g : ℕ) : ℤ := if f.low then (dm.ng : ℤ) - 1 - g else dm.n f.dir + dm.ng - 1 + g

/-- index of interior layer `g` next to face `f`, counted inward (`g = 0` touches the face) -/
def interiorLayer (dm : Dims) (f : Face) (g : ℕ) : ℤ := if f.low then (dm.ng : ℤ) + g else dm.n f.dir + dm.ng - 2 - g

/-- a stored cell -/
def InArr (dm : Dims) (c : Ix) : Prop := ∀ t, 0 ≤ c t ∧ c t < dm.ext t

/-- an interior cell -/
def Interior (dm : Dims) (c : Ix) : Prop := ∀ t, (dm.ng : ℤ) ≤ c t ∧ c t < dm.n t + dm.ng - 1

/-- the cell of a block next to face `f` at the tangential position of `c`, in interior layer `g` -/
def inner (dm : Dims) (f : Face) (g : ℕ) (c : Ix) : Ix := Function.update c f.dir (interiorLayer dm f g)

/-- the six wall conditions -/
def IsWall : Kind → Prop
  | .adiabaticNoSlipWall | .adiabaticSlipWall | .adiabaticMovingWall | .isoTNoSlipWall | .isoTSlipWall
  | .isoTMovingWall => True
  | _ => False

/-- velocity of a cell -/
def vel (c : Cell) : V3 := ⟨c.q.u, c.q.v, c.q.w⟩

/-- an equation of state leaves pressure, velocity and temperature alone when called with "prims" -/
def KeepsPrims (eos : Cell → Cell) : Prop :=
  ∀ c, (eos c).q.p = c.q.p ∧ (eos c).q.u = c.q.u ∧ (eos c).q.v = c.q.v ∧ (eos c).q.w = c.q.w ∧ (eos c).q.T = c.q.T

/-- unit vector -/
def Unit3 (n : V3) : Prop := V3.dot n n = 1

/-- outward unit normal of face `f` from the stored one (stored normals point in the direction of increasing index) -/
def outward (f : Face) (n : V3) : V3 := if f.low then -n else n

end PG.BC
