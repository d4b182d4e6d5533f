import Verif.Whole.Main
import Verif.Time.Forget
/-!
C109: stopping and resuming. What a restart file set holds, what the solver does with it when it starts again, and what the
claim needs of boundary conditions and equation of state.
-/
noncomputable section
namespace PG.Whole
open PG.Topo PG.Halo PG.Time

variable {S : Sig}

/-- A restart: primitives of the interior cells, iteration number and time (parallelWriter.py:158-249; C99, C108 model the
    files), and for dual time stepping the older level (writeDualTimeQnm1.py:4-14). `none`: entry not in the file. -/
structure Saved where
  q : Entry → Option ℝ
  qnm1 : Entry → Option ℝ
  nrt : ℕ
  tme : ℝ

/-- writing it (parallelWriter.py:158-249: interior slice; writeDualTimeQnm1.py:8-14) -/
def save (e : Env Entry (Aux S)) (s : St Entry (Aux S)) : Saved :=
  ⟨fun i => if e.inner i then some (s.core.q i) else none, qnm1File e s, s.nrt, s.tme⟩

/-- readRestart (readRestart.py:38-93) into a solver `r` that has just been created: interior primitives and the two clocks. The
    halos keep whatever the new solver holds there (readRestart.py:77-83 fills them with the nearest interior value), `titme` is
    not set. -/
def load (f : Saved) (r : St Entry (Aux S)) : St Entry (Aux S) :=
  { r with core := { r.core with q := fun i => (f.q i).getD (r.core.q i) }, nrt := f.nrt, tme := f.tme }

/-- starting from a restart (bootstrapCase.py:183-194): equation of state from primitives on whole arrays, consistify(mb),
    initializeDualTime -/
def resume (K : Kernels S) (I : Inp S) (ng : Nat) (W : List (List Block)) (f : Saved) (r : St Entry (Aux S)) : St Entry (Aux S) :=
  initDualTime (some f.qnm1) (doConsistify (env K I ng W)
    { load f r with core := setCells (load f r).core (perBlock W (cell (load f r).core) fun b p => K.eosP (cell (load f r).core b.nblki p)) })

/-- the boundary conditions of the Euler terms do not depend on time (all but the splined inlet) -/
def SteadyEuler (ng : Nat) (I : Inp S) : Prop :=
  ∀ n nf t t' p l k, -(ng : Int) ≤ k → k < 0 → I.euler n nf t p l k = I.euler n nf t' p l k

/-- the Euler boundary conditions of faces without neighbour compute every halo cell from interior cells (and not from what the
    halo held before) -/
def FreshEuler (ng : Nat) (W : List (List Block)) (I : Inp S) : Prop :=
  ∀ r b, Owns W r b → ∀ f ∈ b.faces, f.neighbor = none → ∀ t p l l' k, -(ng : Int) ≤ k → k < 0 →
    (∀ u, 0 ≤ u → u < (ng : Int) → l u = l' u) → I.euler b.nblki f.nface t p l k = I.euler b.nblki f.nface t p l' k

/-- in every interior cell, converting the primitives to conserved variables and back gives the cell back -/
def Trips (K : Kernels S) (W : List (List Block)) (s : State S) : Prop :=
  ∀ r b, Owns W r b → ∀ p, InBox 0 b.dims p → K.eosC (K.eosP (cell s b.nblki p)) = cell s b.nblki p

/-- a legal case: connections, thickness of blocks, six faces per block -/
structure Legal (ng : Nat) (W : List (List Block)) : Prop where
  conn : WellConnected W
  thick : Thick ng W
  six : ∀ r b, Owns W r b → ∀ nf, 1 ≤ nf → nf ≤ 6 → ∃ f ∈ b.faces, f.nface = nf

/-- the same blocks, distributed over ranks in any way -/
def Redistributed (W' W : List (List Block)) : Prop := SameBlocks W' W ∧ SameBlocks W W'

/-- one launch of the program after the first: the distribution of the blocks it runs on, the freshly created solver, and the
    steps it does before it writes a restart and stops -/
structure Leg (S : Sig) where
  world : List (List Block)
  new : St Entry (Aux S)
  dts : List ℝ

/-- one launch: read what the state `s` of the previous launch (on `W`) saved, and run -/
def launch (K : Kernels S) (I : Inp S) (ng : Nat) (J : Integrator) (W : List (List Block)) (s : St Entry (Aux S)) (g : Leg S) :
    St Entry (Aux S) :=
  run (env K I ng g.world) J g.dts (resume K I ng g.world (save (env K I ng W) s) g.new)

/-- a sequence of launches, each reading the restart of the one before; the result is the last distribution and state -/
def launches (K : Kernels S) (I : Inp S) (ng : Nat) (J : Integrator) :
    List (List Block) → St Entry (Aux S) → List (Leg S) → List (List Block) × St Entry (Aux S)
  | W, s, [] => (W, s)
  | W, s, g :: gs => launches K I ng J g.world (launch K I ng J W s g) gs

end PG.Whole
