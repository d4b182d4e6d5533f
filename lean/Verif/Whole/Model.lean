import Verif.Halo.Rounds
import Verif.Time.Model
/-!
Model of one complete multi-block solver: `consistify` (/repo/src/peregrinepy/consistify.py) and `RHS`
(/repo/src/peregrinepy/RHS.py) over all blocks of all ranks, driven by the integrators of Time/Model.lean and exchanging
halos with `communicate` of Halo/Model.lean.

Positions are cell coordinates: interior cells have coordinates `0 .. n-2` along each axis (array index = coordinate + ng),
halo cells are outside. The compute kernels (equation of state, fluxes, ...) are parameters that see exactly the cells which
the kernels in /repo/src/compute read: the line through the face for fluxes, the cross through the cell for sensor and
gradients, the cell itself for equation of state, transport, chemistry. Conserved and primitive variables are real vectors;
everything else a kernel may store per cell is of arbitrary type.
-/
noncomputable section
namespace PG.Whole
open PG.Topo PG.Halo PG.Time

/-- cell coordinates -/
abbrev Pos := Fin 3 → Int
/-- component vector -/
abbrev Vec := Nat → ℝ

def vec (x y z : Int) : Pos := fun a => if a = 0 then x else if a = 1 then y else z
/-- the coordinates as the halo model writes them -/
def nat (p : Pos) : Nat → Int := fun a => if h : a < 3 then p ⟨a, h⟩ else 0
/-- a field as an array: index = coordinate + ng -/
def toArr {α : Type} (ng : Int) (f : Pos → α) : Arr3 α := fun i j k => f (vec (i - ng) (j - ng) (k - ng))

/-- collective `communicate` of one variable (communicate.py:12-83, Halo/Model.lean) -/
def exch {α : Type} (kind : Kind) (ng : Nat) (world : List (List Block)) (data : Nat → Pos → α) (n : Nat) (p : Pos) : α :=
  at' ng (round kind ng world (fun m => toArr ng (data m)) n) (nat p)

/-- last interior cell along axis `a` -/
def top (d : Dims) (a : Fin 3) : Int := last .ccAll d a

/-- cells at most `m` layers outside the block along every axis: loop ranges (`m = 0`: range_cc from `ng` to `n+ng-2`;
    `m = 1`: from `ng-1` to `n+ng-1`) -/
def InBox (m : Int) (d : Dims) (p : Pos) : Prop := ∀ a, -m ≤ p a ∧ p a ≤ top d a + m

instance (m : Int) (d : Dims) (p : Pos) : Decidable (InBox m d p) := by unfold InBox; infer_instance

/-- move along an axis -/
def shift (p : Pos) (d : Fin 3) (t : Int) : Pos := fun a => if a = d then p a + t else p a

/-- axis normal to a face -/
def axis (nf : Nat) : Fin 3 := ⟨normalAxis nf % 3, Nat.mod_lt _ (by omega)⟩
/-- distance from face `nf` into the block: 0 first interior cell, -1 first halo cell (getFaceSliceIdxs, rangeMap.cpp:117-158) -/
def dep (nf : Nat) (d : Dims) (p : Pos) : Int := if isLow nf then p (axis nf) else top d (axis nf) - p (axis nf)
/-- the cell on the same normal line at distance `t` -/
def along (nf : Nat) (d : Dims) (p : Pos) (t : Int) : Pos := fun a =>
  if a = axis nf then (if isLow nf then t else top d (axis nf) - t) else p a

/-- the types of what the kernels store per cell besides Q and q: derived thermodynamics `qh`, transport `qt`, sensor `phi`,
    gradients, and grid metrics (of the cell and of its three low faces) -/
structure Sig where
  H : Type
  T : Type
  P : Type
  D : Type
  G : Type

/-- thermodynamic state of a cell: arrays Q, q, qh -/
structure Cl (S : Sig) where
  Q : Vec
  q : Vec
  h : S.H

/-- The kernels a case selects (multiBlock/__init__.py:23-200). -/
structure Kernels (S : Sig) where
  /-- eos(..., "cons") and eos(..., "prims"), pointwise (thermo/*.cpp) -/
  eosC : Cl S → Cl S
  eosP : Cl S → Cl S
  /-- transport/*.cpp, pointwise (for the models for which that is so, see C77) -/
  trans : Cl S → S.T
  /-- utils/viscousSponge.cpp -/
  sponge : S.G → S.T → S.T
  /-- switches/*.cpp; `none`: no switch configured, and phi is not communicated -/
  sw : Option ((Fin 3 → Int → Cl S × S.G) → S.P)
  /-- advFlux/*.cpp in direction `d` from the line of cells through the face: 0 is the cell behind the face, -1 the one
      before it -/
  flux1 : Fin 3 → (Int → Cl S × S.G × S.P) → Vec
  flux2 : Fin 3 → (Int → Cl S × S.G × S.P) → Vec
  /-- utils/applyFluxes.cpp: metrics, sensor around the cell, fluxes of low and high faces, dQ ↦ dQ -/
  apply1 : S.G → (Fin 3 → Int → S.P) → (Fin 3 → Vec) → (Fin 3 → Vec) → Vec → Vec
  apply2 : S.G → (Fin 3 → Int → S.P) → (Fin 3 → Vec) → (Fin 3 → Vec) → Vec → Vec
  /-- config["RHS"]["diffusion"] -/
  diffusion : Bool
  /-- utils/dq2FD.cpp, dq4FD.cpp -/
  grad : (Fin 3 → Int → Cl S × S.G) → S.D
  /-- subgrid/smagorinsky.cpp (pointwise; the mixed-scale model is not of this form) -/
  sgs : Cl S → S.D → S.G → S.T → S.T
  /-- diffFlux/*.cpp -/
  fluxD : Fin 3 → (Int → Cl S × S.G × S.T × S.D) → Vec
  applyD : S.G → (Fin 3 → Vec) → (Fin 3 → Vec) → Vec → Vec
  /-- explicit chemistry, pointwise (chemistry/*.cpp) -/
  chem : Cl S → Vec → Vec
  /-- chemistry ODE of one cell over a time step (strang.py:72-88) -/
  stiff : ℝ → Cl S → Cl S
  /-- localDtau (dualTime.cpp:36-105): `thin a` says the block has one cell along `a` -/
  dtau : (Fin 3 → Bool) → (Fin 3 → Int → S.G) → Cl S → S.T → ℝ
  /-- invertDQ (dualTime.cpp:244-594) -/
  invert : ℝ → (Fin 3 → Bool) → (Fin 3 → Int → S.G) → Cl S → S.T → Vec → Vec

/-- What the case supplies per block: metrics, and for every face number its boundary condition function, which sees the
    stage time, where it is, and the cells of the normal line (0 first interior, -1 first halo), and returns the new value of
    halo cell `t < 0` -/
structure Inp (S : Sig) where
  geo : Nat → Pos → S.G
  euler : Nat → Nat → ℝ → Pos → (Int → Cl S) → Int → Cl S
  pre : Nat → Nat → ℝ → Pos → (Int → Cl S) → Int → Cl S
  post : Nat → Nat → ℝ → Pos → (Int → Cl S × S.D) → S.D

/-- arrays other than Q and q -/
structure Aux (S : Sig) where
  h : Nat → Pos → S.H
  qt : Nat → Pos → S.T
  phi : Nat → Pos → S.P
  dq : Nat → Pos → S.D

/-- entry of Q or q: block, cell, component -/
abbrev Entry := Nat × Pos × Nat
abbrev State (S : Sig) := Core Entry (Aux S)

variable {S : Sig}

def cell (s : State S) (n : Nat) (p : Pos) : Cl S := ⟨fun l => s.Q (n, p, l), fun l => s.q (n, p, l), s.aux.h n p⟩
def setCells (s : State S) (c : Nat → Pos → Cl S) : State S :=
  ⟨fun i => (c i.1 i.2.1).Q i.2.2, fun i => (c i.1 i.2.1).q i.2.2, { s.aux with h := fun n p => (c n p).h }⟩

/-- `for blk in mb: ...` on every rank: block `n` gets `f` of its block -/
def perBlock {β : Type} (world : List (List Block)) (A : Nat → β) (f : Block → β) (n : Nat) : β :=
  match owner world n with
  | some rb => f rb.2
  | none => A n

/-- `for face in blk.faces: face.bcFunc(...)` (consistify.py:34-35): each function rewrites `layers` halo layers of its face,
    over the whole plane -/
def bcAll {γ : Type} (layers : Int) (b : Block) (f : Nat → Pos → (Int → γ) → Int → γ) (A : Pos → γ) : Pos → γ :=
  b.faces.foldl (fun A fc p =>
    if -layers ≤ dep fc.nface b.dims p ∧ dep fc.nface b.dims p < 0 then
      f fc.nface p (fun t => A (along fc.nface b.dims p t)) (dep fc.nface b.dims p)
    else A p) A

/-- the part of consistify after the exchange of Q or q (consistify.py:28-50): equation of state on the whole array, Euler
    boundary conditions, transport, sensor on interior cells, sponge, exchange of the sensor -/
def finishConsistify (K : Kernels S) (I : Inp S) (ng : Nat) (world : List (List Block)) (eos : Cl S → Cl S) (t : ℝ)
    (s : State S) : State S :=
  let c := perBlock world (cell s) fun b =>
    bcAll ng b (fun nf => I.euler b.nblki nf t) (fun p => eos (cell s b.nblki p))
  let s1 := setCells s c
  let qt := perBlock world s.aux.qt fun b p =>
    if InBox 1 b.dims p then K.sponge (I.geo b.nblki p) (K.trans (c b.nblki p)) else K.trans (c b.nblki p)
  let phi := match K.sw with
    | none => s.aux.phi
    | some w => exch .ccFirst ng world (perBlock world s.aux.phi fun b p =>
        if InBox 0 b.dims p then w (fun d u => (c b.nblki (shift p d u), I.geo b.nblki (shift p d u))) else s.aux.phi b.nblki p)
  { s1 with aux := { s1.aux with qt := qt, phi := phi } }

/-- consistify(mb) (consistify.py:12-50): exchange of Q first -/
def consistify (K : Kernels S) (I : Inp S) (ng : Nat) (world : List (List Block)) (t : ℝ) (s : State S) : State S :=
  let Q := exch .ccAll ng world (fun n p l => s.Q (n, p, l))
  finishConsistify K I ng world K.eosC t { s with Q := fun i => Q i.1 i.2.1 i.2.2 }

/-- consistify(mb, "prims"): exchange of q first -/
def consistifyP (K : Kernels S) (I : Inp S) (ng : Nat) (world : List (List Block)) (t : ℝ) (s : State S) : State S :=
  let q := exch .ccAll ng world (fun n p l => s.q (n, p, l))
  finishConsistify K I ng world K.eosP t { s with q := fun i => q i.1 i.2.1 i.2.2 }

/-- dQzero, primary and secondary advective fluxes (RHS.py:12-22) -/
def advective (K : Kernels S) (I : Inp S) (s : State S) (b : Block) (p : Pos) : Vec :=
  if InBox 0 b.dims p then
    let line (d : Fin 3) (x : Pos) : Int → Cl S × S.G × S.P := fun t =>
      (cell s b.nblki (shift x d t), I.geo b.nblki (shift x d t), s.aux.phi b.nblki (shift x d t))
    let phis : Fin 3 → Int → S.P := fun d t => s.aux.phi b.nblki (shift p d t)
    let g := I.geo b.nblki p
    K.apply2 g phis (fun d => K.flux2 d (line d p)) (fun d => K.flux2 d (line d (shift p d 1)))
      (K.apply1 g phis (fun d => K.flux1 d (line d p)) (fun d => K.flux1 d (line d (shift p d 1))) (fun _ => 0))
  else fun _ => 0

/-- RHS.py:25-42: viscous boundary conditions, gradients on interior cells, exchange of the first layer of gradients, gradient
    boundary conditions on the first halo layer, subgrid model -/
def prepareDiffusion (K : Kernels S) (I : Inp S) (ng : Nat) (world : List (List Block)) (t : ℝ) (s : State S) : State S :=
  let c := perBlock world (cell s) fun b => bcAll ng b (fun nf => I.pre b.nblki nf t) (cell s b.nblki)
  let s1 := setCells s c
  let dq1 := exch .ccFirst ng world (perBlock world s.aux.dq fun b p =>
    if InBox 0 b.dims p then K.grad (fun d u => (c b.nblki (shift p d u), I.geo b.nblki (shift p d u))) else s.aux.dq b.nblki p)
  let dq := perBlock world dq1 fun b p =>
    (bcAll 1 b (fun nf x l u => ((l u).1, I.post b.nblki nf t x l)) (fun x => (c b.nblki x, dq1 b.nblki x)) p).2
  let qt := perBlock world s.aux.qt fun b p =>
    if InBox 1 b.dims p then K.sgs (c b.nblki p) (dq b.nblki p) (I.geo b.nblki p) (s.aux.qt b.nblki p) else s.aux.qt b.nblki p
  { s1 with aux := { s1.aux with dq := dq, qt := qt } }

/-- diffusive fluxes (RHS.py:44-46) -/
def diffusive (K : Kernels S) (I : Inp S) (s : State S) (b : Block) (dQ : Pos → Vec) (p : Pos) : Vec :=
  if InBox 0 b.dims p then
    let line (d : Fin 3) (x : Pos) : Int → Cl S × S.G × S.T × S.D := fun t =>
      (cell s b.nblki (shift x d t), I.geo b.nblki (shift x d t), s.aux.qt b.nblki (shift x d t), s.aux.dq b.nblki (shift x d t))
    K.applyD (I.geo b.nblki p) (fun d => K.fluxD d (line d p)) (fun d => K.fluxD d (line d (shift p d 1))) (dQ p)
  else dQ p

/-- RHS (RHS.py:11-54) -/
def rhs (K : Kernels S) (I : Inp S) (ng : Nat) (world : List (List Block)) (t : ℝ) (s : State S) : (Entry → ℝ) × State S :=
  let dQ1 := perBlock world (fun _ _ => 0) (advective K I s)
  let s2 := if K.diffusion then prepareDiffusion K I ng world t s else s
  let dQ2 := if K.diffusion then perBlock world dQ1 (fun b => diffusive K I s2 b (dQ1 b.nblki)) else dQ1
  let dQ3 := perBlock world dQ2 fun b p =>
    if InBox 0 b.dims p then K.chem (cell s2 b.nblki p) (dQ2 b.nblki p) else dQ2 b.nblki p
  (fun i => dQ3 i.1 i.2.1 i.2.2, s2)

/-- one cell along an axis (`b.ni == 2`, dualTime.cpp:43-51) -/
def thin (d : Dims) (a : Fin 3) : Bool := decide (top d a = 0)

/-- everything the integrators call -/
def env (K : Kernels S) (I : Inp S) (ng : Nat) (world : List (List Block)) : Env Entry (Aux S) where
  inner := fun i => match owner world i.1 with
    | some rb => decide (InBox 0 rb.2.dims i.2.1)
    | none => false
  rhs := rhs K I ng world
  consistify := consistify K I ng world
  consistifyP := consistifyP K I ng world
  stiff := fun dt s => setCells s (perBlock world (cell s) fun b p =>
    if InBox 0 b.dims p then K.stiff dt (cell s b.nblki p) else cell s b.nblki p)
  dtau := fun s i => perBlock world (fun _ _ => (0 : ℝ)) (fun b p =>
    K.dtau (thin b.dims) (fun d u => I.geo b.nblki (shift p d u)) (cell s b.nblki p) (s.aux.qt b.nblki p)) i.1 i.2.1
  invert := fun dt s dQ i => perBlock world (fun _ _ _ => (0 : ℝ)) (fun b p =>
    K.invert dt (thin b.dims) (fun d u => I.geo b.nblki (shift p d u)) (cell s b.nblki p) (s.aux.qt b.nblki p)
      (fun l => dQ (b.nblki, p, l))) i.1 i.2.1 i.2.2

end PG.Whole
