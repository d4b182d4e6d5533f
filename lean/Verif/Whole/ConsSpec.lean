import Verif.Whole.Spec
import Mathlib.Algebra.BigOperators.Group.Finset.Basic
import Mathlib.Data.Fintype.Pi
import Mathlib.Data.Fintype.BigOperators
import Mathlib.Order.Interval.Finset.Basic
import Mathlib.Data.Int.Interval
/-!
Specification for C93: global conservation over all blocks of all ranks.
-/
noncomputable section
namespace PG.Whole
open PG.Topo PG.Halo PG.Time

variable {S : Sig}

/-- the interior cells of a block -/
def cells (d : Dims) : Finset Pos := Fintype.piFinset fun a => Finset.Icc 0 (top d a)

/-- `Σ J·x_l` over the interior cells of all blocks of all ranks -/
def total (vol : S.G → ℝ) (I : Inp S) (W : List (List Block)) (l : Nat) (x : Entry → ℝ) : ℝ :=
  (W.flatten.map fun b => ∑ p ∈ cells b.dims, vol (I.geo b.nblki p) * x (b.nblki, p, l)).sum

/-- What makes a choice of kernels conservative in component `l`: the advective kernels (both schemes and their blending)
    change a cell of volume `vol` by the difference of one numerical flux through its six faces, the diffusive kernels by
    another; each numerical flux is a function of the face (its area vector, ...: `vec`, of arbitrary type) and the cells on
    its normal line. `turns` says that it changes sign when the face is looked at from the other side. Sources leave component
    `l` alone. -/
structure Conservative (ng : Nat) (K : Kernels S) (l : Nat) where
  vol : S.G → ℝ
  Γ : Type
  neg : Γ → Γ
  /-- the face between cells -1 and 0 of a line in direction `d` -/
  vec : Fin 3 → (Int → S.G) → Γ
  flux : Γ → (Int → Cl S × S.P) → ℝ
  fluxV : Γ → (Int → Cl S × S.T × S.D) → ℝ
  adv : ∀ (L : Fin 3 → Int → Cl S × S.G × S.P) (g : S.G), (∀ d, (L d 0).2.1 = g) →
    vol g * K.apply2 g (fun d t => (L d t).2.2) (fun d => K.flux2 d (L d)) (fun d => K.flux2 d (fun t => L d (1 + t)))
      (K.apply1 g (fun d t => (L d t).2.2) (fun d => K.flux1 d (L d)) (fun d => K.flux1 d (fun t => L d (1 + t))) (fun _ => 0)) l
    = ∑ d, (flux (vec d fun t => (L d t).2.1) (fun t => ((L d t).1, (L d t).2.2))
        - flux (vec d fun t => (L d (1 + t)).2.1) (fun t => ((L d (1 + t)).1, (L d (1 + t)).2.2)))
  visc : K.diffusion = true → ∀ (L : Fin 3 → Int → Cl S × S.G × S.T × S.D) (g : S.G) (x : Vec), (∀ d, (L d 0).2.1 = g) →
    vol g * K.applyD g (fun d => K.fluxD d (L d)) (fun d => K.fluxD d (fun t => L d (1 + t))) x l
    = vol g * x l + ∑ d, (fluxV (vec d fun t => (L d t).2.1) (fun t => ((L d t).1, (L d t).2.2))
        - fluxV (vec d fun t => (L d (1 + t)).2.1) (fun t => ((L d (1 + t)).1, (L d (1 + t)).2.2)))
  /-- the fluxes read the first `ng` (diffusive: first) cells on either side of the face, and the sensor of the first -/
  congr : ∀ γ L L', (∀ u, -(ng : Int) ≤ u → u < ng → (L' u).1 = (L u).1) →
    (∀ u, -1 ≤ u → u < 1 → (L' u).2 = (L u).2) → flux γ L' = flux γ L
  congrV : ∀ γ L L', (∀ u, -1 ≤ u → u < 1 → L' u = L u) → fluxV γ L' = fluxV γ L
  /-- "the fluxes change sign when the face is looked at from the other side" -/
  turns : Prop
  odd : turns → ∀ γ L L', (∀ u, -(ng : Int) ≤ u → u < ng → (L' u).1 = (L (-1 - u)).1) →
    (∀ u, -1 ≤ u → u < 1 → (L' u).2 = (L (-1 - u)).2) → flux (neg γ) L' = - flux γ L
  oddV : turns → ∀ γ L L', (∀ u, -1 ≤ u → u < 1 → L' u = L (-1 - u)) → fluxV (neg γ) L' = - fluxV γ L
  chem : ∀ c x, K.chem c x l = x l
  eos : ∀ c, (K.eosC c).Q l = c.Q l

/-- the face of block `b` with number `nf` at cell `p`, as the solver sees it (oriented along increasing index) -/
def faceVec {ng : Nat} {K : Kernels S} {l : Nat} (C : Conservative ng K l) (I : Inp S) (b : Block) (nf : Nat) (p : Pos) : C.Γ :=
  C.vec (axis nf) fun u => I.geo b.nblki (along nf b.dims p (if isLow nf then u else -1 - u))

/-- The grid on which the blocks are given: where two blocks are connected (other than by a rotation) they have the same
    face, seen in the same direction or in opposite directions according to the index directions of the two blocks, and the
    cells of one block look to sponge and subgrid model as the halo cells of the other. Where the two index directions are
    opposite (a low face meets a low face, or a high face a high face) the fluxes must change sign with the direction in
    which a face is looked at. -/
structure SameFaces {ng : Nat} {K : Kernels S} {l : Nat} (C : Conservative ng K l) (I : Inp S) (W : List (List Block)) : Prop where
  face : ∀ r b, Owns W r b → ∀ f ∈ b.faces, ∀ nb, f.neighbor = some nb → ∀ r' b', Owns W r' b' → b'.nblki = nb →
    ∀ nf', neighborNface f.nface f.ori = some nf' → ∀ p p', InBox 0 b.dims p → dep f.nface b.dims p = 0 → InBox 0 b'.dims p' →
      Glued .ccAll f.nface f.ori b.dims b'.dims (nat (along f.nface b.dims p (-1))) (nat p') →
      faceVec C I b' nf' p' = if isLow f.nface = isLow nf' then C.neg (faceVec C I b f.nface p) else faceVec C I b f.nface p
  turn : ∀ r b, Owns W r b → ∀ f ∈ b.faces, f.neighbor ≠ none →
    ∀ nf', neighborNface f.nface f.ori = some nf' → isLow f.nface = isLow nf' → C.turns
  cell : ∀ r b, Owns W r b → ∀ f ∈ b.faces, ∀ nb, f.neighbor = some nb → ∀ r' b', Owns W r' b' → b'.nblki = nb →
    ∀ p p', HaloOf 1 f.nface b.dims p → InBox 0 b'.dims p' → Glued .ccAll f.nface f.ori b.dims b'.dims (nat p) (nat p') →
      (∀ x, K.sponge (I.geo b.nblki p) x = K.sponge (I.geo nb p') x) ∧
      (∀ c d x, K.sgs c d (I.geo b.nblki p) x = K.sgs c d (I.geo nb p') x)

/-- connected faces have no boundary condition (bcType b0, or b1 for a translational periodic face: null functions) -/
structure NullBC (ng : Nat) (I : Inp S) (W : List (List Block)) : Prop where
  euler : ∀ r b, Owns W r b → ∀ f ∈ b.faces, f.neighbor ≠ none → ∀ t p x k, -(ng : Int) ≤ k → k < 0 →
    I.euler b.nblki f.nface t p x k = x k
  pre : ∀ r b, Owns W r b → ∀ f ∈ b.faces, f.neighbor ≠ none → ∀ t p x k, -(ng : Int) ≤ k → k < 0 →
    I.pre b.nblki f.nface t p x k = x k
  post : ∀ r b, Owns W r b → ∀ f ∈ b.faces, f.neighbor ≠ none → ∀ t p x, I.post b.nblki f.nface t p x = (x (-1)).2

/-- face `nf` of `b` is connected to a block -/
def Connected (b : Block) (nf : Nat) : Prop := ∃ f ∈ b.faces, f.nface = nf ∧ f.neighbor ≠ none

/-- the cells of a block at face `nf` -/
def faceCells (d : Dims) (nf : Nat) : Finset Pos := (cells d).filter fun p => dep nf d p = 0

/-- what flows into block `b` through face `nf` at cell `p`, convectively -/
def inflow {ng : Nat} {K : Kernels S} {l : Nat} (C : Conservative ng K l) (I : Inp S) (s : State S) (b : Block) (nf : Nat)
    (p : Pos) : ℝ :=
  (if isLow nf then 1 else -1) * C.flux (faceVec C I b nf p) fun u =>
    let x := along nf b.dims p (if isLow nf then u else -1 - u)
    (cell s b.nblki x, s.aux.phi b.nblki x)

/-- ... and diffusively -/
def inflowV {ng : Nat} {K : Kernels S} {l : Nat} (C : Conservative ng K l) (I : Inp S) (s : State S) (b : Block) (nf : Nat)
    (p : Pos) : ℝ :=
  (if isLow nf then 1 else -1) * C.fluxV (faceVec C I b nf p) fun u =>
    let x := along nf b.dims p (if isLow nf then u else -1 - u)
    (cell s b.nblki x, s.aux.qt b.nblki x, s.aux.dq b.nblki x)

open Classical in
/-- what flows into the domain through the faces which are not connected -/
def boundary (W : List (List Block)) (φ : Block → Nat → Pos → ℝ) : ℝ :=
  (W.flatten.map fun b => ∑ nf ∈ (Finset.Icc 1 6).filter (fun nf => ¬ Connected b nf), ∑ p ∈ faceCells b.dims nf, φ b nf p).sum

/-- the rate at which component `l` enters the domain when RHS is called at time `t` on state `s` -/
def supply {ng : Nat} {K : Kernels S} {l : Nat} (C : Conservative ng K l) (I : Inp S) (W : List (List Block)) (t : ℝ)
    (s : State S) : ℝ :=
  boundary W (inflow C I s) + if K.diffusion then boundary W (inflowV C I (prepareDiffusion K I ng W t s)) else 0

/-- no component `l` passes the faces which are not connected, whenever the halos have been filled; true in particular if
    all faces are connected -/
def Sealed {ng : Nat} {K : Kernels S} {l : Nat} (C : Conservative ng K l) (I : Inp S) (W : List (List Block)) : Prop :=
  ∀ t t' s, supply C I W t (consistify K I ng W t' s) = 0

/-- all faces of all blocks are connected -/
def Closed (W : List (List Block)) : Prop := ∀ r b, Owns W r b → ∀ nf, 1 ≤ nf → nf ≤ 6 → Connected b nf

/-- halo cells behind connections have what the equation of state wants to know besides Q, and, where no sensor is
    computed, the sensor array is alike on both sides of connections (it is allocated as zeros) -/
structure Ready (ng : Nat) (K : Kernels S) (W : List (List Block)) (s : State S) : Prop where
  eos : EosFromQ K ∨ ∀ r b, Owns W r b → ∀ f ∈ b.faces, ∀ nb, f.neighbor = some nb → ∀ r' b', Owns W r' b' → b'.nblki = nb →
    ∀ p p', HaloOf ng f.nface b.dims p → InBox 0 b'.dims p' → Glued .ccAll f.nface f.ori b.dims b'.dims (nat p) (nat p') →
      (cell s b.nblki p).q = (cell s nb p').q ∧ (cell s b.nblki p).h = (cell s nb p').h
  phi : K.sw = none → ∀ r b, Owns W r b → ∀ f ∈ b.faces, ∀ nb, f.neighbor = some nb → ∀ r' b', Owns W r' b' → b'.nblki = nb →
    ∀ p p', HaloOf 1 f.nface b.dims p → InBox 0 b'.dims p' → Glued .ccAll f.nface f.ori b.dims b'.dims (nat p) (nat p') →
      s.aux.phi b.nblki p = s.aux.phi nb p'

end PG.Whole
