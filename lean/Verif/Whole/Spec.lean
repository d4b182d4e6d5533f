import Verif.Whole.Model
/-!
Specification for C91: what it means that a multi-block case `W'` is a decomposition of a multi-block case `W` (every block of
`W'` is a box of cells of a block of `W`), that the two cases are given the same grid, boundary conditions and initial data,
and that the compute kernels read only the cells they read in /repo/src/compute.
-/
noncomputable section
namespace PG.Whole
open PG.Topo PG.Halo PG.Time

/-- `p` is one of the first `m` halo cells behind face `nf`, straight behind an interior cell (no edge or corner) -/
def HaloOf (m : Int) (nf : Nat) (d : Dims) (p : Pos) : Prop :=
  -m ≤ dep nf d p ∧ dep nf d p < 0 ∧ ∀ a, a ≠ axis nf → 0 ≤ p a ∧ p a ≤ top d a

/-- interior cell, or one of the first `m` halo cells behind some face -/
def Near (m : Int) (d : Dims) (p : Pos) : Prop := InBox 0 d p ∨ ∃ nf, (1 ≤ nf ∧ nf ≤ 6) ∧ HaloOf m nf d p

/-- face `nf` of a box with dimensions `d'` at offset `o` lies on the same face of the surrounding block -/
def Touches (nf : Nat) (d' d : Dims) (o : Pos) : Prop :=
  if isLow nf then o (axis nf) = 0 else o (axis nf) + top d' (axis nf) = top d (axis nf)

/-- coordinates shifted by an offset -/
def moved (o : Pos) (c : Nat → Int) : Nat → Int := fun i => c i + nat o i

/-- `W'` is a decomposition of `W`: block `n` of `W'` is the box of block `par n` of `W` that starts at cell `off n`. Both
    cases are legal multi-block topologies, no block is thinner than the halo. Where a face of a box lies on a face of its
    surrounding block, it has the same kind of connection (none, or: the cells glued behind it are the cells glued behind the
    surrounding block's face); where it does not, the box behind it is another box of the same block and is glued so that
    the cells behind the face are the next cells of that block. Ranks are arbitrary on both sides. -/
structure Split (ng : Nat) (W' W : List (List Block)) (par : Nat → Nat) (off : Nat → Pos) : Prop where
  child : WellConnected W'
  parent : WellConnected W
  thick : Thick ng W'
  inside : ∀ r' b', Owns W' r' b' → ∃ r b, Owns W r b ∧ b.nblki = par b'.nblki ∧
    ∀ a, 0 ≤ off b'.nblki a ∧ off b'.nblki a + top b'.dims a ≤ top b.dims a
  six : ∀ r' b', Owns W' r' b' → ∀ nf, 1 ≤ nf → nf ≤ 6 → ∃ f ∈ b'.faces, f.nface = nf
  outer : ∀ r' b', Owns W' r' b' → ∀ r b, Owns W r b → b.nblki = par b'.nblki → ∀ f' ∈ b'.faces,
    Touches f'.nface b'.dims b.dims (off b'.nblki) → ∃ f ∈ b.faces, f.nface = f'.nface ∧
      (f'.neighbor = none → f.neighbor = none) ∧
      ∀ nb', f'.neighbor = some nb' → f.neighbor = some (par nb') ∧
        ∀ r₂ b₂', Owns W' r₂ b₂' → b₂'.nblki = nb' → ∀ r₃ b₂, Owns W r₃ b₂ → b₂.nblki = par nb' → ∀ c c',
          Glued .ccAll f'.nface f'.ori b'.dims b₂'.dims c c' →
          Glued .ccAll f.nface f.ori b.dims b₂.dims (moved (off b'.nblki) c) (moved (off nb') c')
  cut : ∀ r' b', Owns W' r' b' → ∀ r b, Owns W r b → b.nblki = par b'.nblki → ∀ f' ∈ b'.faces,
    ¬ Touches f'.nface b'.dims b.dims (off b'.nblki) → ∃ nb', f'.neighbor = some nb' ∧ par nb' = par b'.nblki ∧
      ∀ r₂ b₂', Owns W' r₂ b₂' → b₂'.nblki = nb' → ∀ c c',
        Glued .ccAll f'.nface f'.ori b'.dims b₂'.dims c c' → ∀ i < 3, moved (off nb') c' i = moved (off b'.nblki) c i

variable {S : Sig}

/-- the boundary condition functions look at the first `ng` cells on either side of their face -/
structure LocalBC (ng : Nat) (I : Inp S) : Prop where
  euler : ∀ n nf t p k l l', -(ng : Int) ≤ k → k < 0 → (∀ u, -(ng : Int) ≤ u → u < ng → l u = l' u) → I.euler n nf t p l k = I.euler n nf t p l' k
  pre : ∀ n nf t p k l l', -(ng : Int) ≤ k → k < 0 → (∀ u, -(ng : Int) ≤ u → u < ng → l u = l' u) → I.pre n nf t p l k = I.pre n nf t p l' k
  post : ∀ n nf t p l l', (∀ u, -(ng : Int) ≤ u → u < ng → (l u).1 = (l' u).1) → (∀ u, -1 ≤ u → u < (ng : Int) → (l u).2 = (l' u).2) →
    I.post n nf t p l = I.post n nf t p l'

/-- the gradient boundary conditions of faces without neighbour do not read gradients left in halo cells by earlier steps
    (they copy or reflect those of the first interior cell) -/
def FreshPost (ng : Nat) (W : List (List Block)) (I : Inp S) : Prop :=
  ∀ r b, Owns W r b → ∀ f ∈ b.faces, f.neighbor = none → ∀ t p l l', (∀ u, -(ng : Int) ≤ u → u < ng → (l u).1 = (l' u).1) →
    (∀ u, 0 ≤ u → u < (ng : Int) → (l u).2 = (l' u).2) → I.post b.nblki f.nface t p l = I.post b.nblki f.nface t p l'

/-- The two cases have the same grid metrics at cells and first halo cells, the same boundary conditions on faces that lie on
    faces of the surrounding block, and no boundary condition on the other faces (bcType b0: null function). -/
structure SameInput (ng : Nat) (W' W : List (List Block)) (par : Nat → Nat) (off : Nat → Pos) (I' I : Inp S) : Prop where
  geo : ∀ r' b', Owns W' r' b' → ∀ p, Near ng b'.dims p → I'.geo b'.nblki p = I.geo (par b'.nblki) (p + off b'.nblki)
  outer : ∀ r' b', Owns W' r' b' → ∀ r b, Owns W r b → b.nblki = par b'.nblki → ∀ nf, 1 ≤ nf → nf ≤ 6 →
    Touches nf b'.dims b.dims (off b'.nblki) → ∀ t p,
      (∀ l k, -(ng : Int) ≤ k → k < 0 → I'.euler b'.nblki nf t p l k = I.euler b.nblki nf t (p + off b'.nblki) l k) ∧
      (∀ l k, -(ng : Int) ≤ k → k < 0 → I'.pre b'.nblki nf t p l k = I.pre b.nblki nf t (p + off b'.nblki) l k) ∧
      (∀ l, I'.post b'.nblki nf t p l = I.post b.nblki nf t (p + off b'.nblki) l)
  cut : ∀ r' b', Owns W' r' b' → ∀ r b, Owns W r b → b.nblki = par b'.nblki → ∀ nf, 1 ≤ nf → nf ≤ 6 →
    ¬ Touches nf b'.dims b.dims (off b'.nblki) → ∀ t p,
      (∀ l k, -(ng : Int) ≤ k → k < 0 → I'.euler b'.nblki nf t p l k = l k) ∧
      (∀ l k, -(ng : Int) ≤ k → k < 0 → I'.pre b'.nblki nf t p l k = l k) ∧
      (∀ l, I'.post b'.nblki nf t p l = (l (-1)).2)
  local' : LocalBC ng I'
  local_ : LocalBC ng I

/-- the kernels read no more cells than the kernels of /repo/src/compute: fluxes `ng` cells on either side of the face, sensor
    one cell around, gradients `ng` cells around, diffusive fluxes the two cells at the face -/
structure LocalKernels (ng : Nat) (K : Kernels S) : Prop where
  eosP : ∀ c c' : Cl S, c.q = c'.q → K.eosP c = K.eosP c'
  sw : ∀ w, K.sw = some w → ∀ l l', (∀ d u, -1 ≤ u → u ≤ 1 → l d u = l' d u) → w l = w l'
  flux1 : ∀ d l l', (∀ u, -(ng : Int) ≤ u → u < ng → (l u).1 = (l' u).1 ∧ (l u).2.1 = (l' u).2.1) →
    (∀ u, -1 ≤ u → u < 1 → (l u).2.2 = (l' u).2.2) → K.flux1 d l = K.flux1 d l'
  flux2 : ∀ d l l', (∀ u, -(ng : Int) ≤ u → u < ng → (l u).1 = (l' u).1 ∧ (l u).2.1 = (l' u).2.1) →
    (∀ u, -1 ≤ u → u < 1 → (l u).2.2 = (l' u).2.2) → K.flux2 d l = K.flux2 d l'
  apply1 : ∀ g ph ph' lo hi x, (∀ d u, -1 ≤ u → u ≤ 1 → ph d u = ph' d u) → K.apply1 g ph lo hi x = K.apply1 g ph' lo hi x
  apply2 : ∀ g ph ph' lo hi x, (∀ d u, -1 ≤ u → u ≤ 1 → ph d u = ph' d u) → K.apply2 g ph lo hi x = K.apply2 g ph' lo hi x
  grad : ∀ l l', (∀ d u, -(ng : Int) ≤ u → u ≤ ng → l d u = l' d u) → K.grad l = K.grad l'
  fluxD : ∀ d l l', (∀ u, -1 ≤ u → u < 1 → l u = l' u) → K.fluxD d l = K.fluxD d l'
  dtau : ∀ th g g' c x, (∀ d u, -1 ≤ u → u ≤ 1 → g d u = g' d u) → K.dtau th g c x = K.dtau th g' c x
  invert : ∀ dt th g g' c x y, (∀ d u, -1 ≤ u → u ≤ 1 → g d u = g' d u) → K.invert dt th g c x y = K.invert dt th g' c x y

/-- the conserved-variable equation of state computes the cell from Q alone (true of cpg; tpg uses the old temperature as
    initial guess of its iteration) -/
def EosFromQ (K : Kernels S) : Prop := ∀ c c' : Cl S, c.Q = c'.Q → K.eosC c = K.eosC c'

/-- cut blocks are one cell thick only where the block they were cut from is (localDtau and invertDQ ignore such directions) -/
def SameThin (W' W : List (List Block)) (par : Nat → Nat) : Prop :=
  ∀ r' b', Owns W' r' b' → ∀ r b, Owns W r b → b.nblki = par b'.nblki → ∀ a, top b'.dims a = 0 → top b.dims a = 0

/-- what an integrator needs beyond the above -/
def Needs (W' W : List (List Block)) (par : Nat → Nat) : Integrator → Prop
  | .dualTime => SameThin W' W par
  | _ => True

/-- the same initial data: primitives of the interior cells, and whatever the arrays hold in halo cells behind faces without
    neighbour; sensor and gradient arrays alike (they are allocated as zeros) -/
structure SameStart (ng : Nat) (W' W : List (List Block)) (par : Nat → Nat) (off : Nat → Pos) (s' s : St Entry (Aux S)) : Prop where
  q : ∀ r' b', Owns W' r' b' → ∀ p, InBox 0 b'.dims p ∨ (∃ f ∈ b'.faces, f.neighbor = none ∧ HaloOf ng f.nface b'.dims p) →
    ∀ l, s'.core.q (b'.nblki, p, l) = s.core.q (par b'.nblki, p + off b'.nblki, l)
  arrays : ∀ r' b', Owns W' r' b' → ∀ p, Near 1 b'.dims p →
    s'.core.aux.phi b'.nblki p = s.core.aux.phi (par b'.nblki) (p + off b'.nblki) ∧
    s'.core.aux.dq b'.nblki p = s.core.aux.dq (par b'.nblki) (p + off b'.nblki)
  stores : ∀ i j, s'.Q0 i = s.Q0 j ∧ s'.Q1 i = s.Q1 j ∧ s'.Q2 i = s.Q2 j ∧ s'.Q3 i = s.Q3 j ∧ s'.dQ i = s.dQ j ∧ s'.dtau i = s.dtau j
  time : s'.nrt = s.nrt ∧ s'.tme = s.tme ∧ s'.titme = s.titme

/-- bootstrap (bootstrapCase.py:183-194): equation of state from primitives on whole arrays, consistify(mb), and
    initializeDualTime without a restart file (whose result only dualTime uses) -/
def bootstrap (K : Kernels S) (I : Inp S) (ng : Nat) (W : List (List Block)) (s : St Entry (Aux S)) : St Entry (Aux S) :=
  initDualTime none (doConsistify (env K I ng W)
    { s with core := setCells s.core (perBlock W (cell s.core) fun b p => K.eosP (cell s.core b.nblki p)) })

end PG.Whole
