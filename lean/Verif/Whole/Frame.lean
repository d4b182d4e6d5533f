import Verif.Whole.Spec
import Verif.Halo.Natural
import Verif.Time.Equivariance
/-!
C110: changes of description. If the data of a case (grid, boundary data, initial state) are described differently - rotated -
and the kernels do not care, then the run is the same run described differently.
-/
noncomputable section
namespace PG.Whole
open PG.Topo PG.Halo PG.Time

/-- A change of description: what it does to the component vectors Q, q, dQ (linear) and to everything else a cell stores. -/
structure Change (S : Sig) where
  v : Vec →ₗ[ℝ] Vec
  h : S.H → S.H
  t : S.T → S.T
  p : S.P → S.P
  d : S.D → S.D
  g : S.G → S.G

variable {S : Sig}

namespace Change
variable (Φ : Change S)

/-- the state of a cell, described differently -/
def cl (c : Cl S) : Cl S := ⟨Φ.v c.Q, Φ.v c.q, Φ.h c.h⟩

/-- an array of all blocks -/
def arr : (Entry → ℝ) →ₗ[ℝ] (Entry → ℝ) where
  toFun x i := Φ.v (fun l => x (i.1, i.2.1, l)) i.2.2
  map_add' x y := by
    funext i
    have : (fun l => (x + y) (i.1, i.2.1, l)) = (fun l => x (i.1, i.2.1, l)) + (fun l => y (i.1, i.2.1, l)) := rfl
    rw [this, map_add]; rfl
  map_smul' a x := by
    funext i
    have : (fun l => (a • x) (i.1, i.2.1, l)) = a • (fun l => x (i.1, i.2.1, l)) := rfl
    rw [this, map_smul]; rfl

/-- the other arrays -/
def aux (a : Aux S) : Aux S :=
  ⟨fun n p => Φ.h (a.h n p), fun n p => Φ.t (a.qt n p), fun n p => Φ.p (a.phi n p), fun n p => Φ.d (a.dq n p)⟩

/-- the solver state described differently -/
def state (s : St Entry (Aux S)) : St Entry (Aux S) := s.map Φ.arr Φ.aux

/-- The kernels do not care: each gives the differently described result from differently described arguments. `K'` are the
    kernels in the new description (they may differ in what the user gives in coordinates, like the place of the sponge). -/
structure Kernel (K' K : Kernels S) : Prop where
  eosC : ∀ c, K'.eosC (Φ.cl c) = Φ.cl (K.eosC c)
  eosP : ∀ c, K'.eosP (Φ.cl c) = Φ.cl (K.eosP c)
  trans : ∀ c, K'.trans (Φ.cl c) = Φ.t (K.trans c)
  sponge : ∀ g x, K'.sponge (Φ.g g) (Φ.t x) = Φ.t (K.sponge g x)
  noSw : K.sw = none → K'.sw = none
  sw : ∀ w, K.sw = some w → ∃ w', K'.sw = some w' ∧ ∀ L, w' (fun d u => (Φ.cl (L d u).1, Φ.g (L d u).2)) = Φ.p (w L)
  flux1 : ∀ d L, K'.flux1 d (fun t => (Φ.cl (L t).1, Φ.g (L t).2.1, Φ.p (L t).2.2)) = Φ.v (K.flux1 d L)
  flux2 : ∀ d L, K'.flux2 d (fun t => (Φ.cl (L t).1, Φ.g (L t).2.1, Φ.p (L t).2.2)) = Φ.v (K.flux2 d L)
  apply1 : ∀ g ph lo hi x, K'.apply1 (Φ.g g) (fun d t => Φ.p (ph d t)) (fun d => Φ.v (lo d)) (fun d => Φ.v (hi d)) (Φ.v x) =
    Φ.v (K.apply1 g ph lo hi x)
  apply2 : ∀ g ph lo hi x, K'.apply2 (Φ.g g) (fun d t => Φ.p (ph d t)) (fun d => Φ.v (lo d)) (fun d => Φ.v (hi d)) (Φ.v x) =
    Φ.v (K.apply2 g ph lo hi x)
  diffusion : K'.diffusion = K.diffusion
  grad : K.diffusion = true → ∀ L, K'.grad (fun d u => (Φ.cl (L d u).1, Φ.g (L d u).2)) = Φ.d (K.grad L)
  sgs : K.diffusion = true → ∀ c d g x, K'.sgs (Φ.cl c) (Φ.d d) (Φ.g g) (Φ.t x) = Φ.t (K.sgs c d g x)
  fluxD : K.diffusion = true → ∀ d L,
    K'.fluxD d (fun t => (Φ.cl (L t).1, Φ.g (L t).2.1, Φ.t (L t).2.2.1, Φ.d (L t).2.2.2)) = Φ.v (K.fluxD d L)
  applyD : K.diffusion = true → ∀ g lo hi x,
    K'.applyD (Φ.g g) (fun d => Φ.v (lo d)) (fun d => Φ.v (hi d)) (Φ.v x) = Φ.v (K.applyD g lo hi x)
  chem : ∀ c x, K'.chem (Φ.cl c) (Φ.v x) = Φ.v (K.chem c x)
  stiff : ∀ dt c, K'.stiff dt (Φ.cl c) = Φ.cl (K.stiff dt c)

/-- the same for what dual time stepping uses besides -/
structure KernelDual (K' K : Kernels S) : Prop where
  dtau : ∀ th g c x, K'.dtau th (fun d u => Φ.g (g d u)) (Φ.cl c) (Φ.t x) = K.dtau th g c x
  invert : ∀ dt th g c x y, K'.invert dt th (fun d u => Φ.g (g d u)) (Φ.cl c) (Φ.t x) (Φ.v y) = Φ.v (K.invert dt th g c x y)

/-- `I'` is the input `I` described differently: the metrics, and boundary conditions which give the differently described halo
    cells from differently described interior cells -/
structure Input (I' I : Inp S) : Prop where
  geo : ∀ n p, I'.geo n p = Φ.g (I.geo n p)
  euler : ∀ n nf t p l k, I'.euler n nf t p (fun u => Φ.cl (l u)) k = Φ.cl (I.euler n nf t p l k)
  pre : ∀ n nf t p l k, I'.pre n nf t p (fun u => Φ.cl (l u)) k = Φ.cl (I.pre n nf t p l k)
  post : ∀ n nf t p l, I'.post n nf t p (fun u => (Φ.cl (l u).1, Φ.d (l u).2)) = Φ.d (I.post n nf t p l)

end Change

variable {Φ : Change S} {K' K : Kernels S} {I' I : Inp S} {ng : Nat} {W : List (List Block)}

theorem exch_map {α β : Type} (f : α → β) (kind : Kind) (ng : Nat) (W : List (List Block)) (data : Nat → Pos → α) :
    exch kind ng W (fun n p => f (data n p)) = fun n p => f (exch kind ng W data n p) := by
  funext n p
  unfold exch
  exact congrFun (congrFun (congrFun (round_map f kind ng W (fun m => toArr ng (data m)) n) _) _) _

theorem perBlock_map {α β : Type} (f : α → β) (W : List (List Block)) (A : Nat → α) (F : Block → α) :
    perBlock W (fun n => f (A n)) (fun b => f (F b)) = fun n => f (perBlock W A F n) := by
  funext n
  unfold perBlock
  cases owner W n <;> rfl

theorem bcAll_map {α β : Type} (g : α → β) (m : Int) (b : Block) (f : Nat → Pos → (Int → α) → Int → α)
    (f' : Nat → Pos → (Int → β) → Int → β) (h : ∀ nf p l k, f' nf p (fun t => g (l t)) k = g (f nf p l k)) (A : Pos → α) :
    bcAll m b f' (fun p => g (A p)) = fun p => g (bcAll m b f A p) := by
  unfold bcAll
  generalize b.faces = l
  induction l generalizing A with
  | nil => rfl
  | cons x l ih =>
    rw [List.foldl_cons, List.foldl_cons, ← ih]
    congr 1
    funext p
    split_ifs
    · exact h _ _ _ _
    · rfl

theorem cell_map (s : State S) (n : Nat) (p : Pos) : cell (s.map Φ.arr Φ.aux) n p = Φ.cl (cell s n p) := rfl

theorem setCells_map (s : State S) (c : Nat → Pos → Cl S) :
    setCells (s.map Φ.arr Φ.aux) (fun n p => Φ.cl (c n p)) = (setCells s c).map Φ.arr Φ.aux := rfl

theorem finish_map (hK : Φ.Kernel K' K) (hI : Φ.Input I' I) (eos' eos : Cl S → Cl S) (he : ∀ c, eos' (Φ.cl c) = Φ.cl (eos c)) (t : ℝ)
    (s : State S) :
    finishConsistify K' I' ng W eos' t (s.map Φ.arr Φ.aux) = (finishConsistify K I ng W eos t s).map Φ.arr Φ.aux := by
  have hc : (perBlock W (cell (s.map Φ.arr Φ.aux)) fun b =>
      bcAll ng b (fun nf => I'.euler b.nblki nf t) (fun p => eos' (cell (s.map Φ.arr Φ.aux) b.nblki p))) =
      fun n p => Φ.cl ((perBlock W (cell s) fun b => bcAll ng b (fun nf => I.euler b.nblki nf t) (fun p => eos (cell s b.nblki p))) n p) := by
    have := perBlock_map (fun (A : Pos → Cl S) p => Φ.cl (A p)) W (cell s)
      (fun b => bcAll ng b (fun nf => I.euler b.nblki nf t) (fun p => eos (cell s b.nblki p)))
    rw [← this]
    congr 1
    funext b
    rw [← bcAll_map Φ.cl ng b _ _ (fun nf p l k => hI.euler b.nblki nf t p l k)]
    congr 1
    funext p
    rw [cell_map, he]
  unfold finishConsistify
  dsimp only
  rw [hc]
  generalize (perBlock W (cell s) fun b => bcAll ng b (fun nf => I.euler b.nblki nf t) (fun p => eos (cell s b.nblki p))) = c
  rw [setCells_map]
  have hqt : (perBlock W (s.map Φ.arr Φ.aux).aux.qt fun b p =>
      if InBox 1 b.dims p then K'.sponge (I'.geo b.nblki p) (K'.trans (Φ.cl (c b.nblki p))) else K'.trans (Φ.cl (c b.nblki p))) =
      fun n p => Φ.t ((perBlock W s.aux.qt fun b p =>
        if InBox 1 b.dims p then K.sponge (I.geo b.nblki p) (K.trans (c b.nblki p)) else K.trans (c b.nblki p)) n p) := by
    rw [← perBlock_map (fun (A : Pos → S.T) p => Φ.t (A p))]
    congr 1
    funext b p
    rw [hI.geo, hK.trans, hK.sponge]
    split_ifs <;> rfl
  rw [hqt]
  cases hw : K.sw with
  | none => rw [hK.noSw hw]; rfl
  | some w =>
    obtain ⟨w', hw', hww⟩ := hK.sw w hw
    rw [hw']
    have hphi : (perBlock W (s.map Φ.arr Φ.aux).aux.phi fun b p =>
        if InBox 0 b.dims p then w' (fun d u => (Φ.cl (c b.nblki (shift p d u)), I'.geo b.nblki (shift p d u)))
        else (s.map Φ.arr Φ.aux).aux.phi b.nblki p) =
        fun n p => Φ.p ((perBlock W s.aux.phi fun b p =>
          if InBox 0 b.dims p then w (fun d u => (c b.nblki (shift p d u), I.geo b.nblki (shift p d u))) else s.aux.phi b.nblki p) n p) := by
      rw [← perBlock_map (fun (A : Pos → S.P) p => Φ.p (A p))]
      congr 1
      funext b p
      split_ifs
      · simp only [hI.geo]
        exact hww (fun d u => (c b.nblki (shift p d u), I.geo b.nblki (shift p d u)))
      · rfl
    dsimp only
    rw [hphi, exch_map]
    rfl

theorem consistify_map (hK : Φ.Kernel K' K) (hI : Φ.Input I' I) (t : ℝ) (s : State S) :
    consistify K' I' ng W t (s.map Φ.arr Φ.aux) = (consistify K I ng W t s).map Φ.arr Φ.aux := by
  unfold consistify
  dsimp only
  rw [← finish_map hK hI K'.eosC K.eosC hK.eosC]
  have e : (fun n p l => (s.map Φ.arr Φ.aux).Q (n, p, l)) = fun n p => Φ.v (fun l => s.Q (n, p, l)) := rfl
  rw [e, exch_map]
  rfl

theorem consistifyP_map (hK : Φ.Kernel K' K) (hI : Φ.Input I' I) (t : ℝ) (s : State S) :
    consistifyP K' I' ng W t (s.map Φ.arr Φ.aux) = (consistifyP K I ng W t s).map Φ.arr Φ.aux := by
  unfold consistifyP
  dsimp only
  rw [← finish_map hK hI K'.eosP K.eosP hK.eosP]
  have e : (fun n p l => (s.map Φ.arr Φ.aux).q (n, p, l)) = fun n p => Φ.v (fun l => s.q (n, p, l)) := rfl
  rw [e, exch_map]
  rfl

theorem advective_map (hK : Φ.Kernel K' K) (hI : Φ.Input I' I) (s : State S) (b : Block) (p : Pos) :
    advective K' I' (s.map Φ.arr Φ.aux) b p = Φ.v (advective K I s b p) := by
  unfold advective
  split_ifs
  · dsimp only
    rw [← hK.apply2, ← hK.apply1]
    have e1 : ∀ d x, K'.flux1 d (fun t => (cell (s.map Φ.arr Φ.aux) b.nblki (shift x d t), I'.geo b.nblki (shift x d t),
        (s.map Φ.arr Φ.aux).aux.phi b.nblki (shift x d t))) =
        Φ.v (K.flux1 d (fun t => (cell s b.nblki (shift x d t), I.geo b.nblki (shift x d t), s.aux.phi b.nblki (shift x d t)))) := by
      intro d x
      rw [← hK.flux1]
      simp only [hI.geo]
      rfl
    have e2 : ∀ d x, K'.flux2 d (fun t => (cell (s.map Φ.arr Φ.aux) b.nblki (shift x d t), I'.geo b.nblki (shift x d t),
        (s.map Φ.arr Φ.aux).aux.phi b.nblki (shift x d t))) =
        Φ.v (K.flux2 d (fun t => (cell s b.nblki (shift x d t), I.geo b.nblki (shift x d t), s.aux.phi b.nblki (shift x d t)))) := by
      intro d x
      rw [← hK.flux2]
      simp only [hI.geo]
      rfl
    simp only [e1, e2]
    rw [hI.geo]
    have z : Φ.v (fun _ => 0) = fun _ => 0 := map_zero Φ.v
    rw [z]
    rfl
  · exact (map_zero Φ.v).symm

theorem prepare_map (hd : K.diffusion = true) (hK : Φ.Kernel K' K) (hI : Φ.Input I' I) (t : ℝ) (s : State S) :
    prepareDiffusion K' I' ng W t (s.map Φ.arr Φ.aux) = (prepareDiffusion K I ng W t s).map Φ.arr Φ.aux := by
  have hc : (perBlock W (cell (s.map Φ.arr Φ.aux)) fun b =>
      bcAll ng b (fun nf => I'.pre b.nblki nf t) (cell (s.map Φ.arr Φ.aux) b.nblki)) =
      fun n p => Φ.cl ((perBlock W (cell s) fun b => bcAll ng b (fun nf => I.pre b.nblki nf t) (cell s b.nblki)) n p) := by
    rw [← perBlock_map (fun (A : Pos → Cl S) p => Φ.cl (A p))]
    congr 1
    funext b
    exact bcAll_map Φ.cl ng b _ _ (fun nf p l k => hI.pre b.nblki nf t p l k) (cell s b.nblki)
  unfold prepareDiffusion
  dsimp only
  rw [hc]
  generalize (perBlock W (cell s) fun b => bcAll ng b (fun nf => I.pre b.nblki nf t) (cell s b.nblki)) = c
  rw [setCells_map]
  have h1 : (perBlock W (s.map Φ.arr Φ.aux).aux.dq fun b p =>
      if InBox 0 b.dims p then K'.grad (fun d u => (Φ.cl (c b.nblki (shift p d u)), I'.geo b.nblki (shift p d u)))
      else (s.map Φ.arr Φ.aux).aux.dq b.nblki p) =
      fun n p => Φ.d ((perBlock W s.aux.dq fun b p =>
        if InBox 0 b.dims p then K.grad (fun d u => (c b.nblki (shift p d u), I.geo b.nblki (shift p d u))) else s.aux.dq b.nblki p) n p) := by
    rw [← perBlock_map (fun (A : Pos → S.D) p => Φ.d (A p))]
    congr 1
    funext b p
    split_ifs
    · simp only [hI.geo]
      exact hK.grad hd (fun d u => (c b.nblki (shift p d u), I.geo b.nblki (shift p d u)))
    · rfl
  rw [h1, exch_map]
  generalize (exch .ccFirst ng W (perBlock W s.aux.dq fun b p =>
    if InBox 0 b.dims p then K.grad (fun d u => (c b.nblki (shift p d u), I.geo b.nblki (shift p d u))) else s.aux.dq b.nblki p)) = dq1
  have h2 : (perBlock W (fun n p => Φ.d (dq1 n p)) fun b p =>
      (bcAll 1 b (fun nf x l u => ((l u).1, I'.post b.nblki nf t x l)) (fun x => (Φ.cl (c b.nblki x), Φ.d (dq1 b.nblki x))) p).2) =
      fun n p => Φ.d ((perBlock W dq1 fun b p =>
        (bcAll 1 b (fun nf x l u => ((l u).1, I.post b.nblki nf t x l)) (fun x => (c b.nblki x, dq1 b.nblki x)) p).2) n p) := by
    rw [← perBlock_map (fun (A : Pos → S.D) p => Φ.d (A p))]
    congr 1
    funext b p
    have := bcAll_map (fun y : Cl S × S.D => (Φ.cl y.1, Φ.d y.2)) 1 b
      (fun nf x l u => ((l u).1, I.post b.nblki nf t x l)) (fun nf x l u => ((l u).1, I'.post b.nblki nf t x l))
      (fun nf p l k => by simp only [hI.post]) (fun x => (c b.nblki x, dq1 b.nblki x))
    rw [this]
  rw [h2]
  generalize (perBlock W dq1 fun b p =>
    (bcAll 1 b (fun nf x l u => ((l u).1, I.post b.nblki nf t x l)) (fun x => (c b.nblki x, dq1 b.nblki x)) p).2) = dq
  have h3 : (perBlock W (s.map Φ.arr Φ.aux).aux.qt fun b p =>
      if InBox 1 b.dims p then K'.sgs (Φ.cl (c b.nblki p)) (Φ.d (dq b.nblki p)) (I'.geo b.nblki p) ((s.map Φ.arr Φ.aux).aux.qt b.nblki p)
      else (s.map Φ.arr Φ.aux).aux.qt b.nblki p) =
      fun n p => Φ.t ((perBlock W s.aux.qt fun b p =>
        if InBox 1 b.dims p then K.sgs (c b.nblki p) (dq b.nblki p) (I.geo b.nblki p) (s.aux.qt b.nblki p) else s.aux.qt b.nblki p) n p) := by
    rw [← perBlock_map (fun (A : Pos → S.T) p => Φ.t (A p))]
    congr 1
    funext b p
    split_ifs
    · rw [← hK.sgs hd, hI.geo]; rfl
    · rfl
  rw [h3]
  rfl

theorem diffusive_map (hd : K.diffusion = true) (hK : Φ.Kernel K' K) (hI : Φ.Input I' I) (s : State S) (b : Block) (dQ : Pos → Vec) (p : Pos) :
    diffusive K' I' (s.map Φ.arr Φ.aux) b (fun p => Φ.v (dQ p)) p = Φ.v (diffusive K I s b dQ p) := by
  unfold diffusive
  split_ifs
  · dsimp only
    rw [← hK.applyD hd]
    have e1 : ∀ d x, K'.fluxD d (fun t => (cell (s.map Φ.arr Φ.aux) b.nblki (shift x d t), I'.geo b.nblki (shift x d t),
        (s.map Φ.arr Φ.aux).aux.qt b.nblki (shift x d t), (s.map Φ.arr Φ.aux).aux.dq b.nblki (shift x d t))) =
        Φ.v (K.fluxD d (fun t => (cell s b.nblki (shift x d t), I.geo b.nblki (shift x d t), s.aux.qt b.nblki (shift x d t),
          s.aux.dq b.nblki (shift x d t)))) := by
      intro d x
      rw [← hK.fluxD hd]
      simp only [hI.geo]
      rfl
    simp only [e1]
    rw [hI.geo]
  · rfl

theorem rhs_map (hK : Φ.Kernel K' K) (hI : Φ.Input I' I) (t : ℝ) (s : State S) :
    rhs K' I' ng W t (s.map Φ.arr Φ.aux) = (Φ.arr (rhs K I ng W t s).1, (rhs K I ng W t s).2.map Φ.arr Φ.aux) := by
  have z : Φ.v (fun _ => 0) = fun _ => 0 := map_zero Φ.v
  have h1 : perBlock W (fun _ _ => (0 : Vec)) (advective K' I' (s.map Φ.arr Φ.aux)) =
      fun n p => Φ.v (perBlock W (fun _ _ => (0 : Vec)) (advective K I s) n p) := by
    rw [← perBlock_map (fun (A : Pos → Vec) p => Φ.v (A p))]
    have e : (fun (_ : Nat) (_ : Pos) => Φ.v (0 : Vec)) = fun _ _ => (0 : Vec) := by funext _ _; exact map_zero Φ.v
    rw [e]
    congr 1
    funext b p
    exact advective_map hK hI s b p
  unfold rhs
  dsimp only
  rw [h1]
  generalize perBlock W (fun _ _ => (0 : Vec)) (advective K I s) = dQ1
  by_cases hd : K.diffusion
  · simp only [hK.diffusion, hd, if_true]
    rw [prepare_map hd hK hI]
    generalize prepareDiffusion K I ng W t s = s2
    have h2 : (perBlock W (fun n p => Φ.v (dQ1 n p)) fun b => diffusive K' I' (s2.map Φ.arr Φ.aux) b (fun p => Φ.v (dQ1 b.nblki p))) =
        fun n p => Φ.v (perBlock W dQ1 (fun b => diffusive K I s2 b (dQ1 b.nblki)) n p) := by
      rw [← perBlock_map (fun (A : Pos → Vec) p => Φ.v (A p))]
      congr 1
      funext b p
      exact diffusive_map hd hK hI s2 b _ p
    rw [h2]
    generalize perBlock W dQ1 (fun b => diffusive K I s2 b (dQ1 b.nblki)) = dQ2
    have h3 : (perBlock W (fun n p => Φ.v (dQ2 n p)) fun b p =>
        if InBox 0 b.dims p then K'.chem (cell (s2.map Φ.arr Φ.aux) b.nblki p) (Φ.v (dQ2 b.nblki p)) else Φ.v (dQ2 b.nblki p)) =
        fun n p => Φ.v ((perBlock W dQ2 fun b p =>
          if InBox 0 b.dims p then K.chem (cell s2 b.nblki p) (dQ2 b.nblki p) else dQ2 b.nblki p) n p) := by
      rw [← perBlock_map (fun (A : Pos → Vec) p => Φ.v (A p))]
      congr 1
      funext b p
      split_ifs
      · rw [cell_map, hK.chem]
      · rfl
    rw [h3]
    rfl
  · simp only [hK.diffusion, hd, if_false, Bool.false_eq_true]
    have h3 : (perBlock W (fun n p => Φ.v (dQ1 n p)) fun b p =>
        if InBox 0 b.dims p then K'.chem (cell (s.map Φ.arr Φ.aux) b.nblki p) (Φ.v (dQ1 b.nblki p)) else Φ.v (dQ1 b.nblki p)) =
        fun n p => Φ.v ((perBlock W dQ1 fun b p =>
          if InBox 0 b.dims p then K.chem (cell s b.nblki p) (dQ1 b.nblki p) else dQ1 b.nblki p) n p) := by
      rw [← perBlock_map (fun (A : Pos → Vec) p => Φ.v (A p))]
      congr 1
      funext b p
      split_ifs
      · rw [cell_map, hK.chem]
      · rfl
    rw [h3]
    rfl

/-- the whole solver commutes with the change of description -/
theorem env_commutes (hK : Φ.Kernel K' K) (hI : Φ.Input I' I) : Commutes Φ.arr Φ.aux (env K' I' ng W) (env K I ng W) where
  inner := rfl
  inside old new := by
    funext i
    have hin : ∀ l, (env K I ng W).inner (i.1, i.2.1, l) = (env K I ng W).inner i := fun l => rfl
    change Φ.v (fun l => onInner (env K I ng W) old new (i.1, i.2.1, l)) i.2.2 = _
    simp only [onInner, hin]
    split_ifs <;> rfl
  rhs t c := rhs_map hK hI t c
  consistify t c := consistify_map hK hI t c
  consistifyP t c := consistifyP_map hK hI t c
  stiff dt c := by
    change setCells _ _ = Core.map _ _ (setCells _ _)
    rw [← setCells_map]
    congr 1
    rw [← perBlock_map (fun (A : Pos → Cl S) p => Φ.cl (A p))]
    congr 1
    funext b p
    split_ifs
    · rw [cell_map, hK.stiff]
    · rfl

theorem env_commutesDual (hK : Φ.KernelDual K' K) (hI : Φ.Input I' I) : CommutesDual Φ.arr Φ.aux (env K' I' ng W) (env K I ng W) where
  dtau c := by
    funext i
    have e : (fun (b : Block) (p : Pos) => K'.dtau (thin b.dims) (fun d u => I'.geo b.nblki (shift p d u))
        (cell (c.map Φ.arr Φ.aux) b.nblki p) ((c.map Φ.arr Φ.aux).aux.qt b.nblki p)) =
        fun b p => K.dtau (thin b.dims) (fun d u => I.geo b.nblki (shift p d u)) (cell c b.nblki p) (c.aux.qt b.nblki p) := by
      funext b p
      simp only [hI.geo]
      exact hK.dtau _ (fun d u => I.geo b.nblki (shift p d u)) (cell c b.nblki p) (c.aux.qt b.nblki p)
    exact congrFun (congrFun (congrArg (perBlock W (fun _ _ => (0 : ℝ))) e) i.1) i.2.1
  scal c old := by
    intro o y x
    funext i
    have hin : ∀ l, (env K I ng W).inner (i.1, i.2.1, l) = (env K I ng W).inner i := fun l => rfl
    change Φ.v (fun l => onInner (env K I ng W) o _ (i.1, i.2.1, l)) i.2.2 = _
    simp only [onInner, hin]
    split_ifs
    · have hd : ∀ l, (env K I ng W).dtau c (i.1, i.2.1, l) = (env K I ng W).dtau c i := fun l => rfl
      simp only [hd]
      have : (fun l => y (i.1, i.2.1, l) + (env K I ng W).dtau c i * x (i.1, i.2.1, l)) =
          (fun l => y (i.1, i.2.1, l)) + (env K I ng W).dtau c i • (fun l => x (i.1, i.2.1, l)) := rfl
      rw [this, map_add, map_smul]
      rfl
    · rfl
  invert dt c x := by
    funext i
    have := congrFun (congrFun (perBlock_map (fun (A : Pos → Vec) p => Φ.v (A p)) W (fun _ _ => (0 : Vec)) (fun b p =>
      K.invert dt (thin b.dims) (fun d u => I.geo b.nblki (shift p d u)) (cell c b.nblki p) (c.aux.qt b.nblki p)
        (fun l => x (b.nblki, p, l)))) i.1) i.2.1
    refine Eq.trans ?_ (congrFun this i.2.2)
    have e : (fun (_ : Nat) (_ : Pos) => Φ.v (0 : Vec)) = fun _ _ => (0 : Vec) := by funext _ _; exact map_zero Φ.v
    rw [e]
    have e2 : (fun (b : Block) (p : Pos) => K'.invert dt (thin b.dims) (fun d u => I'.geo b.nblki (shift p d u))
        (cell (c.map Φ.arr Φ.aux) b.nblki p) ((c.map Φ.arr Φ.aux).aux.qt b.nblki p) (fun l => Φ.arr x (b.nblki, p, l))) =
        fun b p => Φ.v (K.invert dt (thin b.dims) (fun d u => I.geo b.nblki (shift p d u)) (cell c b.nblki p) (c.aux.qt b.nblki p)
          (fun l => x (b.nblki, p, l))) := by
      funext b p
      rw [← hK.invert, cell_map]
      simp only [hI.geo]
      rfl
    exact congrFun (congrFun (congrFun (congrArg (perBlock W (fun _ _ => (0 : Vec))) e2) i.1) i.2.1) i.2.2

theorem bootstrap_map (hK : Φ.Kernel K' K) (hI : Φ.Input I' I) (s : St Entry (Aux S)) :
    bootstrap K' I' ng W (Φ.state s) = Φ.state (bootstrap K I ng W s) := by
  unfold bootstrap Change.state
  rw [← map_init, ← map_cons (env_commutes hK hI)]
  congr 2
  have : setCells (s.core.map Φ.arr Φ.aux) (perBlock W (cell (s.core.map Φ.arr Φ.aux)) fun b p => K'.eosP (cell (s.core.map Φ.arr Φ.aux) b.nblki p)) =
      (setCells s.core (perBlock W (cell s.core) fun b p => K.eosP (cell s.core b.nblki p))).map Φ.arr Φ.aux := by
    rw [← setCells_map]
    congr 1
    rw [← perBlock_map (fun (A : Pos → Cl S) p => Φ.cl (A p))]
    congr 1
    funext b p
    rw [cell_map, hK.eosP]
  unfold St.map
  rw [this]

/-- a run of the differently described case is the differently described run -/
theorem run_map (hK : Φ.Kernel K' K) (hI : Φ.Input I' I) (J : Integrator) (hD : J = .dualTime → Φ.KernelDual K' K) (dts : List ℝ) (s : St Entry (Aux S)) :
    run (env K' I' ng W) J dts (bootstrap K' I' ng W (Φ.state s)) = Φ.state (run (env K I ng W) J dts (bootstrap K I ng W s)) := by
  rw [bootstrap_map hK hI]
  exact map_run (env_commutes hK hI) J (fun e => env_commutesDual (hD e) hI) dts _

end PG.Whole
