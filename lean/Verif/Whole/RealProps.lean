import Verif.Whole.Real
/-!
C93 for the flux kernels, metrics and halo exchange of the code together.
-/
noncomputable section
namespace PG.Whole
open PG.Topo PG.Halo PG.Time PG.Mesh PG.Flux V3

/-- The advective schemes of a configuration (setRHS in multiBlock/__init__.py:70-121): a primary scheme by name and either no
    secondary scheme or one to blend it with. scalarDissipation is not a scheme of this kind. -/
structure Schemes (sel : Config.Sel) (s1 : Flux.Scheme) (s2 : Option Flux.Scheme) : Prop where
  first : ∃ n, sel.primary = .str n ∧ Config.kernel n = some s1
  second : (sel.secondary = .none ∧ s2 = none) ∨ ∃ n s, sel.secondary = .str n ∧ Config.kernel n = some s ∧ s2 = some s

/-- What the connections of a case must be like for these schemes: both blocks right handed; where a low face meets a low face
    or a high face a high face, only schemes that change sign with the direction of the face; and where two schemes are
    blended, the same axis normal to the face in both blocks. -/
def Suited (sel : Config.Sel) (W : List (List Block)) : Prop :=
  ∀ r b, Owns W r b → ∀ f ∈ b.faces, f.neighbor ≠ none → Proper f.ori ∧ ∀ nf', neighborNface f.nface f.ori = some nf' →
    (isLow f.nface = isLow nf' → (∀ n, sel.primary = .str n → n ∈ oddSchemes) ∧ ∀ n, sel.secondary = .str n → n ∈ oddSchemes) ∧
    (sel.secondary ≠ .none → axis nf' = axis f.nface)

theorem schemes_reach {sel : Config.Sel} {ng : Nat} (h : Config.howManyNG sel = .ok ng) {s1 : Flux.Scheme} {s2 : Option Flux.Scheme}
    (hs : Schemes sel s1 s2) : Reaches ng s1 ∧ ∀ s ∈ s2, Reaches ng s := by
  constructor
  · obtain ⟨n, hn, hk⟩ := hs.first
    exact reaches_of h (Or.inl hn) hk
  · intro s h2
    rcases hs.second with ⟨-, rfl⟩ | ⟨n, s', hn, hk, rfl⟩
    · cases h2
    · cases h2
      exact reaches_of h (Or.inr hn) hk

theorem pos_ng {sel : Config.Sel} {ng : Nat} (h : Config.howManyNG sel = .ok ng) : 0 < ng := by
  have := (Config.C37_layers sel ng h).1; omega

/-- no viscous sponge and no subgrid model -/
def NoModel (base : Kernels blockS) : Prop := (∀ g x, base.sponge g x = x) ∧ ∀ c d g x, base.sgs c d g x = x

theorem real_same {sel : Config.Sel} {ng : Nat} (h : Config.howManyNG sel = .ok ng) {s1 : Flux.Scheme} {s2 : Option Flux.Scheme}
    (hs : Schemes sel s1 s2) {base : Kernels blockS} (hm : NoModel base) (sd : Diff.Scheme) (ns l : Nat)
    (hc : ∀ c x, base.chem c x l = x l) (he : ∀ c, (base.eosC c).Q l = c.Q l) {W : List (List Block)} (hw : WellConnected W)
    (hS : Suited sel W) {X : Nat → Pos → V3} (hX : Fits X W) {I : Inp blockS} (hI : ∀ n p, I.geo n p = geoOf (X n) p) :
    SameFaces (realC (pos_ng h) base s1 s2 sd ns l (schemes_reach h hs).1 (schemes_reach h hs).2 hc he) I W where
  face := by
    intro r b hb f hf nb hnb r' b' hb' hb'n nf' hnf' p p' hp _ _ hg
    obtain ⟨hP, hS'⟩ := hS r b hb f hf (by rw [hnb]; simp)
    have key := C93_same_face hw hX hb hf hnb hb' hb'n hP hnf' hp hg
    have ex : ∀ (b : Block) (nf : Nat) (p : Pos), faceVec (realC (pos_ng h) base s1 s2 sd ns l (schemes_reach h hs).1
        (schemes_reach h hs).2 hc he) I b nf p = (if s2.isSome then axis nf else 0, faceOn (X b.nblki) b.dims nf p) := by
      intro b nf p
      simp only [faceVec, realC, hI]
      rfl
    have hax : (if s2.isSome then axis nf' else 0) = (if s2.isSome then axis f.nface else 0) := by
      rcases hs.second with ⟨-, rfl⟩ | ⟨n, s', hn, hk, rfl⟩
      · rfl
      · simp only [Option.isSome, if_true]
        exact (hS' nf' hnf').2 (by rw [hn]; simp)
    have e' := ex b' nf' p'
    rw [hb'n, key, hax] at e'
    have goal : ∀ c : Prop, ∀ _ : Decidable c, ∀ u : Fin 3 × FaceData,
        u = (if s2.isSome then axis f.nface else 0, if c then (faceOn (X b.nblki) b.dims f.nface p).neg else faceOn (X b.nblki) b.dims f.nface p) →
        u = if c then ((if s2.isSome then axis f.nface else 0, faceOn (X b.nblki) b.dims f.nface p).1,
            FaceData.neg (if s2.isSome then axis f.nface else 0, faceOn (X b.nblki) b.dims f.nface p).2)
          else (if s2.isSome then axis f.nface else 0, faceOn (X b.nblki) b.dims f.nface p) := by
      intro c _ u hu
      rw [hu]
      by_cases h : c
      · rw [if_pos h, if_pos h]
      · rw [if_neg h, if_neg h]
    rw [ex b f.nface p]
    exact goal _ _ _ e'
  turn := by
    intro r b hb f hf hnb nf' hnf' hl
    obtain ⟨h1, h2⟩ := ((hS r b hb f hf hnb).2 nf' hnf').1 hl
    constructor
    · obtain ⟨n, hn, hk⟩ := hs.first
      exact odd_turns (h1 n hn) hk
    · intro s h3
      rcases hs.second with ⟨-, rfl⟩ | ⟨n, s', hn, hk, rfl⟩
      · cases h3
      · cases h3
        exact odd_turns (h2 n hn) hk
  cell := fun _ _ _ _ _ _ _ _ _ _ _ _ _ _ _ _ =>
    ⟨fun x => (hm.1 _ x).trans (hm.1 _ x).symm, fun c d x => (hm.2 c d _ x).trans (hm.2 c d _ x).symm⟩

/-- C93 (the solver; partial): for every configuration of advective schemes, with the halo depth the code chooses for it, on
    every multi-block grid whose nodes fit at the connections, `Σ J·Q_l` over all cells of all blocks of all ranks is the same
    after any run with an explicit integrator, if all faces are connected. `l` is any component which equation of state and
    chemistry leave alone (mass, momentum, energy; species without chemistry).
    MISSING: connections where a blended scheme meets another axis (false of this code, `C93_hybrid_violated`), or where an
    hllc or muscl scheme meets a block with opposite index direction (`C27_hllc_violated` and following), scalarDissipation,
    and subgrid model or sponge together with warped or periodic grids. -/
theorem C93_solver_partial {sel : Config.Sel} {ng : Nat} (h : Config.howManyNG sel = .ok ng) {s1 : Flux.Scheme}
    {s2 : Option Flux.Scheme} (hs : Schemes sel s1 s2) {base : Kernels blockS} (hm : NoModel base) (sd : Diff.Scheme) (ns l : Nat)
    (hc : ∀ c x, base.chem c x l = x l) (he : ∀ c, (base.eosC c).Q l = c.Q l) {W : List (List Block)} (hw : WellConnected W)
    (ht : Thick ng W) (hS : Suited sel W) {X : Nat → Pos → V3} (hX : Fits X W) {I : Inp blockS}
    (hI : ∀ n p, I.geo n p = geoOf (X n) p) (hN : NullBC ng I W) (hW : Closed W) (J : Integrator) (hJ : J ≠ .dualTime)
    (hst : J = .strang → EosFromQ base ∧ ∀ dt c, (base.stiff dt c).Q l = c.Q l) (dts : List ℝ) (s : St Entry (Aux blockS))
    (hR : ∃ t c, Ready ng (solver base s1 s2 sd ns) W c ∧ s.core = consistify (solver base s1 s2 sd ns) I ng W t c) :
    total (S := blockS) Geo.J I W l (run (env (solver base s1 s2 sd ns) I ng W) J dts s).core.Q = total (S := blockS) Geo.J I W l s.core.Q :=
  C93_run (realC (pos_ng h) base s1 s2 sd ns l (schemes_reach h hs).1 (schemes_reach h hs).2 hc he) (pos_ng h) hw ht
    (real_same h hs hm sd ns l hc he hw hS hX hI) hN (C93_closed _ hW) J hJ hst dts s hR

/-- C93 (the solver on the grid it reads; partial): as `C93_solver_partial`, with the node coordinates that unifySolverGrid
    makes of a grid whose block faces fit. -/
theorem C93_case_partial {sel : Config.Sel} {ng : Nat} (h : Config.howManyNG sel = .ok ng) {s1 : Flux.Scheme}
    {s2 : Option Flux.Scheme} (hs : Schemes sel s1 s2) {base : Kernels blockS} (hm : NoModel base) (sd : Diff.Scheme) (ns l : Nat)
    (hc : ∀ c x, base.chem c x l = x l) (he : ∀ c, (base.eosC c).Q l = c.Q l) {W : List (List Block)} (hw : WellConnected W)
    (ht : Thick ng W) (hS : Suited sel W) (per : Nat → Nat → PerFace) (gen : Nat → Arr3 V3)
    (hG : GridFits W per fun n p => at' ng (gen n) (nat p)) {X : Nat → Pos → V3}
    (hX : ∀ r b, Owns W r b → ∀ p, X b.nblki p = at' ng (unify ng W per gen b) (nat p)) {I : Inp blockS}
    (hI : ∀ n p, I.geo n p = geoOf (X n) p) (hN : NullBC ng I W) (hW : Closed W) (J : Integrator) (hJ : J ≠ .dualTime)
    (hst : J = .strang → EosFromQ base ∧ ∀ dt c, (base.stiff dt c).Q l = c.Q l) (dts : List ℝ) (s : St Entry (Aux blockS))
    (hR : ∃ t c, Ready ng (solver base s1 s2 sd ns) W c ∧ s.core = consistify (solver base s1 s2 sd ns) I ng W t c) :
    total (S := blockS) Geo.J I W l (run (env (solver base s1 s2 sd ns) I ng W) J dts s).core.Q = total (S := blockS) Geo.J I W l s.core.Q :=
  C93_solver_partial h hs hm sd ns l hc he hw ht hS (C93_grid_fits ng (pos_ng h) W hw ht per gen hG X hX) hI hN hW J hJ hst dts s hR

/-! ### the closed case of ConsProps.lean with the kernels of the code -/

/-- unit cells; block 1 lies on its side behind block 0 -/
def clX (n : Nat) (p : Pos) : V3 := if n = 0 then ⟨p 0, p 1, p 2⟩ else ⟨4 - p 2, p 1, p 0⟩

def clV (n nf : Nat) : V3 :=
  if nf = 3 then ⟨0, 2, 0⟩ else if nf = 4 then ⟨0, -2, 0⟩ else
  if n = 0 then (if nf = 1 then ⟨4, 0, 0⟩ else if nf = 2 then ⟨0, 0, 0⟩ else if nf = 5 then ⟨0, 0, 2⟩ else ⟨0, 0, -2⟩)
  else (if nf = 1 then ⟨0, 0, 2⟩ else if nf = 2 then ⟨0, 0, -2⟩ else if nf = 5 then ⟨-4, 0, 0⟩ else ⟨0, 0, 0⟩)

theorem clFits : Fits clX clW := by
  intro r b hb f hf nb hnb r' b' hb' hb'n
  refine ⟨clV b.nblki f.nface, fun c c' _ _ _ hg => ?_⟩
  rw [ownsCl] at hb hb'
  have two : ∀ h, (⟨2, h⟩ : Fin 3) = 2 := fun _ => rfl
  have h0 := hg 0 (by decide)
  have h1 := hg 1 (by decide)
  have h2 := hg 2 (by decide)
  clear hg
  rcases hb with ⟨rfl, rfl⟩ | ⟨rfl, rfl⟩
  all_goals
    simp only [cl0, cl1, List.mem_cons, List.not_mem_nil, or_false] at hf
    rcases hf with rfl | rfl | rfl | rfl | rfl | rfl
    all_goals
      cases hnb
      rcases hb' with ⟨rfl, rfl⟩ | ⟨rfl, rfl⟩ <;> first | (exfalso; revert hb'n; decide) | skip
      norm_num [o621, o324, o123, Ori.get, axisOf, reversed, normalAxis, isLow, gap, last, nat, cl0, cl1, two] at h0 h1 h2
      rw [V3.ext_iff]
      simp only [clX, clV, cl0, cl1, h0, h1, h2]
      refine ⟨?_, ?_, ?_⟩ <;> push_cast <;> norm_num <;> ring

end PG.Whole
