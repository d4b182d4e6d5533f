import Verif.Whole.Step
/-!
C91: consistify and RHS on a decomposition do what they do on the undivided blocks.
-/
noncomputable section
namespace PG.Whole
open PG.Topo PG.Halo PG.Time

variable {S : Sig} {ng : Nat} {W' W : List (List Block)} {par : Nat → Nat} {off : Nat → Pos} {K : Kernels S} {I' I : Inp S}

theorem perBlock_eq {β : Type} (hw : WellConnected W) {r : Nat} {b : Block} (hb : Owns W r b) (A : Nat → β) (f : Block → β) :
    perBlock W A f b.nblki = f b := by
  unfold perBlock; rw [owner_eq W hw r b hb]

theorem cell_setCells (s : State S) (c : Nat → Pos → Cl S) : cell (setCells s c) = c := rfl

/-- all arrays agree: Q, q, qh on `ng` halo layers, qt, phi and gradients on one (the gradients only if some boundary condition
    needs the old ones) -/
structure Full (ng : Nat) (W' : List (List Block)) (par : Nat → Nat) (off : Nat → Pos) (I' : Inp S) (s' s : State S) : Prop where
  cells : Same W' par off ng (cell s') (cell s)
  qt : Same W' par off 1 s'.aux.qt s.aux.qt
  phi : Same W' par off 1 s'.aux.phi s.aux.phi
  dq : FreshPost ng W' I' ∨ Same W' par off 1 s'.aux.dq s.aux.dq

theorem near_add (hng : 0 < ng) (hs : Split ng W' W par off) {r' : Nat} {b' : Block} (hb' : Owns W' r' b') {r : Nat} {b : Block}
    (hb : Owns W r b) (hbn : b.nblki = par b'.nblki)
    (hbox : ∀ a, 0 ≤ off b'.nblki a ∧ off b'.nblki a + top b'.dims a ≤ top b.dims a) {m : Int} (hm : m ≤ ng) {p : Pos}
    (hp : Near m b'.dims p) : Near m b.dims (p + off b'.nblki) := by
  rcases hp with hp | ⟨nf, hn, hp⟩
  · exact Or.inl (inside_add hbox hp)
  · by_cases ht : Touches nf b'.dims b.dims (off b'.nblki)
    · exact Or.inr ⟨nf, hn, touch_halo ht hbox hp⟩
    · obtain ⟨f', hf', rfl⟩ := hs.six r' b' hb' nf hn.1 hn.2
      exact Or.inl (cut_inside hng hs hb' hb hbn hf' ht (halo_mono hm hp))

/-- line through a face of the child seen in the parent -/
theorem line_touch {β : Type} {m : Int} {A' A : Pos → β} {nf : Nat} (hn : 1 ≤ nf ∧ nf ≤ 6) {d' d : Dims} {o : Pos}
    (ht : Touches nf d' d o) {k : Int} {p : Pos} (hp : HaloOf k nf d' p) (h : ∀ x, Near m d' x → A' x = A (x + o)) {u : Int}
    (h1 : -m ≤ u) (h2 : u ≤ top d' (axis nf)) : A' (along nf d' p u) = A (along nf d (p + o) u) := by
  rw [h _ (near_along hn hp h1 h2), touch_along ht]

theorem finish_full (hng : 0 < ng) (hs : Split ng W' W par off) (hK : LocalKernels ng K) (hI : SameInput ng W' W par off I' I)
    (eos : Cl S → Cl S) (t : ℝ) {s' s : State S}
    (hc : Same W' par off ng (fun n p => eos (cell s' n p)) (fun n p => eos (cell s n p)))
    (hphi : Same W' par off 1 s'.aux.phi s.aux.phi) (hdq : FreshPost ng W' I' ∨ Same W' par off 1 s'.aux.dq s.aux.dq) :
    Full ng W' par off I' (finishConsistify K I' ng W' eos t s') (finishConsistify K I ng W eos t s) := by
  have hng1 : (1 : Int) ≤ ng := by omega
  have hcells : Same W' par off ng
      (perBlock W' (cell s') fun b => bcAll ng b (fun nf => I'.euler b.nblki nf t) (fun p => eos (cell s' b.nblki p)))
      (perBlock W (cell s) fun b => bcAll ng b (fun nf => I.euler b.nblki nf t) (fun p => eos (cell s b.nblki p))) := by
    intro r' b' hb' p hp
    obtain ⟨r, b, hb, hbn, hbox⟩ := hs.inside r' b' hb'
    have hA := hc r' b' hb'
    rw [← hbn] at hA ⊢
    rw [perBlock_eq hs.child hb', perBlock_eq hs.parent hb]
    refine bc_same (le_refl _) hng hs hb' hb hbn hbox
      (fun nf p k l l' h1 h2 h => hI.local'.euler _ nf t p k l l' h1 h2 (fun u _ => h u))
      (fun nf p k l l' h1 h2 h => hI.local_.euler _ nf t p k l l' h1 h2 (fun u _ => h u)) (fun p hp => hA p (Or.inl hp)) ?_ ?_ hp
    · intro nf hn ht p hp
      rw [(hI.outer r' b' hb' r b hb hbn nf hn.1 hn.2 ht t p).1 _ _ hp.1 hp.2.1]
      apply hI.local_.euler _ _ _ _ _ _ _ hp.1 hp.2.1
      intro u h1 h2
      exact line_touch (A' := fun x => eos (cell s' b'.nblki x)) (A := fun x => eos (cell s b.nblki x)) hn ht hp hA h1 (by have := thick_top hs.thick hb' (axis nf); omega)
    · intro nf hn ht p hp
      rw [(hI.cut r' b' hb' r b hb hbn nf hn.1 hn.2 ht t p).1 _ _ hp.1 hp.2.1]
      rw [along_dep]
      exact hA p (Or.inr ⟨nf, hn, hp⟩)
  refine ⟨hcells, ?_, ?_, hdq⟩
  · intro r' b' hb' p hp
    obtain ⟨r, b, hb, hbn, hbox⟩ := hs.inside r' b' hb'
    have hp2 := near_add hng hs hb' hb hbn hbox hng1 hp
    have hcp := hcells r' b' hb' p (near_mono hng1 hp)
    have hg := hI.geo r' b' hb' p (near_mono hng1 hp)
    simp only [finishConsistify]
    rw [← hbn] at hcp hg ⊢
    rw [perBlock_eq hs.child hb', perBlock_eq (b := b) hs.parent hb,
      if_pos (near_inbox (by omega) (dims_top hs.child hb') hp), if_pos (near_inbox (by omega) (dims_top hs.parent hb) hp2), hcp, hg]
  · simp only [finishConsistify]
    cases hsw : K.sw with
    | none => exact hphi
    | some w =>
      dsimp only
      refine exch_same (kind := .ccFirst) (by decide) hng hs ?_
      intro r' b' hb' p hp
      obtain ⟨r, b, hb, hbn, hbox⟩ := hs.inside r' b' hb'
      have hph := hphi r' b' hb' p (own_near hs.child hb' hp)
      rw [← hbn] at hph ⊢
      rw [perBlock_eq hs.child hb', perBlock_eq (b := b) hs.parent hb]
      rcases hp with hp | ⟨f', hf', hnone, hp⟩
      · rw [if_pos hp, if_pos (inside_add hbox hp)]
        apply hK.sw w hsw
        intro d u h1 h2
        have hnear : Near ng b'.dims (shift p d u) := near_mono hng1 (near_shift hp h1 h2)
        have e1 := hcells r' b' hb' _ hnear
        have e2 := hI.geo r' b' hb' _ hnear
        rw [← hbn] at e1 e2
        rw [e1, e2, shift_add]
      · have ht : Touches f'.nface b'.dims b.dims (off b'.nblki) := by
          apply Classical.byContradiction
          intro hcut
          obtain ⟨nb, h1, -⟩ := hs.cut r' b' hb' r b hb hbn f' hf' hcut
          rw [hnone] at h1; cases h1
        rw [if_neg (halo_outside hp), if_neg (halo_outside (touch_halo ht hbox hp))]
        exact hph

/-- consistify from Q: enough that Q agrees on interior cells and physical halos, if the rest of the cell agrees or is not used -/
theorem consistify_full (hng : 0 < ng) (hs : Split ng W' W par off) (hK : LocalKernels ng K) (hI : SameInput ng W' W par off I' I)
    (t : ℝ) {s' s : State S} (hQ : Mid W' par off ng (fun n p l => s'.Q (n, p, l)) (fun n p l => s.Q (n, p, l)))
    (hr : EosFromQ K ∨ Same W' par off ng (fun n p => ((fun l => s'.q (n, p, l) : Vec), s'.aux.h n p))
      (fun n p => ((fun l => s.q (n, p, l) : Vec), s.aux.h n p)))
    (hphi : Same W' par off 1 s'.aux.phi s.aux.phi) (hdq : FreshPost ng W' I' ∨ Same W' par off 1 s'.aux.dq s.aux.dq) :
    Full ng W' par off I' (consistify K I' ng W' t s') (consistify K I ng W t s) := by
  have hex : Same W' par off ng _ _ := exch_same (kind := .ccAll) (by decide) hng hs hQ
  refine finish_full hng hs hK hI K.eosC t ?_ hphi hdq
  intro r' b' hb' p hp
  have h1 := hex r' b' hb' p hp
  rcases hr with hr | hr
  · exact hr _ _ h1
  · have h2 := hr r' b' hb' p hp
    rw [Prod.mk.injEq] at h2
    have : cell (S := S) { s' with Q := fun i => exch .ccAll ng W' (fun n p l => s'.Q (n, p, l)) i.1 i.2.1 i.2.2 } b'.nblki p =
        cell { s with Q := fun i => exch .ccAll ng W (fun n p l => s.Q (n, p, l)) i.1 i.2.1 i.2.2 } (par b'.nblki) (p + off b'.nblki) := by
      unfold cell
      rw [Cl.mk.injEq]
      exact ⟨h1, h2.1, h2.2⟩
    exact congrArg K.eosC this

/-- consistify from q -/
theorem consistifyP_full (hng : 0 < ng) (hs : Split ng W' W par off) (hK : LocalKernels ng K) (hI : SameInput ng W' W par off I' I)
    (t : ℝ) {s' s : State S} (hq : Mid W' par off ng (fun n p l => s'.q (n, p, l)) (fun n p l => s.q (n, p, l)))
    (hphi : Same W' par off 1 s'.aux.phi s.aux.phi) (hdq : FreshPost ng W' I' ∨ Same W' par off 1 s'.aux.dq s.aux.dq) :
    Full ng W' par off I' (consistifyP K I' ng W' t s') (consistifyP K I ng W t s) := by
  have hex : Same W' par off ng _ _ := exch_same (kind := .ccAll) (by decide) hng hs hq
  refine finish_full hng hs hK hI K.eosP t ?_ hphi hdq
  intro r' b' hb' p hp
  exact hK.eosP _ _ (hex r' b' hb' p hp)

theorem touch_of_none (hs : Split ng W' W par off) {r' : Nat} {b' : Block} (hb' : Owns W' r' b') {r : Nat} {b : Block}
    (hb : Owns W r b) (hbn : b.nblki = par b'.nblki) {f' : Face} (hf' : f' ∈ b'.faces) (hnone : f'.neighbor = none) :
    Touches f'.nface b'.dims b.dims (off b'.nblki) := by
  apply Classical.byContradiction
  intro hcut
  obtain ⟨nb, h1, -⟩ := hs.cut r' b' hb' r b hb hbn f' hf' hcut
  rw [hnone] at h1; cases h1

theorem advective_same (hng : 0 < ng) (hs : Split ng W' W par off) (hK : LocalKernels ng K) (hI : SameInput ng W' W par off I' I)
    {s' s : State S} (h : Full ng W' par off I' s' s) {r' : Nat} {b' : Block} (hb' : Owns W' r' b') {r : Nat} {b : Block}
    (hbn : b.nblki = par b'.nblki)
    (hbox : ∀ a, 0 ≤ off b'.nblki a ∧ off b'.nblki a + top b'.dims a ≤ top b.dims a) {p : Pos} (hp : InBox 0 b'.dims p) :
    advective K I' s' b' p = advective K I s b (p + off b'.nblki) := by
  have hng1 : (1 : Int) ≤ ng := by omega
  have hcell : ∀ d u, -(ng : Int) ≤ u → u ≤ ng → cell s' b'.nblki (shift p d u) = cell s b.nblki (shift (p + off b'.nblki) d u) := by
    intro d u h1 h2
    rw [h.cells r' b' hb' _ (near_shift hp h1 h2), hbn, shift_add]
  have hgeo : ∀ d u, -(ng : Int) ≤ u → u ≤ ng → I'.geo b'.nblki (shift p d u) = I.geo b.nblki (shift (p + off b'.nblki) d u) := by
    intro d u h1 h2
    rw [hI.geo r' b' hb' _ (near_shift hp h1 h2), hbn, shift_add]
  have hphi : ∀ d u, -1 ≤ u → u ≤ 1 → s'.aux.phi b'.nblki (shift p d u) = s.aux.phi b.nblki (shift (p + off b'.nblki) d u) := by
    intro d u h1 h2
    rw [h.phi r' b' hb' _ (near_shift hp h1 h2), hbn, shift_add]
  have hg0 : I'.geo b'.nblki p = I.geo b.nblki (p + off b'.nblki) := by
    rw [hI.geo r' b' hb' _ (Or.inl hp), hbn]
  simp only [advective]
  rw [if_pos hp, if_pos (inside_add hbox hp), hg0]
  have f1 : ∀ d, K.flux1 d (fun t => (cell s' b'.nblki (shift p d t), I'.geo b'.nblki (shift p d t), s'.aux.phi b'.nblki (shift p d t)))
      = K.flux1 d (fun t => (cell s b.nblki (shift (p + off b'.nblki) d t), I.geo b.nblki (shift (p + off b'.nblki) d t),
          s.aux.phi b.nblki (shift (p + off b'.nblki) d t))) := fun d =>
    hK.flux1 d _ _ (fun u h1 h2 => ⟨hcell d u h1 (by omega), hgeo d u h1 (by omega)⟩) (fun u h1 h2 => hphi d u h1 (by omega))
  have f2 : ∀ d, K.flux2 d (fun t => (cell s' b'.nblki (shift p d t), I'.geo b'.nblki (shift p d t), s'.aux.phi b'.nblki (shift p d t)))
      = K.flux2 d (fun t => (cell s b.nblki (shift (p + off b'.nblki) d t), I.geo b.nblki (shift (p + off b'.nblki) d t),
          s.aux.phi b.nblki (shift (p + off b'.nblki) d t))) := fun d =>
    hK.flux2 d _ _ (fun u h1 h2 => ⟨hcell d u h1 (by omega), hgeo d u h1 (by omega)⟩) (fun u h1 h2 => hphi d u h1 (by omega))
  have g1 : ∀ d, K.flux1 d (fun t => (cell s' b'.nblki (shift (shift p d 1) d t), I'.geo b'.nblki (shift (shift p d 1) d t),
        s'.aux.phi b'.nblki (shift (shift p d 1) d t)))
      = K.flux1 d (fun t => (cell s b.nblki (shift (shift (p + off b'.nblki) d 1) d t),
          I.geo b.nblki (shift (shift (p + off b'.nblki) d 1) d t), s.aux.phi b.nblki (shift (shift (p + off b'.nblki) d 1) d t))) :=
    fun d => hK.flux1 d _ _
      (fun u h1 h2 => ⟨by rw [shift_shift, shift_shift]; exact hcell d _ (by omega) (by omega),
        by rw [shift_shift, shift_shift]; exact hgeo d _ (by omega) (by omega)⟩)
      (fun u h1 h2 => by rw [shift_shift, shift_shift]; exact hphi d _ (by omega) (by omega))
  have g2 : ∀ d, K.flux2 d (fun t => (cell s' b'.nblki (shift (shift p d 1) d t), I'.geo b'.nblki (shift (shift p d 1) d t),
        s'.aux.phi b'.nblki (shift (shift p d 1) d t)))
      = K.flux2 d (fun t => (cell s b.nblki (shift (shift (p + off b'.nblki) d 1) d t),
          I.geo b.nblki (shift (shift (p + off b'.nblki) d 1) d t), s.aux.phi b.nblki (shift (shift (p + off b'.nblki) d 1) d t))) :=
    fun d => hK.flux2 d _ _
      (fun u h1 h2 => ⟨by rw [shift_shift, shift_shift]; exact hcell d _ (by omega) (by omega),
        by rw [shift_shift, shift_shift]; exact hgeo d _ (by omega) (by omega)⟩)
      (fun u h1 h2 => by rw [shift_shift, shift_shift]; exact hphi d _ (by omega) (by omega))
  simp only [f1, f2, g1, g2]
  rw [hK.apply1 _ _ _ _ _ _ hphi]
  exact hK.apply2 _ _ _ _ _ _ hphi

/-- gradient boundary condition at a first halo cell -/
theorem bc_out1 {W : List (List Block)} (hw : WellConnected W) {r : Nat} {b : Block} (hb : Owns W r b)
    (hn : ∀ a, (ng : Int) ≤ top b.dims a + 1) {post : Nat → Pos → (Int → Cl S × S.D) → S.D} {A : Pos → Cl S × S.D} {p : Pos}
    {fc : Face} (hf : fc ∈ b.faces) (hp : HaloOf 1 fc.nface b.dims p)
    (hl : ∀ l l', (∀ u, u < (ng : Int) → l u = l' u) → post fc.nface p l = post fc.nface p l') :
    bcAll 1 b (fun nf x l u => ((l u).1, post nf x l)) A p =
      ((A p).1, post fc.nface p (fun t => A (along fc.nface b.dims p t))) := by
  have hd1 : dep fc.nface b.dims p = -1 := by have := hp.1; have := hp.2.1; omega
  unfold bcAll
  obtain ⟨l1, l2, hsplit⟩ := List.append_of_mem hf
  have hr := hw.nface_range r b hb
  have hd := hw.nface_distinct r b hb
  have hne : (∀ g ∈ l1, fc.nface ≠ g.nface) ∧ (∀ g ∈ l2, fc.nface ≠ g.nface) := by
    rw [hsplit, List.pairwise_append, List.pairwise_cons] at hd
    exact ⟨fun g hg => Ne.symm (hd.2.2 g hg fc (by simp)), hd.2.1.1⟩
  have hm1 : ∀ g ∈ l1, g ∈ b.faces := fun g hg => by rw [hsplit]; simp [hg]
  have hm2 : ∀ g ∈ l2, g ∈ b.faces := fun g hg => by rw [hsplit]; simp [hg]
  have hline : ∀ u, u < (ng : Int) → (l1.foldl (fun A fc p =>
      if -1 ≤ dep fc.nface b.dims p ∧ dep fc.nface b.dims p < 0 then
        (fun nf x (l : Int → Cl S × S.D) u => ((l u).1, post nf x l)) fc.nface p (fun t => A (along fc.nface b.dims p t)) (dep fc.nface b.dims p)
      else A p) A) (along fc.nface b.dims p u) = A (along fc.nface b.dims p u) := by
    intro u hu
    refine bc_fold_out 1 b.dims (fun nf x (l : Int → Cl S × S.D) u => ((l u).1, post nf x l)) _ l1 A ?_
    intro g hg hB
    have hgr := hr g (hm1 g hg)
    by_cases e : u < 0
    · have := halo_unique (hr fc hf) hgr (hne.1 g hg) (dims_top hw hb) (halo_along (k := -u) hp (by omega) e)
      omega
    · have := dep_inside (nf := g.nface) (inside_along hp (t := u) (by omega) (by have := hn (axis fc.nface); omega))
      omega
  have h1 : along fc.nface b.dims p (-1) = p := by rw [← hd1, along_dep]
  rw [hsplit, List.foldl_append, List.foldl_cons, bc_fold_out 1 b.dims (fun nf x l u => ((l u).1, post nf x l))]
  · rw [if_pos ⟨hp.1, hp.2.1⟩, hd1]
    exact Prod.ext ((congrArg Prod.fst (hline (-1) (by omega))).trans (by rw [h1])) (hl _ _ hline)
  · intro g hg hB
    have := halo_unique (hr fc hf) (hr g (hm2 g hg)) (hne.2 g hg) (dims_top hw hb) hp
    omega

/-- the viscous part makes all arrays agree, gradients included -/
theorem prepare_full (hng : 0 < ng) (hs : Split ng W' W par off) (hK : LocalKernels ng K) (hI : SameInput ng W' W par off I' I)
    (t : ℝ) {s' s : State S} (h : Full ng W' par off I' s' s) :
    Full ng W' par off I' (prepareDiffusion K I' ng W' t s') (prepareDiffusion K I ng W t s) ∧
    Same W' par off 1 (prepareDiffusion K I' ng W' t s').aux.dq (prepareDiffusion K I ng W t s).aux.dq := by
  have hng1 : (1 : Int) ≤ ng := by omega
  have hcells : Same W' par off ng
      (perBlock W' (cell s') fun b => bcAll ng b (fun nf => I'.pre b.nblki nf t) (cell s' b.nblki))
      (perBlock W (cell s) fun b => bcAll ng b (fun nf => I.pre b.nblki nf t) (cell s b.nblki)) := by
    intro r' b' hb' p hp
    obtain ⟨r, b, hb, hbn, hbox⟩ := hs.inside r' b' hb'
    have hA := h.cells r' b' hb'
    rw [← hbn] at hA ⊢
    rw [perBlock_eq hs.child hb', perBlock_eq hs.parent hb]
    refine bc_same (le_refl _) hng hs hb' hb hbn hbox
      (fun nf p k l l' h1 h2 h => hI.local'.pre _ nf t p k l l' h1 h2 (fun u _ => h u))
      (fun nf p k l l' h1 h2 h => hI.local_.pre _ nf t p k l l' h1 h2 (fun u _ => h u)) (fun p hp => hA p (Or.inl hp)) ?_ ?_ hp
    · intro nf hn ht p hp
      rw [(hI.outer r' b' hb' r b hb hbn nf hn.1 hn.2 ht t p).2.1 _ _ hp.1 hp.2.1]
      apply hI.local_.pre _ _ _ _ _ _ _ hp.1 hp.2.1
      intro u h1 h2
      exact line_touch hn ht hp hA h1 (by have := thick_top hs.thick hb' (axis nf); omega)
    · intro nf hn ht p hp
      rw [(hI.cut r' b' hb' r b hb hbn nf hn.1 hn.2 ht t p).2.1 _ _ hp.1 hp.2.1]
      rw [along_dep]
      exact hA p (Or.inr ⟨nf, hn, hp⟩)
  unfold prepareDiffusion
  dsimp only
  generalize (perBlock W' (cell s') fun b => bcAll ng b (fun nf => I'.pre b.nblki nf t) (cell s' b.nblki)) = c' at *
  generalize (perBlock W (cell s) fun b => bcAll ng b (fun nf => I.pre b.nblki nf t) (cell s b.nblki)) = c at *
  have hdq1 : ∀ r' b', Owns W' r' b' → ∀ p, Near 1 b'.dims p →
      (FreshPost ng W' I' → ∀ f ∈ b'.faces, f.neighbor = none → ¬ HaloOf 1 f.nface b'.dims p) →
      (exch .ccFirst ng W' (perBlock W' s'.aux.dq fun b p =>
        if InBox 0 b.dims p then K.grad (fun d u => (c' b.nblki (shift p d u), I'.geo b.nblki (shift p d u))) else s'.aux.dq b.nblki p))
        b'.nblki p =
      (exch .ccFirst ng W (perBlock W s.aux.dq fun b p =>
        if InBox 0 b.dims p then K.grad (fun d u => (c b.nblki (shift p d u), I.geo b.nblki (shift p d u))) else s.aux.dq b.nblki p))
        (par b'.nblki) (p + off b'.nblki) := by
    intro r' b' hb' p hp hfr
    refine exch_same_at (kind := .ccFirst) (by decide) hng hs ?_ hb' hp ?_
    · intro r' b' hb' p hp
      replace hp := near_zero hp
      obtain ⟨r, b, hb, hbn, hbox⟩ := hs.inside r' b' hb'
      rw [← hbn, perBlock_eq hs.child hb', perBlock_eq (b := b) hs.parent hb]
      rw [if_pos hp, if_pos (inside_add hbox hp)]
      apply hK.grad
      intro d u h1 h2
      have hnear : Near ng b'.dims (shift p d u) := near_shift hp h1 h2
      have e1 := hcells r' b' hb' _ hnear
      have e2 := hI.geo r' b' hb' _ hnear
      rw [← hbn] at e1 e2
      rw [e1, e2, shift_add]
    · intro f' hf' hnone hp
      obtain ⟨r, b, hb, hbn, hbox⟩ := hs.inside r' b' hb'
      rcases h.dq with hF | hdq
      · exact absurd hp (hfr hF f' hf' hnone)
      · have hph := hdq r' b' hb' p (own_near hs.child hb' (Or.inr ⟨f', hf', hnone, hp⟩))
        rw [← hbn] at hph ⊢
        rw [perBlock_eq hs.child hb', perBlock_eq (b := b) hs.parent hb]
        rw [if_neg (halo_outside hp), if_neg (halo_outside (touch_halo (touch_of_none hs hb' hb hbn hf' hnone) hbox hp))]
        exact hph
  generalize (exch .ccFirst ng W' (perBlock W' s'.aux.dq fun b p =>
        if InBox 0 b.dims p then K.grad (fun d u => (c' b.nblki (shift p d u), I'.geo b.nblki (shift p d u))) else s'.aux.dq b.nblki p)) = e' at *
  generalize (exch .ccFirst ng W (perBlock W s.aux.dq fun b p =>
        if InBox 0 b.dims p then K.grad (fun d u => (c b.nblki (shift p d u), I.geo b.nblki (shift p d u))) else s.aux.dq b.nblki p)) = e at *
  have hdq : Same W' par off 1
      (perBlock W' e' fun b p => (bcAll 1 b (fun nf x l u => ((l u).1, I'.post b.nblki nf t x l)) (fun x => (c' b.nblki x, e' b.nblki x)) p).2)
      (perBlock W e fun b p => (bcAll 1 b (fun nf x l u => ((l u).1, I.post b.nblki nf t x l)) (fun x => (c b.nblki x, e b.nblki x)) p).2) := by
    intro r' b' hb' p hp
    obtain ⟨r, b, hb, hbn, hbox⟩ := hs.inside r' b' hb'
    have hA := hcells r' b' hb'
    have hE := hdq1 r' b' hb'
    rw [← hbn] at hA hE ⊢
    rw [perBlock_eq hs.child hb', perBlock_eq (b := b) hs.parent hb]
    have hpt : ∀ x : Pos, InBox 0 b'.dims x → (c' b'.nblki x, e' b'.nblki x) = (c b.nblki (x + off b'.nblki), e b.nblki (x + off b'.nblki)) :=
      fun x hx => by
        rw [hA x (Or.inl hx), hE x (Or.inl hx) (fun _ f _ _ h => halo_outside h hx)]
    -- one halo cell: the gradient boundary condition sees the cells of the line
    have key : bcAll 1 b' (fun nf x l u => ((l u).1, I'.post b'.nblki nf t x l)) (fun x => (c' b'.nblki x, e' b'.nblki x)) p =
        bcAll 1 b (fun nf x l u => ((l u).1, I.post b.nblki nf t x l)) (fun x => (c b.nblki x, e b.nblki x)) (p + off b'.nblki) := by
      rcases hp with hp | ⟨nf, hn, hp⟩
      · rw [bc_inside hp, bc_inside (inside_add hbox hp)]; exact hpt p hp
      · obtain ⟨fc', hf', rfl⟩ := hs.six r' b' hb' nf hn.1 hn.2
        have htop := thick_top hs.thick hb'
        have hd1 : dep fc'.nface b'.dims p = -1 := by have := hp.1; have := hp.2.1; omega
        have h1p : along fc'.nface b'.dims p (-1) = p := by rw [← hd1, along_dep]
        -- the gradient in the halo cell, unless it is stale and not read
        have hEp : (FreshPost ng W' I' → fc'.neighbor ≠ none) → e' b'.nblki p = e b.nblki (p + off b'.nblki) := by
          intro hfr
          refine hE p (Or.inr ⟨_, hn, hp⟩) ?_
          intro hF g hg hgn hgp
          by_cases e : g.nface = fc'.nface
          · rw [face_unique hs.child hb' hg hf' e] at hgn
            exact hfr hF hgn
          · have := halo_unique hn (hs.child.nface_range r' b' hb' g hg) (Ne.symm e) (dims_top hs.child hb') hp
            have := hgp.2.1
            omega
        rw [bc_out1 (ng := ng) (post := fun nf x l => I'.post b'.nblki nf t x l) hs.child hb' htop hf' hp (fun l l' h => hI.local'.post _ _ _ _ _ _ (fun u _ h2 => by rw [h u h2]) (fun u _ h2 => by rw [h u h2]))]
        by_cases ht : Touches fc'.nface b'.dims b.dims (off b'.nblki)
        · obtain ⟨fc, hf, hfn, -⟩ := hs.outer r' b' hb' r b hb hbn fc' hf' ht
          have hp2 := touch_halo ht hbox hp
          rw [← hfn] at hp2
          rw [bc_out1 (ng := ng) (post := fun nf x l => I.post b.nblki nf t x l) hs.parent hb (fun a => by have := htop a; have := hbox a; omega) hf hp2
            (fun l l' h => hI.local_.post _ _ _ _ _ _ (fun u _ h2 => by rw [h u h2]) (fun u _ h2 => by rw [h u h2]))]
          rw [hfn]
          refine Prod.ext (hA p (near_mono hng1 (Or.inr ⟨_, hn, hp⟩))) ?_
          have hl1 : ∀ u, -(ng : Int) ≤ u → u < ng → c' b'.nblki (along fc'.nface b'.dims p u) =
              c b.nblki (along fc'.nface b.dims (p + off b'.nblki) u) := fun u h1 h2 =>
            line_touch hn ht hp hA h1 (by have := htop (axis fc'.nface); omega)
          have hl2 : ∀ u, 0 ≤ u → u < (ng : Int) → e' b'.nblki (along fc'.nface b'.dims p u) =
              e b.nblki (along fc'.nface b.dims (p + off b'.nblki) u) := by
            intro u h1 h2
            rw [← touch_along ht]
            exact congrArg Prod.snd (hpt _ (inside_along hp h1 (by have := htop (axis fc'.nface); omega)))
          dsimp only
          by_cases hfr : FreshPost ng W' I' ∧ fc'.neighbor = none
          · rw [hfr.1 r' b' hb' fc' hf' hfr.2 t p _ (fun u => (c b.nblki (along fc'.nface b.dims (p + off b'.nblki) u),
              e b.nblki (along fc'.nface b.dims (p + off b'.nblki) u))) hl1 hl2]
            exact (hI.outer r' b' hb' r b hb hbn fc'.nface hn.1 hn.2 ht t p).2.2 _
          · rw [(hI.outer r' b' hb' r b hb hbn fc'.nface hn.1 hn.2 ht t p).2.2]
            apply hI.local_.post
            · exact hl1
            · intro u h1 h2
              by_cases hu : 0 ≤ u
              · exact hl2 u hu h2
              · have : u = -1 := by omega
                rw [this]
                dsimp only
                rw [← touch_along ht, h1p]
                exact hEp (fun hF hn => hfr ⟨hF, hn⟩)
        · rw [bc_inside (cut_inside hng hs hb' hb hbn hf' ht (halo_mono hng1 hp)),
            (hI.cut r' b' hb' r b hb hbn fc'.nface hn.1 hn.2 ht t p).2.2, h1p]
          refine Prod.ext (hA p (near_mono hng1 (Or.inr ⟨_, hn, hp⟩))) (hEp ?_)
          intro _ hnone
          obtain ⟨nb, h1, -⟩ := hs.cut r' b' hb' r b hb hbn fc' hf' ht
          rw [hnone] at h1; cases h1
    rw [key]
  generalize (perBlock W' e' fun b p => (bcAll 1 b (fun nf x l u => ((l u).1, I'.post b.nblki nf t x l)) (fun x => (c' b.nblki x, e' b.nblki x)) p).2) = g' at *
  generalize (perBlock W e fun b p => (bcAll 1 b (fun nf x l u => ((l u).1, I.post b.nblki nf t x l)) (fun x => (c b.nblki x, e b.nblki x)) p).2) = g at *
  refine ⟨⟨hcells, ?_, h.phi, Or.inr hdq⟩, hdq⟩
  intro r' b' hb' p hp
  obtain ⟨r, b, hb, hbn, hbox⟩ := hs.inside r' b' hb'
  have hp2 := near_add hng hs hb' hb hbn hbox hng1 hp
  have e1 := hcells r' b' hb' p (near_mono hng1 hp)
  have e2 := hdq r' b' hb' p hp
  have e3 := hI.geo r' b' hb' p (near_mono hng1 hp)
  have e4 := h.qt r' b' hb' p hp
  dsimp only
  rw [← hbn] at e1 e2 e3 e4 ⊢
  rw [perBlock_eq hs.child hb', perBlock_eq (b := b) hs.parent hb,
    if_pos (near_inbox (by omega) (dims_top hs.child hb') hp), if_pos (near_inbox (by omega) (dims_top hs.parent hb) hp2), e1, e2, e3, e4]

theorem diffusive_same (hng : 0 < ng) (hK : LocalKernels ng K) (hI : SameInput ng W' W par off I' I)
    {s' s : State S} (h : Full ng W' par off I' s' s) (hdq : Same W' par off 1 s'.aux.dq s.aux.dq) {r' : Nat} {b' : Block}
    (hb' : Owns W' r' b') {b : Block} (hbn : b.nblki = par b'.nblki)
    (hbox : ∀ a, 0 ≤ off b'.nblki a ∧ off b'.nblki a + top b'.dims a ≤ top b.dims a) {p : Pos} (hp : InBox 0 b'.dims p)
    {x' x : Pos → Vec} (hx : x' p = x (p + off b'.nblki)) :
    diffusive K I' s' b' x' p = diffusive K I s b x (p + off b'.nblki) := by
  have hng1 : (1 : Int) ≤ ng := by omega
  have hline : ∀ d u, -1 ≤ u → u ≤ 1 → (cell s' b'.nblki (shift p d u), I'.geo b'.nblki (shift p d u), s'.aux.qt b'.nblki (shift p d u),
      s'.aux.dq b'.nblki (shift p d u)) = (cell s b.nblki (shift (p + off b'.nblki) d u), I.geo b.nblki (shift (p + off b'.nblki) d u),
      s.aux.qt b.nblki (shift (p + off b'.nblki) d u), s.aux.dq b.nblki (shift (p + off b'.nblki) d u)) := by
    intro d u h1 h2
    have hn := near_shift (m := 1) hp (a := d) h1 h2
    rw [h.cells r' b' hb' _ (near_mono hng1 hn), hI.geo r' b' hb' _ (near_mono hng1 hn), h.qt r' b' hb' _ hn, hdq r' b' hb' _ hn,
      hbn, shift_add]
  simp only [diffusive]
  rw [if_pos hp, if_pos (inside_add hbox hp), hx, hI.geo r' b' hb' _ (Or.inl hp), ← hbn]
  have f1 : ∀ d, K.fluxD d (fun t => (cell s' b'.nblki (shift p d t), I'.geo b'.nblki (shift p d t), s'.aux.qt b'.nblki (shift p d t),
        s'.aux.dq b'.nblki (shift p d t)))
      = K.fluxD d (fun t => (cell s b.nblki (shift (p + off b'.nblki) d t), I.geo b.nblki (shift (p + off b'.nblki) d t),
          s.aux.qt b.nblki (shift (p + off b'.nblki) d t), s.aux.dq b.nblki (shift (p + off b'.nblki) d t))) := fun d =>
    hK.fluxD d _ _ (fun u h1 h2 => hline d u h1 (by omega))
  have g1 : ∀ d, K.fluxD d (fun t => (cell s' b'.nblki (shift (shift p d 1) d t), I'.geo b'.nblki (shift (shift p d 1) d t),
        s'.aux.qt b'.nblki (shift (shift p d 1) d t), s'.aux.dq b'.nblki (shift (shift p d 1) d t)))
      = K.fluxD d (fun t => (cell s b.nblki (shift (shift (p + off b'.nblki) d 1) d t), I.geo b.nblki (shift (shift (p + off b'.nblki) d 1) d t),
          s.aux.qt b.nblki (shift (shift (p + off b'.nblki) d 1) d t), s.aux.dq b.nblki (shift (shift (p + off b'.nblki) d 1) d t))) := fun d =>
    hK.fluxD d _ _ (fun u h1 h2 => by rw [shift_shift, shift_shift]; exact hline d _ (by omega) (by omega))
  simp only [f1, g1]

/-- the right-hand side vanishes outside the interior -/
theorem rhs_outside {W : List (List Block)} {I : Inp S} (hw : WellConnected W) {t : ℝ} {s : State S} {r : Nat} {b : Block} (hb : Owns W r b) {p : Pos}
    (hp : ¬ InBox 0 b.dims p) (l : Nat) : (rhs K I ng W t s).1 (b.nblki, p, l) = 0 := by
  simp only [rhs]
  rw [perBlock_eq hw hb, if_neg hp]
  cases K.diffusion
  · simp only [Bool.false_eq_true, if_false]
    rw [perBlock_eq hw hb]
    simp only [advective]
    rw [if_neg hp]
  · simp only [if_true]
    rw [perBlock_eq hw hb]
    simp only [diffusive]
    rw [if_neg hp, perBlock_eq hw hb]
    simp only [advective]
    rw [if_neg hp]

theorem rhs_same (hng : 0 < ng) (hs : Split ng W' W par off) (hK : LocalKernels ng K) (hI : SameInput ng W' W par off I' I)
    (t : ℝ) {s' s : State S} (h : Full ng W' par off I' s' s) :
    Mid W' par off ng (fun n p l => (rhs K I' ng W' t s').1 (n, p, l)) (fun n p l => (rhs K I ng W t s).1 (n, p, l)) ∧
    Full ng W' par off I' (rhs K I' ng W' t s').2 (rhs K I ng W t s).2 := by
  have hfull : Full ng W' par off I' (if K.diffusion then prepareDiffusion K I' ng W' t s' else s')
      (if K.diffusion then prepareDiffusion K I ng W t s else s) := by
    cases K.diffusion
    · exact h
    · exact (prepare_full hng hs hK hI t h).1
  refine ⟨?_, hfull⟩
  intro r' b' hb' p hp
  obtain ⟨r, b, hb, hbn, hbox⟩ := hs.inside r' b' hb'
  funext l
  rw [← hbn]
  rcases hp with hp | ⟨f', hf', hnone, hp⟩
  · have hadv := advective_same hng hs hK hI h hb' (r := r) hbn hbox hp
    have hcell := hfull.cells r' b' hb' p (Or.inl hp)
    rw [← hbn] at hcell
    simp only [rhs]
    rw [perBlock_eq hs.child hb', perBlock_eq hs.parent hb, if_pos hp, if_pos (inside_add hbox hp), hcell]
    congr 1
    cases K.diffusion
    · simp only [Bool.false_eq_true, if_false]
      rw [perBlock_eq hs.child hb', perBlock_eq hs.parent hb, hadv]
    · simp only [if_true]
      rw [perBlock_eq hs.child hb', perBlock_eq hs.parent hb]
      exact diffusive_same hng hK hI (prepare_full hng hs hK hI t h).1 (prepare_full hng hs hK hI t h).2 hb' hbn hbox hp
        (by rw [perBlock_eq hs.child hb', perBlock_eq hs.parent hb, hadv])
  · dsimp only
    rw [rhs_outside hs.child hb' (halo_outside hp),
      rhs_outside hs.parent hb (halo_outside (touch_halo (touch_of_none hs hb' hb hbn hf' hnone) hbox hp))]

end PG.Whole
