import Verif.Whole.Resume
/-!
C109: consistify makes everything from the interior cells; what the resumed solver holds is what the stopped one held.
-/
noncomputable section
namespace PG.Whole
open PG.Topo PG.Halo PG.Time

variable {S : Sig} {ng : Nat} {W' W : List (List Block)} {K : Kernels S} {I : Inp S}

/-- `id` and no offset -/
abbrev Eq0 {β : Type} (W' : List (List Block)) (m : Int) (A' A : Nat → Pos → β) : Prop := Same W' id (fun _ => (0 : Pos)) m A' A

theorem SameBlocks.refl (W : List (List Block)) : SameBlocks W W :=
  ⟨fun r b h => ⟨r, b, h, rfl, rfl, fun f hf => ⟨f, hf, rfl, rfl, rfl⟩⟩⟩

theorem SameBlocks.trans {W₁ W₂ W₃ : List (List Block)} (h : SameBlocks W₁ W₂) (h' : SameBlocks W₂ W₃) : SameBlocks W₁ W₃ := by
  refine ⟨fun r b hb => ?_⟩
  obtain ⟨r2, b2, hb2, e1, d1, f1⟩ := h.there r b hb
  obtain ⟨r3, b3, hb3, e2, d2, f2⟩ := h'.there r2 b2 hb2
  refine ⟨r3, b3, hb3, e2.trans e1, d2.trans d1, fun f hf => ?_⟩
  obtain ⟨g, hg, a1, a2, a3⟩ := f1 f hf
  obtain ⟨k, hk, c1, c2, c3⟩ := f2 g hg
  exact ⟨k, hk, c1.trans a1, c2.trans a2, c3.trans a3⟩

theorem Redistributed.trans {W₁ W₂ W₃ : List (List Block)} (h : Redistributed W₁ W₂) (h' : Redistributed W₂ W₃) :
    Redistributed W₁ W₃ := ⟨h.1.trans h'.1, h'.2.trans h.2⟩
theorem Redistributed.symm {W₁ W₂ : List (List Block)} (h : Redistributed W₁ W₂) : Redistributed W₂ W₁ := ⟨h.2, h.1⟩
theorem Redistributed.refl (W : List (List Block)) : Redistributed W W := ⟨.refl W, .refl W⟩

theorem Legal.split (h' : Legal ng W') (h : Legal ng W) (hb : SameBlocks W' W) : Split ng W' W id (fun _ => 0) :=
  split_same h'.conn h.conn h'.thick h'.six hb

theorem same_dims (hw : WellConnected W) (hb : SameBlocks W' W) {r' : Nat} {b' : Block} {r : Nat} {b : Block} (h1 : Owns W' r' b')
    (h2 : Owns W r b) (e : b.nblki = b'.nblki) : b.dims = b'.dims := by
  obtain ⟨r2, b2, h3, e3, hd, -⟩ := hb.there r' b' h1
  obtain ⟨-, rfl⟩ := hw.uniq _ _ _ _ h2 h3 (e.trans e3.symm)
  exact hd

theorem touches_self (nf : Nat) (d : Dims) : Touches nf d d (0 : Pos) := by unfold Touches; split_ifs <;> simp

theorem Legal.input (h : Legal ng W) (hb : SameBlocks W' W) (hI : LocalBC ng I) : SameInput ng W' W id (fun _ => 0) I I := by
  refine ⟨fun _ _ _ p _ => by simp, ?_, ?_, hI, hI⟩
  · intro r' b' h1 r b h2 e nf _ _ _ t p
    rw [e]; simp
  · intro r' b' h1 r b h2 e nf _ _ hn
    refine absurd ?_ hn
    rw [same_dims h.conn hb h1 h2 e]
    exact touches_self _ _

theorem Legal.needs (h : Legal ng W) (hb : SameBlocks W' W) (J : Integrator) : Needs W' W id J := by
  cases J <;> try trivial
  intro r' b' h1 r b h2 e a ha
  rw [same_dims h.conn hb h1 h2 e]; exact ha

/-! ### states left by consistify -/

/-- everything in the arrays follows from the interior cells: halo cells behind a neighbour are the neighbour's interior cells
    with the boundary condition of the face applied, and so on -/
structure Settled (K : Kernels S) (I : Inp S) (ng : Nat) (W : List (List Block)) (c : State S) : Prop where
  made : ∃ (t : ℝ) (A : Nat → Pos → Cl S) (ph : Nat → Pos → S.P), (∀ r b, Owns W r b → cell c b.nblki = bcAll ng b (fun nf => I.euler b.nblki nf t) (A b.nblki)) ∧
    (∀ r b, Owns W r b → ∀ f ∈ b.faces, ∀ nb, f.neighbor = some nb → ∀ p, HaloOf ng f.nface b.dims p →
      A b.nblki p = exch .ccAll ng W (cell c) b.nblki p) ∧
    (∀ r b, Owns W r b → c.aux.qt b.nblki = fun p =>
      if InBox 1 b.dims p then K.sponge (I.geo b.nblki p) (K.trans (cell c b.nblki p)) else K.trans (cell c b.nblki p)) ∧
    ∀ w, K.sw = some w → c.aux.phi = exch .ccFirst ng W (perBlock W ph fun b p =>
      if InBox 0 b.dims p then w (fun d u => (cell c b.nblki (shift p d u), I.geo b.nblki (shift p d u))) else ph b.nblki p)

/-- sensor values that nothing ever writes: behind faces without neighbour, and everywhere if there is no sensor -/
def Frozen (K : Kernels S) (W : List (List Block)) (ph : Nat → Pos → S.P) (c : State S) : Prop :=
  (K.sw = none → c.aux.phi = ph) ∧
  ∀ r b, Owns W r b → ∀ f ∈ b.faces, f.neighbor = none → ∀ p, HaloOf 1 f.nface b.dims p → c.aux.phi b.nblki p = ph b.nblki p

theorem finish_settled (hng : 0 < ng) (h : Legal ng W) (eos : Cl S → Cl S) (t : ℝ) {s : State S}
    (hex : ∀ r b, Owns W r b → ∀ f ∈ b.faces, ∀ nb, f.neighbor = some nb → ∀ p, HaloOf ng f.nface b.dims p →
      ∀ r₂ b₂, Owns W r₂ b₂ → b₂.nblki = nb → ∀ c', Glued .ccAll f.nface f.ori b.dims b₂.dims (nat p) c' →
      InBox 0 b₂.dims (pos c') → eos (cell s b.nblki p) = eos (cell s nb (pos c'))) :
    Settled K I ng W (finishConsistify K I ng W eos t s) := by
  refine ⟨t, fun n p => eos (cell s n p), s.aux.phi, ?_, ?_, ?_, ?_⟩
  · intro r b hb
    show (perBlock W (cell s) fun b => bcAll ng b (fun nf => I.euler b.nblki nf t) (fun p => eos (cell s b.nblki p))) b.nblki = _
    rw [perBlock_eq h.conn hb]
  · intro r b hb f hf nb hnb p hp
    obtain ⟨r₂, b₂, c', hb₂, hb₂n, hg, hin⟩ := glued_inside' (kind := .ccAll) (by decide) hng h.conn h.thick hb hf hnb hp
    rw [exch_conn (kind := .ccAll) (by decide) hng h.conn _ hb hf hnb hb₂ hb₂n hp (fun _ _ => rfl) hg]
    dsimp only
    rw [hex r b hb f hf nb hnb p hp r₂ b₂ hb₂ hb₂n c' hg hin, ← hb₂n]
    show _ = (perBlock W (cell s) fun b => bcAll ng b (fun nf => I.euler b.nblki nf t) (fun p => eos (cell s b.nblki p))) b₂.nblki (pos c')
    rw [perBlock_eq h.conn hb₂, bc_inside hin]
  · intro r b hb
    have e : (finishConsistify K I ng W eos t s).aux.qt = perBlock W s.aux.qt (fun b p =>
        if InBox 1 b.dims p then K.sponge (I.geo b.nblki p) (K.trans (cell (finishConsistify K I ng W eos t s) b.nblki p))
        else K.trans (cell (finishConsistify K I ng W eos t s) b.nblki p)) := rfl
    rw [e, perBlock_eq h.conn hb]
  · intro w hw
    simp only [finishConsistify]
    rw [hw]
    rfl

theorem consistify_settled (hng : 0 < ng) (h : Legal ng W) (hQ : EosFromQ K) (t : ℝ) (s : State S) :
    Settled K I ng W (consistify K I ng W t s) := by
  refine finish_settled hng h K.eosC t ?_
  intro r b hb f hf nb hnb p hp r₂ b₂ hb₂ hb₂n c' hg hin
  apply hQ
  show exch .ccAll ng W (fun n p l => s.Q (n, p, l)) b.nblki p = exch .ccAll ng W (fun n p l => s.Q (n, p, l)) nb (pos c')
  rw [exch_conn (kind := .ccAll) (by decide) hng h.conn _ hb hf hnb hb₂ hb₂n hp (fun _ _ => rfl) hg, ← hb₂n,
    exch_un hng h.conn _ hb₂ (interior_unexchanged h.conn hb₂ (interior_nat (by decide) hin))]

theorem consistifyP_settled (hng : 0 < ng) (h : Legal ng W) (hK : LocalKernels ng K) (t : ℝ) (s : State S) :
    Settled K I ng W (consistifyP K I ng W t s) := by
  refine finish_settled hng h K.eosP t ?_
  intro r b hb f hf nb hnb p hp r₂ b₂ hb₂ hb₂n c' hg hin
  apply hK.eosP
  show exch .ccAll ng W (fun n p l => s.q (n, p, l)) b.nblki p = exch .ccAll ng W (fun n p l => s.q (n, p, l)) nb (pos c')
  rw [exch_conn (kind := .ccAll) (by decide) hng h.conn _ hb hf hnb hb₂ hb₂n hp (fun _ _ => rfl) hg, ← hb₂n,
    exch_un hng h.conn _ hb₂ (interior_unexchanged h.conn hb₂ (interior_nat (by decide) hin))]

/-- Two settled states with the same interior cells agree in everything the next right-hand side reads. -/
theorem settled_full (hng : 0 < ng) (h' : Legal ng W') (h : Legal ng W) (hb : SameBlocks W' W) (hK : LocalKernels ng K)
    (hI : LocalBC ng I) (hE : SteadyEuler ng I) (hF : FreshEuler ng W' I) (hP : FreshPost ng W' I) {c' c : State S}
    (hc' : Settled K I ng W' c') (hc : Settled K I ng W c) (heq : Eq0 W' 0 (cell c') (cell c)) {ph : Nat → Pos → S.P}
    (hf' : Frozen K W' ph c') (hf : Frozen K W ph c) : Full ng W' id (fun _ => 0) I c' c := by
  have hs := h'.split h hb
  have hin := h.input hb hI
  obtain ⟨t', A', ph', ha', hx', hq', hph'⟩ := hc'
  obtain ⟨t, A, ph1, ha, hx, hq, hph⟩ := hc
  have hng1 : (1 : Int) ≤ ng := by omega
  have hcells : Eq0 W' ng (cell c') (cell c) := by
    intro r' b' hb' p hp
    obtain ⟨r, b, hb2, hbn, hbox⟩ := hs.inside r' b' hb'
    have hd : b.dims = b'.dims := same_dims h.conn hb hb' hb2 hbn
    rw [← hbn, ha' r' b' hb', ha r b hb2]
    have hA0 : ∀ x, InBox 0 b'.dims x → A' b'.nblki x = A b.nblki (x + 0) := by
      intro x hx0
      have e1 := congrFun (ha' r' b' hb') x
      have e2 := congrFun (ha r b hb2) x
      rw [bc_inside hx0] at e1
      rw [bc_inside (by rw [hd]; exact hx0)] at e2
      have e3 := heq r' b' hb' x (Or.inl hx0)
      rw [add_zero, ← e1, ← e2, e3, hbn]
      simp
    have hAh : ∀ f' ∈ b'.faces, ∀ nb, f'.neighbor = some nb → ∀ x, HaloOf ng f'.nface b'.dims x → A' b'.nblki x = A b.nblki (x + 0) := by
      intro f' hf2 nb hnb x hxh
      obtain ⟨f, hfm, hfn, -, hconn⟩ := hs.outer r' b' hb' r b hb2 hbn f' hf2 (by rw [hd]; exact touches_self _ _)
      have e1 := hx' r' b' hb' f' hf2 nb hnb x hxh
      have e2 := hx r b hb2 f hfm nb (hconn nb hnb).1 x (by rw [hfn, hd]; exact hxh)
      rw [e1, add_zero, e2]
      have := exch_same_at (kind := .ccAll) (by decide) hng hs heq hb' (Or.inr ⟨_, h'.conn.nface_range r' b' hb' f' hf2, hxh⟩) ?_
      · rw [this, hbn]; simp
      · intro g hg hgn hgx
        exfalso
        by_cases e : g.nface = f'.nface
        · rw [face_unique h'.conn hb' hg hf2 e, hnb] at hgn; cases hgn
        · have := halo_unique (h'.conn.nface_range r' b' hb' f' hf2) (h'.conn.nface_range r' b' hb' g hg) (Ne.symm e)
            (dims_top h'.conn hb') hxh
          have := hgx.2.1
          omega
    refine bc_same (le_refl _) hng hs hb' hb2 hbn hbox
      (fun nf p k l l' h1 h2 h => hI.euler _ nf t' p k l l' h1 h2 (fun u _ => h u))
      (fun nf p k l l' h1 h2 h => hI.euler _ nf t p k l l' h1 h2 (fun u _ => h u)) hA0 ?_ ?_ hp
    · intro nf hn _ x hxh
      obtain ⟨f', hf2, rfl⟩ := h'.six r' b' hb' nf hn.1 hn.2
      rw [hE _ _ t' t _ _ _ hxh.1 hxh.2.1, hbn, add_zero, hd]
      have hin0 : ∀ u, 0 ≤ u → u < (ng : Int) → A' b'.nblki (along f'.nface b'.dims x u) = A (id b'.nblki) (along f'.nface b'.dims x u) := by
        intro u h1 h2
        have := hA0 _ (inside_along hxh h1 (by have := thick_top h'.thick hb' (axis f'.nface); omega))
        rw [add_zero, hbn] at this
        exact this
      cases hnb : f'.neighbor with
      | none => exact hF r' b' hb' f' hf2 hnb t x _ _ _ hxh.1 hxh.2.1 hin0
      | some nb =>
        refine hI.euler _ _ _ _ _ _ _ hxh.1 hxh.2.1 ?_
        intro u h1 h2
        by_cases h0 : 0 ≤ u
        · exact hin0 u h0 h2
        · have := hAh f' hf2 nb hnb _ (halo_along hxh h1 (by omega))
          rw [add_zero, hbn] at this
          exact this
    · intro nf hn ht
      exact absurd (by rw [hd]; exact touches_self _ _) ht
  refine ⟨hcells, ?_, ?_, Or.inl hP⟩
  · intro r' b' hb' p hp
    obtain ⟨r, b, hb2, hbn, -⟩ := hs.inside r' b' hb'
    have hd : b.dims = b'.dims := same_dims h.conn hb hb' hb2 hbn
    have e := hcells r' b' hb' p (near_mono hng1 hp)
    rw [← hbn] at e ⊢
    rw [hq' r' b' hb', hq r b hb2]
    simp only [add_zero] at e ⊢
    rw [e, hd, hbn]
    rfl
  · intro r' b' hb' p hp
    obtain ⟨r, b, hb2, hbn, -⟩ := hs.inside r' b' hb'
    have hd : b.dims = b'.dims := same_dims h.conn hb hb' hb2 hbn
    cases hsw : K.sw with
    | none => rw [hf'.1 hsw, hf.1 hsw]; simp
    | some w =>
      by_cases hphys : ∃ f' ∈ b'.faces, f'.neighbor = none ∧ HaloOf 1 f'.nface b'.dims p
      · obtain ⟨f', hf2, hnone, hph⟩ := hphys
        obtain ⟨f, hfm, hfn, hnn, -⟩ := hs.outer r' b' hb' r b hb2 hbn f' hf2 (by rw [hd]; exact touches_self _ _)
        rw [hf'.2 r' b' hb' f' hf2 hnone p hph, ← hbn, add_zero,
          hf.2 r b hb2 f hfm (hnn hnone) p (by rw [hfn, hd]; exact hph), hbn]
        rfl
      · rw [hph' w hsw, hph w hsw]
        refine exch_same_at (kind := .ccFirst) (by decide) hng hs ?_ hb' hp ?_
        · intro r' b' hb' p hp
          obtain ⟨r, b, hb2, hbn, hbox⟩ := hs.inside r' b' hb'
          have hd : b.dims = b'.dims := same_dims h.conn hb hb' hb2 hbn
          replace hp := near_zero hp
          rw [← hbn, perBlock_eq h'.conn hb', perBlock_eq (b := b) h.conn hb2, add_zero, if_pos hp, if_pos (by rw [hd]; exact hp)]
          apply hK.sw w hsw
          intro d u h1 h2
          have e1 := hcells r' b' hb' _ (near_mono hng1 (near_shift hp (a := d) h1 h2))
          rw [e1, hbn, add_zero]
          rfl
        · intro f' hf2 hnone hph
          exact absurd ⟨f', hf2, hnone, hph⟩ hphys

/-! ### the sensor outside is never written -/

theorem exch_frozen {β : Type} (hng : 0 < ng) (h : Legal ng W) {A : Nat → Pos → β} {r : Nat} {b : Block} (hb : Owns W r b) {f : Face}
    (hf : f ∈ b.faces) (hn : f.neighbor = none) {p : Pos} (hp : HaloOf 1 f.nface b.dims p) :
    exch .ccFirst ng W A b.nblki p = A b.nblki p :=
  exch_un hng h.conn A hb (physical_unexchanged (by decide) h.conn hb hf hn hp)

theorem finish_frozen (hng : 0 < ng) (h : Legal ng W) {ph : Nat → Pos → S.P} (eos : Cl S → Cl S) (t : ℝ) {s : State S}
    (hs : Frozen K W ph s) : Frozen K W ph (finishConsistify K I ng W eos t s) := by
  refine ⟨fun hn => ?_, fun r b hb f hf hn p hp => ?_⟩
  · simp only [finishConsistify]; rw [hn]; exact hs.1 hn
  · simp only [finishConsistify]
    cases hsw : K.sw with
    | none => exact hs.2 r b hb f hf hn p hp
    | some w =>
      dsimp only
      rw [exch_frozen hng h hb hf hn hp, perBlock_eq h.conn hb, if_neg (halo_outside hp)]
      exact hs.2 r b hb f hf hn p hp

theorem step_frozen (hng : 0 < ng) (h : Legal ng W) {ph : Nat → Pos → S.P} (J : Integrator) (dt : ℝ) {s : St Entry (Aux S)}
    (hs : Frozen K W ph s.core) : Frozen K W ph (step (env K I ng W) J dt s).core := by
  refine step_inv (P := Frozen K W ph) ?_ ?_ ?_ ?_ ?_ ?_ J dt s hs
  · intro t c hc
    have e : ((env K I ng W).rhs t c).2.aux.phi = c.aux.phi := by
      show (rhs K I ng W t c).2.aux.phi = _
      simp only [rhs]
      split_ifs <;> rfl
    unfold Frozen
    rw [e]; exact hc
  · exact fun t c hc => finish_frozen hng h K.eosC t hc
  · exact fun t c hc => finish_frozen hng h K.eosP t hc
  · exact fun _ _ hc => hc
  · exact fun _ _ hc => hc
  · exact fun _ _ hc => hc

end PG.Whole
