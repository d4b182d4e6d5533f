import Verif.Whole.Props
/-!
C91: the theorem, corollaries, and a non-trivial case.
-/
noncomputable section
namespace PG.Whole
open PG.Topo PG.Halo PG.Time

variable {S : Sig} {ng : Nat} {W' W : List (List Block)} {par : Nat → Nat} {off : Nat → Pos} {K : Kernels S} {I' I : Inp S}

theorem init_none (s : St Entry (Aux S)) : initDualTime none s = { s with Qn := s.core.Q, Qnm1 := s.core.Q } := by
  unfold initDualTime; split <;> rfl

theorem rel_bootstrap (hng : 0 < ng) (hs : Split ng W' W par off) (hK : LocalKernels ng K) (hQ : EosFromQ K)
    (hI : SameInput ng W' W par off I' I) {s' s : St Entry (Aux S)} (h : SameStart ng W' W par off s' s) :
    Rel ng W' par off I' (bootstrap K I' ng W' s') (bootstrap K I ng W s) := by
  have w : RelW ng W' par off I' K
      { s' with
        core := setCells s'.core (perBlock W' (cell s'.core) fun b p => K.eosP (cell s'.core b.nblki p))
        Qn := fun _ => 0, Qnm1 := fun _ => 0 }
      { s with
        core := setCells s.core (perBlock W (cell s.core) fun b p => K.eosP (cell s.core b.nblki p))
        Qn := fun _ => 0, Qnm1 := fun _ => 0 } := by
    refine ⟨?_, Or.inl hQ, fun r' b' hb' p hp => (h.arrays r' b' hb' p hp).1, Or.inr fun r' b' hb' p hp => (h.arrays r' b' hb' p hp).2, ?_⟩
    · intro r' b' hb' p hp l
      obtain ⟨r, b, hb, hbn, hbox⟩ := hs.inside r' b' hb'
      simp only [setCells]
      rw [← hbn, perBlock_eq hs.child hb', perBlock_eq hs.parent hb]
      refine congrFun (congrArg Cl.Q (hK.eosP _ _ ?_)) l
      funext l
      have := h.q r' b' hb' p hp l
      rw [← hbn] at this
      exact this
    · exact ⟨fun _ _ _ _ _ _ => (h.stores _ _).1, fun _ _ _ _ _ _ => (h.stores _ _).2.1, fun _ _ _ _ _ _ => (h.stores _ _).2.2.1,
        fun _ _ _ _ _ _ => (h.stores _ _).2.2.2.1, fun _ _ _ _ _ _ => rfl, fun _ _ _ _ _ _ => rfl,
        fun _ _ _ _ _ _ => (h.stores _ _).2.2.2.2.2, fun _ _ _ _ _ _ => (h.stores _ _).2.2.2.2.1, h.time.1, h.time.2.1, h.time.2.2⟩
  have c := rel_consistify hng hs hK hI w
  have hQ0 := (c.cellQ hs).e0
  unfold bootstrap
  rw [init_none, init_none]
  exact ⟨c.full, { c.side with Qn := hQ0, Qnm1 := hQ0 }⟩

/-- C91: start the undivided case `W` and any decomposition `W'` of it from the same initial primitives, with the same grid
    and boundary conditions, and run both with the same integrator and the same time steps. Then at every moment every cell
    of the decomposition holds exactly the conserved and primitive variables which the undivided case holds in that cell, and
    the clocks agree: for every split, rank distribution, orientation of connections, halo depth, integrator, number and size
    of steps, and for all kernels that read no more cells than those of the code. Partial: this does not cover the
    mixed-scale subgrid model, and for dual time stepping needs that the cut makes no direction one cell thick; see
    `C91_thin_violated` and `C91_edge_violated`. -/
theorem C91_decomposition_partial (hng : 0 < ng) (hs : Split ng W' W par off) (hK : LocalKernels ng K) (hQ : EosFromQ K)
    (hI : SameInput ng W' W par off I' I) (J : Integrator) (hJ : Needs W' W par J) (s' s : St Entry (Aux S))
    (h : SameStart ng W' W par off s' s) (dts : List ℝ) (r' : Nat) (b' : Block) (hb' : Owns W' r' b') (p : Pos)
    (hp : InBox 0 b'.dims p) :
    let a' := run (env K I' ng W') J dts (bootstrap K I' ng W' s')
    let a := run (env K I ng W) J dts (bootstrap K I ng W s)
    (∀ l, a'.core.Q (b'.nblki, p, l) = a.core.Q (par b'.nblki, p + off b'.nblki, l)) ∧
    (∀ l, a'.core.q (b'.nblki, p, l) = a.core.q (par b'.nblki, p + off b'.nblki, l)) ∧
    a'.nrt = a.nrt ∧ a'.tme = a.tme := by
  have hr := rel_run hng hs hK hI J hJ (fun _ => hQ) dts (rel_bootstrap hng hs hK hQ hI h)
  exact ⟨fun l => hr.cellQ hs r' b' hb' p (Or.inl hp) l, fun l => hr.cellq hs r' b' hb' p (Or.inl hp) l, hr.side.nrt, hr.side.tme⟩

/-- C91 (two decompositions): two decompositions of the same case agree wherever their blocks overlap. -/
theorem C91_two_decompositions_partial (hng : 0 < ng) {W₂ : List (List Block)} {par₂ : Nat → Nat} {off₂ : Nat → Pos} {I₂ : Inp S}
    (hs : Split ng W' W par off) (hs₂ : Split ng W₂ W par₂ off₂) (hK : LocalKernels ng K) (hQ : EosFromQ K)
    (hI : SameInput ng W' W par off I' I) (hI₂ : SameInput ng W₂ W par₂ off₂ I₂ I) (J : Integrator) (hJ : Needs W' W par J)
    (hJ₂ : Needs W₂ W par₂ J) (s' s₂ s : St Entry (Aux S)) (h : SameStart ng W' W par off s' s)
    (h₂ : SameStart ng W₂ W par₂ off₂ s₂ s) (dts : List ℝ) (r' : Nat) (b' : Block) (hb' : Owns W' r' b') (p' : Pos)
    (hp' : InBox 0 b'.dims p') (r₂ : Nat) (b₂ : Block) (hb₂ : Owns W₂ r₂ b₂) (p₂ : Pos) (hp₂ : InBox 0 b₂.dims p₂)
    (hsame : par b'.nblki = par₂ b₂.nblki ∧ p' + off b'.nblki = p₂ + off₂ b₂.nblki) (l : Nat) :
    (run (env K I' ng W') J dts (bootstrap K I' ng W' s')).core.q (b'.nblki, p', l) =
      (run (env K I₂ ng W₂) J dts (bootstrap K I₂ ng W₂ s₂)).core.q (b₂.nblki, p₂, l) := by
  have h1 := (C91_decomposition_partial hng hs hK hQ hI J hJ s' s h dts r' b' hb' p' hp').2.1 l
  have h2 := (C91_decomposition_partial hng hs₂ hK hQ hI₂ J hJ₂ s₂ s h₂ dts r₂ b₂ hb₂ p₂ hp₂).2.1 l
  rw [h1, h2, hsame.1, hsame.2]

/-- the same blocks on other ranks: same numbers, sizes and connections -/
structure SameBlocks (W' W : List (List Block)) : Prop where
  there : ∀ r' b', Owns W' r' b' → ∃ r b, Owns W r b ∧ b.nblki = b'.nblki ∧ b.dims = b'.dims ∧
    ∀ f' ∈ b'.faces, ∃ f ∈ b.faces, f.nface = f'.nface ∧ f.neighbor = f'.neighbor ∧ f.ori = f'.ori

theorem split_same (hw' : WellConnected W') (hw : WellConnected W) (ht : Thick ng W')
    (h6 : ∀ r' b', Owns W' r' b' → ∀ nf, 1 ≤ nf → nf ≤ 6 → ∃ f ∈ b'.faces, f.nface = nf) (hb : SameBlocks W' W) :
    Split ng W' W id (fun _ => 0) := by
  have same : ∀ {r' b' r b}, Owns W' r' b' → Owns W r b → b.nblki = b'.nblki → b.dims = b'.dims ∧
      ∀ f' ∈ b'.faces, ∃ f ∈ b.faces, f.nface = f'.nface ∧ f.neighbor = f'.neighbor ∧ f.ori = f'.ori := by
    intro r' b' r b h1 h2 e
    obtain ⟨r2, b2, h3, e3, hd, hf⟩ := hb.there r' b' h1
    obtain ⟨-, rfl⟩ := hw.uniq _ _ _ _ h2 h3 (e.trans e3.symm)
    exact ⟨hd, hf⟩
  have touch : ∀ nf (d : Dims), Touches nf d d (0 : Pos) := by
    intro nf d; unfold Touches; split_ifs <;> simp
  have mv : ∀ c, moved (0 : Pos) c = c := by
    intro c; funext i; unfold moved nat; split_ifs <;> simp
  refine ⟨hw', hw, ht, ?_, h6, ?_, ?_⟩
  · intro r' b' h1
    obtain ⟨r, b, h2, e, hd, -⟩ := hb.there r' b' h1
    exact ⟨r, b, h2, e, fun a => by simp [hd]⟩
  · intro r' b' h1 r b h2 e f' hf' _
    obtain ⟨hd, hfs⟩ := same h1 h2 e
    obtain ⟨f, hf, e1, e2, e3⟩ := hfs f' hf'
    refine ⟨f, hf, e1, fun hn => by rw [e2, hn], fun nb hnb => ⟨by rw [e2, hnb]; rfl, ?_⟩⟩
    intro r2 b2' h3 e4 r3 b2 h4 e5 c c' hg
    rw [e4.symm] at e5
    rw [mv, mv, e1, e3, hd, (same h3 h4 e5).1]
    exact hg
  · intro r' b' h1 r b h2 e f' hf' hn
    exact absurd (by rw [(same h1 h2 e).1]; exact touch _ _) hn

/-- C91 (ranks): how the blocks are distributed over the ranks does not matter: all blocks on one rank, or any other
    distribution, give the same solution. -/
theorem C91_rank_distribution (hng : 0 < ng) (hw' : WellConnected W') (hw : WellConnected W) (ht : Thick ng W')
    (h6 : ∀ r' b', Owns W' r' b' → ∀ nf, 1 ≤ nf → nf ≤ 6 → ∃ f ∈ b'.faces, f.nface = nf) (hb : SameBlocks W' W)
    (hK : LocalKernels ng K) (hQ : EosFromQ K) (hI : LocalBC ng I) (J : Integrator) (s : St Entry (Aux S))
    (hz : ∀ i j, s.Q0 i = s.Q0 j ∧ s.Q1 i = s.Q1 j ∧ s.Q2 i = s.Q2 j ∧ s.Q3 i = s.Q3 j ∧ s.dQ i = s.dQ j ∧ s.dtau i = s.dtau j)
    (dts : List ℝ) (r' : Nat) (b' : Block) (hb' : Owns W' r' b') (p : Pos) (hp : InBox 0 b'.dims p) (l : Nat) :
    (run (env K I ng W') J dts (bootstrap K I ng W' s)).core.Q (b'.nblki, p, l) =
      (run (env K I ng W) J dts (bootstrap K I ng W s)).core.Q (b'.nblki, p, l) ∧
    (run (env K I ng W') J dts (bootstrap K I ng W' s)).core.q (b'.nblki, p, l) =
      (run (env K I ng W) J dts (bootstrap K I ng W s)).core.q (b'.nblki, p, l) := by
  have hs := split_same hw' hw ht h6 hb
  have same : ∀ {r' b' r b}, Owns W' r' b' → Owns W r b → b.nblki = b'.nblki → b.dims = b'.dims := by
    intro r' b' r b h1 h2 e
    obtain ⟨r2, b2, h3, e3, hd, -⟩ := hb.there r' b' h1
    obtain ⟨-, rfl⟩ := hw.uniq _ _ _ _ h2 h3 (e.trans e3.symm)
    exact hd
  have hin : SameInput ng W' W id (fun _ => 0) I I := by
    refine ⟨fun _ _ _ p _ => by simp, ?_, ?_, hI, hI⟩
    · intro r' b' h1 r b h2 e nf _ _ _ t p
      rw [e]; simp
    · intro r' b' h1 r b h2 e nf _ _ hn
      refine absurd ?_ hn
      rw [same h1 h2 e]
      unfold Touches; split_ifs <;> simp
  have hJ : Needs W' W id J := by
    cases J <;> try trivial
    intro r' b' h1 r b h2 e a ha
    rw [same h1 h2 e]; exact ha
  have hst : SameStart ng W' W id (fun _ => 0) s s :=
    ⟨fun _ _ _ p _ l => by simp, fun _ _ _ p _ => by simp, hz, rfl, rfl, rfl⟩
  have := C91_decomposition_partial hng hs hK hQ hin J hJ s s hst dts r' b' hb' p hp
  simp only [id_eq, add_zero] at this
  exact ⟨this.1 l, this.2.1 l⟩

end PG.Whole
