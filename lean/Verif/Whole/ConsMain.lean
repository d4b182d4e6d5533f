import Verif.Whole.ConsSync
import Mathlib.Algebra.BigOperators.Group.Finset.Sigma
/-!
C93: what one evaluation of the right-hand side changes in total is what passes the unconnected faces.
-/
noncomputable section
namespace PG.Whole
open PG.Topo PG.Halo PG.Time

variable {S : Sig} {ng : Nat} {W : List (List Block)} {K : Kernels S} {I : Inp S} {l : Nat}

theorem flux_congr (C : Conservative ng K l) (γ : C.Γ) {L L' : Int → Cl S × S.P}
    (h1 : ∀ u, -(ng : Int) ≤ u → u < ng → (L' u).1 = (L u).1) (h2 : ∀ u, -1 ≤ u → u < 1 → (L' u).2 = (L u).2) :
    C.flux γ L' = C.flux γ L := C.congr γ L L' h1 h2

theorem fluxV_congr (C : Conservative ng K l) (γ : C.Γ) {L L' : Int → Cl S × S.T × S.D} (h : ∀ u, -1 ≤ u → u < 1 → L' u = L u) :
    C.fluxV γ L' = C.fluxV γ L := C.congrV γ L L' h

/-- the two sides of a connected face have the same face -/
theorem mate_vec {C : Conservative ng K l} (hw : WellConnected W) (hF : SameFaces C I W) {x x' : Block × Nat × Pos} (h : Mate W x x') :
    faceVec C I x'.1 x'.2.1 x'.2.2 =
      if isLow x.2.1 = isLow x'.2.1 then C.neg (faceVec C I x.1 x.2.1 x.2.2) else faceVec C I x.1 x.2.1 x.2.2 := by
  obtain ⟨⟨r, hb⟩, ⟨r', hb'⟩, hp, hp', f, hf, hfn, hnb, e1, -, hg⟩ := h
  rw [mem_faceCells] at hp hp'
  have := hF.face r _ hb f hf _ hnb r' _ hb' rfl _ e1 _ _ hp.1 (by rw [hfn]; exact hp.2) hp'.1 hg
  rw [hfn] at this
  exact this

theorem mate_turns {C : Conservative ng K l} (hF : SameFaces C I W) {x x' : Block × Nat × Pos} (h : Mate W x x')
    (hl : isLow x.2.1 = isLow x'.2.1) : C.turns := by
  obtain ⟨⟨r, hb⟩, -, -, -, f, hf, hfn, hnb, e1, -⟩ := h
  exact hF.turn r _ hb f hf (by rw [hnb]; simp) _ e1 (by rw [hfn]; exact hl)

theorem inflow_mate {C : Conservative ng K l} (hng : 0 < ng) (hw : WellConnected W) (ht : Thick ng W) (hF : SameFaces C I W)
    {s : State S} (hs : Synced ng W s) {x x' : Block × Nat × Pos} (h : Mate W x x') :
    inflow C I s x'.1 x'.2.1 x'.2.2 = - inflow C I s x.1 x.2.1 x.2.2 := by
  have hv := mate_vec hw hF h
  have hc := fun u h1 h2 => mate_line hw (m := ng) (fun r b hb a => thick_top ht hb a) hs.cells h (u := u) h1 h2
  have hph := fun u h1 h2 => mate_line hw (m := 1) (fun r b hb a => by have := dims_top hw hb a; omega) hs.phi h (u := u) h1 h2
  unfold inflow
  rw [hv]
  generalize faceVec C I x.1 x.2.1 x.2.2 = γ
  cases hl : isLow x.2.1 <;> cases hl' : isLow x'.2.1 <;> simp only [if_true, if_false, Bool.false_eq_true, reduceCtorEq]
  · rw [C.odd (mate_turns hF h (hl.trans hl'.symm)) γ (fun u => (cell s x.1.nblki (along x.2.1 x.1.dims x.2.2 (-1 - u)), s.aux.phi x.1.nblki (along x.2.1 x.1.dims x.2.2 (-1 - u))))]
    · ring
    · intro u h1 h2; dsimp only; rw [hc _ (by omega) (by omega)]
    · intro u h1 h2; dsimp only; rw [hph _ (by omega) (by omega)]
  · rw [flux_congr C γ (L := fun u => (cell s x.1.nblki (along x.2.1 x.1.dims x.2.2 (-1 - u)), s.aux.phi x.1.nblki (along x.2.1 x.1.dims x.2.2 (-1 - u))))]
    · ring
    · intro u h1 h2; dsimp only; rw [hc _ (by omega) (by omega)]
    · intro u h1 h2; dsimp only; rw [hph _ (by omega) (by omega)]
  · rw [flux_congr C γ (L := fun u => (cell s x.1.nblki (along x.2.1 x.1.dims x.2.2 u), s.aux.phi x.1.nblki (along x.2.1 x.1.dims x.2.2 u)))]
    · ring
    · intro u h1 h2; dsimp only; rw [hc _ (by omega) (by omega), show -1 - (-1 - u) = u by omega]
    · intro u h1 h2; dsimp only; rw [hph _ (by omega) (by omega), show -1 - (-1 - u) = u by omega]
  · rw [C.odd (mate_turns hF h (hl.trans hl'.symm)) γ (fun u => (cell s x.1.nblki (along x.2.1 x.1.dims x.2.2 u), s.aux.phi x.1.nblki (along x.2.1 x.1.dims x.2.2 u)))]
    · ring
    · intro u h1 h2; dsimp only; rw [hc _ (by omega) (by omega)]
    · intro u h1 h2; dsimp only; rw [hph _ (by omega) (by omega)]

theorem inflowV_mate {C : Conservative ng K l} (hng : 0 < ng) (hw : WellConnected W) (ht : Thick ng W) (hF : SameFaces C I W)
    {s : State S} (hs : Synced ng W s) (hq : Alike W 1 s.aux.dq) {x x' : Block × Nat × Pos} (h : Mate W x x') :
    inflowV C I s x'.1 x'.2.1 x'.2.2 = - inflowV C I s x.1 x.2.1 x.2.2 := by
  have hv := mate_vec hw hF h
  have hline : ∀ u, -1 ≤ u → u < 1 →
      (cell s x'.1.nblki (along x'.2.1 x'.1.dims x'.2.2 u), s.aux.qt x'.1.nblki (along x'.2.1 x'.1.dims x'.2.2 u),
        s.aux.dq x'.1.nblki (along x'.2.1 x'.1.dims x'.2.2 u)) =
      (cell s x.1.nblki (along x.2.1 x.1.dims x.2.2 (-1 - u)), s.aux.qt x.1.nblki (along x.2.1 x.1.dims x.2.2 (-1 - u)),
        s.aux.dq x.1.nblki (along x.2.1 x.1.dims x.2.2 (-1 - u))) := by
    intro u h1 h2
    have d : ∀ r b, Owns W r b → ∀ a, (1 : Int) ≤ top b.dims a + 1 := fun r b hb a => by have := dims_top hw hb a; omega
    rw [mate_line hw (m := 1) d (hs.cells.mono (by omega)) h h1 h2, mate_line hw (m := 1) d hs.qt h h1 h2, mate_line hw (m := 1) d hq h h1 h2]
  unfold inflowV
  rw [hv]
  generalize faceVec C I x.1 x.2.1 x.2.2 = γ
  cases hl : isLow x.2.1 <;> cases hl' : isLow x'.2.1 <;> simp only [if_true, if_false, Bool.false_eq_true, reduceCtorEq]
  · rw [C.oddV (mate_turns hF h (hl.trans hl'.symm)) γ (fun u => (cell s x.1.nblki (along x.2.1 x.1.dims x.2.2 (-1 - u)), s.aux.qt x.1.nblki (along x.2.1 x.1.dims x.2.2 (-1 - u)),
      s.aux.dq x.1.nblki (along x.2.1 x.1.dims x.2.2 (-1 - u))))]
    · ring
    · intro u h1 h2; exact hline _ (by omega) (by omega)
  · rw [fluxV_congr C γ (L := fun u => (cell s x.1.nblki (along x.2.1 x.1.dims x.2.2 (-1 - u)), s.aux.qt x.1.nblki (along x.2.1 x.1.dims x.2.2 (-1 - u)),
      s.aux.dq x.1.nblki (along x.2.1 x.1.dims x.2.2 (-1 - u))))]
    · ring
    · intro u h1 h2; exact hline _ (by omega) (by omega)
  · rw [fluxV_congr C γ (L := fun u => (cell s x.1.nblki (along x.2.1 x.1.dims x.2.2 u), s.aux.qt x.1.nblki (along x.2.1 x.1.dims x.2.2 u),
      s.aux.dq x.1.nblki (along x.2.1 x.1.dims x.2.2 u)))]
    · ring
    · intro u h1 h2
      have := hline (-1 - u) (by omega) (by omega)
      rw [show -1 - (-1 - u) = u by omega] at this
      exact this
  · rw [C.oddV (mate_turns hF h (hl.trans hl'.symm)) γ (fun u => (cell s x.1.nblki (along x.2.1 x.1.dims x.2.2 u), s.aux.qt x.1.nblki (along x.2.1 x.1.dims x.2.2 u),
      s.aux.dq x.1.nblki (along x.2.1 x.1.dims x.2.2 u)))]
    · ring
    · intro u h1 h2; exact hline _ (by omega) (by omega)

/-! ### sums over the faces of all blocks -/

theorem owns_flatten {b : Block} : b ∈ W.flatten ↔ ∃ r, Owns W r b := by
  unfold Owns
  rw [List.mem_flatten]
  constructor
  · rintro ⟨mb, h1, h2⟩
    obtain ⟨r, hr⟩ := List.mem_iff_getElem?.1 h1
    exact ⟨r, mb, hr, h2⟩
  · rintro ⟨r, mb, hr, h2⟩
    exact ⟨mb, List.mem_of_getElem? hr, h2⟩

theorem flatten_nodup (hw : WellConnected W) : W.flatten.Nodup := by
  rw [List.nodup_flatten]
  refine ⟨hw.nodup, ?_⟩
  rw [List.pairwise_iff_getElem]
  intro i j hi hj hij b h1 h2
  have := (hw.uniq i j b b ⟨_, List.getElem?_eq_getElem hi, h1⟩ ⟨_, List.getElem?_eq_getElem hj, h2⟩ rfl).1
  omega

open Classical in
theorem conn_cancel (hng : 0 < ng) (hw : WellConnected W) (ht : Thick ng W) (φ : Block → Nat → Pos → ℝ)
    (hφ : ∀ x x', Mate W x x' → φ x'.1 x'.2.1 x'.2.2 = - φ x.1 x.2.1 x.2.2) :
    (W.flatten.map fun b => ∑ nf ∈ (Finset.Icc 1 6).filter (fun nf => Connected b nf), ∑ p ∈ faceCells b.dims nf, φ b nf p).sum = 0 := by
  rw [← List.sum_toFinset _ (flatten_nodup hw)]
  simp only [Finset.sum_sigma']
  have hm : ∀ x ∈ W.flatten.toFinset.sigma fun b => ((Finset.Icc 1 6).filter fun nf => Connected b nf).sigma fun nf => faceCells b.dims nf,
      ∃ y : (_ : Block) × (_ : Nat) × Pos, Mate W (x.1, x.2.1, x.2.2) (y.1, y.2.1, y.2.2) ∧
        y ∈ W.flatten.toFinset.sigma fun b => ((Finset.Icc 1 6).filter fun nf => Connected b nf).sigma fun nf => faceCells b.dims nf := by
    intro x hx
    simp only [Finset.mem_sigma, List.mem_toFinset, owns_flatten, Finset.mem_filter, Finset.mem_Icc] at hx
    obtain ⟨⟨r, hb⟩, ⟨-, hc⟩, hp⟩ := hx
    obtain ⟨⟨b', nf', p'⟩, h, hc'⟩ := mate_exists hng hw ht hb hc hp
    refine ⟨⟨b', nf', p'⟩, h, ?_⟩
    obtain ⟨-, ⟨r', hb'⟩, -, hp', -⟩ := h
    simp only [Finset.mem_sigma, List.mem_toFinset, owns_flatten, Finset.mem_filter, Finset.mem_Icc]
    have hc2 := hc'
    obtain ⟨f', hf', e, -⟩ := hc2
    exact ⟨⟨r', hb'⟩, ⟨by have := hw.nface_range r' b' hb' f' hf'; rw [e] at this; exact this, hc'⟩, hp'⟩
  refine Finset.sum_involution (fun x hx => Classical.choose (hm x hx)) ?_ ?_ ?_ ?_
  · intro x hx
    have := hφ _ _ (Classical.choose_spec (hm x hx)).1
    dsimp only at this
    rw [this]; ring
  · intro x hx hne e
    have := hφ _ _ (Classical.choose_spec (hm x hx)).1
    dsimp only at this
    rw [e] at this
    apply hne
    linarith
  · intro x hx
    exact (Classical.choose_spec (hm x hx)).2
  · intro x hx
    have h1 := (Classical.choose_spec (hm x hx)).1
    have h2 := (Classical.choose_spec (hm _ (Classical.choose_spec (hm x hx)).2)).1
    have := mate_unique hw h2 (mate_symm hw h1)
    simp only [Prod.mk.injEq] at this
    refine Sigma.ext this.1 (heq_of_eq ?_)
    refine Sigma.ext this.2.1 (heq_of_eq this.2.2)

/-- the cells of a block: what is exchanged between cells cancels -/
theorem block_balance (d : Dims) (F : Fin 3 → Pos → ℝ) (φ : Nat → Pos → ℝ)
    (h1 : ∀ (a : Fin 3), ∀ p ∈ faceCells d (2 * (a : Nat) + 1), φ (2 * (a : Nat) + 1) p = F a p)
    (h2 : ∀ (a : Fin 3), ∀ p ∈ faceCells d (2 * (a : Nat) + 2), φ (2 * (a : Nat) + 2) p = - F a (shift p a 1)) :
    ∑ p ∈ cells d, ∑ a, (F a p - F a (shift p a 1)) = ∑ nf ∈ Finset.Icc 1 6, ∑ p ∈ faceCells d nf, φ nf p := by
  rw [Finset.sum_comm, sum_faces]
  refine Finset.sum_congr rfl fun a _ => ?_
  rw [tele_axis, Finset.sum_congr rfl (h1 a), Finset.sum_congr rfl (h2 a), Finset.sum_neg_distrib]
  ring

theorem low_line {d : Dims} {a : Fin 3} {p : Pos} (hp : p ∈ faceCells d (2 * (a : Nat) + 1)) (t : Int) :
    along (2 * (a : Nat) + 1) d p t = shift p a t := by
  rw [mem_faceCells] at hp
  obtain ⟨e1, e2⟩ := lowFace_val a
  have := hp.2
  funext c
  simp only [dep, along, shift, e1, e2, if_true] at this ⊢
  by_cases h : c = a
  · subst h; simp only [if_true]; omega
  · simp only [if_neg h]

theorem high_line {d : Dims} {a : Fin 3} {p : Pos} (hp : p ∈ faceCells d (2 * (a : Nat) + 2)) (t : Int) :
    along (2 * (a : Nat) + 2) d p (-1 - t) = shift (shift p a 1) a t := by
  rw [mem_faceCells] at hp
  obtain ⟨e1, e2⟩ := highFace_val a
  have := hp.2
  rw [shift_shift]
  funext c
  simp only [dep, along, shift, e1, e2, Bool.false_eq_true, if_false] at this ⊢
  by_cases h : c = a
  · subst h; simp only [if_true]; omega
  · simp only [if_neg h]

theorem inflow_low (C : Conservative ng K l) (s : State S) (b : Block) (a : Fin 3) {p : Pos}
    (hp : p ∈ faceCells b.dims (2 * (a : Nat) + 1)) :
    inflow C I s b (2 * (a : Nat) + 1) p = C.flux (C.vec a fun t => I.geo b.nblki (shift p a t))
      (fun t => (cell s b.nblki (shift p a t), s.aux.phi b.nblki (shift p a t))) := by
  obtain ⟨e1, e2⟩ := lowFace_val a
  simp only [inflow, faceVec, e2, if_true, low_line hp, one_mul, e1]

theorem inflow_high (C : Conservative ng K l) (s : State S) (b : Block) (a : Fin 3) {p : Pos}
    (hp : p ∈ faceCells b.dims (2 * (a : Nat) + 2)) :
    inflow C I s b (2 * (a : Nat) + 2) p = - C.flux (C.vec a fun t => I.geo b.nblki (shift (shift p a 1) a t))
      (fun t => (cell s b.nblki (shift (shift p a 1) a t), s.aux.phi b.nblki (shift (shift p a 1) a t))) := by
  obtain ⟨e1, e2⟩ := highFace_val a
  simp only [inflow, faceVec, e2, Bool.false_eq_true, if_false, high_line hp, e1]
  ring

theorem inflowV_low (C : Conservative ng K l) (s : State S) (b : Block) (a : Fin 3) {p : Pos}
    (hp : p ∈ faceCells b.dims (2 * (a : Nat) + 1)) :
    inflowV C I s b (2 * (a : Nat) + 1) p = C.fluxV (C.vec a fun t => I.geo b.nblki (shift p a t))
      (fun t => (cell s b.nblki (shift p a t), s.aux.qt b.nblki (shift p a t), s.aux.dq b.nblki (shift p a t))) := by
  obtain ⟨e1, e2⟩ := lowFace_val a
  simp only [inflowV, faceVec, e2, if_true, low_line hp, one_mul, e1]

theorem inflowV_high (C : Conservative ng K l) (s : State S) (b : Block) (a : Fin 3) {p : Pos}
    (hp : p ∈ faceCells b.dims (2 * (a : Nat) + 2)) :
    inflowV C I s b (2 * (a : Nat) + 2) p = - C.fluxV (C.vec a fun t => I.geo b.nblki (shift (shift p a 1) a t))
      (fun t => (cell s b.nblki (shift (shift p a 1) a t), s.aux.qt b.nblki (shift (shift p a 1) a t),
        s.aux.dq b.nblki (shift (shift p a 1) a t))) := by
  obtain ⟨e1, e2⟩ := highFace_val a
  simp only [inflowV, faceVec, e2, Bool.false_eq_true, if_false, high_line hp, e1]
  ring

theorem shift_zero (p : Pos) (d : Fin 3) : shift p d 0 = p := by funext a; unfold shift; split_ifs <;> omega

theorem advective_sum (C : Conservative ng K l) (s : State S) (b : Block) :
    ∑ p ∈ cells b.dims, C.vol (I.geo b.nblki p) * advective K I s b p l =
      ∑ nf ∈ Finset.Icc 1 6, ∑ p ∈ faceCells b.dims nf, inflow C I s b nf p := by
  rw [← block_balance b.dims (fun a x => C.flux (C.vec a fun t => I.geo b.nblki (shift x a t))
      (fun t => (cell s b.nblki (shift x a t), s.aux.phi b.nblki (shift x a t)))) (inflow C I s b)
    (fun a p hp => inflow_low C s b a hp) (fun a p hp => inflow_high C s b a hp)]
  refine Finset.sum_congr rfl fun p hp => ?_
  rw [mem_cells] at hp
  have h := C.adv (fun d t => (cell s b.nblki (shift p d t), I.geo b.nblki (shift p d t), s.aux.phi b.nblki (shift p d t)))
    (I.geo b.nblki p) (fun d => by dsimp only; rw [shift_zero])
  simp only [advective, if_pos hp, shift_shift]
  exact h

theorem diffusive_sum (C : Conservative ng K l) (hd : K.diffusion = true) (s : State S) (b : Block) (dQ : Pos → Vec) :
    ∑ p ∈ cells b.dims, C.vol (I.geo b.nblki p) * diffusive K I s b dQ p l =
      ∑ p ∈ cells b.dims, C.vol (I.geo b.nblki p) * dQ p l
        + ∑ nf ∈ Finset.Icc 1 6, ∑ p ∈ faceCells b.dims nf, inflowV C I s b nf p := by
  rw [← block_balance b.dims (fun a x => C.fluxV (C.vec a fun t => I.geo b.nblki (shift x a t))
      (fun t => (cell s b.nblki (shift x a t), s.aux.qt b.nblki (shift x a t), s.aux.dq b.nblki (shift x a t)))) (inflowV C I s b)
    (fun a p hp => inflowV_low C s b a hp) (fun a p hp => inflowV_high C s b a hp), ← Finset.sum_add_distrib]
  refine Finset.sum_congr rfl fun p hp => ?_
  rw [mem_cells] at hp
  have h := C.visc hd (fun d t => (cell s b.nblki (shift p d t), I.geo b.nblki (shift p d t), s.aux.qt b.nblki (shift p d t), s.aux.dq b.nblki (shift p d t)))
    (I.geo b.nblki p) (dQ p) (fun d => by dsimp only; rw [shift_zero])
  simp only [diffusive, if_pos hp, shift_shift]
  exact h

/-- what the six faces of all blocks let in is what the unconnected faces let in -/
theorem all_faces (hng : 0 < ng) (hw : WellConnected W) (ht : Thick ng W) (φ : Block → Nat → Pos → ℝ)
    (hφ : ∀ x x', Mate W x x' → φ x'.1 x'.2.1 x'.2.2 = - φ x.1 x.2.1 x.2.2) :
    (W.flatten.map fun b => ∑ nf ∈ Finset.Icc 1 6, ∑ p ∈ faceCells b.dims nf, φ b nf p).sum = boundary W φ := by
  classical
  have h := conn_cancel hng hw ht φ hφ
  unfold boundary
  have e : (W.flatten.map fun b => ∑ nf ∈ Finset.Icc 1 6, ∑ p ∈ faceCells b.dims nf, φ b nf p).sum =
      (W.flatten.map fun b => ∑ nf ∈ (Finset.Icc 1 6).filter (fun nf => Connected b nf), ∑ p ∈ faceCells b.dims nf, φ b nf p).sum
      + (W.flatten.map fun b => ∑ nf ∈ (Finset.Icc 1 6).filter (fun nf => ¬ Connected b nf), ∑ p ∈ faceCells b.dims nf, φ b nf p).sum := by
    rw [← List.sum_map_add]
    congr 1
    refine List.map_congr_left fun b _ => ?_
    exact (Finset.sum_filter_add_sum_filter_not _ _ _).symm
  rw [e]
  have h' : (W.flatten.map fun b => ∑ nf ∈ (Finset.Icc 1 6).filter (fun nf => Connected b nf), ∑ p ∈ faceCells b.dims nf, φ b nf p).sum = 0 := by
    convert h
  rw [h', zero_add]

theorem rhs_total {C : Conservative ng K l} (hng : 0 < ng) (hw : WellConnected W) (ht : Thick ng W) (hF : SameFaces C I W)
    (hN : NullBC ng I W) (t : ℝ) {s : State S} (hs : Synced ng W s) :
    total C.vol I W l (rhs K I ng W t s).1 = supply C I W t s := by
  have hadv := all_faces hng hw ht (inflow C I s) (fun x x' h => inflow_mate hng hw ht hF hs h)
  have hpre := prepare_sync hng hw ht hF hN t hs
  have hvis := all_faces hng hw ht (inflowV C I (prepareDiffusion K I ng W t s))
    (fun x x' h => inflowV_mate hng hw ht hF hpre.1 hpre.2 h)
  unfold total supply
  rw [← hadv, ← hvis]
  cases hd : K.diffusion
  · simp only [Bool.false_eq_true, if_false, add_zero]
    congr 1
    refine List.map_congr_left fun b hb => ?_
    obtain ⟨r, hb⟩ := owns_flatten.1 hb
    rw [← advective_sum C s b]
    refine Finset.sum_congr rfl fun p hp => ?_
    rw [mem_cells] at hp
    simp only [rhs, hd, Bool.false_eq_true, if_false]
    rw [perBlock_eq hw hb, if_pos hp, C.chem, perBlock_eq hw hb]
  · simp only [if_true]
    rw [← List.sum_map_add]
    congr 1
    refine List.map_congr_left fun b hb => ?_
    obtain ⟨r, hb⟩ := owns_flatten.1 hb
    rw [← advective_sum C s b, ← diffusive_sum C hd]
    refine Finset.sum_congr rfl fun p hp => ?_
    rw [mem_cells] at hp
    simp only [rhs, hd, if_true]
    rw [perBlock_eq hw hb, if_pos hp, C.chem, perBlock_eq hw hb, perBlock_eq hw hb]

end PG.Whole
