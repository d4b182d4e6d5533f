import Verif.FV.Model
/-
C09, C10: flux application is conservative; blended application uses complementary face weights.
-/
namespace PG.FV
open Finset

/-! ### Specification -/

/-- Sum of `f` over the interior cells of a block. -/
noncomputable def interiorSum (b : Dims) (f : ℕ → ℕ → ℕ → ℝ) : ℝ :=
  ∑ x ∈ range (b.ni - 1), ∑ y ∈ range (b.nj - 1), ∑ z ∈ range (b.nk - 1), f (b.ng + x) (b.ng + y) (b.ng + z)

/-- Net inflow of component `l` through the six sides of the interior region. -/
noncomputable def boundaryInflow (b : Dims) (F : Fluxes) (l : ℕ) : ℝ :=
  (∑ y ∈ range (b.nj - 1), ∑ z ∈ range (b.nk - 1),
      (F.iF b.ng (b.ng + y) (b.ng + z) l - F.iF (b.ng + (b.ni - 1)) (b.ng + y) (b.ng + z) l))
  + (∑ x ∈ range (b.ni - 1), ∑ z ∈ range (b.nk - 1),
      (F.jF (b.ng + x) b.ng (b.ng + z) l - F.jF (b.ng + x) (b.ng + (b.nj - 1)) (b.ng + z) l))
  + (∑ x ∈ range (b.ni - 1), ∑ y ∈ range (b.nj - 1),
      (F.kF (b.ng + x) (b.ng + y) b.ng l - F.kF (b.ng + x) (b.ng + y) (b.ng + (b.nk - 1)) l))

/-- Value of the switch on a face: the larger of the two adjacent cells. -/
noncomputable def facePhi (phi : A4) : Fluxes where
  iF i j k _ := max (phi i j k 0) (phi (i-1) j k 0)
  jF i j k _ := max (phi i j k 1) (phi i (j-1) k 1)
  kF i j k _ := max (phi i j k 2) (phi i j (k-1) 2)

/-- Face-wise blend `(1 - φ) F1 + φ F2`. -/
noncomputable def blend (phi : A4) (F1 F2 : Fluxes) : Fluxes where
  iF i j k l := (1 - (facePhi phi).iF i j k l) * F1.iF i j k l + (facePhi phi).iF i j k l * F2.iF i j k l
  jF i j k l := (1 - (facePhi phi).jF i j k l) * F1.jF i j k l + (facePhi phi).jF i j k l * F2.jF i j k l
  kF i j k l := (1 - (facePhi phi).kF i j k l) * F1.kF i j k l + (facePhi phi).kF i j k l * F2.kF i j k l

/-- Face-wise difference `F1 - D`. -/
noncomputable def minus (F1 D : Fluxes) : Fluxes where
  iF i j k l := F1.iF i j k l - D.iF i j k l
  jF i j k l := F1.jF i j k l - D.jF i j k l
  kF i j k l := F1.kF i j k l - D.kF i j k l

/-! ### Lemmas -/

theorem tele (f : ℕ → ℝ) (n : ℕ) : ∑ x ∈ range n, (f x - f (x+1)) = f 0 - f n := by
  induction n with
  | zero => simp
  | succ n ih => rw [sum_range_succ, ih]; ring

theorem inRange_of (b : Dims) (l : ℕ) (hl : l < b.ne) (x y z : ℕ) (hx : x < b.ni - 1) (hy : y < b.nj - 1)
    (hz : z < b.nk - 1) : InRange b (b.ng + x) (b.ng + y) (b.ng + z) l := by
  unfold InRange; omega

/-- Cells outside the interior are never touched. -/
theorem applyFlux_outside (b : Dims) (J : A3) (F : Fluxes) (dQ : A4) (i j k l : ℕ) (h : ¬ InRange b i j k l) :
    applyFlux b J F dQ i j k l = dQ i j k l := if_neg h

/-! ### C09 -/

/-- C09: zeroing dQ and applying the fluxes, the volume-weighted interior sum of dQ is the net flux through the block
    boundary, for every component. -/
theorem C09_conservation (b : Dims) (J : A3) (F : Fluxes) (l : ℕ) (hl : l < b.ne) (hJ : ∀ i j k, J i j k ≠ 0) :
    interiorSum b (fun i j k => J i j k * rhsPlain b J F i j k l) = boundaryInflow b F l := by
  have hcell : ∀ x ∈ range (b.ni - 1), ∀ y ∈ range (b.nj - 1), ∀ z ∈ range (b.nk - 1),
      J (b.ng + x) (b.ng + y) (b.ng + z) * rhsPlain b J F (b.ng + x) (b.ng + y) (b.ng + z) l
      = (F.iF (b.ng + x) (b.ng + y) (b.ng + z) l - F.iF (b.ng + (x+1)) (b.ng + y) (b.ng + z) l)
      + (F.jF (b.ng + x) (b.ng + y) (b.ng + z) l - F.jF (b.ng + x) (b.ng + (y+1)) (b.ng + z) l)
      + (F.kF (b.ng + x) (b.ng + y) (b.ng + z) l - F.kF (b.ng + x) (b.ng + y) (b.ng + (z+1)) l) := by
    intro x hx y hy z hz
    rw [mem_range] at hx hy hz
    have hj := hJ (b.ng + x) (b.ng + y) (b.ng + z)
    unfold rhsPlain applyFlux
    rw [if_pos (inRange_of b l hl x y z hx hy hz)]
    simp only [dQzero]
    field_simp
    ring_nf
  unfold interiorSum
  rw [sum_congr rfl (fun x hx => sum_congr rfl (fun y hy => sum_congr rfl (fun z hz => hcell x hx y hy z hz)))]
  simp only [sum_add_distrib]
  unfold boundaryInflow
  congr 1
  · congr 1
    · rw [sum_comm]
      refine sum_congr rfl (fun y _ => ?_)
      rw [sum_comm]
      refine sum_congr rfl (fun z _ => ?_)
      exact tele (fun x => F.iF (b.ng + x) (b.ng + y) (b.ng + z) l) (b.ni - 1)
    · refine sum_congr rfl (fun x _ => ?_)
      rw [sum_comm]
      refine sum_congr rfl (fun z _ => ?_)
      exact tele (fun y => F.jF (b.ng + x) (b.ng + y) (b.ng + z) l) (b.nj - 1)
  · refine sum_congr rfl (fun x _ => sum_congr rfl (fun y _ => ?_))
    exact tele (fun z => F.kF (b.ng + x) (b.ng + y) (b.ng + z) l) (b.nk - 1)

/-- C09: flux application changes no halo cell and no component beyond `ne`. -/
theorem C09_halo_untouched (b : Dims) (J : A3) (F : Fluxes) (dQ : A4) (i j k l : ℕ)
    (h : ¬ ((b.ng ≤ i ∧ i + 1 < b.ni + b.ng) ∧ (b.ng ≤ j ∧ j + 1 < b.nj + b.ng) ∧ (b.ng ≤ k ∧ k + 1 < b.nk + b.ng)
      ∧ l < b.ne)) :
    applyFlux b J F dQ i j k l = dQ i j k l := by
  apply applyFlux_outside
  intro h'; apply h; unfold InRange at h'; omega

/-! ### C10 -/

/-- C10: the sequence primary(1.0) then secondary(0.0) acts exactly as one application of the face-wise blend
    `(1-φ) F1 + φ F2`, where `φ` on a face is the larger of the two adjacent cells' values: the two weights sum to one
    and the two cells of a face use the same weights. -/
theorem C10_hybrid_is_blend (b : Dims) (_hg : 1 ≤ b.ng) (J : A3) (phi : A4) (F1 F2 : Fluxes) :
    rhsHybrid b J phi F1 F2 = applyFlux b J (blend phi F1 F2) dQzero := by
  funext i j k l
  unfold rhsHybrid applyHybridFlux applyFlux
  by_cases h : InRange b i j k l
  · simp only [if_pos h, blend, facePhi, dQzero, Nat.add_sub_cancel]
    rw [max_comm (phi (i+1) j k 0), max_comm (phi i (j+1) k 1), max_comm (phi i j (k+1) 2)]
    ring
  · simp only [if_neg h]

/-- C10: blended application is conservative for every switch field. -/
theorem C10_hybrid_conservation (b : Dims) (hg : 1 ≤ b.ng) (J : A3) (phi : A4) (F1 F2 : Fluxes) (l : ℕ) (hl : l < b.ne)
    (hJ : ∀ i j k, J i j k ≠ 0) :
    interiorSum b (fun i j k => J i j k * rhsHybrid b J phi F1 F2 i j k l) = boundaryInflow b (blend phi F1 F2) l := by
  rw [C10_hybrid_is_blend b hg]
  exact C09_conservation b J _ l hl hJ

/-- C10: switch everywhere zero: only the primary flux acts; everywhere one: only the secondary. -/
theorem C10_switch_extremes (b : Dims) (hg : 1 ≤ b.ng) (J : A3) (phi : A4) (F1 F2 : Fluxes) :
    ((∀ i j k d, phi i j k d = 0) → rhsHybrid b J phi F1 F2 = rhsPlain b J F1) ∧
    ((∀ i j k d, phi i j k d = 1) → rhsHybrid b J phi F1 F2 = rhsPlain b J F2) := by
  constructor <;> intro h <;> rw [C10_hybrid_is_blend b hg] <;> unfold rhsPlain <;> congr 1 <;>
    simp [blend, facePhi, h]

/-- C10: scalar dissipation acts as subtracting its face flux from the primary one, hence is conservative too. -/
theorem C10_dissipation_conservation (b : Dims) (J : A3) (F1 D : Fluxes) (l : ℕ) (hl : l < b.ne)
    (hJ : ∀ i j k, J i j k ≠ 0) :
    rhsDissipation b J F1 D = applyFlux b J (minus F1 D) dQzero ∧
    interiorSum b (fun i j k => J i j k * rhsDissipation b J F1 D i j k l) = boundaryInflow b (minus F1 D) l := by
  have h : rhsDissipation b J F1 D = applyFlux b J (minus F1 D) dQzero := by
    funext i j k l
    unfold rhsDissipation applyDissipationFlux applyFlux
    by_cases h : InRange b i j k l
    · simp only [if_pos h, minus, dQzero]; ring
    · simp only [if_neg h]
  exact ⟨h, by rw [h]; exact C09_conservation b J _ l hl hJ⟩

/-- C10: with switch values in [0,1] the face weights of both fluxes lie in [0,1]. -/
theorem C10_weights_unit (phi : A4) (h : ∀ i j k d, 0 ≤ phi i j k d ∧ phi i j k d ≤ 1) (i j k l : ℕ) :
    (0 ≤ (facePhi phi).iF i j k l ∧ (facePhi phi).iF i j k l ≤ 1) ∧
    (0 ≤ (facePhi phi).jF i j k l ∧ (facePhi phi).jF i j k l ≤ 1) ∧
    (0 ≤ (facePhi phi).kF i j k l ∧ (facePhi phi).kF i j k l ≤ 1) := by
  simp only [facePhi]
  exact ⟨⟨le_trans (h _ _ _ _).1 (le_max_left _ _), max_le (h _ _ _ _).2 (h _ _ _ _).2⟩,
    ⟨le_trans (h _ _ _ _).1 (le_max_left _ _), max_le (h _ _ _ _).2 (h _ _ _ _).2⟩,
    ⟨le_trans (h _ _ _ _).1 (le_max_left _ _), max_le (h _ _ _ _).2 (h _ _ _ _).2⟩⟩

/-! Non-vacuity: a 2x1x1-cell block; both sides are nonzero. -/
noncomputable def exF : Fluxes := ⟨fun i _ _ _ => i * i, fun _ j _ _ => j, fun _ _ _ _ => 0⟩
example : (0:ℕ) < (Dims.mk 3 2 2 1 5).ne ∧ (∀ i j k : ℕ, (fun _ _ _ => (2:ℝ)) i j k ≠ 0) ∧
    boundaryInflow ⟨3, 2, 2, 1, 5⟩ exF 0 = -10 := by
  refine ⟨by decide, fun _ _ _ => by norm_num, ?_⟩
  simp [boundaryInflow, exF]
  norm_num

end PG.FV
