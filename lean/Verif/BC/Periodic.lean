import Verif.BC.Layers
import Mathlib.Tactic.LinearCombination
import Mathlib.Tactic.NormNum
import Mathlib.Analysis.SpecialFunctions.Trigonometric.Basic
/-!
C33: rotational periodicity.
-/
noncomputable section
namespace PG.BC
open PG.Thermo V3

/-- the span in radians -/
def rad (span : ℝ) : ℝ := span * Real.pi / 180

theorem rotUp_eq (a : V3) (s : ℝ) : rotUp a s = rotMat a (Real.cos (rad s)) (Real.sin (rad s)) := rfl
theorem rotDown_eq (a : V3) (s : ℝ) : rotDown a s = rotMat a (Real.cos (rad s)) (-Real.sin (rad s)) := by
  show rotMat a (Real.cos (-rad s)) (Real.sin (-rad s)) = _
  rw [Real.cos_neg, Real.sin_neg]

/-- Rodrigues' formula for the matrix the code builds -/
theorem rot_rodrigues (a v : V3) (ct st : ℝ) :
    rot (rotMat a ct st) v = smul ct v + smul ((1 - ct) * dot a v) a + smul st (cross a v) := by
  ext <;> simp [rot, rotMat, dot] <;> ring

theorem dot_rot (a v w : V3) (ha : Unit3 a) (ct st : ℝ) (h : ct ^ 2 + st ^ 2 = 1) :
    dot (rot (rotMat a ct st) v) (rot (rotMat a ct st) w) = dot v w := by
  rw [rot_rodrigues, rot_rodrigues]
  change a.x * a.x + a.y * a.y + a.z * a.z = 1 at ha
  have hz : a.z * a.z = 1 - a.x * a.x - a.y * a.y := by linarith
  have hs : st ^ 2 = 1 - ct ^ 2 := by linarith
  simp only [dot, add_x, add_y, add_z, smul_x, smul_y, smul_z, cross_x, cross_y, cross_z]
  linear_combination ((1 - ct)^2 * (a.x * v.x + a.y * v.y + a.z * v.z) * (a.x * w.x + a.y * w.y + a.z * w.z)
    + st^2 * (v.x * w.x + v.y * w.y + v.z * w.z)) * ha
    + (v.x * w.x + v.y * w.y + v.z * w.z - (a.x * v.x + a.y * v.y + a.z * v.z) * (a.x * w.x + a.y * w.y + a.z * w.z)) * h

theorem rot_inv (a v : V3) (ha : Unit3 a) (ct st : ℝ) (h : ct ^ 2 + st ^ 2 = 1) :
    rot (rotMat a ct (-st)) (rot (rotMat a ct st) v) = v := by
  rw [rot_rodrigues, rot_rodrigues]
  change a.x * a.x + a.y * a.y + a.z * a.z = 1 at ha
  ext <;> simp only [dot, add_x, add_y, add_z, smul_x, smul_y, smul_z, cross_x, cross_y, cross_z]
  · linear_combination (v.x - a.x * (a.x * v.x + a.y * v.y + a.z * v.z)) * h
      + (st^2 * v.x + (1 - ct)^2 * a.x * (a.x * v.x + a.y * v.y + a.z * v.z)) * ha
  · linear_combination (v.y - a.y * (a.x * v.x + a.y * v.y + a.z * v.z)) * h
      + (st^2 * v.y + (1 - ct)^2 * a.y * (a.x * v.x + a.y * v.y + a.z * v.z)) * ha
  · linear_combination (v.z - a.z * (a.x * v.x + a.y * v.y + a.z * v.z)) * h
      + (st^2 * v.z + (1 - ct)^2 * a.z * (a.x * v.x + a.y * v.y + a.z * v.z)) * ha

/-- C33 (partial: unit axes only): for a unit axis and any span, the high-side and low-side matrices are mutually inverse,
    preserve all inner products (so lengths and kinetic energy) and fix the axis; the high-side one turns vectors
    orthogonal to the axis by the span, right-handed about the axis. -/
theorem C33_rotation_partial (a : V3) (ha : Unit3 a) (span : ℝ) :
    (∀ v, rot (rotDown a span) (rot (rotUp a span) v) = v) ∧ (∀ v, rot (rotUp a span) (rot (rotDown a span) v) = v) ∧
    (∀ v w, dot (rot (rotUp a span) v) (rot (rotUp a span) w) = dot v w) ∧
    (∀ v w, dot (rot (rotDown a span) v) (rot (rotDown a span) w) = dot v w) ∧
    rot (rotUp a span) a = a ∧ rot (rotDown a span) a = a ∧
    (∀ v, dot a v = 0 → dot v (rot (rotUp a span) v) = Real.cos (rad span) * dot v v ∧
      det a v (rot (rotUp a span) v) = Real.sin (rad span) * dot v v) := by
  have h : Real.cos (rad span) ^ 2 + Real.sin (rad span) ^ 2 = 1 := by rw [add_comm]; exact Real.sin_sq_add_cos_sq _
  have h' : Real.cos (rad span) ^ 2 + (-Real.sin (rad span)) ^ 2 = 1 := by rw [neg_sq]; exact h
  rw [rotUp_eq, rotDown_eq]
  have ha' := ha
  change a.x * a.x + a.y * a.y + a.z * a.z = 1 at ha'
  refine ⟨fun v => rot_inv a v ha _ _ h, fun v => ?_, fun v w => dot_rot a v w ha _ _ h,
    fun v w => dot_rot a v w ha _ _ h', ?_, ?_, fun v hv => ⟨?_, ?_⟩⟩
  · have := rot_inv a v ha _ _ h'
    rwa [neg_neg] at this
  · rw [rot_rodrigues]
    ext <;> simp only [dot, add_x, add_y, add_z, smul_x, smul_y, smul_z, cross_x, cross_y, cross_z, ha'] <;> ring
  · rw [rot_rodrigues]
    ext <;> simp only [dot, add_x, add_y, add_z, smul_x, smul_y, smul_z, cross_x, cross_y, cross_z, ha'] <;> ring
  · rw [rot_rodrigues, hv]
    simp only [dot, add_x, add_y, add_z, smul_x, smul_y, smul_z, cross_x, cross_y, cross_z]; ring
  · rw [rot_rodrigues, hv]
    simp only [dot] at hv
    simp only [dot, det, add_x, add_y, add_z, smul_x, smul_y, smul_z, cross_x, cross_y, cross_z]
    linear_combination Real.sin (rad span) * (v.x * v.x + v.y * v.y + v.z * v.z) * ha'
      - Real.sin (rad span) * (a.x * v.x + a.y * v.y + a.z * v.z) * hv

/-- C33 is false for an axis that is not a unit vector, which the API accepts (the stored axis is normalised, but the
    matrices are built from the axis as passed): with axis (0,0,2) and span 90 degrees a velocity doubles its length. -/
theorem C33_nonunit_violated :
    let a : V3 := ⟨0, 0, 2⟩
    let v : V3 := ⟨1, 0, 0⟩
    storedAxis a = ⟨0, 0, 1⟩ ∧ dot (rot (rotUp a 90) v) (rot (rotUp a 90) v) = 4 * dot v v ∧
    rot (rotDown a 90) (rot (rotUp a 90) v) ≠ v := by
  intro a v
  have hr : rad 90 = Real.pi / 2 := by unfold rad; ring
  have hc : Real.cos (rad 90) = 0 := by rw [hr]; exact Real.cos_pi_div_two
  have hs : Real.sin (rad 90) = 1 := by rw [hr]; exact Real.sin_pi_div_two
  have h4 : Real.sqrt 4 = 2 := by
    rw [show (4:ℝ) = 2 ^ 2 by norm_num]; exact Real.sqrt_sq (by norm_num)
  refine ⟨?_, ?_, ?_⟩
  · ext <;> simp only [storedAxis, a, dot, smul_x, smul_y, smul_z] <;> norm_num [h4]
  · rw [rotUp_eq, hc, hs]; simp [rot, rotMat, a, v, dot]; norm_num
  · rw [rotUp_eq, rotDown_eq, hc, hs]
    intro h
    have := congrArg V3.x h
    simp [rot, rotMat, a, v, dot] at this
    norm_num at this

/-- C33 on the block: after the periodic "euler" stage with a unit axis every halo cell of the face holds the velocity of
    the copied neighbour cell turned by the span (upwards on the high side, back on the low side), momentum is density
    times that velocity, kinetic energy and everything else stored for the cell is kept, and applying the opposite rotation
    gives the copied velocity back. -/
theorem C33_halo_partial {dm : Dims} (hng : dm.ng = 1 ∨ dm.ng = 2) (f : Face) (F : FaceData) (eos : Cell → Cell)
    (b : Blk) (c : Ix) (hc : InArr dm c) (hl : ∃ g < dm.ng, c f.dir = haloLayer dm f g) (a : V3) (ha : Unit3 a) (span : ℝ)
    (hU : F.rotUp = rotUp a span) (hD : F.rotDown = rotDown a span) :
    let hi := (applyBC .periodicRotHigh dm f F eos "euler" b).A c
    let lo := (applyBC .periodicRotLow dm f F eos "euler" b).A c
    vel hi = rot (rotUp a span) (vel (b.A c)) ∧ vel lo = rot (rotDown a span) (vel (b.A c)) ∧
    rot (rotDown a span) (vel hi) = vel (b.A c) ∧ rot (rotUp a span) (vel lo) = vel (b.A c) ∧
    (∀ h, h = hi ∨ h = lo →
      dot (vel h) (vel h) = dot (vel (b.A c)) (vel (b.A c)) ∧
      h.Q.rhou = h.q.u * h.Q.rho ∧ h.Q.rhov = h.q.v * h.Q.rho ∧ h.Q.rhow = h.q.w * h.Q.rho ∧
      h.Q.rho = (b.A c).Q.rho ∧ h.Q.rhoE = (b.A c).Q.rhoE ∧ h.Q.rhoY = (b.A c).Q.rhoY ∧
      h.q.p = (b.A c).q.p ∧ h.q.T = (b.A c).q.T ∧ h.q.Y = (b.A c).q.Y ∧ h.qh = (b.A c).qh) := by
  intro hi lo
  obtain ⟨r1, r2, r3, r4, -⟩ := C33_rotation_partial a ha span
  have e1 : hi = rotCell (rotUp a span) (b.A c) := by
    have := (C34_periodic hng f F eos b c hc .periodicRotHigh F.rotUp (Or.inl ⟨rfl, rfl⟩)).1 hl
    rwa [hU] at this
  have e2 : lo = rotCell (rotDown a span) (b.A c) := by
    have := (C34_periodic hng f F eos b c hc .periodicRotLow F.rotDown (Or.inr ⟨rfl, rfl⟩)).1 hl
    rwa [hD] at this
  have v1 : vel hi = rot (rotUp a span) (vel (b.A c)) := by rw [e1]; rfl
  have v2 : vel lo = rot (rotDown a span) (vel (b.A c)) := by rw [e2]; rfl
  refine ⟨v1, v2, by rw [v1, r1], by rw [v2, r2], ?_⟩
  rintro h (rfl | rfl)
  · refine ⟨by rw [v1, r3], ?_⟩
    rw [e1]; exact ⟨rfl, rfl, rfl, rfl, rfl, rfl, rfl, rfl, rfl, rfl⟩
  · refine ⟨by rw [v2, r4], ?_⟩
    rw [e2]; exact ⟨rfl, rfl, rfl, rfl, rfl, rfl, rfl, rfl, rfl, rfl⟩

/-- C33 (gradients of scalars): if the scalar field seen beyond the periodic face is the neighbour's field carried over by
    the rotation, `s'(R x) = s(x)`, and the neighbour's field has (constant) gradient `g`, then the gradient the condition
    stores, `R g`, is the gradient of the carried field. -/
theorem C33_scalar_gradient_partial (a : V3) (ha : Unit3 a) (span s0 : ℝ) (g : V3) (s s' : V3 → ℝ)
    (hs : ∀ x, s x = s0 + dot g x) (hs' : ∀ x, s' (rot (rotUp a span) x) = s x) (F : FaceData)
    (hU : F.rotUp = rotUp a span) (g0 g1 : Grad) (l : ℕ) (hg : g0 l = g) :
    ∀ y, s' y = s0 + dot (postLaw .periodicRotHigh F g0 g1 l) y := by
  intro y
  obtain ⟨-, r2, r3, -⟩ := C33_rotation_partial a ha span
  have : s' y = s (rot (rotDown a span) y) := by rw [← hs', r2]
  rw [this, hs]
  congr 1
  rw [← r3, r2]
  show _ = dot (rot F.rotUp (g0 l)) y
  rw [hU, hg]

/-- C33 is violated for velocity gradients: each component's gradient vector is rotated, but the components are not mixed.
    For the shear `u = (y, 0, 0)` and a quarter turn about z, the carried field is `u' = (0, -x, 0)`; the condition stores
    the gradient of `(-x, 0, 0)`. -/
theorem C33_gradient_violated :
    let a : V3 := ⟨0, 0, 1⟩
    let R := rotUp a 90
    let g0 : Grad := fun l => if l = 1 then ⟨0, 1, 0⟩ else 0
    let field : V3 → V3 := fun x => ⟨dot (g0 1) x, dot (g0 2) x, dot (g0 3) x⟩
    let field' : V3 → V3 := fun y => rot R (field (rot (rotDown a 90) y))
    ∀ F : FaceData, F.rotUp = R → ∀ g1 : Grad,
      let st := postLaw .periodicRotHigh F g0 g1
      ∃ y, field' y ≠ ⟨dot (st 1) y, dot (st 2) y, dot (st 3) y⟩ := by
  intro a R g0 field field' F hF g1 st
  have hr : rad 90 = Real.pi / 2 := by unfold rad; ring
  have hc : Real.cos (rad 90) = 0 := by rw [hr]; exact Real.cos_pi_div_two
  have hs : Real.sin (rad 90) = 1 := by rw [hr]; exact Real.sin_pi_div_two
  refine ⟨⟨1, 0, 0⟩, fun h => ?_⟩
  have hx := congrArg V3.x h
  have e : st 1 = rot R ⟨0, 1, 0⟩ := by
    show rot F.rotUp (g0 1) = _
    rw [hF]; rfl
  simp only [field', field, e, R, rotUp_eq, rotDown_eq, hc, hs] at hx
  simp [rot, rotMat, a, g0, dot] at hx

/-- the hypotheses are met by a unit axis that is not a coordinate direction -/
example : Unit3 ⟨3/5, 0, 4/5⟩ ∧ Unit3 (storedAxis ⟨3, 0, 4⟩) := by
  have h25 : Real.sqrt 25 = 5 := by
    rw [show (25:ℝ) = 5 ^ 2 by norm_num]; exact Real.sqrt_sq (by norm_num)
  constructor
  · norm_num [Unit3, dot]
  · simp only [Unit3, storedAxis, dot, smul_x, smul_y, smul_z]; norm_num [h25]

end PG.BC
