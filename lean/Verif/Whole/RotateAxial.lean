import Verif.Whole.RotateCase
/-!
C110: rotations that permute the coordinate axes. For these also the schemes that treat the three components separately - the
MUSCL limiters, the length of alphaDamping - do not care.
-/
noncomputable section
namespace PG
open V3

/-- component of a vector -/
def V3.at (v : V3) (i : Fin 3) : ℝ := if i = 0 then v.x else if i = 1 then v.y else v.z

/-- the rotation permutes the coordinate axes, up to sign (quarter turns and their products) -/
def Rotation.Axial (R : Rotation) : Prop :=
  ∃ (σ : Equiv.Perm (Fin 3)) (ε : Fin 3 → ℝ), (∀ i, ε i = 1 ∨ ε i = -1) ∧ ∀ v i, (R.f v).at i = ε i * v.at (σ i)

/-- a quarter turn about z -/
theorem quarter_axial : (Rotation.aboutZ (Real.pi / 2)).Axial := by
  refine ⟨Equiv.swap 0 1, fun i => if i = 0 then -1 else 1, fun i => ?_, fun v i => ?_⟩
  · dsimp only
    split_ifs
    · exact Or.inr rfl
    · exact Or.inl rfl
  · simp only [Rotation.aboutZ, Rotation.ofColumns, Real.cos_pi_div_two, Real.sin_pi_div_two]
    fin_cases i
    · simp [V3.at]
    · simp [V3.at]
    · rw [show (Equiv.swap (0 : Fin 3) 1) ((fun i => i) (⟨2, by omega⟩ : Fin 3)) = 2 from by decide]
      simp [V3.at]

/-- componentwise odd functions of up to four vectors turn with an axial rotation -/
theorem Rotation.Axial.map {R : Rotation} (h : R.Axial) (f : ℝ → ℝ → ℝ → ℝ → ℝ) (hf : ∀ a b c d, f (-a) (-b) (-c) (-d) = - f a b c d) (a b c d : V3) :
    (⟨f (R.f a).x (R.f b).x (R.f c).x (R.f d).x, f (R.f a).y (R.f b).y (R.f c).y (R.f d).y, f (R.f a).z (R.f b).z (R.f c).z (R.f d).z⟩ : V3) =
      R.f ⟨f a.x b.x c.x d.x, f a.y b.y c.y d.y, f a.z b.z c.z d.z⟩ := by
  obtain ⟨σ, ε, hε, hR⟩ := h
  have key : ∀ i, f ((R.f a).at i) ((R.f b).at i) ((R.f c).at i) ((R.f d).at i) =
      (R.f ⟨f a.x b.x c.x d.x, f a.y b.y c.y d.y, f a.z b.z c.z d.z⟩).at i := by
    intro i
    have hc : ∀ j, f (a.at j) (b.at j) (c.at j) (d.at j) = V3.at ⟨f a.x b.x c.x d.x, f a.y b.y c.y d.y, f a.z b.z c.z d.z⟩ j := by
      intro j
      unfold V3.at
      split_ifs <;> rfl
    rw [hR, hR, hR, hR, hR, ← hc]
    rcases hε i with e | e
    · rw [e]; simp only [one_mul]
    · rw [e]; simp only [neg_mul, one_mul, hf]
  ext
  · exact key 0
  · exact key 1
  · exact key 2

namespace Flux

theorem limiter_odd (num den : ℝ) : limiter (-num) (-den) * (-den) = -(limiter num den * den) := by
  unfold limiter
  by_cases h : den = 0
  · simp [h]
  · have h' : -den ≠ 0 := neg_ne_zero.2 h
    rw [if_neg h, if_neg h', neg_div_neg_eq]
    ring

theorem recR_odd (a b c d : ℝ) : recR (phiR (-a) (-b) (-c) (-d)) (-c) (-d) = - recR (phiR a b c d) c d := by
  unfold recR phiR
  have := limiter_odd (c - b) (d - c)
  rw [show -c - -b = -(c - b) from by ring, show -d - -c = -(d - c) from by ring]
  linarith

theorem recL_odd (a b c d : ℝ) : recL (phiL (-a) (-b) (-c) (-d)) (-b) (-c) = - recL (phiL a b c d) b c := by
  unfold recL phiL
  have := limiter_odd (b - a) (c - b)
  rw [show -b - -a = -(b - a) from by ring, show -c - -b = -(c - b) from by ring]
  linarith

/-- velocity of a cell -/
def Cell.vel (c : Cell) : V3 := ⟨c.u, c.v, c.w⟩

theorem faceR_turn {R : Rotation} (h : R.Axial) (own : Bool) (a L r b : Cell) :
    faceR own (a.turn R) (L.turn R) (r.turn R) (b.turn R) = (faceR own a L r b).turn R := by
  have hv := h.map (fun a b c d => recR (phiR a b c d) c d) recR_odd a.vel L.vel r.vel b.vel
  have hx : musclR Cell.u (a.turn R) (L.turn R) (r.turn R) (b.turn R) = _ := congrArg V3.x hv
  have hy : musclR Cell.v (a.turn R) (L.turn R) (r.turn R) (b.turn R) = _ := congrArg V3.y hv
  have hz : musclR Cell.w (a.turn R) (L.turn R) (r.turn R) (b.turn R) = _ := congrArg V3.z hv
  have hk := R.sq (musclR Cell.u a L r b) (musclR Cell.v a L r b) (musclR Cell.w a L r b)
  have hs := Thermo.scale R (musclR Cell.rho a L r b) (musclR Cell.u a L r b) (musclR Cell.v a L r b) (musclR Cell.w a L r b)
  simp only [faceR, Cell.turn]
  rw [Cell.mk.injEq]
  refine ⟨rfl, hx, hy, hz, rfl, rfl, ?_, ?_, ?_, ?_, rfl, rfl, rfl⟩
  · exact (congrArg (musclR Cell.rho a L r b * ·) hx).trans (congrArg V3.x hs)
  · exact (congrArg (musclR Cell.rho a L r b * ·) hy).trans (congrArg V3.y hs)
  · exact (congrArg (musclR Cell.rho a L r b * ·) hz).trans (congrArg V3.z hs)
  · show musclR Cell.rho a L r b * (musclR eInt a L r b + 1/2 * ((musclR Cell.u (a.turn R) (L.turn R) (r.turn R) (b.turn R)) ^ 2 +
      (musclR Cell.v (a.turn R) (L.turn R) (r.turn R) (b.turn R)) ^ 2 + (musclR Cell.w (a.turn R) (L.turn R) (r.turn R) (b.turn R)) ^ 2)) = _
    rw [hx, hy, hz]
    exact congrArg (fun z => musclR Cell.rho a L r b * (musclR eInt a L r b + 1/2 * z)) hk

theorem faceL_turn {R : Rotation} (h : R.Axial) (own : Bool) (a L r b : Cell) :
    faceL own (a.turn R) (L.turn R) (r.turn R) (b.turn R) = (faceL own a L r b).turn R := by
  have hv := h.map (fun a b c d => recL (phiL a b c d) b c) recL_odd a.vel L.vel r.vel b.vel
  have hx : musclL Cell.u (a.turn R) (L.turn R) (r.turn R) (b.turn R) = _ := congrArg V3.x hv
  have hy : musclL Cell.v (a.turn R) (L.turn R) (r.turn R) (b.turn R) = _ := congrArg V3.y hv
  have hz : musclL Cell.w (a.turn R) (L.turn R) (r.turn R) (b.turn R) = _ := congrArg V3.z hv
  have hk := R.sq (musclL Cell.u a L r b) (musclL Cell.v a L r b) (musclL Cell.w a L r b)
  have hs := Thermo.scale R (musclL Cell.rho a L r b) (musclL Cell.u a L r b) (musclL Cell.v a L r b) (musclL Cell.w a L r b)
  simp only [faceL, Cell.turn]
  rw [Cell.mk.injEq]
  refine ⟨rfl, hx, hy, hz, rfl, rfl, ?_, ?_, ?_, ?_, rfl, rfl, rfl⟩
  · exact (congrArg (musclL Cell.rho a L r b * ·) hx).trans (congrArg V3.x hs)
  · exact (congrArg (musclL Cell.rho a L r b * ·) hy).trans (congrArg V3.y hs)
  · exact (congrArg (musclL Cell.rho a L r b * ·) hz).trans (congrArg V3.z hs)
  · show musclL Cell.rho a L r b * (musclL eInt a L r b + 1/2 * ((musclL Cell.u (a.turn R) (L.turn R) (r.turn R) (b.turn R)) ^ 2 +
      (musclL Cell.v (a.turn R) (L.turn R) (r.turn R) (b.turn R)) ^ 2 + (musclL Cell.w (a.turn R) (L.turn R) (r.turn R) (b.turn R)) ^ 2)) = _
    rw [hx, hy, hz]
    exact congrArg (fun z => musclL Cell.rho a L r b * (musclL eInt a L r b + 1/2 * z)) hk

theorem muscl2rusanov_axial {R : Rotation} (h : R.Axial) : IsotropicAt R muscl2rusanov := by
  intro a L r b g
  unfold muscl2rusanov
  rw [faceL_turn h, faceR_turn h]
  exact rusanovOf_isotropic R (faceL false a L r b) (faceL false a L r b) (faceR false a L r b) (faceR false a L r b) g

theorem muscl2hllc_axial {R : Rotation} (h : R.Axial) : IsotropicAt R muscl2hllc := by
  intro a L r b g
  unfold muscl2hllc
  rw [faceL_turn h, faceR_turn h]
  exact hllc_isotropic R (faceL true a L r b) (faceL true a L r b) (faceR true a L r b) (faceR true a L r b) g

end Flux

namespace Diff

theorem magEn_axial {R : Rotation} (h : R.Axial) (m : V3) (L r : DCell) (f : FaceD) :
    magEn (L.turn R m) (r.turn R m) (f.turn R m) = magEn L r f := by
  obtain ⟨σ, ε, hε, hR⟩ := h
  have hd : (r.turn R m).xc - (L.turn R m).xc = R.f (r.xc - L.xc) := by
    rw [R.sub]
    ext <;> simp [DCell.turn]
  have hs : ∀ e n : V3, (e.x * n.x) ^ 2 + (e.y * n.y) ^ 2 + (e.z * n.z) ^ 2 = ∑ i, (e.at i * n.at i) ^ 2 := by
    intro e n
    rw [Fin.sum_univ_three]
    rfl
  unfold magEn
  simp only [hd]
  rw [hs, hs]
  congr 1
  have : ∀ i, ((R.f (r.xc - L.xc)).at i * (f.turn R m).n.at i) ^ 2 = ((r.xc - L.xc).at (σ i) * f.n.at (σ i)) ^ 2 := by
    intro i
    rw [hR, show (f.turn R m).n = R.f f.n from rfl, hR]
    rcases hε i with e | e <;> rw [e] <;> ring
  simp only [this]
  exact Equiv.sum_comp σ (fun i => ((r.xc - L.xc).at i * f.n.at i) ^ 2)

theorem damped_axial {R : Rotation} (h : R.Axial) : IsotropicAt R .damped := damped_isotropic R fun m L r f => magEn_axial h m L r f

end Diff
end PG
