import Verif.Flux.Upwind
/-
C28 for AUSM+-up: supersonic upwinding (ausmPlusUp.cpp:28-116).
-/
namespace PG.Flux
open V3

/-- interface values of AUSM+-up when both sides move towards the right at least at the interface sound speed -/
theorem ausmFace_supersonic (L R : Cell) (g : FaceG) (hL : L.Consistent) (hR : R.Consistent)
    (hl : (L.c + R.c) / 2 ≤ proj g.n L) (hr : (L.c + R.c) / 2 ≤ proj g.n R) :
    ausmFace L R g = (proj g.n L * L.rho, L.p) := by
  have ha : 0 < 1/2 * (R.c + L.c) := by have := hL.c_pos; have := hR.c_pos; linarith
  unfold ausmFace
  generalize proj g.n L = UL at *
  generalize proj g.n R = UR at *
  have hl' : 1/2 * (R.c + L.c) ≤ UL := by linarith
  have hr' : 1/2 * (R.c + L.c) ≤ UR := by linarith
  generalize 1/2 * (R.c + L.c) = a at *
  have hML : 1 ≤ UL / a := (one_le_div ha).2 hl'
  have hMR : 1 ≤ UR / a := (one_le_div ha).2 hr'
  have hb : 1 ≤ (UR ^ 2 + UL ^ 2) / (2 * a ^ 2) := by
    rw [one_le_div (by positivity)]; nlinarith
  have aL : |UL / a| = UL / a := abs_of_pos (by linarith)
  have aR : |UR / a| = UR / a := abs_of_pos (by linarith)
  have mx : max (1 - 1 * ((UR ^ 2 + UL ^ 2) / (2 * a ^ 2))) 0 = 0 := max_eq_right (by linarith)
  simp only [aL, aR, hML, hMR, if_true, mx]
  have e : 1 / 2 * (UL / a + UL / a) + 1 / 2 * (UR / a - UR / a)  = UL / a := by ring
  have e2 : a * (UL / a) = UL := by field_simp
  have e3 : 1 / (UL / a) * (1 / 2 * (UL / a + UL / a)) = 1 := by
    have : UL / a ≠ 0 := by linarith
    rw [show 1 / 2 * (UL / a + UL / a) = UL / a by ring, one_div, inv_mul_cancel₀ this]
  simp only [e3, sub_self, mul_zero, zero_mul, zero_div, sub_zero, add_zero]
  have e4 : 1 / 2 * (UL / a + UL / a) = UL / a := by ring
  have p0 : 0 < UL / a := by linarith
  simp only [e4, e2, p0, if_true]
  simp

/-- C28 (AUSM+-up): when both sides move towards the right at least at the interface sound speed, the flux is exactly
    the physical flux of the left cell. -/
theorem C28_ausm_supersonic_right (L R : Cell) (g : FaceG) (hL : L.Consistent) (hR : R.Consistent) (hg : g.Valid)
    (hl : (L.c + R.c) / 2 ≤ proj g.n L) (hr : (L.c + R.c) / 2 ≤ proj g.n R) :
    ausm L R g = euler L g.s := by
  have ha : 0 < proj g.n L := by have := hL.c_pos; have := hR.c_pos; linarith
  have hm : 0 < proj g.n L * L.rho := mul_pos ha hL.rho_pos
  have h := hL.rho_pos.ne'
  unfold ausm
  rw [ausmFace_supersonic L R g hL hR hl hr]
  simp only [hm, if_true]
  apply mk5_ext <;> simp [euler, valid_x hg, valid_y hg, valid_z hg, proj] <;> (try intro n) <;> field_simp

/-- C28 (AUSM+-up): the same towards the left. -/
theorem C28_ausm_supersonic_left (L R : Cell) (g : FaceG) (hL : L.Consistent) (hR : R.Consistent) (hg : g.Valid)
    (hl : proj g.n L ≤ -((L.c + R.c) / 2)) (hr : proj g.n R ≤ -((L.c + R.c) / 2)) :
    ausm L R g = euler R g.s := by
  have hv : g.rev.Valid := by
    unfold FaceG.Valid FaceG.rev
    rw [hg]; ext <;> simp
  have h := C28_ausm_supersonic_right R L g.rev hR hL hv (by rw [proj_rev]; linarith) (by rw [proj_rev]; linarith)
  funext l
  have a1 := (C27_antisymmetric L L R R g l).2.1
  rw [h] at a1
  have e : euler R g.rev.s l = - euler R g.s l := by
    revert l
    intro l _
    have : euler R g.rev.s = fun l => - euler R g.s l := by
      apply mk5_ext <;> simp [euler, FaceG.rev] <;> (try intro n) <;> ring
    rw [this]
  linarith

/-- both hypotheses are met: a Mach 2 stream with different states on the two sides -/
example : ausm (exCell 10 1 2) (exCell 12 0 1) exFace = euler (exCell 10 1 2) exFace.s :=
  C28_ausm_supersonic_right _ _ _ (exCell_consistent _ _ _) (exCell_consistent _ _ _) exFace_valid
    (by norm_num [exCell, exFace, proj]) (by norm_num [exCell, exFace, proj])

end PG.Flux
