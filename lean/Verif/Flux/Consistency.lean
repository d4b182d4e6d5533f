import Verif.Flux.Spec
/-
C26: numerical fluxes on equal states are the Euler flux.
-/
namespace PG.Flux
open V3

theorem rusanov_consistent (a : Cell) (g : FaceG) (ha : a.Consistent) (hg : g.Valid) :
    rusanov a a g = euler a g.s := by
  apply mk5_ext <;> simp [rusanov, euler, valid_x hg, valid_y hg, valid_z hg, proj, ha.rhoY] <;> (try intro n) <;> ring

theorem central_consistent (a : Cell) (g : FaceG) (ha : a.Consistent) : central a a g = euler a g.s := by
  apply mk5_ext <;> simp [central, euler, ha.rhou, ha.rhov, ha.rhow, ha.rhoY] <;> (try intro n) <;> ring

theorem KEEP_consistent (a : Cell) (g : FaceG) (ha : a.Consistent) : KEEP a a g = euler a g.s := by
  have h := ha.rho_pos.ne'
  apply mk5_ext <;> simp [KEEP, keepWith, keepC, keepU, keepK, keepP, avg, euler, ha.rhoE] <;>
    (try intro n) <;> field_simp <;> ring

theorem KEEPpe_consistent (a : Cell) (g : FaceG) (ha : a.Consistent) : KEEPpe a a g = euler a g.s := by
  apply mk5_ext <;> simp [KEEPpe, keepWith, keepC, keepU, keepK, keepP, avg, euler, ha.rhoE] <;>
    (try intro n) <;> ring

theorem KEPaEC_consistent (a : Cell) (g : FaceG) (ha : a.Consistent) (he : 0 < a.rhoe) :
    KEPaEC a a g = euler a g.s := by
  have h := ha.rho_pos.ne'
  have h2 := he.ne'
  have hh : 2 * (a.rhoe / a.rho * (a.rhoe / a.rho)) / (a.rhoe / a.rho + a.rhoe / a.rho) = a.rhoe / a.rho := by
    field_simp; ring
  apply mk5_ext <;> simp only [KEPaEC, keepWith, keepC, keepU, keepK, keepP, avg, euler, ha.rhoE, hh,
    mk5_0, mk5_1, mk5_2, mk5_3, mk5_4, mk5_5] <;>
    (try intro n) <;> field_simp <;> ring

theorem fourth_consistent (a : Cell) (g : FaceG) (ha : a.Consistent) : fourthKEEP a a a a g = euler a g.s := by
  have h := ha.rho_pos.ne'
  apply mk5_ext <;> simp [fourthKEEP, four, euler, ha.rhoE] <;>
    (try intro n) <;> field_simp <;> ring

theorem ausmFace_consistent (a : Cell) (g : FaceG) (ha : a.Consistent) :
    ausmFace a a g = (a.rho * proj g.n a, a.p) := by
  have hc := ha.c_pos
  have ec : (1/2 * (a.c + a.c) : ℝ) = a.c := by ring
  unfold ausmFace
  simp only [ec, sub_self, mul_zero, zero_div, sub_zero]
  set U := proj g.n a with hU
  have hM : a.c * (U / a.c) = U := by field_simp
  by_cases hs : 1 ≤ |U / a.c|
  · simp only [if_pos hs]
    have hM0 : U / a.c ≠ 0 := by
      intro h0; rw [h0, abs_zero] at hs; norm_num at hs
    ext
    · dsimp only
      have : (1/2 * (U / a.c + |U / a.c|) + 1/2 * (U / a.c - |U / a.c|)) = U / a.c := by ring
      rw [this]
      split <;> (rw [hM]; ring)
    · dsimp only
      have e1 : (1 / (U / a.c) * (1/2 * (U / a.c + |U / a.c|)) * a.p + 1 / (U / a.c) * (1/2 * (U / a.c - |U / a.c|)) * a.p)
          = a.p * (U / a.c * (1 / (U / a.c))) := by ring
      rw [e1, mul_one_div_cancel hM0, mul_one]
  · simp only [if_neg hs]
    ext
    · dsimp only
      have : (1/4 * (U / a.c + 1) ^ 2 * (1 - 16 * (1/8) * (-(1/4) * (U / a.c - 1) ^ 2))
        + -(1/4) * (U / a.c - 1) ^ 2 * (1 + 16 * (1/8) * (1/4 * (U / a.c + 1) ^ 2))) = U / a.c := by ring
      rw [this]
      split <;> (rw [hM]; ring)
    · dsimp only
      ring

theorem ausm_consistent (a : Cell) (g : FaceG) (ha : a.Consistent) (hg : g.Valid) : ausm a a g = euler a g.s := by
  have h := ha.rho_pos.ne'
  apply mk5_ext <;> simp [ausm, ausmFace_consistent a g ha, euler, valid_x hg, valid_y hg, valid_z hg, proj] <;>
    (try intro n) <;> field_simp

theorem muscl_id (ownY : Bool) (a : Cell) (ha : a.Consistent) :
    faceL ownY a a a a = a ∧ faceR ownY a a a a = a := by
  have h := ha.rho_pos.ne'
  have hY : (fun n => if ownY = true then a.rho * a.Y n else a.rhoY n) = a.rhoY := by
    funext n; rw [ha.rhoY n]; split <;> rfl
  have hE : a.rho * (a.rhoe / a.rho + 1/2 * (a.u ^ 2 + a.v ^ 2 + a.w ^ 2)) = a.rhoE := by
    rw [ha.rhoE]; field_simp
  have he : a.rho * (a.rhoe / a.rho) = a.rhoe := by field_simp
  constructor
  · simp only [faceL, musclL, recL, eInt, sub_self, mul_zero, add_zero, hY, hE, he, ← ha.rhou, ← ha.rhov, ← ha.rhow]
  · simp only [faceR, musclR, recR, eInt, sub_self, mul_zero, sub_zero, hY, hE, he, ← ha.rhou, ← ha.rhov, ← ha.rhow]

theorem rusanovOf_consistent (a : Cell) (g : FaceG) (ha : a.Consistent) (hg : g.Valid) :
    rusanovOf a a g = euler a g.s := by
  apply mk5_ext <;> simp [rusanovOf, euler, valid_x hg, valid_y hg, valid_z hg, proj, ha.rhoY] <;> (try intro n) <;> ring

theorem hllcSstar_same (a : Cell) (g : FaceG) (ha : a.Consistent) : hllcSstar a a g = proj g.n a := by
  have h1 := ha.rho_pos
  have h2 := ha.c_pos
  unfold hllcSstar
  have : a.rho * (proj g.n a - a.c - proj g.n a) - a.rho * (proj g.n a + a.c - proj g.n a) = -(2 * (a.rho * a.c)) := by
    ring
  simp only [this]
  have : (2 * (a.rho * a.c)) ≠ 0 := by positivity
  rw [div_eq_iff (neg_ne_zero.2 this)]
  ring

theorem sideFlux_euler (a : Cell) (g : FaceG) (ha : a.Consistent) (hg : g.Valid) : sideFlux a g = euler a g.s := by
  apply mk5_ext <;> simp [sideFlux, euler, valid_x hg, valid_y hg, valid_z hg, proj, ha.rhou, ha.rhov, ha.rhow, ha.rhoY]
    <;> (try intro n) <;> ring

/-- star flux when the contact speed equals the normal velocity of the side -/
theorem starFlux_same (a : Cell) (g : FaceG) (ha : a.Consistent) (Sk : ℝ) (hk : Sk ≠ proj g.n a) :
    starFlux a g Sk (proj g.n a) = mk5
      (sideFlux a g 0)
      (sideFlux a g 1 + Sk * a.rho * (proj g.n a * g.n.x - a.u) * g.S)
      (sideFlux a g 2 + Sk * a.rho * (proj g.n a * g.n.y - a.v) * g.S)
      (sideFlux a g 3 + Sk * a.rho * (proj g.n a * g.n.z - a.w) * g.S)
      (sideFlux a g 4) (fun n => sideFlux a g (n+5)) := by
  have h1 := ha.rho_pos.ne'
  have hs : Sk - proj g.n a ≠ 0 := sub_ne_zero.2 hk
  have hU : a.rho * (Sk - proj g.n a) / (Sk - proj g.n a) = a.rho := by field_simp
  have hE : a.rho * (a.rhoE / a.rho) = a.rhoE := by field_simp
  apply mk5_ext <;> simp only [starFlux, sideFlux, hU, ha.rhou, ha.rhov, ha.rhow, ha.rhoY, mk5_0, mk5_1, mk5_2, mk5_3,
    mk5_4, mk5_5, sub_self, zero_mul, add_zero, hE, mul_zero] <;> (try intro n) <;> ring

end PG.Flux
