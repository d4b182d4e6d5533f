import Verif.BC.Inlets
import Mathlib.Tactic.Positivity
/-!
C73: the stagnation inlet.
-/
noncomputable section
namespace PG.BC
open PG.Thermo V3

/-- total enthalpy of a flow with sound speed `c` and speed `V` -/
def totalEnthalpy (g c V : ℝ) : ℝ := c ^ 2 / (g - 1) + V ^ 2 / 2

/-- the Riemann invariant carried by sound waves travelling in direction `d` -/
def invariant (g c : ℝ) (v d : V3) : ℝ := dot v d + 2 * c / (g - 1)

/-- static pressure and temperature of the flow at Mach number `M` brought isentropically to rest at `pt`, `Tt` -/
def IsStagnation (g M p T pt Tt : ℝ) : Prop :=
  p * (1 + (g - 1) / 2 * M ^ 2) ^ (g / (g - 1)) = pt ∧ T * (1 + (g - 1) / 2 * M ^ 2) = Tt

theorem stag_disc {g c U V : ℝ} (hg : 1 < g) (hV : U ^ 2 ≤ V ^ 2) :
    (2 * (c + U)) ^ 2 ≤
      (-2 * (-U + 2 * c / (g - 1))) ^ 2 - 4 * (1 + 2 / (g - 1)) * ((g - 1) * (0.5 * (-U + 2 * c / (g - 1)) ^ 2 - (c ^ 2 / (g - 1) + 0.5 * V ^ 2))) := by
  have h : g - 1 ≠ 0 := by linarith
  have e : (-2 * (-U + 2 * c / (g - 1))) ^ 2 - 4 * (1 + 2 / (g - 1)) * ((g - 1) * (0.5 * (-U + 2 * c / (g - 1)) ^ 2 - (c ^ 2 / (g - 1) + 0.5 * V ^ 2)))
      = (2 * (c + U)) ^ 2 + 2 * (g + 1) * (V ^ 2 - U ^ 2) := by
    field_simp; ring
  rw [e]; nlinarith

theorem stag_root {g Jm Ht : ℝ} (hg : 1 < g)
    (hd : 0 ≤ (-2 * Jm) ^ 2 - 4 * (1 + 2 / (g - 1)) * ((g - 1) * (0.5 * Jm ^ 2 - Ht))) :
    stagCb g Jm Ht ^ 2 / (g - 1) + stagVb g Jm Ht ^ 2 / 2 = Ht ∧
    stagCb g Jm Ht = (2 * Jm + √((-2 * Jm) ^ 2 - 4 * (1 + 2 / (g - 1)) * ((g - 1) * (0.5 * Jm ^ 2 - Ht)))) / (2 * (1 + 2 / (g - 1))) := by
  have h : 0 < g - 1 := by linarith
  have h0 := h.ne'
  set D := (-2 * Jm) ^ 2 - 4 * (1 + 2 / (g - 1)) * ((g - 1) * (0.5 * Jm ^ 2 - Ht)) with hD
  have ha : 0 < 2 * (1 + 2 / (g - 1)) := by positivity
  have hc : stagCb g Jm Ht = (2 * Jm + √D) / (2 * (1 + 2 / (g - 1))) := by
    unfold stagCb
    simp only [← hD]
    have hs : 0 ≤ √D / (2 * (1 + 2 / (g - 1))) := div_nonneg (Real.sqrt_nonneg _) ha.le
    rw [max_eq_left (by linarith)]
    field_simp
  refine ⟨?_, hc⟩
  unfold stagVb
  rw [hc]
  have hsq : √D ^ 2 = D := Real.sq_sqrt hd
  set s := √D
  have hg1 : g + 1 ≠ 0 := by linarith
  have e1 : 1 + 2 / (g - 1) = (g + 1) / (g - 1) := by field_simp; ring
  have e2 : (2 * Jm + s) / (2 * ((g + 1) / (g - 1))) = (g - 1) * (2 * Jm + s) / (2 * (g + 1)) := by field_simp
  have hD2 : s ^ 2 = 4 * ((g + 1) * Ht - (g - 1) / 2 * Jm ^ 2) := by
    rw [hsq, hD, e1]; field_simp; ring
  rw [e1, e2]
  field_simp
  linear_combination (g+1) * hD2

/-- The face on which the stagnation inlet's formulas apply: the i-family normal is the face's own and it points into the
    block, i.e. the low i face. -/
def StagFace (f : Face) : Prop := f = ⟨0, true⟩

/-- C73: on a low i face, for every interior state with sound speed `c > 0`, gamma above one and arbitrary velocity, the
    halo flow of every layer is along the inward normal and there is a boundary sound speed `cb` such that: total enthalpy
    equals the interior's, the Riemann invariant leaving the block (along the outward normal) equals the interior's, and the
    halo pressure and temperature have exactly the prescribed stagnation values at Mach number `vb/cb`. -/
theorem C73_stagnation_partial {dm : Dims} (hng : dm.ng = 1 ∨ dm.ng = 2) (f : Face) (hf : StagFace f) (F : FaceData)
    {eos : Cell → Cell} (he : KeepsPrims eos) (b : Blk) (c : Ix) (hc : InArr dm c) {g : ℕ} (hg : g < dm.ng)
    (h : c f.dir = haloLayer dm f g) (hn : Unit3 (faceNormal dm f F c))
    (hgam : 1 < (b.A (inner dm f 0 c)).qh.gamma) :
    let halo := (applyBC .stagnationSubsonicInlet dm f F eos "euler" b).A c
    let int := b.A (inner dm f 0 c)
    let n := outward f (faceNormal dm f F c)
    let gam := int.qh.gamma
    ∃ cb vb : ℝ, vel halo = smul vb (-n) ∧
      totalEnthalpy gam cb vb = int.qh.c ^ 2 / (gam - 1) + dot (vel int) (vel int) / 2 ∧
      invariant gam cb (vel halo) n = invariant gam int.qh.c (vel int) n ∧
      IsStagnation gam (vb / cb) halo.q.p halo.q.T (F.bc (tan f c)).q.p (F.bc (tan f c)).q.T := by
  intro halo int n gam
  have e := (C34_euler hng .stagnationSubsonicInlet f F eos b c hc (by decide) (by decide) (by decide)).1 g hg h
  change halo = eos _ at e
  obtain ⟨k1, k2, k3, k4, k5⟩ := he (law .stagnationSubsonicInlet f F (faceNormal dm f F c) (iNormal dm f F c)
      (F.bc (tan f c)) (b.A c) (b.A (inner dm f 0 c)) (b.A (inner dm f (g+1) c)))
  rw [← e] at k1 k2 k3 k4 k5
  have hin : iNormal dm f F c = faceNormal dm f F c := by
    unfold iNormal faceNormal; rw [hf]
  rw [hin] at k1 k2 k3 k4 k5
  set nn := faceNormal dm f F c with hnn
  have hnout : n = -nn := by
    show outward f _ = _; unfold outward; rw [if_pos (by rw [hf])]
  set Jm := stagJm gam int.qh.c nn int.q with hJm
  set Ht := stagHt gam int.qh.c int.q with hHt
  have hV2 : stagV int.q ^ 2 = dot (vel int) (vel int) := by
    unfold stagV; rw [Real.sq_sqrt (by positivity)]; simp only [dot, vel]; ring
  have hcs : (uDotn int.q nn) ^ 2 ≤ stagV int.q ^ 2 := by
    rw [hV2]
    change nn.x * nn.x + nn.y * nn.y + nn.z * nn.z = 1 at hn
    simp only [uDotn, dot, vel]
    nlinarith [sq_nonneg (int.q.u * nn.y - int.q.v * nn.x), sq_nonneg (int.q.u * nn.z - int.q.w * nn.x),
      sq_nonneg (int.q.v * nn.z - int.q.w * nn.y)]
  have hd := le_trans (sq_nonneg _) (stag_disc (g := gam) (c := int.qh.c) hgam hcs)
  have hr := (stag_root (g := gam) (Jm := Jm) (Ht := Ht) hgam hd).1
  have hg1 : gam - 1 ≠ 0 := by have : 1 < gam := hgam; linarith
  have hpos : ∀ M : ℝ, 0 < 1 + (gam - 1) / 2 * M ^ 2 := by
    intro M
    have : 0 < gam - 1 := by have : 1 < gam := hgam; linarith
    positivity
  have hvel : vel halo = smul (stagVb gam Jm Ht) nn := by
    ext
    · exact k2
    · exact k3
    · exact k4
  refine ⟨stagCb gam Jm Ht, stagVb gam Jm Ht, ?_, ?_, ?_, ?_, ?_⟩
  · rw [hvel, hnout]; ext <;> simp
  · unfold totalEnthalpy; rw [hr, hHt]; unfold stagHt; rw [hV2]; ring
  · unfold invariant
    rw [hvel, hnout]
    change nn.x * nn.x + nn.y * nn.y + nn.z * nn.z = 1 at hn
    simp only [dot, smul_x, smul_y, smul_z, neg_x, neg_y, neg_z, vel]
    have e2 : stagVb gam Jm Ht = 2 * stagCb gam Jm Ht / (gam - 1) - Jm := rfl
    have e3 : Jm = -(int.q.u * nn.x + int.q.v * nn.y + int.q.w * nn.z) + 2 * int.qh.c / (gam - 1) := rfl
    linear_combination (-(stagVb gam Jm Ht)) * hn - e2 + e3
  · rw [k1]
    show (F.bc (tan f c)).q.p * (1 + (gam - 1) / 2 * (stagVb gam Jm Ht / stagCb gam Jm Ht) ^ 2) ^ (-gam / (gam - 1)) * _ = _
    rw [mul_assoc, neg_div, Real.rpow_neg (hpos _).le, inv_mul_cancel₀, mul_one]
    exact (Real.rpow_pos_of_pos (hpos _) _).ne'
  · rw [k5]
    show (F.bc (tan f c)).q.T / (1 + (gam - 1) / 2 * (stagVb gam Jm Ht / stagCb gam Jm Ht) ^ 2) * _ = _
    rw [div_mul_cancel₀]
    exact (hpos _).ne'

/-- C73: a uniform subsonic inflow normal to the face whose stagnation pressure and temperature are the prescribed ones is
    reproduced exactly in the halo. -/
theorem C73_fixed_point {dm : Dims} (hng : dm.ng = 1 ∨ dm.ng = 2) (f : Face) (hf : StagFace f) (F : FaceData)
    {eos : Cell → Cell} (he : KeepsPrims eos) (b : Blk) (c : Ix) (hc : InArr dm c) {g : ℕ} (hg : g < dm.ng)
    (h : c f.dir = haloLayer dm f g) (hn : Unit3 (faceNormal dm f F c))
    (hgam : 1 < (b.A (inner dm f 0 c)).qh.gamma) (U : ℝ) (hcpos : 0 < (b.A (inner dm f 0 c)).qh.c)
    (hU : 0 ≤ (b.A (inner dm f 0 c)).qh.c + U)
    (hv : vel (b.A (inner dm f 0 c)) = smul U (faceNormal dm f F c))
    (hst : IsStagnation (b.A (inner dm f 0 c)).qh.gamma (U / (b.A (inner dm f 0 c)).qh.c) (b.A (inner dm f 0 c)).q.p
      (b.A (inner dm f 0 c)).q.T (F.bc (tan f c)).q.p (F.bc (tan f c)).q.T) :
    let halo := (applyBC .stagnationSubsonicInlet dm f F eos "euler" b).A c
    let int := b.A (inner dm f 0 c)
    vel halo = vel int ∧ halo.q.p = int.q.p ∧ halo.q.T = int.q.T := by
  intro halo int
  have e := (C34_euler hng .stagnationSubsonicInlet f F eos b c hc (by decide) (by decide) (by decide)).1 g hg h
  change halo = eos _ at e
  obtain ⟨k1, k2, k3, k4, k5⟩ := he (law .stagnationSubsonicInlet f F (faceNormal dm f F c) (iNormal dm f F c)
      (F.bc (tan f c)) (b.A c) (b.A (inner dm f 0 c)) (b.A (inner dm f (g+1) c)))
  rw [← e] at k1 k2 k3 k4 k5
  have hin : iNormal dm f F c = faceNormal dm f F c := by
    unfold iNormal faceNormal; rw [hf]
  rw [hin] at k1 k2 k3 k4 k5
  set nn := faceNormal dm f F c with hnn
  change nn.x * nn.x + nn.y * nn.y + nn.z * nn.z = 1 at hn
  set gam := int.qh.gamma with hgm
  have hg0 : 0 < gam - 1 := by have : 1 < gam := hgam; linarith
  have hg1 := hg0.ne'
  have hx : int.q.u = U * nn.x := congrArg V3.x hv
  have hy : int.q.v = U * nn.y := congrArg V3.y hv
  have hz : int.q.w = U * nn.z := congrArg V3.z hv
  have hun : uDotn int.q nn = U := by simp only [uDotn, hx, hy, hz]; linear_combination U * hn
  have hV2 : stagV int.q ^ 2 = U ^ 2 := by
    unfold stagV; rw [Real.sq_sqrt (by positivity), hx, hy, hz]; linear_combination U^2 * hn
  set cc := int.qh.c with hcc
  have hJ : stagJm gam cc nn int.q = -U + 2 * cc / (gam - 1) := by unfold stagJm; rw [hun]
  have hH : stagHt gam cc int.q = cc ^ 2 / (gam - 1) + 0.5 * U ^ 2 := by unfold stagHt; rw [hV2]
  have hD : (-2 * (-U + 2 * cc / (gam - 1))) ^ 2 - 4 * (1 + 2 / (gam - 1)) * ((gam - 1) * (0.5 * (-U + 2 * cc / (gam - 1)) ^ 2
      - (cc ^ 2 / (gam - 1) + 0.5 * U ^ 2))) = (2 * (cc + U)) ^ 2 := by field_simp; ring
  have hcb : stagCb gam (stagJm gam cc nn int.q) (stagHt gam cc int.q) = cc := by
    rw [hJ, hH, (stag_root (g := gam) hgam (by rw [hD]; positivity)).2, hD, Real.sqrt_sq (by linarith)]
    have hgp : gam + 1 ≠ 0 := by linarith
    have e1 : 1 + 2 / (gam - 1) = (gam + 1) / (gam - 1) := by field_simp; ring
    rw [e1]; field_simp; ring
  have hvb : stagVb gam (stagJm gam cc nn int.q) (stagHt gam cc int.q) = U := by
    unfold stagVb; rw [hcb, hJ]; ring
  have hpos : 0 < 1 + (gam - 1) / 2 * (U / cc) ^ 2 := by positivity
  refine ⟨?_, ?_, ?_⟩
  · rw [show vel int = smul U nn from hv]
    ext
    · rw [show (vel halo).x = halo.q.u from rfl, k2]; show stagVb gam _ _ * nn.x = _; rw [hvb]; rfl
    · rw [show (vel halo).y = halo.q.v from rfl, k3]; show stagVb gam _ _ * nn.y = _; rw [hvb]; rfl
    · rw [show (vel halo).z = halo.q.w from rfl, k4]; show stagVb gam _ _ * nn.z = _; rw [hvb]; rfl
  · rw [k1]
    show (F.bc (tan f c)).q.p * (1 + (gam - 1) / 2 * (stagVb gam (stagJm gam cc nn int.q) (stagHt gam cc int.q) /
      stagCb gam (stagJm gam cc nn int.q) (stagHt gam cc int.q)) ^ 2) ^ (-gam / (gam - 1)) = _
    rw [hvb, hcb, ← hst.1, mul_assoc, neg_div, Real.rpow_neg hpos.le, mul_inv_cancel₀, mul_one]
    exact (Real.rpow_pos_of_pos hpos _).ne'
  · rw [k5]
    show (F.bc (tan f c)).q.T / (1 + (gam - 1) / 2 * (stagVb gam (stagJm gam cc nn int.q) (stagHt gam cc int.q) /
      stagCb gam (stagJm gam cc nn int.q) (stagHt gam cc int.q)) ^ 2) = _
    rw [hvb, hcb, ← hst.2, mul_div_assoc, div_self hpos.ne', mul_one]

/-- C73 fails on j and k faces: the kernel always uses the normals of the i-face family (inlets.cpp:373-375), so when those
    are perpendicular to the inlet face, as on every Cartesian grid, the halo velocity has no component through the face:
    the inlet drives no normal flow whatever the prescribed stagnation pressure. -/
theorem C73_jk_faces_violated {dm : Dims} (hng : dm.ng = 1 ∨ dm.ng = 2) (f : Face) (F : FaceData) {eos : Cell → Cell}
    (he : KeepsPrims eos) (b : Blk) (c : Ix) (hc : InArr dm c) {g : ℕ} (hg : g < dm.ng) (h : c f.dir = haloLayer dm f g)
    (hperp : dot (iNormal dm f F c) (faceNormal dm f F c) = 0) :
    dot (vel ((applyBC .stagnationSubsonicInlet dm f F eos "euler" b).A c)) (faceNormal dm f F c) = 0 := by
  have e := (C34_euler hng .stagnationSubsonicInlet f F eos b c hc (by decide) (by decide) (by decide)).1 g hg h
  obtain ⟨-, k2, k3, k4, -⟩ := he (law .stagnationSubsonicInlet f F (faceNormal dm f F c) (iNormal dm f F c)
      (F.bc (tan f c)) (b.A c) (b.A (inner dm f 0 c)) (b.A (inner dm f (g+1) c)))
  rw [← e] at k2 k3 k4
  simp only [dot, vel, k2, k3, k4]
  simp only [law, stagEuler]
  simp only [dot] at hperp
  linear_combination (stagVb (b.A (inner dm f 0 c)).qh.gamma (stagJm (b.A (inner dm f 0 c)).qh.gamma
    (b.A (inner dm f 0 c)).qh.c (iNormal dm f F c) (b.A (inner dm f 0 c)).q) (stagHt (b.A (inner dm f 0 c)).qh.gamma
    (b.A (inner dm f 0 c)).qh.c (b.A (inner dm f 0 c)).q)) * hperp

/-- the j-face hypothesis is met on a Cartesian grid -/
example : let F : FaceData := ⟨fun d _ => if d = 0 then ⟨1,0,0⟩ else if d = 1 then ⟨0,1,0⟩ else ⟨0,0,1⟩,
      fun _ => ⟨⟨0, 0, 0, 0, 1, fun _ => 0⟩, ⟨0, 0, 0, 0, 0, fun _ => 0⟩⟩, fun _ => ex, fun _ => ex⟩
    let dm : Dims := ⟨fun _ => 3, 1⟩
    let f : Face := ⟨1, true⟩
    dot (iNormal dm f F (fun t => if t = 1 then 0 else 1)) (faceNormal dm f F (fun t => if t = 1 then 0 else 1)) = 0 := by
  simp [iNormal, faceNormal, dot]

/-- C73 fails on high i faces: there the stored normal points out of the block, and the kernel still subtracts the normal
    velocity, so it keeps the invariant of the waves entering the block instead of those leaving it. With `gamma = 2`, unit
    sound speed and velocity (0,1,0) along the face, no boundary sound speed makes the outgoing invariant of the halo equal
    to the interior's together with the total enthalpy. -/
theorem C73_high_face_violated :
    let q : Prim := ⟨1, 0, 1, 0, 1, fun _ => 0⟩
    let cell : Cell := ⟨q, ⟨0,0,0,0,0, fun _ => 0⟩, ⟨2, 0, 0, 1, 0, fun _ => 0⟩⟩
    let hal := stagEuler ex ⟨1, 0, 0, 0, 1, fun _ => 0⟩ cell
    ¬ ∃ cb : ℝ, 0 ≤ cb ∧ totalEnthalpy 2 cb hal.u = totalEnthalpy 2 1 1 ∧
      invariant 2 cb ⟨hal.u, hal.v, hal.w⟩ ex = invariant 2 1 ⟨q.u, q.v, q.w⟩ ex := by
  intro q cell hal
  have hV2 : stagV q ^ 2 = 1 := by unfold stagV; rw [Real.sq_sqrt (by positivity)]; norm_num [q]
  have hJ : stagJm 2 1 ex q = 2 := by norm_num [stagJm, uDotn, q, ex]
  have hH : stagHt 2 1 q = 3/2 := by unfold stagHt; rw [hV2]; norm_num
  have hD : (-2 * (2:ℝ)) ^ 2 - 4 * (1 + 2 / (2 - 1)) * ((2 - 1) * (0.5 * 2 ^ 2 - 3/2)) = 10 := by norm_num
  obtain ⟨h1, h2⟩ := stag_root (g := 2) (Jm := 2) (Ht := 3/2) (by norm_num) (by rw [hD]; norm_num)
  rw [hD] at h2
  have hs : (√10 : ℝ) ^ 2 = 10 := Real.sq_sqrt (by norm_num)
  have hs3 : (3:ℝ) < √10 := by
    rw [Real.lt_sqrt (by norm_num)]; norm_num
  have hs4 : √10 < (4:ℝ) := by
    rw [Real.sqrt_lt' (by norm_num)]; norm_num
  have hu : hal.u = stagVb 2 2 (3/2) := by
    show stagVb 2 (stagJm 2 1 ex q) (stagHt 2 1 q) * 1 = _
    rw [hJ, hH, mul_one]
  have hvb : hal.u = (4 + √10) / 3 - 2 := by
    rw [hu]; unfold stagVb; rw [h2]; norm_num; ring
  rintro ⟨cb, -, e1, e2⟩
  simp only [totalEnthalpy, invariant, dot, ex, q] at e1 e2
  have e2' : hal.u + 2 * cb = 2 := by linarith
  have hcb : cb = 1 - hal.u / 2 := by linarith
  rw [hcb] at e1
  rw [hvb] at e1
  nlinarith

/-! ### exits -/

/-- C74 (constant pressure exit): every halo layer holds the prescribed pressure and the interior temperature; if the
    interior flow leaves the block the velocity is extrapolated linearly, otherwise (backflow) it is mirrored, so that the
    face average has no normal component and no backflow is fed. -/
theorem C74_pressureExit {dm : Dims} (hng : dm.ng = 1 ∨ dm.ng = 2) (f : Face) (F : FaceData) {eos : Cell → Cell}
    (he : KeepsPrims eos) (b : Blk) (c : Ix) (hc : InArr dm c) {g : ℕ} (hg : g < dm.ng) (h : c f.dir = haloLayer dm f g)
    (hn : Unit3 (faceNormal dm f F c)) :
    let halo := (applyBC .constantPressureSubsonicExit dm f F eos "euler" b).A c
    let i1 := b.A (inner dm f 0 c)
    let i2 := b.A (inner dm f (g+1) c)
    let n := outward f (faceNormal dm f F c)
    halo.q.p = (F.bc (tan f c)).q.p ∧ halo.q.T = i1.q.T ∧
    (0 < dot (vel i1) n → vel halo = smul 2 (vel i1) - vel i2) ∧
    (dot (vel i1) n ≤ 0 → dot (smul (1/2) (vel halo + vel i1)) n = 0 ∧
      ∀ t, dot t n = 0 → dot (vel halo) t = dot (vel i1) t) := by
  intro halo i1 i2 n
  have e := (C34_euler hng .constantPressureSubsonicExit f F eos b c hc (by decide) (by decide) (by decide)).1 g hg h
  change halo = eos _ at e
  obtain ⟨k1, k2, k3, k4, k5⟩ := he (law .constantPressureSubsonicExit f F (faceNormal dm f F c) (iNormal dm f F c)
      (F.bc (tan f c)) (b.A c) (b.A (inner dm f 0 c)) (b.A (inner dm f (g+1) c)))
  rw [← e] at k1 k2 k3 k4 k5
  set nn := faceNormal dm f F c with hnn
  change nn.x * nn.x + nn.y * nn.y + nn.z * nn.z = 1 at hn
  have hdn : uDotn i1.q nn * (-(plus f : ℝ)) = dot (vel i1) n := by
    simp only [n, outward, plus, uDotn, dot, vel]
    cases f.low <;> simp [← hnn] ; ring
  have hd2 : (plus f : ℝ) * plus f = 1 := by unfold plus; split <;> simp
  change halo.q.p = (pressureExit (-(plus f : ℝ)) nn (F.bc (tan f c)).q (b.A c).q i1.q i2.q).p at k1
  change halo.q.u = (pressureExit (-(plus f : ℝ)) nn (F.bc (tan f c)).q (b.A c).q i1.q i2.q).u at k2
  change halo.q.v = (pressureExit (-(plus f : ℝ)) nn (F.bc (tan f c)).q (b.A c).q i1.q i2.q).v at k3
  change halo.q.w = (pressureExit (-(plus f : ℝ)) nn (F.bc (tan f c)).q (b.A c).q i1.q i2.q).w at k4
  change halo.q.T = (pressureExit (-(plus f : ℝ)) nn (F.bc (tan f c)).q (b.A c).q i1.q i2.q).T at k5
  have hnx : ∀ v : V3, dot v n = -(plus f : ℝ) * dot v nn := by
    intro v; simp only [n, outward, plus, dot]; cases f.low <;> simp [← hnn]; ring
  unfold pressureExit exitVel at k1 k2 k3 k4 k5
  simp only [hdn] at k1 k2 k3 k4 k5
  refine ⟨?_, ?_, ?_, ?_⟩
  · rw [k1]; split <;> rfl
  · rw [k5]; split <;> rfl
  · intro hpos
    rw [if_pos hpos] at k2 k3 k4
    ext
    · exact k2
    · exact k3
    · exact k4
  · intro hle
    rw [if_neg (not_lt.2 hle)] at k2 k3 k4
    have k : vel halo = ⟨i1.q.u - 2 * dot (vel i1) n * nn.x * (-(plus f : ℝ)), i1.q.v - 2 * dot (vel i1) n * nn.y * (-(plus f : ℝ)),
        i1.q.w - 2 * dot (vel i1) n * nn.z * (-(plus f : ℝ))⟩ := by
      ext
      · exact k2
      · exact k3
      · exact k4
    refine ⟨?_, fun t ht => ?_⟩
    · rw [hnx, k]
      have := hnx (vel i1)
      rw [this]
      simp only [dot, smul_x, smul_y, smul_z, add_x, add_y, add_z, vel]
      linear_combination (plus f : ℝ) * (i1.q.u * nn.x + i1.q.v * nn.y + i1.q.w * nn.z) * ((nn.x * nn.x + nn.y * nn.y + nn.z * nn.z) * hd2 + hn)
    · rw [k]
      rw [hnx] at ht
      simp only [dot, vel] at ht ⊢
      linear_combination (-2 * (i1.q.u * n.x + i1.q.v * n.y + i1.q.w * n.z)) * ht

/-- C74 (supersonic exit): every halo layer has pressure between zero and the interior one, nonnegative temperature, and
    velocity extrapolated linearly when leaving the block. -/
theorem C74_superExit_partial {dm : Dims} (hng : dm.ng = 1 ∨ dm.ng = 2) (f : Face) (F : FaceData) {eos : Cell → Cell}
    (he : KeepsPrims eos) (b : Blk) (c : Ix) (hc : InArr dm c) {g : ℕ} (hg : g < dm.ng) (h : c f.dir = haloLayer dm f g)
    (hp : 0 ≤ (b.A (inner dm f 0 c)).q.p) :
    let halo := (applyBC .supersonicExit dm f F eos "euler" b).A c
    let i1 := b.A (inner dm f 0 c)
    let i2 := b.A (inner dm f (g+1) c)
    let n := outward f (faceNormal dm f F c)
    0 ≤ halo.q.p ∧ halo.q.p ≤ i1.q.p ∧ 0 ≤ halo.q.T ∧
    (i2.q.T < 2 * i1.q.T → 0 < halo.q.T ∧ halo.q.T = 2 * i1.q.T - i2.q.T) ∧
    (i1.q.p ≤ i2.q.p → i2.q.p ≤ 2 * i1.q.p → halo.q.p = 2 * i1.q.p - i2.q.p) ∧
    (0 < dot (vel i1) n → vel halo = smul 2 (vel i1) - vel i2) := by
  intro halo i1 i2 n
  have e := (C34_euler hng .supersonicExit f F eos b c hc (by decide) (by decide) (by decide)).1 g hg h
  change halo = eos _ at e
  obtain ⟨k1, k2, k3, k4, k5⟩ := he (law .supersonicExit f F (faceNormal dm f F c) (iNormal dm f F c)
      (F.bc (tan f c)) (b.A c) (b.A (inner dm f 0 c)) (b.A (inner dm f (g+1) c)))
  rw [← e] at k1 k2 k3 k4 k5
  set nn := faceNormal dm f F c with hnn
  have hdn : uDotn i1.q nn * (-(plus f : ℝ)) = dot (vel i1) n := by
    simp only [n, outward, plus, uDotn, dot, vel]
    cases f.low <;> simp [← hnn] ; ring
  change halo.q.p = (superExit (-(plus f : ℝ)) nn (b.A c).q i1.q i2.q).p at k1
  change halo.q.u = (superExit (-(plus f : ℝ)) nn (b.A c).q i1.q i2.q).u at k2
  change halo.q.v = (superExit (-(plus f : ℝ)) nn (b.A c).q i1.q i2.q).v at k3
  change halo.q.w = (superExit (-(plus f : ℝ)) nn (b.A c).q i1.q i2.q).w at k4
  change halo.q.T = (superExit (-(plus f : ℝ)) nn (b.A c).q i1.q i2.q).T at k5
  have kp : halo.q.p = min (max 0 (2 * i1.q.p - i2.q.p)) i1.q.p := by
    rw [k1]; unfold superExit exitVel; dsimp only; split <;> rfl
  have kT : halo.q.T = max 0 (2 * i1.q.T - i2.q.T) := by
    rw [k5]; unfold superExit exitVel; dsimp only; split <;> rfl
  unfold superExit exitVel at k2 k3 k4
  simp only [hdn] at k2 k3 k4
  refine ⟨?_, ?_, ?_, ?_, ?_, ?_⟩
  · rw [kp]; exact le_min (le_max_left _ _) hp
  · rw [kp]; exact min_le_right _ _
  · rw [kT]; exact le_max_left _ _
  · intro hT; rw [kT, max_eq_right (by linarith)]; exact ⟨by linarith, rfl⟩
  · intro h1 h2; rw [kp, max_eq_right (by linarith), min_eq_left (by linarith)]
  · intro hpos
    rw [if_pos hpos] at k2 k3 k4
    ext
    · exact k2
    · exact k3
    · exact k4

/-- C74 (exits): mass fractions of the constant pressure exit are the interior ones, those of the supersonic exit the linear
    extrapolation cut to [0,1]. -/
theorem C74_species {dm : Dims} (hng : dm.ng = 1 ∨ dm.ng = 2) (f : Face) (F : FaceData) {eos : Cell → Cell} {ns : ℕ}
    (he : ClipsSpecies ns eos) (b : Blk) (c : Ix) (hc : InArr dm c) {g : ℕ} (hg : g < dm.ng) (h : c f.dir = haloLayer dm f g)
    {n : ℕ} (hn : n < ns - 1) (h0 : 0 ≤ (b.A (inner dm f 0 c)).q.Y n) (h1 : (b.A (inner dm f 0 c)).q.Y n ≤ 1) :
    ((applyBC .constantPressureSubsonicExit dm f F eos "euler" b).A c).q.Y n = (b.A (inner dm f 0 c)).q.Y n ∧
    ((applyBC .supersonicExit dm f F eos "euler" b).A c).q.Y n =
      max 0 (min 1 (2 * (b.A (inner dm f 0 c)).q.Y n - (b.A (inner dm f (g+1) c)).q.Y n)) := by
  constructor
  · rw [(C34_euler hng _ f F eos b c hc (by decide) (by decide) (by decide)).1 g hg h, he _ n hn]
    have : ∀ d nn q0, (pressureExit d nn (F.bc (tan f c)).q q0 (b.A (inner dm f 0 c)).q
        (b.A (inner dm f (g+1) c)).q).Y = (b.A (inner dm f 0 c)).q.Y := by
      intro d nn q0; unfold pressureExit exitVel; dsimp only; split <;> rfl
    show max (min ((pressureExit _ _ _ _ _ _).Y n) 1) 0 = _
    rw [this, min_eq_left h1, max_eq_left h0]
  · rw [(C34_euler hng _ f F eos b c hc (by decide) (by decide) (by decide)).1 g hg h, he _ n hn]
    have : ∀ d nn q0, (superExit d nn q0 (b.A (inner dm f 0 c)).q
        (b.A (inner dm f (g+1) c)).q).Y n =
        max 0 (min 1 (2 * (b.A (inner dm f 0 c)).q.Y n - (b.A (inner dm f (g+1) c)).q.Y n)) := by
      intro d nn q0; unfold superExit exitVel; dsimp only; split <;> rfl
    show max (min ((superExit _ _ _ _ _).Y n) 1) 0 = _
    rw [this, min_eq_left, max_eq_left (le_max_left _ _)]
    exact max_le zero_le_one (min_le_left _ _)

/-- C74 fails for the supersonic exit behind a strong temperature drop: with the second interior cell at least twice as hot
    as the first, the halo temperature is exactly zero for every state, and the equation of state then divides by zero. -/
theorem C74_superExit_violated {dm : Dims} (hng : dm.ng = 1 ∨ dm.ng = 2) (f : Face) (F : FaceData) {eos : Cell → Cell}
    (he : KeepsPrims eos) (b : Blk) (c : Ix) (hc : InArr dm c) {g : ℕ} (hg : g < dm.ng) (h : c f.dir = haloLayer dm f g)
    (hT : 2 * (b.A (inner dm f 0 c)).q.T ≤ (b.A (inner dm f (g+1) c)).q.T) :
    ((applyBC .supersonicExit dm f F eos "euler" b).A c).q.T = 0 := by
  have e := (C34_euler hng .supersonicExit f F eos b c hc (by decide) (by decide) (by decide)).1 g hg h
  obtain ⟨-, -, -, -, k5⟩ := he (law .supersonicExit f F (faceNormal dm f F c) (iNormal dm f F c)
      (F.bc (tan f c)) (b.A c) (b.A (inner dm f 0 c)) (b.A (inner dm f (g+1) c)))
  rw [e, k5]
  show (superExit _ _ _ _ _).T = 0
  have : (superExit (-(plus f : ℝ)) (faceNormal dm f F c) (b.A c).q (b.A (inner dm f 0 c)).q
      (b.A (inner dm f (g+1) c)).q).T = max 0 (2 * (b.A (inner dm f 0 c)).q.T - (b.A (inner dm f (g+1) c)).q.T) := by
    unfold superExit exitVel; dsimp only; split <;> rfl
  rw [this, max_eq_left (by linarith)]

/-- hypotheses of the exit theorems are met with admissible temperatures 1 and 2 -/
example : let dm : Dims := ⟨fun _ => 3, 1⟩
    let f : Face := ⟨0, true⟩
    let b : Blk := ⟨fun x => if x 0 = 1 then stateOf 1 0 1 else stateOf 1 0 2, fun _ _ => 0⟩
    let c : Ix := fun t => if t = 0 then 0 else 1
    InArr dm c ∧ c f.dir = haloLayer dm f 0 ∧ Unit3 (faceNormal dm f (demoF 1) c) ∧ KeepsPrims (cpgPrims gas) ∧
    0 ≤ (b.A (inner dm f 0 c)).q.p ∧ 2 * (b.A (inner dm f 0 c)).q.T ≤ (b.A (inner dm f (0+1) c)).q.T := by
  intro dm f b c
  have i0 : b.A (inner dm f 0 c) = stateOf 1 0 1 := by simp [b, inner, interiorLayer, f, dm]
  have i1 : b.A (inner dm f (0+1) c) = stateOf 1 0 2 := by simp [b, inner, interiorLayer, f, dm]
  refine ⟨?_, ?_, ?_, (primsEos_cpg gas).keeps, ?_, ?_⟩
  · intro t; simp only [dm, c, Dims.ext]; split <;> simp
  · simp [c, f, haloLayer, dm]
  · simp [Unit3, faceNormal, demoF, ex, dot]
  · rw [i0]; show (0:ℝ) ≤ 1; norm_num
  · rw [i0, i1]; show 2 * (1:ℝ) ≤ 2; norm_num

end PG.BC
