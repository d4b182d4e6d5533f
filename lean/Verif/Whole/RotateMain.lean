import Verif.Whole.RotateAxial
import Verif.Dual.Dtau
/-!
C110: a case turned and moved as a whole gives the same flow, turned and moved.
-/
noncomputable section
namespace PG.Whole
open PG.Topo PG.Halo PG.Time PG.Flux V3

/-! ### specification -/

/-- two solver states show the same flow in frames rotated against each other: same step count and time, and in every cell of
    every block the same pressure, temperature, mass fractions, density, energy, partial densities; velocity and momentum are the
    rotated vectors -/
def SameFlow (R : Rotation) (s' s : St Entry (Aux rotS)) : Prop :=
  s'.nrt = s.nrt ∧ s'.tme = s.tme ∧ ∀ n p,
    (∀ l, l = 0 ∨ 4 ≤ l → s'.core.q (n, p, l) = s.core.q (n, p, l) ∧ s'.core.Q (n, p, l) = s.core.Q (n, p, l)) ∧
    (⟨s'.core.q (n, p, 1), s'.core.q (n, p, 2), s'.core.q (n, p, 3)⟩ : V3) = R.f ⟨s.core.q (n, p, 1), s.core.q (n, p, 2), s.core.q (n, p, 3)⟩ ∧
    (⟨s'.core.Q (n, p, 1), s'.core.Q (n, p, 2), s'.core.Q (n, p, 3)⟩ : V3) = R.f ⟨s.core.Q (n, p, 1), s.core.Q (n, p, 2), s.core.Q (n, p, 3)⟩

/-- initial arrays in the rotated frame: vectors turned, gradients turned, scalars as they are -/
def turnedStart (R : Rotation) (m : V3) (s : St Entry (Aux rotS)) : St Entry (Aux rotS) := (motion R m).state s

theorem state_same (R : Rotation) (m : V3) (s : St Entry (Aux rotS)) : SameFlow R ((motion R m).state s) s := by
  refine ⟨rfl, rfl, fun n p => ⟨fun l hl => ?_, rfl, rfl⟩⟩
  rcases hl with rfl | hl
  · exact ⟨rfl, rfl⟩
  · exact ⟨comps_ge R hl fun l => s.core.q (n, p, l), comps_ge R hl fun l => s.core.Q (n, p, l)⟩

/-- the schemes that see velocities only through lengths and normal components, by name -/
def isotropicSchemes : List String := ["rusanov", "ausmPlusUp", "hllc", "KEEP", "KEEPpe", "KEPaEC", "centralDifference", "fourthOrderKEEP"]

theorem named_isotropic {n : String} (hn : n ∈ isotropicSchemes) {s : Flux.Scheme} (hs : Config.kernel n = some s) : Flux.Isotropic s := by
  simp only [isotropicSchemes, List.mem_cons, List.not_mem_nil, or_false] at hn
  rcases hn with rfl | rfl | rfl | rfl | rfl | rfl | rfl | rfl <;> cases hs
  · exact Flux.rusanov_isotropic
  · exact Flux.ausm_isotropic
  · exact Flux.hllc_isotropic
  · exact Flux.keep_isotropic
  · exact Flux.keeppe_isotropic
  · exact Flux.kepaec_isotropic
  · exact Flux.central_isotropic
  · exact Flux.fourth_isotropic

theorem moves {R : Rotation} {m : V3} {G : Gas} {C : Case} (h1 : Flux.IsotropicAt R G.s1) (h2 : ∀ s ∈ G.s2, Flux.IsotropicAt R s)
    (hd : G.diffusion = true → Diff.IsotropicAt R G.sd) {J : Integrator} (hJ : J ≠ .dualTime) (ng : ℕ) (W : List (List Block)) (dts : List ℝ)
    (s : St Entry (Aux rotS)) :
    SameFlow R
      (run (env (G.moved R m).kernels ((C.moved R m).input G.eos) ng W) J dts
        (bootstrap (G.moved R m).kernels ((C.moved R m).input G.eos) ng W (turnedStart R m s)))
      (run (env G.kernels (C.input G.eos) ng W) J dts (bootstrap G.kernels (C.input G.eos) ng W s)) := by
  unfold turnedStart
  rw [run_map (G.kernel_move R m h1 h2 hd) (C.input_move R m G.eos) J (fun e => absurd e hJ)]
  exact state_same R m _

/-- C110: for any gas and models, any blocks on any ranks with any boundary conditions, any explicit integrator and any time
    steps: running the case rotated by any rotation and translated by any vector gives at the end the same flow, rotated - if the
    advective schemes are among the eight above and diffusion is off or uses the plain diffusive flux.
    Missing: the MUSCL schemes and alphaDamping (false, see below; true for quarter turns), dual time stepping and time steps
    controlled by CFL (false), scalarDissipation (reads its i-neighbour in every direction, C37). -/
theorem C110_rigid_motion_partial (R : Rotation) (m : V3) (G : Gas) (C : Case)
    {n1 : String} (h1 : n1 ∈ isotropicSchemes) (hs1 : Config.kernel n1 = some G.s1)
    (h2 : ∀ s ∈ G.s2, ∃ n ∈ isotropicSchemes, Config.kernel n = some s)
    (hd : G.diffusion = true → G.sd = .plain)
    {J : Integrator} (hJ : J ≠ .dualTime) (ng : ℕ) (W : List (List Block)) (dts : List ℝ) (s : St Entry (Aux rotS)) :
    SameFlow R
      (run (env (G.moved R m).kernels ((C.moved R m).input G.eos) ng W) J dts
        (bootstrap (G.moved R m).kernels ((C.moved R m).input G.eos) ng W (turnedStart R m s)))
      (run (env G.kernels (C.input G.eos) ng W) J dts (bootstrap G.kernels (C.input G.eos) ng W s)) := by
  refine moves (named_isotropic h1 hs1 R) (fun s hs => ?_) (fun h => ?_) hJ ng W dts s
  · obtain ⟨n, hn, hk⟩ := h2 s hs
    exact named_isotropic hn hk R
  · rw [hd h]; exact Diff.plain_isotropic R

/-- C110 for rotations that permute the coordinate axes: with every advective scheme (but scalarDissipation) and both diffusive
    fluxes. -/
theorem C110_quarter_turns {R : Rotation} (hR : R.Axial) (m : V3) (G : Gas) (C : Case)
    {n1 : String} (hs1 : Config.kernel n1 = some G.s1) (h2 : ∀ s ∈ G.s2, ∃ n, Config.kernel n = some s)
    {J : Integrator} (hJ : J ≠ .dualTime) (ng : ℕ) (W : List (List Block)) (dts : List ℝ) (s : St Entry (Aux rotS)) :
    SameFlow R
      (run (env (G.moved R m).kernels ((C.moved R m).input G.eos) ng W) J dts
        (bootstrap (G.moved R m).kernels ((C.moved R m).input G.eos) ng W (turnedStart R m s)))
      (run (env G.kernels (C.input G.eos) ng W) J dts (bootstrap G.kernels (C.input G.eos) ng W s)) := by
  have key : ∀ {n s}, Config.kernel n = some s → Flux.IsotropicAt R s := by
    intro n s hs
    unfold Config.kernel at hs
    split at hs <;> cases hs
    · exact Flux.keep_isotropic R
    · exact Flux.keeppe_isotropic R
    · exact Flux.kepaec_isotropic R
    · exact Flux.central_isotropic R
    · exact Flux.rusanov_isotropic R
    · exact Flux.ausm_isotropic R
    · exact Flux.hllc_isotropic R
    · exact Flux.fourth_isotropic R
    · exact Flux.muscl2rusanov_axial hR
    · exact Flux.muscl2hllc_axial hR
  refine moves (key hs1) (fun s hs => ?_) (fun _ => ?_) hJ ng W dts s
  · obtain ⟨n, hk⟩ := h2 s hs
    exact key hk
  · cases G.sd
    · exact Diff.plain_isotropic R
    · exact Diff.damped_axial hR

/-! ### what is not so -/

/-- a turn by the angle of the 3-4-5 triangle -/
def turn345 : Rotation := Rotation.ofColumns ⟨3/5, 4/5, 0⟩ ⟨-4/5, 3/5, 0⟩ ⟨0, 0, 1⟩
  (by norm_num [V3.dot]) (by norm_num [V3.dot]) (by norm_num [V3.dot]) (by ext <;> norm_num)

/-- gas of density, pressure and sound speed 1 moving fast along x, with some shear -/
def fastCell (u v : ℝ) : Flux.Cell := ⟨1, 10 + u, v, 0, fun _ => 0, 1, 10 + u, v, 0, 1, fun _ => 0, 1, 1⟩

/-- a unit face normal to x -/
def unitFace : FaceG := ⟨⟨1, 0, 0⟩, ⟨1, 0, 0⟩, 1⟩

theorem turned_fast (u v : ℝ) : (fastCell u v).turn turn345 =
    ⟨1, 6 + 3/5 * u - 4/5 * v, 8 + 4/5 * u + 3/5 * v, 0, fun _ => 0, 1, 6 + 3/5 * u - 4/5 * v, 8 + 4/5 * u + 3/5 * v, 0, 1, fun _ => 0, 1, 1⟩ := by
  simp only [Flux.Cell.turn, fastCell, turn345, Rotation.ofColumns, add_x, add_y, add_z, smul_x, smul_y, smul_z]
  rw [Flux.Cell.mk.injEq]
  refine ⟨rfl, ?_, ?_, ?_, rfl, rfl, ?_, ?_, ?_, rfl, rfl, rfl, rfl⟩ <;> ring

theorem turned_face : unitFace.turn turn345 = ⟨⟨3/5, 4/5, 0⟩, ⟨3/5, 4/5, 0⟩, 1⟩ := by
  simp only [FaceG.turn, unitFace, turn345, Rotation.ofColumns]
  rw [FaceG.mk.injEq]
  refine ⟨?_, ?_, rfl⟩ <;> ext <;> simp

/-- C110 fails for the MUSCL schemes: they limit the three velocity components separately, so the mass flux through a face depends
    on how the axes are chosen (muscl2rusanov.cpp:36-128). -/
theorem C110_muscl_violated :
    muscl2rusanov ((fastCell 0 0).turn turn345) ((fastCell 1 0).turn turn345) ((fastCell 2 5).turn turn345) ((fastCell 2 5).turn turn345)
      (unitFace.turn turn345) 0 ≠ muscl2rusanov (fastCell 0 0) (fastCell 1 0) (fastCell 2 5) (fastCell 2 5) unitFace 0 ∧
    muscl2hllc ((fastCell 0 0).turn turn345) ((fastCell 1 0).turn turn345) ((fastCell 2 5).turn turn345) ((fastCell 2 5).turn turn345)
      (unitFace.turn turn345) 0 ≠ muscl2hllc (fastCell 0 0) (fastCell 1 0) (fastCell 2 5) (fastCell 2 5) unitFace 0 := by
  simp only [turned_fast, turned_face]
  constructor
  · simp only [muscl2rusanov, rusanovOf, mk5, proj, faceL, faceR, musclL, musclR, recL, recR, phiL, phiR, limiter, fastCell, unitFace]
    norm_num
  · simp only [muscl2hllc, hllc, sideFlux, mk5, proj, faceL, faceR, musclL, musclR, recL, recR, phiL, phiR, limiter, fastCell, unitFace, eInt]
    norm_num

/-- gas at rest with temperature `T` and conductivity 1 at the place `x` -/
def warmCell (T : ℝ) (x : V3) : Diff.DCell := ⟨fun l => if l = 4 then T else 0, fun _ => 0, 0, 1, fun _ => 0, fun _ => 0, 1, x⟩

/-- C110 fails for alphaDamping, the diffusive flux every solver uses by default: the distance of the cell centres along the normal is
    taken as the root of the sum of the squared products of components (alphaDampingFlux.cpp:46-54), so the heat flux between two
    cells at rest changes when the axes are turned. -/
theorem C110_alphaDamping_violated :
    Diff.Scheme.flux .damped 1 (Diff.FaceD.turn turn345 0 ⟨⟨1, 0, 0⟩, ⟨1, 0, 0⟩, ⟨1/2, 0, 0⟩⟩)
      ((warmCell 1 ⟨0, 0, 0⟩).turn turn345 0) ((warmCell 2 ⟨1, 0, 0⟩).turn turn345 0) 4 ≠
    Diff.Scheme.flux .damped 1 ⟨⟨1, 0, 0⟩, ⟨1, 0, 0⟩, ⟨1/2, 0, 0⟩⟩ (warmCell 1 ⟨0, 0, 0⟩) (warmCell 2 ⟨1, 0, 0⟩) 4 := by
  have key : ∀ f L r, (L : Diff.DCell).mu = 0 → r.mu = 0 → L.kappa = 1 → r.kappa = 1 → (∀ n, L.h n = 0) → (∀ n, r.h n = 0) →
      Diff.Scheme.flux .damped 1 f L r 4 = -((Diff.gradDamp L r f 4).x * f.s.x + (Diff.gradDamp L r f 4).y * f.s.y + (Diff.gradDamp L r f 4).z * f.s.z) := by
    intro f L r h1 h2 h3 h4 h5 h6
    show Diff.faceFlux false 1 (Diff.gradDamp L r f) f.s L r 4 = _
    simp only [Diff.faceFlux, Diff.stress, h1, h2, h3, h4, h5, h6, Diff.avg]
    norm_num
  rw [key _ _ _ rfl rfl rfl rfl (fun _ => rfl) (fun _ => rfl), key _ _ _ rfl rfl rfl rfl (fun _ => rfl) (fun _ => rfl)]
  have g : ∀ n, (turn345.grads fun _ => 0) n = 0 := by
    intro n
    have z := turn345.zero
    have zs : ∀ k, V3.smul k 0 = 0 := by intro k; ext <;> simp
    have za : (0 : V3) + 0 = 0 := by ext <;> simp
    match n with
    | 0 => exact z
    | 1 => simp only [Rotation.grads, z, zs, za]
    | 2 => simp only [Rotation.grads, z, zs, za]
    | 3 => simp only [Rotation.grads, z, zs, za]
    | n + 4 => exact z
  have c : ∀ T x, ((warmCell T x).turn turn345 0).q 4 = T := fun _ _ => rfl
  have e : ∀ T x, ((warmCell T x).turn turn345 0).g = fun _ => 0 := fun _ _ => funext g
  have xs : (turn345.f ⟨1, 0, 0⟩ : V3) = ⟨3/5, 4/5, 0⟩ := by ext <;> simp [turn345, Rotation.ofColumns]
  have x0 : (turn345.f ⟨0, 0, 0⟩ : V3) = ⟨0, 0, 0⟩ := turn345.zero
  simp only [Diff.gradDamp, Diff.extrap, Diff.damp, Diff.magEn, c, e]
  simp only [Diff.FaceD.turn, Diff.DCell.turn, warmCell, xs, x0, Diff.avg]
  norm_num
  intro h
  field_simp at h
  have h3 : √(625 : ℝ) = √337 := by linarith
  have := (Real.sqrt_inj (by norm_num) (by norm_num)).1 h3
  norm_num at this

/-- faces of a cell with all normals along x -/
def axisGeo : Dual.FaceGeo := ⟨fun _ _ _ => 0, fun _ _ x => if x = 0 then 1 else 0⟩

/-- C110 fails for the pseudo time step of dual time stepping (dualTime.cpp:74-85) and in the same way for the CFL numbers by which
    time steps are controlled (cfl.cpp:35-80): the convective speed across a cell depends on the axes. Here unit speed along the
    normal counts as 1 along x, and as less in the turned frame. -/
theorem C110_speed_violated :
    let u : Fin 3 → ℝ := fun x => if x = 0 then 1 else 0
    Dual.convSpeed axisGeo u 0 = 1 ∧
    Dual.convSpeed ⟨axisGeo.ctr, fun d b x => (turn345.f ⟨axisGeo.nrm d b 0, axisGeo.nrm d b 1, axisGeo.nrm d b 2⟩).at x⟩
      (fun x => (turn345.f ⟨u 0, u 1, u 2⟩).at x) 0 < 3/4 := by
  have xs : (turn345.f ⟨1, 0, 0⟩ : V3) = ⟨3/5, 4/5, 0⟩ := by ext <;> simp [turn345, Rotation.ofColumns]
  have t : ((2 : Fin 3) = 0) = False := by decide
  have t' : ((2 : Fin 3) = 1) = False := by decide
  constructor
  · simp only [Dual.convSpeed, axisGeo, Fin.sum_univ_three, t]
    norm_num
  · simp only [Dual.convSpeed, axisGeo, Fin.sum_univ_three]
    norm_num [xs, V3.at, t, t']
    rw [show √(625 : ℝ) = 25 from by rw [show (625 : ℝ) = 25 ^ 2 from by norm_num]; exact Real.sqrt_sq (by norm_num), div_lt_iff₀ (by norm_num)]
    rw [Real.sqrt_lt' (by norm_num)]
    norm_num

/-! ### a case -/

/-- air as a calorically perfect gas, sponge, sensor, KEEP blended with hllc, Smagorinsky, fourth order gradients; `sd` and `s1` to choose -/
def airCase (th : _root_.PG.Thermo.Th) (s1 s2 : Flux.Scheme) (sd : Diff.Scheme) : Gas where
  eos := .cpg th
  tr s := ⟨s.T / 1000, s.T, fun _ => 0⟩
  sponge := some ⟨⟨1, 2, 3⟩, ⟨4, 5, 6⟩, 10⟩
  switch := some .jamesonPressure
  s1 := s1
  s2 := some s2
  diffusion := true
  sd := sd
  fourth := true
  smag := true
  source _ x := x
  react _ s := (s.T, s.Y, s.rhoY)
  dtau _ _ _ _ := 1
  invert _ _ _ _ _ x := x

/-- a block with an inlet blowing along x on face 1, an exit on face 2, a moving wall on face 3 and a slip wall elsewhere -/
def channel : Case where
  X _ p := ⟨p 0, p 1, p 2⟩
  dims _ := ⟨5, 5, 5⟩
  kind _ nf := some (if nf = 1 then .constantVelocitySubsonicInlet else if nf = 2 then .constantPressureSubsonicExit
    else if nf = 3 then .adiabaticMovingWall else .adiabaticSlipWall)
  val _ _ t _ := ⟨⟨1, 1 + t, 0, 0, 300, fun _ => 0⟩, ⟨1, 1 + t, 0, 0, 1, fun _ => 0⟩⟩
  rotAxis _ _ := ⟨0, 0, 1⟩
  span _ _ := 0

/-- the theorem applies to it, turned by any angle about z and moved -/
example (th : _root_.PG.Thermo.Th) (θ : ℝ) (W : List (List Block)) (dts : List ℝ) (s : St Entry (Aux rotS)) :
    let G := airCase th (fun _ L R _ g => KEEP L R g) (fun _ L R _ g => hllc L R g) .plain
    let R := Rotation.aboutZ θ
    SameFlow R
      (run (env (G.moved R ⟨1, 2, 3⟩).kernels ((channel.moved R ⟨1, 2, 3⟩).input G.eos) 2 W) .rk3 dts
        (bootstrap (G.moved R ⟨1, 2, 3⟩).kernels ((channel.moved R ⟨1, 2, 3⟩).input G.eos) 2 W (turnedStart R ⟨1, 2, 3⟩ s)))
      (run (env G.kernels (channel.input G.eos) 2 W) .rk3 dts (bootstrap G.kernels (channel.input G.eos) 2 W s)) :=
  C110_rigid_motion_partial _ _ _ _ (n1 := "KEEP") (by decide) rfl (fun _ h => by cases h; exact ⟨"hllc", by decide, rfl⟩) (fun _ => rfl)
    (by decide) 2 W dts s

/-- the rotation is not trivial: the inlet blows along y after a quarter turn -/
example : ((channel.moved (Rotation.aboutZ (Real.pi / 2)) 0).val 0 1 0 0).q.v = 1 := by
  simp [Case.moved, channel, BC.BcVal.turn, _root_.PG.Thermo.Prim.turn, Rotation.aboutZ, Rotation.ofColumns]

/-- and with MUSCL and alphaDamping for a quarter turn -/
example (th : _root_.PG.Thermo.Th) (W : List (List Block)) (dts : List ℝ) (s : St Entry (Aux rotS)) :
    let G := airCase th muscl2rusanov muscl2hllc .damped
    let R := Rotation.aboutZ (Real.pi / 2)
    SameFlow R
      (run (env (G.moved R 0).kernels ((channel.moved R 0).input G.eos) 2 W) .rk4 dts
        (bootstrap (G.moved R 0).kernels ((channel.moved R 0).input G.eos) 2 W (turnedStart R 0 s)))
      (run (env G.kernels (channel.input G.eos) 2 W) .rk4 dts (bootstrap G.kernels (channel.input G.eos) 2 W s)) :=
  C110_quarter_turns quarter_axial _ _ _ (n1 := "muscl2rusanov") rfl (fun _ h => by cases h; exact ⟨"muscl2hllc", rfl⟩) (by decide) 2 W dts s

end PG.Whole
