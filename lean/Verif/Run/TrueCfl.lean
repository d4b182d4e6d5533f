import Verif.Run.Props
/-
C68: the Courant number the variable time step really guarantees.

`C21_variable` is about the rate the code computes. Its convective speed is the root of the sum of the squared components
(n_x u)² + (n_y v)² + (n_z w)² (cfl.cpp:53-64), not the speed |n·u| at which the flow crosses the cell. Specification, independent of
the model: `normalSpeed` is |n·u| with n the mean of the two face normals, and the Courant number of a cell in a direction is
dt (|n·u| + c) / length.
-/
noncomputable section
namespace PG.Run

/-- the speed of the flow across the cell in a direction: |n·u| -/
def normalSpeed (v : V3) (a : Dir) : ℝ := |V3.dot (meanN a) v|

/-- the Courant number of a cell in a direction for the step `dt` -/
def courant (dt : ℝ) (k : CellD) (d : ℕ) : ℝ := dt * ((normalSpeed k.vel (k.dir d) + k.c) / thickness (k.dir d))

theorem normalSpeed_le (v : V3) (a : Dir) : normalSpeed v a ≤ Real.sqrt 3 * speed v a := by
  unfold normalSpeed speed meanN V3.dot
  rw [← Real.sqrt_mul (by norm_num)]
  refine Real.abs_le_sqrt ?_
  set p := 0.5 * (a.n0.x + a.n1.x) * v.x
  set q := 0.5 * (a.n0.y + a.n1.y) * v.y
  set r := 0.5 * (a.n0.z + a.n1.z) * v.z
  nlinarith [sq_nonneg (p - q), sq_nonneg (p - r), sq_nonneg (q - r)]

/-- where the code's speed is an upper bound of the true one: the three products never reinforce each other -/
theorem normalSpeed_le_of_cross (v : V3) (a : Dir)
    (h : (meanN a).x * v.x * ((meanN a).y * v.y) + (meanN a).x * v.x * ((meanN a).z * v.z) +
      (meanN a).y * v.y * ((meanN a).z * v.z) ≤ 0) : normalSpeed v a ≤ speed v a := by
  unfold meanN at h
  unfold normalSpeed speed meanN V3.dot
  simp only at h ⊢
  refine Real.abs_le_sqrt ?_
  nlinarith

theorem one_le_sqrt3 : (1 : ℝ) ≤ Real.sqrt 3 := by
  rw [show (1 : ℝ) = Real.sqrt 1 by simp]
  exact Real.sqrt_le_sqrt (by norm_num)

/-- C68 (partial): the step chosen with variable time stepping keeps the Courant number of every cell of every block of every rank, in
    every resolved direction, below √3 times the configured maximum, and below the configured maximum itself in every cell and direction
    whose mean normal is parallel to a coordinate axis (or in which the three products n_x u, n_y v, n_z w do not reinforce each other).
    MISSING: the configured maximum on other grids, where it is exceeded (`C68_true_cfl_violated`). -/
theorem C68_true_cfl_partial (cf : TConf) (hv : cf.varStep = true) (h1 : 0 < cf.maxCFL) (h2 : 0 < cf.maxDt)
    (ranks : List (List Blk)) (ho : Ok ranks) (hr : Resolved ranks) :
    ∃ dt, getDt cf ranks = some dt ∧ 0 < dt ∧ dt ≤ cf.maxDt ∧
      ∀ mb ∈ ranks, ∀ b ∈ mb, ∀ k ∈ b.cells, ∀ d < 3, b.n d ≠ 2 →
        courant dt k d ≤ Real.sqrt 3 * cf.maxCFL ∧
        ((meanN (k.dir d)).x * k.vel.x * ((meanN (k.dir d)).y * k.vel.y) +
          (meanN (k.dir d)).x * k.vel.x * ((meanN (k.dir d)).z * k.vel.z) +
          (meanN (k.dir d)).y * k.vel.y * ((meanN (k.dir d)).z * k.vel.z) ≤ 0 → courant dt k d ≤ cf.maxCFL) ∧
        (let n := meanN (k.dir d); (n.x = 0 ∧ n.y = 0) ∨ (n.x = 0 ∧ n.z = 0) ∨ (n.y = 0 ∧ n.z = 0) →
          courant dt k d ≤ cf.maxCFL) := by
  obtain ⟨dt, e, p, q, B, -⟩ := C21_variable cf hv h1 h2 ranks ho hr
  refine ⟨dt, e, p, q, fun mb m1 b m2 k m3 d m4 m5 => ?_⟩
  obtain ⟨hc, hl⟩ := ho mb m1 b m2 k m3
  have hl := hl d m4
  have hb := B mb m1 b m2 k m3 d m4 m5
  have key : ∀ s, 1 ≤ s → normalSpeed k.vel (k.dir d) ≤ s * speed k.vel (k.dir d) → courant dt k d ≤ s * cf.maxCFL := by
    intro s hs hle
    have a1 : normalSpeed k.vel (k.dir d) + k.c ≤ s * (speed k.vel (k.dir d) + k.c) := by nlinarith
    calc courant dt k d ≤ dt * (s * (speed k.vel (k.dir d) + k.c) / thickness (k.dir d)) := by
          unfold courant; gcongr
      _ = s * (dt * ((speed k.vel (k.dir d) + k.c) / thickness (k.dir d))) := by ring
      _ ≤ s * cf.maxCFL := by gcongr
  have cross := fun h => by simpa using key 1 le_rfl (by simpa using normalSpeed_le_of_cross k.vel (k.dir d) h)
  refine ⟨key _ one_le_sqrt3 (normalSpeed_le _ _), cross, ?_⟩
  rintro n (⟨g1, g2⟩ | ⟨g1, g2⟩ | ⟨g1, g2⟩) <;> refine cross ?_ <;> simp only [n] at g1 g2 <;> rw [g1, g2] <;> simp

/-- the direction of a uniform diagonal cell of unit length: both faces have the normal (1,1,1)/√3 -/
def diagDir : Dir := ⟨⟨0, 0, 0⟩, ⟨1, 0, 0⟩, ⟨(Real.sqrt 3)⁻¹, (Real.sqrt 3)⁻¹, (Real.sqrt 3)⁻¹⟩,
  ⟨(Real.sqrt 3)⁻¹, (Real.sqrt 3)⁻¹, (Real.sqrt 3)⁻¹⟩⟩

/-- a one-cell-wide duct along the diagonal: the flow of speed `m` crosses the cell along the face normal, the speed of sound is 1 -/
def diagBlk (m : ℝ) : Blk :=
  ⟨fun d => if d = 0 then 3 else 2, [⟨⟨m * (Real.sqrt 3)⁻¹, m * (Real.sqrt 3)⁻¹, m * (Real.sqrt 3)⁻¹⟩, 1, fun _ => diagDir⟩]⟩

theorem inv3 : (Real.sqrt 3)⁻¹ * (Real.sqrt 3)⁻¹ = 1 / 3 := by
  rw [← mul_inv, Real.mul_self_sqrt (by norm_num)]; norm_num

theorem diag_len : thickness diagDir = 1 := by rw [← len_eq]; simp [len, diagDir]

theorem diag_normal (m : ℝ) (hm : 0 ≤ m) :
    normalSpeed ⟨m * (Real.sqrt 3)⁻¹, m * (Real.sqrt 3)⁻¹, m * (Real.sqrt 3)⁻¹⟩ diagDir = m := by
  unfold normalSpeed V3.dot meanN diagDir
  simp only
  rw [show 0.5 * ((Real.sqrt 3)⁻¹ + (Real.sqrt 3)⁻¹) * (m * (Real.sqrt 3)⁻¹) = m * ((Real.sqrt 3)⁻¹ * (Real.sqrt 3)⁻¹) by ring, inv3,
    show m * (1/3) + m * (1/3) + m * (1/3) = m by ring, abs_of_nonneg hm]

theorem diag_speed (m : ℝ) (hm : 0 ≤ m) :
    speed ⟨m * (Real.sqrt 3)⁻¹, m * (Real.sqrt 3)⁻¹, m * (Real.sqrt 3)⁻¹⟩ diagDir = m / Real.sqrt 3 := by
  unfold speed diagDir
  simp only
  rw [show 0.5 * ((Real.sqrt 3)⁻¹ + (Real.sqrt 3)⁻¹) * (m * (Real.sqrt 3)⁻¹) = m * ((Real.sqrt 3)⁻¹ * (Real.sqrt 3)⁻¹) by ring, inv3,
    show (m * (1/3))^2 + (m * (1/3))^2 + (m * (1/3))^2 = m^2 / 3 by ring, Real.sqrt_div' _ (by norm_num), Real.sqrt_sq hm]

theorem diag_ok (m : ℝ) : Ok [[diagBlk m]] := by
  intro mb h1 b h2 k h3
  simp only [List.mem_singleton] at h1
  subst h1
  simp only [List.mem_singleton] at h2
  subst h2
  simp only [diagBlk, List.mem_singleton] at h3
  subst h3
  exact ⟨by norm_num, fun d _ => by rw [diag_len]; norm_num⟩

theorem diag_resolved (m : ℝ) : Resolved [[diagBlk m]] :=
  ⟨_, List.mem_singleton.2 rfl, _, List.mem_singleton.2 rfl, _, List.mem_singleton.2 rfl, 0, by norm_num, by simp [diagBlk]⟩

/-- C68, violated: the configured maximum is exceeded on a grid oblique to the axes, and √3 is the exact factor: for every factor below √3
    there is a flow along a diagonal duct of one cell whose Courant number for the chosen step exceeds that factor times the configured
    maximum, for every configured maximum (with maxDt not limiting). -/
theorem C68_true_cfl_violated (K : ℝ) (hK : K < Real.sqrt 3) (cf : TConf) (hv : cf.varStep = true) (h1 : 0 < cf.maxCFL)
    (h2 : cf.maxCFL ≤ cf.maxDt) :
    ∃ b : Blk, Ok [[b]] ∧ Resolved [[b]] ∧ ∃ dt, getDt cf [[b]] = some dt ∧ ∃ k ∈ b.cells, b.n 0 ≠ 2 ∧
      K * cf.maxCFL < courant dt k 0 := by
  have h3 : (0 : ℝ) < Real.sqrt 3 := by positivity
  have hg : 0 < 1 - K / Real.sqrt 3 := by
    rw [sub_pos, div_lt_one h3]; exact hK
  obtain ⟨m, hm0, hm⟩ : ∃ m : ℝ, 0 ≤ m ∧ K - 1 < m * (1 - K / Real.sqrt 3) := by
    refine ⟨max 0 ((K - 1) / (1 - K / Real.sqrt 3) + 1), le_max_left _ _, ?_⟩
    have := le_max_right 0 ((K - 1) / (1 - K / Real.sqrt 3) + 1)
    have e : K - 1 = (K - 1) / (1 - K / Real.sqrt 3) * (1 - K / Real.sqrt 3) := (div_mul_cancel₀ _ hg.ne').symm
    nlinarith
  refine ⟨diagBlk m, diag_ok m, diag_resolved m, ?_⟩
  obtain ⟨dt, e, p, q, B, C⟩ := C21_variable cf hv h1 (lt_of_lt_of_le h1 h2) [[diagBlk m]] (diag_ok m) (diag_resolved m)
  refine ⟨dt, e, _, List.mem_singleton.2 rfl, by simp [diagBlk], ?_⟩
  have hs : 1 ≤ m / Real.sqrt 3 + 1 := by
    have : 0 ≤ m / Real.sqrt 3 := by positivity
    linarith
  have hb : dt * (m / Real.sqrt 3 + 1) = cf.maxCFL := by
    rcases C with C | ⟨mb, m1, b, m2, k, m3, d, m4, m5, C⟩
    · have hb := B _ (List.mem_singleton.2 rfl) _ (List.mem_singleton.2 rfl) _ (List.mem_singleton.2 rfl) 0 (by norm_num)
        (by simp [diagBlk])
      simp only [diag_speed m hm0, diag_len, div_one] at hb
      nlinarith
    · simp only [List.mem_singleton] at m1
      subst m1
      simp only [List.mem_singleton] at m2
      subst m2
      simp only [diagBlk, List.mem_singleton] at m3
      subst m3
      simpa only [diag_speed m hm0, diag_len, div_one] using C
  unfold courant
  simp only [diag_normal m hm0, diag_len, div_one]
  rw [← hb]
  have : K * (m / Real.sqrt 3 + 1) < m + 1 := by
    have : m * (1 - K / Real.sqrt 3) = m - K * (m / Real.sqrt 3) := by ring
    linarith
  nlinarith

/-- the hypotheses of the partial claim are met by the diagonal duct with a moving flow -/
example : Ok [[diagBlk 5]] ∧ Resolved [[diagBlk 5]] ∧ speed ⟨5 * (Real.sqrt 3)⁻¹, 5 * (Real.sqrt 3)⁻¹, 5 * (Real.sqrt 3)⁻¹⟩ diagDir =
    5 / Real.sqrt 3 := ⟨diag_ok 5, diag_resolved 5, diag_speed 5 (by norm_num)⟩

end PG.Run
