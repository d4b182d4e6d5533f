import Verif.Grid.CreateProps
import Mathlib.Analysis.SpecialFunctions.Trigonometric.Basic
/-!
Model of `annulus` and `multiBlockAnnulus` in `src/peregrinepy/grid/create.py` and C80.

Simplifications: doubles are reals, so `np.abs(dot) > 1e-7` is an exact comparison of reals.
-/
namespace PG.Grid
open PG

/-- `np.linalg.norm` -/
noncomputable def norm (a : V3) : ℝ := Real.sqrt (V3.dot a a)

/-- `a / np.linalg.norm(a)` -/
noncomputable def unit (a : V3) : V3 := V3.smul (1 / norm a) a

/-- the rotation written out in create.py:344-354 and 455-465, about the axis `n` with cosine `ct` and sine `st` -/
def rot (n : V3) (ct st : ℝ) (p : V3) : V3 :=
  ⟨(ct + (1 - ct) * n.x * n.x) * p.x + ((1 - ct) * n.x * n.y - n.z * st) * p.y + ((1 - ct) * n.x * n.z + n.y * st) * p.z,
   ((1 - ct) * n.x * n.y + n.z * st) * p.x + (ct + (1 - ct) * n.y * n.y) * p.y + ((1 - ct) * n.y * n.z - n.x * st) * p.z,
   ((1 - ct) * n.x * n.z - n.y * st) * p.x + ((1 - ct) * n.y * n.z + n.x * st) * p.y + (ct + (1 - ct) * n.z * n.z) * p.z⟩

/-- rotation by an angle in degrees -/
noncomputable def rotDeg (n : V3) (deg : ℝ) (p : V3) : V3 := rot n (Real.cos (deg * Real.pi / 180)) (Real.sin (deg * Real.pi / 180)) p

/-- annulus, create.py:282-365: node `(i, j, k)`, or `none` for the two `ValueError`s. The argument `p1` is replaced by the
    origin (line 325). The plane `k = 0` is stored unrotated (lines 350-356), the others rotated. -/
noncomputable def annulus (p2 p3 : V3) (sweep thickness : ℝ) (dims : Dims3) (i j k : ℤ) : Option V3 :=
  if |V3.dot p2 p3| > 1e-7 then none
  else if |sweep| < -360 ∨ |sweep| > 360 then none
  else
    let n12 := unit p2
    let n13 := unit p3
    let dx := norm p2 / (dims.a - 1)
    let dr := thickness / (dims.b - 1)
    let dtheta := sweep / (dims.c - 1)
    let pij := p3 + V3.smul (dx * i) n12 + V3.smul (dr * j) n13
    some (if k = 0 then pij else rotDeg n12 (k * dtheta) pij)

/-- multiBlockAnnulus, create.py:368-512, node `(a, b, c)` of the block at `p`. An error for one block aborts the whole call;
    here it is `none` for the nodes of that block. -/
noncomputable def annulusNode (p2 p3 : V3) (sweep thickness : ℝ) (m dims : Dims3) (p : Pos) (a b c : ℤ) : Option V3 :=
  if |V3.dot p2 p3| > 1e-7 then none
  else if sweep < 0 ∨ sweep > 360 then none
  else
    let n12 := unit p2
    let dx := norm p2 / m.a
    let dr := thickness / m.b
    let dtheta := sweep / m.c
    let q := rotDeg n12 (p.k * dtheta) p3
    let n13 := unit q
    annulus (V3.smul (dx * (p.i + 1)) n12) (q + V3.smul (dx * p.i) n12 + V3.smul (dr * p.j) n13) dtheta dr dims a b c

/-- faces of the blocks, create.py:484-506: cubicConnectivity with the k direction periodic when `connect`, then the types of the
    outer k faces replaced -/
noncomputable def annulusFace (periodic : Bool) (sweep : ℝ) (m : Dims3) (p : Pos) (f : ℕ) : FaceC :=
  open Classical in
  let connect := periodic || decide (sweep = 360)
  let c := cubicConnectivity m (false, false, connect) p f
  if connect then
    if p.k = 0 ∧ f = 5 then { c with bcType := if sweep = 360 then "b0" else "periodicRotLow" }
    else if p.k = m.c - 1 ∧ f = 6 then { c with bcType := if sweep = 360 then "b0" else "periodicRotHigh" }
    else c
  else c

/-- span and axis recorded on the outer k faces of a periodic sector (create.py:494-506) -/
noncomputable def annulusSpan (p2 : V3) (sweep : ℝ) : ℝ × V3 := (sweep, unit p2)

/-! ### lemmas -/

theorem rot_form (n p : V3) (ct st : ℝ) :
    rot n ct st p = V3.smul ct p + V3.smul st (V3.cross n p) + V3.smul ((1 - ct) * V3.dot n p) n := by
  ext <;> simp [rot, V3.dot] <;> ring

theorem norm_pos {a : V3} (h : a ≠ 0) : 0 < norm a := by
  unfold norm
  refine Real.sqrt_pos.2 ?_
  by_contra hc
  have hx := mul_self_nonneg a.x; have hy := mul_self_nonneg a.y; have hz := mul_self_nonneg a.z
  unfold V3.dot at hc
  push Not at hc
  apply h
  ext
  · exact mul_self_eq_zero.1 (by nlinarith)
  · exact mul_self_eq_zero.1 (by nlinarith)
  · exact mul_self_eq_zero.1 (by nlinarith)

theorem norm_sq (a : V3) : norm a ^ 2 = V3.dot a a := by
  unfold norm
  refine Real.sq_sqrt ?_
  unfold V3.dot
  nlinarith [mul_self_nonneg a.x, mul_self_nonneg a.y, mul_self_nonneg a.z]

theorem unit_dot {a : V3} (h : a ≠ 0) : V3.dot (unit a) (unit a) = 1 := by
  have h1 := norm_pos h
  have h2 := norm_sq a
  have : V3.dot (unit a) (unit a) = (1 / norm a) ^ 2 * V3.dot a a := by simp [unit, V3.dot]; ring
  rw [this, ← h2]; field_simp

theorem norm_smul (c : ℝ) (a : V3) (hc : 0 ≤ c) : norm (V3.smul c a) = c * norm a := by
  unfold norm
  rw [show V3.dot (V3.smul c a) (V3.smul c a) = c ^ 2 * V3.dot a a by simp [V3.dot]; ring, Real.sqrt_mul (sq_nonneg c),
    Real.sqrt_sq hc]

theorem norm_of_dot {a : V3} (h : V3.dot a a = 1) : norm a = 1 := by unfold norm; rw [h, Real.sqrt_one]

theorem unit_smul {c : ℝ} {a : V3} (hc : 0 < c) (h : V3.dot a a = 1) : unit (V3.smul c a) = a := by
  unfold unit
  rw [norm_smul c a hc.le, norm_of_dot h]
  ext <;> simp <;> field_simp

theorem smul_unit {a : V3} (h : a ≠ 0) : V3.smul (norm a) (unit a) = a := by
  have := norm_pos h
  unfold unit
  ext <;> simp <;> field_simp

/-! ### specification: cylindrical coordinates -/

/-- the point at axial position `x`, radius `r` and angle `deg` (degrees, right-hand rule about `n`, measured from `u`) -/
noncomputable def cyl (n u : V3) (x r deg : ℝ) : V3 :=
  V3.smul x n + V3.smul r (V3.smul (Real.cos (deg * Real.pi / 180)) u + V3.smul (Real.sin (deg * Real.pi / 180)) (V3.cross n u))

/-- two perpendicular unit vectors -/
def Frame (n u : V3) : Prop := V3.dot n n = 1 ∧ V3.dot u u = 1 ∧ V3.dot n u = 0

/-- rotating a point about the axis adds to its angle -/
theorem rot_cyl {n u : V3} (h : Frame n u) (x r d e : ℝ) : rotDeg n e (cyl n u x r d) = cyl n u x r (d + e) := by
  obtain ⟨h1, h2, h3⟩ := h
  unfold V3.dot at h1 h2 h3
  have hc : Real.cos ((d + e) * Real.pi / 180) = Real.cos (d * Real.pi / 180) * Real.cos (e * Real.pi / 180) -
      Real.sin (d * Real.pi / 180) * Real.sin (e * Real.pi / 180) := by rw [← Real.cos_add]; congr 1; ring
  have hs : Real.sin ((d + e) * Real.pi / 180) = Real.sin (d * Real.pi / 180) * Real.cos (e * Real.pi / 180) +
      Real.cos (d * Real.pi / 180) * Real.sin (e * Real.pi / 180) := by rw [← Real.sin_add]; congr 1; ring
  unfold rotDeg cyl
  rw [rot_form, hc, hs]
  generalize Real.cos (d * Real.pi / 180) = c1
  generalize Real.sin (d * Real.pi / 180) = s1
  generalize Real.cos (e * Real.pi / 180) = c2
  generalize Real.sin (e * Real.pi / 180) = s2
  have e1 : V3.dot n (V3.smul x n + V3.smul r (V3.smul c1 u + V3.smul s1 (V3.cross n u))) = x := by
    simp only [V3.dot, V3.add_x, V3.add_y, V3.add_z, V3.smul_x, V3.smul_y, V3.smul_z, V3.cross_x, V3.cross_y, V3.cross_z]
    linear_combination x * h1 + r * c1 * h3
  have e2 : V3.cross n (V3.smul x n + V3.smul r (V3.smul c1 u + V3.smul s1 (V3.cross n u))) =
      V3.smul r (V3.smul c1 (V3.cross n u) + V3.smul (-s1) u) := by
    ext
    · simp only [V3.add_x, V3.add_y, V3.add_z, V3.smul_x, V3.smul_y, V3.smul_z, V3.cross_x, V3.cross_y, V3.cross_z]
      linear_combination r * s1 * (n.x * h3 - u.x * h1)
    · simp only [V3.add_x, V3.add_y, V3.add_z, V3.smul_x, V3.smul_y, V3.smul_z, V3.cross_x, V3.cross_y, V3.cross_z]
      linear_combination r * s1 * (n.y * h3 - u.y * h1)
    · simp only [V3.add_x, V3.add_y, V3.add_z, V3.smul_x, V3.smul_y, V3.smul_z, V3.cross_x, V3.cross_y, V3.cross_z]
      linear_combination r * s1 * (n.z * h3 - u.z * h1)
  rw [e1, e2]
  ext
  · simp only [V3.add_x, V3.smul_x, V3.cross_x]; ring
  · simp only [V3.add_y, V3.smul_y, V3.cross_y]; ring
  · simp only [V3.add_z, V3.smul_z, V3.cross_z]; ring

theorem cyl_zero (n u : V3) (x r : ℝ) : cyl n u x r 0 = V3.smul x n + V3.smul r u := by
  unfold cyl; ext <;> simp

theorem frame_of {p2 p3 : V3} (h2 : p2 ≠ 0) (h3 : p3 ≠ 0) (ho : V3.dot p2 p3 = 0) : Frame (unit p2) (unit p3) := by
  refine ⟨unit_dot h2, unit_dot h3, ?_⟩
  have : V3.dot (unit p2) (unit p3) = 1 / norm p2 * (1 / norm p3) * V3.dot p2 p3 := by simp [unit, V3.dot]; ring
  rw [this, ho, mul_zero]

/-- the direction at an angle is a unit vector perpendicular to the axis -/
theorem cyl_unit {n u : V3} (h : Frame n u) (d : ℝ) : V3.dot (cyl n u 0 1 d) (cyl n u 0 1 d) = 1 ∧ V3.dot n (cyl n u 0 1 d) = 0 := by
  obtain ⟨h1, h2, h3⟩ := h
  unfold V3.dot at h1 h2 h3
  unfold cyl
  have hcs := Real.cos_sq_add_sin_sq (d * Real.pi / 180)
  generalize Real.cos (d * Real.pi / 180) = c at *
  generalize Real.sin (d * Real.pi / 180) = s at *
  simp only [V3.dot, V3.add_x, V3.add_y, V3.add_z, V3.smul_x, V3.smul_y, V3.smul_z, V3.cross_x, V3.cross_y, V3.cross_z]
  constructor
  · -- |c u + s n×u|² = c² |u|² + s² (|n|²|u|² − (n·u)²)
    have key : c ^ 2 * (u.x * u.x + u.y * u.y + u.z * u.z) + s ^ 2 * ((n.x * n.x + n.y * n.y + n.z * n.z) *
        (u.x * u.x + u.y * u.y + u.z * u.z) - (n.x * u.x + n.y * u.y + n.z * u.z) ^ 2) = 1 := by
      rw [h1, h2, h3]; linarith
    linear_combination key
  · linear_combination c * h3

/-- C80 (coordinates): for a single block along the axis, node `(a, b, c)` of the block at radial position `j` and angular
    position `k` lies at axial position `|p2| a/(n_i−1)`, radius `|p3| + thickness (j (n_j−1) + b)/(m_j (n_j−1))` and angle
    `sweep (k (n_k−1) + c)/(m_k (n_k−1))` from `p3` about the axis `p2`, for every number of blocks and nodes, every axis and
    starting point perpendicular to it, and every sweep up to 360 degrees. Hence neighbouring blocks share their face nodes. -/
theorem C80_cylindrical_partial (p2 p3 : V3) (h2 : p2 ≠ 0) (h3 : p3 ≠ 0) (ho : V3.dot p2 p3 = 0) (sweep thickness : ℝ)
    (hs : 0 ≤ sweep ∧ sweep ≤ 360) (ht : 0 ≤ thickness) (m n : Dims3) (hm : m.a = 1 ∧ 1 ≤ m.b ∧ 1 ≤ m.c)
    (hn : 2 ≤ n.a ∧ 2 ≤ n.b ∧ 2 ≤ n.c) (p : Pos) (hp : InGrid m p) (a b c : ℤ) :
    annulusNode p2 p3 sweep thickness m n p a b c =
      some (cyl (unit p2) (unit p3) (norm p2 * a / ((n.a - 1 : ℤ) : ℝ))
        (norm p3 + thickness * ((p.j * (n.b - 1) + b : ℤ) : ℝ) / ((m.b * (n.b - 1) : ℤ) : ℝ))
        (sweep * ((p.k * (n.c - 1) + c : ℤ) : ℝ) / ((m.c * (n.c - 1) : ℤ) : ℝ))) := by
  have hF := frame_of h2 h3 ho
  have hn2 := norm_pos h2
  have hn3 := norm_pos h3
  obtain ⟨⟨i0, i1⟩, ⟨j0, j1⟩, k0, k1⟩ := hp
  have hi : p.i = 0 := by omega
  have hmb : (0:ℝ) < m.b := by exact_mod_cast (by omega : 0 < m.b)
  have hmc : (0:ℝ) < m.c := by exact_mod_cast (by omega : 0 < m.c)
  have hmc1 : (1:ℝ) ≤ m.c := by exact_mod_cast hm.2.2
  have hna : (0:ℝ) < (n.a:ℝ) - 1 := by
    have : (2:ℝ) ≤ n.a := by exact_mod_cast hn.1
    linarith
  have hnb : (0:ℝ) < (n.b:ℝ) - 1 := by
    have : (2:ℝ) ≤ n.b := by exact_mod_cast hn.2.1
    linarith
  have hnc : (0:ℝ) < (n.c:ℝ) - 1 := by
    have : (2:ℝ) ≤ n.c := by exact_mod_cast hn.2.2
    linarith
  have hj : (0:ℝ) ≤ p.j := by exact_mod_cast j0
  unfold annulusNode
  rw [if_neg (by rw [ho]; norm_num), if_neg (by push Not; exact ⟨hs.1, hs.2⟩)]
  dsimp only
  rw [hm.1, hi]
  -- the starting vector of the block
  obtain ⟨D, hD⟩ : ∃ D, D = (p.k:ℝ) * (sweep / m.c) := ⟨_, rfl⟩
  rw [← hD]
  have hq : rotDeg (unit p2) D p3 = V3.smul (norm p3) (cyl (unit p2) (unit p3) 0 1 D) := by
    have e : p3 = cyl (unit p2) (unit p3) 0 (norm p3) 0 := by
      rw [cyl_zero]
      conv_lhs => rw [← smul_unit h3]
      ext <;> simp
    conv_lhs => rw [e]
    rw [rot_cyl hF, zero_add]
    unfold cyl
    ext <;> simp
  rw [hq]
  obtain ⟨w, hw⟩ : ∃ w, w = cyl (unit p2) (unit p3) 0 1 D := ⟨_, rfl⟩
  obtain ⟨w1, w2⟩ := cyl_unit hF D
  rw [← hw] at w1 w2 ⊢
  rw [unit_smul hn3 w1]
  have hnew2 : V3.smul (norm p2 / ((1:ℤ):ℝ) * (((0:ℤ):ℝ) + 1)) (unit p2) = p2 := by
    rw [show norm p2 / ((1:ℤ):ℝ) * (((0:ℤ):ℝ) + 1) = norm p2 by push_cast; ring, smul_unit h2]
  rw [hnew2]
  have hr : 0 < norm p3 + thickness / m.b * p.j := by positivity
  have hnew3 : V3.smul (norm p3) w + V3.smul (norm p2 / ((1:ℤ):ℝ) * ((0:ℤ):ℝ)) (unit p2) + V3.smul (thickness / m.b * p.j) w =
      V3.smul (norm p3 + thickness / m.b * p.j) w := by
    ext <;> simp <;> ring
  rw [hnew3]
  unfold annulus
  have hperp : V3.dot p2 (V3.smul (norm p3 + thickness / m.b * p.j) w) = 0 := by
    have : V3.dot p2 (V3.smul (norm p3 + thickness / m.b * p.j) w) =
        norm p2 * (norm p3 + thickness / m.b * p.j) * V3.dot (unit p2) w := by
      conv_lhs => rw [← smul_unit h2]
      simp [V3.dot]; ring
    rw [this, w2, mul_zero]
  have hsw : |sweep / (m.c:ℝ)| ≤ 360 := by
    rw [abs_of_nonneg (by have := hs.1; positivity)]
    have : sweep / m.c ≤ sweep := div_le_self hs.1 hmc1
    linarith [hs.2]
  rw [if_neg (by rw [hperp]; norm_num), if_neg (by
    push Not
    exact ⟨by linarith [abs_nonneg (sweep / (m.c:ℝ))], hsw⟩)]
  dsimp only
  rw [unit_smul hr w1]
  congr 1
  -- the point in the first plane of the block
  obtain ⟨X, hX⟩ : ∃ X, X = norm p2 / ((n.a:ℝ) - 1) * a := ⟨_, rfl⟩
  obtain ⟨R, hR⟩ : ∃ R, R = norm p3 + thickness / m.b * p.j + thickness / m.b / ((n.b:ℝ) - 1) * b := ⟨_, rfl⟩
  have hplane : V3.smul (norm p3 + thickness / m.b * p.j) w + V3.smul (norm p2 / ((n.a:ℝ) - 1) * a) (unit p2) +
      V3.smul (thickness / m.b / ((n.b:ℝ) - 1) * b) w = cyl (unit p2) (unit p3) X R D := by
    rw [← hX, hw, hR]
    unfold cyl
    ext <;> simp <;> ring
  rw [hplane]
  have hX' : X = norm p2 * a / ((n.a - 1 : ℤ) : ℝ) := by rw [hX]; push_cast; ring
  have hR' : R = norm p3 + thickness * ((p.j * (n.b - 1) + b : ℤ) : ℝ) / ((m.b * (n.b - 1) : ℤ) : ℝ) := by
    rw [hR]; push_cast; field_simp; ring
  have hang : D + c * (sweep / m.c / ((n.c:ℝ) - 1)) = sweep * ((p.k * (n.c - 1) + c : ℤ) : ℝ) / ((m.c * (n.c - 1) : ℤ) : ℝ) := by
    rw [hD]; push_cast; field_simp
  split_ifs with h0
  · subst h0
    rw [hX', hR', ← hang]; simp
  · rw [rot_cyl hF, hX', hR', hang]

/-- C80 (closure and periodicity): the last plane of the last block is the first plane of the first block rotated by the sweep
    about the axis, whatever the number of blocks - that is what the recorded periodic span and axis say - and coincides with it
    for a full ring. -/
theorem C80_closed_partial (p2 p3 : V3) (h2 : p2 ≠ 0) (h3 : p3 ≠ 0) (ho : V3.dot p2 p3 = 0) (sweep thickness : ℝ)
    (hs : 0 ≤ sweep ∧ sweep ≤ 360) (ht : 0 ≤ thickness) (m n : Dims3) (hm : m.a = 1 ∧ 1 ≤ m.b ∧ 1 ≤ m.c)
    (hn : 2 ≤ n.a ∧ 2 ≤ n.b ∧ 2 ≤ n.c) (j : ℤ) (hj : 0 ≤ j ∧ j < m.b) (a b : ℤ) :
    ∃ first last : V3, annulusNode p2 p3 sweep thickness m n ⟨0, j, 0⟩ a b 0 = some first ∧
      annulusNode p2 p3 sweep thickness m n ⟨0, j, m.c - 1⟩ a b (n.c - 1) = some last ∧
      last = rotDeg (annulusSpan p2 sweep).2 (annulusSpan p2 sweep).1 first ∧ (sweep = 360 → last = first) := by
  have hF := frame_of h2 h3 ho
  refine ⟨_, _, C80_cylindrical_partial p2 p3 h2 h3 ho sweep thickness hs ht m n hm hn ⟨0, j, 0⟩
      ⟨⟨le_rfl, by dsimp only; omega⟩, hj, le_rfl, by dsimp only; omega⟩ a b 0,
    C80_cylindrical_partial p2 p3 h2 h3 ho sweep thickness hs ht m n hm hn ⟨0, j, m.c - 1⟩
      ⟨⟨le_rfl, by dsimp only; omega⟩, hj, by dsimp only; omega, by dsimp only; omega⟩ a b (n.c - 1), ?_⟩
  dsimp only [annulusSpan]
  have hz : sweep * ((0 * (n.c - 1) + 0 : ℤ) : ℝ) / ((m.c * (n.c - 1) : ℤ) : ℝ) = 0 := by push_cast; ring
  have hl : sweep * (((m.c - 1) * (n.c - 1) + (n.c - 1) : ℤ) : ℝ) / ((m.c * (n.c - 1) : ℤ) : ℝ) = sweep := by
    rw [show (m.c - 1) * (n.c - 1) + (n.c - 1) = m.c * (n.c - 1) by ring]
    have : ((m.c * (n.c - 1) : ℤ) : ℝ) ≠ 0 := by
      have : m.c * (n.c - 1) ≠ 0 := mul_ne_zero (by omega) (by omega)
      exact_mod_cast this
    field_simp
  rw [hz, hl, rot_cyl hF, zero_add]
  refine ⟨rfl, ?_⟩
  rintro rfl
  unfold cyl
  have : (360:ℝ) * Real.pi / 180 = 2 * Real.pi := by ring
  rw [this]
  simp

/-- C80 (connections): the blocks of a sector connect like those of a box with only the angular direction wrapping; the outer
    angular faces are ordinary connections for a full ring, the two sides of a rotational periodic boundary for a periodic sector
    and walls otherwise. -/
theorem C80_connections (periodic : Bool) (sweep : ℝ) (m : Dims3) (p : Pos) (hp : InGrid m p) (f : ℕ) (hf : 1 ≤ f ∧ f ≤ 6) :
    ((Outer m p f ∧ ¬ ((f = 5 ∨ f = 6) ∧ (periodic = true ∨ sweep = 360))) →
      annulusFace periodic sweep m p f = ⟨"adiabaticNoSlipWall", none, none⟩) ∧
    (¬ Outer m p f → annulusFace periodic sweep m p f = ⟨"b0", some (blkNum m (across m p f)), some "123"⟩) ∧
    ((Outer m p f ∧ (f = 5 ∨ f = 6) ∧ sweep = 360) →
      annulusFace periodic sweep m p f = ⟨"b0", some (blkNum m (across m p f)), some "123"⟩) ∧
    ((Outer m p f ∧ (f = 5 ∨ f = 6) ∧ periodic = true ∧ sweep ≠ 360) →
      annulusFace periodic sweep m p f =
        ⟨if f = 5 then "periodicRotLow" else "periodicRotHigh", some (blkNum m (across m p f)), some "123"⟩) := by
  classical
  have key := face_eq m (false, false, (periodic || decide (sweep = 360))) p hp f hf
  obtain ⟨k1, k2, k3⟩ := key
  have hper : PeriodicDir (false, false, (periodic || decide (sweep = 360))) f = true ↔
      (f = 5 ∨ f = 6) ∧ (periodic = true ∨ sweep = 360) := by
    obtain ⟨h1, h6⟩ := hf
    interval_cases f <;> simp [PeriodicDir]
  have hout5 : f = 5 → (Outer m p f ↔ p.k = 0) := by rintro rfl; rfl
  have hout6 : f = 6 → (Outer m p f ↔ p.k = m.c - 1) := by rintro rfl; rfl
  have hkeep : (¬ Outer m p f ∨ ¬ (f = 5 ∨ f = 6) ∨ ¬ (periodic = true ∨ sweep = 360)) →
      annulusFace periodic sweep m p f = cubicConnectivity m (false, false, (periodic || decide (sweep = 360))) p f := by
    intro h
    unfold annulusFace
    dsimp only
    by_cases c1 : (periodic || decide (sweep = 360)) = true
    · rw [if_pos c1]
      by_cases c2 : p.k = 0 ∧ f = 5
      · obtain ⟨c2, rfl⟩ := c2
        exfalso
        rcases h with h | h | h
        · exact h ((hout5 rfl).2 c2)
        · exact h (Or.inl rfl)
        · exact h (by simpa using c1)
      · rw [if_neg c2]
        by_cases c3 : p.k = m.c - 1 ∧ f = 6
        · obtain ⟨c3, rfl⟩ := c3
          exfalso
          rcases h with h | h | h
          · exact h ((hout6 rfl).2 c3)
          · exact h (Or.inr rfl)
          · exact h (by simpa using c1)
        · rw [if_neg c3]
    · rw [if_neg c1]
  have hset : Outer m p f → (f = 5 ∨ f = 6) → (periodic = true ∨ sweep = 360) →
      annulusFace periodic sweep m p f =
        { cubicConnectivity m (false, false, (periodic || decide (sweep = 360))) p f with
          bcType := if sweep = 360 then "b0" else if f = 5 then "periodicRotLow" else "periodicRotHigh" } := by
    intro h1 h2 h3
    unfold annulusFace
    dsimp only
    rw [if_pos (by simpa using h3)]
    rcases h2 with rfl | rfl
    · rw [if_pos ⟨(hout5 rfl).1 h1, rfl⟩]; simp
    · rw [if_neg (by omega), if_pos ⟨(hout6 rfl).1 h1, rfl⟩]; simp
  refine ⟨?_, ?_, ?_, ?_⟩
  · rintro ⟨h1, h2⟩
    have h3 : ¬ (f = 5 ∨ f = 6) ∨ ¬ (periodic = true ∨ sweep = 360) := not_and_or.1 h2
    rw [hkeep (Or.inr h3)]
    refine k1 ⟨h1, ?_⟩
    cases hx : PeriodicDir (false, false, (periodic || decide (sweep = 360))) f
    · rfl
    · exact absurd (hper.1 hx) h2
  · intro h1
    rw [hkeep (Or.inl h1)]; exact k3 h1
  · rintro ⟨h1, h2, h3⟩
    rw [hset h1 h2 (Or.inr h3), k2 ⟨h1, hper.2 ⟨h2, Or.inr h3⟩⟩, if_pos h3]
  · rintro ⟨h1, h2, h3, h4⟩
    rw [hset h1 h2 (Or.inl h3), k2 ⟨h1, hper.2 ⟨h2, Or.inl h3⟩⟩, if_neg h4]

/-- C80, violated: the documented number of blocks along the axis cannot exceed one. A half ring of length 1 in two axial blocks
    raises, because the corner handed to the second block is measured from the origin, not from its own start. -/
theorem C80_axial_violated :
    annulusNode ⟨1, 0, 0⟩ ⟨0, 1, 0⟩ 180 1 ⟨2, 1, 1⟩ ⟨3, 3, 3⟩ ⟨1, 0, 0⟩ 0 0 0 = none ∧
    annulusNode ⟨1, 0, 0⟩ ⟨0, 1, 0⟩ 180 1 ⟨1, 2, 1⟩ ⟨3, 3, 3⟩ ⟨0, 1, 0⟩ 0 0 0 ≠ none := by
  constructor
  · have hn : norm ⟨1, 0, 0⟩ = 1 := norm_of_dot (by simp [V3.dot])
    have hu : unit ⟨1, 0, 0⟩ = ⟨1, 0, 0⟩ := by unfold unit; rw [hn]; ext <;> simp
    unfold annulusNode
    rw [if_neg (by norm_num [V3.dot]), if_neg (by norm_num)]
    dsimp only
    rw [hu, hn]
    unfold annulus
    rw [if_pos]
    have hq : rotDeg ⟨1, 0, 0⟩ (((0:ℤ):ℝ) * (180 / ((1:ℤ):ℝ))) ⟨0, 1, 0⟩ = ⟨0, 1, 0⟩ := by
      unfold rotDeg rot; ext <;> simp
    have hn1 : norm ⟨0, 1, 0⟩ = 1 := norm_of_dot (by simp [V3.dot])
    have hu1 : unit ⟨0, 1, 0⟩ = ⟨0, 1, 0⟩ := by unfold unit; rw [hn1]; ext <;> simp
    rw [hq, hu1]
    norm_num [V3.dot, V3.smul_x]
  · rw [C80_cylindrical_partial _ _ (fun h => by simpa using congrArg V3.x h) (fun h => by simpa using congrArg V3.y h)
      (by simp [V3.dot]) 180 1 (by norm_num) (by norm_num) _ _ (by norm_num) (by norm_num) _ (by simp [InGrid])]
    simp

end PG.Grid
