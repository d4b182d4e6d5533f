import Verif.Sensor.Model
import Mathlib.Tactic.Linarith
import Mathlib.Tactic.FieldSimp
import Mathlib.Tactic.Ring
import Mathlib.Tactic.NormNum
import Mathlib.Algebra.Order.Field.Basic
noncomputable section
namespace PG.Sensor

/-! ### C30 shock sensors -/

theorem jameson_range {a b c : ℝ} (ha : 0 < a) (hb : 0 < b) (hc : 0 < c) : ∃ x, jameson1 a b c = some x ∧ 0 ≤ x ∧ x ≤ 1 := by
  have h : 0 < c + 2 * b + a := by linarith
  have h' : |c + 2 * b + a| = c + 2 * b + a := abs_of_pos h
  refine ⟨_, by unfold jameson1 cdiv; rw [if_neg (by rw [h']; exact h.ne')], by positivity, ?_⟩
  rw [h', div_le_one h, abs_le]
  constructor <;> linarith

theorem leer_range {a b c : ℝ} (ha : 0 < a) (hb : 0 < b) (hc : 0 < c) : ∃ x, leer1 a b c = some x ∧ 0 ≤ x ∧ x ≤ 1 := by
  have h1 := abs_nonneg (c - b)
  have h2 := abs_nonneg (b - a)
  have h : 0 < (1 - 0.001) * (|c - b| + |b - a|) + 0.001 * (c + 2 * b + a) := by
    have : 0 < c + 2 * b + a := by linarith
    have : 0 ≤ |c - b| + |b - a| := by linarith
    norm_num; nlinarith
  refine ⟨_, by unfold leer1 cdiv; simp only; rw [if_neg h.ne'], by positivity, ?_⟩
  rw [div_le_one h]
  have t : |c - 2 * b + a| ≤ |c - b| + |b - a| := by
    have : c - 2 * b + a = (c - b) - (b - a) := by ring
    rw [this]; exact abs_sub _ _
  have t2 : |c - 2 * b + a| ≤ c + 2 * b + a := by rw [abs_le]; constructor <;> linarith
  norm_num at *
  linarith

theorem albada_range {a b c x : ℝ} (h : albada1 a b c = some x) : 0 ≤ x ∧ x ≤ 1 := by
  unfold albada1 at h
  cases hr : cdiv (b - a + 1e-16) (c - b + 1e-16) with
  | none => rw [hr] at h; simp at h
  | some r =>
    rw [hr] at h
    simp only [Option.some.injEq] at h
    have hp : 0 < 1 + r^2 := by positivity
    have h1 := neg_abs_le r
    have hs : |r|^2 = r^2 := sq_abs r
    have h2 : (r + |r|) / (1 + r^2) ≤ 1 := by
      rw [div_le_one hp]
      have := le_abs_self r
      nlinarith [sq_nonneg (|r| - 1)]
    have h3 : 0 ≤ (r + |r|) / (1 + r^2) := div_nonneg (by linarith) hp.le
    constructor <;> linarith

/-- C30: for a positive pressure field, any value a sensor stores lies in [0,1]; the Jameson and van Leer sensors always
    store a value. -/
theorem C30_range (s : Kind) (p : P3) (hp : ∀ i j k, 0 < p i j k) (i j k : ℤ) (d : ℕ) :
    (∀ x, phi s p i j k d = some x → 0 ≤ x ∧ x ≤ 1) ∧ (s ≠ .vanAlbadaPressure → phi s p i j k d ≠ none) := by
  have hn : 0 < (nbr p i j k d).1 ∧ 0 < (nbr p i j k d).2 := by
    unfold nbr; split <;> exact ⟨hp _ _ _, hp _ _ _⟩
  unfold phi
  cases s
  · obtain ⟨x, h, h0, h1⟩ := jameson_range hn.1 (hp i j k) hn.2
    refine ⟨fun y hy => ?_, fun _ => by simp [sens1, h]⟩
    rw [sens1, h] at hy; cases hy; exact ⟨h0, h1⟩
  · exact ⟨fun y hy => albada_range hy, fun h => absurd rfl h⟩
  · obtain ⟨x, h, h0, h1⟩ := leer_range hn.1 (hp i j k) hn.2
    refine ⟨fun y hy => ?_, fun _ => by simp [sens1, h]⟩
    rw [sens1, h] at hy; cases hy; exact ⟨h0, h1⟩

/-- C30: where the pressure equals that of the two neighbours in a direction, every sensor stores exactly zero. -/
theorem C30_uniform (s : Kind) (p : P3) (i j k : ℤ) (hp : 0 < p i j k) (d : ℕ)
    (h : (nbr p i j k d).1 = p i j k ∧ (nbr p i j k d).2 = p i j k) : phi s p i j k d = some 0 := by
  unfold phi
  rw [h.1, h.2]
  generalize p i j k = c at hp
  cases s
  · have : |c + 2 * c + c| ≠ 0 := by rw [abs_of_pos (by linarith)]; linarith
    simp only [sens1, jameson1, cdiv, if_neg this]
    simp only [show c - 2 * c + c = 0 by ring, abs_zero, zero_div]
  · simp only [sens1, albada1, cdiv, sub_self, zero_add]
    norm_num
  · have : (1 - 0.001) * (|c - c| + |c - c|) + 0.001 * (c + 2 * c + c) ≠ 0 := by
      rw [sub_self, abs_zero]; norm_num; linarith
    simp only [sens1, leer1, cdiv]
    rw [if_neg this]
    simp only [show c - 2 * c + c = 0 by ring, abs_zero, zero_div]

/-- C30: the sensors treat the three index directions alike: relabelling the axes of the pressure field relabels the sensor. -/
theorem C30_axes (s : Kind) (p : P3) (i j k : ℤ) :
    phi s (fun a b c => p b a c) j i k 0 = phi s p i j k 1 ∧ phi s (fun a b c => p b a c) j i k 1 = phi s p i j k 0 ∧
    phi s (fun a b c => p b a c) j i k 2 = phi s p i j k 2 ∧
    phi s (fun a b c => p c b a) k j i 0 = phi s p i j k 2 ∧ phi s (fun a b c => p c b a) k j i 2 = phi s p i j k 0 ∧
    phi s (fun a b c => p c b a) k j i 1 = phi s p i j k 1 :=
  ⟨rfl, rfl, rfl, rfl, rfl, rfl⟩

/-- C30 (partial: Jameson and van Leer only): reversing the index direction does not change the sensor. -/
theorem C30_mirror_partial (s : Kind) (hs : s ≠ .vanAlbadaPressure) (p : P3) (i j k : ℤ) :
    phi s (fun a b c => p (-a) b c) (-i) j k 0 = phi s p i j k 0 ∧
    phi s (fun a b c => p a (-b) c) i (-j) k 1 = phi s p i j k 1 ∧
    phi s (fun a b c => p a b (-c)) i j (-k) 2 = phi s p i j k 2 := by
  have key : ∀ a b c, sens1 s a b c = sens1 s c b a := by
    intro a b c
    cases s
    · simp only [sens1, jameson1]
      rw [show c - 2 * b + a = a - 2 * b + c by ring, show c + 2 * b + a = a + 2 * b + c by ring]
    · exact absurd rfl hs
    · simp only [sens1, leer1]
      rw [show c - 2 * b + a = a - 2 * b + c by ring, show c + 2 * b + a = a + 2 * b + c by ring,
        abs_sub_comm c b, abs_sub_comm b a, add_comm |b - c|]
  simp only [phi, nbr, neg_neg, neg_sub, neg_add_rev, neg_add]
  refine ⟨?_, ?_, ?_⟩ <;> rw [key] <;> ring_nf

/-- C30: the van Albada sensor does depend on the index direction, and near-flat pressure can make it divide by zero
    (finding; only for pressure differences of order 1e-16). -/
theorem C30_albada_violated :
    (∃ p : P3, (∀ i j k, 0 < p i j k) ∧ phi .vanAlbadaPressure (fun a b c => p (-a) b c) 0 0 0 0 ≠ phi .vanAlbadaPressure p 0 0 0 0) ∧
    (∃ p : P3, (∀ i j k, 0 < p i j k) ∧ phi .vanAlbadaPressure p 0 0 0 0 = none) := by
  constructor
  · refine ⟨fun i _ _ => if i = 0 then 1 else if i = 1 then 1 + 2e-16 else 1 - 0.5e-16, ?_, ?_⟩
    · intro i j k
      simp only
      split_ifs <;> norm_num
    · simp only [phi, nbr, sens1, albada1, cdiv]
      norm_num
  · refine ⟨fun i _ _ => if i = 1 then 1 - 1e-16 else 1, ?_, ?_⟩
    · intro i j k
      simp only
      split_ifs <;> norm_num
    · simp only [phi, nbr, sens1, albada1, cdiv]
      norm_num

/-- a positive field with a jump: sensors are not identically zero -/
example : phi .jamesonPressure (fun i _ _ => if i ≤ 0 then 1 else 3) 0 0 0 0 = some (1/3) := by
  simp only [phi, nbr, sens1, jameson1, cdiv]; norm_num

/-! ### C57 viscous sponge -/

/-- component of `c - o` along the direction from `o` to `e`, as a fraction of the sponge length -/
def frac (o e c : V3) : ℝ :=
  ((c.x - o.x) * (e.x - o.x) + (c.y - o.y) * (e.y - o.y) + (c.z - o.z) * (e.z - o.z))
    / ((e.x - o.x)^2 + (e.y - o.y)^2 + (e.z - o.z)^2)

theorem len_sq (o e : V3) : spongeLength o e ^ 2 = (e.x - o.x)^2 + (e.y - o.y)^2 + (e.z - o.z)^2 :=
  Real.sq_sqrt (by positivity)

theorem dist_frac (o e c : V3) (h : o ≠ e) : spongeDist o e c / spongeLength o e = frac o e c := by
  have hp : 0 < (e.x - o.x)^2 + (e.y - o.y)^2 + (e.z - o.z)^2 := by
    rcases o with ⟨a1, a2, a3⟩; rcases e with ⟨b1, b2, b3⟩
    by_contra hn
    push Not at hn
    have h1 := sq_nonneg (b1 - a1); have h2 := sq_nonneg (b2 - a2); have h3 := sq_nonneg (b3 - a3)
    have e1 : b1 - a1 = 0 := by apply pow_eq_zero_iff (two_ne_zero) |>.1; simp only at hn; linarith
    have e2 : b2 - a2 = 0 := by apply pow_eq_zero_iff (two_ne_zero) |>.1; simp only at hn; linarith
    have e3 : b3 - a3 = 0 := by apply pow_eq_zero_iff (two_ne_zero) |>.1; simp only at hn; linarith
    apply h; rw [sub_eq_zero] at e1 e2 e3; rw [e1, e2, e3]
  have hl : 0 < spongeLength o e := Real.sqrt_pos.2 hp
  have := len_sq o e
  unfold frac spongeDist
  rw [← this]
  have hl' := hl.ne'
  field_simp

/-- C57 (partial: the claim that the requested multiplier is never exceeded fails past the end of the sponge, see
    `C57_violated`): the factor is 1 up to the sponge plane, the linear ramp from 1 to `mult` inside the sponge, exactly
    `mult` at its end, nowhere below 1, non-decreasing along the axis, and never more than `1 + mult`. -/
theorem C57_sponge_partial (o e : V3) (h : o ≠ e) (mult : ℝ) (hm : 1 ≤ mult) (c : V3) :
    (frac o e c ≤ 0 → spongeMult o e mult c = 1) ∧
    (0 ≤ frac o e c → frac o e c ≤ 1 → spongeMult o e mult c = 1 + frac o e c * (mult - 1) ∧ spongeMult o e mult c ≤ mult) ∧
    (frac o e c = 1 → spongeMult o e mult c = mult) ∧
    1 ≤ spongeMult o e mult c ∧ spongeMult o e mult c ≤ 1 + mult ∧
    (∀ c', frac o e c ≤ frac o e c' → spongeMult o e mult c ≤ spongeMult o e mult c') := by
  unfold spongeMult
  rw [dist_frac o e c h]
  set f := frac o e c
  have hm0 : 0 ≤ mult - 1 := by linarith
  refine ⟨fun hf => ?_, fun h0 h1 => ?_, fun hf => ?_, ?_, ?_, fun c' hc => ?_⟩
  · rw [max_eq_left (by nlinarith), min_eq_left (by linarith), add_zero]
  · have hh : f * (mult - 1) ≤ mult - 1 := by nlinarith
    rw [max_eq_right (by positivity), min_eq_left (by linarith)]
    exact ⟨rfl, by linarith⟩
  · rw [hf, one_mul, max_eq_right hm0, min_eq_left (by linarith)]; ring
  · have : 0 ≤ min (max 0 (f * (mult - 1))) mult := le_min (le_max_left _ _) (by linarith)
    linarith
  · have := min_le_right (max 0 (f * (mult - 1))) mult
    linarith
  · rw [dist_frac o e c' h]
    have : f * (mult - 1) ≤ frac o e c' * (mult - 1) := mul_le_mul_of_nonneg_right hc hm0
    have := min_le_min_right mult (max_le_max_left 0 this)
    linarith

/-- C57: past the end of the sponge the viscosity is multiplied by more than the requested multiplier (up to `1 + mult`):
    here the request is 2 and the factor is 3. A defect of the code. -/
theorem C57_violated : ∃ (o e c : V3) (mult : ℝ), o ≠ e ∧ 1 ≤ mult ∧ frac o e c = 2 ∧ mult < spongeMult o e mult c ∧
    spongeMult o e mult c = 1 + mult := by
  have h : (⟨0,0,0⟩ : V3) ≠ ⟨1,0,0⟩ := by simp
  refine ⟨⟨0,0,0⟩, ⟨1,0,0⟩, ⟨2,0,0⟩, 2, h, by norm_num, by norm_num [frac], ?_⟩
  unfold spongeMult
  rw [dist_frac _ _ _ h]
  norm_num [frac]

/-- C57: the sponge scales the viscosity only by that factor (positive viscosity stays at least as large) -/
theorem C57_viscosity (o e : V3) (h : o ≠ e) (mult : ℝ) (hm : 1 ≤ mult) (c : V3) (mu : ℝ) (hmu : 0 ≤ mu) :
    mu ≤ sponge o e mult c mu := by
  have := (C57_sponge_partial o e h mult hm c).2.2.2.1
  unfold sponge; nlinarith

example : (⟨0,0,0⟩ : V3) ≠ ⟨1,0,0⟩ ∧ (1:ℝ) ≤ 20 := ⟨by simp, by norm_num⟩

end PG.Sensor
