import Verif.Thermo.CubicModel
import Verif.Thermo.Props
import Mathlib.Analysis.SpecialFunctions.Trigonometric.Basic
import Mathlib.Topology.Order.IntermediateValue
import Mathlib.Tactic.LinearCombination
import Mathlib.Tactic.Continuity

/-! C65, C66: real-gas equation of state. -/
noncomputable section
namespace PG.Thermo
open Finset

/-- the Peng-Robinson cubic in the compressibility factor:
    `Z³ - (1-B) Z² + (A - 3B² - 2B) Z - (AB - B² - B³)` -/
def prCubic (A B Z : ℝ) : ℝ := Z^3 - (1 - B) * Z^2 + (A - 3*B^2 - 2*B) * Z - (A*B - B^2 - B^3)

/-- depressed form -/
theorem depressed (A B Z : ℝ) : prCubic A B Z = (Z + z2 B / 3)^3 - 3 * cQ A B * (Z + z2 B / 3) + 2 * cR A B := by
  unfold prCubic cQ cR z2 z1 z0; ring

theorem cbrt_pow {x : ℝ} (hx : 0 ≤ x) : (x ^ (1/3 : ℝ))^3 = x := by
  rw [← Real.rpow_natCast, ← Real.rpow_mul hx]; norm_num

/-- Cardano branch: the value is a root -/
theorem cardano {Q R : ℝ} (hM : 0 < R^2 - Q^3) (hR : R ≠ 0) :
    let S := -R / |R| * (|R| + Real.sqrt (R^2 - Q^3)) ^ (1/3 : ℝ)
    (S + Q / S)^3 - 3 * Q * (S + Q / S) + 2 * R = 0 := by
  intro S
  set m := Real.sqrt (R^2 - Q^3) with hm
  have hm2 : m^2 = R^2 - Q^3 := Real.sq_sqrt hM.le
  have hm0 : 0 < m := Real.sqrt_pos.2 hM
  have hRa : 0 < |R| := abs_pos.2 hR
  have hR2 : |R|^2 = R^2 := sq_abs R
  set k := (|R| + m) ^ (1/3 : ℝ) with hk
  have hk3 : k^3 = |R| + m := cbrt_pow (by positivity)
  have hk0 : 0 < k := Real.rpow_pos_of_pos (by positivity) _
  have hs : -R / |R| = 1 ∨ -R / |R| = -1 := by
    rcases lt_or_gt_of_ne hR with h | h
    · left; rw [abs_of_neg h]; exact div_self (by linarith)
    · right; rw [abs_of_pos h, neg_div, div_self hR]
  have hSk : S = -R / |R| * k := rfl
  have hRs : R = -(-R / |R|) * |R| := by field_simp
  have hS0 : S ≠ 0 := by
    rw [hSk]; rcases hs with h | h <;> rw [h] <;> simp [hk0.ne']
  have hS3 : S^3 = (-R / |R|) * (|R| + m) := by
    rw [hSk, mul_pow, hk3]; rcases hs with h | h <;> rw [h] <;> ring
  have e : (S + Q / S)^3 - 3 * Q * (S + Q / S) + 2 * R = (S^3 * S^3 + Q^3 + 2 * R * S^3) / S^3 := by
    field_simp; ring
  rw [e]
  have : S^3 * S^3 + Q^3 + 2 * R * S^3 = 0 := by
    rw [hS3]
    rcases hs with h | h
    · rw [h] at hRs ⊢
      have hRR : R = -|R| := by linarith
      generalize |R| = r at *
      subst hRR
      nlinarith
    · rw [h] at hRs ⊢
      have hRR : R = |R| := by linarith
      generalize |R| = r at *
      subst hRR
      nlinarith
  rw [this, zero_div]

/-- with positive discriminant the depressed cubic has at most one real root -/
theorem root_unique {Q R s t : ℝ} (hM : 0 < R^2 - Q^3) (hs : s^3 - 3*Q*s + 2*R = 0) (ht : t^3 - 3*Q*t + 2*R = 0) : s = t := by
  by_contra hne
  have h1 : (s - t) * (s^2 + s*t + t^2 - 3*Q) = 0 := by linear_combination hs - ht
  have h2 : s^2 + s*t + t^2 - 3*Q = 0 := (mul_eq_zero.1 h1).resolve_left (sub_ne_zero.2 hne)
  have h3 : t^2 ≤ 4*Q := by nlinarith [sq_nonneg (2*s + t)]
  have h4 : R = t * (3*Q - t^2) / 2 := by linarith
  have h5 : 4 * R^2 = t^2 * (3*Q - t^2)^2 := by rw [h4]; ring
  have h6 : 4*Q^3 - t^2 * (3*Q - t^2)^2 = (4*Q - t^2) * (Q - t^2)^2 := by ring
  have h7 : 0 ≤ (4*Q - t^2) * (Q - t^2)^2 := mul_nonneg (by linarith) (sq_nonneg _)
  linarith

/-- trigonometric branch -/
theorem trig_root {Q R φ : ℝ} (hQ : 0 < Q) (h : Real.cos (3 * φ) = R / Q ^ (1.5 : ℝ)) :
    let t := -(2 * Real.sqrt Q * Real.cos φ)
    t^3 - 3*Q*t + 2*R = 0 := by
  intro t
  have h15 : Q ^ (1.5 : ℝ) = Real.sqrt Q ^ 3 := by
    rw [Real.sqrt_eq_rpow, ← Real.rpow_natCast, ← Real.rpow_mul hQ.le]; norm_num
  have hs : Real.sqrt Q ^ 2 = Q := Real.sq_sqrt hQ.le
  have hs0 : Real.sqrt Q ≠ 0 := (Real.sqrt_pos.2 hQ).ne'
  rw [h15, Real.cos_three_mul] at h
  have hR : R = (4 * Real.cos φ ^ 3 - 3 * Real.cos φ) * Real.sqrt Q ^ 3 := by rw [h]; field_simp
  simp only [t]
  rw [hR]
  generalize Real.cos φ = x at *
  generalize Real.sqrt Q = r at *
  subst hs
  ring

/-- the result of the compressibility solve is the greatest real root of the cubic -/
theorem solveZ_greatest {A B Z : ℝ} (h : solveZ A B = some Z) : IsGreatest {x | prCubic A B x = 0} Z := by
  unfold solveZ at h
  split_ifs at h with hM hR hQ0
  · -- Cardano
    simp only [Option.some.injEq] at h
    have hc := cardano (Q := cQ A B) (R := cR A B) hM hR
    simp only at hc
    have hr : prCubic A B Z = 0 := by
      rw [depressed, ← h, sub_add_cancel]; exact hc
    refine ⟨hr, fun x hx => ?_⟩
    have hx' : prCubic A B x = 0 := hx
    rw [depressed] at hr hx'
    have := root_unique (show 0 < (cR A B)^2 - (cQ A B)^3 from hM) hx' hr
    linarith
  · -- trigonometric
    simp only [Option.some.injEq] at h
    have hM' : (cR A B)^2 ≤ (cQ A B)^3 := by have := not_lt.1 hM; unfold cM at this; linarith
    have hQ : 0 < cQ A B := by
      have h3 : 0 ≤ (cQ A B)^3 := le_trans (sq_nonneg _) hM'
      by_contra hc
      have hle : cQ A B < 0 := lt_of_le_of_ne (not_lt.1 hc) hQ0
      have : (cQ A B)^3 < 0 := by
        have := mul_pos_of_neg_of_neg hle hle
        nlinarith
      linarith
    set Q := cQ A B with hQd
    set R := cR A B with hRd
    have h15 : Q ^ (1.5 : ℝ) = Real.sqrt Q ^ 3 := by
      rw [Real.sqrt_eq_rpow, ← Real.rpow_natCast, ← Real.rpow_mul hQ.le]; norm_num
    have hs : Real.sqrt Q ^ 2 = Q := Real.sq_sqrt hQ.le
    have hsp : 0 < Real.sqrt Q := Real.sqrt_pos.2 hQ
    have hq0 : 0 < Q ^ (1.5 : ℝ) := Real.rpow_pos_of_pos hQ _
    have hq2 : (Q ^ (1.5 : ℝ))^2 = Q^3 := by
      rw [h15]; calc (Real.sqrt Q ^ 3)^2 = (Real.sqrt Q ^ 2)^3 := by ring
        _ = Q^3 := by rw [hs]
    have hab : |R / Q ^ (1.5 : ℝ)| ≤ 1 := by
      rw [abs_div, abs_of_pos hq0, div_le_one hq0]
      exact abs_le_of_sq_le_sq (by rw [hq2]; exact hM') hq0.le
    obtain ⟨hl, hu⟩ := abs_le.1 hab
    set θ := Real.arccos (R / Q ^ (1.5 : ℝ)) with hθ
    have hcos : Real.cos θ = R / Q ^ (1.5 : ℝ) := Real.cos_arccos hl hu
    have hθ0 : 0 ≤ θ := Real.arccos_nonneg _
    have hθp : θ ≤ Real.pi := Real.arccos_le_pi _
    have r1 := trig_root (Q := Q) (R := R) (φ := θ / 3) hQ (by rw [show 3 * (θ/3) = θ by ring]; exact hcos)
    have r2 := trig_root (Q := Q) (R := R) (φ := (θ + 2 * Real.pi) / 3) hQ
      (by rw [show 3 * ((θ + 2 * Real.pi)/3) = θ + 2 * Real.pi by ring, Real.cos_add_two_pi]; exact hcos)
    have r3 := trig_root (Q := Q) (R := R) (φ := (θ - 2 * Real.pi) / 3) hQ
      (by rw [show 3 * ((θ - 2 * Real.pi)/3) = θ - 2 * Real.pi by ring, Real.cos_sub_two_pi]; exact hcos)
    simp only at r1 r2 r3
    set t1 := -(2 * Real.sqrt Q * Real.cos (θ / 3))
    set t2 := -(2 * Real.sqrt Q * Real.cos ((θ + 2 * Real.pi) / 3)) with ht2
    set t3 := -(2 * Real.sqrt Q * Real.cos ((θ - 2 * Real.pi) / 3))
    -- the middle one is at least √Q
    have hge : Real.sqrt Q ≤ t2 := by
      have hp := Real.pi_pos
      have hc : Real.cos ((θ + 2 * Real.pi) / 3) ≤ -(1/2) := by
        have h1 : Real.cos ((θ + 2 * Real.pi) / 3) ≤ Real.cos (Real.pi - Real.pi / 3) :=
          Real.cos_le_cos_of_nonneg_of_le_pi (by linarith) (by linarith) (by linarith)
        rw [Real.cos_pi_sub, Real.cos_pi_div_three] at h1
        exact h1
      rw [ht2]; nlinarith
    -- no root lies beyond it
    have hmax : ∀ t, t^3 - 3*Q*t + 2*R = 0 → t ≤ t2 := by
      intro t ht
      by_contra hc
      have hlt := not_le.1 hc
      have e : (t - t2) * (t^2 + t*t2 + t2^2 - 3*Q) = 0 := by linear_combination ht - r2
      have : 0 < t^2 + t*t2 + t2^2 - 3*Q := by
        have h2 : Q ≤ t2^2 := by nlinarith
        have h0 : 0 < t2 := lt_of_lt_of_le hsp hge
        nlinarith
      rcases mul_eq_zero.1 e with h | h <;> linarith
    have hZ : Z = t2 - z2 B / 3 := by
      rw [← h, max_eq_left (a := t2 - z2 B / 3) (by linarith [hmax t3 r3]), max_eq_right (by linarith [hmax t1 r1])]
    refine ⟨?_, fun x hx => ?_⟩
    · change prCubic A B Z = 0
      rw [depressed, hZ, sub_add_cancel]; exact r2
    · have hx' : prCubic A B x = 0 := hx
      rw [depressed] at hx'
      have := hmax _ hx'
      linarith

/-- when the solve fails -/
theorem solveZ_none (A B : ℝ) : solveZ A B = none ↔ cR A B = 0 ∧ cQ A B ≤ 0 := by
  unfold solveZ
  constructor
  · intro h
    split_ifs at h with hM hR hQ
    · refine ⟨hR, ?_⟩
      unfold cM at hM
      rw [hR] at hM
      by_contra hc
      have : 0 < (cQ A B)^3 := pow_pos (not_le.1 hc) 3
      nlinarith
    · refine ⟨?_, hQ.le⟩
      unfold cM at hM
      rw [hQ] at hM
      have : (cR A B)^2 ≤ 0 := by linarith [not_lt.1 hM]
      exact pow_eq_zero_iff (two_ne_zero) |>.1 (le_antisymm this (sq_nonneg _))
  · rintro ⟨hR, hQ⟩
    split_ifs with hM hQ0
    · rfl
    · rfl
    · exfalso
      have hlt : cQ A B < 0 := lt_of_le_of_ne hQ hQ0
      have : (cQ A B)^3 < 0 := by have := mul_pos_of_neg_of_neg hlt hlt; nlinarith
      unfold cM at hM
      rw [hR] at hM
      linarith [not_lt.1 hM]

/-- the greatest root exceeds `B` when `B > 0` -/
theorem root_gt_B {A B Z : ℝ} (hB : 0 < B) (h : IsGreatest {x | prCubic A B x = 0} Z) : B < Z := by
  have hneg : prCubic A B B < 0 := by
    have : prCubic A B B = -2 * B^2 := by unfold prCubic; ring
    rw [this]; nlinarith
  set K := 1 + |B| + |A - 3*B^2 - 2*B| + |A*B - B^2 - B^3| with hK
  have hK1 : 1 ≤ K := by have := abs_nonneg B; have := abs_nonneg (A - 3*B^2 - 2*B); have := abs_nonneg (A*B - B^2 - B^3); linarith
  set L := K + 2 with hL
  have hpos : 0 ≤ prCubic A B L := by
    have a1 := abs_nonneg B
    have b1 := neg_abs_le (A - 3*B^2 - 2*B)
    have c1 := le_abs_self (A*B - B^2 - B^3)
    have c0 := abs_nonneg (A*B - B^2 - B^3)
    have d0 := abs_nonneg (A - 3*B^2 - 2*B)
    have hB' : |B| = B := abs_of_pos hB
    have e : prCubic A B L = L^2 * (L - 1 + B) + (A - 3*B^2 - 2*B) * L - (A*B - B^2 - B^3) := by unfold prCubic; ring
    rw [e]
    generalize |A - 3*B^2 - 2*B| = d at *
    generalize |A*B - B^2 - B^3| = f at *
    generalize A - 3*B^2 - 2*B = d' at *
    generalize A*B - B^2 - B^3 = f' at *
    have hLd : 1 + B + d + f ≤ L - 1 := by rw [hL, hK, hB']; linarith
    have hL1 : 1 ≤ L := by linarith
    have s1 : L * (d + f) ≤ L^2 * (L - 1 + B) := by
      have : L * (d+f) ≤ L * (L - 1 + B) := mul_le_mul_of_nonneg_left (by linarith) (by linarith)
      have h2 : L * (L - 1 + B) ≤ L^2 * (L - 1 + B) := by
        have : 0 ≤ L - 1 + B := by linarith
        nlinarith
      linarith
    have s2 : -d * L ≤ d' * L := mul_le_mul_of_nonneg_right (by linarith) (by linarith)
    have s3 : f ≤ L * f := by nlinarith
    nlinarith
  have hcont : Continuous (prCubic A B) := by unfold prCubic; fun_prop
  have hBL : B ≤ L := by
    rw [hL, hK]; have := le_abs_self B; have := abs_nonneg (A - 3*B^2 - 2*B); have := abs_nonneg (A*B - B^2 - B^3); linarith
  obtain ⟨x, hx, hx0⟩ := intermediate_value_Icc hBL hcont.continuousOn ⟨hneg.le, hpos⟩
  have hxZ : x ≤ Z := h.2 hx0
  rcases eq_or_lt_of_le hx.1 with he | hlt
  · rw [← he] at hx0; linarith
  · linarith

/-- Peng-Robinson pressure at molar volume `V`: `R T/(V-b) - a/(V² + 2bV - b²)` -/
def prPressure (Ru a b V T : ℝ) : ℝ := Ru * T / (V - b) - a / (V^2 + 2*b*V - b^2)

/-- roots of the cubic above `B` are the molar volumes `V = Z Ru T / p` at which the equation of state gives `p` -/
theorem root_is_eos {Ru a b p T Z : ℝ} (hRu : 0 < Ru) (hp : 0 < p) (hT : 0 < T) (hb : 0 < b)
    (hZB : b * p / (Ru * T) < Z) (h : prCubic (a * p / (Ru * T)^2) (b * p / (Ru * T)) Z = 0) :
    prPressure Ru a b (Z * Ru * T / p) T = p := by
  set V := Z * Ru * T / p with hV
  have hZ : Z = V * p / (Ru * T) := by rw [hV]; field_simp
  have hVb : b < V := by
    rw [hV, lt_div_iff₀ hp]
    rw [div_lt_iff₀ (by positivity)] at hZB
    linarith
  have h1 : V - b ≠ 0 := by linarith
  have h2 : 0 < V^2 + 2*b*V - b^2 := by nlinarith
  have h2' : V^2 + 2*b*V - b^2 ≠ 0 := h2.ne'
  have hc : p^3 * V^3 - (Ru*T - b*p) * (p*V)^2 + (a * p - 3 * b^2*p^2 - 2*b*p*(Ru*T)) * (p * V)
      - (a * b * p^2 - b^2 * p^2 * (Ru*T) - b^3*p^3) = 0 := by
    rw [hZ] at h
    unfold prCubic at h
    have : (Ru * T)^3 * ((V * p / (Ru * T))^3 - (1 - b * p / (Ru * T)) * (V * p / (Ru * T))^2
      + (a * p / (Ru * T)^2 - 3 * (b * p / (Ru * T))^2 - 2 * (b * p / (Ru * T))) * (V * p / (Ru * T))
      - (a * p / (Ru * T)^2 * (b * p / (Ru * T)) - (b * p / (Ru * T))^2 - (b * p / (Ru * T))^3)) = 0 := by rw [h, mul_zero]
    field_simp at this
    have hp' := hp.ne'
    have k : p * 1 ≠ 0 := by simpa using hp'
    nlinarith [this]
  unfold prPressure
  rw [div_sub_div _ _ h1 h2', div_eq_iff (mul_ne_zero h1 h2')]
  have : p^2 * (Ru * T * (V^2 + 2*b*V - b^2) - (V - b) * a - p * ((V - b) * (V^2 + 2*b*V - b^2))) = 0 := by
    linear_combination -hc
  have := (mul_eq_zero.1 this).resolve_left (by positivity)
  linarith

/-! ### cells -/

/-- physically sensible real-gas table -/
structure ThC.Ok (th : ThC) : Prop where
  ns : 1 ≤ th.ns
  Ru : 0 < th.Ru
  MW : ∀ n < th.ns, 0 < th.MW n
  Tcrit : ∀ n < th.ns, 0 < th.Tcrit n
  pcrit : ∀ n < th.ns, 0 < th.pcrit n

/-- mole fractions of a composition -/
def moleFrac (th : Th) (Y : ℕ → ℝ) (n : ℕ) : ℝ := (Y n / th.MW n) / ∑ k ∈ range th.ns, Y k / th.MW k

theorem denom_ok (th : ThC) (hns : 1 ≤ th.ns) (y : ℕ → ℝ) (hy : OkY th.ns y) :
    denom th y = ∑ k ∈ range th.ns, fullY th.ns y k / th.MW k := by
  rw [sum_split hns]
  unfold denom fullY testSum
  congr 1
  · refine sum_congr rfl fun n hn => ?_
    have : n ≠ th.ns - 1 := by have := mem_range.1 hn; omega
    simp [this]
  · simp

theorem moleX_ok (th : ThC) (hns : 1 ≤ th.ns) (y : ℕ → ℝ) (hy : OkY th.ns y) :
    moleX th y = moleFrac th.toTh (fullY th.ns y) := by
  funext n
  unfold moleX moleFrac
  rw [denom_ok th hns y hy, localY_ok hy]

theorem fullY_simplex {ns : ℕ} (hns : 1 ≤ ns) {y : ℕ → ℝ} (hy : OkY ns y) : Simplex ns (fullY ns y) := by
  constructor
  · intro n hn
    unfold fullY
    split_ifs with h
    · linarith [hy.2]
    · exact hy.1 n (by omega)
  · rw [sum_split hns]
    have : ∑ n ∈ range (ns - 1), fullY ns y n = ∑ n ∈ range (ns - 1), y n := by
      refine sum_congr rfl fun n hn => ?_
      have : n ≠ ns - 1 := by have := mem_range.1 hn; omega
      simp [fullY, this]
    rw [this]; simp [fullY]

theorem sumYMW_pos {th : Th} (hM : ∀ n < th.ns, 0 < th.MW n) {Y : ℕ → ℝ} (h : Simplex th.ns Y) :
    0 < ∑ k ∈ range th.ns, Y k / th.MW k := by
  have := simplex_pos h (f := fun n => 1 / th.MW n) (fun n hn => one_div_pos.2 (hM n hn))
  exact lt_of_lt_of_eq this (sum_congr rfl fun n _ => by ring)

theorem moleFrac_simplex {th : Th} (hM : ∀ n < th.ns, 0 < th.MW n) {Y : ℕ → ℝ} (h : Simplex th.ns Y) :
    Simplex th.ns (moleFrac th Y) := by
  have hp := sumYMW_pos hM h
  refine ⟨fun n hn => div_nonneg (div_nonneg (h.nonneg n hn) (hM n hn).le) hp.le, ?_⟩
  unfold moleFrac
  rw [← sum_div, div_self hp.ne']

theorem MWmix_moleFrac (th : ThC) (hM : ∀ n < th.ns, 0 < th.MW n) {Y : ℕ → ℝ} (h : Simplex th.ns Y) :
    MWmix th (moleFrac th.toTh Y) = 1 / ∑ k ∈ range th.ns, Y k / th.MW k := by
  unfold MWmix moleFrac
  have : ∀ n ∈ range th.ns, th.MW n * (Y n / th.MW n / ∑ k ∈ range th.ns, Y k / th.MW k) = Y n / ∑ k ∈ range th.ns, Y k / th.MW k := by
    intro n hn
    have := (hM n (mem_range.1 hn)).ne'
    field_simp
  rw [sum_congr rfl this, ← sum_div, h.sum]

theorem bm_pos {th : ThC} (ht : th.Ok) {X : ℕ → ℝ} (h : Simplex th.ns X) : 0 < bm th X := by
  refine simplex_pos h fun n hn => ?_
  unfold bi biConst
  have := ht.Ru; have := ht.Tcrit n hn; have := ht.pcrit n hn
  positivity

theorem cubicPrims_some {th : ThC} {c c' : Cell} (h : cubicPrims th c = some c') :
    ∃ Z, solveZ (Astar th (moleX th (clipY th.ns c.q.Y)) c.q.p c.q.T) (Bstar th (moleX th (clipY th.ns c.q.Y)) c.q.p c.q.T) = some Z ∧
      c'.Q.rho = c.q.p / (Z * (th.Ru / MWmix th (moleX th (clipY th.ns c.q.Y))) * c.q.T) := by
  unfold cubicPrims at h
  simp only at h
  split at h
  · cases h
  · rename_i Z hZ
    refine ⟨Z, hZ, ?_⟩
    simp only [Option.some.injEq] at h
    rw [← h]

theorem okY_clip_eq {ns : ℕ} {y : ℕ → ℝ} (h : OkY ns y) : OkY ns (clipY ns y) ∧ ∀ n < ns, fullY ns (clipY ns y) n = fullY ns y n := by
  have e : ∀ n < ns - 1, clipY ns y n = y n := fun n hn => okY_clip h hn
  have es : ∑ n ∈ range (ns - 1), clipY ns y n = ∑ n ∈ range (ns - 1), y n := sum_congr rfl fun n hn => e n (mem_range.1 hn)
  refine ⟨⟨fun n hn => by rw [e n hn]; exact h.1 n hn, by rw [es]; exact h.2⟩, fun n hn => ?_⟩
  unfold fullY
  rw [es]
  split_ifs with hh
  · rfl
  · exact e n (by omega)

/-- C65: for an admissible state, whenever the real-gas conversion produces numbers, the density it stores satisfies the
    Peng-Robinson equation of state exactly: with molar volume `V = M/rho` (`M` the mixture molecular weight), the pressure
    is `Ru T/(V-b) - a/(V²+2bV-b²)`; `V` exceeds the co-volume `b`, and no larger volume gives the same pressure (the
    vapour-like root). -/
theorem C65_eos_partial {th : ThC} (ht : th.Ok) (c c' : Cell) (hq : c.q.Ok th.ns) (h : cubicPrims th c = some c') :
    let X := moleFrac th.toTh (fullY th.ns (clipY th.ns c.q.Y))
    let M := 1 / ∑ k ∈ range th.ns, fullY th.ns (clipY th.ns c.q.Y) k / th.MW k
    0 < c'.Q.rho ∧ bm th X < M / c'.Q.rho ∧
    prPressure th.Ru (am th X c.q.T) (bm th X) (M / c'.Q.rho) c.q.T = c.q.p ∧
    ∀ V, bm th X < V → prPressure th.Ru (am th X c.q.T) (bm th X) V c.q.T = c.q.p → V ≤ M / c'.Q.rho := by
  intro X M
  obtain ⟨hy, hf⟩ := okY_clip_eq hq.Y
  obtain ⟨Z, hZ, hrho⟩ := cubicPrims_some h
  have hs := fullY_simplex ht.ns hy
  rw [moleX_ok th ht.ns _ hy] at hZ hrho
  rw [MWmix_moleFrac th ht.MW hs] at hrho
  have hX : Simplex th.ns X := moleFrac_simplex ht.MW hs
  have hb := bm_pos ht hX
  have hp := hq.p; have hT := hq.T; have hRu := ht.Ru
  have hMpos : 0 < M := one_div_pos.2 (sumYMW_pos ht.MW hs)
  have hB : 0 < Bstar th X c.q.p c.q.T := by unfold Bstar; positivity
  have hg := solveZ_greatest hZ
  have hZB := root_gt_B hB hg
  have hZ0 : 0 < Z := lt_trans hB hZB
  have hrho' : c'.Q.rho = c.q.p / (Z * (th.Ru / M) * c.q.T) := hrho
  have hV : M / c'.Q.rho = Z * th.Ru * c.q.T / c.q.p := by rw [hrho']; field_simp
  have heos := root_is_eos (a := am th X c.q.T) hRu hp hT hb hZB hg.1
  refine ⟨by rw [hrho']; positivity, ?_, by rw [hV]; exact heos, fun V hVb hVp => ?_⟩
  · rw [hV, lt_div_iff₀ hp]
    unfold Bstar at hZB
    rw [div_lt_iff₀ (by positivity)] at hZB
    linarith
  · -- V corresponds to a root of the cubic
    set W := V * c.q.p / (th.Ru * c.q.T) with hW
    have hVp' : th.Ru * c.q.T * (V^2 + 2 * bm th X * V - bm th X^2) - (V - bm th X) * am th X c.q.T
        = c.q.p * ((V - bm th X) * (V^2 + 2 * bm th X * V - bm th X^2)) := by
      unfold prPressure at hVp
      have h1 : V - bm th X ≠ 0 := by linarith
      have h2 : V^2 + 2 * bm th X * V - bm th X^2 ≠ 0 := by have : 0 < V^2 + 2 * bm th X * V - bm th X^2 := by nlinarith
                                                            exact this.ne'
      rw [div_sub_div _ _ h1 h2, div_eq_iff (mul_ne_zero h1 h2)] at hVp
      exact hVp
    have hroot : prCubic (Astar th X c.q.p c.q.T) (Bstar th X c.q.p c.q.T) W = 0 := by
      have e : prCubic (Astar th X c.q.p c.q.T) (Bstar th X c.q.p c.q.T) W =
          (c.q.p^2 * (c.q.p * ((V - bm th X) * (V^2 + 2 * bm th X * V - bm th X^2)) -
            (th.Ru * c.q.T * (V^2 + 2 * bm th X * V - bm th X^2) - (V - bm th X) * am th X c.q.T))) / (th.Ru * c.q.T)^3 := by
        unfold prCubic Astar Bstar
        rw [hW]
        field_simp
        ring
      rw [e, hVp', sub_self, mul_zero, zero_div]
    have := hg.2 hroot
    rw [hV, le_div_iff₀ hp]
    rw [hW, div_le_iff₀ (by positivity)] at this
    linarith

/-- C65 finding: for `A = 0.56`, `B = 0.1` the cubic has exactly one real root, 0.3, and the code computes 0/0 (the
    depressed cubic has no constant term), so density and energy of such a cell become not-a-number. -/
theorem C65_nan_violated (th : ThC) (c : Cell) (hA : Astar th (moleX th (clipY th.ns c.q.Y)) c.q.p c.q.T = 0.56)
    (hB : Bstar th (moleX th (clipY th.ns c.q.Y)) c.q.p c.q.T = 0.1) :
    cubicPrims th c = none ∧ IsGreatest {x | prCubic 0.56 0.1 x = 0} 0.3 := by
  have hn : solveZ 0.56 0.1 = none := by
    rw [solveZ_none]; unfold cR cQ z0 z1 z2; norm_num
  constructor
  · unfold cubicPrims
    simp only [hA, hB, hn]
  · refine ⟨?_, fun x hx => ?_⟩
    · change prCubic 0.56 0.1 0.3 = 0
      unfold prCubic; norm_num
    · have hx' : prCubic 0.56 0.1 x = 0 := hx
      unfold prCubic at hx'
      have : (x - 0.3) * ((x - 0.3)^2 + 0.06) = 0 := by linear_combination hx'
      rcases mul_eq_zero.1 this with h | h
      · linarith
      · exfalso; nlinarith [sq_nonneg (x - 0.3)]

/-- C65 finding: with oversumming stored fractions the mole fractions are normalised with the sum taken before rescaling:
    with weights 2, 4, 8 and stored fractions 1, 1 the mole fractions used add up to 0.6 instead of 1. -/
theorem C65_moles_violated (th : ThC) (h3 : th.ns = 3) (hM : th.MW 0 = 2 ∧ th.MW 1 = 4 ∧ th.MW 2 = 8) (y : ℕ → ℝ)
    (hy : y 0 = 1 ∧ y 1 = 1) : ∑ n ∈ range th.ns, moleX th (clipY th.ns y) n = 0.6 := by
  have e0 : clipY 3 y 0 = 1 := by simp [clipY, hy.1]
  have e1 : clipY 3 y 1 = 1 := by simp [clipY, hy.2]
  have es : testSum 3 (clipY 3 y) = 2 := by simp [testSum, sum_range_succ, e0, e1]; norm_num
  have ed : denom th (clipY 3 y) = 5/8 := by
    simp [denom, h3, es, sum_range_succ, e0, e1, hM]; norm_num
  rw [h3]
  simp only [sum_range_succ, range_zero, sum_empty, moleX, ed, h3, localY, es]
  simp [e0, e1, hM]
  norm_num

/-! ### C66 -/

theorem bm_congr (th : ThC) {X X' : ℕ → ℝ} (h : ∀ n < th.ns, X n = X' n) : bm th X = bm th X' :=
  sum_congr rfl fun n hn => by rw [h n (mem_range.1 hn)]
theorem am_congr (th : ThC) {X X' : ℕ → ℝ} (h : ∀ n < th.ns, X n = X' n) (T : ℝ) : am th X T = am th X' T :=
  sum_congr rfl fun n hn => sum_congr rfl fun m hm => by rw [h n (mem_range.1 hn), h m (mem_range.1 hm)]
theorem dam_congr (th : ThC) {X X' : ℕ → ℝ} (h : ∀ n < th.ns, X n = X' n) (T : ℝ) : dam th X T = dam th X' T := by
  unfold dam
  congr 1
  exact sum_congr rfl fun n hn => sum_congr rfl fun m hm => by rw [h n (mem_range.1 hn), h m (mem_range.1 hm)]
theorem MWmix_congr (th : ThC) {X X' : ℕ → ℝ} (h : ∀ n < th.ns, X n = X' n) : MWmix th X = MWmix th X' :=
  sum_congr rfl fun n hn => by rw [h n (mem_range.1 hn)]

/-- everything the real-gas kernels compute depends on compositions through the first ns entries only -/
theorem rg_congr (th : ThC) {X X' Y Y' : ℕ → ℝ} (h : ∀ n < th.ns, X n = X' n) (hY : ∀ n < th.ns, Y n = Y' n) (p T Z rho Vm : ℝ) (n : ℕ) :
    Astar th X p T = Astar th X' p T ∧ Bstar th X p T = Bstar th X' p T ∧ hC th X Y p T Z = hC th X' Y' p T Z ∧
    cpC th X Y p T Z = cpC th X' Y' p T Z ∧ hiC th X p T Z n = hiC th X' p T Z n ∧ dAdT th X p T = dAdT th X' p T ∧
    dBdT th X p T = dBdT th X' p T ∧ pEOS th X Vm T = pEOS th X' Vm T := by
  have hA : Astar th X p T = Astar th X' p T := by unfold Astar; rw [am_congr th h]
  have hB : Bstar th X p T = Bstar th X' p T := by unfold Bstar; rw [bm_congr th h]
  have hD : hDep th X p T Z = hDep th X' p T Z := by
    unfold hDep Cuw; rw [am_congr th h, bm_congr th h, dam_congr th h, hB]
  have hCp : cpDep th X p T Z = cpDep th X' p T Z := by
    unfold cpDep Cuw; rw [am_congr th h, bm_congr th h, dam_congr th h, hB]
  obtain ⟨-, -, hm⟩ := mix_congr (th := th.toTh) hY
  refine ⟨hA, hB, ?_, ?_, ?_, ?_, ?_, ?_⟩
  · unfold hC; rw [hD, MWmix_congr th h, (hm T).1]
  · unfold cpC; rw [hCp, MWmix_congr th h, (hm T).2]
  · unfold hiC; rw [hD]
  · unfold dAdT; rw [hA, am_congr th h, dam_congr th h]
  · unfold dBdT; rw [hB]
  · unfold pEOS; rw [bm_congr th h, am_congr th h]

/-- C66: for an admissible state with `T ≥ 1` for which the real-gas conversion produces numbers, converting to conserved
    variables and back, the temperature search starting at the stored temperature, returns the same primitives, conserved
    variables and derived quantities. `hden` says the search's denominator does not vanish (the code would divide 0/0). -/
theorem C66_roundtrip {th : ThC} (ht : th.Ok) (c c' : Cell) (hq : c.q.Ok th.ns) (hT1 : 1 ≤ c.q.T)
    (h : cubicPrims th c = some c')
    (_hden : ∀ Z, let X := moleX th (clipY th.ns c.q.Y)
      solveZ (Astar th X c.q.p c.q.T) (Bstar th X c.q.p c.q.T) = some Z →
      -cpC th X (localY th.ns (clipY th.ns c.q.Y)) c.q.p c.q.T Z + th.Ru / MWmix th X *
        (Z * dZ (Astar th X c.q.p c.q.T) (Bstar th X c.q.p c.q.T) (dAdT th X c.q.p c.q.T) (dBdT th X c.q.p c.q.T) Z) ≠ 0) :
    ∃ c'', cubicCons th c' = some c'' ∧ c''.q.Same th.ns c.q ∧ c''.qh.Same th.ns c'.qh ∧ c''.Q.Same th.ns c'.Q := by
  have hu := clipY_unit th.ns c.q.Y
  obtain ⟨hy, hf⟩ := okY_clip_eq hq.Y
  have hs := fullY_simplex ht.ns hy
  obtain ⟨hrpos, hVb, heos, -⟩ := C65_eos_partial ht c c' hq h
  have hXe := moleX_ok th ht.ns _ hy
  have hM := MWmix_moleFrac th ht.MW hs
  rw [← hXe] at hM
  simp only [← hM, ← hXe] at heos hVb
  have hMpos : 0 < MWmix th (moleX th (clipY th.ns c.q.Y)) := by
    rw [hM]; exact one_div_pos.2 (sumYMW_pos ht.MW hs)
  have hX : Simplex th.ns (moleX th (clipY th.ns c.q.Y)) := by rw [hXe]; exact moleFrac_simplex ht.MW hs
  have hp := hq.p; have hTp := hq.T; have hRu := ht.Ru
  unfold cubicPrims at h
  simp only at h
  split at h
  · cases h
  rename_i Z hZ
  simp only [Option.some.injEq] at h
  set y := clipY th.ns c.q.Y with hyd
  set Y := localY th.ns y with hYd
  set X := moleX th y with hXd
  set M := MWmix th X with hMd
  set p := c.q.p
  set T := c.q.T
  have hrho : c'.Q.rho = p / (Z * (th.Ru / M) * T) := by rw [← h]
  have hB : 0 < Bstar th X p T := by unfold Bstar; have := bm_pos ht hX; positivity
  have hZ0 : 0 < Z := lt_trans hB (root_gt_B hB (solveZ_greatest hZ))
  have hQY : ∀ n < th.ns - 1, c'.Q.rhoY n = Y n * c'.Q.rho := by
    intro n hn; rw [← h]; simp only [hn, if_true]
  have hYr : ∀ n < th.ns, localY th.ns (consY th.ns c'.Q) n = Y n := fun n hn => readback ht.ns hu hrpos hQY hn
  -- the mole fractions read back
  have hcy : ∀ n < th.ns - 1, consY th.ns c'.Q n = Y n := by
    have hu' : Unit01 th.ns Y := fun n hn => ⟨localY_nonneg hu (by omega), localY_le_one ht.ns hu (by omega)⟩
    exact fun n hn => (consY_of hrpos hu' hQY hn).2
  have hYy : ∀ n < th.ns - 1, Y n = y n := by
    intro n hn
    rw [hYd, localY_ok hy]
    have : n ≠ th.ns - 1 := by omega
    simp [fullY, this]
  have hXr : ∀ n < th.ns, moleX th (consY th.ns c'.Q) n = X n := by
    intro n hn
    have e1 : denom th (consY th.ns c'.Q) = denom th y := by
      unfold denom
      rw [testSum_congr (fun m hm => (hcy m hm).trans (hYy m hm))]
      congr 1
      exact sum_congr rfl fun m hm => by rw [hcy m (mem_range.1 hm), hYy m (mem_range.1 hm)]
    rw [hXd]
    unfold moleX
    rw [e1, hYr n hn]
  set Xr := moleX th (consY th.ns c'.Q) with hXrd
  set Yr := localY th.ns (consY th.ns c'.Q) with hYrd
  have hMr : MWmix th Xr = M := MWmix_congr th hXr
  -- energy
  set e := intEnergy c'.Q with hed
  have hrne := hrpos.ne'
  have ee : e = hC th X Y p T Z - p / c'.Q.rho := by
    have q1 : c'.Q.rhou = c'.Q.rho * c.q.u := by rw [← h]
    have q2 : c'.Q.rhov = c'.Q.rho * c.q.v := by rw [← h]
    have q3 : c'.Q.rhow = c'.Q.rho * c.q.w := by rw [← h]
    have q4 : c'.Q.rhoE = c'.Q.rho * (hC th X Y p T Z - p / c'.Q.rho) + 0.5 * (c.q.u^2 + c.q.v^2 + c.q.w^2) * c'.Q.rho := by
      rw [← h]
    rw [hed, intEnergy, q4, q1, q2, q3]
    field_simp
    ring
  have hpr : p / c'.Q.rho = Z * (th.Ru / M) * T := by rw [hrho]; field_simp
  -- pressure from volume
  have hpE : pEOS th Xr (MWmix th Xr / c'.Q.rho) T = p := by
    rw [(rg_congr th hXr hYr p T Z 0 (MWmix th Xr / c'.Q.rho) 0).2.2.2.2.2.2.2, hMr]
    unfold pEOS
    unfold prPressure at heos
    rw [show (M / c'.Q.rho) * (M / c'.Q.rho + bm th X) + bm th X * (M / c'.Q.rho - bm th X) =
      (M / c'.Q.rho)^2 + 2 * bm th X * (M / c'.Q.rho) - bm th X^2 by ring]
    exact heos
  have hg : guess T = T := by simp [guess, not_lt.2 hT1]
  have cg : ∀ n, _ := fun n => rg_congr th hXr hYr p T Z 0 0 n
  obtain ⟨cA, cB, ch, ccp, -, cdA, cdB, -⟩ := cg 0
  set d := dZ (Astar th X p T) (Bstar th X p T) (dAdT th X p T) (dBdT th X p T) Z with hd
  have hc'T : c'.q.T = T := by rw [← h]
  have hbody : cubicBody th Xr Yr (MWmix th Xr / c'.Q.rho) e ⟨T, 0, 0, 0, 0, fun _ => 0, 0, 0, 0, 1e100⟩ =
      some ⟨T, p, Z, hC th X Y p T Z, cpC th X Y p T Z, hiC th X p T Z, d, Astar th X p T, Bstar th X p T, 0⟩ := by
    unfold cubicBody
    simp only [hpE]
    simp only [cA, cB, hZ, ch, ccp, cdA, cdB, hMr]
    have e0 : e - (hC th X Y p T Z - Z * (th.Ru / M) * T) = 0 := by rw [ee, hpr]; ring
    have ehi : hiC th Xr p T Z = hiC th X p T Z := by funext n; exact (cg n).2.2.2.2.1
    rw [e0, zero_div, sub_zero, ehi]
  have hloop : cubicLoop th Xr Yr (MWmix th Xr / c'.Q.rho) e maxitr ⟨guess c'.q.T, 0, 0, 0, 0, fun _ => 0, 0, 0, 0, 1e100⟩ =
      some ⟨T, p, Z, hC th X Y p T Z, cpC th X Y p T Z, hiC th X p T Z, d, Astar th X p T, Bstar th X p T, 0⟩ := by
    have h2 : |(1e100 : ℝ)| > tol := by norm_num [tol]
    have h3 : ¬ |(0 : ℝ)| > tol := by norm_num [tol]
    rw [hc'T, hg, show maxitr = 98 + 1 + 1 by rfl, cubicLoop, if_pos h2, hbody, Option.bind_some, cubicLoop, if_neg h3]
  have hcons : cubicCons th c' = some (cubicFinish th c'
      ⟨T, p, Z, hC th X Y p T Z, cpC th X Y p T Z, hiC th X p T Z, d, Astar th X p T, Bstar th X p T, 0⟩) := by
    unfold cubicCons
    simp only [← hXrd, ← hYrd, ← hed, hloop, Option.map_some]
  refine ⟨_, hcons, ⟨rfl, ?_, ?_, ?_, rfl, fun n hn => ?_⟩, ?_, ⟨rfl, rfl, rfl, rfl, rfl, fun n hn => ?_⟩⟩
  · have q1 : c'.Q.rhou = c'.Q.rho * c.q.u := by rw [← h]
    simp only [cubicFinish, q1]; field_simp
  · have q1 : c'.Q.rhov = c'.Q.rho * c.q.v := by rw [← h]
    simp only [cubicFinish, q1]; field_simp
  · have q1 : c'.Q.rhow = c'.Q.rho * c.q.w := by rw [← h]
    simp only [cubicFinish, q1]; field_simp
  · simp only [cubicFinish, hn, if_true]
    rw [← hYrd, hYr n (by omega), hYy n hn, hyd]
    exact okY_clip hq.Y hn
  · have hrp : drhodp th X p T Z c'.Q.rho = (c'.Q.rho / p) * (1 - p * dZ (Astar th X p T) (Bstar th X p T) (Astar th X p T / p) (Bstar th X p T / p) Z / Z) := rfl
    have hrt : drhodT th X p T Z c'.Q.rho = -(c'.Q.rho / T) * (1 + T * d / Z) := rfl
    have k : c'.qh = ⟨gammaOf (drhodp th X p T Z c'.Q.rho) (drhodT th X p T Z c'.Q.rho) c'.Q.rho T (cpC th X Y p T Z), cpC th X Y p T Z,
        c'.Q.rho * hC th X Y p T Z, Real.sqrt |gammaOf (drhodp th X p T Z c'.Q.rho) (drhodT th X p T Z c'.Q.rho) c'.Q.rho T (cpC th X Y p T Z) / drhodp th X p T Z c'.Q.rho|,
        c'.Q.rho * (hC th X Y p T Z - p / c'.Q.rho), fun n => if n < th.ns then hiC th X p T Z n else c.qh.hi n⟩ := by
      rw [← h]
    refine ⟨?_, ?_, ?_, ?_, ?_, fun n hn => ?_⟩
    · rw [k, hrp, hrt]; rfl
    · rw [k]; rfl
    · rw [k]; rfl
    · rw [k, hrp, hrt]; rfl
    · rw [k]; simp only [cubicFinish, ← hed, ee]
    · rw [k]; simp only [cubicFinish, hn, if_true]
  · simp only [cubicFinish]
    rw [consRhoY_eq hrpos hn, hQY n hn]
    rw [← hYrd, hYr n (by omega)]

/-! ### Non-vacuity: one species in reduced units at its critical temperature, a tenth of its critical pressure; the free
    NASA coefficient `a` fixes the ideal heat capacity -/

def exC (a : ℝ) : ThC := ⟨⟨1, 1, fun _ => 1, fun _ => 0, fun _ j => if j = 1 then a else 0⟩, fun _ => 1, fun _ => 1, fun _ => 0⟩
def exCell : Cell := ⟨⟨0.1, 1, 2, 3, 1, fun _ => 0⟩, ⟨0, 0, 0, 0, 0, fun _ => 0⟩, ⟨0, 0, 0, 0, 0, fun _ => 0⟩⟩

theorem exC_ok (a : ℝ) : (exC a).Ok :=
  ⟨le_refl _, one_pos, fun _ _ => one_pos, fun _ _ => one_pos, fun _ _ => one_pos⟩

theorem exCell_ok (a : ℝ) : exCell.q.Ok (exC a).ns := by
  refine ⟨by norm_num [exCell], by norm_num [exCell], fun n hn => absurd hn (by simp [exC]), ?_⟩
  have : (exC a).ns = 1 := rfl
  simp [this]

theorem exC_X (a : ℝ) : moleX (exC a) (clipY (exC a).ns exCell.q.Y) 0 = 1 := by
  have h : (exC a).ns = 1 := rfl
  simp [moleX, localY, denom, testSum, h, exC]

theorem exC_solve (a : ℝ) : ∃ Z, solveZ (Astar (exC a) (moleX (exC a) (clipY (exC a).ns exCell.q.Y)) exCell.q.p exCell.q.T)
    (Bstar (exC a) (moleX (exC a) (clipY (exC a).ns exCell.q.Y)) exCell.q.p exCell.q.T) = some Z := by
  have hn : (exC a).ns = 1 := rfl
  have hA : Astar (exC a) (moleX (exC a) (clipY (exC a).ns exCell.q.Y)) exCell.q.p exCell.q.T = 0.045724 := by
    have hai : ai (exC a) 1 0 = 0.457240 := by simp [ai, exC, aiConst]
    have : am (exC a) (moleX (exC a) (clipY (exC a).ns exCell.q.Y)) exCell.q.T = 0.457240 := by
      unfold am
      rw [hn, sum_range_one, sum_range_one, ← hn, exC_X]
      change 1 * 1 * Real.sqrt (ai (exC a) 1 0 * ai (exC a) 1 0) = _
      rw [hai, Real.sqrt_mul_self (by norm_num)]; norm_num
    unfold Astar
    rw [this]
    norm_num [exC, exCell]
  have hB : Bstar (exC a) (moleX (exC a) (clipY (exC a).ns exCell.q.Y)) exCell.q.p exCell.q.T = 0.0077796 := by
    have : bm (exC a) (moleX (exC a) (clipY (exC a).ns exCell.q.Y)) = 0.077796 := by
      unfold bm
      rw [hn, sum_range_one, ← hn, exC_X]
      norm_num [bi, biConst, exC]
    unfold Bstar
    rw [this]
    norm_num [exC, exCell]
  rw [hA, hB]
  have : solveZ 0.045724 0.0077796 ≠ none := by
    rw [ne_eq, solveZ_none]
    rintro ⟨-, h⟩
    revert h
    unfold cQ z1 z2
    norm_num
  exact Option.ne_none_iff_exists'.1 this

/-- all hypotheses of `C65_eos_partial` and `C66_roundtrip` are met -/
example : ∃ a c', (exC a).Ok ∧ exCell.q.Ok (exC a).ns ∧ 1 ≤ exCell.q.T ∧ cubicPrims (exC a) exCell = some c' ∧
    ∀ Z, let X := moleX (exC a) (clipY (exC a).ns exCell.q.Y)
      solveZ (Astar (exC a) X exCell.q.p exCell.q.T) (Bstar (exC a) X exCell.q.p exCell.q.T) = some Z →
      -cpC (exC a) X (localY (exC a).ns (clipY (exC a).ns exCell.q.Y)) exCell.q.p exCell.q.T Z + (exC a).Ru / MWmix (exC a) X *
        (Z * dZ (Astar (exC a) X exCell.q.p exCell.q.T) (Bstar (exC a) X exCell.q.p exCell.q.T)
          (dAdT (exC a) X exCell.q.p exCell.q.T) (dBdT (exC a) X exCell.q.p exCell.q.T) Z) ≠ 0 := by
  obtain ⟨Z0, hZ0⟩ := exC_solve 0
  set X0 := moleX (exC 0) (clipY (exC 0).ns exCell.q.Y) with hX0
  set D := -((exC 0).Ru * cpDep (exC 0) X0 exCell.q.p exCell.q.T Z0 / MWmix (exC 0) X0) + (exC 0).Ru / MWmix (exC 0) X0 *
        (Z0 * dZ (Astar (exC 0) X0 exCell.q.p exCell.q.T) (Bstar (exC 0) X0 exCell.q.p exCell.q.T)
          (dAdT (exC 0) X0 exCell.q.p exCell.q.T) (dBdT (exC 0) X0 exCell.q.p exCell.q.T) Z0) with hD
  have hcp : cpT (exC (D + 1)).toTh (localY (exC (D+1)).ns (clipY (exC (D+1)).ns exCell.q.Y)) exCell.q.T = D + 1 := by
    have hn : (exC (D+1)).toTh.ns = 1 := rfl
    have hm : nasaM (exC (D+1)).toTh 1 0 = 1 := by simp [nasaM, exC]
    have hY : localY 1 (clipY 1 exCell.q.Y) 0 = 1 := by simp [localY, testSum]
    unfold cpT
    rw [hn, sum_range_one, hY]
    change cps (exC (D+1)).toTh 1 0 * 1 = _
    unfold cps
    rw [hm]
    simp [exC]
  have hc : ∃ c', cubicPrims (exC (D+1)) exCell = some c' := by
    obtain ⟨Z, hZ⟩ := exC_solve (D+1)
    unfold cubicPrims
    simp only [hZ]
    exact ⟨_, rfl⟩
  obtain ⟨c', hc'⟩ := hc
  refine ⟨D + 1, c', exC_ok _, exCell_ok _, by norm_num [exCell], hc', ?_⟩
  intro Z X hZ
  have hZ' : Z = Z0 := by
    have : solveZ (Astar (exC 0) X0 exCell.q.p exCell.q.T) (Bstar (exC 0) X0 exCell.q.p exCell.q.T) = some Z := hZ
    rw [hZ0] at this
    exact (Option.some.inj this).symm
  subst hZ'
  unfold cpC
  rw [hcp]
  have : -((exC (D + 1)).Ru * cpDep (exC (D + 1)) X exCell.q.p exCell.q.T Z / MWmix (exC (D + 1)) X + (D + 1)) +
      (exC (D + 1)).Ru / MWmix (exC (D + 1)) X * (Z * dZ (Astar (exC (D + 1)) X exCell.q.p exCell.q.T)
        (Bstar (exC (D + 1)) X exCell.q.p exCell.q.T) (dAdT (exC (D + 1)) X exCell.q.p exCell.q.T)
        (dBdT (exC (D + 1)) X exCell.q.p exCell.q.T) Z) = D - (D + 1) := by
    have e : ∀ x y : ℝ, -(x + (D+1)) + y = (-x + y) - (D+1) := fun x y => by ring
    rw [e, hD]
    rfl
  rw [this]
  norm_num

end PG.Thermo
