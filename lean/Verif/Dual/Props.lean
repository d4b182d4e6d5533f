import Verif.Dual.LU
import Mathlib.Analysis.Calculus.Deriv.Mul
import Mathlib.Analysis.Calculus.Deriv.Inv
import Mathlib.Analysis.Calculus.Deriv.Add
import Mathlib.Analysis.Calculus.Deriv.Comp
import Mathlib.Analysis.Calculus.Deriv.Pow
import Mathlib.Algebra.BigOperators.Field
/-
C64 for the matrix the kernel builds; C70: that matrix is the Jacobian of the conserved by the primitive variables.
-/
noncomputable section
namespace PG.Dual
open Finset

variable (a : Cell)

/-- density row applied to a vector -/
def Cell.drow (Th : ℝ) (x : ℕ → ℝ) : ℝ :=
  Th * x 0 + a.rho_T * x 4 + ∑ n ∈ range (a.ns - 1), a.rho_Y n * x (5 + n)

theorem ne_eq (h : 1 ≤ a.ns) : a.ne = 5 + (a.ns - 1) := by unfold Cell.ne; omega

theorem sum5 (f : ℕ → ℝ) (k : ℕ) : ∑ q ∈ range (5 + k), f q = f 0 + f 1 + f 2 + f 3 + f 4 + ∑ n ∈ range k, f (5 + n) := by
  rw [Finset.sum_range_add]
  simp [Finset.sum_range_succ]

/-- rows of the matrix applied to a vector -/
theorem mat_rows (h : 1 ≤ a.ns) (Th : ℝ) (x : ℕ → ℝ) :
    mulVec a.ne (a.mat Th) x 0 = a.drow Th x ∧
    mulVec a.ne (a.mat Th) x 1 = a.u * a.drow Th x + a.rho * x 1 ∧
    mulVec a.ne (a.mat Th) x 2 = a.v * a.drow Th x + a.rho * x 2 ∧
    mulVec a.ne (a.mat Th) x 3 = a.w * a.drow Th x + a.rho * x 3 ∧
    mulVec a.ne (a.mat Th) x 4 = a.H * a.drow Th x + a.T * a.rho_T / a.rho * x 0
      + a.rho * (a.u * x 1 + a.v * x 2 + a.w * x 3) + a.rho * a.cp * x 4
      + a.rho * ∑ n ∈ range (a.ns - 1), (a.hi n - a.hi (a.ns - 1)) * x (5 + n) ∧
    ∀ n < a.ns - 1, mulVec a.ne (a.mat Th) x (5 + n) = a.Y n * a.drow Th x + a.rho * x (5 + n) := by
  unfold mulVec Cell.drow
  rw [ne_eq a h]
  simp only [sum5]
  have c : ∀ n, ¬ (5 + n = 0) ∧ ¬ (5 + n = 1) ∧ ¬ (5 + n = 2) ∧ ¬ (5 + n = 3) ∧ ¬ (5 + n = 4) := fun n => by omega
  have d : ∀ n, ¬ (0 = 5 + n) ∧ ¬ (1 = 5 + n) ∧ ¬ (2 = 5 + n) ∧ ¬ (3 = 5 + n) ∧ ¬ (4 = 5 + n) := fun n => by omega
  refine ⟨?_, ?_, ?_, ?_, ?_, ?_⟩
  · simp [Cell.mat, c, d]
  · simp [Cell.mat, c, d, mul_add, Finset.mul_sum]
    rw [show ∀ s t : ℝ, a.rho_T * a.u = a.u * a.rho_T from fun _ _ => mul_comm _ _]
    rw [Finset.sum_congr rfl fun n _ => show a.rho_Y n * a.u * x (5 + n) = a.u * (a.rho_Y n * x (5 + n)) by ring]
    ring
    all_goals exact 0
  · simp [Cell.mat, c, d, mul_add, Finset.mul_sum]
    rw [Finset.sum_congr rfl fun n _ => show a.rho_Y n * a.v * x (5 + n) = a.v * (a.rho_Y n * x (5 + n)) by ring]
    ring
  · simp [Cell.mat, c, d, mul_add, Finset.mul_sum]
    rw [Finset.sum_congr rfl fun n _ => show a.rho_Y n * a.w * x (5 + n) = a.w * (a.rho_Y n * x (5 + n)) by ring]
    ring
  · simp [Cell.mat, c, d]
    rw [Finset.sum_congr rfl fun n _ => show (a.H * a.rho_Y n + a.rho * (a.hi n - a.hi (a.ns - 1))) * x (5 + n)
      = a.H * (a.rho_Y n * x (5 + n)) + a.rho * ((a.hi n - a.hi (a.ns - 1)) * x (5 + n)) by ring]
    rw [Finset.sum_add_distrib, ← Finset.mul_sum, ← Finset.mul_sum]
    ring
  · intro n hn
    simp [Cell.mat, c]
    rw [Finset.sum_congr rfl fun m _ => show (a.Y n * a.rho_Y m + if n = m then a.rho else 0) * x (5 + m)
      = a.Y n * (a.rho_Y m * x (5 + m)) + (if n = m then a.rho * x (5 + m) else 0) by split <;> ring]
    rw [Finset.sum_add_distrib, ← Finset.mul_sum, Finset.sum_ite_eq, if_pos (Finset.mem_range.2 hn)]
    ring

/-- a physical ideal-gas cell: positive pressure, temperature, density, and cp above the gas constant p/(rho T) -/
structure Cell.Physical : Prop where
  ns : 1 ≤ a.ns
  p : 0 < a.p
  T : 0 < a.T
  rho : 0 < a.rho
  cp : a.p < a.rho * a.T * a.cp

theorem GdQ_mulVec (Ur dtau dt : ℝ) (x : ℕ → ℝ) (l : ℕ) :
    mulVec a.ne (a.GdQ Ur dtau dt) x l
      = mulVec a.ne (a.mat (a.theta0 Ur)) x l + 3 / 2 * dtau / dt * mulVec a.ne (a.mat a.rho_p) x l := by
  unfold mulVec Cell.GdQ
  rw [Finset.mul_sum, ← Finset.sum_add_distrib]
  exact Finset.sum_congr rfl fun q _ => by ring

/-- The preconditioned matrix of every physical cell is nonsingular, for any positive reference velocity and steps. -/
theorem GdQ_nonsingular (h : a.Physical) (Ur dtau dt : ℝ) (hU : Ur ≠ 0) (hd : 0 ≤ dtau) (ht : 0 < dt) :
    Nonsingular a.ne (a.GdQ Ur dtau dt) := by
  obtain ⟨hns, hp, hT, hr, hc⟩ := h
  intro x hx
  have hcp : 0 < a.cp := by
    by_contra hn
    have := mul_nonpos_of_nonneg_of_nonpos (mul_pos hr hT).le (not_lt.1 hn)
    linarith
  set k := 3 / 2 * dtau / dt with hk
  have hk0 : 0 ≤ k := by positivity
  obtain ⟨r0, r1, r2, r3, r4, r5⟩ := mat_rows a hns (a.theta0 Ur) x
  obtain ⟨s0, s1, s2, s3, s4, s5⟩ := mat_rows a hns a.rho_p x
  have hne := ne_eq a hns
  have g : ∀ l < a.ne, mulVec a.ne (a.mat (a.theta0 Ur)) x l + k * mulVec a.ne (a.mat a.rho_p) x l = 0 := by
    intro l hl; rw [← GdQ_mulVec]; exact hx l hl
  have g0 := g 0 (by omega)
  have g1 := g 1 (by omega)
  have g2 := g 2 (by omega)
  have g3 := g 3 (by omega)
  have g4 := g 4 (by omega)
  rw [r0, s0] at g0
  rw [r1, s1] at g1
  rw [r2, s2] at g2
  rw [r3, s3] at g3
  rw [r4, s4] at g4
  have h1k : a.rho * (1 + k) ≠ 0 := by positivity
  have x1 : x 1 = 0 := by
    have : a.rho * (1 + k) * x 1 = 0 := by linear_combination g1 - a.u * g0
    exact (mul_eq_zero.1 this).resolve_left h1k
  have x2 : x 2 = 0 := by
    have : a.rho * (1 + k) * x 2 = 0 := by linear_combination g2 - a.v * g0
    exact (mul_eq_zero.1 this).resolve_left h1k
  have x3 : x 3 = 0 := by
    have : a.rho * (1 + k) * x 3 = 0 := by linear_combination g3 - a.w * g0
    exact (mul_eq_zero.1 this).resolve_left h1k
  have xs : ∀ n < a.ns - 1, x (5 + n) = 0 := by
    intro n hn
    have g5 := g (5 + n) (by omega)
    rw [r5 n hn, s5 n hn] at g5
    have : a.rho * (1 + k) * x (5 + n) = 0 := by linear_combination g5 - a.Y n * g0
    exact (mul_eq_zero.1 this).resolve_left h1k
  have z1 : ∑ n ∈ range (a.ns - 1), (a.hi n - a.hi (a.ns - 1)) * x (5 + n) = 0 :=
    Finset.sum_eq_zero fun n hn => by rw [xs n (Finset.mem_range.1 hn), mul_zero]
  have z2 : ∑ n ∈ range (a.ns - 1), a.rho_Y n * x (5 + n) = 0 :=
    Finset.sum_eq_zero fun n hn => by rw [xs n (Finset.mem_range.1 hn), mul_zero]
  have dr : ∀ Th, a.drow Th x = Th * x 0 + a.rho_T * x 4 := by intro Th; unfold Cell.drow; rw [z2, add_zero]
  rw [z1, x1, x2, x3] at g4
  rw [dr, dr] at g0 g4
  have hrT : a.T * a.rho_T / a.rho = -1 := by unfold Cell.rho_T; field_simp
  rw [hrT] at g4
  have e1 : x 0 = a.rho * a.cp * x 4 := by
    have : (1 + k) * (a.rho * a.cp * x 4 - x 0) = 0 := by linear_combination g4 - a.H * g0
    have := (mul_eq_zero.1 this).resolve_left (by positivity)
    linarith
  have hth : a.theta0 Ur = 1 / Ur ^ 2 + 1 / (a.T * a.cp) := by
    unfold Cell.theta0 Cell.rho_T; field_simp; ring
  have e2 : (1 / Ur ^ 2 * a.rho * a.cp + k * ((a.rho * a.T * a.cp - a.p) * a.rho / (a.p * a.T))) * x 4 = 0 := by
    rw [e1, hth] at g0
    unfold Cell.rho_p Cell.rho_T at g0
    have c1 : (1 / Ur ^ 2 + 1 / (a.T * a.cp)) * (a.rho * a.cp * x 4) + -a.rho / a.T * x 4 = 1 / Ur ^ 2 * a.rho * a.cp * x 4 := by
      field_simp; ring
    have c2 : a.rho / a.p * (a.rho * a.cp * x 4) + -a.rho / a.T * x 4
        = (a.rho * a.T * a.cp - a.p) * a.rho / (a.p * a.T) * x 4 := by
      field_simp; ring
    rw [c1, c2] at g0
    linear_combination g0
  have x4 : x 4 = 0 := by
    refine (mul_eq_zero.1 e2).resolve_left ?_
    have hU2 : 0 < Ur ^ 2 := by positivity
    have p1 : 0 < 1 / Ur ^ 2 * a.rho * a.cp := by positivity
    have p2 : 0 < (a.rho * a.T * a.cp - a.p) * a.rho / (a.p * a.T) := by
      have : 0 < a.rho * a.T * a.cp - a.p := by linarith
      positivity
    have : 0 ≤ k * ((a.rho * a.T * a.cp - a.p) * a.rho / (a.p * a.T)) := mul_nonneg hk0 p2.le
    linarith
  have x0 : x 0 = 0 := by rw [e1, x4, mul_zero]
  intro q hq
  match q, hq with
  | 0, _ => exact x0
  | 1, _ => exact x1
  | 2, _ => exact x2
  | 3, _ => exact x3
  | 4, _ => exact x4
  | q + 5, hq =>
    rw [Nat.add_comm]
    exact xs q (by omega)

/-- C64 for the solver itself: on every physical ideal-gas cell the update dq returned in dQ satisfies
    (Γ + 3/2 (dtau/dt) dQ/dq) dq = dQ. -/
theorem C64_cell (h : a.Physical) (Ur dtau dt : ℝ) (hU : Ur ≠ 0) (hd : 0 ≤ dtau) (ht : 0 < dt) (dQ : ℕ → ℝ) :
    (∀ l < a.ne, mulVec a.ne (a.mat (a.theta0 Ur)) (a.invert Ur dtau dt dQ) l
      + 3 / 2 * dtau / dt * mulVec a.ne (a.mat a.rho_p) (a.invert Ur dtau dt dQ) l = dQ l) ∧
    ((∀ l < a.ne, a.invert Ur dtau dt dQ l = 0) ↔ ∀ l < a.ne, dQ l = 0) := by
  have hn := GdQ_nonsingular a h Ur dtau dt hU hd ht
  refine ⟨fun l hl => ?_, (C64_unique a.ne _ hn dQ).2⟩
  rw [← GdQ_mulVec]
  exact (C64_solve a.ne _ hn dQ).1 l hl

/-- C64: the reference velocity of the inviscid preconditioner is positive and at most the sound speed, so the theorem
    applies to every inviscid run. -/
theorem C64_refVel (U c : ℝ) (hc : 0 < c) (hU : 0 ≤ U) : 0 < refVel U c [] ∧ refVel U c [] ≤ c ∧
    (U < c → c / 100000 < U → refVel U c [] = U) := by
  unfold refVel
  simp only [List.foldl_nil]
  split
  · rename_i h
    refine ⟨by positivity, by linarith, fun _ h2 => by linarith⟩
  · split
    · rename_i h1 h2; exact ⟨lt_of_le_of_lt (by positivity) h2.1, h2.2.le, fun _ _ => rfl⟩
    · rename_i h1 h2
      refine ⟨hc, le_rfl, fun h3 h4 => absurd ⟨by linarith, h3⟩ h2⟩

/-- At exactly U = 1e-5 c neither of the first two branches applies and the reference velocity jumps to the sound speed, a
    factor 1e5 (dualTime.cpp:407-413 uses two strict comparisons). -/
theorem C64_refVel_jump_violated (c : ℝ) (hc : 0 < c) :
    refVel (c / 100000) c [] = c ∧ ∀ U, U < c / 100000 → refVel U c [] = c / 100000 := by
  unfold refVel
  constructor
  · simp only [List.foldl_nil]
    rw [if_neg (by linarith), if_neg (by intro h; linarith [h.1])]
  · intro U hU
    simp only [List.foldl_nil]
    rw [if_pos (by linarith)]; ring

/-! ### C70: Jacobian -/

/-- a mixture of ideal gases: per-species enthalpies h_n(T), molecular weights, gas constant -/
structure Gas where
  ns : ℕ
  Ru : ℝ
  MW : ℕ → ℝ
  hsp : ℕ → ℝ → ℝ
  cpsp : ℕ → ℝ → ℝ

/-- mass fractions of all species from the primitive vector (p,u,v,w,T,Y_0..Y_{ns-2}) -/
def Gas.Y (g : Gas) (q : ℕ → ℝ) (n : ℕ) : ℝ := if n = g.ns - 1 then 1 - ∑ m ∈ range (g.ns - 1), q (5 + m) else q (5 + n)
/-- 1/MWmix -/
def Gas.invMW (g : Gas) (q : ℕ → ℝ) : ℝ := ∑ n ∈ range g.ns, g.Y q n / g.MW n
/-- ideal gas density -/
def Gas.rho (g : Gas) (q : ℕ → ℝ) : ℝ := q 0 / (g.Ru * g.invMW q * q 4)
/-- mixture enthalpy and heat capacity -/
def Gas.h (g : Gas) (q : ℕ → ℝ) : ℝ := ∑ n ∈ range g.ns, g.Y q n * g.hsp n (q 4)
def Gas.cp (g : Gas) (q : ℕ → ℝ) : ℝ := ∑ n ∈ range g.ns, g.Y q n * g.cpsp n (q 4)
/-- conserved variables of a primitive vector: rho, rho u, rho v, rho w, rho E, rho Y_n -/
def Gas.Q (g : Gas) (q : ℕ → ℝ) (l : ℕ) : ℝ :=
  if l = 0 then g.rho q else if l = 1 then g.rho q * q 1 else if l = 2 then g.rho q * q 2 else if l = 3 then g.rho q * q 3
  else if l = 4 then g.rho q * (g.h q + (q 1 ^ 2 + q 2 ^ 2 + q 3 ^ 2) / 2) - q 0 else g.rho q * q l

/-- the cell the kernel sees for this primitive vector -/
def Gas.cell (g : Gas) (q : ℕ → ℝ) (c : ℝ) : Cell :=
  ⟨g.ns, q 0, q 1, q 2, q 3, q 4, fun n => q (5 + n), g.rho q, g.cp q, g.h q, c, fun n => g.hsp n (q 4), g.MW⟩

theorem sum_last {k : ℕ} (hk : 1 ≤ k) (f : ℕ → ℝ) : ∑ n ∈ range k, f n = (∑ n ∈ range (k - 1), f n) + f (k - 1) := by
  obtain ⟨j, rfl⟩ : ∃ j, k = j + 1 := ⟨k - 1, by omega⟩
  rw [Finset.sum_range_succ]; simp

theorem gas_sumY (g : Gas) (hns : 1 ≤ g.ns) (q : ℕ → ℝ) : ∑ n ∈ range g.ns, g.Y q n = 1 := by
  rw [sum_last hns]
  have : ∀ n ∈ range (g.ns - 1), g.Y q n = q (5 + n) := fun n hn => by
    unfold Gas.Y; rw [if_neg (by have := Finset.mem_range.1 hn; omega)]
  rw [Finset.sum_congr rfl this]
  unfold Gas.Y; rw [if_pos rfl]; ring

theorem cell_MWmix (g : Gas) (hns : 1 ≤ g.ns) (hMW : ∀ n < g.ns, 0 < g.MW n) (q : ℕ → ℝ) (c : ℝ) :
    (g.cell q c).MWmix = 1 / g.invMW q := by
  have hd : (g.cell q c).denom = g.invMW q := by
    unfold Cell.denom Gas.invMW
    rw [sum_last hns]; rfl
  have hY : ∀ n, (g.cell q c).fullY n = g.Y q n := fun n => rfl
  unfold Cell.MWmix
  rw [hd]
  have : ∀ n ∈ range g.ns, (g.cell q c).MW n * ((g.cell q c).fullY n / (g.cell q c).MW n / g.invMW q) = g.Y q n / g.invMW q := by
    intro n hn
    have := (hMW n (Finset.mem_range.1 hn)).ne'
    rw [hY]
    change g.MW n * (g.Y q n / g.MW n / g.invMW q) = _
    rw [div_div, mul_div_assoc', mul_div_mul_left _ _ this]
  change ∑ n ∈ range g.ns, _ = _
  rw [Finset.sum_congr rfl this, ← Finset.sum_div, gas_sumY g hns q]

/-- Kronecker delta -/
def del (m k : ℕ) : ℝ := if m = k then 1 else 0

theorem coord (q : ℕ → ℝ) (m k : ℕ) : HasDerivAt (fun t => Function.update q m t k) (del m k) (q m) := by
  unfold del
  by_cases h : m = k
  · subst h
    simp only [Function.update_self, if_true]
    exact hasDerivAt_id _
  · simp only [h, if_false]
    have : (fun t : ℝ => Function.update q m t k) = fun _ => q k := by
      funext t; rw [Function.update_of_ne (Ne.symm h)]
    rw [this]; exact hasDerivAt_const _ _

/-- derivative of the mass fractions -/
def dY (ns m n : ℕ) : ℝ := if n = ns - 1 then -∑ j ∈ range (ns - 1), del m (5 + j) else del m (5 + n)

theorem dY_spec (g : Gas) (q : ℕ → ℝ) (m n : ℕ) : HasDerivAt (fun t => g.Y (Function.update q m t) n) (dY g.ns m n) (q m) := by
  unfold Gas.Y dY
  by_cases h : n = g.ns - 1
  · simp only [h, if_true]
    have := (HasDerivAt.fun_sum (u := range (g.ns - 1)) (fun j _ => coord q m (5 + j))).const_sub 1
    exact this
  · simp only [h, if_false]
    exact coord q m (5 + n)

/-- sums weighted by the derivatives of the mass fractions -/
theorem dY_sum (ns : ℕ) (hns : 1 ≤ ns) (m : ℕ) (f : ℕ → ℝ) :
    ∑ n ∈ range ns, dY ns m n * f n = if 5 ≤ m ∧ m < 5 + (ns - 1) then f (m - 5) - f (ns - 1) else 0 := by
  have hdel : ∀ g : ℕ → ℝ, ∑ j ∈ range (ns - 1), del m (5 + j) * g j = if 5 ≤ m ∧ m < 5 + (ns - 1) then g (m - 5) else 0 := by
    intro g
    split
    · rename_i h
      rw [Finset.sum_eq_single (m - 5)]
      · unfold del; rw [if_pos (by omega), one_mul]
      · intro j _ hj; unfold del; rw [if_neg (by omega), zero_mul]
      · intro hj; exact absurd (Finset.mem_range.2 (by omega)) hj
    · rename_i h
      apply Finset.sum_eq_zero
      intro j hj
      have := Finset.mem_range.1 hj
      unfold del; rw [if_neg (by omega), zero_mul]
  rw [sum_last hns]
  have h1 : ∀ n ∈ range (ns - 1), dY ns m n * f n = del m (5 + n) * f n := fun n hn => by
    unfold dY; rw [if_neg (by have := Finset.mem_range.1 hn; omega)]
  rw [Finset.sum_congr rfl h1, hdel]
  have h2 : dY ns m (ns - 1) = -(if 5 ≤ m ∧ m < 5 + (ns - 1) then 1 else 0) := by
    unfold dY
    rw [if_pos rfl]
    have := hdel (fun _ => 1)
    simp only [mul_one] at this
    rw [this]
  rw [h2]
  split <;> ring

/-- derivative of the density -/
def drho (g : Gas) (q : ℕ → ℝ) (c : ℝ) (m : ℕ) : ℝ :=
  if m = 0 then (g.cell q c).rho_p else if m < 4 then 0 else if m = 4 then (g.cell q c).rho_T else (g.cell q c).rho_Y (m - 5)

/-- derivative of the enthalpy -/
def dh (g : Gas) (q : ℕ → ℝ) (m : ℕ) : ℝ :=
  if m < 4 then 0 else if m = 4 then g.cp q else g.hsp (m - 5) (q 4) - g.hsp (g.ns - 1) (q 4)

/-- physical primitive vector of the mixture -/
structure Gas.Ok (g : Gas) (q : ℕ → ℝ) : Prop where
  ns : 1 ≤ g.ns
  Ru : 0 < g.Ru
  MW : ∀ n < g.ns, 0 < g.MW n
  p : 0 < q 0
  T : 0 < q 4
  mix : 0 < g.invMW q
  cp : ∀ n < g.ns, HasDerivAt (g.hsp n) (g.cpsp n (q 4)) (q 4)

theorem upd (q : ℕ → ℝ) (m : ℕ) : Function.update q m (q m) = q := Function.update_eq_self m q

theorem drho_spec (g : Gas) (q : ℕ → ℝ) (c : ℝ) (h : g.Ok q) (m : ℕ) (hm : m < 5 + (g.ns - 1)) :
    HasDerivAt (fun t => g.rho (Function.update q m t)) (drho g q c m) (q m) := by
  have hi : HasDerivAt (fun t => g.invMW (Function.update q m t)) (∑ n ∈ range g.ns, dY g.ns m n / g.MW n) (q m) :=
    HasDerivAt.fun_sum (u := range g.ns) (fun n _ => (dY_spec g q m n).div_const _)
  have hs : ∑ n ∈ range g.ns, dY g.ns m n / g.MW n
      = if 5 ≤ m ∧ m < 5 + (g.ns - 1) then 1 / g.MW (m - 5) - 1 / g.MW (g.ns - 1) else 0 := by
    rw [← dY_sum g.ns h.ns m (fun n => 1 / g.MW n)]
    exact Finset.sum_congr rfl fun n _ => by ring
  rw [hs] at hi
  have hne : g.Ru * g.invMW (Function.update q m (q m)) * Function.update q m (q m) 4 ≠ 0 := by
    rw [upd]; exact (mul_pos (mul_pos h.Ru h.mix) h.T).ne'
  have key := (coord q m 0).fun_div ((hi.const_mul g.Ru).fun_mul (coord q m 4)) hne
  simp only [upd] at key
  unfold Gas.rho
  refine key.congr_deriv ?_
  have h1 := h.p.ne'
  have h2 := h.T.ne'
  have h3 := h.Ru.ne'
  have h4 := h.mix.ne'
  unfold drho Cell.rho_p Cell.rho_T Cell.rho_Y del
  rw [cell_MWmix g h.ns h.MW]
  simp only [Gas.cell]
  unfold Gas.rho
  by_cases m0 : m = 0
  · subst m0; simp; field_simp
  · by_cases m4 : m < 4
    · have a1 : ¬ m = 4 := by omega
      have a2 : ¬ (5 ≤ m ∧ m < 5 + (g.ns - 1)) := by omega
      simp [m0, m4, a1, a2]
    · by_cases m4' : m = 4
      · subst m4'; simp; field_simp
      · have a2 : 5 ≤ m ∧ m < 5 + (g.ns - 1) := by omega
        simp only [m0, m4, m4', a2, if_true, if_false, and_self]
        generalize 1 / g.MW (m - 5) - 1 / g.MW (g.ns - 1) = d
        field_simp
        ring

theorem dh_spec (g : Gas) (q : ℕ → ℝ) (h : g.Ok q) (m : ℕ) (hm : m < 5 + (g.ns - 1)) :
    HasDerivAt (fun t => g.h (Function.update q m t)) (dh g q m) (q m) := by
  have hT : ∀ n < g.ns, HasDerivAt (fun t => g.hsp n (Function.update q m t 4)) (g.cpsp n (q 4) * del m 4) (q m) := by
    intro n hn
    have h1 : HasDerivAt (g.hsp n) (g.cpsp n (q 4)) (Function.update q m (q m) 4) := by rw [upd]; exact h.cp n hn
    exact h1.comp (q m) (coord q m 4)
  have hs : HasDerivAt (fun t => g.h (Function.update q m t))
      (∑ n ∈ range g.ns, (dY g.ns m n * g.hsp n (q 4) + g.Y q n * (g.cpsp n (q 4) * del m 4))) (q m) := by
    unfold Gas.h
    refine HasDerivAt.fun_sum (u := range g.ns) (fun n hn => ?_)
    have := (dY_spec g q m n).fun_mul (hT n (Finset.mem_range.1 hn))
    simp only [upd] at this
    exact this
  refine hs.congr_deriv ?_
  rw [Finset.sum_add_distrib, dY_sum g.ns h.ns m (fun n => g.hsp n (q 4))]
  unfold dh del Gas.cp
  by_cases m4 : m < 4
  · have a1 : ¬ m = 4 := by omega
    have a2 : ¬ (5 ≤ m ∧ m < 5 + (g.ns - 1)) := by omega
    simp [m4, a1, a2]
  · by_cases m4' : m = 4
    · subst m4'; simp
    · have a2 : 5 ≤ m ∧ m < 5 + (g.ns - 1) := by omega
      simp [m4, m4', a2]

/-- C70: the matrix the kernel uses for dQ/dq (Theta = rho_p) is the Jacobian of the conserved with respect to the primitive
    variables of an ideal-gas mixture: every entry is the derivative of one conserved variable along one primitive. -/
theorem C70_jacobian (g : Gas) (q : ℕ → ℝ) (c : ℝ) (h : g.Ok q) (l m : ℕ) (hl : l < 5 + (g.ns - 1)) (hm : m < 5 + (g.ns - 1)) :
    HasDerivAt (fun t => g.Q (Function.update q m t) l) ((g.cell q c).mat (g.cell q c).rho_p l m) (q m) := by
  have hr := drho_spec g q c h m hm
  have hh := dh_spec g q h m hm
  have cellu : (g.cell q c).u = q 1 ∧ (g.cell q c).v = q 2 ∧ (g.cell q c).w = q 3 ∧ (g.cell q c).rho = g.rho q ∧
    (g.cell q c).T = q 4 ∧ (g.cell q c).cp = g.cp q ∧ (∀ n, (g.cell q c).Y n = q (5 + n)) ∧
    (g.cell q c).H = g.h q + 0.5 * (q 1 ^ 2 + q 2 ^ 2 + q 3 ^ 2) ∧ (∀ n, (g.cell q c).hi n = g.hsp n (q 4)) ∧
    (g.cell q c).ns = g.ns := ⟨rfl, rfl, rfl, rfl, rfl, rfl, fun _ => rfl, rfl, fun _ => rfl, rfl⟩
  obtain ⟨cu, cv, cw, cr, cT, ccp, cY, cH, chi, cns⟩ := cellu
  have hrho : g.rho q ≠ 0 := by
    unfold Gas.rho
    exact (div_pos h.p (mul_pos (mul_pos h.Ru h.mix) h.T)).ne'
  have hTr : q 4 * (g.cell q c).rho_T / g.rho q = -1 := by
    have := h.T.ne'
    unfold Cell.rho_T; rw [cr, cT]; field_simp
  have prod : ∀ k, HasDerivAt (fun t => g.rho (Function.update q m t) * Function.update q m t k)
      (drho g q c m * q k + g.rho q * del m k) (q m) := by
    intro k
    have := hr.fun_mul (coord q m k)
    simp only [upd] at this
    exact this
  have hE : HasDerivAt (fun t => g.rho (Function.update q m t) * (g.h (Function.update q m t)
      + (Function.update q m t 1 ^ 2 + Function.update q m t 2 ^ 2 + Function.update q m t 3 ^ 2) / 2) - Function.update q m t 0)
      (drho g q c m * (g.h q + (q 1 ^ 2 + q 2 ^ 2 + q 3 ^ 2) / 2)
        + g.rho q * (dh g q m + (q 1 * del m 1 + q 2 * del m 2 + q 3 * del m 3)) - del m 0) (q m) := by
    have k2 := (((coord q m 1).fun_pow 2).fun_add ((coord q m 2).fun_pow 2)).fun_add ((coord q m 3).fun_pow 2)
    have := (hr.fun_mul (hh.fun_add (k2.div_const 2))).fun_sub (coord q m 0)
    simp only [upd] at this
    refine this.congr_deriv ?_
    simp only [Nat.cast_ofNat, Nat.add_one_sub_one, pow_one]; ring
  have split4 : ∀ k : ℕ, k = 0 ∨ k = 1 ∨ k = 2 ∨ k = 3 ∨ k = 4 ∨ ∃ j, k = 5 + j := by
    intro k
    rcases Nat.lt_or_ge k 5 with h | h
    · omega
    · right; right; right; right; right; exact ⟨k - 5, by omega⟩
  have d1 : ∀ j, ¬ (5 + j = 0) ∧ ¬ (5 + j = 1) ∧ ¬ (5 + j = 2) ∧ ¬ (5 + j = 3) ∧ ¬ (5 + j = 4) ∧ ¬ (5 + j < 4) := fun n => by omega
  have d2 : ∀ n, ¬ (0 = 5 + n) ∧ ¬ (1 = 5 + n) ∧ ¬ (2 = 5 + n) ∧ ¬ (3 = 5 + n) ∧ ¬ (4 = 5 + n) := fun n => by omega
  unfold Gas.Q
  rcases split4 l with rfl | rfl | rfl | rfl | rfl | ⟨i, rfl⟩
  · simp only [if_true]
    refine hr.congr_deriv ?_
    rcases split4 m with rfl | rfl | rfl | rfl | rfl | ⟨j, rfl⟩ <;> simp [drho, Cell.mat, d1, d2]
  · refine (prod 1).congr_deriv ?_
    rcases split4 m with rfl | rfl | rfl | rfl | rfl | ⟨j, rfl⟩ <;> simp [drho, Cell.mat, del, d1, d2, cu, cr]
  · refine (prod 2).congr_deriv ?_
    rcases split4 m with rfl | rfl | rfl | rfl | rfl | ⟨j, rfl⟩ <;> simp [drho, Cell.mat, del, d1, d2, cv, cr]
  · refine (prod 3).congr_deriv ?_
    rcases split4 m with rfl | rfl | rfl | rfl | rfl | ⟨j, rfl⟩ <;> simp [drho, Cell.mat, del, d1, d2, cw, cr]
  · refine hE.congr_deriv ?_
    rcases split4 m with rfl | rfl | rfl | rfl | rfl | ⟨j, rfl⟩ <;>
      simp [drho, dh, Cell.mat, del, d1, d2, cu, cv, cw, cr, cH, cT, ccp, chi, cns, hTr, -mul_eq_mul_right_iff, -mul_eq_mul_left_iff] <;> ring
  · simp only [d1, if_false]
    refine (prod (5 + i)).congr_deriv ?_
    rcases split4 m with rfl | rfl | rfl | rfl | rfl | ⟨j, rfl⟩ <;> simp [drho, Cell.mat, del, d1, d2, cr, cY] <;>
      (try ring)
    by_cases hij : i = j
    · subst hij; simp
    · simp [hij, Ne.symm hij]

/-- a two-species mixture meets the hypotheses -/
example : (⟨2, 8, fun _ => 2, fun n T => (n + 20) * T, fun n _ => n + 20⟩ : Gas).Ok
    (fun k => if k = 0 then 100 else if k = 4 then 300 else if k = 5 then 1/4 else 1) := by
  refine ⟨by norm_num, by norm_num, fun n _ => by norm_num, by norm_num, by norm_num, ?_, ?_⟩
  · norm_num [Gas.invMW, Gas.Y, Finset.sum_range_succ]
  · intro n _
    simpa using (hasDerivAt_id (300:ℝ)).const_mul ((n:ℝ) + 20)

/-- a physical cell -/
example : Cell.Physical ⟨2, 100, 1, 2, 3, 300, fun _ => 1/4, 1, 20, 6000, 340, fun _ => 1, fun _ => 2⟩ :=
  ⟨by norm_num, by norm_num, by norm_num, by norm_num, by norm_num⟩

end PG.Dual
