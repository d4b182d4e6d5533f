import Verif.Base.Vec
import Mathlib.Algebra.Order.Floor.Ring
import Mathlib.Algebra.BigOperators.Fin
import Mathlib.Data.Int.ModEq
import Mathlib.Tactic.Positivity
/-!
C75: the time-dependent inlet `cubicSplineSubsonicInlet` (inlets.cpp:83-155) and its preparation
(bcs/prepInlets.py:37-84), and the replication of profiles into the face's halo (prepInlets.py:11-23).
-/
noncomputable section
namespace PG.BC
open V3 Finset

/-- `static_cast<int>` of a double: truncation toward zero (ints unbounded in the model) -/
def truncInt (r : ℝ) : ℤ := if 0 ≤ r then ⌊r⌋ else ⌈r⌉

/-- Position on a face. -/
abbrev FPos := ℤ × ℤ

/-- the parts of `face_` the spline inlet uses (face_.hpp:34-38): `cubicSplineAlphas(k, interval, i, j, 0..2)` with its extent
    in the interval direction, `intervalAlphas(k, i, j, 0..2)` with its extents, `currentInterval` (initially -1),
    `intervalDt` and the velocity part of `qBcVals` -/
structure SplineFace where
  alphas : Fin 4 → ℤ → FPos → V3
  total : ℕ
  ext : ℤ × ℤ
  dt : ℝ
  current : ℤ
  ivAlphas : Fin 4 → FPos → V3
  vel : FPos → V3

/-- inlets.cpp:91-93: `static_cast<int>(std::floor(tme / face.intervalDt)) % totalIntervals` (C++ remainder) -/
def currentInterval (S : SplineFace) (t : ℝ) : ℤ := Int.tmod ⌊t / S.dt⌋ S.total

/-- inlets.cpp:96-107: load the coefficients when the interval changed -/
def loadInterval (S : SplineFace) (t : ℝ) : SplineFace :=
  if currentInterval S t ≠ S.current then
    { S with current := currentInterval S t, ivAlphas := fun k p => S.alphas k (currentInterval S t) p }
  else S

/-- inlets.cpp:112-119: interpTime and intervalTime -/
def intervalTime (S : SplineFace) (t : ℝ) : ℝ :=
  let interpTime := t - ((truncInt (t / S.dt / S.total) * S.total : ℤ) : ℝ) * S.dt
  interpTime - S.dt * (S.current : ℝ)

/-- inlets.cpp:109-110: range of the kernel; note the `- 1` -/
def inSplineRange (S : SplineFace) (p : FPos) : Prop := 0 ≤ p.1 ∧ p.1 < S.ext.1 - 1 ∧ 0 ≤ p.2 ∧ p.2 < S.ext.2 - 1

/-- the accumulation loop of inlets.cpp:138-148 -/
def splineSum (a : Fin 4 → V3) (tau : ℝ) : V3 :=
  (List.finRange 4).foldl (fun acc (k : Fin 4) => acc + smul (tau ^ (3 - (k : ℕ))) (a k)) 0

/-- one "euler" call at time `t`, inlets.cpp:83-150 (before delegating to constantVelocitySubsonicInlet) -/
def splineStep (S : SplineFace) (t : ℝ) : SplineFace :=
  let S1 := loadInterval S t
  let tau := intervalTime S1 t
  open Classical in
  { S1 with vel := fun p => if inSplineRange S1 p then splineSum (fun k => S1.ivAlphas k p) tau else S1.vel p }

/-! ### specification -/

/-- The prescribed velocity at time `t`: with frames `0, 1, 2, …` at multiples of `dt` and the record of `N` intervals
    repeated forever, find the frame `m` with `m dt ≤ t < (m+1) dt` and evaluate that interval's cubic at `t - m dt`. -/
def IsSplineValue (alphas : Fin 4 → ℤ → FPos → V3) (N : ℕ) (dt t : ℝ) (p : FPos) (v : V3) : Prop :=
  ∃ m : ℕ, (m : ℝ) * dt ≤ t ∧ t < (m + 1) * dt ∧
    let a := fun k => alphas k ((m % N : ℕ) : ℤ) p
    let tau := t - m * dt
    v = smul (tau ^ 3) (a 0) + smul (tau ^ 2) (a 1) + smul tau (a 2) + a 3

/-! ### lemmas -/

theorem splineSum_eq (a : Fin 4 → V3) (tau : ℝ) :
    splineSum a tau = smul (tau ^ 3) (a 0) + smul (tau ^ 2) (a 1) + smul tau (a 2) + a 3 := by
  have h : List.finRange 4 = [0, 1, 2, 3] := by decide
  unfold splineSum
  rw [h]
  simp only [List.foldl_cons, List.foldl_nil]
  ext <;> simp

/-- invariant: the loaded coefficients are those of the recorded interval -/
def Loaded (S : SplineFace) : Prop := S.current = -1 ∨ ∀ k p, S.ivAlphas k p = S.alphas k S.current p

theorem frame_nat {t dt : ℝ} (ht : 0 ≤ t) (hd : 0 < dt) :
    ∃ m : ℕ, ⌊t / dt⌋ = (m : ℤ) ∧ (m : ℝ) * dt ≤ t ∧ t < (m + 1) * dt := by
  have h0 : 0 ≤ t / dt := div_nonneg ht hd.le
  refine ⟨⌊t / dt⌋.toNat, ?_, ?_, ?_⟩
  · rw [Int.toNat_of_nonneg (Int.floor_nonneg.2 h0)]
  · have h1 := Int.floor_le (t / dt)
    rw [le_div_iff₀ hd] at h1
    have : ((⌊t / dt⌋.toNat : ℤ) : ℝ) = (⌊t / dt⌋ : ℝ) := by rw [Int.toNat_of_nonneg (Int.floor_nonneg.2 h0)]
    rw [← this] at h1; exact_mod_cast h1
  · have h1 := Int.lt_floor_add_one (t / dt)
    rw [div_lt_iff₀ hd] at h1
    have : ((⌊t / dt⌋.toNat : ℤ) : ℝ) = (⌊t / dt⌋ : ℝ) := by rw [Int.toNat_of_nonneg (Int.floor_nonneg.2 h0)]
    rw [← this] at h1; exact_mod_cast h1

theorem trunc_div {t dt : ℝ} (ht : 0 ≤ t) (hd : 0 < dt) {N : ℕ} (hN : 0 < N) {m : ℕ} (hm : ⌊t / dt⌋ = (m : ℤ)) :
    truncInt (t / dt / N) = (m / N : ℕ) := by
  unfold truncInt
  rw [if_pos (by positivity)]
  have := Int.floor_div_natCast (t / dt) N
  rw [this, hm]; rfl

theorem current_eq (S : SplineFace) {t : ℝ} {m : ℕ} (hm : ⌊t / S.dt⌋ = (m : ℤ)) :
    currentInterval S t = ((m % S.total : ℕ) : ℤ) := by
  unfold currentInterval; rw [hm, Int.tmod_eq_emod_of_nonneg (by positivity)]; simp

theorem load_current (S : SplineFace) (t : ℝ) : (loadInterval S t).current = currentInterval S t := by
  unfold loadInterval; split
  · rfl
  · next h => exact (not_not.1 h).symm

theorem load_same (S : SplineFace) (t : ℝ) : (loadInterval S t).alphas = S.alphas ∧ (loadInterval S t).total = S.total ∧
    (loadInterval S t).ext = S.ext ∧ (loadInterval S t).dt = S.dt ∧ (loadInterval S t).vel = S.vel := by
  unfold loadInterval; split <;> simp

theorem load_loaded (S : SplineFace) {t : ℝ} (hl : Loaded S) (h : currentInterval S t ≠ -1) (k : Fin 4) (p : FPos) :
    (loadInterval S t).ivAlphas k p = S.alphas k (currentInterval S t) p := by
  unfold loadInterval; split
  · rfl
  · next hn =>
    have e := not_not.1 hn
    rcases hl with hl | hl
    · exact absurd (e.trans hl) h
    · rw [hl k p, e]

theorem step_same (S : SplineFace) (t : ℝ) : (splineStep S t).alphas = S.alphas ∧ (splineStep S t).total = S.total ∧
    (splineStep S t).ext = S.ext ∧ (splineStep S t).dt = S.dt := by
  obtain ⟨h1, h2, h3, h4, -⟩ := load_same S t
  exact ⟨h1, h2, h3, h4⟩

theorem step_loaded (S : SplineFace) {t : ℝ} (ht : 0 ≤ t) (hd : 0 < S.dt) (hl : Loaded S) : Loaded (splineStep S t) := by
  right
  intro k p
  show (loadInterval S t).ivAlphas k p = (loadInterval S t).alphas k (loadInterval S t).current p
  obtain ⟨m, hm, -⟩ := frame_nat ht hd
  have hne : currentInterval S t ≠ -1 := by rw [current_eq S hm]; omega
  rw [load_loaded S hl hne, load_current, (load_same S t).1]

/-- the face after a history of calls -/
def splineRun (S : SplineFace) (ts : List ℝ) : SplineFace := ts.foldl splineStep S

theorem run_inv (S : SplineFace) (hd : 0 < S.dt) (hl : Loaded S) (ts : List ℝ) (hts : ∀ t ∈ ts, 0 ≤ t) :
    Loaded (splineRun S ts) ∧ (splineRun S ts).alphas = S.alphas ∧ (splineRun S ts).total = S.total ∧
    (splineRun S ts).ext = S.ext ∧ (splineRun S ts).dt = S.dt := by
  induction ts generalizing S with
  | nil => exact ⟨hl, rfl, rfl, rfl, rfl⟩
  | cons t ts ih =>
    obtain ⟨s1, s2, s3, s4⟩ := step_same S t
    have := ih (splineStep S t) (by rw [s4]; exact hd) (step_loaded S (hts t (by simp)) hd hl)
      (fun x hx => hts x (by simp [hx]))
    rw [s1, s2, s3, s4] at this
    exact this

/-- C75: after any history of boundary evaluations at nonnegative times (stages may go back and forth in time), starting from
    the freshly prepared face, an evaluation at time `t` prescribes on every face position except the last row and column of
    the halo the value of the periodically repeated piecewise cubic at time `t`. -/
theorem C75_spline_partial (S : SplineFace) (hfresh : S.current = -1) (hd : 0 < S.dt) (hN : 0 < S.total) (ts : List ℝ)
    (hts : ∀ t ∈ ts, 0 ≤ t) (t : ℝ) (ht : 0 ≤ t) (p : FPos) (hp : 0 ≤ p.1 ∧ p.1 < S.ext.1 - 1 ∧ 0 ≤ p.2 ∧ p.2 < S.ext.2 - 1) :
    IsSplineValue S.alphas S.total S.dt t p ((splineRun S (ts ++ [t])).vel p) := by
  have hrun : splineRun S (ts ++ [t]) = splineStep (splineRun S ts) t := by simp [splineRun]
  rw [hrun]
  obtain ⟨hl, h1, h2, h3, h4⟩ := run_inv S hd (Or.inl hfresh) ts hts
  set R := splineRun S ts
  clear_value R
  obtain ⟨m, hm, hm1, hm2⟩ := frame_nat ht (show 0 < S.dt from hd)
  rw [← h4] at hm
  have hcur := current_eq R hm
  have hne : currentInterval R t ≠ -1 := by rw [hcur]; omega
  obtain ⟨l1, l2, l3, l4, l5⟩ := load_same R t
  have hin : inSplineRange (loadInterval R t) p := by unfold inSplineRange; rw [l3, h3]; exact hp
  refine ⟨m, hm1, hm2, ?_⟩
  simp only [splineStep]
  rw [if_pos hin, splineSum_eq]
  have htau : intervalTime (loadInterval R t) t = t - m * S.dt := by
    unfold intervalTime
    rw [l2, l4, load_current, hcur, trunc_div ht (by rw [h4]; exact hd) (by rw [h2]; exact hN) hm, h2, h4]
    have : (m : ℝ) = ((m / S.total : ℕ) : ℝ) * S.total + ((m % S.total : ℕ) : ℝ) := by
      have := Nat.div_add_mod' m S.total
      exact_mod_cast this.symm
    simp only [Int.cast_mul, Int.cast_natCast]
    linear_combination S.dt * this
  rw [htau]
  have ha : ∀ k, (loadInterval R t).ivAlphas k p = S.alphas k ((m % S.total : ℕ) : ℤ) p := by
    intro k; rw [load_loaded R hl hne, hcur, h1, h2]
  simp only [ha]

/-- the specification determines the value -/
theorem IsSplineValue.unique {al : Fin 4 → ℤ → FPos → V3} {N : ℕ} {dt t : ℝ} (hd : 0 < dt) {p : FPos} {v w : V3}
    (hv : IsSplineValue al N dt t p v) (hw : IsSplineValue al N dt t p w) : v = w := by
  obtain ⟨m, a1, a2, a3⟩ := hv
  obtain ⟨k, b1, b2, b3⟩ := hw
  have h1 : (m : ℝ) < k + 1 := by
    by_contra h; push Not at h
    have := mul_le_mul_of_nonneg_right h hd.le
    linarith
  have h2 : (k : ℝ) < m + 1 := by
    by_contra h; push Not at h
    have := mul_le_mul_of_nonneg_right h hd.le
    linarith
  have h1' : m < k + 1 := by exact_mod_cast h1
  have h2' : k < m + 1 := by exact_mod_cast h2
  have : m = k := by omega
  subst this
  rw [a3, b3]

/-- C75: the inlet repeats with period `N dt`: two runs whose last evaluations are a whole number of periods apart prescribe
    the same velocities. -/
theorem C75_periodic (S : SplineFace) (hfresh : S.current = -1) (hd : 0 < S.dt) (hN : 0 < S.total) (ts ts' : List ℝ)
    (hts : ∀ t ∈ ts, 0 ≤ t) (hts' : ∀ t ∈ ts', 0 ≤ t) (t : ℝ) (ht : 0 ≤ t) (r : ℕ) (p : FPos)
    (hp : 0 ≤ p.1 ∧ p.1 < S.ext.1 - 1 ∧ 0 ≤ p.2 ∧ p.2 < S.ext.2 - 1) :
    (splineRun S (ts' ++ [t + r * (S.total * S.dt)])).vel p = (splineRun S (ts ++ [t])).vel p := by
  have h1 := C75_spline_partial S hfresh hd hN ts hts t ht p hp
  have h2 := C75_spline_partial S hfresh hd hN ts' hts' (t + r * (S.total * S.dt)) (by positivity) p hp
  obtain ⟨m, a1, a2, a3⟩ := h1
  refine IsSplineValue.unique hd h2 ⟨m + r * S.total, ?_, ?_, ?_⟩
  · push_cast; nlinarith
  · push_cast; nlinarith
  · rw [a3]
    have e1 : (m + r * S.total) % S.total = m % S.total := by simp
    have e2 : t + r * (S.total * S.dt) - ((m + r * S.total : ℕ) : ℝ) * S.dt = t - m * S.dt := by push_cast; ring
    simp only [e1, e2]

/-- C75: at frame times the prescribed velocity is the frame's own value (the constant coefficient). -/
theorem C75_frame (S : SplineFace) (hfresh : S.current = -1) (hd : 0 < S.dt) (hN : 0 < S.total) (ts : List ℝ)
    (hts : ∀ t ∈ ts, 0 ≤ t) (m : ℕ) (p : FPos) (hp : 0 ≤ p.1 ∧ p.1 < S.ext.1 - 1 ∧ 0 ≤ p.2 ∧ p.2 < S.ext.2 - 1) :
    (splineRun S (ts ++ [m * S.dt])).vel p = S.alphas 3 ((m % S.total : ℕ) : ℤ) p := by
  have h := C75_spline_partial S hfresh hd hN ts hts (m * S.dt) (by positivity) p hp
  refine IsSplineValue.unique hd h ⟨m, le_refl _, by nlinarith, ?_⟩
  simp only [sub_self]
  ext <;> simp

/-- C75 fails on the outermost row and column of the face's halo: the kernel stops one short in each direction
    (inlets.cpp:109-110) and the velocities there keep their initial value for every history. -/
theorem C75_last_row_violated (S : SplineFace) (ts : List ℝ) (p : FPos) (hp : p.1 = S.ext.1 - 1 ∨ p.2 = S.ext.2 - 1) :
    (splineRun S ts).vel p = S.vel p := by
  induction ts generalizing S with
  | nil => rfl
  | cons t ts ih =>
    show (splineRun (splineStep S t) ts).vel p = _
    rw [ih (splineStep S t) (by rw [(step_same S t).2.2.1]; exact hp)]
    simp only [splineStep]
    have : ¬ inSplineRange (loadInterval S t) p := by
      unfold inSplineRange; rw [(load_same S t).2.2.1]; rintro ⟨-, h1, -, h2⟩; omega
    rw [if_neg this, (load_same S t).2.2.2.2]

/-- non-vacuity: a face with two intervals of half a second, evaluated at 0.7, 0.2 and then 1.25 s -/
example : ∃ S : SplineFace, S.current = -1 ∧ 0 < S.dt ∧ 0 < S.total ∧ (∀ t ∈ [(0.7:ℝ), 0.2], 0 ≤ t) ∧
    (splineRun S ([0.7, 0.2] ++ [1.25])).vel (2, 2) = ⟨0.25 ^ 3 + 5, 0, 0⟩ := by
  let S : SplineFace := ⟨fun k i _ => if k = 0 then ⟨1, 0, 0⟩ else if k = 3 then (if i = 0 then ⟨5, 0, 0⟩ else ⟨7, 0, 0⟩) else ⟨0, 0, 0⟩,
    2, (7, 7), 0.5, -1, fun _ _ => 0, fun _ => 0⟩
  refine ⟨S, rfl, by norm_num [S], by norm_num [S], by intro t ht; simp at ht; rcases ht with rfl | rfl <;> norm_num, ?_⟩
  have h := C75_spline_partial S rfl (by norm_num [S]) (by norm_num [S]) [0.7, 0.2]
    (by intro t ht; simp at ht; rcases ht with rfl | rfl <;> norm_num) 1.25 (by norm_num) (2, 2) (by norm_num [S])
  refine IsSplineValue.unique (by norm_num [S]) h ⟨2, by norm_num [S], by norm_num [S], ?_⟩
  have h1 : S.alphas 1 (((2 % S.total : ℕ)) : ℤ) (2, 2) = ⟨0, 0, 0⟩ := rfl
  have h2 : S.alphas 2 (((2 % S.total : ℕ)) : ℤ) (2, 2) = ⟨0, 0, 0⟩ := rfl
  have h0 : S.alphas 0 (((2 % S.total : ℕ)) : ℤ) (2, 2) = ⟨1, 0, 0⟩ := rfl
  have h3 : S.alphas 3 (((2 % S.total : ℕ)) : ℤ) (2, 2) = ⟨5, 0, 0⟩ := by simp [S]
  simp only [h0, h1, h2, h3]
  ext <;> norm_num [S]

/-! ### replication of profiles into the halo of a face -/

/-- nearest interior index on a direction with `n` interior cells and `ng` halo cells on each side -/
def clampIx (ng n i : ℤ) : ℤ := max ng (min i (ng + n - 1))

/-- prepInlets.py:11-23 (constant velocity, supersonic, mass flux and stagnation inlets, and exits/walls likewise): rows
    below and above the interior are copies of the first and last interior row, then columns (numpy indices `-ng-1` is the
    last interior one). `n`, `m` interior extents. -/
def fillProfile {α : Type} (ng n m : ℤ) (A : ℤ → ℤ → α) : ℤ → ℤ → α :=
  let A1 := fun i j => if i < ng then A ng j else A i j
  let A2 := fun i j => if ng + n ≤ i then A1 (ng + n - 1) j else A1 i j
  let A3 := fun i j => if j < ng then A2 i ng else A2 i j
  fun i j => if ng + m ≤ j then A3 i (ng + m - 1) else A3 i j

/-- C75 (profiles): after replication every face cell, interior or halo, holds the profile value of the nearest interior
    cell. -/
theorem C75_profile {α : Type} (ng n m : ℤ) (hn : 1 ≤ n) (hm : 1 ≤ m) (A : ℤ → ℤ → α) (i j : ℤ) :
    fillProfile ng n m A i j = A (clampIx ng n i) (clampIx ng m j) := by
  have hc : ∀ (k x : ℤ), 1 ≤ k → clampIx ng k x = if x < ng then ng else if ng + k ≤ x then ng + k - 1 else x := by
    intro k x hk; unfold clampIx; split_ifs <;> omega
  rw [hc n i hn, hc m j hm]
  unfold fillProfile
  dsimp only
  split_ifs <;> first | rfl | omega

/-- prepInlets.py:72-77: the same for the spline coefficients, written as a loop over halo layers `g` which copies row `ng`
    to row `g`, row `-ng-1` to row `-g-1`, and the same for columns, `n + 2 ng` rows in all -/
def fillLayer {α : Type} (ng n m : ℤ) (A : ℤ → ℤ → α) (g : ℕ) : ℤ → ℤ → α :=
  let A1 := fun (i j : ℤ) => if i = g then A ng j else A i j
  let A2 := fun (i j : ℤ) => if i = n + 2 * ng - 1 - g then A1 (n + 2 * ng - ng - 1) j else A1 i j
  let A3 := fun (i j : ℤ) => if j = g then A2 i ng else A2 i j
  fun i j => if j = m + 2 * ng - 1 - g then A3 i (m + 2 * ng - ng - 1) else A3 i j

def fillLoop {α : Type} (ng : ℕ) (n m : ℤ) (A : ℤ → ℤ → α) : ℤ → ℤ → α :=
  (List.range ng).foldl (fillLayer ng n m) A

/-- C75 (spline coefficients): for every halo depth, after the loop every stored cell of the face holds the coefficients of
    the nearest interior cell. -/
theorem C75_fill {α : Type} (ng : ℕ) (n m : ℤ) (hn : 1 ≤ n) (hm : 1 ≤ m) (A : ℤ → ℤ → α) (i j : ℤ) (hi : 0 ≤ i)
    (hi2 : i < n + 2 * ng) (hj : 0 ≤ j) (hj2 : j < m + 2 * ng) :
    fillLoop ng n m A i j = A (clampIx ng n i) (clampIx ng m j) := by
  have hc : ∀ (k x : ℤ), 1 ≤ k → clampIx ng k x = if x < ng then (ng : ℤ) else if ng + k ≤ x then ng + k - 1 else x := by
    intro k x hk; unfold clampIx; split_ifs <;> omega
  -- after `g` passes: rows/columns of layers `< g` and interior ones are clamped
  have key : ∀ g : ℕ, g ≤ ng → ∀ i j : ℤ,
      (0 ≤ i ∧ i < g ∨ (ng ≤ i ∧ i < n + ng) ∨ n + 2 * ng - g ≤ i ∧ i < n + 2 * ng) →
      (0 ≤ j ∧ j < g ∨ (ng ≤ j ∧ j < m + ng) ∨ m + 2 * ng - g ≤ j ∧ j < m + 2 * ng) →
      ((List.range g).foldl (fillLayer ng n m) A) i j = A (clampIx ng n i) (clampIx ng m j) := by
    intro g
    induction g with
    | zero =>
      intro _ i j hi hj
      rw [hc n i hn, hc m j hm]
      simp only [List.range_zero, List.foldl_nil]
      have h1 : ng ≤ i ∧ i < n + ng := by omega
      have h2 : ng ≤ j ∧ j < m + ng := by omega
      rw [if_neg (by omega), if_neg (by omega), if_neg (by omega), if_neg (by omega)]
    | succ g ih =>
      intro hg i j hi hj
      rw [List.range_succ, List.foldl_append]
      have ih' := ih (by omega)
      generalize List.foldl (fillLayer (↑ng) n m) A (List.range g) = B at ih'
      simp only [List.foldl_cons, List.foldl_nil, fillLayer]
      have e1 : n + 2 * (ng:ℤ) - ng - 1 = n + ng - 1 := by ring
      have e2 : m + 2 * (ng:ℤ) - ng - 1 = m + ng - 1 := by ring
      rw [e1, e2]
      have cl : ∀ k x : ℤ, 1 ≤ k → (x = g → clampIx ng k x = ng ∧ clampIx ng k ng = ng) ∧
          (x = k + 2 * ng - 1 - g → clampIx ng k x = k + ng - 1 ∧ clampIx ng k (k + ng - 1) = k + ng - 1) := by
        intro k x hk; refine ⟨fun h => ?_, fun h => ?_⟩ <;> unfold clampIx <;> omega
      have fin : ∀ i' j' : ℤ, (0 ≤ i' ∧ i' < g ∨ (ng ≤ i' ∧ i' < n + ng) ∨ n + 2 * ng - g ≤ i' ∧ i' < n + 2 * ng) →
          (0 ≤ j' ∧ j' < g ∨ (ng ≤ j' ∧ j' < m + ng) ∨ m + 2 * ng - g ≤ j' ∧ j' < m + 2 * ng) →
          clampIx ng n i' = clampIx ng n i → clampIx ng m j' = clampIx ng m j →
          B i' j' = A (clampIx ng n i) (clampIx ng m j) := by
        intro i' j' h1 h2 h3 h4; rw [ih' i' j' h1 h2, h3, h4]
      split_ifs <;> apply fin <;> first | omega | (unfold clampIx; omega)
  have := key ng le_rfl i j (by omega) (by omega)
  exact this

end PG.BC
