import Verif.Thermo.Spec
import Mathlib.Tactic.Linarith
import Mathlib.Tactic.Ring
import Mathlib.Tactic.FieldSimp
import Mathlib.Tactic.Positivity
import Mathlib.Algebra.Order.BigOperators.Group.Finset
import Mathlib.Algebra.BigOperators.Field
import Mathlib.Algebra.BigOperators.Ring.Finset

noncomputable section
namespace PG.Thermo
open Finset

variable {ns : ℕ} {y : ℕ → ℝ}

theorem sum_split (hns : 1 ≤ ns) (f : ℕ → ℝ) : ∑ n ∈ range ns, f n = (∑ n ∈ range (ns - 1), f n) + f (ns - 1) := by
  obtain ⟨m, rfl⟩ : ∃ m, ns = m + 1 := ⟨ns - 1, by omega⟩
  simp [sum_range_succ]

/-- fractions in [0,1] -/
def Unit01 (ns : ℕ) (y : ℕ → ℝ) : Prop := ∀ n < ns - 1, 0 ≤ y n ∧ y n ≤ 1

theorem clipY_unit (ns : ℕ) (y : ℕ → ℝ) : Unit01 ns (clipY ns y) := by
  intro n hn
  simp only [clipY, hn, if_true]
  exact ⟨le_max_right _ _, max_le (min_le_right _ _) zero_le_one⟩

theorem consY_unit {Q : Cons} (hr : 0 < Q.rho) : Unit01 ns (consY ns Q) := by
  intro n hn
  simp only [consY, clipRhoY, hn, if_true]
  exact ⟨div_nonneg (le_max_right _ _) hr.le,
    (div_le_one hr).2 (max_le (min_le_right _ _) hr.le)⟩

theorem testSum_nonneg (h : Unit01 ns y) : 0 ≤ testSum ns y :=
  sum_nonneg fun n hn => (h n (mem_range.1 hn)).1

theorem localY_nonneg (h : Unit01 ns y) {n : ℕ} (hn : n < ns) : 0 ≤ localY ns y n := by
  have hs := testSum_nonneg h
  unfold localY
  split_ifs with h1 h2 h3
  · exact le_refl _
  · exact div_nonneg (h n (by omega)).1 hs
  · linarith
  · exact (h n (by omega)).1

theorem localY_sum (hns : 1 ≤ ns) (y : ℕ → ℝ) : ∑ n ∈ range ns, localY ns y n = 1 := by
  rw [sum_split hns]
  have hne : ∀ n ∈ range (ns - 1), n ≠ ns - 1 := fun n hn => by have := mem_range.1 hn; omega
  unfold localY
  by_cases h1 : testSum ns y > 1
  · simp only [h1, if_true, add_zero]
    rw [sum_congr rfl (g := fun n => y n / testSum ns y) (fun n hn => by simp [hne n hn]), ← sum_div]
    exact div_self (by positivity)
  · simp only [h1, if_true, if_false]
    rw [sum_congr rfl (g := fun n => y n) (fun n hn => by simp [hne n hn])]
    unfold testSum; ring

theorem localY_le_one (hns : 1 ≤ ns) (h : Unit01 ns y) {n : ℕ} (hn : n < ns) : localY ns y n ≤ 1 := by
  rw [← localY_sum hns y]
  exact single_le_sum (f := localY ns y) (fun i hi => localY_nonneg h (mem_range.1 hi)) (mem_range.2 hn)

theorem okY_clip (h : OkY ns y) {n : ℕ} (hn : n < ns - 1) : clipY ns y n = y n := by
  have h1 : y n ≤ 1 := le_trans (single_le_sum (f := y) (fun i hi => h.1 i (mem_range.1 hi)) (mem_range.2 hn)) h.2
  simp [clipY, hn, min_eq_left h1, max_eq_left (h.1 n hn)]

theorem testSum_congr {y z : ℕ → ℝ} (h : ∀ n < ns - 1, y n = z n) : testSum ns y = testSum ns z :=
  sum_congr rfl fun n hn => h n (mem_range.1 hn)

theorem localY_congr {y z : ℕ → ℝ} (h : ∀ n < ns - 1, y n = z n) {n : ℕ} (hn : n < ns) :
    localY ns y n = localY ns z n := by
  unfold localY
  rw [testSum_congr h]
  split_ifs with h1 h2 h3
  · rfl
  · rw [h n (by omega)]
  · rfl
  · rw [h n (by omega)]

/-- on admissible fractions the kernels use exactly them, last species implied -/
theorem localY_ok (h : OkY ns y) (n : ℕ) : localY ns y n = fullY ns y n := by
  have : ¬ testSum ns y > 1 := not_lt.2 h.2
  unfold localY fullY
  simp only [this, if_false]; rfl

/-- the fractions the kernels use are admissible, so using them again changes nothing -/
theorem localY_okY (hns : 1 ≤ ns) (h : Unit01 ns y) : OkY ns (localY ns y) := by
  refine ⟨fun n hn => localY_nonneg h (by omega), ?_⟩
  have := localY_sum hns y
  rw [sum_split hns] at this
  have h2 := localY_nonneg h (n := ns - 1) (by omega)
  linarith

theorem fullY_localY (hns : 1 ≤ ns) (n : ℕ) : fullY ns (localY ns y) n = localY ns y n := by
  unfold fullY
  split_ifs with hn
  · have := localY_sum hns y
    rw [sum_split hns] at this
    rw [hn]; linarith
  · rfl

theorem localY_localY (hns : 1 ≤ ns) (h : Unit01 ns y) (n : ℕ) : localY ns (localY ns y) n = localY ns y n := by
  rw [localY_ok (localY_okY hns h), fullY_localY hns]

/-! mixture properties -/

variable {th : Th} {Y : ℕ → ℝ}

/-- nonnegative and summing to one over all species -/
structure Simplex (ns : ℕ) (Y : ℕ → ℝ) : Prop where
  nonneg : ∀ n < ns, 0 ≤ Y n
  sum : ∑ n ∈ range ns, Y n = 1

theorem localY_simplex (hns : 1 ≤ ns) (h : Unit01 ns y) : Simplex ns (localY ns y) :=
  ⟨fun _ hn => localY_nonneg h hn, localY_sum hns y⟩

theorem simplex_pos {f : ℕ → ℝ} (h : Simplex ns Y) (hf : ∀ n < ns, 0 < f n) : 0 < ∑ n ∈ range ns, Y n * f n := by
  have hne : ∃ n ∈ range ns, 0 < Y n := by
    by_contra hc
    simp only [not_exists, not_and, not_lt] at hc
    have : ∑ n ∈ range ns, Y n ≤ 0 := sum_nonpos hc
    rw [h.sum] at this
    linarith
  obtain ⟨n, hn, hp⟩ := hne
  exact sum_pos' (fun i hi => mul_nonneg (h.nonneg i (mem_range.1 hi)) (hf i (mem_range.1 hi)).le)
    ⟨n, hn, mul_pos hp (hf n (mem_range.1 hn))⟩

theorem Rmix_eq (th : Th) (Y : ℕ → ℝ) : Rmix th Y = gasConst th Y := by unfold Rmix gasConst; ring

theorem Rmix_pos (ht : 0 < th.Ru) (hm : ∀ n < th.ns, 0 < th.MW n) (h : Simplex th.ns Y) : 0 < Rmix th Y := by
  unfold Rmix
  refine mul_pos ?_ ht
  have := simplex_pos h (f := fun n => 1 / th.MW n) (fun n hn => one_div_pos.2 (hm n hn))
  refine lt_of_lt_of_eq this (sum_congr rfl fun n _ => by ring)

theorem cp_gt_R (ht : th.Ok) (h : Simplex th.ns Y) : Rmix th Y < cpmix th Y := by
  have := simplex_pos h (f := fun n => th.cp0 n - th.Ru / th.MW n) (fun n hn => sub_pos.2 (ht.cp n hn))
  have e : ∑ n ∈ range th.ns, Y n * (th.cp0 n - th.Ru / th.MW n) = cpmix th Y - Rmix th Y := by
    unfold cpmix Rmix
    rw [sum_mul, ← sum_sub_distrib]
    exact sum_congr rfl fun n _ => by ring
  linarith

theorem mix_congr {Y Z : ℕ → ℝ} (h : ∀ n < th.ns, Y n = Z n) :
    Rmix th Y = Rmix th Z ∧ cpmix th Y = cpmix th Z ∧ ∀ T, hT th Y T = hT th Z T ∧ cpT th Y T = cpT th Z T := by
  unfold Rmix cpmix hT cpT
  refine ⟨?_, ?_, fun T => ⟨?_, ?_⟩⟩
  · rw [sum_congr rfl fun n hn => by rw [h n (mem_range.1 hn)]]
  all_goals exact sum_congr rfl fun n hn => by rw [h n (mem_range.1 hn)]

/-- reading back species densities `rho * Z`, `Z` admissible -/
theorem consY_of {Q : Cons} {Z : ℕ → ℝ} (hr : 0 < Q.rho) (hZ : Unit01 ns Z) (hQ : ∀ n < ns - 1, Q.rhoY n = Z n * Q.rho)
    {n : ℕ} (hn : n < ns - 1) : clipRhoY ns Q.rho Q.rhoY n = Z n * Q.rho ∧ consY ns Q n = Z n := by
  obtain ⟨h0, h1⟩ := hZ n hn
  have e : clipRhoY ns Q.rho Q.rhoY n = Z n * Q.rho := by
    simp only [clipRhoY, hn, if_true, hQ n hn]
    rw [min_eq_left (by nlinarith), max_eq_left (by positivity)]
  exact ⟨e, by rw [consY, e]; field_simp⟩

/-- admissible species densities are read back unchanged -/
theorem consY_ok {Q : Cons} (h : Q.Ok ns) {n : ℕ} (hn : n < ns - 1) :
    clipRhoY ns Q.rho Q.rhoY n = Q.rhoY n ∧ consY ns Q n = Q.rhoY n / Q.rho := by
  have h1 : Q.rhoY n ≤ Q.rho :=
    le_trans (single_le_sum (f := Q.rhoY) (fun i hi => h.Y i (mem_range.1 hi)) (mem_range.2 hn)) h.sum
  have e : clipRhoY ns Q.rho Q.rhoY n = Q.rhoY n := by
    simp only [clipRhoY, hn, if_true, min_eq_left h1, max_eq_left (h.Y n hn)]
  exact ⟨e, by rw [consY, e]⟩

theorem consY_okY {Q : Cons} (h : Q.Ok ns) : OkY ns (consY ns Q) := by
  refine ⟨fun n hn => (consY_unit h.rho n hn).1, ?_⟩
  rw [sum_congr rfl (g := fun n => Q.rhoY n / Q.rho) fun n hn => (consY_ok h (mem_range.1 hn)).2, ← sum_div]
  exact (div_le_one h.rho).2 h.sum

/-- the stored species densities after "cons" are the used fractions times the density -/
theorem consRhoY_eq {Q : Cons} (hr : 0 < Q.rho) {n : ℕ} (hn : n < ns - 1) :
    consRhoY ns Q n = localY ns (consY ns Q) n * Q.rho := by
  unfold consRhoY
  split_ifs with h
  · rfl
  · have h2 : ¬ testSum ns (consY ns Q) > 1 := fun hh => h ⟨hn, hh⟩
    have h3 : n ≠ ns - 1 := by omega
    simp only [localY, h2, if_false, h3, consY]
    field_simp

end PG.Thermo
