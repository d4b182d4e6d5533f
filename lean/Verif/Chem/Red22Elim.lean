import Mathlib.Algebra.BigOperators.Ring.Finset
import Mathlib.Algebra.Order.BigOperators.Group.Finset
import Mathlib.Data.Real.Basic
import Mathlib.Algebra.BigOperators.Field
import Mathlib.Tactic.ByContra
import Mathlib.Tactic.Linarith
import Mathlib.Tactic.Ring
import Mathlib.Tactic.FieldSimp
import Mathlib.Tactic.Positivity
import Mathlib.Tactic.LinearCombination

/-!
Substitution steps on a linear system `x = b + B x` with nonnegative entries: a step that substitutes row `j` into row `i`
keeps the solutions, the signs, and the existence of a positive left weight `v` with `v B < v`; the pivot is positive.
-/
namespace PG.Chem.Red22
open Finset

/-- `x` solves the system on the index set `I` -/
def Sol (I : Finset ℕ) (b : ℕ → ℝ) (B : ℕ → ℕ → ℝ) (x : ℕ → ℝ) : Prop :=
  ∀ i ∈ I, x i = b i + ∑ k ∈ I, B i k * x k

/-- nonnegative, no diagonal, and a positive weight that strictly exceeds its image -/
structure Good (I : Finset ℕ) (b : ℕ → ℝ) (B : ℕ → ℕ → ℝ) : Prop where
  b0 : ∀ i ∈ I, 0 ≤ b i
  B0 : ∀ i ∈ I, ∀ k ∈ I, 0 ≤ B i k
  diag : ∀ i ∈ I, B i i = 0
  wt : ∃ v : ℕ → ℝ, (∀ i ∈ I, 0 < v i) ∧ ∀ k ∈ I, ∑ i ∈ I, v i * B i k < v k

/-- right-hand side after substituting row `j` into row `i` -/
noncomputable def elimb (i j : ℕ) (b : ℕ → ℝ) (B : ℕ → ℕ → ℝ) (l : ℕ) : ℝ :=
  if l = i then (b i + B i j * b j) / (1 - B i j * B j i) else b l

/-- matrix after substituting row `j` into row `i` -/
noncomputable def elimB (i j : ℕ) (B : ℕ → ℕ → ℝ) (l k : ℕ) : ℝ :=
  if l = i then if k = i ∨ k = j then 0 else (B i k + B i j * B j k) / (1 - B i j * B j i) else B l k

variable {I : Finset ℕ} {b : ℕ → ℝ} {B : ℕ → ℕ → ℝ} {x : ℕ → ℝ} {i j : ℕ}

theorem sum_two (hi : i ∈ I) (hj : j ∈ I) (hij : i ≠ j) (f : ℕ → ℝ) :
    ∑ k ∈ I, f k = f i + f j + ∑ k ∈ (I.erase i).erase j, f k := by
  rw [← Finset.add_sum_erase I f hi, ← Finset.add_sum_erase (I.erase i) f (Finset.mem_erase.2 ⟨hij.symm, hj⟩)]
  ring

theorem mem_ee {k : ℕ} (h : k ∈ (I.erase i).erase j) : k ≠ i ∧ k ≠ j ∧ k ∈ I := by
  rw [Finset.mem_erase, Finset.mem_erase] at h
  exact ⟨h.2.1, h.1, h.2.2⟩

theorem sol_elim (hi : i ∈ I) (hj : j ∈ I) (hij : i ≠ j) (hii : B i i = 0) (hjj : B j j = 0)
    (hp : 1 - B i j * B j i ≠ 0) : Sol I (elimb i j b B) (elimB i j B) x ↔ Sol I b B x := by
  have key : (∀ y, y = elimb i j b B i + ∑ k ∈ I, elimB i j B i k * x k ↔
      y * (1 - B i j * B j i) = b i + B i j * b j
        + (∑ k ∈ (I.erase i).erase j, B i k * x k + B i j * ∑ k ∈ (I.erase i).erase j, B j k * x k)) := by
    intro y
    have h1 : ∑ k ∈ I, elimB i j B i k * x k
        = (∑ k ∈ (I.erase i).erase j, B i k * x k + B i j * ∑ k ∈ (I.erase i).erase j, B j k * x k) / (1 - B i j * B j i) := by
      rw [sum_two hi hj hij, Finset.mul_sum, ← Finset.sum_add_distrib, Finset.sum_div]
      have e1 : elimB i j B i i = 0 := by simp [elimB]
      have e2 : elimB i j B i j = 0 := by simp [elimB]
      rw [e1, e2, zero_mul, zero_mul, zero_add, zero_add]
      refine Finset.sum_congr rfl fun k hk => ?_
      obtain ⟨h1, h2, _⟩ := mem_ee hk
      simp only [elimB, if_true, h1, h2, or_self, if_false]
      ring
    have h2 : elimb i j b B i = (b i + B i j * b j) / (1 - B i j * B j i) := by simp [elimb]
    rw [h1, h2, ← add_div, eq_div_iff hp]
  have hrow : ∀ l ∈ I, l ≠ i → (x l = elimb i j b B l + ∑ k ∈ I, elimB i j B l k * x k ↔ x l = b l + ∑ k ∈ I, B l k * x k) := by
    intro l _ hli
    have e1 : elimb i j b B l = b l := by simp [elimb, hli]
    have e2 : ∀ k, elimB i j B l k = B l k := fun k => by simp [elimB, hli]
    simp only [e1, e2]
  constructor
  · intro h l hl
    by_cases hli : l = i
    · subst hli
      have hx := (key _).1 (h l hl)
      have hxj := (hrow j hj hij.symm).1 (h j hj)
      rw [sum_two hi hj hij] at hxj ⊢
      rw [hjj] at hxj; rw [hii]
      linear_combination hx - B l j * hxj
    · exact (hrow l hl hli).1 (h l hl)
  · intro h l hl
    by_cases hli : l = i
    · subst hli
      refine (key _).2 ?_
      have hx := h l hl
      have hxj := h j hj
      rw [sum_two hi hj hij] at hxj hx
      rw [hjj] at hxj; rw [hii] at hx
      linear_combination hx + B l j * hxj
    · exact (hrow l hl hli).2 (h l hl)

theorem single_lt (g : Good I b B) {v : ℕ → ℝ} (hv : ∀ i ∈ I, 0 < v i) (hw : ∀ k ∈ I, ∑ i ∈ I, v i * B i k < v k)
    (hi : i ∈ I) {k : ℕ} (hk : k ∈ I) : v i * B i k < v k :=
  lt_of_le_of_lt (Finset.single_le_sum (f := fun i => v i * B i k)
    (fun l hl => mul_nonneg (hv l hl).le (g.B0 l hl k hk)) hi) (hw k hk)

/-- the pivots are positive -/
theorem pivot_pos (g : Good I b B) (hi : i ∈ I) (hj : j ∈ I) : 0 < 1 - B i j * B j i := by
  obtain ⟨v, hv, hw⟩ := g.wt
  have h1 := single_lt g hv hw hi hj
  have h2 := single_lt g hv hw hj hi
  have hvi := hv i hi
  have hvj := hv j hj
  have : (v i * B i j) * (v j * B j i) < v j * v i :=
    mul_lt_mul'' h1 h2 (mul_nonneg hvi.le (g.B0 i hi j hj)) (mul_nonneg hvj.le (g.B0 j hj i hi))
  have h3 : v i * v j * (B i j * B j i) < v i * v j * 1 := by nlinarith
  have := lt_of_mul_lt_mul_left h3 (mul_pos hvi hvj).le
  linarith

theorem good_elim (g : Good I b B) (hi : i ∈ I) (hj : j ∈ I) (hij : i ≠ j) :
    Good I (elimb i j b B) (elimB i j B) := by
  have hp := pivot_pos g hi hj
  have hb := g.b0; have hB := g.B0; have hd := g.diag
  refine ⟨?_, ?_, ?_, ?_⟩
  · intro l hl
    unfold elimb
    split_ifs with h
    · exact div_nonneg (add_nonneg (hb i hi) (mul_nonneg (hB i hi j hj) (hb j hj))) hp.le
    · exact hb l hl
  · intro l hl k hk
    unfold elimB
    split_ifs with h h'
    · exact le_refl _
    · exact div_nonneg (add_nonneg (hB i hi k hk) (mul_nonneg (hB i hi j hj) (hB j hj k hk))) hp.le
    · exact hB l hl k hk
  · intro l hl
    unfold elimB
    split_ifs with h h'
    · rfl
    · exact absurd (Or.inl h) h'
    · exact hd l hl
  · obtain ⟨v, hv, hw⟩ := g.wt
    refine ⟨fun l => if l = i then v i * (1 - B i j * B j i) else if l = j then v j - v i * B i j else v l, ?_, ?_⟩
    · intro l hl
      dsimp only
      split_ifs with h h'
      · exact mul_pos (hv i hi) hp
      · have := single_lt g hv hw hi hj; linarith
      · exact hv l hl
    · intro k hk
      have hs := hw k hk
      rw [sum_two hi hj hij] at hs ⊢
      have hrest : ∑ l ∈ (I.erase i).erase j, (if l = i then v i * (1 - B i j * B j i)
          else if l = j then v j - v i * B i j else v l) * elimB i j B l k = ∑ l ∈ (I.erase i).erase j, v l * B l k := by
        refine Finset.sum_congr rfl fun l hl => ?_
        obtain ⟨h1, h2, _⟩ := mem_ee hl
        simp [elimB, h1, h2]
      rw [hrest]
      have ej : elimB i j B j k = B j k := by simp [elimB, hij.symm]
      rw [ej]
      simp only [if_true, if_neg hij.symm]
      have hii := hd i hi; have hjj := hd j hj
      by_cases hki : k = i
      · subst hki
        have : elimB k j B k k = 0 := by simp [elimB]
        rw [this, if_pos rfl]
        rw [hii] at hs
        nlinarith
      · by_cases hkj : k = j
        · subst hkj
          have : elimB i k B i k = 0 := by simp [elimB]
          rw [this, if_neg hki, if_pos rfl]
          rw [hjj] at hs ⊢
          nlinarith
        · have : elimB i j B i k = (B i k + B i j * B j k) / (1 - B i j * B j i) := by simp [elimB, hki, hkj]
          rw [this, if_neg hki, if_neg hkj]
          have e : v i * (1 - B i j * B j i) * ((B i k + B i j * B j k) / (1 - B i j * B j i)) = v i * (B i k + B i j * B j k) := by
            field_simp
          rw [e]
          nlinarith

/-- balances `D_i x_i = p_i + Σ_j P_ij x_j` in which every species except `c` leaves the set at a positive rate, and `c` is
    consumed, are good after division -/
theorem good_init {D : ℕ → ℝ} {P : ℕ → ℕ → ℝ} {p : ℕ → ℝ} {c : ℕ} (hp : ∀ i ∈ I, 0 ≤ p i) (hP : ∀ i ∈ I, ∀ k ∈ I, 0 ≤ P i k)
    (hd : ∀ i ∈ I, P i i = 0) (hc : c ∈ I) (hD : ∀ i ∈ I, 0 < D i) (hle : ∀ k ∈ I, ∑ i ∈ I, P i k ≤ D k)
    (hlt : ∀ k ∈ I, k ≠ c → ∑ i ∈ I, P i k < D k) : Good I (fun i => p i / D i) (fun i k => P i k / D i) := by
  refine ⟨fun i hi => div_nonneg (hp i hi) (hD i hi).le, fun i hi k hk => div_nonneg (hP i hi k hk) (hD i hi).le,
    fun i hi => by rw [hd i hi, zero_div], ?_⟩
  set S : ℝ := ∑ k ∈ I.erase c, P c k / (D k - ∑ i ∈ I, P i k) with hS
  have hS0 : 0 ≤ S := Finset.sum_nonneg fun k hk => by
    obtain ⟨h1, h2⟩ := Finset.mem_erase.1 hk
    exact div_nonneg (hP c hc k h2) (by have := hlt k h2 h1; linarith)
  have he : 0 < 1 / (1 + S) := by positivity
  refine ⟨fun i => if i = c then (1 + 1 / (1 + S)) * D c else D i, ?_, ?_⟩
  · intro i hi
    dsimp only
    split_ifs
    · exact mul_pos (by linarith) (hD c hc)
    · exact hD i hi
  · intro k hk
    have hsum : ∑ i ∈ I, (if i = c then (1 + 1 / (1 + S)) * D c else D i) * (P i k / D i)
        = ∑ i ∈ I, P i k + 1 / (1 + S) * P c k := by
      rw [← Finset.add_sum_erase I _ hc, ← Finset.add_sum_erase I (fun i => P i k) hc, if_pos rfl]
      have e1 : (1 + 1 / (1 + S)) * D c * (P c k / D c) = P c k + 1 / (1 + S) * P c k := by
        have := (hD c hc).ne'
        field_simp
      have e2 : ∑ i ∈ I.erase c, (if i = c then (1 + 1 / (1 + S)) * D c else D i) * (P i k / D i) = ∑ i ∈ I.erase c, P i k := by
        refine Finset.sum_congr rfl fun i hi => ?_
        obtain ⟨h1, h2⟩ := Finset.mem_erase.1 hi
        rw [if_neg h1, mul_div_cancel₀ _ (hD i h2).ne']
      rw [e1, e2]; ring
    rw [hsum]
    dsimp only
    by_cases hkc : k = c
    · subst hkc
      rw [hd k hk, mul_zero, add_zero, if_pos rfl]
      have := hle k hk
      have := mul_pos he (hD k hk)
      nlinarith
    · rw [if_neg hkc]
      have hs : 0 < D k - ∑ i ∈ I, P i k := by have := hlt k hk hkc; linarith
      have hle1 : P c k / (D k - ∑ i ∈ I, P i k) ≤ S :=
        Finset.single_le_sum (f := fun k => P c k / (D k - ∑ i ∈ I, P i k)) (fun l hl => by
          obtain ⟨h1, h2⟩ := Finset.mem_erase.1 hl
          exact div_nonneg (hP c hc l h2) (by have := hlt l h2 h1; linarith)) (Finset.mem_erase.2 ⟨hkc, hk⟩)
      rw [div_le_iff₀ hs] at hle1
      have h3 : 1 / (1 + S) * P c k < D k - ∑ i ∈ I, P i k := by
        rw [one_div, ← div_eq_inv_mul, div_lt_iff₀ (by linarith)]
        nlinarith
      linarith

/-- a good system has at most one solution -/
theorem sol_unique (g : Good I b B) {y : ℕ → ℝ} (hx : Sol I b B x) (hy : Sol I b B y) : ∀ i ∈ I, x i = y i := by
  obtain ⟨v, hv, hw⟩ := g.wt
  -- |x - y| weighted by v
  have hd : ∀ i ∈ I, |x i - y i| ≤ ∑ k ∈ I, B i k * |x k - y k| := by
    intro i hi
    have e : x i - y i = ∑ k ∈ I, B i k * (x k - y k) := by
      rw [hx i hi, hy i hi]
      simp only [mul_sub, Finset.sum_sub_distrib]
      ring
    rw [e]
    refine (Finset.abs_sum_le_sum_abs _ _).trans (Finset.sum_le_sum fun k hk => ?_)
    rw [abs_mul, abs_of_nonneg (g.B0 i hi k hk)]
  have h1 : ∑ i ∈ I, v i * |x i - y i| ≤ ∑ k ∈ I, (∑ i ∈ I, v i * B i k) * |x k - y k| := by
    have : ∑ k ∈ I, (∑ i ∈ I, v i * B i k) * |x k - y k| = ∑ i ∈ I, v i * ∑ k ∈ I, B i k * |x k - y k| := by
      simp only [Finset.sum_mul, Finset.mul_sum]
      rw [Finset.sum_comm]
      exact Finset.sum_congr rfl fun i _ => Finset.sum_congr rfl fun k _ => by ring
    rw [this]
    exact Finset.sum_le_sum fun i hi => mul_le_mul_of_nonneg_left (hd i hi) (hv i hi).le
  intro i hi
  by_contra hne
  have : ∑ k ∈ I, (∑ i ∈ I, v i * B i k) * |x k - y k| < ∑ k ∈ I, v k * |x k - y k| := by
    refine Finset.sum_lt_sum (fun k hk => mul_le_mul_of_nonneg_right (hw k hk).le (abs_nonneg _)) ⟨i, hi, ?_⟩
    exact mul_lt_mul_of_pos_right (hw i hi) (abs_pos.2 (sub_ne_zero.2 hne))
  linarith

end PG.Chem.Red22
