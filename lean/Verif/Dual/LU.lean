import Verif.Dual.Model
import Mathlib.Tactic.IntervalCases
/-
C64: the pivoted elimination and the two substitutions solve every nonsingular system.
-/
noncomputable section
namespace PG.Dual
open Finset

/-- matrix times vector, first `n` entries -/
def mulVec (n : ℕ) (A : ℕ → ℕ → ℝ) (x : ℕ → ℝ) (l : ℕ) : ℝ := ∑ q ∈ range n, A l q * x q

/-- nonsingular: only the zero vector is mapped to zero -/
def Nonsingular (n : ℕ) (A : ℕ → ℕ → ℝ) : Prop :=
  ∀ x : ℕ → ℝ, (∀ l < n, mulVec n A x l = 0) → ∀ q < n, x q = 0

/-! pivot -/

theorem pivot_fold (A : ℕ → ℕ → ℝ) (l : ℕ) (ms : List ℕ) : ∀ acc : ℝ × ℕ,
    (|acc.1| ≤ |(ms.foldl (pivotStep A l) acc).1|) ∧ (∀ m ∈ ms, |A m l| ≤ |(ms.foldl (pivotStep A l) acc).1|) ∧
    ((ms.foldl (pivotStep A l) acc) = acc ∨
      ((ms.foldl (pivotStep A l) acc).2 ∈ ms ∧ (ms.foldl (pivotStep A l) acc).1 = A (ms.foldl (pivotStep A l) acc).2 l)) := by
  induction ms with
  | nil => intro acc; simp
  | cons m ms ih =>
    intro acc
    rw [List.foldl_cons]
    obtain ⟨h1, h2, h3⟩ := ih (pivotStep A l acc m)
    have hm : |acc.1| ≤ |(pivotStep A l acc m).1| ∧ |A m l| ≤ |(pivotStep A l acc m).1| := by
      unfold pivotStep; split
      · rename_i h; exact ⟨h.le, le_rfl⟩
      · rename_i h; exact ⟨le_rfl, not_lt.1 h⟩
    refine ⟨hm.1.trans h1, ?_, ?_⟩
    · intro x hx
      rcases List.mem_cons.1 hx with rfl | hx
      · exact hm.2.trans h1
      · exact h2 x hx
    · rcases h3 with h3 | ⟨h3, h4⟩
      · rw [h3]
        unfold pivotStep
        split
        · right; simp
        · left; rfl
      · right; exact ⟨by simp [h3], h4⟩

theorem pivot_spec {n : ℕ} {A : ℕ → ℕ → ℝ} {l m : ℕ} (h1 : l ≤ m) (h2 : m < n) (h3 : A m l ≠ 0) :
    l ≤ pivotInd n A l ∧ pivotInd n A l < n ∧ A (pivotInd n A l) l ≠ 0 ∧
      ∀ k, l ≤ k → k < n → |A k l| ≤ |A (pivotInd n A l) l| := by
  obtain ⟨a1, a2, a3⟩ := pivot_fold A l (List.range' l (n - l)) (0, 0)
  have hm : m ∈ List.range' l (n - l) := by rw [List.mem_range'_1]; omega
  have hpos := a2 m hm
  have habs : 0 < |A m l| := abs_pos.2 h3
  unfold pivotInd
  rcases a3 with a3 | ⟨a3, a4⟩
  · rw [a3] at hpos; simp at hpos; exact absurd hpos h3
  · rw [List.mem_range'_1] at a3
    refine ⟨a3.1, by omega, ?_, ?_⟩
    · rw [← a4]; exact abs_pos.1 (lt_of_lt_of_le habs hpos)
    · intro k hk1 hk2
      rw [← a4]
      exact a2 k (by rw [List.mem_range'_1]; omega)

/-! back substitution -/

theorem backward_spec (n : ℕ) (A : ℕ → ℕ → ℝ) (z : ℕ → ℝ) (hd : ∀ l < n, A l l ≠ 0) (l : ℕ) (hl : l < n) :
    ∑ q ∈ range n, (if l ≤ q then A l q else 0) * backward n A z (n - 1 - q) = z l := by
  have hsplit : ∑ q ∈ range n, (if l ≤ q then A l q else 0) * backward n A z (n - 1 - q)
      = ∑ q ∈ Ico l n, A l q * backward n A z (n - 1 - q) := by
    rw [range_eq_Ico, ← Finset.sum_Ico_consecutive _ (Nat.zero_le l) hl.le]
    rw [Finset.sum_eq_zero, zero_add]
    · refine Finset.sum_congr rfl fun q hq => ?_
      rw [if_pos (Finset.mem_Ico.1 hq).1]
    · intro q hq
      rw [if_neg (by have := (Finset.mem_Ico.1 hq).2; omega), zero_mul]
  rw [hsplit, Finset.sum_eq_sum_Ico_succ_bot hl]
  have hn1 : n - 1 - (n - 1 - l) = l := by omega
  have hb := backward.eq_1 n A z (n - 1 - l)
  rw [hn1] at hb
  have hs : ∑ c : Fin (n - 1 - l), A l (n - 1 - c) * backward n A z c
      = ∑ q ∈ Ico (l+1) n, A l q * backward n A z (n - 1 - q) := by
    rw [Fin.sum_univ_eq_sum_range (fun c => A l (n - 1 - c) * backward n A z c), ← Finset.sum_range_reflect]
    rw [Finset.sum_Ico_eq_sum_range]
    have : n - (l + 1) = n - 1 - l := by omega
    rw [this]
    refine Finset.sum_congr rfl fun c hc => ?_
    have hc' := Finset.mem_range.1 hc
    have e1 : n - 1 - (n - 1 - l - 1 - c) = l + 1 + c := by omega
    have e2 : n - 1 - (l + 1 + c) = n - 1 - l - 1 - c := by omega
    rw [e1, e2]
  rw [hs] at hb
  rw [hb]
  have := hd l hl
  field_simp
  ring

theorem forward_spec (A : ℕ → ℕ → ℝ) (b : ℕ → ℝ) (l : ℕ) :
    (∑ q ∈ range l, A l q * forward A b q) + forward A b l = b l := by
  conv_lhs => rw [forward]
  rw [Fin.sum_univ_eq_sum_range (fun q => A l q * forward A b q)]
  ring

/-! invariant of the decomposition -/

/-- upper triangle -/
def up (A : ℕ → ℕ → ℝ) (m q : ℕ) : ℝ := if m ≤ q then A m q else 0

/-- after `k` passes: the original rows, permuted, are the product of the finished parts plus the unfinished rest; the
    finished diagonal is nonzero; the permutation is one of 0..n-1 -/
structure Inv (n k : ℕ) (A0 : ℕ → ℕ → ℝ) (s : LU) : Prop where
  eq : ∀ p < n, ∀ q < n, A0 (s.perm p) q = (∑ m ∈ range (min p k), s.A p m * up s.A m q) + (if min p k ≤ q then s.A p q else 0)
  diag : ∀ m < k, s.A m m ≠ 0
  lt : ∀ p < n, s.perm p < n
  surj : ∀ r < n, ∃ p < n, s.perm p = r

theorem inv_zero (n : ℕ) (A0 : ℕ → ℕ → ℝ) : Inv n 0 A0 ⟨A0, id⟩ := by
  refine ⟨?_, ?_, ?_, ?_⟩
  · intro p _ q _; simp
  · intro m hm; omega
  · intro p hp; exact hp
  · intro r hr; exact ⟨r, hr, rfl⟩

/-- If the matrix is nonsingular, the next column has a nonzero entry on or below the diagonal. -/
theorem pivot_exists {n k : ℕ} {A0 : ℕ → ℕ → ℝ} {s : LU} (h : Inv n k A0 s) (hk : k < n) (hA : Nonsingular n A0) :
    ∃ m, k ≤ m ∧ m < n ∧ s.A m k ≠ 0 := by
  by_contra hc
  have hzero : ∀ m, k ≤ m → m < n → s.A m k = 0 := fun m h1 h2 => by
    by_contra h3; exact hc ⟨m, h1, h2, h3⟩
  -- back substitution on the finished part gives a nonzero vector of the kernel
  let y := fun q => backward k s.A (fun m => -s.A m k) (k - 1 - q)
  let x : ℕ → ℝ := fun q => if q < k then y q else if q = k then 1 else 0
  have hU : ∀ m < k, ∑ q ∈ range n, up s.A m q * x q = 0 := by
    intro m hm
    have h1 := backward_spec k s.A (fun m => -s.A m k) h.diag m hm
    have h2 : ∑ q ∈ range n, up s.A m q * x q = (∑ q ∈ range k, up s.A m q * y q) + s.A m k := by
      rw [range_eq_Ico, ← Finset.sum_Ico_consecutive _ (Nat.zero_le k) hk.le, Finset.sum_eq_sum_Ico_succ_bot hk]
      congr 1
      · rw [range_eq_Ico]
        refine Finset.sum_congr rfl fun q hq => ?_
        have := (Finset.mem_Ico.1 hq).2
        simp [x, this]
      · rw [Finset.sum_eq_zero]
        · simp [x, up, hm.le]
        · intro q hq
          have := (Finset.mem_Ico.1 hq).1
          have a1 : ¬ q < k := by omega
          have a2 : q ≠ k := by omega
          simp [x, a1, a2]
    rw [h2]
    have h3 : ∑ q ∈ range k, up s.A m q * y q = -s.A m k := h1
    rw [h3]; ring
  have hV : ∀ p < n, ∑ q ∈ range n, (if min p k ≤ q then s.A p q else 0) * x q = 0 := by
    intro p hp
    by_cases hpk : p < k
    · have e : min p k = p := by omega
      rw [e]
      exact hU p hpk
    · have e : min p k = k := by omega
      rw [e]
      apply Finset.sum_eq_zero
      intro q hq
      by_cases h1 : q < k
      · rw [if_neg (by omega), zero_mul]
      · by_cases h2 : q = k
        · subst h2; rw [if_pos le_rfl, hzero p (by omega) hp, zero_mul]
        · simp [x, h1, h2]
  have hker : ∀ l < n, mulVec n A0 x l = 0 := by
    intro l hl
    obtain ⟨p, hp, rfl⟩ := h.surj l hl
    unfold mulVec
    have : ∀ q ∈ range n, A0 (s.perm p) q * x q
        = (∑ m ∈ range (min p k), s.A p m * (up s.A m q * x q)) + (if min p k ≤ q then s.A p q else 0) * x q := by
      intro q hq
      rw [h.eq p hp q (Finset.mem_range.1 hq), add_mul, Finset.sum_mul]
      congr 1
      exact Finset.sum_congr rfl fun m _ => by ring
    rw [Finset.sum_congr rfl this, Finset.sum_add_distrib, hV p hp, add_zero, Finset.sum_comm]
    apply Finset.sum_eq_zero
    intro m hm
    rw [← Finset.mul_sum, hU m (by have := Finset.mem_range.1 hm; omega), mul_zero]
  have := hA x hker k hk
  simp [x] at this

theorem inv_step {n k : ℕ} {A0 : ℕ → ℕ → ℝ} {s : LU} (h : Inv n k A0 s) (hk : k < n) (hA : Nonsingular n A0) :
    Inv n (k+1) A0 (luStep n s k) := by
  obtain ⟨m0, a1, a2, a3⟩ := pivot_exists h hk hA
  obtain ⟨p1, p2, p3, -⟩ := pivot_spec a1 a2 a3
  set r := pivotInd n s.A k with hr
  -- after the row exchange
  have hsw : Inv n k A0 ⟨swapAt s.A k r, swapAt s.perm k r⟩ := by
    have hlow : ∀ m < k, swapAt s.A k r m = s.A m := by
      intro m hm; unfold swapAt; rw [if_neg (by omega), if_neg (by omega)]
    have hup : ∀ m < k, ∀ q, up (swapAt s.A k r) m q = up s.A m q := by
      intro m hm q; unfold up; rw [hlow m hm]
    have hsame : ∀ p < n, ∃ p' < n, swapAt s.A k r p = s.A p' ∧ swapAt s.perm k r p = s.perm p' ∧ min p k = min p' k := by
      intro p hp
      unfold swapAt
      by_cases h1 : p = k
      · subst h1; exact ⟨r, p2, by simp, by simp, by omega⟩
      · by_cases h2 : p = r
        · subst h2; exact ⟨k, hk, by simp [h1], by simp [h1], by omega⟩
        · exact ⟨p, hp, by simp [h1, h2], by simp [h1, h2], rfl⟩
    refine ⟨?_, ?_, ?_, ?_⟩
    · intro p hp q hq
      obtain ⟨p', hp', e1, e2, e3⟩ := hsame p hp
      simp only
      rw [e1, e2, e3, h.eq p' hp' q hq]
      congr 1
      refine Finset.sum_congr rfl fun m hm => ?_
      rw [hup m (by have := Finset.mem_range.1 hm; omega)]
    · intro m hm; simp only; rw [hlow m hm]; exact h.diag m hm
    · intro p hp
      obtain ⟨p', hp', -, e2, -⟩ := hsame p hp
      simp only; rw [e2]; exact h.lt p' hp'
    · intro t ht
      obtain ⟨p, hp, e⟩ := h.surj t ht
      by_cases h1 : p = k
      · subst h1
        refine ⟨r, p2, ?_⟩
        simp only [swapAt]
        by_cases h3 : r = p
        · simp [h3, e]
        · simp [h3, e]
      · by_cases h2 : p = r
        · subst h2; exact ⟨k, hk, by simp [swapAt, e]⟩
        · exact ⟨p, hp, by simp [swapAt, h1, h2, e]⟩
  have hpiv : swapAt s.A k r k k ≠ 0 := by simpa [swapAt] using p3
  -- elimination
  change Inv n (k+1) A0 ⟨eliminate k (swapAt s.A k r), swapAt s.perm k r⟩
  generalize swapAt s.A k r = B at hsw hpiv ⊢
  generalize swapAt s.perm k r = P at hsw ⊢
  have hrow : ∀ p ≤ k, eliminate k B p = B p := by
    intro p hp; funext q; unfold eliminate; rw [if_neg (by omega)]
  have hup : ∀ m ≤ k, ∀ q, up (eliminate k B) m q = up B m q := by
    intro m hm q; unfold up; rw [hrow m hm]
  refine ⟨?_, ?_, hsw.lt, hsw.surj⟩
  · intro p hp q hq
    simp only
    have h0 := hsw.eq p hp q hq
    simp only at h0
    rw [h0]
    by_cases hpk : p ≤ k
    · have e1 : min p (k+1) = min p k := by omega
      rw [e1, hrow p hpk]
      congr 1
      refine Finset.sum_congr rfl fun m hm => ?_
      rw [hup m (by have := Finset.mem_range.1 hm; omega)]
    · have e1 : min p (k+1) = k + 1 := by omega
      have e2 : min p k = k := by omega
      rw [e1, e2, Finset.sum_range_succ]
      have hs : ∑ m ∈ range k, eliminate k B p m * up (eliminate k B) m q = ∑ m ∈ range k, B p m * up B m q := by
        refine Finset.sum_congr rfl fun m hm => ?_
        have hm' := Finset.mem_range.1 hm
        rw [hup m hm'.le]
        congr 1
        unfold eliminate
        rw [if_pos (by omega), if_pos hm']
      rw [hs, hup k le_rfl]
      have hl : eliminate k B p k = B p k / B k k := by
        unfold eliminate; rw [if_pos (by omega), if_neg (by omega), if_pos rfl]
      rw [hl, add_assoc]
      congr 1
      rcases lt_trichotomy q k with h | h | h
      · rw [if_neg (by omega), if_neg (by omega)]
        simp [up, show ¬ k ≤ q by omega]
      · subst h
        rw [if_pos le_rfl, if_neg (by omega)]
        simp only [up, le_refl, if_true, add_zero]
        field_simp
      · rw [if_pos h.le, if_pos (by omega)]
        simp only [up, h.le, if_true]
        unfold eliminate
        rw [if_pos (by omega), if_neg (by omega), if_neg (by omega)]
        ring
  · intro m hm
    simp only
    rw [hrow m (by omega)]
    by_cases h1 : m = k
    · rw [h1]; exact hpiv
    · exact hsw.diag m (by omega)

theorem inv_all {n : ℕ} {A0 : ℕ → ℕ → ℝ} (hA : Nonsingular n A0) : ∀ k ≤ n,
    Inv n k A0 ((List.range k).foldl (luStep n) ⟨A0, id⟩) := by
  intro k
  induction k with
  | zero => intro _; exact inv_zero n A0
  | succ k ih =>
    intro hk
    rw [List.range_succ, List.foldl_append]
    exact inv_step (ih (by omega)) (by omega) hA

/-- C64: for every size, every nonsingular matrix and every right-hand side, the in-place factorisation with row exchanges
    and the two substitutions return the solution of the system, and no pivot that is divided by is zero. -/
theorem C64_solve (n : ℕ) (A : ℕ → ℕ → ℝ) (hA : Nonsingular n A) (b : ℕ → ℝ) :
    (∀ l < n, mulVec n A (solve n A b) l = b l) ∧ (∀ l < n, (luFactor n A).A l l ≠ 0) := by
  have h := inv_all hA n le_rfl
  change Inv n n A (luFactor n A) at h
  refine ⟨?_, h.diag⟩
  intro l hl
  obtain ⟨p, hp, rfl⟩ := h.surj l hl
  set f := luFactor n A with hf
  set z := forward f.A (fun l => b (f.perm l)) with hz
  have hx : ∀ m < n, ∑ q ∈ range n, up f.A m q * solve n A b q = z m := fun m hm =>
    backward_spec n f.A z h.diag m hm
  unfold mulVec
  have e : min p n = p := by omega
  have : ∀ q ∈ range n, A (f.perm p) q * solve n A b q
      = (∑ m ∈ range p, f.A p m * (up f.A m q * solve n A b q)) + up f.A p q * solve n A b q := by
    intro q hq
    rw [h.eq p hp q (Finset.mem_range.1 hq), e, add_mul, Finset.sum_mul]
    congr 1
    exact Finset.sum_congr rfl fun m _ => by ring
  rw [Finset.sum_congr rfl this, Finset.sum_add_distrib, hx p hp, Finset.sum_comm]
  have h2 : ∑ m ∈ range p, ∑ q ∈ range n, f.A p m * (up f.A m q * solve n A b q) = ∑ m ∈ range p, f.A p m * z m := by
    refine Finset.sum_congr rfl fun m hm => ?_
    rw [← Finset.mul_sum, hx m (by have := Finset.mem_range.1 hm; omega)]
  rw [h2]
  exact forward_spec f.A (fun l => b (f.perm l)) p

/-- C64: the solution is unique, so the routine returns zero exactly for a zero right-hand side, and any vector that solves
    the system is the returned one. -/
theorem C64_unique (n : ℕ) (A : ℕ → ℕ → ℝ) (hA : Nonsingular n A) (b : ℕ → ℝ) :
    (∀ x : ℕ → ℝ, (∀ l < n, mulVec n A x l = b l) → ∀ q < n, x q = solve n A b q) ∧
    ((∀ q < n, solve n A b q = 0) ↔ ∀ l < n, b l = 0) := by
  have hs := (C64_solve n A hA b).1
  have hu : ∀ x : ℕ → ℝ, (∀ l < n, mulVec n A x l = b l) → ∀ q < n, x q = solve n A b q := by
    intro x hx q hq
    have := hA (fun q => x q - solve n A b q) (by
      intro l hl
      have e : mulVec n A (fun q => x q - solve n A b q) l = mulVec n A x l - mulVec n A (solve n A b) l := by
        unfold mulVec; rw [← Finset.sum_sub_distrib]; exact Finset.sum_congr rfl fun q _ => by ring
      rw [e, hx l hl, hs l hl, sub_self]) q hq
    linarith
  refine ⟨hu, ?_, ?_⟩
  · intro h l hl
    rw [← hs l hl]
    unfold mulVec
    exact Finset.sum_eq_zero fun q hq => by rw [h q (Finset.mem_range.1 hq), mul_zero]
  · intro h q hq
    rw [← hu (fun _ => 0) (by intro l hl; rw [h l hl]; unfold mulVec; simp) q hq]

/-- a system whose first pivot is zero: [[0,2],[3,1]] x = (4,5) -/
example : Nonsingular 2 (fun l q => if l = 0 then (if q = 0 then 0 else 2) else (if q = 0 then 3 else 1)) := by
  intro x h q hq
  have h0 := h 0 (by norm_num)
  have h1 := h 1 (by norm_num)
  simp [mulVec, Finset.sum_range_succ] at h0 h1
  rw [h0] at h1
  interval_cases q
  · linarith
  · exact h0

end PG.Dual
