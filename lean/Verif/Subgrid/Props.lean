import Verif.Subgrid.Model
import Mathlib.LinearAlgebra.Matrix.Trace
import Mathlib.Tactic.FinCases
import Mathlib.Tactic.NormNum
import Mathlib.Tactic.Positivity
/-!
C79: theorems on the subgrid models.
-/
namespace PG.Subgrid
open PG

/-! ### specification -/

/-- velocity gradient tensor: row = component, column = direction -/
noncomputable def gradT (d : Data) : Matrix (Fin 3) (Fin 3) ℝ := !![d.gu.x, d.gu.y, d.gu.z; d.gv.x, d.gv.y, d.gv.z; d.gw.x, d.gw.y, d.gw.z]

/-- symmetric part of a tensor -/
noncomputable def symm (G : Matrix (Fin 3) (Fin 3) ℝ) : Matrix (Fin 3) (Fin 3) ℝ := (1 / 2 : ℝ) • (G + G.transpose)

theorem strain_eq (d : Data) (l m : Fin 3) : strain d l m = symm (gradT d) l m := by
  fin_cases l <;> fin_cases m <;> simp [strain, symm, gradT] <;> ring

theorem magS_trace (d : Data) : magS d = Real.sqrt (2 * (symm (gradT d) * (symm (gradT d)).transpose).trace) := by
  unfold magS
  congr 2
  simp only [Matrix.trace, Matrix.diag, Matrix.mul_apply, Matrix.transpose_apply, strain_eq]

theorem magS_nonneg (d : Data) : 0 ≤ magS d := Real.sqrt_nonneg _

theorem magS_zero {d : Data} : magS d = 0 ↔ ∀ l m, symm (gradT d) l m = 0 := by
  unfold magS
  have h0 : ∀ l m : Fin 3, 0 ≤ strain d l m * strain d l m := fun l m => mul_self_nonneg _
  have hs : 0 ≤ ∑ l : Fin 3, ∑ m, strain d l m * strain d l m :=
    Finset.sum_nonneg fun l _ => Finset.sum_nonneg fun m _ => h0 l m
  rw [Real.sqrt_eq_zero (by positivity)]
  constructor
  · intro h l m
    have h1 : ∑ l : Fin 3, ∑ m, strain d l m * strain d l m = 0 := by linarith
    have h2 := (Finset.sum_eq_zero_iff_of_nonneg (fun l _ => Finset.sum_nonneg fun m _ => h0 l m)).1 h1 l (Finset.mem_univ l)
    have h3 := (Finset.sum_eq_zero_iff_of_nonneg (fun m _ => h0 l m)).1 h2 m (Finset.mem_univ m)
    rw [← strain_eq]; exact mul_self_eq_zero.1 h3
  · intro h
    have : ∀ l m : Fin 3, strain d l m * strain d l m = 0 := fun l m => by rw [strain_eq, h]; ring
    simp [this]

theorem qc2_nonneg (U : Vel) (i j k : ℤ) : 0 ≤ qc2 U i j k := by unfold qc2; positivity

theorem delta_cube {d : Data} {h : ℝ} (hh : 0 ≤ h) (hJ : d.J = h ^ 3) : delta d = h := by
  unfold delta
  rw [hJ, ← Real.rpow_natCast, ← Real.rpow_mul hh]; norm_num

theorem delta_pos {d : Data} (hJ : 0 < d.J) : 0 < delta d := Real.rpow_pos_of_pos hJ _

/-! ### C79 -/

/-- C79 (Smagorinsky): in a cell of volume `h³` the subgrid viscosity is `(0.18 h)² √(2 S:S)` -/
theorem C79_smagorinsky (d : Data) (h : ℝ) (hh : 0 ≤ h) (hJ : d.J = h ^ 3) :
    nuSmag d = (18 / 100 * h) ^ 2 * Real.sqrt (2 * (symm (gradT d) * (symm (gradT d)).transpose).trace) := by
  unfold nuSmag
  rw [delta_cube hh hJ, ← magS_trace]
  norm_num

/-- C79 (mixed-scale): in a cell of volume `h³` the subgrid viscosity is the non-negative number whose fourth power is
    `0.06⁴ |S|² q_c² h⁶` -/
theorem C79_mixedScale (d : Data) (h qc : ℝ) (hh : 0 ≤ h) (hJ : d.J = h ^ 3) (hq : 0 ≤ qc) :
    0 ≤ nuMixed d qc ∧
    nuMixed d qc ^ 4 = (6 / 100) ^ 4 * (2 * (symm (gradT d) * (symm (gradT d)).transpose).trace) * qc * h ^ 6 := by
  have hm := magS_nonneg d
  have ht : magS d ^ 2 = 2 * (symm (gradT d) * (symm (gradT d)).transpose).trace := by
    rw [magS_trace, Real.sq_sqrt]
    have : (0:ℝ) ≤ (symm (gradT d) * (symm (gradT d)).transpose).trace := by
      simp only [Matrix.trace, Matrix.diag, Matrix.mul_apply, Matrix.transpose_apply]
      exact Finset.sum_nonneg fun l _ => Finset.sum_nonneg fun m _ => mul_self_nonneg _
    linarith
  unfold nuMixed
  rw [delta_cube hh hJ]
  refine ⟨by positivity, ?_⟩
  have e : ∀ (x a : ℝ), 0 ≤ x → (x ^ a) ^ 4 = x ^ (a * 4) := fun x a hx => by
    rw [← Real.rpow_natCast, ← Real.rpow_mul hx]; norm_num
  rw [mul_pow, mul_pow, mul_pow, e _ _ hm, e _ _ hq, e _ _ hh]
  have e1 : magS d ^ ((1:ℝ) / 2 * 4) = magS d ^ 2 := by norm_num
  have e2 : qc ^ ((1 - (1:ℝ) / 2) / 2 * 4) = qc := by norm_num
  have e3 : h ^ ((1 + (1:ℝ) / 2) * 4) = h ^ 6 := by
    rw [show (1 + (1:ℝ) / 2) * 4 = ((6:ℕ):ℝ) by norm_num, Real.rpow_natCast]
  rw [e1, e2, e3, ht]

theorem nu_nonneg (m : Model) (D : ℤ → ℤ → ℤ → Data) (U : Vel) (i j k : ℤ) (hJ : 0 ≤ (D i j k).J) : 0 ≤ nuOf m D U i j k := by
  cases m
  · exact le_rfl
  · unfold nuOf nuSmag delta
    have := magS_nonneg (D i j k)
    positivity
  · unfold nuOf nuMixed delta
    have := magS_nonneg (D i j k)
    have := qc2_nonneg U i j k
    positivity

theorem apply_eq (m : Model) (b : Blk) (D : ℤ → ℤ → ℤ → Data) (U : Vel) (qt : Qt) (i j k : ℤ) (hl : SubLoop b i j k) :
    apply m b D U qt i j k = addSgs b.ne (nuOf m D U i j k) (D i j k) (qt i j k) := by
  cases m
  · funext n
    match n with
    | 0 => simp [apply, nuOf, addSgs]
    | 1 => simp [apply, nuOf, addSgs]
    | n + 2 => simp [apply, nuOf, addSgs]
  · simp [apply, nuOf, hl]
  · simp [apply, nuOf, hl]

/-- C79 (what is added): with a subgrid kinematic viscosity `nu ≥ 0` per cell, one evaluation adds `rho nu` to the viscosity,
    `rho nu cp / 0.4` to the conductivity and `nu` to each species' diffusion coefficient, in the interior cells and in the
    first halo layer, and changes nothing else. -/
theorem C79_added (m : Model) (b : Blk) (D : ℤ → ℤ → ℤ → Data) (U : Vel) (qt : Qt) (i j k : ℤ)
    (hJ : 0 ≤ (D i j k).J) :
    ∃ nu : ℝ, 0 ≤ nu ∧ nu = nuOf m D U i j k ∧
    (SubLoop b i j k → apply m b D U qt i j k 0 = qt i j k 0 + (D i j k).rho * nu ∧
      apply m b D U qt i j k 1 = qt i j k 1 + (D i j k).rho * nu * (D i j k).cp / 0.4 ∧
      (∀ n, n < b.ne - 4 → apply m b D U qt i j k (2 + n) = qt i j k (2 + n) + nu) ∧
      (∀ n, 2 + (b.ne - 4) ≤ n → apply m b D U qt i j k n = qt i j k n)) ∧
    (¬ SubLoop b i j k → apply m b D U qt i j k = qt i j k) := by
  refine ⟨_, nu_nonneg m D U i j k hJ, rfl, fun hl => ?_, fun hl => ?_⟩
  · rw [apply_eq m b D U qt i j k hl]
    refine ⟨?_, ?_, ?_, ?_⟩
    · simp only [addSgs]; ring
    · simp only [addSgs]; rw [show (0.4:ℝ) = 4 / 10 by norm_num]; ring
    · intro n hn
      rw [show 2 + n = n + 2 by omega]
      simp only [addSgs]
      rw [if_pos (by omega), div_one]
    · intro n hn
      obtain ⟨n, rfl⟩ : ∃ n', n = n' + 2 := ⟨n - 2, by omega⟩
      simp only [addSgs]
      rw [if_neg (by omega)]
  · cases m <;> simp [apply, hl]

/-- C79 (never less diffusive): with non-negative volume, density and heat capacity no coefficient decreases -/
theorem C79_dissipative (m : Model) (b : Blk) (D : ℤ → ℤ → ℤ → Data) (U : Vel) (qt : Qt) (i j k : ℤ) (n : ℕ)
    (hJ : 0 ≤ (D i j k).J) (hr : 0 ≤ (D i j k).rho) (hc : 0 ≤ (D i j k).cp) :
    qt i j k n ≤ apply m b D U qt i j k n := by
  by_cases hl : SubLoop b i j k
  · rw [apply_eq m b D U qt i j k hl]
    have hn := nu_nonneg m D U i j k hJ
    match n with
    | 0 => simp only [addSgs]; linarith [mul_nonneg hn hr]
    | 1 =>
      simp only [addSgs]
      have : 0 ≤ nuOf m D U i j k * (D i j k).rho * (D i j k).cp / (4 / 10) := by positivity
      linarith
    | n + 2 =>
      simp only [addSgs]
      split_ifs
      · rw [div_one]; linarith
      · exact le_rfl
  · cases m <;> simp [apply, hl]

/-- C79 (rigid motion): Smagorinsky's viscosity vanishes exactly in cells whose velocity gradient is antisymmetric (uniform
    translation and rigid rotation) -/
theorem C79_rigid (d : Data) (hJ : 0 < d.J) : nuSmag d = 0 ↔ gradT d = -(gradT d).transpose := by
  unfold nuSmag
  have h : 0 < (18 / 100 * delta d) ^ (2:ℝ) := Real.rpow_pos_of_pos (by have := delta_pos hJ; positivity) _
  rw [mul_eq_zero, or_iff_right h.ne', magS_zero]
  constructor
  · intro hs
    ext l m
    have := hs l m
    simp only [symm, Matrix.smul_apply, Matrix.add_apply, Matrix.transpose_apply, smul_eq_mul] at this
    simp only [Matrix.neg_apply, Matrix.transpose_apply]
    linarith
  · intro he l m
    have := congrFun (congrFun he l) m
    simp only [Matrix.neg_apply, Matrix.transpose_apply] at this
    simp only [symm, Matrix.smul_apply, Matrix.add_apply, Matrix.transpose_apply, smul_eq_mul]
    rw [this]; ring

/-- C79 (linear velocity): the mixed-scale viscosity vanishes in cells around which the velocity varies linearly with the
    indices, and in strain-free cells -/
theorem C79_mixed_zero (d : Data) (U : Vel) (i j k : ℤ) :
    ((∃ a bi bj bk : V3, ∀ i' j' k' : ℤ, |i' - i| + |j' - j| + |k' - k| ≤ 1 →
      U i' j' k' = a + V3.smul i' bi + V3.smul j' bj + V3.smul k' bk) → nuMixed d (qc2 U i j k) = 0) ∧
    (gradT d = -(gradT d).transpose → nuMixed d (qc2 U i j k) = 0) := by
  constructor
  · rintro ⟨a, bi, bj, bk, h⟩
    have hq : qc2 U i j k = 0 := by
      have h0 := h i j k (by simp)
      have h1 := h (i - 1) j k (by simp)
      have h2 := h (i + 1) j k (by simp)
      have h3 := h i (j - 1) k (by simp)
      have h4 := h i (j + 1) k (by simp)
      have h5 := h i j (k - 1) (by simp)
      have h6 := h i j (k + 1) (by simp)
      unfold qc2 filter
      rw [h0, h1, h2, h3, h4, h5, h6]
      simp only [V3.add_x, V3.add_y, V3.add_z, V3.smul_x, V3.smul_y, V3.smul_z]
      push_cast
      ring
    rw [hq]
    unfold nuMixed
    rw [Real.zero_rpow (by norm_num)]
    ring
  · intro he
    have : magS d = 0 := magS_zero.2 fun l m => by
      have := congrFun (congrFun he l) m
      simp only [Matrix.neg_apply, Matrix.transpose_apply] at this
      simp only [symm, Matrix.smul_apply, Matrix.add_apply, Matrix.transpose_apply, smul_eq_mul]
      rw [this]; ring
    unfold nuMixed
    rw [this, Real.zero_rpow (by norm_num)]
    ring

/-- C79 (moving frame): adding a constant velocity to all cells changes neither model -/
theorem C79_galilean (m : Model) (D : ℤ → ℤ → ℤ → Data) (U : Vel) (c : V3) (i j k : ℤ) :
    nuOf m D (fun i j k => U i j k + c) i j k = nuOf m D U i j k := by
  have : qc2 (fun i j k => U i j k + c) i j k = qc2 U i j k := by
    unfold qc2 filter
    simp only [V3.add_x, V3.add_y, V3.add_z]
    ring
  cases m <;> simp [nuOf, this]

/-- components of a velocity as a vector -/
def toVec (a : V3) : Fin 3 → ℝ := ![a.x, a.y, a.z]

/-- C79 (rotated frame): rotating or reflecting the coordinate system (velocities by `R`, gradients to `R G Rᵀ`) changes neither
    model -/
theorem C79_rotation (m : Model) (D D' : ℤ → ℤ → ℤ → Data) (U U' : Vel) (R : Matrix (Fin 3) (Fin 3) ℝ) (hR : R.transpose * R = 1)
    (i j k : ℤ) (hJ : (D' i j k).J = (D i j k).J) (hG : gradT (D' i j k) = R * gradT (D i j k) * R.transpose)
    (hU : ∀ i j k, toVec (U' i j k) = R.mulVec (toVec (U i j k))) :
    nuOf m D' U' i j k = nuOf m D U i j k := by
  have hs : symm (gradT (D' i j k)) = R * symm (gradT (D i j k)) * R.transpose := by
    unfold symm
    rw [hG, Matrix.transpose_mul, Matrix.transpose_mul, Matrix.transpose_transpose, Matrix.mul_smul, Matrix.smul_mul,
      Matrix.mul_add, Matrix.add_mul, Matrix.mul_assoc R (gradT _).transpose]
  have hm : magS (D' i j k) = magS (D i j k) := by
    rw [magS_trace, magS_trace, hs]
    congr 2
    set S := symm (gradT (D i j k))
    calc (R * S * R.transpose * (R * S * R.transpose).transpose).trace
        = (R * (S * (R.transpose * R) * S.transpose * R.transpose)).trace := by
          simp only [Matrix.transpose_mul, Matrix.transpose_transpose, Matrix.mul_assoc]
      _ = (S * S.transpose * (R.transpose * R)).trace := by
          rw [hR, Matrix.mul_one, Matrix.trace_mul_comm, Matrix.mul_assoc (S * S.transpose), hR]
      _ = (S * S.transpose).trace := by rw [hR, Matrix.mul_one]
  have hd : delta (D' i j k) = delta (D i j k) := by unfold delta; rw [hJ]
  have hq : qc2 U' i j k = qc2 U i j k := by
    -- components of the rotated velocity
    have hx : ∀ i j k, (U' i j k).x = R 0 0 * (U i j k).x + R 0 1 * (U i j k).y + R 0 2 * (U i j k).z := fun i j k => by
      have := congrFun (hU i j k) 0
      simpa [toVec, Matrix.mulVec, dotProduct, Fin.sum_univ_three] using this
    have hy : ∀ i j k, (U' i j k).y = R 1 0 * (U i j k).x + R 1 1 * (U i j k).y + R 1 2 * (U i j k).z := fun i j k => by
      have := congrFun (hU i j k) 1
      simpa [toVec, Matrix.mulVec, dotProduct, Fin.sum_univ_three] using this
    have hz : ∀ i j k, (U' i j k).z = R 2 0 * (U i j k).x + R 2 1 * (U i j k).y + R 2 2 * (U i j k).z := fun i j k => by
      have := congrFun (hU i j k) 2
      simpa [toVec, Matrix.mulVec, dotProduct, Fin.sum_univ_three] using this
    -- rows of Rᵀ R = 1
    have r : ∀ a b : Fin 3, R 0 a * R 0 b + R 1 a * R 1 b + R 2 a * R 2 b = if a = b then 1 else 0 := fun a b => by
      have := congrFun (congrFun hR a) b
      simpa [Matrix.mul_apply, Fin.sum_univ_three, Matrix.one_apply] using this
    have r00 := r 0 0; have r11 := r 1 1; have r22 := r 2 2; have r01 := r 0 1; have r02 := r 0 2; have r12 := r 1 2
    simp at r00 r11 r22 r01 r02 r12
    -- differences from the filtered velocity transform the same way
    obtain ⟨X, hX⟩ : ∃ X, X = (U i j k).x - filter V3.x U i j k := ⟨_, rfl⟩
    obtain ⟨Y, hY⟩ : ∃ Y, Y = (U i j k).y - filter V3.y U i j k := ⟨_, rfl⟩
    obtain ⟨Z, hZ⟩ : ∃ Z, Z = (U i j k).z - filter V3.z U i j k := ⟨_, rfl⟩
    have ex : (U' i j k).x - filter V3.x U' i j k = R 0 0 * X + R 0 1 * Y + R 0 2 * Z := by
      rw [hX, hY, hZ]; unfold filter; simp only [hx]; ring
    have ey : (U' i j k).y - filter V3.y U' i j k = R 1 0 * X + R 1 1 * Y + R 1 2 * Z := by
      rw [hX, hY, hZ]; unfold filter; simp only [hy]; ring
    have ez : (U' i j k).z - filter V3.z U' i j k = R 2 0 * X + R 2 1 * Y + R 2 2 * Z := by
      rw [hX, hY, hZ]; unfold filter; simp only [hz]; ring
    unfold qc2
    rw [ex, ey, ez, ← hX, ← hY, ← hZ]
    linear_combination (1 / 2 * X ^ 2) * r00 + (1 / 2 * Y ^ 2) * r11 + (1 / 2 * Z ^ 2) * r22 + X * Y * r01 + X * Z * r02 +
      Y * Z * r12
  cases m
  · rfl
  · simp only [nuOf, nuSmag, hm, hd]
  · simp only [nuOf, nuMixed, hm, hd, hq]

/-- C79 (where needed): both cells of every face at which diffusive fluxes are computed (alphaDampingFlux.cpp:29-31: indices from
    `ng` to below `n + ng - 1`, one more in the face direction) have received the subgrid part. -/
theorem C79_covers_diffusion (b : Blk) (iMod jMod kMod : ℤ)
    (hd : (iMod, jMod, kMod) = (1, 0, 0) ∨ (iMod, jMod, kMod) = (0, 1, 0) ∨ (iMod, jMod, kMod) = (0, 0, 1)) (i j k : ℤ)
    (hi : b.ng ≤ i ∧ i < b.ni + b.ng - 1 + iMod) (hj : b.ng ≤ j ∧ j < b.nj + b.ng - 1 + jMod)
    (hk : b.ng ≤ k ∧ k < b.nk + b.ng - 1 + kMod) :
    SubLoop b i j k ∧ SubLoop b (i - iMod) (j - jMod) (k - kMod) := by
  simp only [Prod.mk.injEq] at hd
  unfold SubLoop
  omega

/-! ### once per evaluation -/

/-- coefficients after a sequence of calls -/
noncomputable def after (m : Model) (b : Blk) (qt : Qt) (cs : List Call) : Qt := cs.foldl (call m b) qt

/-- reading a sequence of calls while remembering whether the last one was a consistify; fails at an RHS that does not directly
    follow one -/
def scan : Bool → List Char → Option Bool
  | p, [] => some p
  | p, x :: r => if x = 'c' then scan true r else if p then scan false r else none

theorem scan_append (p : Bool) (a b : List Char) : scan p (a ++ b) = (scan p a).bind (fun q => scan q b) := by
  induction a generalizing p with
  | nil => rfl
  | cons x r ih =>
    simp only [List.cons_append, scan]
    split_ifs
    · exact ih _
    · exact ih _
    · rfl

/-- one step of every integrator, entered after a consistify, passes and leaves one behind -/
theorem scan_step (name : String) : scan true (callsOf name) = some true := by
  unfold callsOf
  split <;> decide

theorem scan_steps (name : String) (n : ℕ) : scan true (List.replicate n (callsOf name)).flatten = some true := by
  induction n with
  | zero => rfl
  | succ n ih => rw [List.replicate_succ, List.flatten_cons, scan_append, scan_step]; exact ih

theorem scan_last {p q : Bool} {a b : List Char} (h : scan p (a ++ 'r' :: b) = some q) :
    (a = [] ∧ p = true) ∨ ∃ a', a = a' ++ ['c'] := by
  induction a generalizing p with
  | nil =>
    simp only [List.nil_append, scan] at h
    rw [if_neg (by decide)] at h
    cases p
    · simp at h
    · exact Or.inl ⟨rfl, rfl⟩
  | cons x r ih =>
    simp only [List.cons_append, scan] at h
    split_ifs at h with h1 h2
    · rcases ih h with ⟨rfl, -⟩ | ⟨a', rfl⟩
      · exact Or.inr ⟨[], by rw [h1]; rfl⟩
      · exact Or.inr ⟨x :: a', rfl⟩
    · rcases ih h with ⟨-, h⟩ | ⟨a', rfl⟩
      · cases h
      · exact Or.inr ⟨x :: a', rfl⟩

/-- C79 (once per evaluation): in every run (the consistify of the start followed by any number of steps of any integrator), at
    every evaluation of the right-hand side the coefficients used are the molecular ones of the flow field just made consistent,
    the viscosity times the sponge factor, plus the subgrid part exactly once. -/
theorem C79_once (m : Model) (b : Blk) (qt0 : Qt) (name : String) (n : ℕ) (cs : List Call)
    (hcs : cs.map Call.kind = 'c' :: (List.replicate n (callsOf name)).flatten)
    (p q : List Call) (D : ℤ → ℤ → ℤ → Data) (U : Vel) (hsplit : cs = p ++ .rhs D U :: q) :
    ∃ p' mol sp, p = p' ++ [.consistify mol sp] ∧
      after m b qt0 (p ++ [.rhs D U]) =
        apply m b D U (fun i j k n => if n = 0 ∧ SubLoop b i j k then mol i j k 0 * sp i j k else mol i j k n) := by
  have hs : scan false (cs.map Call.kind) = some true := by
    rw [hcs]; simp only [scan, if_true]; exact scan_steps name n
  rw [hsplit, List.map_append, List.map_cons] at hs
  obtain ⟨a', ha'⟩ : ∃ a', p.map Call.kind = a' ++ ['c'] := by
    rcases scan_last hs with ⟨-, h⟩ | h
    · cases h
    · exact h
  obtain ⟨p', l, rfl⟩ : ∃ p' l, p = p' ++ [l] := by
    rcases List.eq_nil_or_concat p with rfl | ⟨p', l, rfl⟩
    · simp at ha'
    · exact ⟨p', l, by simp⟩
  rw [List.map_append, List.map_singleton] at ha'
  have hl : l.kind = 'c' := by
    have := List.append_inj_right' ha' rfl
    simpa using this
  cases l with
  | rhs D U => exact absurd hl (by simp only [Call.kind]; decide)
  | consistify mol sp =>
    refine ⟨p', mol, sp, rfl, ?_⟩
    simp only [after, List.foldl_append, List.foldl_cons, List.foldl_nil, call]

/-! ### examples -/

/-- shear flow `u = y` in a cell of volume 1/8 -/
noncomputable def shear : Data := ⟨⟨0, 1, 0⟩, ⟨0, 0, 0⟩, ⟨0, 0, 0⟩, 1 / 8, 2, 1000⟩

/-- Smagorinsky in a shear flow: `nu = (0.18 · 0.5)²` -/
example : nuSmag shear = 81 / 10000 := by
  rw [C79_smagorinsky shear (1 / 2) (by norm_num) (by norm_num [shear])]
  have : Real.sqrt (2 * (symm (gradT shear) * (symm (gradT shear)).transpose).trace) = 1 := by
    rw [← magS_trace]
    unfold magS
    rw [show (2 * ∑ l, ∑ m, strain shear l m * strain shear l m : ℝ) = 1 by
      norm_num [Fin.sum_univ_three, strain, shear], Real.sqrt_one]
  rw [this]; norm_num

/-- a rotation satisfies the hypothesis of the antisymmetric case -/
example : nuSmag ⟨⟨0, -1, 0⟩, ⟨1, 0, 0⟩, ⟨0, 0, 0⟩, 1 / 8, 2, 1000⟩ = 0 := by
  refine (C79_rigid _ (by norm_num)).2 ?_
  ext l m
  fin_cases l <;> fin_cases m <;> simp [gradT]

/-- a run of two rk2 steps -/
example (mol : Qt) (sp : ℤ → ℤ → ℤ → ℝ) (D : ℤ → ℤ → ℤ → Data) (U : Vel) :
    ([.consistify mol sp, .rhs D U, .consistify mol sp, .rhs D U, .consistify mol sp, .rhs D U, .consistify mol sp, .rhs D U,
      .consistify mol sp] : List Call).map Call.kind = 'c' :: (List.replicate 2 (callsOf "rk2")).flatten := rfl

end PG.Subgrid
