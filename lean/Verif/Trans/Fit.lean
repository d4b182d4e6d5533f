import Verif.Trans.KTProps
import Mathlib.Algebra.Polynomial.Roots
import Mathlib.Analysis.InnerProductSpace.PiL2
import Mathlib.Analysis.InnerProductSpace.Projection.FiniteDimensional

/-! C105: the fitted coefficients the transport kernels evaluate. -/
noncomputable section
namespace PG.Trans.KT

/-! ### specification -/

/-- polynomial with coefficients highest power first (`np.polyfit`) -/
def polyHigh (c : Fin 5 → ℝ) (x : ℝ) : ℝ := c 0 * x ^ 4 + c 1 * x ^ 3 + c 2 * x ^ 2 + c 3 * x + c 4

/-- polynomial with coefficients lowest power first -/
def polyLow (c : ℕ → ℝ) (x : ℝ) : ℝ := c 0 + c 1 * x + c 2 * x ^ 2 + c 3 * x ^ 3 + c 4 * x ^ 4

/-- weighted sum of squares `np.polyfit` minimises: the weights multiply the residuals before squaring -/
def sse (x y w : Fin 50 → ℝ) (c : Fin 5 → ℝ) : ℝ := ∑ s, (w s * (polyHigh c (x s) - y s)) ^ 2

/-- `np.polyfit` as documented -/
def Minimises (fit : Polyfit) : Prop := ∀ x y w c, sse x y w (fit x y w) ≤ sse x y w c

/-! ### least squares -/

/-- the polynomial as an object -/
def asPoly (c : Fin 5 → ℝ) : Polynomial ℝ :=
  .C (c 0) * .X ^ 4 + .C (c 1) * .X ^ 3 + .C (c 2) * .X ^ 2 + .C (c 3) * .X + .C (c 4)

theorem asPoly_eval (c : Fin 5 → ℝ) (x : ℝ) : (asPoly c).eval x = polyHigh c x := by simp [asPoly, polyHigh]

theorem asPoly_deg (c : Fin 5 → ℝ) : (asPoly c).natDegree < 5 := by
  have : (asPoly c).natDegree ≤ 4 := by unfold asPoly; compute_degree
  omega

theorem asPoly_zero {c : Fin 5 → ℝ} (h : asPoly c = 0) : c = 0 := by
  have k : ∀ n, (asPoly c).coeff n = 0 := fun n => by rw [h]; simp
  have h0 := k 4; have h1 := k 3; have h2 := k 2; have h3 := k 1; have h4 := k 0
  simp [asPoly, Polynomial.coeff_X, Polynomial.coeff_C] at h0 h1 h2 h3 h4
  funext i
  fin_cases i <;> assumption

theorem zero_of_values {x : Fin 50 → ℝ} (hx : Function.Injective x) {c : Fin 5 → ℝ} (h : ∀ s, polyHigh c (x s) = 0) : c = 0 := by
  refine asPoly_zero (Polynomial.eq_zero_of_natDegree_lt_card_of_eval_eq_zero (asPoly c) hx (fun s => by rw [asPoly_eval]; exact h s) ?_)
  have := asPoly_deg c
  rw [Fintype.card_fin]; omega

theorem polyHigh_sub (a b : Fin 5 → ℝ) (x : ℝ) : polyHigh (a - b) x = polyHigh a x - polyHigh b x := by
  unfold polyHigh; simp only [Pi.sub_apply]; ring

theorem unique_of_min {x y w : Fin 50 → ℝ} (hx : Function.Injective x) (hw : ∀ s, w s ≠ 0) {a b : Fin 5 → ℝ}
    (ha : ∀ c, sse x y w a ≤ sse x y w c) (hb : ∀ c, sse x y w b ≤ sse x y w c) : a = b := by
  set m : Fin 5 → ℝ := fun i => (a i + b i) / 2 with hm
  have hmid : ∀ t, polyHigh m t = (polyHigh a t + polyHigh b t) / 2 := fun t => by unfold polyHigh; simp only [hm]; ring
  have key : sse x y w m = (sse x y w a + sse x y w b) / 2 - ∑ s, (w s * polyHigh (a - b) (x s)) ^ 2 / 4 := by
    unfold sse
    rw [← Finset.sum_add_distrib, Finset.sum_div, ← Finset.sum_sub_distrib]
    refine Finset.sum_congr rfl fun s _ => ?_
    rw [hmid, polyHigh_sub]; ring
  have h1 := ha m
  have h2 := hb m
  have hz : ∑ s, (w s * polyHigh (a - b) (x s)) ^ 2 / 4 = 0 :=
    le_antisymm (by linarith) (Finset.sum_nonneg fun s _ => by positivity)
  have hz' := (Finset.sum_eq_zero_iff_of_nonneg (fun s _ => by positivity)).1 hz
  have : a - b = 0 := zero_of_values hx fun s => by
    have := hz' s (Finset.mem_univ s)
    have h3 : w s * polyHigh (a - b) (x s) = 0 := by
      have : (w s * polyHigh (a - b) (x s)) ^ 2 = 0 := by linarith
      exact pow_eq_zero_iff (two_ne_zero) |>.1 this
    exact (mul_eq_zero.1 h3).resolve_left (hw s)
  exact sub_eq_zero.1 this

/-- weighted values of a polynomial -/
def design (x w : Fin 50 → ℝ) : (Fin 5 → ℝ) →ₗ[ℝ] EuclideanSpace ℝ (Fin 50) where
  toFun c := WithLp.toLp 2 fun s => w s * polyHigh c (x s)
  map_add' a b := by ext s; simp [polyHigh]; ring
  map_smul' r a := by ext s; simp [polyHigh]; ring

theorem sse_norm (x y w : Fin 50 → ℝ) (c : Fin 5 → ℝ) :
    sse x y w c = ‖(WithLp.toLp 2 fun s => w s * y s : EuclideanSpace ℝ (Fin 50)) - design x w c‖ ^ 2 := by
  rw [EuclideanSpace.norm_sq_eq]
  unfold sse
  refine Finset.sum_congr rfl fun s _ => ?_
  simp only [design, LinearMap.coe_mk, AddHom.coe_mk, PiLp.sub_apply, Real.norm_eq_abs, sq_abs]
  ring

theorem exists_min (x y w : Fin 50 → ℝ) : ∃ c, ∀ c', sse x y w c ≤ sse x y w c' := by
  set U := LinearMap.range (design x w)
  set u : EuclideanSpace ℝ (Fin 50) := WithLp.toLp 2 fun s => w s * y s with hu
  obtain ⟨c, hc⟩ : U.starProjection u ∈ U := Submodule.starProjection_apply_mem U u
  refine ⟨c, fun c' => ?_⟩
  rw [sse_norm, sse_norm, ← hu, hc]
  refine pow_le_pow_left₀ (norm_nonneg _) ?_ 2
  rw [Submodule.starProjection_minimal]
  exact ciInf_le ⟨0, by rintro _ ⟨v, rfl⟩; exact norm_nonneg _⟩ (⟨design x w c', ⟨c', rfl⟩⟩ : U)

/-- some `np.polyfit` meets its documentation -/
example : ∃ fit : Polyfit, Minimises fit :=
  ⟨fun x y w => (exists_min x y w).choose, fun x y w => (exists_min x y w).choose_spec⟩

theorem logTs_inj : Function.Injective fun s => Real.log (Ts s) := by
  intro a b h
  have hp : ∀ s : Fin 50, 0 < Ts s := fun s => by
    have : (0 : ℝ) ≤ (s : ℕ) := Nat.cast_nonneg _
    unfold Ts; linarith
  have := Real.log_injOn_pos (Set.mem_Ioi.2 (hp a)) (Set.mem_Ioi.2 (hp b)) h
  unfold Ts at this
  have h2 : ((a : ℕ) : ℝ) = (b : ℕ) := by linarith
  exact Fin.ext (by exact_mod_cast h2)

theorem Ts_pos (s : Fin 50) : 0 < Ts s := by
  have : (0 : ℝ) ≤ (s : ℕ) := Nat.cast_nonneg _
  unfold Ts; linarith

variable {fit : Polyfit}

/-- the stored row evaluates to the fitted polynomial -/
theorem row_eval (y : Fin 50 → ℝ) (x : ℝ) :
    ∑ i ∈ Finset.range 5, row fit y i * x ^ i = polyHigh (fit (fun s => Real.log (Ts s)) y fun s => 1 / y s ^ 2) x := by
  set c := fit (fun s => Real.log (Ts s)) y fun s => 1 / y s ^ 2 with hc
  have r0 : row fit y 0 = c 4 := rfl
  have r1 : row fit y 1 = c 3 := rfl
  have r2 : row fit y 2 = c 2 := rfl
  have r3 : row fit y 3 = c 1 := rfl
  have r4 : row fit y 4 = c 0 := rfl
  simp only [Finset.sum_range_succ, Finset.sum_range_zero, r0, r1, r2, r3, r4]
  unfold polyHigh
  ring

theorem fit_exact (hf : Minimises fit) {x y w : Fin 50 → ℝ} (hx : Function.Injective x) (hw : ∀ s, w s ≠ 0) {q : Fin 5 → ℝ}
    (hq : ∀ s, y s = polyHigh q (x s)) : fit x y w = q := by
  refine unique_of_min hx hw (hf x y w) fun c => ?_
  have : sse x y w q = 0 := Finset.sum_eq_zero fun s _ => by rw [hq s]; simp
  rw [this]
  exact Finset.sum_nonneg fun s _ => by positivity

theorem row_exact (hf : Minimises fit) {y : Fin 50 → ℝ} (hy : ∀ s, y s ≠ 0) {q : ℕ → ℝ} (hq : ∀ s, y s = polyLow q (Real.log (Ts s))) (x : ℝ) :
    ∑ i ∈ Finset.range 5, row fit y i * x ^ i = polyLow q x := by
  have : fit (fun s => Real.log (Ts s)) y (fun s => 1 / y s ^ 2) = fun i : Fin 5 => q (4 - i) :=
    fit_exact hf logTs_inj (fun s => by have := hy s; positivity) fun s => by
      rw [hq s]; unfold polyLow polyHigh; norm_num; ring
  rw [row_eval, this]
  unfold polyLow polyHigh; norm_num; ring

/-! ### theorems -/

variable {d : SpData} {h : Heat} {o22 astar : ℝ → ℝ → ℝ} {mu0 kappa0 : ℕ → ℝ}

/-- **C105 (unique).** At the fifty temperatures the weighted least-squares quartic in `ln T` exists and is unique, whatever the
    (nonzero) data: the stored coefficients do not depend on the library that finds them. -/
theorem C105_unique (y : Fin 50 → ℝ) (hy : ∀ s, y s ≠ 0) :
    ∃! c : Fin 5 → ℝ, ∀ c', sse (fun s => Real.log (Ts s)) y (fun s => 1 / y s ^ 2) c ≤ sse (fun s => Real.log (Ts s)) y (fun s => 1 / y s ^ 2) c' := by
  obtain ⟨c, hc⟩ := exists_min (fun s => Real.log (Ts s)) y fun s => 1 / y s ^ 2
  exact ⟨c, hc, fun b hb => unique_of_min logTs_inj (fun s => by have := hy s; positivity) hb hc⟩

/-- **C105 (sample points).** The fits are made at fifty equally spaced temperatures from 200 K to 5000 K, both included. -/
theorem C105_samples : Ts 0 = 200 ∧ Ts 49 = 5000 ∧ ∃ h > 0, ∀ s t : Fin 50, (s : ℕ) + 1 = t → Ts t - Ts s = h := by
  refine ⟨by unfold Ts; norm_num, by unfold Ts; norm_num, (5000 - 200) / 49, by norm_num, fun s t hst => ?_⟩
  unfold Ts
  rw [← hst]; push_cast; ring

theorem tables_eq {tb : Tab} (ht : tables d h o22 astar fit mu0 kappa0 = some tb) (hg : ∀ k < d.ns, rot (d.geometry k) ≠ none) :
    tb.ns = d.ns ∧ tb.MW = d.MW ∧ tb.muPoly = muPoly d o22 fit ∧
    (∀ k < d.ns, ∀ c, rot (d.geometry k) = some c → tb.kappaPoly k = kappaPoly d h o22 astar fit k c) ∧
    ∀ n n2, n ≤ n2 → n2 < d.ns → tb.DijPoly (packIdx d.ns n n2) = row fit fun s => diff d o22 astar (Ts s) n n2 / Ts s ^ (3 / 2 : ℝ) := by
  unfold tables at ht
  rw [mapM_all (g := fun k => (rot (d.geometry k)).getD 0) _ fun k hk => ?_] at ht
  · rw [Option.map_some, Option.some_inj] at ht
    subst ht
    refine ⟨rfl, rfl, rfl, fun k hk c hc => ?_, fun n n2 h1 h2 => ?_⟩
    · show kappaPoly d h o22 astar fit k (((List.range d.ns).map fun k => (rot (d.geometry k)).getD 0).getD k 0) = _
      rw [List.getD_eq_getElem?_getD, List.getElem?_map, List.getElem?_range hk]
      simp [hc]
    · show (DijPoly d o22 astar fit).getD (packIdx d.ns n n2) (fun _ => 0) = _
      have : (loopPairs d.ns)[packIdx d.ns n n2]? = some (n, n2) := C78_packed_index d.ns n n2 h1 h2
      unfold DijPoly
      rw [List.getD_eq_getElem?_getD, List.getElem?_map, this]
      rfl
  · rw [rotDOF_some hg (List.mem_range.1 hk)]
    cases hx : rot (d.geometry k) with
    | none => exact absurd hx (hg k (List.mem_range.1 hk))
    | some x => rfl

/-- **C105 (which fit is where).** What the solver evaluates for a species, or for a pair in either order, is the fit of that
    species' or pair's own table, scaled back: `√T P(ln T)²`, `√T P(ln T)`, `T√T P(ln T)` with `P` the minimiser for `√(μ/√T)`,
    `κ/√T`, `D/T^{3/2}`. -/
theorem C105_rows {tb : Tab} (ht : tables d h o22 astar fit mu0 kappa0 = some tb) (hf : Minimises fit) (T : ℝ) :
    (∀ k < d.ns, ∃ P, (∀ c, sse (fun s => Real.log (Ts s)) (fun s => Real.sqrt (visc d o22 (Ts s) k / Real.sqrt (Ts s)))
          (fun s => 1 / Real.sqrt (visc d o22 (Ts s) k / Real.sqrt (Ts s)) ^ 2) P
        ≤ sse (fun s => Real.log (Ts s)) (fun s => Real.sqrt (visc d o22 (Ts s) k / Real.sqrt (Ts s)))
          (fun s => 1 / Real.sqrt (visc d o22 (Ts s) k / Real.sqrt (Ts s)) ^ 2) c) ∧
      fitMu tb T k = Real.sqrt T * polyHigh P (Real.log T) ^ 2) ∧
    (∀ k < d.ns, ∃ c, rot (d.geometry k) = some c ∧ ∃ P, (∀ c', sse (fun s => Real.log (Ts s)) (fun s => condOf d h o22 astar (Ts s) k c / Real.sqrt (Ts s))
          (fun s => 1 / (condOf d h o22 astar (Ts s) k c / Real.sqrt (Ts s)) ^ 2) P
        ≤ sse (fun s => Real.log (Ts s)) (fun s => condOf d h o22 astar (Ts s) k c / Real.sqrt (Ts s))
          (fun s => 1 / (condOf d h o22 astar (Ts s) k c / Real.sqrt (Ts s)) ^ 2) c') ∧
      fitKappa tb T k = Real.sqrt T * polyHigh P (Real.log T)) ∧
    (∀ n < d.ns, ∀ n2 < d.ns, ∃ P, (∀ c, sse (fun s => Real.log (Ts s)) (fun s => diff d o22 astar (Ts s) n n2 / Ts s ^ (3 / 2 : ℝ))
          (fun s => 1 / (diff d o22 astar (Ts s) n n2 / Ts s ^ (3 / 2 : ℝ)) ^ 2) P
        ≤ sse (fun s => Real.log (Ts s)) (fun s => diff d o22 astar (Ts s) n n2 / Ts s ^ (3 / 2 : ℝ))
          (fun s => 1 / (diff d o22 astar (Ts s) n n2 / Ts s ^ (3 / 2 : ℝ)) ^ 2) c) ∧
      ∀ p, binary tb T p n n2 = T * Real.sqrt T * polyHigh P (Real.log T) / p) := by
  have hg : ∀ k < d.ns, rot (d.geometry k) ≠ none := by
    have e : ∀ g : String, rot g ≠ none ↔ g = "atom" ∨ g = "linear" ∨ g = "nonlinear" := by
      intro g; unfold rot; split <;> simp_all
    intro k hk
    rw [e]
    exact C104_geometry.1 (by rw [ht]; simp) k hk
  obtain ⟨e1, e2, e3, e4, e5⟩ := tables_eq ht hg
  refine ⟨fun k hk => ⟨_, hf _ _ _, ?_⟩, fun k hk => ?_, fun n hn n2 hn2 => ?_⟩
  · unfold fitMu
    rw [e3]
    unfold muPoly
    rw [row_eval]
  · obtain ⟨c, hc⟩ := Option.ne_none_iff_exists'.1 (hg k hk)
    refine ⟨c, hc, _, hf _ _ _, ?_⟩
    unfold fitKappa
    rw [e4 k hk c hc]
    unfold kappaPoly
    rw [row_eval]
  · refine ⟨_, hf _ _ _, fun p => ?_⟩
    rw [binary_eq tb T p (by omega) (by omega), e1]
    unfold fitD
    have hd : ∀ T, diff d o22 astar T (min n n2) (max n n2) = diff d o22 astar T n n2 := fun T => by
      rcases le_total n n2 with hle | hle
      · rw [min_eq_left hle, max_eq_right hle]
      · rw [min_eq_right hle, max_eq_left hle]
        unfold diff
        rcases Nat.eq_or_lt_of_le hle with rfl | hlt
        · rfl
        · rw [if_pos hle, if_neg (by omega)]
    rw [e5 _ _ (by omega) (by omega)]
    simp only [hd]
    rw [row_eval]

/-- **C105 (exact).** Where the kinetic-theory value of a property, scaled, is a quartic in `ln T`, the solver's species
    value is the kinetic-theory value: viscosity and conductivity of every species, binary diffusion of every pair. -/
theorem C105_exact {tb : Tab} (hs : Sane d) (ho : ∀ a b, 0 < o22 a b) (ha : ∀ a b, 0 < astar a b)
    (ht : tables d h o22 astar fit mu0 kappa0 = some tb) (hf : Minimises fit) {T : ℝ} (hT : 0 < T) :
    (∀ k < d.ns, ∀ q : ℕ → ℝ, (∀ t > 0, visc d o22 t k = Real.sqrt t * polyLow q (Real.log t) ^ 2) → (∀ t > 0, 0 ≤ polyLow q (Real.log t)) →
      fitMu tb T k = visc d o22 T k) ∧
    (∀ k < d.ns, ∀ c, rot (d.geometry k) = some c → ∀ q : ℕ → ℝ, (∀ t > 0, condOf d h o22 astar t k c = Real.sqrt t * polyLow q (Real.log t)) →
      (∀ s, condOf d h o22 astar (Ts s) k c ≠ 0) → fitKappa tb T k = condOf d h o22 astar T k c) ∧
    (∀ n < d.ns, ∀ n2 < d.ns, ∀ q : ℕ → ℝ, (∀ t > 0, diff d o22 astar t n n2 = t ^ (3 / 2 : ℝ) * polyLow q (Real.log t)) → ∀ p,
      binary tb T p n n2 = diff d o22 astar T n n2 / p) := by
  have hsT : ∀ s, 0 < Real.sqrt (Ts s) := fun s => Real.sqrt_pos.2 (Ts_pos s)
  have low_high : ∀ (q : ℕ → ℝ) (x : ℝ), polyHigh (fun i : Fin 5 => q (4 - i)) x = polyLow q x := fun q x => by
    unfold polyLow polyHigh; norm_num; ring
  obtain ⟨r1, r2, r3⟩ := C105_rows ht hf T
  refine ⟨fun k hk q hq hq0 => ?_, fun k hk c hc q hq hne => ?_, fun n hn n2 hn2 q hq p => ?_⟩
  · obtain ⟨P, hP, e⟩ := r1 k hk
    have hy : ∀ s, Real.sqrt (visc d o22 (Ts s) k / Real.sqrt (Ts s)) = polyLow q (Real.log (Ts s)) := fun s => by
      rw [hq _ (Ts_pos s), mul_div_cancel_left₀ _ (hsT s).ne', Real.sqrt_sq (hq0 _ (Ts_pos s))]
    have hPq : P = fun i : Fin 5 => q (4 - i) := by
      refine unique_of_min logTs_inj (fun s => ?_) hP fun c => ?_
      · have h1 := (C104_viscosity hs ho (Ts_pos s) hk).2
        have h2 := hsT s
        positivity
      · have : sse (fun s => Real.log (Ts s)) (fun s => Real.sqrt (visc d o22 (Ts s) k / Real.sqrt (Ts s)))
            (fun s => 1 / Real.sqrt (visc d o22 (Ts s) k / Real.sqrt (Ts s)) ^ 2) (fun i : Fin 5 => q (4 - i)) = 0 :=
          Finset.sum_eq_zero fun s _ => by simp only [low_high, hy, sub_self, mul_zero]; norm_num
        rw [this]
        exact Finset.sum_nonneg fun s _ => by positivity
    rw [e, hPq, low_high, hq T hT]
  · obtain ⟨c', hc', P, hP, e⟩ := r2 k hk
    have : c' = c := by rw [hc] at hc'; exact (Option.some.inj hc').symm
    subst this
    have hy : ∀ s, condOf d h o22 astar (Ts s) k c' / Real.sqrt (Ts s) = polyLow q (Real.log (Ts s)) := fun s => by
      rw [hq _ (Ts_pos s), mul_div_cancel_left₀ _ (hsT s).ne']
    have hPq : P = fun i : Fin 5 => q (4 - i) := by
      refine unique_of_min logTs_inj (fun s => ?_) hP fun c => ?_
      · have h1 := hne s
        have h2 := hsT s
        positivity
      · have : sse (fun s => Real.log (Ts s)) (fun s => condOf d h o22 astar (Ts s) k c' / Real.sqrt (Ts s))
            (fun s => 1 / (condOf d h o22 astar (Ts s) k c' / Real.sqrt (Ts s)) ^ 2) (fun i : Fin 5 => q (4 - i)) = 0 :=
          Finset.sum_eq_zero fun s _ => by simp only [low_high, hy, sub_self, mul_zero]; norm_num
        rw [this]
        exact Finset.sum_nonneg fun s _ => by positivity
    rw [e, hPq, low_high, hq T hT]
  · obtain ⟨P, hP, e⟩ := r3 n hn n2 hn2
    have hy : ∀ s, diff d o22 astar (Ts s) n n2 / Ts s ^ (3 / 2 : ℝ) = polyLow q (Real.log (Ts s)) := fun s => by
      have := Real.rpow_pos_of_pos (Ts_pos s) (3 / 2 : ℝ)
      rw [hq _ (Ts_pos s), mul_div_cancel_left₀ _ this.ne']
    have hPq : P = fun i : Fin 5 => q (4 - i) := by
      refine unique_of_min logTs_inj (fun s => ?_) hP fun c => ?_
      · have h1 := (C104_diffusion hs ho ha (Ts_pos s) hn hn2).2.1
        have h2 := Real.rpow_pos_of_pos (Ts_pos s) (3 / 2 : ℝ)
        positivity
      · have : sse (fun s => Real.log (Ts s)) (fun s => diff d o22 astar (Ts s) n n2 / Ts s ^ (3 / 2 : ℝ))
            (fun s => 1 / (diff d o22 astar (Ts s) n n2 / Ts s ^ (3 / 2 : ℝ)) ^ 2) (fun i : Fin 5 => q (4 - i)) = 0 :=
          Finset.sum_eq_zero fun s _ => by simp only [low_high, hy, sub_self, mul_zero]; norm_num
        rw [this]
        exact Finset.sum_nonneg fun s _ => by positivity
    rw [e, hPq, low_high, hq T hT, rpow_three_halves hT.le, show T ^ 3 = T ^ 2 * T by ring, Real.sqrt_mul (by positivity), Real.sqrt_sq hT.le]

/-- **C105 (mixture).** Where the species viscosities and conductivities are such, the mixture values the solver stores for a
    cell, on clean accumulators and away from pure species (as in C77), are Wilke's rule and the mean rule applied to the
    kinetic-theory values. -/
theorem C105_mixture {tb : Tab} (hs : Sane d) (ho : ∀ a b, 0 < o22 a b) (ha : ∀ a b, 0 < astar a b)
    (ht : tables d h o22 astar fit mu0 kappa0 = some tb) (hf : Minimises fit) (hns : 1 ≤ d.ns) (junk : Scr) (c : TrIn) (hT : 0 < c.T)
    (hp : NotPure d.ns d.MW c) (q1 q2 : ℕ → ℕ → ℝ) (cv : ℕ → ℝ) (hcv : ∀ k < d.ns, rot (d.geometry k) = some (cv k))
    (h1 : ∀ k < d.ns, ∀ t > 0, visc d o22 t k = Real.sqrt t * polyLow (q1 k) (Real.log t) ^ 2 ∧ 0 ≤ polyLow (q1 k) (Real.log t))
    (h2 : ∀ k < d.ns, ∀ t > 0, condOf d h o22 astar t k (cv k) = Real.sqrt t * polyLow (q2 k) (Real.log t) ∧ condOf d h o22 astar t k (cv k) ≠ 0) :
    (kinStep tb junk.nscompile c).2.mu = wilke d.ns d.MW (visc d o22 c.T) (moleFrac d.ns d.MW c) ∧
    (kinStep tb junk.nscompile c).2.kappa =
      (let X := moleFrac d.ns d.MW c
       (∑ n ∈ Finset.range d.ns, X n * condOf d h o22 astar c.T n (cv n)
         + 1 / ∑ n ∈ Finset.range d.ns, X n / condOf d h o22 astar c.T n (cv n)) / 2) := by
  obtain ⟨e1, e2, -⟩ := tables_eq ht fun k hk => by rw [hcv k hk]; simp
  obtain ⟨x1, x2, -⟩ := C105_exact hs ho ha ht hf hT
  have m1 : ∀ k < d.ns, fitMu tb c.T k = visc d o22 c.T k := fun k hk =>
    x1 k hk (q1 k) (fun t h => (h1 k hk t h).1) fun t h => (h1 k hk t h).2
  have m2 : ∀ k < d.ns, fitKappa tb c.T k = condOf d h o22 astar c.T k (cv k) := fun k hk =>
    x2 k hk _ (hcv k hk) (q2 k) (fun t h => (h2 k hk t h).1) fun s => (h2 k hk _ (Ts_pos s)).2
  obtain ⟨k1, k2⟩ := C77_kinetic_partial tb (by omega) junk c (by rw [e1, e2]; exact hp)
  rw [k1, k2, e1, e2]
  refine ⟨wilke_congr m1 fun _ _ => rfl, ?_⟩
  have s1 : ∑ n ∈ Finset.range d.ns, moleFrac d.ns d.MW c n * fitKappa tb c.T n
      = ∑ n ∈ Finset.range d.ns, moleFrac d.ns d.MW c n * condOf d h o22 astar c.T n (cv n) :=
    Finset.sum_congr rfl fun n hn => by rw [m2 n (Finset.mem_range.1 hn)]
  have s2 : ∑ n ∈ Finset.range d.ns, moleFrac d.ns d.MW c n / fitKappa tb c.T n
      = ∑ n ∈ Finset.range d.ns, moleFrac d.ns d.MW c n / condOf d h o22 astar c.T n (cv n) :=
    Finset.sum_congr rfl fun n hn => by rw [m2 n (Finset.mem_range.1 hn)]
  dsimp only
  rw [s1, s2]

/-- with collision integrals that do not vary (hard spheres) viscosity and diffusion of the two-species mixture are such -/
example : (∀ k < exMix.ns, ∃ q : ℕ → ℝ, ∀ t > 0, visc exMix (fun _ _ => 1) t k = Real.sqrt t * polyLow q (Real.log t) ^ 2 ∧
      0 ≤ polyLow q (Real.log t)) ∧
    ∀ n < exMix.ns, ∀ n2 < exMix.ns, ∃ q : ℕ → ℝ, ∀ t > 0, diff exMix (fun _ _ => 1) (fun _ _ => 1) t n n2 = t ^ (3 / 2 : ℝ) * polyLow q (Real.log t) := by
  have hlow : ∀ a x : ℝ, polyLow (fun i => if i = 0 then a else 0) x = a := fun a x => by simp [polyLow]
  refine ⟨fun k hk => ?_, fun n hn n2 hn2 => ?_⟩
  · refine ⟨fun i => if i = 0 then Real.sqrt (visc exMix (fun _ _ => 1) 1 k) else 0, fun t ht => ?_⟩
    rw [hlow]
    have h1 := C104_viscosity exMix_sane (o22 := fun _ _ => 1) (fun _ _ => one_pos) one_pos hk
    refine ⟨?_, Real.sqrt_nonneg _⟩
    rw [Real.sq_sqrt h1.2.le]
    unfold visc
    rw [mul_one, show Real.pi * mass exMix k * exMix.kb * t = t * (Real.pi * mass exMix k * exMix.kb) by ring, Real.sqrt_mul ht.le]
    ring
  · have hl : ∀ a b : ℕ, ∀ t > 0, diffLoop exMix (fun _ _ => 1) (fun _ _ => 1) t a b
        = t ^ (3 / 2 : ℝ) * diffLoop exMix (fun _ _ => 1) (fun _ _ => 1) 1 a b := fun a b t ht => by
      unfold diffLoop
      dsimp only
      rw [mul_one, Real.mul_rpow exMix_sane.kb.le ht.le]
      ring
    refine ⟨fun i => if i = 0 then diff exMix (fun _ _ => 1) (fun _ _ => 1) 1 n n2 else 0, fun t ht => ?_⟩
    rw [hlow]
    unfold diff
    split_ifs <;> exact hl _ _ t ht

end PG.Trans.KT
