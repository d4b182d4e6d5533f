import Verif.Chem.Loop
import Mathlib.Algebra.Order.BigOperators.Group.Finset
import Mathlib.Tactic.NormNum
import Mathlib.Tactic.LinearCombination

/-! C84: the sub-step loop of the chemistry kernels, for any production rates. -/
noncomputable section
namespace PG.Chem
open PG.Thermo Finset

variable {th : Th} {ns : ℕ} {rates : ℝ → (ℕ → ℝ) → ℕ → ℝ} {rho dt : ℝ} {nSub : ℕ} {T : ℝ} {q Q dQ : ℕ → ℝ}

theorem clipAll_simplex (hns : 1 ≤ ns) (Y : ℕ → ℝ) : Simplex ns (clipAll ns Y) := by
  have h := localY_simplex hns (clipY_unit ns Y)
  refine ⟨fun n hn => ?_, ?_⟩
  · unfold clipAll; rw [if_pos hn]; exact h.nonneg n hn
  · rw [← h.sum]
    exact sum_congr rfl fun n hn => by unfold clipAll; rw [if_pos (mem_range.1 hn)]

theorem clipAll_ok {Y : ℕ → ℝ} (h : OkY ns Y) {n : ℕ} (hn : n < ns) : clipAll ns Y n = fullY ns Y n := by
  unfold clipAll
  rw [if_pos hn, localY_congr (z := Y) (fun k hk => okY_clip h hk) hn, localY_ok h]

/-- a composition already in the simplex is left alone -/
theorem clipAll_id (hns : 1 ≤ ns) {Y : ℕ → ℝ} (h : Simplex ns Y) {n : ℕ} (hn : n < ns) : clipAll ns Y n = Y n := by
  have hs := sum_split hns Y
  have hl := h.nonneg (ns - 1) (by omega)
  have hsum := h.sum
  have hok : OkY ns Y := ⟨fun k hk => h.nonneg k (by omega), by linarith⟩
  rw [clipAll_ok hok hn]
  unfold fullY
  by_cases hc : n = ns - 1
  · rw [if_pos hc, hc]; linarith
  · rw [if_neg hc]

theorem clipAll_congr {Y Z : ℕ → ℝ} (h : ∀ n < ns - 1, Y n = Z n) : clipAll ns Y = clipAll ns Z := by
  funext n
  unfold clipAll
  by_cases hn : n < ns
  · rw [if_pos hn, if_pos hn]
    refine localY_congr (fun k hk => ?_) hn
    unfold clipY; rw [if_pos hk, if_pos hk, h k hk]
  · rw [if_neg hn, if_neg hn]

/-- specification of the sub-cycling: `k` explicit Euler steps of length `τ` for the mass fractions (and the temperature the
    code carries along), each from the composition put back into the simplex -/
def euler (th : Th) (ns : ℕ) (rates : ℝ → (ℕ → ℝ) → ℕ → ℝ) (rho τ T : ℝ) (q : ℕ → ℝ) : ℕ → CSt
  | 0 => initSt ns T q
  | k+1 => subStep th ns rates rho τ (euler th ns rates rho τ T q k)

theorem runSub_euler : runSub th ns rates rho dt nSub T q = euler th ns rates rho (dt / nSub) T q nSub := by
  unfold runSub
  have : ∀ k, (subStep th ns rates rho (dt / nSub))^[k] (initSt ns T q) = euler th ns rates rho (dt / nSub) T q k := by
    intro k
    induction k with
    | zero => rfl
    | succ k ih => rw [Function.iterate_succ_apply', ih]; rfl
  exact this nSub

theorem subStep_congr (hns : 1 ≤ ns) {r1 r2 : ℝ → (ℕ → ℝ) → ℕ → ℝ} (h : ∀ T Y, Simplex ns Y → r1 T Y = r2 T Y) (τ : ℝ)
    (s : CSt) : subStep th ns r1 rho τ s = subStep th ns r2 rho τ s := by
  simp only [subStep, h _ _ (clipAll_simplex hns s.Y)]

/-- **C84** Rates are only ever evaluated at compositions: two rate laws that agree on nonnegative mass fractions summing to
    one give the same source terms and the same `omega`, whatever is stored in the cell and for every number of sub-steps. -/
theorem C84_rates_on_simplex (hns : 1 ≤ ns) {r1 r2 : ℝ → (ℕ → ℝ) → ℕ → ℝ}
    (h : ∀ T Y, Simplex ns Y → r1 T Y = r2 T Y) :
    chemdQ th ns r1 rho dt nSub T q Q dQ = chemdQ th ns r2 rho dt nSub T q Q dQ ∧
    chemOmega th ns r1 rho dt nSub T q = chemOmega th ns r2 rho dt nSub T q := by
  have key : runSub th ns r1 rho dt nSub T q = runSub th ns r2 rho dt nSub T q := by
    unfold runSub
    rw [show subStep th ns r1 rho (dt / nSub) = subStep th ns r2 rho (dt / nSub) from
      funext fun s => subStep_congr hns h _ s]
  constructor
  · funext n; unfold chemdQ; rw [key]
  · funext n; unfold chemOmega; rw [key]

/-- **C84** The source term takes the conserved species exactly to where the sub-steps end: an explicit step of length `dt`
    with the added part of `dQ` ends at density times the sub-cycled mass fraction; the other entries are untouched. -/
theorem C84_lands (hdt : dt ≠ 0) (n : ℕ) :
    (n < ns - 1 → Q n + dt * (chemdQ th ns rates rho dt nSub T q Q dQ n - dQ n)
      = rho * (euler th ns rates rho (dt / nSub) T q nSub).Y n) ∧
    (¬ n < ns - 1 → chemdQ th ns rates rho dt nSub T q Q dQ n = dQ n) := by
  constructor
  · intro hn
    unfold chemdQ
    rw [if_pos hn, runSub_euler]
    field_simp
    ring
  · intro hn; unfold chemdQ; rw [if_neg hn]

theorem initSt_clip (hq : OkY ns q) {n : ℕ} (hn : n < ns) : clipAll ns (initSt ns T q).Y n = fullY ns q n := by
  rw [clipAll_congr (Z := q) (fun k hk => by unfold initSt; simp [hk]), clipAll_ok hq hn]

/-- **C84** With one sub-step (the default) and a cell whose primitives are admissible and consistent with its conserved
    variables, the kernel adds exactly the production rate at that state, and `omega` is that rate per unit mass. The rate
    function is only assumed to look at the `ns` entries of its argument. -/
theorem C84_one_step (hr : rho ≠ 0) (hdt : dt ≠ 0) (hq : OkY ns q) (hQ : ∀ n < ns - 1, Q n = rho * q n)
    (hloc : ∀ T Y Z, (∀ n < ns, Y n = Z n) → rates T Y = rates T Z) {n : ℕ} (hn : n < ns - 1) :
    chemdQ th ns rates rho dt 1 T q Q dQ n = dQ n + rates T (fullY ns q) n ∧
    chemOmega th ns rates rho dt 1 T q (n + 1) = rates T (fullY ns q) n / rho := by
  have hc : rates T (clipAll ns (initSt ns T q).Y) = rates T (fullY ns q) :=
    hloc _ _ _ fun k hk => initSt_clip hq hk
  have hrun : runSub th ns rates rho dt 1 T q = subStep th ns rates rho (dt / 1) (initSt ns T q) := by
    unfold runSub; simp
  have hT : (initSt ns T q).T = T := rfl
  constructor
  · unfold chemdQ
    rw [if_pos hn, hrun]
    simp only [subStep, hT, hc]
    rw [if_pos (by omega), initSt_clip hq (by omega), hQ n hn]
    have : fullY ns q n = q n := by unfold fullY; rw [if_neg (by omega)]
    rw [this]
    field_simp
    ring
  · unfold chemOmega
    simp only [hrun, subStep, hT, hc, Nat.succ_ne_zero, if_false, Nat.add_sub_cancel]

/-- independent specification of unclipped sub-cycling of length `τ`: `(T, y)`, `y` the stored fractions -/
def plainEuler (ns : ℕ) (rates : ℝ → (ℕ → ℝ) → ℕ → ℝ) (θ : ℝ → (ℕ → ℝ) → ℝ) (rho τ T : ℝ) (q : ℕ → ℝ) : ℕ → ℝ × (ℕ → ℝ)
  | 0 => (T, q)
  | k+1 =>
    let p := plainEuler ns rates θ rho τ T q k
    (p.1 + τ * θ p.1 (fullY ns p.2), fun n => p.2 n + τ * (rates p.1 (fullY ns p.2) n / rho))

/-- temperature rate used by the kernel at `T`, `Y` -/
def kernelTheta (th : Th) (ns : ℕ) (rates : ℝ → (ℕ → ℝ) → ℕ → ℝ) (rho T : ℝ) (Y : ℕ → ℝ) : ℝ :=
  (-∑ n ∈ range ns, hND th T n * rates T Y n) / (cpOf th ns T Y * rho)

/-- **C84** As long as the fractions stay admissible, the kernel's source takes the cell to the result of `nSub` plain
    explicit Euler steps of length `dt/nSub` for `dY/dt = ω(T,Y)/ρ`. -/
theorem C84_plain (hdt : dt ≠ 0) (hloc : ∀ T Y Z, (∀ n < ns, Y n = Z n) → rates T Y = rates T Z)
    (hok : ∀ k < nSub, OkY ns (plainEuler ns rates (kernelTheta th ns rates rho) rho (dt / nSub) T q k).2)
    {n : ℕ} (hn : n < ns - 1) :
    Q n + dt * (chemdQ th ns rates rho dt nSub T q Q dQ n - dQ n)
      = rho * (plainEuler ns rates (kernelTheta th ns rates rho) rho (dt / nSub) T q nSub).2 n := by
  rw [(C84_lands hdt n).1 hn]
  have key : ∀ k ≤ nSub, (euler th ns rates rho (dt / nSub) T q k).T
        = (plainEuler ns rates (kernelTheta th ns rates rho) rho (dt / nSub) T q k).1 ∧
      ∀ j < ns - 1, (euler th ns rates rho (dt / nSub) T q k).Y j
        = (plainEuler ns rates (kernelTheta th ns rates rho) rho (dt / nSub) T q k).2 j := by
    intro k
    induction k with
    | zero => exact fun _ => ⟨rfl, fun j hj => by simp [euler, initSt, plainEuler, hj]⟩
    | succ k ih =>
      intro hk
      obtain ⟨h1, h2⟩ := ih (by omega)
      have ho := hok k (by omega)
      simp only [euler, plainEuler, subStep]
      generalize euler th ns rates rho (dt / nSub) T q k = s at h1 h2 ⊢
      generalize plainEuler ns rates (kernelTheta th ns rates rho) rho (dt / nSub) T q k = p at h1 h2 ho ⊢
      have hY : ∀ j < ns, clipAll ns s.Y j = fullY ns p.2 j := fun j hj => by
        rw [clipAll_congr h2, clipAll_ok ho hj]
      have hr' : rates s.T (clipAll ns s.Y) = rates p.1 (fullY ns p.2) := by rw [h1]; exact hloc _ _ _ hY
      have hcp : cpOf th ns s.T (clipAll ns s.Y) = cpOf th ns p.1 (fullY ns p.2) := by
        rw [h1]; exact sum_congr rfl fun j hj => by rw [hY j (mem_range.1 hj)]
      refine ⟨?_, fun j hj => ?_⟩
      · rw [hr', hcp, h1]; unfold kernelTheta; ring
      · rw [if_pos (by omega), hr', hY j (by omega)]
        unfold fullY; rw [if_neg (by omega)]; ring
  rw [(key nSub le_rfl).2 n hn]

/-- **C84** A mixture that does not react is not changed: no source and zero `omega`, for every number of sub-steps. -/
theorem C84_frozen (hns : 1 ≤ ns) (hq : OkY ns q) (hQ : ∀ n < ns - 1, Q n = rho * q n) (hN : 1 ≤ nSub)
    (h0 : ∀ T Y, Simplex ns Y → ∀ n, rates T Y n = 0) :
    (∀ n, chemdQ th ns rates rho dt nSub T q Q dQ n = dQ n) ∧ ∀ n, chemOmega th ns rates rho dt nSub T q n = 0 := by
  have key : ∀ k, (∀ n < ns, clipAll ns (euler th ns rates rho (dt / nSub) T q k).Y n = fullY ns q n) ∧
      (1 ≤ k → (∀ n < ns, (euler th ns rates rho (dt / nSub) T q k).Y n = fullY ns q n) ∧
        (euler th ns rates rho (dt / nSub) T q k).dT = 0 ∧ ∀ n, (euler th ns rates rho (dt / nSub) T q k).d n = 0) := by
    intro k
    induction k with
    | zero => exact ⟨fun n hn => initSt_clip hq hn, fun h => absurd h (by omega)⟩
    | succ k ih =>
      generalize hs : euler th ns rates rho (dt / nSub) T q k = s at ih
      have hd : ∀ n, rates s.T (clipAll ns s.Y) n = 0 := h0 _ _ (clipAll_simplex hns _)
      have hY : ∀ n < ns, (euler th ns rates rho (dt / nSub) T q (k+1)).Y n = fullY ns q n := by
        intro n hn
        simp only [euler, subStep, hs, hd, if_pos hn, ih.1 n hn]; simp
      refine ⟨fun n hn => ?_, fun _ => ⟨hY, ?_, ?_⟩⟩
      · rw [clipAll_congr (Z := q), clipAll_ok hq hn]
        intro j hj
        rw [hY j (by omega)]; unfold fullY; rw [if_neg (by omega)]
      · simp only [euler, subStep, hs, hd]; simp
      · intro n; simp only [euler, subStep, hs, hd]
  obtain ⟨hY, hT, hd⟩ := (key nSub).2 hN
  constructor
  · intro n
    unfold chemdQ
    by_cases hn : n < ns - 1
    · rw [if_pos hn, runSub_euler, hY n (by omega), hQ n hn]
      unfold fullY; rw [if_neg (by omega)]
      ring
    · rw [if_neg hn]
  · intro n
    unfold chemOmega
    simp only [runSub_euler]
    by_cases hn : n = 0
    · rw [if_pos hn, hT]
    · rw [if_neg hn, hd, zero_div]

/-- **C84** Rates that conserve mass keep the sum of the local mass fractions at one, so the last species, which the code
    advances with its own source and then recomputes by difference, is the same either way as long as nothing is clipped. -/
theorem C84_sum_one (hns : 1 ≤ ns) (hm : ∀ T Y, Simplex ns Y → ∑ n ∈ range ns, rates T Y n = 0) (τ : ℝ) (k : ℕ) :
    ∑ n ∈ range ns, (euler th ns rates rho τ T q (k+1)).Y n = 1 := by
  simp only [euler, subStep]
  generalize euler th ns rates rho τ T q k = s
  have h1 : ∀ n ∈ range ns, (if n < ns then clipAll ns s.Y n + rates s.T (clipAll ns s.Y) n / rho * τ else 0)
      = clipAll ns s.Y n + rates s.T (clipAll ns s.Y) n * (τ / rho) := by
    intro n hn; rw [if_pos (mem_range.1 hn)]; ring
  rw [sum_congr rfl h1, sum_add_distrib, ← sum_mul, hm _ _ (clipAll_simplex hns _), (clipAll_simplex hns _).sum]
  ring

/-- **C84** Linear invariants of the rates (element masses, say) are kept by the sub-stepping as long as the intermediate
    mass fractions are nonnegative, i.e. nothing is clipped. -/
theorem C84_invariant (hns : 1 ≤ ns) (w : ℕ → ℝ) (hm : ∀ T Y, Simplex ns Y → ∑ n ∈ range ns, rates T Y n = 0)
    (hw : ∀ T Y, Simplex ns Y → ∑ n ∈ range ns, w n * rates T Y n = 0) (hq : OkY ns q) (τ : ℝ) (k : ℕ)
    (hnn : ∀ j < k, ∀ n < ns, 0 ≤ (euler th ns rates rho τ T q (j+1)).Y n) :
    ∑ n ∈ range ns, w n * clipAll ns (euler th ns rates rho τ T q k).Y n = ∑ n ∈ range ns, w n * fullY ns q n := by
  induction k with
  | zero => exact sum_congr rfl fun n hn => by rw [euler, initSt_clip hq (mem_range.1 hn)]
  | succ k ih =>
    rw [← ih fun j hj => hnn j (by omega)]
    have hsx : Simplex ns (euler th ns rates rho τ T q (k+1)).Y := ⟨hnn k (by omega), C84_sum_one hns hm τ k⟩
    rw [sum_congr rfl fun n hn => by rw [clipAll_id hns hsx (mem_range.1 hn)]]
    simp only [euler, subStep]
    generalize euler th ns rates rho τ T q k = s
    have h1 : ∀ n ∈ range ns, w n * (if n < ns then clipAll ns s.Y n + rates s.T (clipAll ns s.Y) n / rho * τ else 0)
        = w n * clipAll ns s.Y n + w n * rates s.T (clipAll ns s.Y) n * (τ / rho) := by
      intro n hn; rw [if_pos (mem_range.1 hn)]; ring
    rw [sum_congr rfl h1, sum_add_distrib, ← sum_mul, hw _ _ (clipAll_simplex hns _)]
    ring

/-- **C84** If no absent species is consumed and the rates conserve mass, then a short enough sub-step from a composition
    stays in the simplex: clipping only ever acts when the sub-step is too long. -/
theorem C84_short_step (hns : 1 ≤ ns) (hr : 0 < rho) (hm : ∀ T Y, Simplex ns Y → ∑ n ∈ range ns, rates T Y n = 0)
    (hp : ∀ T Y, Simplex ns Y → ∀ n < ns, Y n = 0 → 0 ≤ rates T Y n) (s : CSt) :
    ∃ τ0 > 0, ∀ τ, 0 ≤ τ → τ ≤ τ0 → Simplex ns (subStep th ns rates rho τ s).Y := by
  have hsx := clipAll_simplex hns s.Y
  set Y := clipAll ns s.Y with hY
  set d := rates s.T Y with hd
  -- one bound per species
  have hone : ∀ n < ns, ∃ t > 0, ∀ τ, 0 ≤ τ → τ ≤ t → 0 ≤ Y n + d n / rho * τ := by
    intro n hn
    have h0 := hsx.nonneg n hn
    rcases le_or_gt 0 (d n) with hdn | hdn
    · exact ⟨1, one_pos, fun τ h _ => add_nonneg h0 (mul_nonneg (div_nonneg hdn hr.le) h)⟩
    · have hYpos : 0 < Y n := by
        rcases h0.lt_or_eq with h | h
        · exact h
        · exact absurd (hp s.T Y hsx n hn h.symm) (not_le.2 hdn)
      refine ⟨Y n * rho / (-d n), div_pos (mul_pos hYpos hr) (by linarith), fun τ h1 h2 => ?_⟩
      rw [le_div_iff₀ (by linarith)] at h2
      have : Y n + d n / rho * τ = (Y n * rho + d n * τ) / rho := by field_simp
      rw [this]
      exact div_nonneg (by linarith) hr.le
  have hall : ∀ m ≤ ns, ∃ t > 0, ∀ τ, 0 ≤ τ → τ ≤ t → ∀ n < m, 0 ≤ Y n + d n / rho * τ := by
    intro m
    induction m with
    | zero => exact fun _ => ⟨1, one_pos, fun _ _ _ n hn => absurd hn (by omega)⟩
    | succ m ih =>
      intro hm'
      obtain ⟨t1, ht1, h1⟩ := ih (by omega)
      obtain ⟨t2, ht2, h2⟩ := hone m (by omega)
      refine ⟨min t1 t2, lt_min ht1 ht2, fun τ ha hb n hn => ?_⟩
      rcases Nat.lt_succ_iff_lt_or_eq.1 hn with h | h
      · exact h1 τ ha (le_trans hb (min_le_left _ _)) n h
      · rw [h]; exact h2 τ ha (le_trans hb (min_le_right _ _))
  obtain ⟨t, ht, h⟩ := hall ns le_rfl
  refine ⟨t, ht, fun τ ha hb => ⟨fun n hn => ?_, ?_⟩⟩
  · simp only [subStep, if_pos hn]
    exact h τ ha hb n hn
  · simp only [subStep]
    have h1 : ∀ n ∈ range ns, (if n < ns then Y n + d n / rho * τ else 0) = Y n + d n * (τ / rho) := by
      intro n hn; rw [if_pos (mem_range.1 hn)]; ring
    rw [sum_congr rfl h1, sum_add_distrib, ← sum_mul, hm _ _ hsx, hsx.sum]
    ring

/-! ### the temperature carried along -/

/-- the temperature rate of a mixture releasing heat at constant pressure: `ρ cp dT/dt = - Σ h_n ω_n`, with the species
    enthalpies of the equation of state (J/kg) -/
def heatRelease (th : Th) (ns : ℕ) (rho T : ℝ) (Y d : ℕ → ℝ) : ℝ :=
  (-∑ n ∈ range ns, his th T n * d n) / (cpOf th ns T Y * rho)

/-- **C84** What the kernel stores instead: every enthalpy is divided by `Ru T / MW_n`. Missing for the full statement
    (`omega(0) = heatRelease`): that factor. -/
theorem C84_temperature_partial (hT : T ≠ 0) (hRu : th.Ru ≠ 0) (hMW : ∀ n < ns, th.MW n ≠ 0) (hq : OkY ns q)
    (hloc : ∀ T Y Z, (∀ n < ns, Y n = Z n) → rates T Y = rates T Z) :
    chemOmega th ns rates rho dt 1 T q 0
      = heatRelease th ns rho T (fullY ns q) (fun n => th.MW n / (th.Ru * T) * rates T (fullY ns q) n) := by
  have hc : rates T (clipAll ns (initSt ns T q).Y) = rates T (fullY ns q) :=
    hloc _ _ _ fun k hk => initSt_clip hq hk
  have hcp : cpOf th ns T (clipAll ns (initSt ns T q).Y) = cpOf th ns T (fullY ns q) :=
    sum_congr rfl fun n hn => by rw [initSt_clip hq (mem_range.1 hn)]
  have hT0 : (initSt ns T q).T = T := rfl
  unfold chemOmega
  simp only [runSub, Function.iterate_one, if_true, subStep, hT0, hc, hcp, heatRelease]
  congr 2
  refine sum_congr rfl fun n hn => ?_
  have := hMW n (mem_range.1 hn)
  unfold his hND
  dsimp only
  field_simp

/-- a gas of two species, heats of formation 0 and 1000 K (times Ru/MW), `Ru = 8`, weights 2 -/
def exTh : Th := ⟨2, 8, fun _ => 2, fun _ => 1, fun n j => if j = 1 ∨ j = 8 then 1 else if n = 1 ∧ (j = 6 ∨ j = 13) then 1000 else 0⟩

/-- **C84** The stored temperature rate is not the heat release: a two-species gas at 100 K turning species 0 into species 1
    at unit rate gets `omega(0) = -5/2` instead of `-1000`, i.e. it is short by the factor `Ru T / MW`. -/
theorem C84_temperature_violated :
    ∃ (th : Th) (rates : ℝ → (ℕ → ℝ) → ℕ → ℝ) (q : ℕ → ℝ), (∀ n < 2, 0 < th.MW n) ∧ OkY 2 q ∧
      (∀ T Y, ∑ n ∈ range 2, rates T Y n = 0) ∧
      chemOmega th 2 rates 1 1 1 100 q 0 ≠ heatRelease th 2 1 100 (fullY 2 q) (rates 100 (fullY 2 q)) := by
  refine ⟨exTh, fun _ _ n => if n = 0 then -1 else 1, fun _ => 1/2, fun n _ => by norm_num [exTh],
    ⟨fun n _ => by norm_num, by norm_num⟩, fun T Y => by simp [sum_range_succ], ?_⟩
  simp only [chemOmega, runSub, if_true, Function.iterate_one, subStep, initSt, heatRelease, cpOf, sum_range_succ,
    sum_range_zero, hND, his, cps, nasaM, exTh, clipAll, localY, clipY, fullY, testSum]
  norm_num

/-- the hypotheses of the theorems above are met by a two-species relaxation `ω = (Y1 - Y0, Y0 - Y1)` -/
def exRates (_T : ℝ) (Y : ℕ → ℝ) (n : ℕ) : ℝ := if n = 0 then Y 1 - Y 0 else if n = 1 then Y 0 - Y 1 else 0

example : (∀ T Y, Simplex 2 Y → ∑ n ∈ range 2, exRates T Y n = 0) ∧
    (∀ T Y, Simplex 2 Y → ∀ n < 2, Y n = 0 → 0 ≤ exRates T Y n) ∧
    (∀ T Y Z, (∀ n < 2, Y n = Z n) → exRates T Y = exRates T Z) ∧ OkY 2 (fun _ => 1/4) := by
  refine ⟨fun T Y _ => by simp [sum_range_succ, exRates], fun T Y hY n hn h0 => ?_, fun T Y Z h => ?_,
    fun n _ => by norm_num, by norm_num⟩
  · rcases (by omega : n = 0 ∨ n = 1) with rfl | rfl
    · simp [exRates, h0, hY.nonneg 1 (by norm_num)]
    · simp [exRates, h0, hY.nonneg 0 (by norm_num)]
  · funext n; simp only [exRates, h 0 (by norm_num), h 1 (by norm_num)]

/-- ... and it does move: one step of length 1/2 from (1/4, 3/4) at unit density adds 1/2 to the source of species 0 -/
example (th : Th) : chemdQ th 2 exRates 1 (1/2) 1 300 (fun _ => 1/4) (fun _ => 1/4) (fun _ => 0) 0 = 1/2 := by
  rw [(C84_one_step (by norm_num) (by norm_num) ⟨fun n _ => by norm_num, by norm_num⟩ (fun n _ => by norm_num)
    (fun T Y Z h => by funext n; simp only [exRates, h 0 (by norm_num), h 1 (by norm_num)]) (by norm_num)).1]
  norm_num [exRates, fullY]

end PG.Chem
