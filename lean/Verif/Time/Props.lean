import Verif.Time.Lemmas
/-
C16 counters, C17 order, C18 SSP, C19 steady states, C20 dual-time history and restart, C63 boundary time of stages.
-/
namespace PG.Time

variable {ι A : Type} {e : Env ι A}

/-! ### C16 -/

theorem pseudoIter_counters (e : Env ι A) (dt : ℝ) (s : St ι A) :
    (pseudoIter e dt s).nrt = s.nrt ∧ (pseudoIter e dt s).tme = s.tme ∧ (pseudoIter e dt s).Qn = s.Qn ∧
    (pseudoIter e dt s).Qnm1 = s.Qnm1 := ⟨rfl, rfl, rfl, rfl⟩

theorem pseudoIters_counters (e : Env ι A) (dt : ℝ) (n : ℕ) (s : St ι A) :
    ((pseudoIter e dt)^[n] s).nrt = s.nrt ∧ ((pseudoIter e dt)^[n] s).tme = s.tme ∧ ((pseudoIter e dt)^[n] s).Qn = s.Qn ∧
    ((pseudoIter e dt)^[n] s).Qnm1 = s.Qnm1 := by
  induction n generalizing s with
  | zero => exact ⟨rfl, rfl, rfl, rfl⟩
  | succ n ih => rw [Function.iterate_succ_apply]; exact ih _

theorem step_counters (e : Env ι A) (I : Integrator) (dt : ℝ) (s : St ι A) :
    (step e I dt s).nrt = s.nrt + 1 ∧ (step e I dt s).tme = s.tme + dt ∧
    (I ≠ .strang → (step e I dt s).titme = (step e I dt s).tme) := by
  cases I
  case dualTime =>
    have key : ∀ n, (finish dt (shift ((pseudoIter e dt)^[n] s))).nrt = s.nrt + 1 ∧
        (finish dt (shift ((pseudoIter e dt)^[n] s))).tme = s.tme + dt := fun n => by
      obtain ⟨h1, h2, -, -⟩ := pseudoIters_counters e dt n s
      simp [finish, shift, h1, h2]
    exact ⟨(key 20).1, (key 20).2, fun _ => rfl⟩
  case strang => exact ⟨rfl, rfl, fun h => absurd rfl h⟩
  all_goals exact ⟨rfl, rfl, fun _ => rfl⟩

theorem step_rk1 (e : Env ι A) : step e .rk1 = rk1 e := rfl
theorem step_rk2 (e : Env ι A) : step e .rk2 = rk2 e := rfl
theorem step_rk3 (e : Env ι A) : step e .rk3 = rk3 e := rfl
theorem step_rk34 (e : Env ι A) : step e .rk34 = rk34 e := rfl
theorem step_rk4 (e : Env ι A) : step e .rk4 = rk4 e := rfl
theorem step_maccormack (e : Env ι A) : step e .maccormack = maccormack e := rfl

/-- C16 (partial): after any history of steps of any integrator the iteration counter has grown by the number of steps
    and the time by the sum of the step sizes; the internal time equals the time for every integrator but strang.
    MISSING: internal time of strang, false of this code (`C16_strang_violated`). -/
theorem C16_counters_partial (e : Env ι A) (I : Integrator) (dts : List ℝ) (s : St ι A) :
    (run e I dts s).nrt = s.nrt + dts.length ∧ (run e I dts s).tme = s.tme + dts.sum ∧
    (I ≠ .strang → dts ≠ [] → (run e I dts s).titme = (run e I dts s).tme) := by
  induction dts using List.reverseRecOn generalizing s with
  | nil => simp [run]
  | append_singleton l a ih =>
    obtain ⟨h1, h2, -⟩ := ih s
    obtain ⟨g1, g2, g3⟩ := step_counters e I a (run e I l s)
    have : run e I (l ++ [a]) s = step e I a (run e I l s) := by simp [run]
    rw [this]
    refine ⟨by rw [g1, h1]; simp; omega, by rw [g2, h2]; simp; ring, fun hI _ => g3 hI⟩

/-- C16 is violated by strang: after every step the internal time is one step ahead of the time. -/
theorem C16_strang_violated (e : Env ι A) (dt : ℝ) (hdt : 0 < dt) (s : St ι A) :
    (step e .strang dt s).titme = (step e .strang dt s).tme + dt ∧
    (step e .strang dt s).titme ≠ (step e .strang dt s).tme := by
  have h : (step e .strang dt s).titme = (step e .strang dt s).tme + dt := rfl
  exact ⟨h, by rw [h]; linarith⟩

/-! ### C17 -/

variable {f : ℝ → (ι → ℝ) → ι → ℝ}

/-- The tableaus are explicit, their stage times match, and they satisfy all order conditions of the claimed order. -/
theorem C17_tableau_orders :
    (tabRK1.Explicit ∧ tabRK1.RowSum ∧ tabRK1.Order1) ∧
    (tabRK2.Explicit ∧ tabRK2.RowSum ∧ tabRK2.Order1 ∧ tabRK2.Order2) ∧
    (tabRK3.Explicit ∧ tabRK3.RowSum ∧ tabRK3.Order1 ∧ tabRK3.Order2 ∧ tabRK3.Order3) ∧
    (tabRK34.Explicit ∧ tabRK34.RowSum ∧ tabRK34.Order1 ∧ tabRK34.Order2 ∧ tabRK34.Order3) ∧
    (tabRK4.Explicit ∧ tabRK4.RowSum ∧ tabRK4.Order1 ∧ tabRK4.Order2 ∧ tabRK4.Order3 ∧ tabRK4.Order4) := by
  refine ⟨⟨?_, ?_, ?_⟩, ⟨?_, ?_, ?_, ?_⟩, ⟨?_, ?_, ?_, ?_, ?_, ?_⟩, ⟨?_, ?_, ?_, ?_, ?_, ?_⟩, ⟨?_, ?_, ?_, ?_, ⟨?_, ?_⟩, ?_, ?_, ?_, ?_⟩⟩
  · intro i j _; rfl
  · intro i; simp [tabRK1]
  · simp [Tableau.Order1, tabRK1]
  · intro i j hij; fin_cases i <;> fin_cases j <;> first | rfl | exact absurd hij (by decide)
  · intro i; fin_cases i <;> simp [tabRK2, Fin.sum_univ_two]
  · simp [Tableau.Order1, tabRK2, Fin.sum_univ_two] <;> norm_num
  · simp [Tableau.Order2, tabRK2, Fin.sum_univ_two] <;> norm_num
  · intro i j hij; fin_cases i <;> fin_cases j <;> first | rfl | exact absurd hij (by decide)
  · intro i; fin_cases i <;> simp [tabRK3, Fin.sum_univ_three] <;> norm_num
  · simp [Tableau.Order1, tabRK3, Fin.sum_univ_three] <;> norm_num
  · simp [Tableau.Order2, tabRK3, Fin.sum_univ_three] <;> norm_num
  · simp [tabRK3, Fin.sum_univ_three] <;> norm_num
  · simp [tabRK3, Fin.sum_univ_three] <;> norm_num
  · intro i j hij; fin_cases i <;> fin_cases j <;> first | rfl | exact absurd hij (by decide)
  · intro i; fin_cases i <;> simp [tabRK34, Fin.sum_univ_four] <;> norm_num
  · simp [Tableau.Order1, tabRK34, Fin.sum_univ_four] <;> norm_num
  · simp [Tableau.Order2, tabRK34, Fin.sum_univ_four] <;> norm_num
  · simp [tabRK34, Fin.sum_univ_four] <;> norm_num
  · simp [tabRK34, Fin.sum_univ_four] <;> norm_num
  · intro i j hij; fin_cases i <;> fin_cases j <;> first | rfl | exact absurd hij (by decide)
  · intro i; fin_cases i <;> simp [tabRK4, Fin.sum_univ_four] <;> norm_num
  · simp [Tableau.Order1, tabRK4, Fin.sum_univ_four] <;> norm_num
  · simp [Tableau.Order2, tabRK4, Fin.sum_univ_four] <;> norm_num
  · simp [tabRK4, Fin.sum_univ_four] <;> norm_num
  · simp [tabRK4, Fin.sum_univ_four] <;> norm_num
  · simp [tabRK4, Fin.sum_univ_four] <;> norm_num
  · simp [tabRK4, Fin.sum_univ_four] <;> norm_num
  · simp [tabRK4, Fin.sum_univ_four] <;> norm_num
  · simp [tabRK4, Fin.sum_univ_four] <;> norm_num

/-- C17: for a solver that is an ODE, each explicit step is one step of its Runge-Kutta method. -/
theorem C17_is_runge_kutta (h : IsODE e f) {tb : ℝ} {s : St ι A} (hr : Ready e tb s) (dt : ℝ) :
    RKStep tabRK1 e.inner f s.tme dt s.core.Q (step e .rk1 dt s).core.Q ∧
    RKStep tabRK2 e.inner f s.tme dt s.core.Q (step e .rk2 dt s).core.Q ∧
    RKStep tabRK3 e.inner f s.tme dt s.core.Q (step e .rk3 dt s).core.Q ∧
    RKStep tabRK34 e.inner f s.tme dt s.core.Q (step e .rk34 dt s).core.Q ∧
    RKStep tabRK4 e.inner f s.tme dt s.core.Q (step e .rk4 dt s).core.Q ∧
    RKStep tabMac e.inner f s.tme dt s.core.Q (step e .maccormack dt s).core.Q := by
  have cong : ∀ t (U V : ι → ℝ), (∀ y, e.inner y → U y = V y) → ∀ x, e.inner x → f t U x = f t V x :=
    fun t U V hUV x hx => h.local' 0 t U V hUV x hx
  refine ⟨?_, ?_, ?_, ?_, ?_, ?_⟩
  · refine ⟨fun _ => f s.tme s.core.Q, ?_, ?_⟩
    · intro m x hx
      fin_cases m
      simp only [tabRK1]
      rw [show s.tme + 0 * dt = s.tme by ring]
      refine cong _ _ _ (fun y _ => ?_) x hx
      simp
    · intro x hx
      rw [step_rk1, (rk1_inner h hr dt).q h x hx]
      simp [tabRK1]
  · refine ⟨(v2 (f s.tme s.core.Q) (f (s.tme + dt) (fun i => s.core.Q i + f s.tme s.core.Q i * dt))), ?_, ?_⟩
    · intro m x hx
      fin_cases m
      · simp [tabRK2]
      · simp [tabRK2, mul_comm]
    · intro x hx
      rw [step_rk2, (rk2_inner h hr dt).q h x hx]
      simp [tabRK2]; ring
  · refine ⟨(v3 (f s.tme s.core.Q) (f (s.tme + dt) (fun i => s.core.Q i + dt * f s.tme s.core.Q i)) (f (s.tme + dt / 2) (fun i => 0.75 * s.core.Q i + 0.25 * (s.core.Q i + dt * f s.tme s.core.Q i)
        + 0.25 * f (s.tme + dt) (fun i => s.core.Q i + dt * f s.tme s.core.Q i) i * dt))), ?_, ?_⟩
    · intro m x hx
      fin_cases m
      · simp [tabRK3, Fin.sum_univ_three]
      · simp [tabRK3, Fin.sum_univ_three]
      · simp only [tabRK3, Fin.sum_univ_three]
        simp only [Fin.reduceFinMk, Fin.mk_one, Fin.zero_eta, v2_0, v2_1, v3_0, v3_1, v3_2, v4_0, v4_1, v4_2, v4_3]
        rw [show s.tme + 1 / 2 * dt = s.tme + dt / 2 by ring]
        refine cong _ _ _ (fun y _ => ?_) x hx
        ring
    · intro x hx
      rw [step_rk3, (rk3_inner h hr dt).q h x hx]
      simp only [tabRK3, Fin.sum_univ_three, v3_0, v3_1, v3_2, v4_0, v4_1, v4_2, v4_3]
      ring
  · refine ⟨(v4 (f s.tme s.core.Q) (f (s.tme + dt / 2) (fun i => s.core.Q i + 0.5 * dt * f s.tme s.core.Q i)) (f (s.tme + dt) (fun i => (s.core.Q i + 0.5 * dt * f s.tme s.core.Q i)
        + 0.5 * dt * f (s.tme + dt / 2) (fun i => s.core.Q i + 0.5 * dt * f s.tme s.core.Q i) i)) (f (s.tme + dt / 2) (fun i => 2 / 3 * s.core.Q i + 1 / 3 * ((s.core.Q i + 0.5 * dt * f s.tme s.core.Q i)
        + 0.5 * dt * f (s.tme + dt / 2) (fun i => s.core.Q i + 0.5 * dt * f s.tme s.core.Q i) i)
        + 1 / 6 * f (s.tme + dt) (fun i => (s.core.Q i + 0.5 * dt * f s.tme s.core.Q i)
        + 0.5 * dt * f (s.tme + dt / 2) (fun i => s.core.Q i + 0.5 * dt * f s.tme s.core.Q i) i) i * dt))), ?_, ?_⟩
    · intro m x hx
      fin_cases m
      · simp [tabRK34, Fin.sum_univ_four]
      · simp only [tabRK34, Fin.sum_univ_four]
        simp only [Fin.reduceFinMk, Fin.mk_one, Fin.zero_eta, v2_0, v2_1, v3_0, v3_1, v3_2, v4_0, v4_1, v4_2, v4_3]
        rw [show s.tme + 1 / 2 * dt = s.tme + dt / 2 by ring]
        refine cong _ _ _ (fun y _ => ?_) x hx
        ring
      · simp only [tabRK34, Fin.sum_univ_four]
        simp only [Fin.reduceFinMk, Fin.mk_one, Fin.zero_eta, v2_0, v2_1, v3_0, v3_1, v3_2, v4_0, v4_1, v4_2, v4_3]
        rw [show s.tme + 1 * dt = s.tme + dt by ring]
        refine cong _ _ _ (fun y _ => ?_) x hx
        ring
      · simp only [tabRK34, Fin.sum_univ_four]
        simp only [Fin.reduceFinMk, Fin.mk_one, Fin.zero_eta, v2_0, v2_1, v3_0, v3_1, v3_2, v4_0, v4_1, v4_2, v4_3]
        rw [show s.tme + 1 / 2 * dt = s.tme + dt / 2 by ring]
        refine cong _ _ _ (fun y _ => ?_) x hx
        ring
    · intro x hx
      rw [step_rk34, (rk34_inner h hr dt).q h x hx]
      simp only [tabRK34, Fin.sum_univ_four, v3_0, v3_1, v3_2, v4_0, v4_1, v4_2, v4_3]
      ring
  · refine ⟨(v4 (f s.tme s.core.Q) (f (s.tme + dt / 2) (fun i => s.core.Q i + 0.5 * (dt * f s.tme s.core.Q i))) (f (s.tme + dt / 2) (fun i => s.core.Q i + 0.5 *
        (dt * f (s.tme + dt / 2) (fun i => s.core.Q i + 0.5 * (dt * f s.tme s.core.Q i)) i))) (f (s.tme + dt) (fun i => s.core.Q i + dt * f (s.tme + dt / 2) (fun i => s.core.Q i + 0.5 *
        (dt * f (s.tme + dt / 2) (fun i => s.core.Q i + 0.5 * (dt * f s.tme s.core.Q i)) i)) i))), ?_, ?_⟩
    · intro m x hx
      fin_cases m
      · simp [tabRK4, Fin.sum_univ_four]
      · simp only [tabRK4, Fin.sum_univ_four]
        simp only [Fin.reduceFinMk, Fin.mk_one, Fin.zero_eta, v2_0, v2_1, v3_0, v3_1, v3_2, v4_0, v4_1, v4_2, v4_3]
        rw [show s.tme + 1 / 2 * dt = s.tme + dt / 2 by ring]
        refine cong _ _ _ (fun y _ => ?_) x hx
        ring
      · simp only [tabRK4, Fin.sum_univ_four]
        simp only [Fin.reduceFinMk, Fin.mk_one, Fin.zero_eta, v2_0, v2_1, v3_0, v3_1, v3_2, v4_0, v4_1, v4_2, v4_3]
        rw [show s.tme + 1 / 2 * dt = s.tme + dt / 2 by ring]
        refine cong _ _ _ (fun y _ => ?_) x hx
        ring
      · simp only [tabRK4, Fin.sum_univ_four]
        simp only [Fin.reduceFinMk, Fin.mk_one, Fin.zero_eta, v2_0, v2_1, v3_0, v3_1, v3_2, v4_0, v4_1, v4_2, v4_3]
        rw [show s.tme + 1 * dt = s.tme + dt by ring]
        refine cong _ _ _ (fun y _ => ?_) x hx
        ring
    · intro x hx
      rw [step_rk4, (rk4_inner h hr dt).q h x hx]
      simp only [tabRK4, Fin.sum_univ_four, v3_0, v3_1, v3_2, v4_0, v4_1, v4_2, v4_3]
      ring
  · refine ⟨(v2 (f s.tme s.core.Q) (f s.tme (fun i => s.core.Q i + dt * f s.tme s.core.Q i))), ?_, ?_⟩
    · intro m x hx
      fin_cases m
      · simp [tabMac]
      · simp [tabMac]
    · intro x hx
      rw [step_maccormack, (maccormack_inner h hr dt).q h x hx]
      simp [tabMac]; ring

/-- the right-hand side is `λ Q` on the interior -/
def Linear (inner : ι → Bool) (lam : ℝ) (f : ℝ → (ι → ℝ) → ι → ℝ) : Prop :=
  ∀ t Q x, inner x → f t Q x = lam * Q x

/-- C17: on `Q' = λ Q` one step multiplies the solution by the Taylor polynomial of `exp z`, `z = λ dt`, of degree equal
    to the order (rk34: third order, with the fourth-degree coefficient 1/48 of its extra stage). -/
theorem C17_linear (h : IsODE e f) {lam : ℝ} (hl : Linear e.inner lam f) {tb : ℝ} {s : St ι A} (hr : Ready e tb s)
    (dt : ℝ) (x : ι) (hx : e.inner x) :
    let z := lam * dt
    (step e .rk1 dt s).core.Q x = (1 + z) * s.core.Q x ∧
    (step e .rk2 dt s).core.Q x = (1 + z + z^2/2) * s.core.Q x ∧
    (step e .maccormack dt s).core.Q x = (1 + z + z^2/2) * s.core.Q x ∧
    (step e .rk3 dt s).core.Q x = (1 + z + z^2/2 + z^3/6) * s.core.Q x ∧
    (step e .rk34 dt s).core.Q x = (1 + z + z^2/2 + z^3/6 + z^4/48) * s.core.Q x ∧
    (step e .rk4 dt s).core.Q x = (1 + z + z^2/2 + z^3/6 + z^4/24) * s.core.Q x := by
  intro z
  refine ⟨?_, ?_, ?_, ?_, ?_, ?_⟩
  · rw [step_rk1, (rk1_inner h hr dt).q h x hx]; simp only [hl _ _ x hx]; ring
  · rw [step_rk2, (rk2_inner h hr dt).q h x hx]; simp only [hl _ _ x hx]; ring
  · rw [step_maccormack, (maccormack_inner h hr dt).q h x hx]; simp only [hl _ _ x hx]; ring
  · rw [step_rk3, (rk3_inner h hr dt).q h x hx]; simp only [hl _ _ x hx]; ring
  · rw [step_rk34, (rk34_inner h hr dt).q h x hx]; simp only [hl _ _ x hx]; ring
  · rw [step_rk4, (rk4_inner h hr dt).q h x hx]; simp only [hl _ _ x hx]; ring

/-- the right-hand side is a function of time only -/
def TimeOnly (inner : ι → Bool) (p : ℝ → ℝ) (f : ℝ → (ι → ℝ) → ι → ℝ) : Prop := ∀ t Q x, inner x → f t Q x = p t

/-- C17: right-hand sides that are polynomials in time are integrated exactly up to the degree required by the order
    (rk1: constants; rk2: linear; rk3, rk34: quadratic; rk4: cubic). The exact increment of `a + b t + c t² + d t³` is
    written out. -/
theorem C17_quadrature_partial (h : IsODE e f) {a b c d : ℝ} (hp : TimeOnly e.inner (fun t => a + b*t + c*t^2 + d*t^3) f)
    {tb : ℝ} {s : St ι A} (hr : Ready e tb s) (dt : ℝ) (x : ι) (hx : e.inner x) :
    let P := fun t : ℝ => a*t + b*t^2/2 + c*t^3/3 + d*t^4/4
    let exact' := s.core.Q x + (P (s.tme + dt) - P s.tme)
    (b = 0 → c = 0 → d = 0 → (step e .rk1 dt s).core.Q x = exact') ∧
    (c = 0 → d = 0 → (step e .rk2 dt s).core.Q x = exact') ∧
    (d = 0 → (step e .rk3 dt s).core.Q x = exact') ∧
    (d = 0 → (step e .rk34 dt s).core.Q x = exact') ∧
    (step e .rk4 dt s).core.Q x = exact' := by
  intro P ex
  refine ⟨?_, ?_, ?_, ?_, ?_⟩
  · rintro rfl rfl rfl
    rw [step_rk1, (rk1_inner h hr dt).q h x hx]; simp only [hp _ _ x hx]; simp only [ex, P]; ring
  · rintro rfl rfl
    rw [step_rk2, (rk2_inner h hr dt).q h x hx]; simp only [hp _ _ x hx]; simp only [ex, P]; ring
  · rintro rfl
    rw [step_rk3, (rk3_inner h hr dt).q h x hx]; simp only [hp _ _ x hx]; simp only [ex, P]; ring
  · rintro rfl
    rw [step_rk34, (rk34_inner h hr dt).q h x hx]; simp only [hp _ _ x hx]; simp only [ex, P]; ring
  · rw [step_rk4, (rk4_inner h hr dt).q h x hx]; simp only [hp _ _ x hx]; simp only [ex, P]; ring

/-- C17 finding: maccormack evaluates its corrector at the start time, so for a right-hand side `b t` it is only first
    order: the error is `b dt² / 2`. -/
theorem C17_maccormack_time_violated (h : IsODE e f) {b : ℝ} (hp : TimeOnly e.inner (fun t => b*t) f)
    {tb : ℝ} {s : St ι A} (hr : Ready e tb s) (dt : ℝ) (x : ι) (hx : e.inner x) :
    (step e .maccormack dt s).core.Q x = s.core.Q x + (b*(s.tme+dt)^2/2 - b*s.tme^2/2) - b*dt^2/2 := by
  rw [step_maccormack, (maccormack_inner h hr dt).q h x hx]; simp only [hp _ _ x hx]; ring

/-! ### C18 -/

/-- forward Euler with steps up to `dt0` keeps interior states in `K` -/
def EulerInvariant (f : ℝ → (ι → ℝ) → ι → ℝ) (K : Set (ι → ℝ)) (dt0 : ℝ) : Prop :=
  ∀ t h, 0 ≤ h → h ≤ dt0 → ∀ Q ∈ K, (fun i => Q i + h * f t Q i) ∈ K

/-- membership in `K` is about interior entries only -/
def InnerOnly (inner : ι → Bool) (K : Set (ι → ℝ)) : Prop := ∀ Q Q', (∀ i, inner i → Q i = Q' i) → Q ∈ K → Q' ∈ K

theorem convex_mem {K : Set (ι → ℝ)} (hK : Convex ℝ K) {U V : ι → ℝ} (hU : U ∈ K) (hV : V ∈ K) (a b : ℝ) (ha : 0 ≤ a)
    (hb : 0 ≤ b) (hab : a + b = 1) : (fun i => a * U i + b * V i) ∈ K := by
  have := hK hU hV ha hb hab
  exact this

/-- C18: every convex bound on the interior that forward Euler preserves for steps up to `dt0` is preserved by rk1, rk2
    and rk3 for the same steps, and by rk34 for steps up to twice that size. -/
theorem C18_ssp (h : IsODE e f) {K : Set (ι → ℝ)} (hK : Convex ℝ K) (hin : InnerOnly e.inner K) {dt0 : ℝ}
    (hE : EulerInvariant f K dt0) {tb : ℝ} {s : St ι A} (hr : Ready e tb s) (hs : s.core.Q ∈ K) (dt : ℝ) (h0 : 0 ≤ dt) :
    (dt ≤ dt0 → (step e .rk1 dt s).core.Q ∈ K ∧ (step e .rk2 dt s).core.Q ∈ K ∧ (step e .rk3 dt s).core.Q ∈ K) ∧
    (dt ≤ 2 * dt0 → (step e .rk34 dt s).core.Q ∈ K) := by
  constructor
  · intro hd
    have hU1 := hE s.tme dt h0 hd _ hs
    refine ⟨?_, ?_, ?_⟩
    · exact hin _ _ (fun i hi => ((rk1_inner h hr dt).q h i hi).symm) hU1
    · refine hin _ _ (fun i hi => ((rk2_inner h hr dt).q h i hi).symm) ?_
      have e1 : (fun i => s.core.Q i + f s.tme s.core.Q i * dt) = (fun i => s.core.Q i + dt * f s.tme s.core.Q i) := by
        funext i; ring
      simp only [e1]
      refine hin _ _ (fun i _ => ?_)
        (convex_mem hK hs (hE (s.tme + dt) dt h0 hd _ hU1) 0.5 0.5 (by norm_num) (by norm_num) (by norm_num))
      ring
    · refine hin _ _ (fun i hi => ((rk3_inner h hr dt).q h i hi).symm) ?_
      have hU2 := convex_mem hK hs (hE (s.tme + dt) dt h0 hd _ hU1) 0.75 0.25 (by norm_num) (by norm_num) (by norm_num)
      have e2 : (fun i => 0.75 * s.core.Q i + 0.25 * ((s.core.Q i + dt * f s.tme s.core.Q i)
          + dt * f (s.tme + dt) (fun i => s.core.Q i + dt * f s.tme s.core.Q i) i))
          = (fun i => 0.75 * s.core.Q i + 0.25 * (s.core.Q i + dt * f s.tme s.core.Q i)
          + 0.25 * f (s.tme + dt) (fun i => s.core.Q i + dt * f s.tme s.core.Q i) i * dt) := by funext i; ring
      rw [e2] at hU2
      have hU3 := convex_mem hK hs (hE (s.tme + dt / 2) dt h0 hd _ hU2) (1/3) (2/3) (by norm_num) (by norm_num) (by norm_num)
      refine hin _ _ (fun i _ => ?_) hU3
      ring
  · intro hd
    have hh : 0 ≤ 0.5 * dt := by linarith
    have hh' : 0.5 * dt ≤ dt0 := by linarith
    refine hin _ _ (fun i hi => ((rk34_inner h hr dt).q h i hi).symm) ?_
    have hU1 := hE s.tme (0.5 * dt) hh hh' _ hs
    have hU2 := hE (s.tme + dt / 2) (0.5 * dt) hh hh' _ hU1
    have hU3 := convex_mem hK hs (hE (s.tme + dt) (0.5 * dt) hh hh' _ hU2) (2/3) (1/3) (by norm_num) (by norm_num) (by norm_num)
    have hU3' : (fun i => 2 / 3 * s.core.Q i + 1 / 3 * ((s.core.Q i + 0.5 * dt * f s.tme s.core.Q i)
        + 0.5 * dt * f (s.tme + dt / 2) (fun i => s.core.Q i + 0.5 * dt * f s.tme s.core.Q i) i)
        + 1 / 6 * f (s.tme + dt) (fun i => (s.core.Q i + 0.5 * dt * f s.tme s.core.Q i)
        + 0.5 * dt * f (s.tme + dt / 2) (fun i => s.core.Q i + 0.5 * dt * f s.tme s.core.Q i) i) i * dt) ∈ K :=
      hin _ _ (fun i _ => by ring) hU3
    have hU4 := hE (s.tme + dt / 2) (0.5 * dt) hh hh' _ hU3'
    refine hin _ _ (fun i _ => ?_) hU4
    ring

/-! ### C19 -/

/-- C19: if the right-hand side vanishes at the current interior state at all times, every explicit integrator leaves
    interior conserved variables unchanged. -/
theorem C19_steady {f : ℝ → ℝ → (ι → ℝ) → ι → ℝ} (h : Describes e f) {tb : ℝ} {s : St ι A} (hr : Ready e tb s) (dt : ℝ)
    (hz : ∀ tb t x, e.inner x → f tb t s.core.Q x = 0) (x : ι) (hx : e.inner x) (I : Integrator)
    (hI : I ≠ .strang ∧ I ≠ .dualTime) :
    (step e I dt s).core.Q x = s.core.Q x := by
  have cong : ∀ tb t (U : ι → ℝ), (∀ y, e.inner y → U y = s.core.Q y) → ∀ y, e.inner y → f tb t U y = 0 :=
    fun tb t U hU y hy => by rw [h.local' tb t U _ hU y hy, hz tb t y hy]
  cases I
  case rk1 => rw [step_rk1, (rk1_inner h hr dt).q h x hx]; simp [hz _ _ x hx]
  case rk2 =>
    rw [step_rk2, (rk2_inner h hr dt).q h x hx]
    rw [cong _ _ _ (fun y hy => by simp [hz _ _ y hy]) x hx]
    simp only [hz _ _ x hx]; ring
  case rk3 =>
    rw [step_rk3, (rk3_inner h hr dt).q h x hx]
    have c1 : ∀ y, e.inner y → f s.tme (s.tme + dt) (fun i => s.core.Q i + dt * f tb s.tme s.core.Q i) y = 0 :=
      fun y hy => cong _ _ _ (fun z hz' => by simp [hz _ _ z hz']) y hy
    rw [cong _ _ _ (fun y hy => by simp only [hz _ _ y hy, c1 y hy]; ring) x hx]
    simp only [hz _ _ x hx, c1 x hx]; ring
  case rk34 =>
    rw [step_rk34, (rk34_inner h hr dt).q h x hx]
    have c1 : ∀ y, e.inner y → f s.tme (s.tme + dt / 2) (fun i => s.core.Q i + 0.5 * dt * f tb s.tme s.core.Q i) y = 0 :=
      fun y hy => cong _ _ _ (fun z hz' => by simp [hz _ _ z hz']) y hy
    have c2 : ∀ y, e.inner y → f (s.tme + dt / 2) (s.tme + dt) (fun i => (s.core.Q i + 0.5 * dt * f tb s.tme s.core.Q i)
        + 0.5 * dt * f s.tme (s.tme + dt / 2) (fun i => s.core.Q i + 0.5 * dt * f tb s.tme s.core.Q i) i) y = 0 :=
      fun y hy => cong _ _ _ (fun z hz' => by simp only [hz _ _ z hz', c1 z hz']; ring) y hy
    rw [cong _ _ _ (fun y hy => by simp only [hz _ _ y hy, c1 y hy, c2 y hy]; ring) x hx]
    simp only [hz _ _ x hx, c1 x hx, c2 x hx]; ring
  case rk4 =>
    rw [step_rk4, (rk4_inner h hr dt).q h x hx]
    have c1 : ∀ y, e.inner y → f s.tme (s.tme + dt / 2) (fun i => s.core.Q i + 0.5 * (dt * f tb s.tme s.core.Q i)) y = 0 :=
      fun y hy => cong _ _ _ (fun z hz' => by simp [hz _ _ z hz']) y hy
    have c2 : ∀ y, e.inner y → f (s.tme + dt / 2) (s.tme + dt / 2) (fun i => s.core.Q i + 0.5 *
        (dt * f s.tme (s.tme + dt / 2) (fun i => s.core.Q i + 0.5 * (dt * f tb s.tme s.core.Q i)) i)) y = 0 :=
      fun y hy => cong _ _ _ (fun z hz' => by simp only [c1 z hz']; ring) y hy
    rw [cong _ _ _ (fun y hy => by simp only [c2 y hy]; ring) x hx]
    simp only [hz _ _ x hx, c1 x hx, c2 x hx]; ring
  case maccormack =>
    rw [step_maccormack, (maccormack_inner h hr dt).q h x hx]
    rw [cong _ _ _ (fun y hy => by simp [hz _ _ y hy]) x hx]
    simp only [hz _ _ x hx]; ring
  case strang => exact absurd rfl hI.1
  case dualTime => exact absurd rfl hI.2

/-! ### C63: time at which boundary conditions are applied -/

/-- The stage whose derivative is evaluated at RHS time `t` uses boundary data of the same time: the property one expects
    of a solver with time-dependent boundary conditions. It is expressed on the problem `Q' = g(time of the boundary
    data)`: a step must give the same result as for `Q' = g(t)`. -/
def BoundaryTimeOK (I : Integrator) : Prop :=
  ∀ (g : ℝ → ℝ) (e1 e2 : Env Unit Unit) (f1 f2 : ℝ → ℝ → (Unit → ℝ) → Unit → ℝ),
    e1.inner = (fun _ => true) → e2.inner = (fun _ => true) →
    Describes e1 f1 → Describes e2 f2 → (∀ tb t Q x, f1 tb t Q x = g tb) → (∀ tb t Q x, f2 tb t Q x = g t) →
    ∀ (s1 s2 : St Unit Unit) (dt : ℝ), Ready e1 s1.tme s1 → Ready e2 s2.tme s2 → s1.tme = s2.tme → s1.core.Q = s2.core.Q →
      (step e1 I dt s1).core.Q = (step e2 I dt s2).core.Q

/-- a solver for `Q' = g(time of boundary data)` -/
def bcEnv (g : ℝ → ℝ) : Env Unit ℝ where
  inner _ := true
  rhs _ c := (fun _ => g c.aux, c)
  consistify t c := { c with aux := t }
  consistifyP t c := { c with aux := t }
  stiff _ c := c
  dtau _ _ := 0
  invert _ _ d := d

theorem bcEnv_describes (g : ℝ → ℝ) : Describes (bcEnv g) (fun tb _ _ _ => g tb) :=
  ⟨fun _ _ _ _ _ _ _ => rfl, fun _ _ _ _ => rfl, fun _ _ _ _ => rfl, fun _ _ _ _ _ => rfl⟩

/-- C63 (partial): rk1 applies the boundary data of the start time to its only stage. MISSING: the other integrators, for
    which it is false (`C63_boundary_time_violated`). -/
theorem C63_boundary_time_rk1_partial : BoundaryTimeOK .rk1 := by
  intro g e1 e2 f1 f2 i1 i2 h1 h2 g1 g2 s1 s2 dt r1 r2 ht hq
  funext x
  rw [step_rk1, step_rk1, (rk1_inner h1 r1 dt).q h1 x (by rw [i1]), (rk1_inner h2 r2 dt).q h2 x (by rw [i2]), g1, g2, hq, ht]

/-- C63 is violated by rk2, rk3, rk34, rk4 and maccormack: consistify after a stage still uses the internal time of the
    previous right-hand side, so later stages see boundary data of an earlier time. With boundary data growing like the
    time, from time 0, all of them lose the second-order term `dt²/2`: the step is only first-order accurate. -/
theorem C63_boundary_time_violated (s : St Unit ℝ) (hr : Ready (bcEnv id) 0 s) (h0 : s.tme = 0) (dt : ℝ) :
    (step (bcEnv id) .rk2 dt s).core.Q () = s.core.Q () ∧
    (step (bcEnv id) .rk3 dt s).core.Q () = s.core.Q () + 2/3 * dt^2 ∧
    (step (bcEnv id) .rk34 dt s).core.Q () = s.core.Q () + 7/12 * dt^2 ∧
    (step (bcEnv id) .rk4 dt s).core.Q () = s.core.Q () + dt^2/4 ∧
    (step (bcEnv id) .maccormack dt s).core.Q () = s.core.Q () := by
  have h := bcEnv_describes id
  refine ⟨?_, ?_, ?_, ?_, ?_⟩
  · rw [step_rk2, (rk2_inner h hr dt).q h () rfl]; simp only [h0, id]; ring
  · rw [step_rk3, (rk3_inner h hr dt).q h () rfl]; simp only [h0, id]; ring
  · rw [step_rk34, (rk34_inner h hr dt).q h () rfl]; simp only [h0, id]; ring
  · rw [step_rk4, (rk4_inner h hr dt).q h () rfl]; simp only [h0, id]; ring
  · rw [step_maccormack, (maccormack_inner h hr dt).q h () rfl]; simp only [h0, id]; ring

/-! ### C20 -/

/-- C20: at the start of the step after any history of at least one dual-time step, `Qn` is the current solution and
    `Qnm1` the solution one step earlier (whole arrays). -/
theorem C20_history (e : Env ι A) (dts : List ℝ) (dt : ℝ) (s : St ι A) :
    (run e .dualTime (dts ++ [dt]) s).Qn = (run e .dualTime (dts ++ [dt]) s).core.Q ∧
    (run e .dualTime (dts ++ [dt]) s).Qnm1 = (run e .dualTime dts s).Qn ∧
    (dts ≠ [] → (run e .dualTime (dts ++ [dt]) s).Qnm1 = (run e .dualTime dts s).core.Q) := by
  have hrun : run e .dualTime (dts ++ [dt]) s = dualTime e dt (run e .dualTime dts s) := by simp [run, step]
  have key : ∀ n (u : St ι A), (finish dt (shift ((pseudoIter e dt)^[n] u))).Qnm1 = u.Qn ∧
      (finish dt (shift ((pseudoIter e dt)^[n] u))).Qn = (finish dt (shift ((pseudoIter e dt)^[n] u))).core.Q := by
    intro n u
    obtain ⟨-, -, h3, -⟩ := pseudoIters_counters e dt n u
    exact ⟨h3, rfl⟩
  have h1 : (dualTime e dt (run e .dualTime dts s)).Qn = (dualTime e dt (run e .dualTime dts s)).core.Q := (key 20 _).2
  have h2 : (dualTime e dt (run e .dualTime dts s)).Qnm1 = (run e .dualTime dts s).Qn := (key 20 _).1
  rw [hrun]
  refine ⟨h1, h2, fun hne => ?_⟩
  rw [h2]
  obtain ⟨l, a, rfl⟩ := List.eq_nil_or_concat dts |>.resolve_left hne
  rw [List.concat_eq_append]
  have : run e .dualTime (l ++ [a]) s = finish a (shift ((pseudoIter e a)^[20] (run e .dualTime l s))) := by
    simp [run, step, dualTime]
  rw [this]
  rfl

/-- Two states that a restart cannot tell apart: same data, counters and newest level, same interior older level.
    Scratch storage (Q0..Q3, dQ, dtau) and halo entries of the older level may differ. -/
structure Same (e : Env ι A) (s u : St ι A) : Prop where
  core : s.core = u.core
  tme : s.tme = u.tme
  nrt : s.nrt = u.nrt
  qn : ∀ i, e.inner i → s.Qn i = u.Qn i
  qnm1 : ∀ i, e.inner i → s.Qnm1 i = u.Qnm1 i

/-- what the dual-time step needs of the preconditioner: interior cells use interior dQ only (invertDQ solves a system per
    interior cell, dualTime.cpp:311-593) -/
def InvertLocal (e : Env ι A) : Prop :=
  ∀ dt c d d', (∀ i, e.inner i → d i = d' i) → ∀ i, e.inner i → e.invert dt c d i = e.invert dt c d' i

theorem onInner_congr (e : Env ι A) {o o' n n' : ι → ℝ} (ho : o = o') (hn : ∀ i, e.inner i → n i = n' i) :
    onInner e o n = onInner e o' n' := by
  funext i
  unfold onInner
  by_cases hi : e.inner i
  · simp [hi, hn i hi]
  · simp [hi, ho]

/-- one stage: dQ after inversion agrees on the interior -/
theorem dq_same (e : Env ι A) (hl : InvertLocal e) (t dt : ℝ) {s u : St ι A} (h : Same e s u) (i : ι) (hi : e.inner i) :
    (invertDQ e dt (dQdt e dt (doRHS e t s))).dQ i = (invertDQ e dt (dQdt e dt (doRHS e t u))).dQ i := by
  have hd : ∀ j, e.inner j → (dQdt e dt (doRHS e t s)).dQ j = (dQdt e dt (doRHS e t u)).dQ j := by
    intro j hj
    simp [dQdt, doRHS, onInner, hj, h.core, h.qn j hj, h.qnm1 j hj]
  have hc : (dQdt e dt (doRHS e t s)).core = (dQdt e dt (doRHS e t u)).core := by simp [dQdt, doRHS, h.core]
  simp only [invertDQ, onInner, hi, if_true]
  rw [hc]
  exact hl _ _ _ _ hd i hi

theorem stage_core (e : Env ι A) (t dt : ℝ) {s u : St ι A} (h : Same e s u) :
    (invertDQ e dt (dQdt e dt (doRHS e t s))).core = (invertDQ e dt (dQdt e dt (doRHS e t u))).core := by
  simp [invertDQ, dQdt, doRHS, h.core]

/-- the state of a pseudo iteration that must agree between the two runs -/
structure SameP (e : Env ι A) (s u : St ι A) : Prop extends Same e s u where
  q0 : ∀ i, e.inner i → s.Q0 i = u.Q0 i
  dtau : ∀ i, e.inner i → s.dtau i = u.dtau i

theorem same_iter (e : Env ι A) (hl : InvertLocal e) (dt : ℝ) {s u : St ι A} (h : Same e s u) :
    Same e (pseudoIter e dt s) (pseudoIter e dt u) := by
  have h0 : Same e (doDtau e s) (doDtau e u) := ⟨h.core, h.tme, h.nrt, h.qn, h.qnm1⟩
  have d0 : ∀ i, e.inner i → (doDtau e s).dtau i = (doDtau e u).dtau i := by
    intro i hi; simp [doDtau, onInner, hi, h.core]
  have ht := h.tme
  -- stage 1
  have h1 : SameP e (doConsistifyP e (DTrk3s1 e (invertDQ e dt (dQdt e dt (doRHS e s.tme (doDtau e s))))))
      (doConsistifyP e (DTrk3s1 e (invertDQ e dt (dQdt e dt (doRHS e s.tme (doDtau e u)))))) := by
    have hc := stage_core e s.tme dt h0
    have hd := dq_same e hl s.tme dt h0
    refine ⟨⟨?_, h.tme, h.nrt, h.qn, h.qnm1⟩, ?_, d0⟩
    · simp only [doConsistifyP]
      refine congrArg (e.consistifyP _) ?_
      simp only [DTrk3s1, St.setq]
      rw [← hc]
      congr 1
      refine onInner_congr e rfl (fun i hi => ?_)
      rw [hd i hi]
      congr 2
      exact d0 i hi
    · intro i hi
      change onInner e _ (invertDQ e dt (dQdt e dt (doRHS e s.tme (doDtau e s)))).core.q i
        = onInner e _ (invertDQ e dt (dQdt e dt (doRHS e s.tme (doDtau e u)))).core.q i
      rw [hc]; simp [onInner, hi]
  have h2 : ∀ {a b : St ι A}, SameP e a b → ∀ t : ℝ,
      SameP e (doConsistifyP e (DTrk3s2 e (invertDQ e dt (dQdt e dt (doRHS e t a)))))
        (doConsistifyP e (DTrk3s2 e (invertDQ e dt (dQdt e dt (doRHS e t b))))) := by
    intro a b hab t
    have hc := stage_core e t dt hab.toSame
    have hd := dq_same e hl t dt hab.toSame
    refine ⟨⟨?_, hab.tme, hab.nrt, hab.qn, hab.qnm1⟩, hab.q0, hab.dtau⟩
    simp only [doConsistifyP]
    refine congrArg (e.consistifyP _) ?_
    simp only [DTrk3s2, St.setq]
    rw [← hc]
    congr 1
    refine onInner_congr e rfl (fun i hi => ?_)
    rw [hd i hi]
    congr 1
    · congr 2; exact hab.q0 i hi
    · congr 1; exact hab.dtau i hi
  have h3 : ∀ {a b : St ι A}, SameP e a b → ∀ t : ℝ,
      SameP e (doConsistifyP e (DTrk3s3 e (invertDQ e dt (dQdt e dt (doRHS e t a)))))
        (doConsistifyP e (DTrk3s3 e (invertDQ e dt (dQdt e dt (doRHS e t b))))) := by
    intro a b hab t
    have hc := stage_core e t dt hab.toSame
    have hd := dq_same e hl t dt hab.toSame
    refine ⟨⟨?_, hab.tme, hab.nrt, hab.qn, hab.qnm1⟩, hab.q0, hab.dtau⟩
    simp only [doConsistifyP]
    refine congrArg (e.consistifyP _) ?_
    simp only [DTrk3s3, St.setq]
    rw [← hc]
    congr 1
    refine onInner_congr e rfl (fun i hi => ?_)
    rw [hd i hi]
    congr 1
    congr 1
    · congr 1; exact hab.q0 i hi
    · congr 1; exact hab.dtau i hi
  have := h3 (h2 h1 (s.tme + dt)) (s.tme + dt / 2)
  unfold pseudoIter
  rw [← ht]
  exact this.toSame

theorem same_step (e : Env ι A) (hl : InvertLocal e) (dt : ℝ) {s u : St ι A} (h : Same e s u) :
    Same e (dualTime e dt s) (dualTime e dt u) := by
  have key : ∀ n {s u : St ι A}, Same e s u → Same e ((pseudoIter e dt)^[n] s) ((pseudoIter e dt)^[n] u) := by
    intro n
    induction n with
    | zero => intro s u h; exact h
    | succ n ih => intro s u h; rw [Function.iterate_succ_apply, Function.iterate_succ_apply]; exact ih (same_iter e hl dt h)
  have fin : ∀ {s u : St ι A}, Same e s u → Same e (finish dt (shift s)) (finish dt (shift u)) := by
    intro s u h
    refine ⟨h.core, ?_, ?_, ?_, h.qn⟩
    · simp [finish, shift, h.tme]
    · simp [finish, shift, h.nrt]
    · intro i _; simp [finish, shift, h.core]
  exact fin (key 20 h)

theorem same_run (e : Env ι A) (hl : InvertLocal e) (dts : List ℝ) {s u : St ι A} (h : Same e s u) :
    Same e (run e .dualTime dts s) (run e .dualTime dts u) := by
  induction dts generalizing s u with
  | nil => exact h
  | cons a l ih => exact ih (same_step e hl a h)

/-- C20: a run stopped after any positive number of dual-time steps (history `dts`) and resumed computes, for every
    continuation `more`, the same data as the run that never stopped. `r` is the resumed process before
    initializeDualTime: its data and counters are those of the saved solution, everything else is arbitrary (fresh
    arrays); the auxiliary file holds the interior of the older level. -/
theorem C20_restart (e : Env ι A) (hl : InvertLocal e) (dts more : List ℝ) (hne : dts ≠ []) (s r : St ι A)
    (hcore : r.core = (run e .dualTime dts s).core) (htme : r.tme = (run e .dualTime dts s).tme)
    (hnrt : r.nrt = (run e .dualTime dts s).nrt) :
    (run e .dualTime more (initDualTime (some (qnm1File e (run e .dualTime dts s))) r)).core
      = (run e .dualTime more (run e .dualTime dts s)).core := by
  obtain ⟨l, a, rfl⟩ := List.eq_nil_or_concat dts |>.resolve_left hne
  have hist := C20_history e l a s
  have hn : r.nrt ≠ 0 := by
    rw [hnrt]
    have := (C16_counters_partial e .dualTime (l ++ [a]) s).1
    rw [List.concat_eq_append, this]; simp
  rw [List.concat_eq_append] at *
  set w := run e .dualTime (l ++ [a]) s with hw
  refine (same_run e hl more (s := initDualTime (some (qnm1File e w)) r) (u := w) ⟨?_, ?_, ?_, ?_, ?_⟩).core
  · simp [initDualTime, hn, hcore]
  · simp [initDualTime, hn, htme]
  · simp only [initDualTime]; split_ifs <;> exact hnrt
  · intro i _; simp [initDualTime, hn, hcore, hist.1]
  · intro i hi; simp [initDualTime, hn, qnm1File, hi]

/-- C20: without the auxiliary file, and at the very first start, both older levels are the current solution. -/
theorem C20_fallback (s : St ι A) (file : Option (ι → Option ℝ)) (h : file = none ∨ s.nrt = 0) :
    (initDualTime file s).Qn = s.core.Q ∧ (initDualTime file s).Qnm1 = s.core.Q ∧
    (initDualTime file s).core = s.core := by
  unfold initDualTime
  split_ifs with h0
  · rcases h with rfl | h
    · exact ⟨rfl, rfl, rfl⟩
    · exact absurd h h0
  · exact ⟨rfl, rfl, rfl⟩

/-! ### Non-vacuity -/

/-- the scalar test problem `Q' = 3 Q` as a solver -/
def exEnv : Env Unit Unit where
  inner _ := true
  rhs _ c := (fun i => 3 * c.Q i, c)
  consistify _ c := c
  consistifyP _ c := c
  stiff _ c := c
  dtau _ _ := 1
  invert _ _ d := d

/-- it meets the hypotheses of C17, C18 (the whole space and, for `dt0 > 0`, the nonnegative states), C20 -/
example : IsODE exEnv (fun _ Q i => 3 * Q i) ∧ Linear exEnv.inner 3 (fun _ Q (i : Unit) => 3 * Q i) ∧
    (∀ s : St Unit Unit, Ready exEnv 0 s) ∧ InvertLocal exEnv ∧
    EulerInvariant (fun _ Q (i : Unit) => 3 * Q i) {Q | ∀ i, 0 ≤ Q i} 1 ∧ Convex ℝ {Q : Unit → ℝ | ∀ i, 0 ≤ Q i} ∧
    InnerOnly exEnv.inner {Q | ∀ i, 0 ≤ Q i} := by
  refine ⟨⟨fun _ _ Q Q' h i hi => by rw [h i hi], fun _ _ _ _ => rfl, fun _ _ _ _ => rfl, fun _ _ _ _ _ => rfl⟩,
    fun _ _ _ _ => rfl, fun s => ⟨s.core, rfl⟩, fun _ _ _ _ h i hi => h i hi, ?_, ?_, ?_⟩
  · intro t h h0 _ Q hQ i
    have := hQ i
    simp only
    nlinarith
  · intro U hU V hV a b ha hb _ i
    have h1 := hU i
    have h2 := hV i
    simp only [Pi.add_apply, Pi.smul_apply, smul_eq_mul]
    exact add_nonneg (mul_nonneg ha h1) (mul_nonneg hb h2)
  · intro Q Q' h hQ i
    rw [← h i rfl]; exact hQ i

/-- C19's hypothesis holds for the state `0` of the test problem -/
example : ∀ (tb t : ℝ) (x : Unit), exEnv.inner x → (fun _ _ Q i => 3 * Q i : ℝ → ℝ → (Unit → ℝ) → Unit → ℝ) tb t (fun _ => 0) x = 0 := by
  intro _ _ _ _; simp

end PG.Time
