import Verif.Time.Props
/-
C69: what dual time stepping converges to. The implicit equation of a step from `t` to `t + dt` is the second-order backward
difference formula  (3 Q - 4 Qn + Qnm1) / (2 dt) = rhs (t + dt) Q.
-/
namespace PG.Time

variable {ι A : Type} (e : Env ι A)

/-- the BDF2 equation at interior entries, right-hand side evaluated at time `τ` -/
def BDF2 (τ dt : ℝ) (s : St ι A) : Prop :=
  ∀ i, e.inner i → (3 * s.core.Q i - 4 * s.Qn i + s.Qnm1 i) / (2 * dt) = (e.rhs τ s.core).1 i

/-- the data are settled at time `τ`: recomputing halos, derived quantities and boundary conditions changes nothing, and a
    vanishing residual gives a vanishing update -/
structure Settled (τ dt : ℝ) (s : St ι A) : Prop where
  rhs : (e.rhs τ s.core).2 = s.core
  cons : e.consistifyP τ s.core = s.core
  inv : ∀ d : ι → ℝ, (∀ i, e.inner i → d i = 0) → ∀ i, e.inner i → e.invert dt s.core d i = 0

/-- C69: the time difference subtracted from the right-hand side is the exact derivative at the new time level of every
    quadratic history (second-order accuracy), for any step size. -/
theorem C69_bdf2_exact (a b c t dt : ℝ) (hdt : dt ≠ 0) (s : St ι A) (i : ι) (hi : e.inner i)
    (hQ : s.core.Q i = a + b * (t + dt) + c * (t + dt) ^ 2) (hn : s.Qn i = a + b * t + c * t ^ 2)
    (hm : s.Qnm1 i = a + b * (t - dt) + c * (t - dt) ^ 2) :
    (dQdt e dt s).dQ i = s.dQ i - (b + 2 * c * (t + dt)) := by
  simp only [dQdt, onInner, hi, if_true, hQ, hn, hm]
  field_simp
  ring

/-- outside the interior the right-hand side is left alone -/
theorem C69_dQdt_interior_only (dt : ℝ) (s : St ι A) (i : ι) (hi : e.inner i = false) : (dQdt e dt s).dQ i = s.dQ i := by
  simp [dQdt, onInner, hi]

theorem residual_zero {τ dt : ℝ} {s : St ι A} (h : BDF2 e τ dt s) (hs : Settled e τ dt s) :
    ∀ i, e.inner i → (invertDQ e dt (dQdt e dt (doRHS e τ s))).dQ i = 0 := by
  intro i hi
  simp only [invertDQ, onInner, hi, if_true]
  have : (dQdt e dt (doRHS e τ s)).core = s.core := hs.rhs
  rw [this]
  refine hs.inv _ ?_ i hi
  intro j hj
  simp only [dQdt, onInner, hj, if_true, doRHS, hs.rhs]
  rw [h j hj]; ring

/-- C69: a state that satisfies the implicit BDF2 equation at the stage times is a fixed point of the pseudo-time iteration:
    primitives, conserved variables and all other data are returned unchanged. -/
theorem C69_fixed_partial (dt : ℝ) (s : St ι A)
    (h : ∀ τ, τ = s.tme ∨ τ = s.tme + dt ∨ τ = s.tme + dt / 2 → BDF2 e τ dt s ∧ Settled e τ dt s) :
    (pseudoIter e dt s).core = s.core := by
  obtain ⟨b1, c1⟩ := h _ (Or.inl rfl)
  obtain ⟨b2, c2⟩ := h _ (Or.inr (Or.inl rfl))
  obtain ⟨b3, c3⟩ := h _ (Or.inr (Or.inr rfl))
  -- the first stage
  set s0 := doDtau e s with hs0
  have e0 : s0.core = s.core := rfl
  have z1 := residual_zero e (s := s0) (τ := s.tme) (dt := dt) b1 ⟨c1.rhs, c1.cons, c1.inv⟩
  set r1 := invertDQ e dt (dQdt e dt (doRHS e s.tme s0)) with hr1
  have k1 : r1.core = s.core := c1.rhs
  have q1 : (DTrk3s1 e r1).core = s.core := by
    have : onInner e r1.core.q (fun i => r1.core.q i + r1.dtau i * r1.dQ i) = r1.core.q := by
      funext i; unfold onInner; split
      · next hi => beta_reduce; rw [z1 i hi]; ring
      · rfl
    refine Eq.trans (congrArg (fun f => ({ r1.core with q := f } : Core ι A)) this) ?_
    exact k1
  set s1 := doConsistifyP e (DTrk3s1 e r1) with hs1
  have e1 : s1.core = s.core := by
    change e.consistifyP s.tme (DTrk3s1 e r1).core = _
    rw [q1, c1.cons]
  have p1 : ∀ i, e.inner i → s1.Q0 i = s.core.q i := by
    intro i hi
    change onInner e s.Q0 r1.core.q i = _
    simp only [onInner, hi, if_true, k1]
  have n1 : s1.Qn = s.Qn := rfl
  have m1 : s1.Qnm1 = s.Qnm1 := rfl
  -- the second stage
  have z2 := residual_zero e (s := s1) (τ := s.tme + dt) (dt := dt)
    (by intro i hi; rw [e1, n1, m1]; exact b2 i hi)
    ⟨by rw [e1]; exact c2.rhs, by rw [e1]; exact c2.cons, by rw [e1]; exact c2.inv⟩
  set r2 := invertDQ e dt (dQdt e dt (doRHS e (s.tme + dt) s1)) with hr2
  have k2 : r2.core = s.core := by
    change (e.rhs (s.tme + dt) s1.core).2 = _
    rw [e1]; exact c2.rhs
  have o2 : r2.Q0 = s1.Q0 := rfl
  have q2 : (DTrk3s2 e r2).core = s.core := by
    have : onInner e r2.core.q (fun i => 0.75 * r2.Q0 i + 0.25 * r2.core.q i + 0.25 * r2.dQ i * r2.dtau i) = r2.core.q := by
      funext i; unfold onInner; split
      · next hi => beta_reduce; rw [z2 i hi, o2, p1 i hi, k2]; ring
      · rfl
    refine Eq.trans (congrArg (fun f => ({ r2.core with q := f } : Core ι A)) this) ?_
    exact k2
  set s2 := doConsistifyP e (DTrk3s2 e r2) with hs2
  have e2 : s2.core = s.core := by
    change e.consistifyP (s.tme + dt) (DTrk3s2 e r2).core = _
    rw [q2, c2.cons]
  have p2 : s2.Q0 = s1.Q0 := rfl
  have n2 : s2.Qn = s.Qn := rfl
  have m2 : s2.Qnm1 = s.Qnm1 := rfl
  -- the third stage
  have z3 := residual_zero e (s := s2) (τ := s.tme + dt / 2) (dt := dt)
    (by intro i hi; rw [e2, n2, m2]; exact b3 i hi)
    ⟨by rw [e2]; exact c3.rhs, by rw [e2]; exact c3.cons, by rw [e2]; exact c3.inv⟩
  set r3 := invertDQ e dt (dQdt e dt (doRHS e (s.tme + dt / 2) s2)) with hr3
  have k3 : r3.core = s.core := by
    change (e.rhs (s.tme + dt / 2) s2.core).2 = _
    rw [e2]; exact c3.rhs
  have o3 : r3.Q0 = s1.Q0 := rfl
  have q3 : (DTrk3s3 e r3).core = s.core := by
    have : onInner e r3.core.q (fun i => (r3.Q0 i + 2 * r3.core.q i + 2 * r3.dQ i * r3.dtau i) / 3) = r3.core.q := by
      funext i; unfold onInner; split
      · next hi => beta_reduce; rw [z3 i hi, o3, p1 i hi, k3]; ring
      · rfl
    refine Eq.trans (congrArg (fun f => ({ r3.core with q := f } : Core ι A)) this) ?_
    exact k3
  change e.consistifyP (s.tme + dt / 2) (DTrk3s3 e r3).core = _
  rw [q3, c3.cons]

/-- C69, converse: once the first pseudo stage no longer moves the primitives, the BDF2 equation holds (right-hand side at the
    time the stage uses), provided pseudo steps are non-zero and only a zero residual gives a zero update. -/
theorem C69_converged_partial (dt : ℝ) (s : St ι A)
    (hdtau : ∀ i, e.inner i → e.dtau s.core i ≠ 0)
    (hkeep : (e.rhs s.tme s.core).2 = s.core)
    (hinv : ∀ d : ι → ℝ, (∀ i, e.inner i → e.invert dt s.core d i = 0) → ∀ i, e.inner i → d i = 0)
    (hq : (DTrk3s1 e (invertDQ e dt (dQdt e dt (doRHS e s.tme (doDtau e s))))).core.q = s.core.q) :
    BDF2 e s.tme dt s := by
  set s0 := doDtau e s with hs0
  set d := (dQdt e dt (doRHS e s.tme s0)).dQ with hd
  have hcore : (dQdt e dt (doRHS e s.tme s0)).core = s.core := hkeep
  have z : ∀ i, e.inner i → e.invert dt s.core d i = 0 := by
    intro i hi
    have := congrFun hq i
    simp only [DTrk3s1, St.setq, onInner, hi, if_true, invertDQ, hcore] at this
    rw [← hd] at this
    have h2 : (dQdt e dt (doRHS e s.tme s0)).dtau i * e.invert dt s.core d i = 0 := by linarith
    have h3 : (dQdt e dt (doRHS e s.tme s0)).dtau i = e.dtau s.core i := by
      change onInner e _ _ i = _
      simp [onInner, hi]
    rw [h3] at h2
    exact (mul_eq_zero.1 h2).resolve_left (hdtau i hi)
  intro i hi
  have := hinv d z i hi
  simp only [hd, dQdt, onInner, hi, if_true, doRHS] at this
  have hk : (e.rhs s.tme s0.core).2 = s.core := hkeep
  rw [hk] at this
  have e1 : s0.core = s.core := rfl
  have e2 : s0.Qn = s.Qn := rfl
  have e3 : s0.Qnm1 = s.Qnm1 := rfl
  rw [e1, e2, e3] at this
  linarith

/-- a solver whose right-hand side is the time itself, primitives are the conserved variables, pseudo step one -/
def clockEnv : Env Unit Unit where
  inner := fun _ => true
  rhs := fun t c => (fun _ => t, c)
  consistify := fun _ c => c
  consistifyP := fun _ c => { c with Q := c.q }
  stiff := fun _ c => c
  dtau := fun _ _ => 1
  invert := fun _ _ d => d

/-- the state at t = 0 whose current iterate solves the BDF2 equation at t + dt = 1: (3 * 2/3)/2 = 1 -/
noncomputable def clockState : St Unit Unit where
  core := ⟨fun _ => 2/3, fun _ => 2/3, ()⟩
  Q0 := fun _ => 0
  Q1 := fun _ => 0
  Q2 := fun _ => 0
  Q3 := fun _ => 0
  Qn := fun _ => 0
  Qnm1 := fun _ => 0
  dQ := fun _ => 0
  dtau := fun _ => 0
  nrt := 0
  tme := 0
  titme := 0

/-- C69 fails for time-dependent right-hand sides (time-dependent boundary conditions, for instance): the exact solution of the
    implicit equation at the new time is moved by the pseudo iteration, because the three pseudo stages evaluate the right-hand
    side at t, t + dt and t + dt/2 instead of at t + dt. -/
theorem C69_time_violated :
    BDF2 clockEnv (clockState.tme + 1) 1 clockState ∧ Settled clockEnv (clockState.tme + 1) 1 clockState ∧
    (pseudoIter clockEnv 1 clockState).core.Q () ≠ clockState.core.Q () := by
  refine ⟨?_, ⟨rfl, rfl, fun d h i _ => h i rfl⟩, ?_⟩
  · intro i _
    norm_num [clockState, clockEnv]
  · norm_num [pseudoIter, clockState, clockEnv, doDtau, doConsistifyP, DTrk3s1, DTrk3s2, DTrk3s3, invertDQ, dQdt, doRHS,
      onInner, St.setq]

/-- a steady environment with a non-trivial solution of the equation: constant right-hand side 2, Qn = Qnm1 = 1, Q = 7/3 -/
def constEnv : Env Unit Unit := { clockEnv with rhs := fun _ c => (fun _ => 2, c) }

example : ∀ τ : ℝ, BDF2 constEnv τ 1 { clockState with core := ⟨fun _ => 7/3, fun _ => 7/3, ()⟩, Qn := fun _ => 1, Qnm1 := fun _ => 1 } ∧
    Settled constEnv τ 1 { clockState with core := ⟨fun _ => 7/3, fun _ => 7/3, ()⟩, Qn := fun _ => 1, Qnm1 := fun _ => 1 } := by
  intro τ
  refine ⟨?_, ⟨rfl, rfl, fun d h i _ => h i rfl⟩⟩
  intro i _
  norm_num [constEnv, clockEnv]

example : (∀ i, constEnv.inner i → constEnv.dtau clockState.core i ≠ 0) ∧
    (∀ d : Unit → ℝ, (∀ i, constEnv.inner i → constEnv.invert 1 clockState.core d i = 0) → ∀ i, constEnv.inner i → d i = 0) :=
  ⟨fun i _ => by norm_num [constEnv, clockEnv], fun d h i hi => h i hi⟩

end PG.Time
