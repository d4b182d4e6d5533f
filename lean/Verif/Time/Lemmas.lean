import Verif.Time.Spec
import Mathlib.Tactic.FinCases
/-
Interior conserved variables after each integrator, for a solver described by `f`.
-/
namespace PG.Time

variable {ι A : Type} {e : Env ι A} {f : ℝ → ℝ → (ι → ℝ) → ι → ℝ}

/-- what the interior arrays of a state hold -/
structure Snap (e : Env ι A) (s : St ι A) (tb : ℝ) (Qv Q0v Q1v Q2v Q3v : ι → ℝ) : Prop where
  ready : ∃ c, s.core = e.consistify tb c ∧ ∀ i, e.inner i → c.Q i = Qv i
  q0 : ∀ i, e.inner i → s.Q0 i = Q0v i
  q1 : ∀ i, e.inner i → s.Q1 i = Q1v i
  q2 : ∀ i, e.inner i → s.Q2 i = Q2v i
  q3 : ∀ i, e.inner i → s.Q3 i = Q3v i

theorem Snap.init (h : Describes e f) {s : St ι A} {tb : ℝ} (hr : Ready e tb s) :
    Snap e s tb s.core.Q s.Q0 s.Q1 s.Q2 s.Q3 := by
  obtain ⟨c, hc⟩ := hr
  exact ⟨⟨c, hc, fun i hi => by rw [hc, h.cons_keeps _ _ _ hi]⟩, fun _ _ => rfl, fun _ _ => rfl, fun _ _ => rfl,
    fun _ _ => rfl⟩

theorem Snap.q (h : Describes e f) {s : St ι A} {tb : ℝ} {Qv Q0v Q1v Q2v Q3v} (hs : Snap e s tb Qv Q0v Q1v Q2v Q3v) :
    ∀ i, e.inner i → s.core.Q i = Qv i := by
  intro i hi
  obtain ⟨c, hc, hq⟩ := hs.ready
  rw [hc, h.cons_keeps _ _ _ hi, hq i hi]

/-- after the RHS evaluation -/
theorem Snap.rhs (h : Describes e f) {s : St ι A} {tb : ℝ} {Qv Q0v Q1v Q2v Q3v} (hs : Snap e s tb Qv Q0v Q1v Q2v Q3v)
    (t : ℝ) (i : ι) (hi : e.inner i) :
    (doRHS e t s).dQ i = f tb t Qv i ∧ (doRHS e t s).core.Q i = Qv i ∧ (doRHS e t s).Q0 i = Q0v i ∧
    (doRHS e t s).Q1 i = Q1v i ∧ (doRHS e t s).Q2 i = Q2v i ∧ (doRHS e t s).Q3 i = Q3v i := by
  refine ⟨?_, ?_, hs.q0 i hi, hs.q1 i hi, hs.q2 i hi, hs.q3 i hi⟩
  · obtain ⟨c, hc, hq⟩ := hs.ready
    change (e.rhs t s.core).1 i = _
    rw [hc, h.rhs_val _ _ _ _ hi]
    exact h.local' _ _ _ _ hq i hi
  · change (e.rhs t s.core).2.Q i = _
    rw [h.rhs_keeps _ _ _ hi]
    exact hs.q h i hi

/-- general stage: a kernel that writes the given interior values, followed by consistify -/
theorem Snap.stage {s' : St ι A} {t : ℝ} {Qn Q0n Q1n Q2n Q3n : ι → ℝ} (ht : s'.titme = t)
    (hq : ∀ i, e.inner i → s'.core.Q i = Qn i) (h0 : ∀ i, e.inner i → s'.Q0 i = Q0n i)
    (h1 : ∀ i, e.inner i → s'.Q1 i = Q1n i) (h2 : ∀ i, e.inner i → s'.Q2 i = Q2n i)
    (h3 : ∀ i, e.inner i → s'.Q3 i = Q3n i) :
    Snap e (doConsistify e s') t Qn Q0n Q1n Q2n Q3n :=
  ⟨⟨s'.core, by simp [doConsistify, ht], hq⟩, h0, h1, h2, h3⟩

variable {s : St ι A} {tb : ℝ} {Qv Q0v Q1v Q2v Q3v : ι → ℝ}

local macro "stg" h:ident hs:ident t:ident defs:Lean.Parser.Tactic.simpLemma : tactic =>
  `(tactic| (refine Snap.stage rfl ?_ ?_ ?_ ?_ ?_ <;> intro i hi <;>
    obtain ⟨a, b, c0, c1, c2, c3⟩ := Snap.rhs $h $hs $t i hi <;>
    simp [$defs, St.setQ, onInner, ApEQxB, hi, a, b, c0, c1, c2, c3]))

theorem snap_euler (h : Describes e f) (hs : Snap e s tb Qv Q0v Q1v Q2v Q3v) (t dt : ℝ) :
    Snap e (doConsistify e (ApEQxB dt (doRHS e t s))) t (fun i => Qv i + dt * f tb t Qv i) Q0v Q1v Q2v Q3v := by
  stg h hs t ApEQxB

theorem snap_rk2s1 (h : Describes e f) (hs : Snap e s tb Qv Q0v Q1v Q2v Q3v) (t dt : ℝ) :
    Snap e (doConsistify e (rk2s1 e dt (doRHS e t s))) t (fun i => Qv i + f tb t Qv i * dt) Qv Q1v Q2v Q3v := by
  stg h hs t rk2s1

theorem snap_rk2s2 (h : Describes e f) (hs : Snap e s tb Qv Q0v Q1v Q2v Q3v) (t dt : ℝ) :
    Snap e (doConsistify e (rk2s2 e dt (doRHS e t s))) t (fun i => 0.5 * Q0v i + 0.5 * (Qv i + dt * f tb t Qv i))
      Q0v Q1v Q2v Q3v := by
  stg h hs t rk2s2

theorem snap_rk3s1 (h : Describes e f) (hs : Snap e s tb Qv Q0v Q1v Q2v Q3v) (t dt : ℝ) :
    Snap e (doConsistify e (rk3s1 e dt (doRHS e t s))) t (fun i => Qv i + dt * f tb t Qv i) Qv Q1v Q2v Q3v := by
  stg h hs t rk3s1

theorem snap_rk3s2 (h : Describes e f) (hs : Snap e s tb Qv Q0v Q1v Q2v Q3v) (t dt : ℝ) :
    Snap e (doConsistify e (rk3s2 e dt (doRHS e t s))) t
      (fun i => 0.75 * Q0v i + 0.25 * Qv i + 0.25 * f tb t Qv i * dt) Q0v Q1v Q2v Q3v := by
  stg h hs t rk3s2

theorem snap_rk3s3 (h : Describes e f) (hs : Snap e s tb Qv Q0v Q1v Q2v Q3v) (t dt : ℝ) :
    Snap e (doConsistify e (rk3s3 e dt (doRHS e t s))) t
      (fun i => (Q0v i + 2 * Qv i + 2 * f tb t Qv i * dt) / 3) Q0v Q1v Q2v Q3v := by
  stg h hs t rk3s3

theorem snap_rk34s1 (h : Describes e f) (hs : Snap e s tb Qv Q0v Q1v Q2v Q3v) (t dt : ℝ) :
    Snap e (doConsistify e (rk34s1 e dt (doRHS e t s))) t (fun i => Qv i + 0.5 * dt * f tb t Qv i) Qv Q1v Q2v Q3v := by
  stg h hs t rk34s1

theorem snap_rk34s2 (h : Describes e f) (hs : Snap e s tb Qv Q0v Q1v Q2v Q3v) (t dt : ℝ) :
    Snap e (doConsistify e (rk34s2 e dt (doRHS e t s))) t (fun i => Qv i + 0.5 * dt * f tb t Qv i) Q0v Q1v Q2v Q3v := by
  stg h hs t rk34s2

theorem snap_rk34s3 (h : Describes e f) (hs : Snap e s tb Qv Q0v Q1v Q2v Q3v) (t dt : ℝ) :
    Snap e (doConsistify e (rk34s3 e dt (doRHS e t s))) t
      (fun i => 2 / 3 * Q0v i + 1 / 3 * Qv i + 1 / 6 * f tb t Qv i * dt) Q0v Q1v Q2v Q3v := by
  stg h hs t rk34s3

theorem snap_rk34s4 (h : Describes e f) (hs : Snap e s tb Qv Q0v Q1v Q2v Q3v) (t dt : ℝ) :
    Snap e (doConsistify e (rk34s4 e dt (doRHS e t s))) t (fun i => Qv i + 0.5 * f tb t Qv i * dt) Q0v Q1v Q2v Q3v := by
  stg h hs t rk34s4

theorem snap_rk4s1 (h : Describes e f) (hs : Snap e s tb Qv Q0v Q1v Q2v Q3v) (t dt : ℝ) :
    Snap e (doConsistify e (rk4s1 e dt (doRHS e t s))) t (fun i => Qv i + 0.5 * (dt * f tb t Qv i)) Qv
      (fun i => dt * f tb t Qv i) Q2v Q3v := by
  stg h hs t rk4s1

theorem snap_rk4s2 (h : Describes e f) (hs : Snap e s tb Qv Q0v Q1v Q2v Q3v) (t dt : ℝ) :
    Snap e (doConsistify e (rk4s2 e dt (doRHS e t s))) t (fun i => Q0v i + 0.5 * (dt * f tb t Qv i)) Q0v
      Q1v (fun i => dt * f tb t Qv i) Q3v := by
  stg h hs t rk4s2

theorem snap_rk4s3 (h : Describes e f) (hs : Snap e s tb Qv Q0v Q1v Q2v Q3v) (t dt : ℝ) :
    Snap e (doConsistify e (rk4s3 e dt (doRHS e t s))) t (fun i => Q0v i + dt * f tb t Qv i) Q0v
      Q1v Q2v (fun i => dt * f tb t Qv i) := by
  stg h hs t rk4s3

theorem snap_rk4s4 (h : Describes e f) (hs : Snap e s tb Qv Q0v Q1v Q2v Q3v) (t dt : ℝ) :
    Snap e (doConsistify e (rk4s4 e dt (doRHS e t s))) t
      (fun i => Q0v i + (Q1v i + 2 * Q2v i + 2 * Q3v i + dt * f tb t Qv i) / 6) Q0v Q1v Q2v Q3v := by
  stg h hs t rk4s4

theorem snap_corrector (h : Describes e f) (hs : Snap e s tb Qv Q0v Q1v Q2v Q3v) (t dt : ℝ) :
    Snap e (doConsistify e (corrector e dt (doRHS e t s))) t (fun i => 0.5 * (Q0v i + Qv i + dt * f tb t Qv i))
      Q0v Q1v Q2v Q3v := by
  stg h hs t corrector

/-! ### result of each step -/

theorem finish_core (dt : ℝ) (s : St ι A) : (finish dt s).core = s.core := rfl

theorem rk1_inner (h : Describes e f) (hr : Ready e tb s) (dt : ℝ) :
    Snap e (rk1 e dt s) s.tme (fun i => s.core.Q i + dt * f tb s.tme s.core.Q i) s.Q0 s.Q1 s.Q2 s.Q3 := by
  have := snap_euler h (Snap.init h hr) s.tme dt
  exact ⟨this.ready, this.q0, this.q1, this.q2, this.q3⟩

theorem rk2_inner (h : Describes e f) (hr : Ready e tb s) (dt : ℝ) :
    let Q := s.core.Q
    let U1 := fun i => Q i + f tb s.tme Q i * dt
    Snap e (rk2 e dt s) (s.tme + dt) (fun i => 0.5 * Q i + 0.5 * (U1 i + dt * f s.tme (s.tme + dt) U1 i)) Q s.Q1 s.Q2 s.Q3 := by
  intro Q U1
  have := snap_rk2s2 h (snap_rk2s1 h (Snap.init h hr) s.tme dt) (s.tme + dt) dt
  exact ⟨this.ready, this.q0, this.q1, this.q2, this.q3⟩

theorem rk3stages_inner (h : Describes e f) (hr : Ready e tb s) (dt : ℝ) :
    let Q := s.core.Q
    let U1 := fun i => Q i + dt * f tb s.tme Q i
    let U2 := fun i => 0.75 * Q i + 0.25 * U1 i + 0.25 * f s.tme (s.tme + dt) U1 i * dt
    Snap e (rk3stages e dt s) (s.tme + dt / 2)
      (fun i => (Q i + 2 * U2 i + 2 * f (s.tme + dt) (s.tme + dt / 2) U2 i * dt) / 3) Q s.Q1 s.Q2 s.Q3 := by
  intro Q U1 U2
  exact snap_rk3s3 h (snap_rk3s2 h (snap_rk3s1 h (Snap.init h hr) s.tme dt) (s.tme + dt) dt) (s.tme + dt / 2) dt

theorem rk3_inner (h : Describes e f) (hr : Ready e tb s) (dt : ℝ) :
    let Q := s.core.Q
    let U1 := fun i => Q i + dt * f tb s.tme Q i
    let U2 := fun i => 0.75 * Q i + 0.25 * U1 i + 0.25 * f s.tme (s.tme + dt) U1 i * dt
    Snap e (rk3 e dt s) (s.tme + dt / 2)
      (fun i => (Q i + 2 * U2 i + 2 * f (s.tme + dt) (s.tme + dt / 2) U2 i * dt) / 3) Q s.Q1 s.Q2 s.Q3 := by
  intro Q U1 U2
  have := rk3stages_inner h hr dt
  exact ⟨this.ready, this.q0, this.q1, this.q2, this.q3⟩

theorem rk34_inner (h : Describes e f) (hr : Ready e tb s) (dt : ℝ) :
    let Q := s.core.Q
    let U1 := fun i => Q i + 0.5 * dt * f tb s.tme Q i
    let U2 := fun i => U1 i + 0.5 * dt * f s.tme (s.tme + dt / 2) U1 i
    let U3 := fun i => 2 / 3 * Q i + 1 / 3 * U2 i + 1 / 6 * f (s.tme + dt / 2) (s.tme + dt) U2 i * dt
    Snap e (rk34 e dt s) (s.tme + dt / 2)
      (fun i => U3 i + 0.5 * f (s.tme + dt) (s.tme + dt / 2) U3 i * dt) Q s.Q1 s.Q2 s.Q3 := by
  intro Q U1 U2 U3
  have := snap_rk34s4 h (snap_rk34s3 h (snap_rk34s2 h (snap_rk34s1 h (Snap.init h hr) s.tme dt) (s.tme + dt / 2) dt)
    (s.tme + dt) dt) (s.tme + dt / 2) dt
  exact ⟨this.ready, this.q0, this.q1, this.q2, this.q3⟩

theorem rk4_inner (h : Describes e f) (hr : Ready e tb s) (dt : ℝ) :
    let Q := s.core.Q
    let K1 := fun i => dt * f tb s.tme Q i
    let U1 := fun i => Q i + 0.5 * K1 i
    let K2 := fun i => dt * f s.tme (s.tme + dt / 2) U1 i
    let U2 := fun i => Q i + 0.5 * K2 i
    let K3 := fun i => dt * f (s.tme + dt / 2) (s.tme + dt / 2) U2 i
    let U3 := fun i => Q i + K3 i
    Snap e (rk4 e dt s) (s.tme + dt)
      (fun i => Q i + (K1 i + 2 * K2 i + 2 * K3 i + dt * f (s.tme + dt / 2) (s.tme + dt) U3 i) / 6) Q K1 K2 K3 := by
  intro Q K1 U1 K2 U2 K3 U3
  have := snap_rk4s4 h (snap_rk4s3 h (snap_rk4s2 h (snap_rk4s1 h (Snap.init h hr) s.tme dt) (s.tme + dt / 2) dt)
    (s.tme + dt / 2) dt) (s.tme + dt) dt
  exact ⟨this.ready, this.q0, this.q1, this.q2, this.q3⟩

theorem maccormack_inner (h : Describes e f) (hr : Ready e tb s) (dt : ℝ) :
    let Q := s.core.Q
    let U1 := fun i => Q i + dt * f tb s.tme Q i
    Snap e (maccormack e dt s) s.tme (fun i => 0.5 * (Q i + U1 i + dt * f s.tme s.tme U1 i)) Q s.Q1 s.Q2 s.Q3 := by
  intro Q U1
  have h0 := Snap.init h (s := { s with Q0 := s.core.Q }) hr
  have := snap_corrector h (snap_euler h h0 s.tme dt) s.tme dt
  exact ⟨this.ready, this.q0, this.q1, this.q2, this.q3⟩

end PG.Time
