import Verif.Time.Model
import Mathlib.Algebra.Module.LinearMap.Defs
import Mathlib.Algebra.Module.Pi
/-!
Time integrators and linear changes of description (C110): if right-hand side, consistify and the other things an integrator
calls commute with a linear map of the arrays, so does every integrator.
-/
noncomputable section
namespace PG.Time

variable {ι A : Type}

/-- apply a map of arrays and a map of everything else to the solver data -/
def Core.map (ρ : (ι → ℝ) →ₗ[ℝ] (ι → ℝ)) (α : A → A) (c : Core ι A) : Core ι A := ⟨ρ c.Q, ρ c.q, α c.aux⟩

/-- ... and to the whole solver state. Pseudo time steps and clocks are scalars. -/
def St.map (ρ : (ι → ℝ) →ₗ[ℝ] (ι → ℝ)) (α : A → A) (s : St ι A) : St ι A :=
  ⟨s.core.map ρ α, ρ s.Q0, ρ s.Q1, ρ s.Q2, ρ s.Q3, ρ s.Qn, ρ s.Qnm1, ρ s.dQ, s.dtau, s.nrt, s.tme, s.titme⟩

/-- multiplying interior entries with `d` commutes with `ρ` -/
def Scal (e : Env ι A) (ρ : (ι → ℝ) →ₗ[ℝ] (ι → ℝ)) (d : ι → ℝ) : Prop :=
  ∀ old y x, ρ (onInner e old (fun i => y i + d i * x i)) = onInner e (ρ old) (fun i => ρ y i + d i * ρ x i)

/-- what the integrators call, in the two descriptions -/
structure Commutes (ρ : (ι → ℝ) →ₗ[ℝ] (ι → ℝ)) (α : A → A) (e' e : Env ι A) : Prop where
  inner : e'.inner = e.inner
  inside : ∀ old new, ρ (onInner e old new) = onInner e (ρ old) (ρ new)
  rhs : ∀ t c, e'.rhs t (c.map ρ α) = (ρ (e.rhs t c).1, (e.rhs t c).2.map ρ α)
  consistify : ∀ t c, e'.consistify t (c.map ρ α) = (e.consistify t c).map ρ α
  consistifyP : ∀ t c, e'.consistifyP t (c.map ρ α) = (e.consistifyP t c).map ρ α
  stiff : ∀ dt c, e'.stiff dt (c.map ρ α) = (e.stiff dt c).map ρ α

/-- what dual time stepping calls besides -/
structure CommutesDual (ρ : (ι → ℝ) →ₗ[ℝ] (ι → ℝ)) (α : A → A) (e' e : Env ι A) : Prop where
  dtau : ∀ c, e'.dtau (c.map ρ α) = e.dtau c
  scal : ∀ c old, Scal e ρ (onInner e old (e.dtau c))
  invert : ∀ dt c x, e'.invert dt (c.map ρ α) (ρ x) = ρ (e.invert dt c x)

variable {ρ : (ι → ℝ) →ₗ[ℝ] (ι → ℝ)} {α : A → A} {e' e : Env ι A}

section
variable (h : Commutes ρ α e' e)
include h

theorem on' (old new : ι → ℝ) : onInner e' old new = onInner e old new := by
  unfold onInner; rw [h.inner]

theorem map_rhs (t : ℝ) (s : St ι A) : doRHS e' t (s.map ρ α) = (doRHS e t s).map ρ α := by
  unfold doRHS St.map
  simp only [h.rhs]

theorem map_cons (s : St ι A) : doConsistify e' (s.map ρ α) = (doConsistify e s).map ρ α := by
  unfold doConsistify St.map
  simp only [h.consistify]

theorem map_consP (s : St ι A) : doConsistifyP e' (s.map ρ α) = (doConsistifyP e s).map ρ α := by
  unfold doConsistifyP St.map
  simp only [h.consistifyP]

omit h in
theorem map_finish (dt : ℝ) (s : St ι A) : finish dt (s.map ρ α) = (finish dt s).map ρ α := rfl

/-- updates of interior entries -/
theorem onI {old new new' : ι → ℝ} (hn : new' = ρ new) : onInner e' (ρ old) new' = ρ (onInner e old new) := by
  rw [on' h, h.inside, hn]

omit h in
/-- linear combinations of up to five arrays -/
theorem comb (a b c d f : ℝ) (x y z u w : ι → ℝ) {F' F : ι → ℝ}
    (h' : ∀ i, F' i = a * ρ x i + b * ρ y i + c * ρ z i + d * ρ u i + f * ρ w i)
    (h : ∀ i, F i = a * x i + b * y i + c * z i + d * u i + f * w i) : F' = ρ F := by
  have : F = a • x + b • y + c • z + d • u + f • w := by funext i; rw [h]; rfl
  rw [this]; simp only [map_add, map_smul]; funext i; rw [h']; rfl

/-- an update of Q on interior entries -/
theorem map_setQ {s : St ι A} {new new' : ι → ℝ} (hn : new' = ρ new) :
    (s.map ρ α).setQ (onInner e' (s.map ρ α).core.Q new') = (s.setQ (onInner e s.core.Q new)).map ρ α := by
  have := onI h (old := s.core.Q) hn
  simp only [St.setQ, St.map, Core.map, this]

theorem map_setq {s : St ι A} {new new' : ι → ℝ} (hn : new' = ρ new) :
    (s.map ρ α).setq (onInner e' (s.map ρ α).core.q new') = (s.setq (onInner e s.core.q new)).map ρ α := by
  have := onI h (old := s.core.q) hn
  simp only [St.setq, St.map, Core.map, this]

omit h in
theorem map_ap (dt : ℝ) (s : St ι A) : ApEQxB dt (s.map ρ α) = (ApEQxB dt s).map ρ α := by
  have : (fun i => ρ s.core.Q i + dt * ρ s.dQ i) = ρ (fun i => s.core.Q i + dt * s.dQ i) :=
    comb 1 dt 0 0 0 s.core.Q s.dQ s.dQ s.dQ s.dQ (fun i => by ring) (fun i => by ring)
  simp only [ApEQxB, St.setQ, St.map, Core.map, this]

theorem map_rk1 (dt : ℝ) (s : St ι A) : rk1 e' dt (s.map ρ α) = (rk1 e dt s).map ρ α := by
  unfold rk1
  rw [← map_finish, ← map_cons h, ← map_ap, ← map_rhs h]; rfl

theorem map_rk2s1 (dt : ℝ) (s : St ι A) : rk2s1 e' dt (s.map ρ α) = (rk2s1 e dt s).map ρ α := by
  have h1 : (fun i => ρ s.core.Q i + ρ s.dQ i * dt) = ρ (fun i => s.core.Q i + s.dQ i * dt) :=
    comb 1 dt 0 0 0 s.core.Q s.dQ s.dQ s.dQ s.dQ (fun i => by ring) (fun i => by ring)
  have h2 := onI h (old := s.core.Q) h1
  have h3 := onI h (old := s.Q0) (new := s.core.Q) rfl
  simp only [rk2s1, St.setQ, St.map, Core.map, h2, h3]

theorem map_rk2s2 (dt : ℝ) (s : St ι A) : rk2s2 e' dt (s.map ρ α) = (rk2s2 e dt s).map ρ α :=
  map_setQ h (comb 0.5 0.5 (0.5 * dt) 0 0 s.Q0 s.core.Q s.dQ s.dQ s.dQ
    (fun i => by simp only [St.map, Core.map]; ring) (fun i => by ring))

theorem map_rk2 (dt : ℝ) (s : St ι A) : rk2 e' dt (s.map ρ α) = (rk2 e dt s).map ρ α := by
  simp only [rk2]
  rw [show (s.map ρ α).tme = s.tme from rfl, map_rhs h, map_rk2s1 h, map_cons h, map_rhs h, map_rk2s2 h, map_cons h, map_finish]

theorem map_rk3s1 (dt : ℝ) (s : St ι A) : rk3s1 e' dt (s.map ρ α) = (rk3s1 e dt s).map ρ α := by
  have h1 : (fun i => ρ s.core.Q i + dt * ρ s.dQ i) = ρ (fun i => s.core.Q i + dt * s.dQ i) :=
    comb 1 dt 0 0 0 s.core.Q s.dQ s.dQ s.dQ s.dQ (fun i => by ring) (fun i => by ring)
  have h2 := onI h (old := s.core.Q) h1
  have h3 := onI h (old := s.Q0) (new := s.core.Q) rfl
  simp only [rk3s1, St.setQ, St.map, Core.map, h2, h3]

theorem map_rk3s2 (dt : ℝ) (s : St ι A) : rk3s2 e' dt (s.map ρ α) = (rk3s2 e dt s).map ρ α :=
  map_setQ h (comb 0.75 0.25 (0.25 * dt) 0 0 s.Q0 s.core.Q s.dQ s.dQ s.dQ
    (fun i => by simp only [St.map, Core.map]; ring) (fun i => by ring))

theorem map_rk3s3 (dt : ℝ) (s : St ι A) : rk3s3 e' dt (s.map ρ α) = (rk3s3 e dt s).map ρ α :=
  map_setQ h (comb (1 / 3) (2 / 3) (2 / 3 * dt) 0 0 s.Q0 s.core.Q s.dQ s.dQ s.dQ
    (fun i => by simp only [St.map, Core.map]; ring) (fun i => by ring))

theorem map_rk3stages (dt : ℝ) (s : St ι A) : rk3stages e' dt (s.map ρ α) = (rk3stages e dt s).map ρ α := by
  simp only [rk3stages]
  rw [show (s.map ρ α).tme = s.tme from rfl, map_rhs h, map_rk3s1 h, map_cons h, map_rhs h, map_rk3s2 h, map_cons h, map_rhs h,
    map_rk3s3 h, map_cons h]

theorem map_rk3 (dt : ℝ) (s : St ι A) : rk3 e' dt (s.map ρ α) = (rk3 e dt s).map ρ α := by
  unfold rk3; rw [map_rk3stages h, map_finish]

theorem map_rk34s1 (dt : ℝ) (s : St ι A) : rk34s1 e' dt (s.map ρ α) = (rk34s1 e dt s).map ρ α := by
  have h1 : (fun i => ρ s.core.Q i + 0.5 * dt * ρ s.dQ i) = ρ (fun i => s.core.Q i + 0.5 * dt * s.dQ i) :=
    comb 1 (0.5 * dt) 0 0 0 s.core.Q s.dQ s.dQ s.dQ s.dQ (fun i => by ring) (fun i => by ring)
  have h2 := onI h (old := s.core.Q) h1
  have h3 := onI h (old := s.Q0) (new := s.core.Q) rfl
  simp only [rk34s1, St.setQ, St.map, Core.map, h2, h3]

theorem map_rk34s2 (dt : ℝ) (s : St ι A) : rk34s2 e' dt (s.map ρ α) = (rk34s2 e dt s).map ρ α :=
  map_setQ h (comb 1 (0.5 * dt) 0 0 0 s.core.Q s.dQ s.dQ s.dQ s.dQ
    (fun i => by simp only [St.map, Core.map]; ring) (fun i => by ring))

theorem map_rk34s3 (dt : ℝ) (s : St ι A) : rk34s3 e' dt (s.map ρ α) = (rk34s3 e dt s).map ρ α :=
  map_setQ h (comb (2 / 3) (1 / 3) (1 / 6 * dt) 0 0 s.Q0 s.core.Q s.dQ s.dQ s.dQ
    (fun i => by simp only [St.map, Core.map]; ring) (fun i => by ring))

theorem map_rk34s4 (dt : ℝ) (s : St ι A) : rk34s4 e' dt (s.map ρ α) = (rk34s4 e dt s).map ρ α :=
  map_setQ h (comb 1 (0.5 * dt) 0 0 0 s.core.Q s.dQ s.dQ s.dQ s.dQ
    (fun i => by simp only [St.map, Core.map]; ring) (fun i => by ring))

theorem map_rk34 (dt : ℝ) (s : St ι A) : rk34 e' dt (s.map ρ α) = (rk34 e dt s).map ρ α := by
  simp only [rk34]
  rw [show (s.map ρ α).tme = s.tme from rfl, map_rhs h, map_rk34s1 h, map_cons h, map_rhs h, map_rk34s2 h, map_cons h, map_rhs h,
    map_rk34s3 h, map_cons h, map_rhs h, map_rk34s4 h, map_cons h, map_finish]

omit h in
theorem comb1 (a : ℝ) (x : ι → ℝ) : (fun i => a * ρ x i) = ρ (fun i => a * x i) :=
  comb a 0 0 0 0 x x x x x (fun i => by ring) (fun i => by ring)

theorem map_rk4s1 (dt : ℝ) (s : St ι A) : rk4s1 e' dt (s.map ρ α) = (rk4s1 e dt s).map ρ α := by
  have h1 : (fun i => ρ s.core.Q i + 0.5 * (dt * ρ s.dQ i)) = ρ (fun i => s.core.Q i + 0.5 * (dt * s.dQ i)) :=
    comb 1 (0.5 * dt) 0 0 0 s.core.Q s.dQ s.dQ s.dQ s.dQ (fun i => by ring) (fun i => by ring)
  have h2 := onI h (old := s.core.Q) h1
  have h3 := onI h (old := s.Q0) (new := s.core.Q) rfl
  have h4 := onI h (old := s.Q1) (comb1 dt s.dQ)
  simp only [rk4s1, St.setQ, St.map, Core.map, h2, h3, h4]

theorem map_rk4s2 (dt : ℝ) (s : St ι A) : rk4s2 e' dt (s.map ρ α) = (rk4s2 e dt s).map ρ α := by
  have h1 : (fun i => ρ s.Q0 i + 0.5 * (dt * ρ s.dQ i)) = ρ (fun i => s.Q0 i + 0.5 * (dt * s.dQ i)) :=
    comb 1 (0.5 * dt) 0 0 0 s.Q0 s.dQ s.dQ s.dQ s.dQ (fun i => by ring) (fun i => by ring)
  have h2 := onI h (old := s.core.Q) h1
  have h4 := onI h (old := s.Q2) (comb1 dt s.dQ)
  simp only [rk4s2, St.setQ, St.map, Core.map, h2, h4]

theorem map_rk4s3 (dt : ℝ) (s : St ι A) : rk4s3 e' dt (s.map ρ α) = (rk4s3 e dt s).map ρ α := by
  have h1 : (fun i => ρ s.Q0 i + dt * ρ s.dQ i) = ρ (fun i => s.Q0 i + dt * s.dQ i) :=
    comb 1 dt 0 0 0 s.Q0 s.dQ s.dQ s.dQ s.dQ (fun i => by ring) (fun i => by ring)
  have h2 := onI h (old := s.core.Q) h1
  have h4 := onI h (old := s.Q3) (comb1 dt s.dQ)
  simp only [rk4s3, St.setQ, St.map, Core.map, h2, h4]

theorem map_rk4s4 (dt : ℝ) (s : St ι A) : rk4s4 e' dt (s.map ρ α) = (rk4s4 e dt s).map ρ α :=
  map_setQ h (comb 1 (1 / 6) (1 / 3) (1 / 3) (1 / 6 * dt) s.Q0 s.Q1 s.Q2 s.Q3 s.dQ
    (fun i => by simp only [St.map]; ring) (fun i => by ring))

theorem map_rk4 (dt : ℝ) (s : St ι A) : rk4 e' dt (s.map ρ α) = (rk4 e dt s).map ρ α := by
  simp only [rk4]
  rw [show (s.map ρ α).tme = s.tme from rfl, map_rhs h, map_rk4s1 h, map_cons h, map_rhs h, map_rk4s2 h, map_cons h, map_rhs h,
    map_rk4s3 h, map_cons h, map_rhs h, map_rk4s4 h, map_cons h, map_finish]

theorem map_corrector (dt : ℝ) (s : St ι A) : corrector e' dt (s.map ρ α) = (corrector e dt s).map ρ α :=
  map_setQ h (comb 0.5 0.5 (0.5 * dt) 0 0 s.Q0 s.core.Q s.dQ s.dQ s.dQ
    (fun i => by simp only [St.map, Core.map]; ring) (fun i => by ring))

theorem map_maccormack (dt : ℝ) (s : St ι A) : maccormack e' dt (s.map ρ α) = (maccormack e dt s).map ρ α := by
  simp only [maccormack]
  have h0 : ({ s.map ρ α with Q0 := (s.map ρ α).core.Q } : St ι A) = ({ s with Q0 := s.core.Q } : St ι A).map ρ α := rfl
  rw [h0, show (s.map ρ α).tme = s.tme from rfl, map_rhs h, map_ap, map_cons h]
  generalize doConsistify e (ApEQxB dt (doRHS e s.tme { s with Q0 := s.core.Q })) = s1
  rw [show (s1.map ρ α).titme = s1.titme from rfl, map_rhs h, map_corrector h, map_cons h, map_finish]

theorem map_strang (dt : ℝ) (s : St ι A) : strang e' dt (s.map ρ α) = (strang e dt s).map ρ α := by
  simp only [strang]
  rw [map_rk3stages h]
  generalize rk3stages e (dt / 2) s = s1
  have h0 : ({ s1.map ρ α with core := e'.stiff dt (s1.map ρ α).core } : St ι A) =
      ({ s1 with core := e.stiff dt s1.core } : St ι A).map ρ α := by
    simp only [St.map, h.stiff]
  rw [h0, map_cons h, map_rk3stages h]; rfl

theorem map_dQdt (dt : ℝ) (s : St ι A) : dQdt e' dt (s.map ρ α) = (dQdt e dt s).map ρ α := by
  have h1 : (fun i => ρ s.dQ i - (3 * ρ s.core.Q i - 4 * ρ s.Qn i + ρ s.Qnm1 i) / (2 * dt)) =
      ρ (fun i => s.dQ i - (3 * s.core.Q i - 4 * s.Qn i + s.Qnm1 i) / (2 * dt)) :=
    comb 1 (-(3 / (2 * dt))) (4 / (2 * dt)) (-(1 / (2 * dt))) 0 s.dQ s.core.Q s.Qn s.Qnm1 s.dQ
      (fun i => by ring) (fun i => by ring)
  have h2 := onI h (old := s.dQ) h1
  simp only [dQdt, St.map, Core.map, h2]

theorem map_invertDQ (hD : CommutesDual ρ α e' e) (dt : ℝ) (s : St ι A) : invertDQ e' dt (s.map ρ α) = (invertDQ e dt s).map ρ α := by
  have h2 := onI h (old := s.dQ) (hD.invert dt s.core s.dQ)
  simp only [invertDQ, St.map, h2]

theorem map_dtau (hD : CommutesDual ρ α e' e) (s : St ι A) : doDtau e' (s.map ρ α) = (doDtau e s).map ρ α := by
  simp only [doDtau, St.map, hD.dtau, on' h]

/-- a pointwise multiple on top of a linear combination -/
theorem onS {d old y x F' F : ι → ℝ} (hd : Scal e ρ d) (h' : ∀ i, F' i = ρ y i + d i * ρ x i) (h0 : ∀ i, F i = y i + d i * x i) :
    onInner e' (ρ old) F' = ρ (onInner e old F) := by
  rw [on' h, show F = fun i => y i + d i * x i from funext h0, hd, show F' = fun i => ρ y i + d i * ρ x i from funext h']

theorem map_DTrk3s1 (s : St ι A) (hd : Scal e ρ s.dtau) : DTrk3s1 e' (s.map ρ α) = (DTrk3s1 e s).map ρ α := by
  have h2 := onS h (old := s.core.q) (y := s.core.q) (x := s.dQ) hd (fun i => rfl) (fun i => rfl)
  have h3 := onI h (old := s.Q0) (new := s.core.q) rfl
  simp only [DTrk3s1, St.setq, St.map, Core.map, h2, h3]

theorem map_DTrk3s2 (s : St ι A) (hd : Scal e ρ s.dtau) : DTrk3s2 e' (s.map ρ α) = (DTrk3s2 e s).map ρ α := by
  have hy : (fun i => 0.75 * ρ s.Q0 i + 0.25 * ρ s.core.q i) = ρ (fun i => 0.75 * s.Q0 i + 0.25 * s.core.q i) :=
    comb 0.75 0.25 0 0 0 s.Q0 s.core.q s.Q0 s.Q0 s.Q0 (fun i => by ring) (fun i => by ring)
  have h2 := onS h (old := s.core.q) (y := fun i => 0.75 * s.Q0 i + 0.25 * s.core.q i) (x := fun i => 0.25 * s.dQ i) hd
    (F' := fun i => 0.75 * ρ s.Q0 i + 0.25 * ρ s.core.q i + 0.25 * ρ s.dQ i * s.dtau i)
    (F := fun i => 0.75 * s.Q0 i + 0.25 * s.core.q i + 0.25 * s.dQ i * s.dtau i)
    (fun i => by rw [← hy, ← comb1]; ring) (fun i => by ring)
  simp only [DTrk3s2, St.setq, St.map, Core.map, h2]

theorem map_DTrk3s3 (s : St ι A) (hd : Scal e ρ s.dtau) : DTrk3s3 e' (s.map ρ α) = (DTrk3s3 e s).map ρ α := by
  have hy : (fun i => 1 / 3 * ρ s.Q0 i + 2 / 3 * ρ s.core.q i) = ρ (fun i => 1 / 3 * s.Q0 i + 2 / 3 * s.core.q i) :=
    comb (1 / 3) (2 / 3) 0 0 0 s.Q0 s.core.q s.Q0 s.Q0 s.Q0 (fun i => by ring) (fun i => by ring)
  have h2 := onS h (old := s.core.q) (y := fun i => 1 / 3 * s.Q0 i + 2 / 3 * s.core.q i) (x := fun i => 2 / 3 * s.dQ i) hd
    (F' := fun i => (ρ s.Q0 i + 2 * ρ s.core.q i + 2 * ρ s.dQ i * s.dtau i) / 3)
    (F := fun i => (s.Q0 i + 2 * s.core.q i + 2 * s.dQ i * s.dtau i) / 3)
    (fun i => by rw [← hy, ← comb1]; ring) (fun i => by ring)
  simp only [DTrk3s3, St.setq, St.map, Core.map, h2]

theorem map_pseudoIter (hD : CommutesDual ρ α e' e) (dt : ℝ) (s : St ι A) : pseudoIter e' dt (s.map ρ α) = (pseudoIter e dt s).map ρ α := by
  have hd : Scal e ρ (doDtau e s).dtau := hD.scal s.core s.dtau
  simp only [pseudoIter]
  rw [show (s.map ρ α).tme = s.tme from rfl, map_dtau h hD, map_rhs h, map_dQdt h, map_invertDQ h hD, map_DTrk3s1 h, map_consP h,
    map_rhs h, map_dQdt h, map_invertDQ h hD, map_DTrk3s2 h, map_consP h, map_rhs h, map_dQdt h, map_invertDQ h hD,
    map_DTrk3s3 h, map_consP h]
  all_goals exact hd

theorem map_dualTime (hD : CommutesDual ρ α e' e) (dt : ℝ) (s : St ι A) : dualTime e' dt (s.map ρ α) = (dualTime e dt s).map ρ α := by
  have it : ∀ n (s : St ι A), (pseudoIter e' dt)^[n] (s.map ρ α) = ((pseudoIter e dt)^[n] s).map ρ α := by
    intro n
    induction n with
    | zero => intro s; rfl
    | succ n ih => intro s; rw [Function.iterate_succ_apply, Function.iterate_succ_apply, map_pseudoIter h hD, ih]
  unfold dualTime
  rw [it]
  generalize (pseudoIter e dt)^[20] s = x
  rfl

/-- every integrator commutes with the change of description -/
theorem map_step (J : Integrator) (hD : J = .dualTime → CommutesDual ρ α e' e) (dt : ℝ) (s : St ι A) : step e' J dt (s.map ρ α) = (step e J dt s).map ρ α := by
  cases J
  · exact map_rk1 h dt s
  · exact map_rk2 h dt s
  · exact map_rk3 h dt s
  · exact map_rk34 h dt s
  · exact map_rk4 h dt s
  · exact map_maccormack h dt s
  · exact map_strang h dt s
  · exact map_dualTime h (hD rfl) dt s

theorem map_run (J : Integrator) (hD : J = .dualTime → CommutesDual ρ α e' e) (dts : List ℝ) (s : St ι A) : run e' J dts (s.map ρ α) = (run e J dts s).map ρ α := by
  unfold run
  induction dts generalizing s with
  | nil => rfl
  | cons dt dts ih => rw [List.foldl_cons, List.foldl_cons, map_step h J hD, ih]

omit h in
theorem map_init (s : St ι A) : initDualTime none (s.map ρ α) = (initDualTime none s).map ρ α := by
  unfold initDualTime
  by_cases h0 : s.nrt ≠ 0
  · rw [if_pos h0, if_pos (show (s.map ρ α).nrt ≠ 0 from h0)]; rfl
  · rw [if_neg h0, if_neg (show ¬ (s.map ρ α).nrt ≠ 0 from h0)]; rfl

end
end PG.Time
