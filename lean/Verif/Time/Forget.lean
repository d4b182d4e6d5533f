import Verif.Time.Model
/-!
What a step reads: the data, the clock and (dual time) the two older levels. Stage storage, the residual array, the pseudo time
step and the stage time are written before they are read.
-/
namespace PG.Time

variable {ι A : Type} {e : Env ι A}

/-- agreement in everything a step reads -/
structure Alike (J : Integrator) (s s' : St ι A) : Prop where
  core : s.core = s'.core
  nrt : s.nrt = s'.nrt
  tme : s.tme = s'.tme
  levels : J = .dualTime → s.Qn = s'.Qn ∧ s.Qnm1 = s'.Qnm1

/-- equal on the entries the stage kernels visit -/
def InEq (e : Env ι A) (X X' : ι → ℝ) : Prop := ∀ i, e.inner i = true → X i = X' i

theorem onInner_alike {X X' Y Y' : ι → ℝ} (hX : X = X') (hY : InEq e Y Y') : onInner e X Y = onInner e X' Y' := by
  funext i
  unfold onInner
  rw [hX]
  by_cases h : e.inner i = true
  · rw [if_pos h, if_pos h, hY i h]
  · rw [if_neg h, if_neg h]

theorem onInner_in {X X' Y Y' : ι → ℝ} (hY : InEq e Y Y') : InEq e (onInner e X Y) (onInner e X' Y') := by
  intro i h
  unfold onInner
  rw [if_pos h, if_pos h, hY i h]

/-- right-hand side, stage update of interior `Q`, consistify -/
def stageCore (e : Env ι A) (t : ℝ) (G : ι → ℝ → ℝ → ℝ) (c : Core ι A) : Core ι A :=
  e.consistify t { (e.rhs t c).2 with Q := onInner e (e.rhs t c).2.Q (fun i => G i ((e.rhs t c).2.Q i) ((e.rhs t c).1 i)) }

theorem stageCore_congr {t t' : ℝ} (ht : t = t') {G G' : ι → ℝ → ℝ → ℝ} {c c' : Core ι A} (hc : c = c')
    (hG : ∀ i, e.inner i = true → ∀ x y, G i x y = G' i x y) : stageCore e t G c = stageCore e t' G' c' := by
  subst hc ht
  unfold stageCore
  rw [onInner_alike rfl (fun i h => hG i h _ _)]

section
variable {s s' : St ι A} (hc : s.core = s'.core) (ht : s.tme = s'.tme)
include hc ht

theorem rk2_core (dt : ℝ) : (rk2 e dt s).core = (rk2 e dt s').core := by
  have c1 : stageCore e s.tme (fun _ x y => x + y * dt) s.core = stageCore e s'.tme (fun _ x y => x + y * dt) s'.core :=
    stageCore_congr ht hc (fun _ _ _ _ => rfl)
  have q0 : InEq e (onInner e s.Q0 (e.rhs s.tme s.core).2.Q) (onInner e s'.Q0 (e.rhs s'.tme s'.core).2.Q) :=
    onInner_in (fun i _ => by rw [hc, ht])
  exact stageCore_congr (e := e) (G := fun i x y => 0.5 * onInner e s.Q0 (e.rhs s.tme s.core).2.Q i + 0.5 * (x + dt * y))
    (G' := fun i x y => 0.5 * onInner e s'.Q0 (e.rhs s'.tme s'.core).2.Q i + 0.5 * (x + dt * y))
    (t := s.tme + dt) (t' := s'.tme + dt) (by rw [ht]) c1 (fun i h x y => by rw [q0 i h])

theorem rk3_core (dt : ℝ) : (rk3stages e dt s).core = (rk3stages e dt s').core ∧ (rk3stages e dt s).titme = (rk3stages e dt s').titme := by
  refine ⟨?_, by show s.tme + dt / 2 = s'.tme + dt / 2; rw [ht]⟩
  have c1 : stageCore e s.tme (fun _ x y => x + dt * y) s.core = stageCore e s'.tme (fun _ x y => x + dt * y) s'.core :=
    stageCore_congr ht hc (fun _ _ _ _ => rfl)
  have q0 : InEq e (onInner e s.Q0 (e.rhs s.tme s.core).2.Q) (onInner e s'.Q0 (e.rhs s'.tme s'.core).2.Q) :=
    onInner_in (fun i _ => by rw [hc, ht])
  have c2 := stageCore_congr (e := e) (G := fun i x y => 0.75 * onInner e s.Q0 (e.rhs s.tme s.core).2.Q i + 0.25 * x + 0.25 * y * dt)
    (G' := fun i x y => 0.75 * onInner e s'.Q0 (e.rhs s'.tme s'.core).2.Q i + 0.25 * x + 0.25 * y * dt)
    (t := s.tme + dt) (t' := s'.tme + dt) (by rw [ht]) c1 (fun i h x y => by rw [q0 i h])
  exact stageCore_congr (e := e) (G := fun i x y => (onInner e s.Q0 (e.rhs s.tme s.core).2.Q i + 2 * x + 2 * y * dt) / 3)
    (G' := fun i x y => (onInner e s'.Q0 (e.rhs s'.tme s'.core).2.Q i + 2 * x + 2 * y * dt) / 3)
    (t := s.tme + dt / 2) (t' := s'.tme + dt / 2) (by rw [ht]) c2 (fun i h x y => by rw [q0 i h])

theorem rk34_core (dt : ℝ) : (rk34 e dt s).core = (rk34 e dt s').core := by
  have c1 : stageCore e s.tme (fun _ x y => x + 0.5 * dt * y) s.core = stageCore e s'.tme (fun _ x y => x + 0.5 * dt * y) s'.core :=
    stageCore_congr ht hc (fun _ _ _ _ => rfl)
  have q0 : InEq e (onInner e s.Q0 (e.rhs s.tme s.core).2.Q) (onInner e s'.Q0 (e.rhs s'.tme s'.core).2.Q) :=
    onInner_in (fun i _ => by rw [hc, ht])
  have c2 := stageCore_congr (e := e) (G := fun _ x y => x + 0.5 * dt * y) (G' := fun _ x y => x + 0.5 * dt * y)
    (t := s.tme + dt / 2) (t' := s'.tme + dt / 2) (by rw [ht]) c1 (fun _ _ _ _ => rfl)
  have c3 := stageCore_congr (e := e) (G := fun i x y => 2 / 3 * onInner e s.Q0 (e.rhs s.tme s.core).2.Q i + 1 / 3 * x + 1 / 6 * y * dt)
    (G' := fun i x y => 2 / 3 * onInner e s'.Q0 (e.rhs s'.tme s'.core).2.Q i + 1 / 3 * x + 1 / 6 * y * dt)
    (t := s.tme + dt) (t' := s'.tme + dt) (by rw [ht]) c2 (fun i h x y => by rw [q0 i h])
  exact stageCore_congr (e := e) (G := fun _ x y => x + 0.5 * y * dt) (G' := fun _ x y => x + 0.5 * y * dt)
    (t := s.tme + dt / 2) (t' := s'.tme + dt / 2) (by rw [ht]) c3 (fun _ _ _ _ => rfl)

theorem rk4_core (dt : ℝ) : (rk4 e dt s).core = (rk4 e dt s').core := by
  have c1 : stageCore e s.tme (fun _ x y => x + 0.5 * (dt * y)) s.core = stageCore e s'.tme (fun _ x y => x + 0.5 * (dt * y)) s'.core :=
    stageCore_congr ht hc (fun _ _ _ _ => rfl)
  have q0 : InEq e (onInner e s.Q0 (e.rhs s.tme s.core).2.Q) (onInner e s'.Q0 (e.rhs s'.tme s'.core).2.Q) :=
    onInner_in (fun i _ => by rw [hc, ht])
  have q1 : InEq e (onInner e s.Q1 (fun i => dt * (e.rhs s.tme s.core).1 i)) (onInner e s'.Q1 (fun i => dt * (e.rhs s'.tme s'.core).1 i)) :=
    onInner_in (fun i _ => by rw [hc, ht])
  have c2 := stageCore_congr (e := e) (G := fun i _ y => onInner e s.Q0 (e.rhs s.tme s.core).2.Q i + 0.5 * (dt * y))
    (G' := fun i _ y => onInner e s'.Q0 (e.rhs s'.tme s'.core).2.Q i + 0.5 * (dt * y))
    (t := s.tme + dt / 2) (t' := s'.tme + dt / 2) (by rw [ht]) c1 (fun i h x y => by rw [q0 i h])
  have q2 := onInner_in (e := e) (X := s.Q2) (X' := s'.Q2)
    (Y := fun i => dt * (e.rhs (s.tme + dt / 2) (stageCore e s.tme (fun _ x y => x + 0.5 * (dt * y)) s.core)).1 i)
    (Y' := fun i => dt * (e.rhs (s'.tme + dt / 2) (stageCore e s'.tme (fun _ x y => x + 0.5 * (dt * y)) s'.core)).1 i)
    (fun i _ => by rw [c1, ht])
  have c3 := stageCore_congr (e := e) (G := fun i _ y => onInner e s.Q0 (e.rhs s.tme s.core).2.Q i + dt * y)
    (G' := fun i _ y => onInner e s'.Q0 (e.rhs s'.tme s'.core).2.Q i + dt * y)
    (t := s.tme + dt / 2) (t' := s'.tme + dt / 2) (by rw [ht]) c2 (fun i h x y => by rw [q0 i h])
  generalize hd : stageCore e (s.tme + dt / 2) (fun i _ y => onInner e s.Q0 (e.rhs s.tme s.core).2.Q i + 0.5 * (dt * y))
    (stageCore e s.tme (fun _ x y => x + 0.5 * (dt * y)) s.core) = d at c2 c3
  generalize hd' : stageCore e (s'.tme + dt / 2) (fun i _ y => onInner e s'.Q0 (e.rhs s'.tme s'.core).2.Q i + 0.5 * (dt * y))
    (stageCore e s'.tme (fun _ x y => x + 0.5 * (dt * y)) s'.core) = d' at c2 c3
  have q3 := onInner_in (e := e) (X := s.Q3) (X' := s'.Q3)
    (Y := fun i => dt * (e.rhs (s.tme + dt / 2) d).1 i) (Y' := fun i => dt * (e.rhs (s'.tme + dt / 2) d').1 i)
    (fun i _ => by rw [c2, ht])
  subst hd hd'
  refine stageCore_congr (e := e) (G := fun i _ y => onInner e s.Q0 (e.rhs s.tme s.core).2.Q i +
      (onInner e s.Q1 (fun i => dt * (e.rhs s.tme s.core).1 i) i +
        2 * onInner e s.Q2 (fun i => dt * (e.rhs (s.tme + dt / 2) (stageCore e s.tme (fun _ x y => x + 0.5 * (dt * y)) s.core)).1 i) i +
        2 * onInner e s.Q3 (fun i => dt * (e.rhs (s.tme + dt / 2) _).1 i) i + dt * y) / 6)
    (G' := fun i _ y => onInner e s'.Q0 (e.rhs s'.tme s'.core).2.Q i +
      (onInner e s'.Q1 (fun i => dt * (e.rhs s'.tme s'.core).1 i) i +
        2 * onInner e s'.Q2 (fun i => dt * (e.rhs (s'.tme + dt / 2) (stageCore e s'.tme (fun _ x y => x + 0.5 * (dt * y)) s'.core)).1 i) i +
        2 * onInner e s'.Q3 (fun i => dt * (e.rhs (s'.tme + dt / 2) _).1 i) i + dt * y) / 6)
    (t := s.tme + dt) (t' := s'.tme + dt) (by rw [ht]) c3 ?_
  intro i h x y
  rw [q0 i h, q1 i h, q2 i h]
  exact congrArg (fun z => onInner e s'.Q0 (e.rhs s'.tme s'.core).2.Q i +
      (onInner e s'.Q1 (fun i => dt * (e.rhs s'.tme s'.core).1 i) i +
        2 * onInner e s'.Q2 (fun i => dt * (e.rhs (s'.tme + dt / 2) (stageCore e s'.tme (fun _ x y => x + 0.5 * (dt * y)) s'.core)).1 i) i +
        2 * z + dt * y) / 6) (q3 i h)

theorem rk1_core (dt : ℝ) : (rk1 e dt s).core = (rk1 e dt s').core := by
  unfold rk1 finish doConsistify ApEQxB doRHS St.setQ
  dsimp only
  rw [hc, ht]

theorem maccormack_core (dt : ℝ) : (maccormack e dt s).core = (maccormack e dt s').core := by
  unfold maccormack finish doConsistify ApEQxB corrector doRHS St.setQ
  dsimp only
  rw [hc, ht]

end

/-- dual-time stage: right-hand side, physical time derivative, preconditioner, update of interior `q`, consistify -/
noncomputable def dualCore (e : Env ι A) (dt : ℝ) (Qn Qnm1 : ι → ℝ) (t : ℝ) (G : ι → ℝ → ℝ → ℝ) (c : Core ι A) : Core ι A :=
  let r := e.rhs t c
  let d1 := onInner e r.1 (fun i => r.1 i - (3 * r.2.Q i - 4 * Qn i + Qnm1 i) / (2 * dt))
  let d2 := onInner e d1 (e.invert dt r.2 d1)
  e.consistifyP t { r.2 with q := onInner e r.2.q (fun i => G i (r.2.q i) (d2 i)) }

theorem dualCore_congr {dt : ℝ} {Qn Qnm1 : ι → ℝ} {t : ℝ} {G G' : ι → ℝ → ℝ → ℝ} {c c' : Core ι A} (hc : c = c')
    (hG : ∀ i, e.inner i = true → ∀ x y, G i x y = G' i x y) : dualCore e dt Qn Qnm1 t G c = dualCore e dt Qn Qnm1 t G' c' := by
  subst hc
  unfold dualCore
  dsimp only
  rw [onInner_alike rfl (fun i h => hG i h _ _)]

theorem pseudo_alike {s s' : St ι A} (h : Alike .dualTime s s') (dt : ℝ) : Alike .dualTime (pseudoIter e dt s) (pseudoIter e dt s') := by
  refine ⟨?_, h.nrt, h.tme, h.levels⟩
  obtain ⟨hc, -, ht, hl⟩ := h
  obtain ⟨hn, hn1⟩ := hl rfl
  have tau : InEq e (onInner e s.dtau (e.dtau s.core)) (onInner e s'.dtau (e.dtau s'.core)) := onInner_in (fun i _ => by rw [hc])
  have q0 : InEq e (onInner e s.Q0 (e.rhs s.tme s.core).2.q) (onInner e s'.Q0 (e.rhs s'.tme s'.core).2.q) :=
    onInner_in (fun i _ => by rw [hc, ht])
  have c1 := dualCore_congr (e := e) (dt := dt) (Qn := s.Qn) (Qnm1 := s.Qnm1) (t := s.tme) (G := fun i x y => x + onInner e s.dtau (e.dtau s.core) i * y)
    (G' := fun i x y => x + onInner e s'.dtau (e.dtau s'.core) i * y) hc (fun i h x y => by rw [tau i h])
  have c2 := dualCore_congr (e := e) (dt := dt) (Qn := s.Qn) (Qnm1 := s.Qnm1) (t := s.tme + dt)
    (G := fun i x y => 0.75 * onInner e s.Q0 (e.rhs s.tme s.core).2.q i + 0.25 * x + 0.25 * y * onInner e s.dtau (e.dtau s.core) i)
    (G' := fun i x y => 0.75 * onInner e s'.Q0 (e.rhs s'.tme s'.core).2.q i + 0.25 * x + 0.25 * y * onInner e s'.dtau (e.dtau s'.core) i)
    c1 (fun i h x y => by rw [tau i h, q0 i h])
  have c3 := dualCore_congr (e := e) (dt := dt) (Qn := s.Qn) (Qnm1 := s.Qnm1) (t := s.tme + dt / 2)
    (G := fun i x y => (onInner e s.Q0 (e.rhs s.tme s.core).2.q i + 2 * x + 2 * y * onInner e s.dtau (e.dtau s.core) i) / 3)
    (G' := fun i x y => (onInner e s'.Q0 (e.rhs s'.tme s'.core).2.q i + 2 * x + 2 * y * onInner e s'.dtau (e.dtau s'.core) i) / 3)
    c2 (fun i h x y => by rw [tau i h, q0 i h])
  refine Eq.trans ?_ (c3.trans ?_)
  · rfl
  · rw [hn, hn1, ht]; rfl

/-- a step reads only the data, the clock and, for dual time, the two older levels -/
theorem step_alike (J : Integrator) (dt : ℝ) {s s' : St ι A} (h : Alike J s s') : Alike J (step e J dt s) (step e J dt s') := by
  obtain ⟨hc, hn, ht, hl⟩ := h
  cases J
  · exact ⟨rk1_core hc ht dt, congrArg (· + 1) hn, congrArg (· + dt) ht, fun h => by cases h⟩
  · exact ⟨rk2_core hc ht dt, congrArg (· + 1) hn, congrArg (· + dt) ht, fun h => by cases h⟩
  · exact ⟨(rk3_core hc ht dt).1, congrArg (· + 1) hn, congrArg (· + dt) ht, fun h => by cases h⟩
  · exact ⟨rk34_core hc ht dt, congrArg (· + 1) hn, congrArg (· + dt) ht, fun h => by cases h⟩
  · exact ⟨rk4_core hc ht dt, congrArg (· + 1) hn, congrArg (· + dt) ht, fun h => by cases h⟩
  · exact ⟨maccormack_core hc ht dt, congrArg (· + 1) hn, congrArg (· + dt) ht, fun h => by cases h⟩
  · refine ⟨?_, congrArg (· + 1) hn, congrArg (· + dt) ht, fun h => by cases h⟩
    obtain ⟨h1, h2⟩ := rk3_core (e := e) hc ht (dt / 2)
    refine (rk3_core (e := e) (s := doConsistify e { rk3stages e (dt / 2) s with core := e.stiff dt (rk3stages e (dt / 2) s).core })
      (s' := doConsistify e { rk3stages e (dt / 2) s' with core := e.stiff dt (rk3stages e (dt / 2) s').core }) ?_ ht (dt / 2)).1
    show e.consistify (rk3stages e (dt / 2) s).titme (e.stiff dt (rk3stages e (dt / 2) s).core) = _
    rw [h1, h2]; rfl
  · have key : ∀ n : Nat, Alike .dualTime ((pseudoIter e dt)^[n] s) ((pseudoIter e dt)^[n] s') := by
      intro n
      induction n with
      | zero => exact ⟨hc, hn, ht, hl⟩
      | succ n ih => rw [Function.iterate_succ_apply', Function.iterate_succ_apply']; exact pseudo_alike ih dt
    have k := key 20
    simp only [step, dualTime]
    generalize (pseudoIter e dt)^[20] s = a at k ⊢
    generalize (pseudoIter e dt)^[20] s' = a' at k ⊢
    exact ⟨k.core, congrArg (· + 1) k.nrt, congrArg (· + dt) k.tme, fun h => ⟨congrArg Core.Q k.core, (k.levels h).1⟩⟩

theorem run_alike (J : Integrator) (dts : List ℝ) {s s' : St ι A} (h : Alike J s s') : Alike J (run e J dts s) (run e J dts s') := by
  unfold run
  induction dts generalizing s s' with
  | nil => exact h
  | cons dt dts ih => exact ih (step_alike J dt h)

/-- what every operation of an integrator on the data preserves, a run preserves -/
theorem step_inv {P : Core ι A → Prop} (hr : ∀ t c, P c → P (e.rhs t c).2) (hc : ∀ t c, P c → P (e.consistify t c))
    (hp : ∀ t c, P c → P (e.consistifyP t c)) (hs : ∀ dt c, P c → P (e.stiff dt c)) (hQ : ∀ c Q, P c → P { c with Q := Q })
    (hq : ∀ c q, P c → P { c with q := q }) (J : Integrator) (dt : ℝ) (s : St ι A) (h : P s.core) : P (step e J dt s).core := by
  have stage : ∀ t c Q, P c → P (e.consistify t { (e.rhs t c).2 with Q := Q }) := fun t c Q h => hc _ _ (hQ _ _ (hr _ _ h))
  have stageP : ∀ t c q, P c → P (e.consistifyP t { (e.rhs t c).2 with q := q }) := fun t c Q h => hp _ _ (hq _ _ (hr _ _ h))
  have rk3 : ∀ dt s, P s.core → P (rk3stages e dt s).core := fun dt s h => stage _ _ _ (stage _ _ _ (stage _ _ _ h))
  have dual : ∀ s, P s.core → P (pseudoIter e dt s).core := fun s h => stageP _ _ _ (stageP _ _ _ (stageP _ _ _ h))
  cases J
  · exact stage _ _ _ h
  · exact stage _ _ _ (stage _ _ _ h)
  · exact rk3 dt s h
  · exact stage _ _ _ (stage _ _ _ (stage _ _ _ (stage _ _ _ h)))
  · exact stage _ _ _ (stage _ _ _ (stage _ _ _ (stage _ _ _ h)))
  · exact stage _ _ _ (stage _ _ _ h)
  · exact rk3 _ _ (hc _ _ (hs _ _ (rk3 _ _ h)))
  · have key : ∀ n : Nat, P ((pseudoIter e dt)^[n] s).core := by
      intro n
      induction n with
      | zero => exact h
      | succ n ih => rw [Function.iterate_succ_apply']; exact dual _ ih
    have k := key 20
    simp only [step, dualTime]
    generalize (pseudoIter e dt)^[20] s = a at k ⊢
    exact k

/-- a step ends with consistify -/
theorem step_ends (J : Integrator) (dt : ℝ) (s : St ι A) :
    (∃ t c, (step e J dt s).core = e.consistify t c) ∨ (∃ t c, (step e J dt s).core = e.consistifyP t c) := by
  cases J
  case dualTime =>
    right
    have : (step e .dualTime dt s).core = (pseudoIter e dt ((pseudoIter e dt)^[19] s)).core := by
      rw [← Function.iterate_succ_apply' (pseudoIter e dt) 19 s]
      simp only [step, dualTime]
      generalize (pseudoIter e dt)^[20] s = a
      rfl
    rw [this]
    exact ⟨_, _, rfl⟩
  all_goals exact Or.inl ⟨_, _, rfl⟩

end PG.Time
