import Mathlib.Analysis.Real.Sqrt
import Mathlib.Tactic.Ring
import Mathlib.Tactic.Linarith
import Mathlib.Tactic.FieldSimp
import Mathlib.Tactic.NormNum
/-
Model of the time integrators: /repo/src/peregrinepy/integrators/*.py and
/repo/src/compute/timeIntegration/{rk2,rk3,rk34,rk4,maccormack}Stages.cpp, dualTime.cpp (dQdt, DTrk3s1-3), utils/axpby.cpp.

The index type `ι` ranges over (block, i, j, k, component) of all blocks of the multiblock solver: the Python loops
`for blk in self: kernel(blk, dt)` apply the same pointwise kernel to every block. Everything the integrators call but do
not define (right-hand side, consistify, chemistry ODE solver, pseudo time step, preconditioner) is an arbitrary function
in `Env`; `A` is the type of all other block data (halo, derived, transport arrays ...). Doubles are reals.
-/
namespace PG.Time

/-- The solver data that RHS and consistify read and write: conserved `Q`, primitive `q`, everything else. -/
structure Core (ι A : Type) where
  Q : ι → ℝ
  q : ι → ℝ
  aux : A

/-- What the integrators call. `inner` is the iteration range `range_cc` of the stage kernels (interior cells). -/
structure Env (ι A : Type) where
  inner : ι → Bool
  /-- RHS.py:11-54: at stage time `titme` computes dQ (and may change halo and derived data) -/
  rhs : ℝ → Core ι A → (ι → ℝ) × Core ι A
  /-- consistify(mb) (consistify.py:12-50), boundary conditions evaluated at `titme` -/
  consistify : ℝ → Core ι A → Core ι A
  /-- consistify(mb, "prims") -/
  consistifyP : ℝ → Core ι A → Core ι A
  /-- the chemistry sweep of strang.py:72-88 over one time step -/
  stiff : ℝ → Core ι A → Core ι A
  /-- localDtau (dualTime.cpp:36-105) -/
  dtau : Core ι A → ι → ℝ
  /-- invertDQ (dualTime.cpp:244-594): physical step, data, dQ ↦ dq -/
  invert : ℝ → Core ι A → (ι → ℝ) → ι → ℝ

/-- Solver state: data, stage storage (solverBlock.py:200-213), dual-time levels, counters (solver.py, restart.py). -/
structure St (ι A : Type) where
  core : Core ι A
  Q0 : ι → ℝ
  Q1 : ι → ℝ
  Q2 : ι → ℝ
  Q3 : ι → ℝ
  Qn : ι → ℝ
  Qnm1 : ι → ℝ
  dQ : ι → ℝ
  dtau : ι → ℝ
  nrt : ℕ
  tme : ℝ
  titme : ℝ

variable {ι A : Type} (e : Env ι A)

/-- apply `f` on interior entries, keep the others (MDRange4 range_cc of every stage kernel) -/
def onInner (old new : ι → ℝ) : ι → ℝ := fun i => if e.inner i then new i else old i

/-- `self.titme = t; RHS(self)` -/
def doRHS (t : ℝ) (s : St ι A) : St ι A :=
  { s with titme := t, dQ := (e.rhs t s.core).1, core := (e.rhs t s.core).2 }

/-- `consistify(self)` with the current `titme` -/
def doConsistify (s : St ι A) : St ι A := { s with core := e.consistify s.titme s.core }

/-- `consistify(self, "prims")` -/
def doConsistifyP (s : St ι A) : St ι A := { s with core := e.consistifyP s.titme s.core }

/-- set `Q` -/
def St.setQ (s : St ι A) (Q : ι → ℝ) : St ι A := { s with core := { s.core with Q := Q } }
/-- set `q` -/
def St.setq (s : St ι A) (q : ι → ℝ) : St ι A := { s with core := { s.core with q := q } }

/-- `nrt += 1; tme += dt; titme = tme` (end of every step but strang's) -/
def finish (dt : ℝ) (s : St ι A) : St ι A := { s with nrt := s.nrt + 1, tme := s.tme + dt, titme := s.tme + dt }

/-- ApEQxB(Q, dt, dQ): whole array, halos included (axpby.cpp:34-48) -/
def ApEQxB (dt : ℝ) (s : St ι A) : St ι A := s.setQ (fun i => s.core.Q i + dt * s.dQ i)

/-- rk1.step (rk1.py:13-26) -/
def rk1 (dt : ℝ) (s : St ι A) : St ι A :=
  finish dt (doConsistify e (ApEQxB dt (doRHS e s.tme s)))

/-- rk2s1 (rk2Stages.cpp:5-18) -/
def rk2s1 (dt : ℝ) (s : St ι A) : St ι A :=
  { s.setQ (onInner e s.core.Q (fun i => s.core.Q i + s.dQ i * dt)) with Q0 := onInner e s.Q0 s.core.Q }
/-- rk2s2 (rk2Stages.cpp:23-32) -/
noncomputable def rk2s2 (dt : ℝ) (s : St ι A) : St ι A :=
  s.setQ (onInner e s.core.Q (fun i => 0.5 * s.Q0 i + 0.5 * (s.core.Q i + dt * s.dQ i)))
/-- rk2.step (rk2.py:13-34) -/
noncomputable def rk2 (dt : ℝ) (s : St ι A) : St ι A :=
  let t := s.tme
  let s1 := doConsistify e (rk2s1 e dt (doRHS e t s))
  let s2 := doConsistify e (rk2s2 e dt (doRHS e (t + dt) s1))
  finish dt s2

/-- rk3s1 (rk3Stages.cpp:5-18) -/
def rk3s1 (dt : ℝ) (s : St ι A) : St ι A :=
  { s.setQ (onInner e s.core.Q (fun i => s.core.Q i + dt * s.dQ i)) with Q0 := onInner e s.Q0 s.core.Q }
/-- rk3s2 (rk3Stages.cpp:20-32) -/
noncomputable def rk3s2 (dt : ℝ) (s : St ι A) : St ι A :=
  s.setQ (onInner e s.core.Q (fun i => 0.75 * s.Q0 i + 0.25 * s.core.Q i + 0.25 * s.dQ i * dt))
/-- rk3s3 (rk3Stages.cpp:34-47) -/
noncomputable def rk3s3 (dt : ℝ) (s : St ι A) : St ι A :=
  s.setQ (onInner e s.core.Q (fun i => (s.Q0 i + 2 * s.core.Q i + 2 * s.dQ i * dt) / 3))
/-- the three stages of rk3 (rk3.py:20-45, strang.py:32-58) -/
noncomputable def rk3stages (dt : ℝ) (s : St ι A) : St ι A :=
  let t := s.tme
  let s1 := doConsistify e (rk3s1 e dt (doRHS e t s))
  let s2 := doConsistify e (rk3s2 e dt (doRHS e (t + dt) s1))
  doConsistify e (rk3s3 e dt (doRHS e (t + dt / 2) s2))
/-- rk3.step (rk3.py:19-49) -/
noncomputable def rk3 (dt : ℝ) (s : St ι A) : St ι A := finish dt (rk3stages e dt s)

/-- rk34s1 (rk34Stages.cpp:5-18) -/
noncomputable def rk34s1 (dt : ℝ) (s : St ι A) : St ι A :=
  { s.setQ (onInner e s.core.Q (fun i => s.core.Q i + 0.5 * dt * s.dQ i)) with Q0 := onInner e s.Q0 s.core.Q }
/-- rk34s2 (rk34Stages.cpp:20-31) -/
noncomputable def rk34s2 (dt : ℝ) (s : St ι A) : St ι A :=
  s.setQ (onInner e s.core.Q (fun i => s.core.Q i + 0.5 * dt * s.dQ i))
/-- rk34s3 (rk34Stages.cpp:33-46) -/
noncomputable def rk34s3 (dt : ℝ) (s : St ι A) : St ι A :=
  s.setQ (onInner e s.core.Q (fun i => 2 / 3 * s.Q0 i + 1 / 3 * s.core.Q i + 1 / 6 * s.dQ i * dt))
/-- rk34s4 (rk34Stages.cpp:48-59) -/
noncomputable def rk34s4 (dt : ℝ) (s : St ι A) : St ι A :=
  s.setQ (onInner e s.core.Q (fun i => s.core.Q i + 0.5 * s.dQ i * dt))
/-- rk34.step (rk34.py:13-52) -/
noncomputable def rk34 (dt : ℝ) (s : St ι A) : St ι A :=
  let t := s.tme
  let s1 := doConsistify e (rk34s1 e dt (doRHS e t s))
  let s2 := doConsistify e (rk34s2 e dt (doRHS e (t + dt / 2) s1))
  let s3 := doConsistify e (rk34s3 e dt (doRHS e (t + dt) s2))
  finish dt (doConsistify e (rk34s4 e dt (doRHS e (t + dt / 2) s3)))

/-- rk4s1 (rk4Stages.cpp:5-19) -/
noncomputable def rk4s1 (dt : ℝ) (s : St ι A) : St ι A :=
  { s.setQ (onInner e s.core.Q (fun i => s.core.Q i + 0.5 * (dt * s.dQ i))) with
    Q0 := onInner e s.Q0 s.core.Q, Q1 := onInner e s.Q1 (fun i => dt * s.dQ i) }
/-- rk4s2 (rk4Stages.cpp:21-33) -/
noncomputable def rk4s2 (dt : ℝ) (s : St ι A) : St ι A :=
  { s.setQ (onInner e s.core.Q (fun i => s.Q0 i + 0.5 * (dt * s.dQ i))) with
    Q2 := onInner e s.Q2 (fun i => dt * s.dQ i) }
/-- rk4s3 (rk4Stages.cpp:35-47) -/
def rk4s3 (dt : ℝ) (s : St ι A) : St ι A :=
  { s.setQ (onInner e s.core.Q (fun i => s.Q0 i + dt * s.dQ i)) with
    Q3 := onInner e s.Q3 (fun i => dt * s.dQ i) }
/-- rk4s4 (rk4Stages.cpp:49-63) -/
noncomputable def rk4s4 (dt : ℝ) (s : St ι A) : St ι A :=
  s.setQ (onInner e s.core.Q (fun i => s.Q0 i + (s.Q1 i + 2 * s.Q2 i + 2 * s.Q3 i + dt * s.dQ i) / 6))
/-- rk4.step (rk4.py:13-52) -/
noncomputable def rk4 (dt : ℝ) (s : St ι A) : St ι A :=
  let t := s.tme
  let s1 := doConsistify e (rk4s1 e dt (doRHS e t s))
  let s2 := doConsistify e (rk4s2 e dt (doRHS e (t + dt / 2) s1))
  let s3 := doConsistify e (rk4s3 e dt (doRHS e (t + dt / 2) s2))
  finish dt (doConsistify e (rk4s4 e dt (doRHS e (t + dt) s3)))

/-- corrector (maccormackStages.cpp:5-17) -/
noncomputable def corrector (dt : ℝ) (s : St ι A) : St ι A :=
  s.setQ (onInner e s.core.Q (fun i => 0.5 * (s.Q0 i + s.core.Q i + dt * s.dQ i)))
/-- maccormack.step (maccormack.py:14-38): the corrector stage does not set titme, so it reuses the predictor's -/
noncomputable def maccormack (dt : ℝ) (s : St ι A) : St ι A :=
  let s0 := { s with Q0 := s.core.Q }
  let s1 := doConsistify e (ApEQxB dt (doRHS e s.tme s0))
  finish dt (doConsistify e (corrector e dt (doRHS e s1.titme s1)))

/-- strang.step (strang.py:60-105): half transport step, chemistry, half transport step. Both half steps start from
    `self.tme`; the last line sets titme to the already advanced time plus dt. -/
noncomputable def strang (dt : ℝ) (s : St ι A) : St ι A :=
  let s1 := rk3stages e (dt / 2) s
  let s2 := doConsistify e { s1 with core := e.stiff dt s1.core }
  let s3 := rk3stages e (dt / 2) s2
  { s3 with nrt := s3.nrt + 1, tme := s3.tme + dt, titme := (s3.tme + dt) + dt }

/-- dQdt (dualTime.cpp:21-34) -/
noncomputable def dQdt (dt : ℝ) (s : St ι A) : St ι A :=
  { s with dQ := onInner e s.dQ (fun i => s.dQ i - (3 * s.core.Q i - 4 * s.Qn i + s.Qnm1 i) / (2 * dt)) }
/-- `invertDQ` on interior cells -/
def invertDQ (dt : ℝ) (s : St ι A) : St ι A := { s with dQ := onInner e s.dQ (e.invert dt s.core s.dQ) }
/-- DTrk3s1 (dualTime.cpp:107-120) -/
def DTrk3s1 (s : St ι A) : St ι A :=
  { s.setq (onInner e s.core.q (fun i => s.core.q i + s.dtau i * s.dQ i)) with Q0 := onInner e s.Q0 s.core.q }
/-- DTrk3s2 (dualTime.cpp:122-134) -/
noncomputable def DTrk3s2 (s : St ι A) : St ι A :=
  s.setq (onInner e s.core.q (fun i => 0.75 * s.Q0 i + 0.25 * s.core.q i + 0.25 * s.dQ i * s.dtau i))
/-- DTrk3s3 (dualTime.cpp:136-149) -/
noncomputable def DTrk3s3 (s : St ι A) : St ι A :=
  s.setq (onInner e s.core.q (fun i => (s.Q0 i + 2 * s.core.q i + 2 * s.dQ i * s.dtau i) / 3))

/-- localDtau (dualTime.py:50-51) -/
def doDtau (s : St ι A) : St ι A := { s with dtau := onInner e s.dtau (e.dtau s.core) }

/-- one pseudo-time iteration (dualTime.py:48-94); the residual printout (96-103) changes nothing and is left out -/
noncomputable def pseudoIter (dt : ℝ) (s : St ι A) : St ι A :=
  let t := s.tme
  let s0 := doDtau e s
  let s1 := doConsistifyP e (DTrk3s1 e (invertDQ e dt (dQdt e dt (doRHS e t s0))))
  let s2 := doConsistifyP e (DTrk3s2 e (invertDQ e dt (dQdt e dt (doRHS e (t + dt) s1))))
  doConsistifyP e (DTrk3s3 e (invertDQ e dt (dQdt e dt (doRHS e (t + dt / 2) s2))))

/-- shift of the time levels (dualTime.py:110-112) -/
def shift (s : St ι A) : St ι A := { s with Qnm1 := s.Qn, Qn := s.core.Q }

/-- dualTime.step (dualTime.py:39-116): 20 pseudo iterations, shift, counters -/
noncomputable def dualTime (dt : ℝ) (s : St ι A) : St ι A :=
  finish dt (shift ((pseudoIter e dt)^[20] s))

/-- content of the auxiliary restart file: interior of Qnm1 (writeDualTimeQnm1.py:8-14); `none` outside -/
def qnm1File (s : St ι A) : ι → Option ℝ := fun i => if e.inner i then some (s.Qnm1 i) else none

/-- initializeDualTime (dualTime.py:121-142); `file` is `none` when the file is missing -/
def initDualTime (file : Option (ι → Option ℝ)) (s : St ι A) : St ι A :=
  if s.nrt ≠ 0 then
    match file with
    | some g => { s with Qnm1 := fun i => (g i).getD (s.Qnm1 i), Qn := s.core.Q }
    | none => { s with Qnm1 := s.core.Q, Qn := s.core.Q }
  else { s with Qn := s.core.Q, Qnm1 := s.core.Q }

/-- the integrators selectable by name (integrators/__init__.py) -/
inductive Integrator
  | rk1 | rk2 | rk3 | rk34 | rk4 | maccormack | strang | dualTime
deriving DecidableEq

/-- `mb.step(dt)` -/
noncomputable def step : Integrator → ℝ → St ι A → St ι A
  | .rk1 => rk1 e
  | .rk2 => rk2 e
  | .rk3 => rk3 e
  | .rk34 => rk34 e
  | .rk4 => rk4 e
  | .maccormack => maccormack e
  | .strang => strang e
  | .dualTime => dualTime e

/-- a run: one step per entry of `dts` (loop of runPeregrine.py:52-66) -/
noncomputable def run (I : Integrator) (dts : List ℝ) (s : St ι A) : St ι A := dts.foldl (fun s dt => step e I dt s) s

end PG.Time
