import Verif.Text.Stage
import Verif.Time.Model
import Mathlib.Data.Fintype.Basic
import Mathlib.Tactic.FinCases
/-!
C116: a stage kernel of a time integrator, run over the interior in any order, is the stage of the method. `Text/Stage.lean` is generated
from the text of the kernels.
-/
namespace PG.Text.StageP
open PG.Time PG.Text.Stage
open Classical

variable {ι A : Type}

/-! ### specification -/

/-- the values stored at an index -/
def valuesAt (s : St ι A) (x : ι) : V :=
  ⟨s.core.Q x, s.core.q x, s.Q0 x, s.Q1 x, s.Q2 x, s.Q3 x, s.Qn x, s.Qnm1 x, s.dQ x, s.dtau x⟩

/-- store values at an index -/
noncomputable def put (s : St ι A) (x : ι) (v : V) : St ι A :=
  { s with
    core := { s.core with Q := Function.update s.core.Q x v.Q, q := Function.update s.core.q x v.q }
    Q0 := Function.update s.Q0 x v.Q0, Q1 := Function.update s.Q1 x v.Q1, Q2 := Function.update s.Q2 x v.Q2
    Q3 := Function.update s.Q3 x v.Q3, Qn := Function.update s.Qn x v.Qn, Qnm1 := Function.update s.Qnm1 x v.Qnm1
    dQ := Function.update s.dQ x v.dQ, dtau := Function.update s.dtau x v.dtau }

/-- run the iterations of a loop one after the other, in the given order -/
noncomputable def sweep (iteration : V → V) (order : List ι) (s : St ι A) : St ι A :=
  order.foldl (fun s x => put s x (iteration (valuesAt s x))) s

/-- an order in which the interior can be processed: every interior index once -/
def Order (e : Env ι A) (order : List ι) : Prop := order.Nodup ∧ ∀ x, x ∈ order ↔ e.inner x = true

/-- the loop with this iteration, in any order, is this stage -/
def Computes (e : Env ι A) (iteration : V → V) (stage : St ι A → St ι A) : Prop :=
  ∀ order, Order e order → ∀ s, sweep iteration order s = stage s

/-! ### proofs -/

theorem ext' {s t : St ι A} (hv : ∀ x, valuesAt s x = valuesAt t x) (ha : s.core.aux = t.core.aux) (h1 : s.nrt = t.nrt)
    (h2 : s.tme = t.tme) (h3 : s.titme = t.titme) : s = t := by
  obtain ⟨⟨Q, q, aux⟩, Q0, Q1, Q2, Q3, Qn, Qnm1, dQ, dtau, nrt, tme, titme⟩ := s
  obtain ⟨⟨Q', q', aux'⟩, Q0', Q1', Q2', Q3', Qn', Qnm1', dQ', dtau', nrt', tme', titme'⟩ := t
  simp only [valuesAt, V.mk.injEq] at hv ha h1 h2 h3
  subst ha h1 h2 h3
  have : Q = Q' := funext fun x => (hv x).1
  have : q = q' := funext fun x => (hv x).2.1
  have : Q0 = Q0' := funext fun x => (hv x).2.2.1
  have : Q1 = Q1' := funext fun x => (hv x).2.2.2.1
  have : Q2 = Q2' := funext fun x => (hv x).2.2.2.2.1
  have : Q3 = Q3' := funext fun x => (hv x).2.2.2.2.2.1
  have : Qn = Qn' := funext fun x => (hv x).2.2.2.2.2.2.1
  have : Qnm1 = Qnm1' := funext fun x => (hv x).2.2.2.2.2.2.2.1
  have : dQ = dQ' := funext fun x => (hv x).2.2.2.2.2.2.2.2.1
  have : dtau = dtau' := funext fun x => (hv x).2.2.2.2.2.2.2.2.2
  subst_vars
  rfl

theorem valuesAt_put (s : St ι A) (x y : ι) (v : V) : valuesAt (put s x v) y = if y = x then v else valuesAt s y := by
  by_cases h : y = x
  · subst h; simp [valuesAt, put]
  · simp [valuesAt, put, h]

theorem sweep_values (u : V → V) : ∀ (order : List ι), order.Nodup → ∀ (s : St ι A) (y : ι),
    valuesAt (sweep u order s) y = if y ∈ order then u (valuesAt s y) else valuesAt s y := by
  intro order
  induction order with
  | nil => intro _ s y; simp [sweep]
  | cons x xs ih =>
    intro hnd s y
    have hx : x ∉ xs := (List.nodup_cons.1 hnd).1
    have := ih (List.nodup_cons.1 hnd).2 (put s x (u (valuesAt s x))) y
    rw [sweep, List.foldl_cons]
    rw [sweep] at this
    rw [this, valuesAt_put]
    by_cases h : y = x
    · subst h; simp [hx]
    · simp [h]

theorem sweep_rest (u : V → V) : ∀ (order : List ι) (s : St ι A), (sweep u order s).core.aux = s.core.aux ∧ (sweep u order s).nrt = s.nrt ∧
    (sweep u order s).tme = s.tme ∧ (sweep u order s).titme = s.titme := by
  intro order
  induction order with
  | nil => intro s; exact ⟨rfl, rfl, rfl, rfl⟩
  | cons x xs ih =>
    intro s
    have := ih (put s x (u (valuesAt s x)))
    rw [sweep, List.foldl_cons]
    exact this

theorem computes_of {e : Env ι A} {u : V → V} {stage : St ι A → St ι A}
    (hv : ∀ s x, valuesAt (stage s) x = if e.inner x = true then u (valuesAt s x) else valuesAt s x)
    (hr : ∀ s, (stage s).core.aux = s.core.aux ∧ (stage s).nrt = s.nrt ∧ (stage s).tme = s.tme ∧ (stage s).titme = s.titme) :
    Computes e u stage := by
  intro order ho s
  obtain ⟨a, b, c, d⟩ := sweep_rest u order s
  obtain ⟨a', b', c', d'⟩ := hr s
  refine ext' (fun x => ?_) (a.trans a'.symm) (b.trans b'.symm) (c.trans c'.symm) (d.trans d'.symm)
  rw [sweep_values u order ho.1, hv]
  simp only [ho.2 x]

macro "stage" "[" t:Lean.Parser.Tactic.simpLemma "," m:Lean.Parser.Tactic.simpLemma "]" : tactic =>
  `(tactic| (
    refine computes_of (fun s x => ?_) (fun s => ⟨rfl, rfl, rfl, rfl⟩)
    simp only [$t, $m, valuesAt, St.setQ, St.setq, onInner]
    split <;> simp only [V.mk.injEq, and_self, and_true, true_and, if_true, if_false] <;> norm_num <;> ring))

/-- C116 (rk2s1) -/
theorem C116_rk2s1 (e : Env ι A) (dt : ℝ) : Computes e (Stage.rk2s1 dt) (Time.rk2s1 e dt) := by
  stage [Stage.rk2s1, Time.rk2s1]

/-- C116 (rk2s2) -/
theorem C116_rk2s2 (e : Env ι A) (dt : ℝ) : Computes e (Stage.rk2s2 dt) (Time.rk2s2 e dt) := by
  stage [Stage.rk2s2, Time.rk2s2]

/-- C116 (rk3s1) -/
theorem C116_rk3s1 (e : Env ι A) (dt : ℝ) : Computes e (Stage.rk3s1 dt) (Time.rk3s1 e dt) := by
  stage [Stage.rk3s1, Time.rk3s1]

/-- C116 (rk3s2) -/
theorem C116_rk3s2 (e : Env ι A) (dt : ℝ) : Computes e (Stage.rk3s2 dt) (Time.rk3s2 e dt) := by
  stage [Stage.rk3s2, Time.rk3s2]

/-- C116 (rk3s3) -/
theorem C116_rk3s3 (e : Env ι A) (dt : ℝ) : Computes e (Stage.rk3s3 dt) (Time.rk3s3 e dt) := by
  stage [Stage.rk3s3, Time.rk3s3]

/-- C116 (rk34s1) -/
theorem C116_rk34s1 (e : Env ι A) (dt : ℝ) : Computes e (Stage.rk34s1 dt) (Time.rk34s1 e dt) := by
  stage [Stage.rk34s1, Time.rk34s1]

/-- C116 (rk34s2) -/
theorem C116_rk34s2 (e : Env ι A) (dt : ℝ) : Computes e (Stage.rk34s2 dt) (Time.rk34s2 e dt) := by
  stage [Stage.rk34s2, Time.rk34s2]

/-- C116 (rk34s3) -/
theorem C116_rk34s3 (e : Env ι A) (dt : ℝ) : Computes e (Stage.rk34s3 dt) (Time.rk34s3 e dt) := by
  stage [Stage.rk34s3, Time.rk34s3]

/-- C116 (rk34s4) -/
theorem C116_rk34s4 (e : Env ι A) (dt : ℝ) : Computes e (Stage.rk34s4 dt) (Time.rk34s4 e dt) := by
  stage [Stage.rk34s4, Time.rk34s4]

/-- C116 (rk4s1) -/
theorem C116_rk4s1 (e : Env ι A) (dt : ℝ) : Computes e (Stage.rk4s1 dt) (Time.rk4s1 e dt) := by
  stage [Stage.rk4s1, Time.rk4s1]

/-- C116 (rk4s2) -/
theorem C116_rk4s2 (e : Env ι A) (dt : ℝ) : Computes e (Stage.rk4s2 dt) (Time.rk4s2 e dt) := by
  stage [Stage.rk4s2, Time.rk4s2]

/-- C116 (rk4s3) -/
theorem C116_rk4s3 (e : Env ι A) (dt : ℝ) : Computes e (Stage.rk4s3 dt) (Time.rk4s3 e dt) := by
  stage [Stage.rk4s3, Time.rk4s3]

/-- C116 (rk4s4) -/
theorem C116_rk4s4 (e : Env ι A) (dt : ℝ) : Computes e (Stage.rk4s4 dt) (Time.rk4s4 e dt) := by
  stage [Stage.rk4s4, Time.rk4s4]

/-- C116 (corrector) -/
theorem C116_corrector (e : Env ι A) (dt : ℝ) : Computes e (Stage.corrector dt) (Time.corrector e dt) := by
  stage [Stage.corrector, Time.corrector]

/-- C116 (dQdt) -/
theorem C116_dQdt (e : Env ι A) (dt : ℝ) : Computes e (Stage.dQdt dt) (Time.dQdt e dt) := by
  stage [Stage.dQdt, Time.dQdt]

/-- C116 (DTrk3s1) -/
theorem C116_DTrk3s1 (e : Env ι A) (dt : ℝ) : Computes e (Stage.DTrk3s1 dt) (Time.DTrk3s1 e) := by
  stage [Stage.DTrk3s1, Time.DTrk3s1]

/-- C116 (DTrk3s2) -/
theorem C116_DTrk3s2 (e : Env ι A) (dt : ℝ) : Computes e (Stage.DTrk3s2 dt) (Time.DTrk3s2 e) := by
  stage [Stage.DTrk3s2, Time.DTrk3s2]

/-- C116 (DTrk3s3) -/
theorem C116_DTrk3s3 (e : Env ι A) (dt : ℝ) : Computes e (Stage.DTrk3s3 dt) (Time.DTrk3s3 e) := by
  stage [Stage.DTrk3s3, Time.DTrk3s3]

/-! ### the hypotheses can be met -/

/-- five indices of which three are interior, processed in the order 2, 0, 1 -/
example : Order (ι := Fin 5) (A := Unit) ⟨fun i => decide (i < 3), fun _ c => (fun _ => 1, c), fun _ c => c, fun _ c => c, fun _ c => c,
    fun _ _ => 1, fun _ _ d => d⟩ [2, 0, 1] := by
  refine ⟨by decide, ?_⟩
  intro x
  fin_cases x <;> simp

/-- every finite set of indices has an order -/
example [Fintype ι] (e : Env ι A) : Order e ((Finset.univ.filter fun x => e.inner x = true).toList) :=
  ⟨Finset.nodup_toList _, fun x => by simp⟩

end PG.Text.StageP
