import Verif.Time.Model
import Mathlib.Analysis.Convex.Basic
import Mathlib.Algebra.BigOperators.Fin
/-
Specification notions for the time integrators: when the abstract solver is an ODE on the interior conserved variables,
Runge-Kutta methods by Butcher tableau, order conditions.
-/
namespace PG.Time

variable {ι A : Type}

/-- The solver `e` is described by `f`: `f tb t Q` is the time derivative of the interior conserved variables at RHS time
    `t` when boundary conditions were last applied at time `tb`. RHS and consistify leave interior conserved variables
    alone (consistify does so as long as no species clipping takes place). -/
structure Describes (e : Env ι A) (f : ℝ → ℝ → (ι → ℝ) → ι → ℝ) : Prop where
  local' : ∀ tb t Q Q', (∀ i, e.inner i → Q i = Q' i) → ∀ i, e.inner i → f tb t Q i = f tb t Q' i
  rhs_keeps : ∀ t c i, e.inner i → (e.rhs t c).2.Q i = c.Q i
  cons_keeps : ∀ t c i, e.inner i → (e.consistify t c).Q i = c.Q i
  rhs_val : ∀ tb t c i, e.inner i → (e.rhs t (e.consistify tb c)).1 i = f tb t c.Q i

/-- No dependence on the time at which boundary conditions were applied: an ordinary differential equation `Q' = f t Q`. -/
def IsODE (e : Env ι A) (f : ℝ → (ι → ℝ) → ι → ℝ) : Prop := Describes e (fun _ => f)

/-- The state is one that consistify has just produced, with boundary conditions at time `tb` (true at the start of every
    step: bootstrapCase ends with consistify, every step ends with one). -/
def Ready (e : Env ι A) (tb : ℝ) (s : St ι A) : Prop := ∃ c, s.core = e.consistify tb c

/-- two entries -/
def v2 {α : Type*} (a b : α) : Fin 2 → α | 0 => a | 1 => b
/-- three entries -/
def v3 {α : Type*} (a b c : α) : Fin 3 → α | 0 => a | 1 => b | 2 => c
/-- four entries -/
def v4 {α : Type*} (a b c d : α) : Fin 4 → α | 0 => a | 1 => b | 2 => c | 3 => d
@[simp] theorem v2_0 {α : Type*} (a b : α) : v2 a b 0 = a := rfl
@[simp] theorem v2_1 {α : Type*} (a b : α) : v2 a b 1 = b := rfl
@[simp] theorem v3_0 {α : Type*} (a b c : α) : v3 a b c 0 = a := rfl
@[simp] theorem v3_1 {α : Type*} (a b c : α) : v3 a b c 1 = b := rfl
@[simp] theorem v3_2 {α : Type*} (a b c : α) : v3 a b c 2 = c := rfl
@[simp] theorem v4_0 {α : Type*} (a b c d : α) : v4 a b c d 0 = a := rfl
@[simp] theorem v4_1 {α : Type*} (a b c d : α) : v4 a b c d 1 = b := rfl
@[simp] theorem v4_2 {α : Type*} (a b c d : α) : v4 a b c d 2 = c := rfl
@[simp] theorem v4_3 {α : Type*} (a b c d : α) : v4 a b c d 3 = d := rfl

/-- A Runge-Kutta method. -/
structure Tableau (n : ℕ) where
  a : Fin n → Fin n → ℝ
  b : Fin n → ℝ
  c : Fin n → ℝ

/-- `Q'` is the result of one step of the method `T` from `Q` at time `t` for the ODE `f`, on the entries `inner`. -/
def RKStep {n : ℕ} (T : Tableau n) (inner : ι → Bool) (f : ℝ → (ι → ℝ) → ι → ℝ) (t dt : ℝ) (Q Q' : ι → ℝ) : Prop :=
  ∃ K : Fin n → ι → ℝ,
    (∀ m x, inner x → K m x = f (t + T.c m * dt) (fun y => Q y + dt * ∑ j, T.a m j * K j y) x) ∧
    ∀ x, inner x → Q' x = Q x + dt * ∑ j, T.b j * K j x

/-- explicit: each stage uses earlier stages only -/
def Tableau.Explicit {n : ℕ} (T : Tableau n) : Prop := ∀ i j, i ≤ j → T.a i j = 0
/-- stage times agree with stage weights: `c i = Σ_j a i j` -/
def Tableau.RowSum {n : ℕ} (T : Tableau n) : Prop := ∀ i, T.c i = ∑ j, T.a i j
/-- order conditions (rooted trees with one, two, three, four vertices) -/
def Tableau.Order1 {n : ℕ} (T : Tableau n) : Prop := ∑ i, T.b i = 1
/-- second order -/
def Tableau.Order2 {n : ℕ} (T : Tableau n) : Prop := ∑ i, T.b i * T.c i = 1 / 2
/-- third order -/
def Tableau.Order3 {n : ℕ} (T : Tableau n) : Prop :=
  ∑ i, T.b i * T.c i ^ 2 = 1 / 3 ∧ ∑ i, T.b i * ∑ j, T.a i j * T.c j = 1 / 6
/-- fourth order -/
def Tableau.Order4 {n : ℕ} (T : Tableau n) : Prop :=
  ∑ i, T.b i * T.c i ^ 3 = 1 / 4 ∧ ∑ i, T.b i * T.c i * ∑ j, T.a i j * T.c j = 1 / 8 ∧
  ∑ i, T.b i * ∑ j, T.a i j * T.c j ^ 2 = 1 / 12 ∧
  ∑ i, T.b i * ∑ j, T.a i j * ∑ k, T.a j k * T.c k = 1 / 24

/-- forward Euler -/
def tabRK1 : Tableau 1 := ⟨fun _ _ => 0, fun _ => 1, fun _ => 0⟩
/-- Heun / SSPRK(2,2) -/
noncomputable def tabRK2 : Tableau 2 := ⟨(v2 (v2 0 0) (v2 1 0)), (v2 (1/2) (1/2)), (v2 0 1)⟩
/-- Shu-Osher SSPRK(3,3) -/
noncomputable def tabRK3 : Tableau 3 :=
  ⟨(v3 (v3 0 0 0) (v3 1 0 0) (v3 (1/4) (1/4) 0)), (v3 (1/6) (1/6) (2/3)), (v3 0 1 (1/2))⟩
/-- SSPRK(4,3) -/
noncomputable def tabRK34 : Tableau 4 :=
  ⟨(v4 (v4 0 0 0 0) (v4 (1/2) 0 0 0) (v4 (1/2) (1/2) 0 0) (v4 (1/6) (1/6) (1/6) 0)), (v4 (1/6) (1/6) (1/6) (1/2)), (v4 0 (1/2) 1 (1/2))⟩
/-- the classical fourth-order method -/
noncomputable def tabRK4 : Tableau 4 :=
  ⟨(v4 (v4 0 0 0 0) (v4 (1/2) 0 0 0) (v4 0 (1/2) 0 0) (v4 0 0 1 0)), (v4 (1/6) (1/3) (1/3) (1/6)), (v4 0 (1/2) (1/2) 1)⟩
/-- MacCormack as coded: Heun weights, both stages evaluated at the start time -/
noncomputable def tabMac : Tableau 2 := ⟨(v2 (v2 0 0) (v2 1 0)), (v2 (1/2) (1/2)), (v2 0 0)⟩

end PG.Time
