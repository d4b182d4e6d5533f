import Verif.Run.Model
import Mathlib.Data.List.Perm.Basic
import Mathlib.Algebra.Order.BigOperators.Group.List
import Mathlib.Algebra.BigOperators.Group.List.Basic
import Mathlib.Tactic.Linarith
import Mathlib.Tactic.Ring

/-!
# Reductions over work items

A `Kokkos::parallel_reduce` gives each thread an accumulator that starts at the identity of the reducer, lets it
update that accumulator with some of the work items, in some order, and joins the accumulators in some order
(`src/compute/utils/cfl.cpp:33-82`, `checkNan.cpp:18-24`, `timeIntegration/dualTime.cpp:173-215,229-238`).
-/

namespace PG.Par

/-- How a reduction was carried out: which work items one accumulator saw, in which order, and how the
accumulators were joined (`Kokkos::parallel_reduce`). -/
inductive Plan (α : Type) where
  | chunk (items : List α)
  | join (a b : Plan α)

/-- The work items of a plan. -/
def Plan.items {α : Type} : Plan α → List α
  | .chunk l => l
  | .join a b => a.items ++ b.items

/-- The result of the reduction: identity, body of the kernel, and join of two accumulators. -/
def Plan.eval {α β : Type} (init : β) (upd : β → α → β) (jn : β → β → β) : Plan α → β
  | .chunk l => l.foldl upd init
  | .join a b => jn (a.eval init upd jn) (b.eval init upd jn)

/-- If the body joins a contribution of the work item to the accumulator, joining is commutative and associative, and the
identity joined with itself is itself, then the plan does not matter. -/
theorem eval_eq {α β : Type} {init : β} {upd : β → α → β} {jn : β → β → β} (f : α → β)
    (hu : ∀ a x, upd a x = jn a (f x)) (comm : ∀ a b, jn a b = jn b a) (assoc : ∀ a b c, jn (jn a b) c = jn a (jn b c))
    (idem : jn init init = init) (p : Plan α) {l : List α} (h : p.items.Perm l) :
    p.eval init upd jn = l.foldl upd init := by
  have rc : RightCommutative upd := ⟨fun a x y => by rw [hu, hu, hu, hu, assoc, comm (f x), ← assoc]⟩
  have out : ∀ (l : List α) (a b : β), l.foldl upd (jn a b) = jn a (l.foldl upd b) := by
    intro l
    induction l with
    | nil => intros; rfl
    | cons x l ih => intro a b; simp only [List.foldl_cons, hu]; rw [assoc, ← ih]
  have key : p.eval init upd jn = p.items.foldl upd init := by
    induction p generalizing l with
    | chunk l => rfl
    | join a b iha ihb =>
      simp only [Plan.eval, Plan.items, List.foldl_append]
      rw [iha (List.Perm.refl _), ihb (List.Perm.refl _)]
      rw [← out, comm (List.foldl upd init a.items)]
      conv_lhs => rw [show jn init (List.foldl upd init a.items) = List.foldl upd (jn init init) a.items from (out _ _ _).symm]
      rw [idem]
  rw [key]
  exact h.foldl_eq init

open PG.Run in
/-- The CFL factors of a block do not depend on how the reduction is carried out: `cfl.cpp:33-82`, with the
three `Kokkos::Max<double>` reducers. -/
theorem C100_cfl (b : Blk) (p : Plan CellD) (h : p.items.Perm b.cells) :
    p.eval ⟨lowest, lowest, lowest⟩ (accCell b) (fun x y => ⟨max x.a y.a, max x.c y.c, max x.r y.r⟩) = blkMax b := by
  unfold blkMax
  let g (m : ℝ) (k : CellD) (d : ℕ) : Acc :=
    ⟨m * k.c / len (k.dir d), m * speed k.vel (k.dir d) / len (k.dir d), m * (speed k.vel (k.dir d) + k.c) / len (k.dir d)⟩
  let jn (x y : Acc) : Acc := ⟨max x.a y.a, max x.c y.c, max x.r y.r⟩
  refine eval_eq (fun k => jn (g (multOf (b.n 0)) k 0) (jn (g (multOf (b.n 1)) k 1) (g (multOf (b.n 2)) k 2)))
    ?_ ?_ ?_ ?_ p h
  · intro a x; simp only [accCell, accDir, jn, g, max_assoc]
  · intro a b; simp only [max_comm]
  · intro a b c; simp only [max_assoc]
  · simp

open PG.Run in
/-- Nor does the NaN flag of a block: `checkNan.cpp:18-24`, `Kokkos::Min<int>`. -/
theorem C100_nan (b : List Dbl) (p : Plan Dbl) (h : p.items.Perm b) :
    p.eval 2147483647 (fun f x => min (isfinite x) f) min = allFinite b := by
  unfold allFinite
  refine eval_eq isfinite ?_ ?_ ?_ ?_ p h
  · intro a x; exact Nat.min_comm _ _
  · exact Nat.min_comm
  · exact Nat.min_assoc
  · simp

/-! ## Residuals of the dual-time iteration -/

/-- The two accumulators of one variable: largest change and sum of squares (`dualTime.cpp:175-179,230-233`). -/
structure Res where
  max : ℝ
  sum : ℝ

/-- Body of the reduction for one variable of one cell, with the value before (`Q0`) and after (`q`) the pseudo-time
iteration: `dualTime.cpp:181-184` and the like, `:234-236` for species. -/
noncomputable def accRes (x : Res) (c : ℝ × ℝ) : Res := ⟨Max.max |c.2 - c.1| x.max, x.sum + |c.2 - c.1| ^ 2⟩

/-- How two accumulators are joined (`Kokkos::Max<double>`, `Kokkos::Sum<double>`, `dualTime.cpp:209-215,238`). -/
noncomputable def joinRes (x y : Res) : Res := ⟨Max.max x.max y.max, x.sum + y.sum⟩

/-- The reduction over one block, started at the identities of the two reducers (`dualTime.cpp:173-238`). -/
noncomputable def blkRes (cells : List (ℝ × ℝ)) : Res := cells.foldl accRes ⟨PG.Run.lowest, 0⟩

/-- The residual of one variable over the blocks of a rank: `dualTime.cpp:150-165,217-227,239-243`. -/
noncomputable def rankRes (mb : List (List (ℝ × ℝ))) : Res :=
  mb.foldl (fun x b => ⟨Max.max (blkRes b).max x.max, x.sum + (blkRes b).sum⟩) ⟨0, 0⟩

/-- The number printed for one variable: the second row of the residuals, summed over the ranks, and its root
(`integrators/dualTime.py:96-103`). -/
noncomputable def printed (ranks : List (List (List (ℝ × ℝ)))) : ℝ := Real.sqrt ((ranks.map fun mb => (rankRes mb).sum).sum)

/-- The first row, reduced with `MPI.MIN` (`integrators/dualTime.py:99`); it is not printed. -/
noncomputable def firstRow : List (List (List (ℝ × ℝ))) → ℝ
  | [] => 0
  | mb :: rs => rs.foldl (fun x mb => min x (rankRes mb).max) (rankRes mb).max

/-- The residual of a block does not depend on how the reduction is carried out (in exact arithmetic; for the sum, a
reordering of floating point additions may change the last digits). -/
theorem C100_residual (cells : List (ℝ × ℝ)) (p : Plan (ℝ × ℝ)) (h : p.items.Perm cells) :
    p.eval ⟨PG.Run.lowest, 0⟩ accRes joinRes = blkRes cells := by
  unfold blkRes
  refine eval_eq (fun c => ⟨|c.2 - c.1|, |c.2 - c.1| ^ 2⟩) ?_ ?_ ?_ ?_ p h
  · intro a x; simp only [accRes, joinRes, max_comm]
  · intro a b; simp only [joinRes, max_comm, add_comm]
  · intro a b c; simp only [joinRes, max_assoc, add_assoc]
  · simp [joinRes]

theorem accRes_sum (l : List (ℝ × ℝ)) (x : Res) :
    (l.foldl accRes x).sum = x.sum + (l.map fun c => (c.2 - c.1) ^ 2).sum := by
  induction l generalizing x with
  | nil => simp
  | cons c l ih => simp only [List.foldl_cons, ih, List.map_cons, List.sum_cons, accRes, sq_abs]; ring

theorem accRes_max (l : List (ℝ × ℝ)) (x : Res) (z : ℝ) :
    (l.foldl accRes x).max ≤ z ↔ x.max ≤ z ∧ ∀ c ∈ l, |c.2 - c.1| ≤ z := by
  induction l generalizing x with
  | nil => simp
  | cons c l ih =>
    simp only [List.foldl_cons, ih, accRes, max_le_iff, List.mem_cons, forall_eq_or_imp]; tauto

theorem rankRes_sum (mb : List (List (ℝ × ℝ))) :
    (rankRes mb).sum = (mb.flatten.map fun c => (c.2 - c.1) ^ 2).sum := by
  unfold rankRes
  have : ∀ (x : Res), (mb.foldl (fun x b => (⟨Max.max (blkRes b).max x.max, x.sum + (blkRes b).sum⟩ : Res)) x).sum
      = x.sum + (mb.flatten.map fun c => (c.2 - c.1) ^ 2).sum := by
    induction mb with
    | nil => intro x; simp
    | cons b mb ih =>
      intro x
      rw [List.foldl_cons, ih]
      simp only [blkRes, accRes_sum, List.flatten_cons, List.map_append, List.sum_append]
      ring
  rw [this]; simp

theorem rankRes_max (mb : List (List (ℝ × ℝ))) (z : ℝ) (hz : 0 ≤ z) :
    (rankRes mb).max ≤ z ↔ ∀ b ∈ mb, ∀ c ∈ b, |c.2 - c.1| ≤ z := by
  unfold rankRes
  have low : PG.Run.lowest ≤ z := le_trans (by unfold PG.Run.lowest; norm_num) hz
  have : ∀ (x : Res), (mb.foldl (fun x b => (⟨Max.max (blkRes b).max x.max, x.sum + (blkRes b).sum⟩ : Res)) x).max ≤ z
      ↔ x.max ≤ z ∧ ∀ b ∈ mb, ∀ c ∈ b, |c.2 - c.1| ≤ z := by
    induction mb with
    | nil => intro x; simp
    | cons b mb ih =>
      intro x
      rw [List.foldl_cons, ih]
      simp only [blkRes, max_le_iff, accRes_max, List.mem_cons, forall_eq_or_imp, low, true_and]
      tauto
  rw [this]; simp [hz]

/-- **The printed residual is the root of the sum of squares of the changes of that variable over all interior cells
of all blocks of all ranks**; so it does not depend on how blocks are dealt to ranks, and is zero exactly when
nothing changed. -/
theorem C101_residual (ranks : List (List (List (ℝ × ℝ)))) :
    printed ranks = Real.sqrt ((ranks.flatten.flatten.map fun c => (c.2 - c.1) ^ 2).sum) ∧
    (∀ ranks', ranks'.flatten.Perm ranks.flatten → printed ranks' = printed ranks) ∧
    (printed ranks = 0 ↔ ∀ mb ∈ ranks, ∀ b ∈ mb, ∀ c ∈ b, c.1 = c.2) := by
  have key : ∀ r : List (List (List (ℝ × ℝ))),
      (r.map fun mb => (rankRes mb).sum).sum = (r.flatten.flatten.map fun c => (c.2 - c.1) ^ 2).sum := by
    intro r
    induction r with
    | nil => simp
    | cons mb r ih => 
      rw [List.map_cons, List.sum_cons, ih, rankRes_sum, List.flatten_cons, List.flatten_append,
        List.map_append, List.sum_append]
  refine ⟨by unfold printed; rw [key], ?_, ?_⟩
  · intro r h
    unfold printed
    rw [key, key]
    congr 1
    exact (h.flatten.map _).sum_eq
  · unfold printed
    rw [key, Real.sqrt_eq_zero (List.sum_nonneg (by simp only [List.mem_map]; rintro _ ⟨c, _, rfl⟩; positivity))]
    have nn : ∀ l : List (ℝ × ℝ), (l.map fun c => (c.2 - c.1) ^ 2).sum = 0 ↔ ∀ c ∈ l, c.1 = c.2 := by
      intro l
      induction l with
      | nil => simp
      | cons c l ih =>
        have h0 : 0 ≤ (l.map fun c => (c.2 - c.1) ^ 2).sum :=
          List.sum_nonneg (by simp only [List.mem_map]; rintro _ ⟨c, _, rfl⟩; positivity)
        simp only [List.map_cons, List.sum_cons, List.mem_cons, forall_eq_or_imp, ← ih]
        constructor
        · intro h
          have h1 := sq_nonneg (c.2 - c.1)
          have h2 : (c.2 - c.1) ^ 2 = 0 := by linarith
          exact ⟨by have := pow_eq_zero_iff (two_ne_zero) |>.mp h2; linarith, by linarith⟩
        · rintro ⟨h1, h2⟩; rw [h1, h2]; ring
    rw [nn]
    simp only [List.mem_flatten]
    constructor
    · intro h mb hm b hb c hc; exact h c ⟨b, ⟨mb, hm, hb⟩, hc⟩
    · rintro h c ⟨b, ⟨mb, hm, hb⟩, hc⟩; exact h mb hm b hb c hc

/-- The largest change on one rank is what its first row holds (for nonnegative bounds: a rank without cells has 0). -/
theorem C101_max_on_rank (mb : List (List (ℝ × ℝ))) (z : ℝ) (hz : 0 ≤ z) :
    (rankRes mb).max ≤ z ↔ ∀ b ∈ mb, ∀ c ∈ b, |c.2 - c.1| ≤ z := rankRes_max mb z hz

/-- Over several ranks the first row is not the largest change: it is reduced with the minimum.  Two ranks, a change of one
on the first and none on the second: the reduced value is 0. -/
theorem C101_max_violated : firstRow [[[(0, 1)]], [[(0, 0)]]] = 0 := by
  have l : PG.Run.lowest ≤ 0 := by unfold PG.Run.lowest; norm_num
  have l1 : PG.Run.lowest ≤ 1 := l.trans zero_le_one
  simp [firstRow, rankRes, blkRes, accRes, l, l1]

/-- A plan with two accumulators over three cells, joined in reverse. -/
example : Plan.eval ⟨PG.Run.lowest, 0⟩ accRes joinRes (.join (.chunk [(0, 3)]) (.chunk [(1, 1), (2, 0)])) =
    blkRes [(1, 1), (2, 0), (0, 3)] :=
  C100_residual _ _ (by simpa [Plan.items] using (List.perm_append_comm (l₁ := [((0:ℝ), (3:ℝ))]) (l₂ := [(1, 1), (2, 0)])))

/-- Two ranks with two changed cells. -/
example : printed [[[(0, 3)]], [[(1, 1), (2, -2)]]] = 5 := by
  rw [(C101_residual _).1]
  norm_num
  rw [show (25 : ℝ) = 5 ^ 2 by norm_num]
  exact Real.sqrt_sq (by norm_num)

end PG.Par
