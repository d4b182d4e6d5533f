import Mathlib.Logic.Relation
import Mathlib.Data.Set.Basic
import Mathlib.Data.Fintype.Basic
import Mathlib.Algebra.BigOperators.Group.Finset.Basic
import Mathlib.Algebra.BigOperators.Fin
import Mathlib.Algebra.Order.BigOperators.Group.Finset
import Mathlib.Tactic.Ring

/-!
# Work items of a parallel kernel, interleaved step by step

Every compute kernel of the code is a `Kokkos::parallel_for` (for instance
`src/compute/utils/applyFluxes.cpp:13-25`): one work item for each index of a range, all of them running
over shared arrays, in an order and with an interleaving that the program does not choose.  Here a work
item is a sequence of reads and writes of shared locations, the value of a read deciding what follows; a
pool of work items advances one access of one item at a time, in any order.

The memory is sequentially consistent.  (The kernels are free of data races, which is what is proved of them
in `Verif.Par.Kernels`, so this is what the C++ memory model gives them.)
-/

namespace PG.Par

/-- A work item: what it reads and writes of the shared arrays, in its own order
(the body of a `KOKKOS_LAMBDA`, e.g. `src/compute/utils/applyFluxes.cpp:15-24`).  Local variables are in the
continuation; a loop is unrolled. -/
inductive Thread (L V : Type) where
  | done
  | read (l : L) (k : V → Thread L V)
  | write (l : L) (v : V) (t : Thread L V)

variable {L V I : Type} [DecidableEq L] [DecidableEq I]

/-- The memory after one cell is set. -/
def setMem (m : L → V) (l : L) (v : V) : L → V := fun x => if x = l then v else m x

/-- A work item run alone, from start to end. -/
def Thread.run : Thread L V → (L → V) → (L → V)
  | .done, m => m
  | .read l k, m => (k (m l)).run m
  | .write l v t, m => t.run (setMem m l v)

/-- How many accesses a work item makes when it is run alone. -/
def Thread.len : Thread L V → (L → V) → ℕ
  | .done, _ => 0
  | .read l k, m => (k (m l)).len m + 1
  | .write l v t, m => t.len (setMem m l v) + 1

/-- A state of a kernel: the shared memory and what is left of each work item. -/
structure State (L V I : Type) where
  mem : L → V
  pool : I → Thread L V

/-- One access by one work item: the scheduler is free to pick any item that is not finished
(`Kokkos::parallel_for`, no order guaranteed). -/
inductive Step : State L V I → State L V I → Prop where
  | read (m : L → V) (p : I → Thread L V) (i : I) (l : L) (k : V → Thread L V) (h : p i = .read l k) :
      Step ⟨m, p⟩ ⟨m, fun j => if j = i then k (m l) else p j⟩
  | write (m : L → V) (p : I → Thread L V) (i : I) (l : L) (v : V) (t : Thread L V) (h : p i = .write l v t) :
      Step ⟨m, p⟩ ⟨setMem m l v, fun j => if j = i then t else p j⟩

/-- `n` accesses in a row. -/
inductive Steps : ℕ → State L V I → State L V I → Prop where
  | refl (s : State L V I) : Steps 0 s s
  | step {n : ℕ} {s t u : State L V I} : Step s t → Steps n t u → Steps (n + 1) s u

/-- Every work item has finished. -/
def State.Finished (s : State L V I) : Prop := ∀ i, s.pool i = .done

/-- A work item reads only locations of `R` and writes only locations of `W`, whatever values it reads. -/
inductive Within (R W : Set L) : Thread L V → Prop where
  | done : Within R W .done
  | read (l : L) (k : V → Thread L V) : l ∈ R → (∀ v, Within R W (k v)) → Within R W (.read l k)
  | write (l : L) (v : V) (t : Thread L V) : l ∈ W → Within R W t → Within R W (.write l v t)

/-- No work item writes what another one reads or writes. -/
def Disjoint (R W : I → Set L) : Prop := ∀ i j, i ≠ j → ∀ l ∈ W i, l ∉ R j ∧ l ∉ W j

/-! ## Running alone depends only on the footprint -/

theorem run_congr {R W : Set L} {t : Thread L V} (h : Within R W t) :
    ∀ {m m' : L → V}, (∀ l, l ∈ R ∨ l ∈ W → m l = m' l) →
      (∀ l ∈ W, t.run m l = t.run m' l) ∧ t.len m = t.len m' := by
  induction h with
  | done => intro m m' e; exact ⟨fun l hl => e l (.inr hl), rfl⟩
  | read l k hl _ ih =>
    intro m m' e
    simp only [Thread.run, Thread.len]
    rw [← e l (.inl hl)]
    exact ⟨(ih (m l) e).1, by rw [(ih (m l) e).2]⟩
  | write l v t hl _ ih =>
    intro m m' e
    have e' : ∀ x, x ∈ R ∨ x ∈ W → setMem m l v x = setMem m' l v x := by
      intro x hx; by_cases q : x = l <;> simp [setMem, q]
      exact e x hx
    simp only [Thread.run, Thread.len]
    exact ⟨(ih e').1, by rw [(ih e').2]⟩

theorem run_off {R W : Set L} {t : Thread L V} (h : Within R W t) :
    ∀ {m : L → V} {l : L}, l ∉ W → t.run m l = m l := by
  induction h with
  | done => intro m l _; rfl
  | read l k hl _ ih => intro m x hx; exact ih (m l) hx
  | write l v t hl _ ih =>
    intro m x hx
    have : x ≠ l := fun e => hx (e ▸ hl)
    simp only [Thread.run]
    rw [ih hx]; simp [setMem, this]

/-! ## One access keeps everybody's solo result -/

theorem step_inv {R W : I → Set L} (D : Disjoint R W) {s s' : State L V I} (st : Step s s')
    (F : ∀ i, Within (R i) (W i) (s.pool i)) :
    (∀ i, Within (R i) (W i) (s'.pool i)) ∧
    (∀ j, ∀ l ∈ W j, (s'.pool j).run s'.mem l = (s.pool j).run s.mem l) ∧
    (∀ l, (∀ j, l ∉ W j) → s'.mem l = s.mem l) ∧
    (∃ i, (s'.pool i).len s'.mem + 1 = (s.pool i).len s.mem ∧
      ∀ j, j ≠ i → (s'.pool j).len s'.mem = (s.pool j).len s.mem) := by
  cases st with
  | read m p i l k h =>
    have Fi := F i
    simp only at Fi F
    rw [h] at Fi
    cases Fi with
    | read _ _ hl hk =>
      refine ⟨?_, ?_, ?_, i, ?_, ?_⟩
      · intro j; by_cases e : j = i <;> simp only [e, if_true, if_false]
        · exact hk _
        · exact F j
      · intro j x hx; by_cases e : j = i
        · subst e; simp [h, Thread.run]
        · simp [e]
      · intro x _; rfl
      · simp [h, Thread.len]
      · intro j e; simp [e]
  | write m p i l v t h =>
    have Fi := F i
    simp only at Fi F
    rw [h] at Fi
    cases Fi with
    | write _ _ _ hl ht =>
      have agree : ∀ j, j ≠ i → ∀ x, x ∈ R j ∨ x ∈ W j → setMem m l v x = m x := by
        intro j e x hx
        have q : x ≠ l := by
          rintro rfl
          have := D i j (Ne.symm e) x hl
          exact hx.elim this.1 this.2
        simp [setMem, q]
      refine ⟨?_, ?_, ?_, i, ?_, ?_⟩
      · intro j; by_cases e : j = i <;> simp only [e, if_true, if_false]
        · exact ht
        · exact F j
      · intro j x hx; by_cases e : j = i
        · subst e; simp [h, Thread.run]
        · simp only [e, if_false]
          exact (run_congr (F j) (agree j e)).1 x hx
      · intro x hx
        have q : x ≠ l := fun e => hx i (e ▸ hl)
        simp [setMem, q]
      · simp [h, Thread.len]
      · intro j e; simp only [e, if_false]
        exact (run_congr (F j) (agree j e)).2

theorem steps_inv {R W : I → Set L} (D : Disjoint R W) {n : ℕ} {s s' : State L V I} (st : Steps n s s') :
    (∀ i, Within (R i) (W i) (s.pool i)) →
    (∀ i, Within (R i) (W i) (s'.pool i)) ∧
    (∀ j, ∀ l ∈ W j, (s'.pool j).run s'.mem l = (s.pool j).run s.mem l) ∧
    (∀ l, (∀ j, l ∉ W j) → s'.mem l = s.mem l) := by
  induction st with
  | refl s => intro F; exact ⟨F, fun _ _ _ => rfl, fun _ _ => rfl⟩
  | step a _ ih =>
    intro F
    obtain ⟨F1, r1, o1, _⟩ := step_inv D a F
    obtain ⟨F2, r2, o2⟩ := ih F1
    exact ⟨F2, fun j l hl => (r2 j l hl).trans (r1 j l hl), fun l hl => (o2 l hl).trans (o1 l hl)⟩

/-- **What a finished execution leaves**: every location a work item may write holds what that item, run alone
from the initial memory, leaves there; every other location is untouched. -/
theorem finished_mem {R W : I → Set L} (D : Disjoint R W) {n : ℕ} {s s' : State L V I}
    (F : ∀ i, Within (R i) (W i) (s.pool i)) (st : Steps n s s') (fin : s'.Finished) :
    (∀ i, ∀ l ∈ W i, s'.mem l = (s.pool i).run s.mem l) ∧ (∀ l, (∀ i, l ∉ W i) → s'.mem l = s.mem l) := by
  obtain ⟨_, r, o⟩ := steps_inv D st F
  refine ⟨fun i l hl => ?_, o⟩
  rw [← r i l hl, fin i]; rfl

/-- All finished executions leave the same memory. -/
theorem finished_unique {R W : I → Set L} (D : Disjoint R W) {n n' : ℕ} {s s₁ s₂ : State L V I}
    (F : ∀ i, Within (R i) (W i) (s.pool i)) (a : Steps n s s₁) (fa : s₁.Finished) (b : Steps n' s s₂)
    (fb : s₂.Finished) : s₁.mem = s₂.mem := by
  obtain ⟨r1, o1⟩ := finished_mem D F a fa
  obtain ⟨r2, o2⟩ := finished_mem D F b fb
  funext l
  by_cases h : ∃ i, l ∈ W i
  · obtain ⟨i, hi⟩ := h; rw [r1 i l hi, r2 i l hi]
  · have h' : ∀ i, l ∉ W i := fun i hi => h ⟨i, hi⟩
    rw [o1 l h', o2 l h']

/-! ## Executions end, and nothing gets stuck -/

/-- Accesses that remain, counted as if every item ran alone. -/
def State.left [Fintype I] (s : State L V I) : ℕ := ∑ i, (s.pool i).len s.mem

theorem step_left [Fintype I] {R W : I → Set L} (D : Disjoint R W) {s s' : State L V I} (st : Step s s')
    (F : ∀ i, Within (R i) (W i) (s.pool i)) : s'.left + 1 = s.left := by
  obtain ⟨_, _, _, i, h, h'⟩ := step_inv D st F
  unfold State.left
  rw [← Finset.add_sum_erase _ _ (Finset.mem_univ i), ← Finset.add_sum_erase _ _ (Finset.mem_univ i)]
  rw [Finset.sum_congr rfl (fun j hj => h' j (Finset.ne_of_mem_erase hj))]
  omega

theorem steps_left [Fintype I] {R W : I → Set L} (D : Disjoint R W) {n : ℕ} {s s' : State L V I}
    (st : Steps n s s') : (∀ i, Within (R i) (W i) (s.pool i)) → s'.left + n = s.left := by
  induction st with
  | refl s => intro _; simp
  | step a _ ih =>
    intro F
    have := step_left D a F
    have := ih (step_inv D a F).1
    omega

/-- Every unfinished state can take a step. -/
theorem exists_step {s : State L V I} (h : ¬ s.Finished) : ∃ s', Step s s' := by
  obtain ⟨m, p⟩ := s
  have : ∃ i, p i ≠ .done := Classical.byContradiction fun q =>
    h fun i => Classical.byContradiction fun r => q ⟨i, r⟩
  obtain ⟨i, hi⟩ := this
  cases e : p i with
  | done => exact absurd e hi
  | read l k => exact ⟨_, Step.read m p i l k e⟩
  | write l v t => exact ⟨_, Step.write m p i l v t e⟩

/-- From every state of a kernel with disjoint footprints a finished state is reached. -/
theorem exists_finish [Fintype I] {R W : I → Set L} (D : Disjoint R W) :
    ∀ (n : ℕ) (s : State L V I), s.left = n → (∀ i, Within (R i) (W i) (s.pool i)) →
      ∃ s', Steps n s s' ∧ s'.Finished := by
  intro n
  induction n with
  | zero =>
    intro s h F
    refine ⟨s, .refl s, Classical.byContradiction fun q => ?_⟩
    obtain ⟨s', st⟩ := exists_step q
    have := step_left D st F
    omega
  | succ n ih =>
    intro s h F
    have q : ¬ s.Finished := by
      intro q
      have : s.left = 0 := Finset.sum_eq_zero fun i _ => by rw [q i]; rfl
      omega
    obtain ⟨s', st⟩ := exists_step q
    have := step_left D st F
    obtain ⟨u, hu, fu⟩ := ih s' (by omega) (step_inv D st F).1
    exact ⟨u, .step st hu, fu⟩

/-! ## The sequential loop -/

/-- The kernel as a sequential loop over the work items, in the given order. -/
def loop (p : I → Thread L V) (os : List I) (m : L → V) : L → V := os.foldl (fun m i => (p i).run m) m

theorem loop_mem {R W : I → Set L} (D : Disjoint R W) (p : I → Thread L V)
    (F : ∀ i, Within (R i) (W i) (p i)) (os : List I) (nd : os.Nodup) (m : L → V) :
    (∀ i ∈ os, ∀ l ∈ W i, loop p os m l = (p i).run m l) ∧ (∀ l, (∀ i ∈ os, l ∉ W i) → loop p os m l = m l) := by
  induction os generalizing m with
  | nil => simp [loop]
  | cons a os ih =>
    obtain ⟨na, nd'⟩ := List.nodup_cons.mp nd
    obtain ⟨r, o⟩ := ih nd' ((p a).run m)
    have e : loop p (a :: os) m = loop p os ((p a).run m) := rfl
    rw [e]
    refine ⟨?_, ?_⟩
    · intro i hi l hl
      rcases List.mem_cons.mp hi with rfl | hi
      · rw [o l]
        intro j hj hw
        have : i ≠ j := fun q => na (q ▸ hj)
        exact (D i j this l hl).2 hw
      · have ne : a ≠ i := fun q => na (q ▸ hi)
        rw [r i hi l hl]
        refine (run_congr (F i) ?_).1 l hl
        intro x hx
        apply run_off (F a)
        intro hw
        exact hx.elim (D a i ne x hw).1 (D a i ne x hw).2
    · intro l hl
      rw [o l (fun i hi => hl i (List.mem_cons_of_mem _ hi)), run_off (F a) (hl a (List.mem_cons_self ..))]

/-- Every finished execution leaves what the sequential loop leaves, in any order of the loop. -/
theorem finished_loop {R W : I → Set L} (D : Disjoint R W) {n : ℕ} {s s' : State L V I}
    (F : ∀ i, Within (R i) (W i) (s.pool i)) (st : Steps n s s') (fin : s'.Finished) (os : List I)
    (nd : os.Nodup) (all : ∀ i, i ∈ os) : s'.mem = loop s.pool os s.mem := by
  obtain ⟨r, o⟩ := finished_mem D F st fin
  obtain ⟨r', o'⟩ := loop_mem D s.pool F os nd s.mem
  funext l
  by_cases h : ∃ i, l ∈ W i
  · obtain ⟨i, hi⟩ := h; rw [r i l hi, r' i (all i) l hi]
  · have h' : ∀ i, l ∉ W i := fun i hi => h ⟨i, hi⟩
    rw [o l h', o' l (fun i _ => h' i)]

end PG.Par
