import Verif.Par.Threads
import Verif.Par.Table
import Mathlib.Data.Real.Basic
import Mathlib.Data.Fintype.Sets
import Mathlib.Tactic.FinCases

/-!
# Every kernel of the code gives one result, whatever the schedule

For each kernel of the table (`Verif.Par.Table`), for every finite range of work items and every work item
body that stays inside the accesses of the table: no work item writes what another one reads or writes; so all
interleavings end, and end in the memory that a sequential loop over the range leaves, in any order.
-/

namespace PG.Par

/-- A location of a shared array as a kernel with `n` work indices sees it: the array, the first `n` indices,
and the remaining ones (for a face slice `q0(i, j, l)`: `(i, j)`, and the plane of the slice with `l`). -/
structure Loc (n : ℕ) where
  arr : String
  pos : Fin n → ℤ
  rest : List ℤ
deriving DecidableEq

/-- The access, made by the work item with index `x`, may touch the location. -/
def Access.Touches {n : ℕ} (a : Access) (x : Fin n → ℤ) (l : Loc n) : Prop :=
  l.arr = a.arr ∧ ∀ d : Fin n, ∀ o : ℤ, a.offs[d.1]? = some (some o) → l.pos d = x d + o

/-- What a work item may read. -/
def Kernel.reads (k : Kernel) (x : Fin k.dim → ℤ) : Set (Loc k.dim) := {l | ∃ a ∈ k.acc, a.Touches x l}

/-- What a work item may write. -/
def Kernel.writes (k : Kernel) (x : Fin k.dim → ℤ) : Set (Loc k.dim) :=
  {l | ∃ a ∈ k.acc, a.write = true ∧ a.Touches x l}

/-- Every access to an array that the kernel writes is at the work item's own index. -/
def Kernel.owned (k : Kernel) : Bool :=
  k.acc.all fun a => !(k.acc.any fun w => w.write && w.arr == a.arr) || a.offs == List.replicate k.dim (some 0)

/-- All the kernels of the code own what they write. -/
theorem kernels_owned : ∀ k ∈ kernels, k.owned = true := by decide +kernel

theorem owned_pos {k : Kernel} (h : k.owned = true) {x : Fin k.dim → ℤ} {a w : Access} {l : Loc k.dim}
    (ha : a ∈ k.acc) (hw : w ∈ k.acc) (ww : w.write = true) (e : w.arr = a.arr) (t : a.Touches x l) : l.pos = x := by
  have := (List.all_eq_true.mp h) a ha
  have any : (k.acc.any fun w => w.write && w.arr == a.arr) = true :=
    List.any_eq_true.mpr ⟨w, hw, by simp [ww, e]⟩
  rw [any] at this
  simp only [Bool.not_true, Bool.false_or, beq_iff_eq] at this
  funext d
  have q := t.2 d 0 (by rw [this]; simp)
  simpa using q

theorem owned_disjoint {k : Kernel} (h : k.owned = true) : Disjoint k.reads k.writes := by
  intro x y ne l hl
  obtain ⟨w, hw, ww, tw⟩ := hl
  have px := owned_pos h hw hw ww rfl tw
  have key : ∀ a ∈ k.acc, ¬ a.Touches y l := by
    intro a ha t
    have py := owned_pos h ha hw ww (tw.1.symm.trans t.1) t
    exact ne (px.symm.trans py)
  exact ⟨fun ⟨a, ha, t⟩ => key a ha t, fun ⟨a, ha, _, t⟩ => key a ha t⟩

/-- The state in which a kernel is started: the work items of the range, none of which has begun
(`Kokkos::parallel_for("...", MDRange..., KOKKOS_LAMBDA ...)`). -/
def launch {k : Kernel} {V : Type} (range : Finset (Fin k.dim → ℤ)) (body : (Fin k.dim → ℤ) → Thread (Loc k.dim) V)
    (m : Loc k.dim → V) : State (Loc k.dim) V {x // x ∈ range} := ⟨m, fun x => body x.1⟩

/-- **Thread schedules do not matter.**  For every parallel kernel of the code, every finite range of work
items, every initial contents of the arrays and all work item bodies that access only what the kernel accesses:
every execution that has finished, whatever the interleaving, has made the same number of accesses and left the
memory of the sequential loop over the range, in whatever order that loop goes. -/
theorem C100_schedule_independent (k : Kernel) (hk : k ∈ kernels) {V : Type} (range : Finset (Fin k.dim → ℤ))
    (body : (Fin k.dim → ℤ) → Thread (Loc k.dim) V)
    (inside : ∀ x ∈ range, Within (k.reads x) (k.writes x) (body x)) (m : Loc k.dim → V)
    {n : ℕ} {s : State (Loc k.dim) V {x // x ∈ range}} (ex : Steps n (launch range body m) s) (fin : s.Finished)
    (order : List (Fin k.dim → ℤ)) (nd : order.Nodup) (all : ∀ x, x ∈ order ↔ x ∈ range) :
    s.mem = order.foldl (fun m x => (body x).run m) m ∧ n = ∑ x ∈ range, (body x).len m := by
  have D0 := owned_disjoint (kernels_owned k hk)
  have D : Disjoint (I := {x // x ∈ range}) (fun x => k.reads x.1) (fun x => k.writes x.1) :=
    fun i j ne l hl => D0 i.1 j.1 (fun e => ne (Subtype.ext e)) l hl
  have F : ∀ i : {x // x ∈ range}, Within (k.reads i.1) (k.writes i.1) ((launch range body m).pool i) :=
    fun i => inside i.1 i.2
  constructor
  · let os : List {x // x ∈ range} := order.attach.map fun y => ⟨y.1, (all y.1).mp y.2⟩
    have h1 := finished_loop D F ex fin os
      (by
        refine List.Nodup.map ?_ (List.nodup_attach.mpr nd)
        intro a b e; exact Subtype.ext (Subtype.mk.inj e))
      (by
        intro i
        exact List.mem_map.mpr ⟨⟨i.1, (all i.1).mpr i.2⟩, List.mem_attach _ _, rfl⟩)
    rw [h1]
    show List.foldl _ _ _ = _
    simp only [os, List.foldl_map, launch]
    exact List.foldl_attach (l := order) (f := fun m x => (body x).run m) (b := m)
  · have h2 := steps_left D ex F
    have z : s.left = 0 := Finset.sum_eq_zero fun i _ => by rw [fin i]; rfl
    rw [z, zero_add] at h2
    rw [h2]
    exact Finset.sum_coe_sort range (fun x => (body x).len m)

/-- The same kernels end under every schedule: no state is stuck before all work items have finished, no
execution is longer than the sequential loop, and the loop's result is reached. -/
theorem C100_terminates (k : Kernel) (hk : k ∈ kernels) {V : Type} (range : Finset (Fin k.dim → ℤ))
    (body : (Fin k.dim → ℤ) → Thread (Loc k.dim) V)
    (inside : ∀ x ∈ range, Within (k.reads x) (k.writes x) (body x)) (m : Loc k.dim → V) :
    (∀ n s, Steps n (launch range body m) s → n ≤ ∑ x ∈ range, (body x).len m ∧
      (¬ s.Finished → ∃ s', Step s s')) ∧
    (∃ s, Steps (∑ x ∈ range, (body x).len m) (launch range body m) s ∧ s.Finished) := by
  have D0 := owned_disjoint (kernels_owned k hk)
  have D : Disjoint (I := {x // x ∈ range}) (fun x => k.reads x.1) (fun x => k.writes x.1) :=
    fun i j ne l hl => D0 i.1 j.1 (fun e => ne (Subtype.ext e)) l hl
  have F : ∀ i : {x // x ∈ range}, Within (k.reads i.1) (k.writes i.1) ((launch range body m).pool i) :=
    fun i => inside i.1 i.2
  have tot : (launch range body m).left = ∑ x ∈ range, (body x).len m :=
    Finset.sum_coe_sort range (fun x => (body x).len m)
  refine ⟨fun n s ex => ⟨?_, exists_step⟩, ?_⟩
  · have := steps_left D ex F
    omega
  · exact exists_finish D _ _ tot F

/-! ## One of the bodies: `applyFlux` -/

/-- The kernel of `applyFlux` in the table. -/
def applyFluxK : Kernel := k95

/-- Own index, shifted by one in direction `d`. -/
def up (x : Fin 4 → ℤ) (d : Fin 4) : Fin 4 → ℤ := fun e => if e = d then x e + 1 else x e

/-- The index of a metric array, which has no fourth index. -/
def metric (x : Fin 4 → ℤ) : Fin 4 → ℤ := fun e => if e = 3 then 0 else x e

/-- Body of `applyFlux`, access by access: `src/compute/utils/applyFluxes.cpp:15-24`.  `+=` reads the target, and
writes it after the right-hand side. -/
noncomputable def applyFluxBody (x : Fin 4 → ℤ) : Thread (Loc 4) ℝ :=
  .read ⟨"dQ", x, []⟩ fun dq =>
  .read ⟨"iF", x, []⟩ fun f => .read ⟨"jF", x, []⟩ fun g => .read ⟨"kF", x, []⟩ fun h =>
  .read ⟨"J", metric x, []⟩ fun J =>
  .write ⟨"dQ", x, []⟩ (dq + (f + g + h) / J) <|
  .read ⟨"dQ", x, []⟩ fun dq' =>
  .read ⟨"iF", up x 0, []⟩ fun f' => .read ⟨"jF", up x 1, []⟩ fun g' => .read ⟨"kF", up x 2, []⟩ fun h' =>
  .read ⟨"J", metric x, []⟩ fun J' =>
  .write ⟨"dQ", x, []⟩ (dq' - (f' + g' + h') / J') .done

theorem applyFlux_inside (x : Fin 4 → ℤ) :
    Within (Kernel.reads applyFluxK x) (Kernel.writes applyFluxK x) (applyFluxBody x) := by
  have R : ∀ (a : Access) (l : Loc 4), a ∈ applyFluxK.acc → a.Touches x l → l ∈ Kernel.reads applyFluxK x :=
    fun a l h t => ⟨a, h, t⟩
  have own : (⟨"dQ", [some 0, some 0, some 0, some 0], true⟩ : Access).Touches x ⟨"dQ", x, []⟩ :=
    ⟨rfl, fun d o => by fin_cases d <;> simp <;> rintro rfl <;> simp⟩
  have W : (⟨"dQ", x, []⟩ : Loc 4) ∈ Kernel.writes applyFluxK x := ⟨_, by decide, rfl, own⟩
  have at0 : ∀ s : String, (⟨s, [some 0, some 0, some 0, some 0], false⟩ : Access) ∈ applyFluxK.acc →
      (⟨s, x, []⟩ : Loc 4) ∈ Kernel.reads applyFluxK x := fun s h =>
    R _ _ h ⟨rfl, fun d o => by fin_cases d <;> simp <;> rintro rfl <;> simp⟩
  have J : (⟨"J", metric x, []⟩ : Loc 4) ∈ Kernel.reads applyFluxK x :=
    R ⟨"J", [some 0, some 0, some 0, none], false⟩ _ (by decide)
      ⟨rfl, fun d o => by fin_cases d <;> simp [metric] <;> rintro rfl <;> simp⟩
  refine .read _ _ (R _ _ (by decide) own) fun _ => .read _ _ (at0 "iF" (by decide)) fun _ =>
    .read _ _ (at0 "jF" (by decide)) fun _ => .read _ _ (at0 "kF" (by decide)) fun _ => .read _ _ J fun _ =>
    .write _ _ _ W <| .read _ _ (R _ _ (by decide) own) fun _ => .read _ _ ?_ fun _ => .read _ _ ?_ fun _ =>
    .read _ _ ?_ fun _ => .read _ _ J fun _ => .write _ _ _ W .done
  · exact R ⟨"iF", [some 1, some 0, some 0, some 0], false⟩ _ (by decide)
      ⟨rfl, fun d o => by fin_cases d <;> simp [up] <;> rintro rfl <;> simp⟩
  · exact R ⟨"jF", [some 0, some 1, some 0, some 0], false⟩ _ (by decide)
      ⟨rfl, fun d o => by fin_cases d <;> simp [up] <;> rintro rfl <;> simp⟩
  · exact R ⟨"kF", [some 0, some 0, some 1, some 0], false⟩ _ (by decide)
      ⟨rfl, fun d o => by fin_cases d <;> simp [up] <;> rintro rfl <;> simp⟩

theorem applyFlux_run (x : Fin 4 → ℤ) (m : Loc 4 → ℝ) : (applyFluxBody x).run m ⟨"dQ", x, []⟩ = m ⟨"dQ", x, []⟩
      + (m ⟨"iF", x, []⟩ + m ⟨"jF", x, []⟩ + m ⟨"kF", x, []⟩) / m ⟨"J", metric x, []⟩
      - (m ⟨"iF", up x 0, []⟩ + m ⟨"jF", up x 1, []⟩ + m ⟨"kF", up x 2, []⟩) / m ⟨"J", metric x, []⟩ := by
  simp [applyFluxBody, Thread.run, setMem]

/-- Whatever the schedule, `applyFlux` over a range of cells and variables adds to `dQ` of each of them the net
flux divided by the volume, and changes nothing else. -/
theorem C100_applyFlux (range : Finset (Fin 4 → ℤ)) (m : Loc 4 → ℝ) {n : ℕ}
    {s : State (Loc 4) ℝ {x // x ∈ range}} (ex : Steps n (launch (k := applyFluxK) range applyFluxBody m) s)
    (fin : s.Finished) :
    (∀ x ∈ range, s.mem ⟨"dQ", x, []⟩ = m ⟨"dQ", x, []⟩
      + (m ⟨"iF", x, []⟩ + m ⟨"jF", x, []⟩ + m ⟨"kF", x, []⟩) / m ⟨"J", metric x, []⟩
      - (m ⟨"iF", up x 0, []⟩ + m ⟨"jF", up x 1, []⟩ + m ⟨"kF", up x 2, []⟩) / m ⟨"J", metric x, []⟩) ∧
    (∀ l : Loc 4, (∀ x ∈ range, ¬ (l.arr = "dQ" ∧ l.pos = x)) → s.mem l = m l) := by
  have own : applyFluxK.owned = true := kernels_owned applyFluxK (by simp [kernels, applyFluxK])
  have D0 := owned_disjoint own
  have D : Disjoint (I := {x // x ∈ range}) (fun x => applyFluxK.reads x.1) (fun x => applyFluxK.writes x.1) :=
    fun i j ne l hl => D0 i.1 j.1 (fun e => ne (Subtype.ext e)) l hl
  obtain ⟨r, o⟩ := finished_mem D (fun i => applyFlux_inside i.1) ex fin
  constructor
  · intro x hx
    have W : (⟨"dQ", x, []⟩ : Loc 4) ∈ Kernel.writes applyFluxK x :=
      ⟨⟨"dQ", [some 0, some 0, some 0, some 0], true⟩, by decide, rfl, rfl,
        fun d o => by fin_cases d <;> simp <;> rintro rfl <;> simp⟩
    exact (r ⟨x, hx⟩ _ W).trans (applyFlux_run x m)
  · intro l hl
    refine o l fun i hi => hl i.1 i.2 ?_
    obtain ⟨w, hw, ww, tw⟩ := hi
    refine ⟨?_, owned_pos own hw hw ww rfl tw⟩
    have : ∀ a ∈ applyFluxK.acc, a.write = true → a.arr = "dQ" := by decide
    rw [tw.1]; exact this w hw ww

/-- The hypotheses of the two general theorems are met by this body over a range of two cells. -/
example : ∃ s, Steps (∑ x ∈ ({fun _ => 1, fun _ => 2} : Finset (Fin 4 → ℤ)), (applyFluxBody x).len fun _ => 1)
    (launch (k := applyFluxK) {fun _ => 1, fun _ => 2} applyFluxBody fun _ => 1) s ∧ s.Finished :=
  (C100_terminates applyFluxK (by simp [kernels, applyFluxK]) _ applyFluxBody (fun x _ => applyFlux_inside x) _).2

/-! ## A kernel that is not in the table -/

/-- Body of a kernel that copies its left neighbour in place (no kernel of the code does this): work item `x` does
`q(x) = q(x - 1)`. -/
def shiftBody (x : ℤ) : Thread ℤ ℤ := .read (x - 1) fun v => .write x v .done

/-- The ownership hypothesis is needed: for such a kernel two schedules end in different memories. -/
theorem C100_shared_write_differs : ∃ (s₁ s₂ : State ℤ ℤ (Fin 2)),
    Steps 4 ⟨fun l => l, fun i => shiftBody (i.1 + 1)⟩ s₁ ∧ s₁.Finished ∧
    Steps 4 ⟨fun l => l, fun i => shiftBody (i.1 + 1)⟩ s₂ ∧ s₂.Finished ∧ s₁.mem 2 ≠ s₂.mem 2 := by
  refine ⟨_, _, .step (.read _ _ 0 0 (fun v => .write 1 v .done) rfl) <| .step (.write _ _ 0 1 0 .done rfl) <|
      .step (.read _ _ 1 1 (fun v => .write 2 v .done) rfl) <| .step (.write _ _ 1 2 0 .done rfl) (.refl _), ?_,
    .step (.read _ _ 1 1 (fun v => .write 2 v .done) rfl) <| .step (.write _ _ 1 2 1 .done rfl) <|
      .step (.read _ _ 0 0 (fun v => .write 1 v .done) rfl) <| .step (.write _ _ 0 1 0 .done rfl) (.refl _), ?_, ?_⟩
  · intro i; fin_cases i <;> rfl
  · intro i; fin_cases i <;> rfl
  · decide

end PG.Par
