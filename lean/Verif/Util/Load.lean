import Mathlib.Data.Int.Basic
import Mathlib.Data.Rat.Defs
import Mathlib.Algebra.Order.Field.Rat
import Mathlib.Algebra.Order.Field.Basic
import Mathlib.Algebra.BigOperators.Group.List.Basic
import Mathlib.Algebra.Order.BigOperators.Group.List
import Mathlib.Tactic.Ring
import Mathlib.Tactic.Linarith
import Mathlib.Tactic.Positivity
import Mathlib.Tactic.FieldSimp
/-!
C114: number of cells and load efficiency printed at the start of a run.
-/
namespace PG.Util.Load

/-! ### model -/

/-- a block: numbers of nodes -/
structure Blk where
  ni : ℕ
  nj : ℕ
  nk : ℕ

/-- value kept by an `np.int32` element: addition wraps around, mpiUtils.py:16, 28 -/
def int32 (x : ℤ) : ℤ := Int.bmod x (2 ^ 32)

/-- `(blk.ni - 1) * (blk.nj - 1) * (blk.nk - 1)`, a Python integer, mpiUtils.py:18, 30 -/
def blkCells (b : Blk) : ℤ := ((b.ni : ℤ) - 1) * ((b.nj : ℤ) - 1) * ((b.nk : ℤ) - 1)

/-- the sum over the blocks of a rank, mpiUtils.py:16-18, 28-30 -/
def rankCells (bs : List Blk) : ℤ := bs.foldl (fun a b => int32 (a + blkCells b)) 0

/-- the order in which MPI combines the values of the ranks is not specified -/
inductive Tree
  | leaf (r : ℕ)
  | node (a b : Tree)

/-- ranks of a tree, from left to right -/
def Tree.ranks : Tree → List ℕ
  | .leaf r => [r]
  | .node a b => a.ranks ++ b.ranks

/-- reduction with addition of 32-bit integers -/
def Tree.sum (v : ℕ → ℤ) : Tree → ℤ
  | .leaf r => v r
  | .node a b => int32 (a.sum v + b.sum v)

/-- getNumCells, mpiUtils.py:13-22: the value on every rank after Allreduce -/
def numCells (world : List (List Blk)) (t : Tree) : ℤ := t.sum fun r => rankCells (world.getD r [])

/-- `np.argmax`: the first index of the largest element, as (index, value) over the elements seen so far -/
def argmaxFrom : List ℤ → ℕ → ℕ × ℤ → ℕ × ℤ
  | [], _, best => best
  | x :: xs, n, best => argmaxFrom xs (n + 1) (if best.2 < x then (n, x) else best)

/-- getLoadEfficiency on rank 0, mpiUtils.py:25-47: `np.mean / np.max * 100` and `np.argmax` of the gathered values (`np.mean` of
    32-bit integers is formed with double precision numbers, here exactly); an empty world does not occur -/
def loadEfficiency (world : List (List Blk)) : Option (ℚ × ℕ) :=
  match world.map rankCells with
  | [] => none
  | x :: xs =>
    let b := argmaxFrom xs 1 (0, x)
    some ((((x :: xs).map fun v : ℤ => (v : ℚ)).sum / ((x :: xs).length : ℚ)) / (b.2 : ℚ) * 100, b.1)

/-! ### specification -/

/-- cells of a block: one less than the nodes in each direction -/
def cellsOf (b : Blk) : ℕ := (b.ni - 1) * (b.nj - 1) * (b.nk - 1)

/-- cells of a rank -/
def cellsOn (bs : List Blk) : ℕ := (bs.map cellsOf).sum

/-- cells of the grid -/
def total (world : List (List Blk)) : ℕ := (world.map cellsOn).sum

/-- every block has at least one node in each direction -/
def Proper (world : List (List Blk)) : Prop := ∀ bs ∈ world, ∀ b ∈ bs, 1 ≤ b.ni ∧ 1 ≤ b.nj ∧ 1 ≤ b.nk

/-! ### proofs -/

theorem int32_add_left (x y : ℤ) : int32 (int32 x + y) = int32 (x + y) := by
  unfold int32; exact Int.bmod_add_bmod

theorem int32_add_right (x y : ℤ) : int32 (x + int32 y) = int32 (x + y) := by
  unfold int32; exact Int.add_bmod_bmod

theorem int32_id {x : ℤ} : int32 x = x ↔ -2 ^ 31 ≤ x ∧ x < 2 ^ 31 := by
  unfold int32
  constructor
  · intro h
    have h1 := Int.le_bmod (x := x) (m := 2 ^ 32) (by decide)
    have h2 := Int.bmod_lt (x := x) (m := 2 ^ 32) (by decide)
    rw [h] at h1 h2
    omega
  · intro h
    rw [Int.bmod_def]
    omega

theorem blkCells_eq {b : Blk} (h : 1 ≤ b.ni ∧ 1 ≤ b.nj ∧ 1 ≤ b.nk) : blkCells b = (cellsOf b : ℤ) := by
  unfold blkCells cellsOf
  push_cast [Nat.cast_sub h.1, Nat.cast_sub h.2.1, Nat.cast_sub h.2.2]
  ring

theorem rankCells_eq {bs : List Blk} (h : ∀ b ∈ bs, 1 ≤ b.ni ∧ 1 ≤ b.nj ∧ 1 ≤ b.nk) : rankCells bs = int32 (cellsOn bs) := by
  have key : ∀ (l : List Blk) (a : ℤ), (∀ b ∈ l, 1 ≤ b.ni ∧ 1 ≤ b.nj ∧ 1 ≤ b.nk) → int32 a = a →
      l.foldl (fun a b => int32 (a + blkCells b)) a = int32 (a + (cellsOn l : ℤ)) := by
    intro l
    induction l with
    | nil => intro a _ ha; simp [cellsOn, ha]
    | cons b l ih =>
      intro a hl ha
      rw [List.foldl_cons, ih _ (fun x hx => hl x (List.mem_cons_of_mem _ hx))]
      · rw [int32_add_left, blkCells_eq (hl b (List.mem_cons_self ..))]
        simp only [cellsOn, List.map_cons, List.sum_cons]
        push_cast
        rw [add_assoc]
      · unfold int32; exact Int.bmod_bmod
  have := key bs 0 h (by decide)
  simpa [rankCells] using this

theorem tree_eq (v w : ℕ → ℤ) : ∀ t : Tree, (∀ r ∈ t.ranks, v r = int32 (w r)) → t.sum v = int32 ((t.ranks.map w).sum)
  | .leaf r, h => by simpa [Tree.sum, Tree.ranks] using h r (by simp [Tree.ranks])
  | .node a b, h => by
    rw [Tree.sum, tree_eq v w a fun r hr => h r (by simp [Tree.ranks, hr]), tree_eq v w b fun r hr => h r (by simp [Tree.ranks, hr])]
    rw [int32_add_left, int32_add_right]
    simp [Tree.ranks]

theorem cast_total (l : List (List Blk)) : (l.map fun bs => (cellsOn bs : ℤ)).sum = ((l.map cellsOn).sum : ℕ) := by
  induction l with
  | nil => rfl
  | cons x l ih => simp only [List.map_cons, List.sum_cons, ih]; push_cast; rfl

theorem perm_total (world : List (List Blk)) (t : Tree) (ht : t.ranks.Perm (List.range world.length)) :
    (t.ranks.map fun r => (cellsOn (world.getD r []) : ℤ)).sum = (total world : ℤ) := by
  rw [(ht.map _).sum_eq]
  have : (List.range world.length).map (fun r => (cellsOn (world.getD r []) : ℤ)) = world.map fun bs => (cellsOn bs : ℤ) := by
    apply List.ext_getElem
    · simp
    · intro n h1 h2
      simp at h1
      simp [List.getD, h1]
  rw [this, total]
  exact cast_total world

theorem numCells_eq (world : List (List Blk)) (hp : Proper world) (t : Tree) (ht : t.ranks.Perm (List.range world.length)) :
    numCells world t = int32 (total world) := by
  rw [numCells, tree_eq _ (fun r => (cellsOn (world.getD r []) : ℤ)) t, perm_total world t ht]
  intro r hr
  have hr : r < world.length := by simpa using ht.mem_iff.1 hr
  refine rankCells_eq (hp _ ?_)
  simp [List.getD, hr]

/-- C114: the number of cells reported is the number of cells of the grid, whatever the distribution of the blocks and the order in which
    MPI adds, exactly when the grid has fewer than 2^31 cells: the counters are 32-bit integers. -/
theorem C114_total_partial (world : List (List Blk)) (hp : Proper world) (t : Tree) (ht : t.ranks.Perm (List.range world.length)) :
    numCells world t = (total world : ℤ) ↔ total world < 2 ^ 31 := by
  rw [numCells_eq world hp t ht, int32_id]
  omega

/-- C114 fails: for a grid of 2^31 to 2^32 - 1 cells a negative number of cells is reported. -/
theorem C114_total_violated (world : List (List Blk)) (hp : Proper world) (t : Tree) (ht : t.ranks.Perm (List.range world.length))
    (h1 : 2 ^ 31 ≤ total world) (h2 : total world < 2 ^ 32) : numCells world t < 0 := by
  rw [numCells_eq world hp t ht]
  unfold int32
  rw [Int.bmod_def]
  omega

theorem argmax_spec : ∀ (xs : List ℤ) (all : List ℤ) (n : ℕ) (best : ℕ × ℤ), all.drop n = xs → best.1 < n → n ≤ all.length →
    all[best.1]? = some best.2 → (∀ m < n, ∀ x, all[m]? = some x → x ≤ best.2 ∧ (m < best.1 → x < best.2)) →
    all[(argmaxFrom xs n best).1]? = some (argmaxFrom xs n best).2 ∧
      ∀ m x, all[m]? = some x → x ≤ (argmaxFrom xs n best).2 ∧ (m < (argmaxFrom xs n best).1 → x < (argmaxFrom xs n best).2) := by
  intro xs
  induction xs with
  | nil =>
    intro all n best hd hb hn hg hm
    refine ⟨hg, fun m x hx => hm m ?_ x hx⟩
    have hl : all.length ≤ n := by simpa using hd
    have : m < all.length := by
      by_contra hc
      rw [List.getElem?_eq_none (by omega)] at hx
      exact absurd hx (by simp)
    omega
  | cons y ys ih =>
    intro all n best hd hb hn hg hm
    have hlt : n < all.length := by
      by_contra hc
      rw [List.drop_eq_nil_of_le (by omega)] at hd
      exact absurd hd (by simp)
    have hy : all[n]? = some y := by
      have := congrArg (fun l => l[0]?) hd
      simpa using this
    have hd' : all.drop (n + 1) = ys := by
      have := congrArg List.tail hd
      simpa using this
    rw [argmaxFrom]
    split
    case isTrue hlt2 =>
      refine ih all (n + 1) (n, y) hd' (by simp) (by omega) hy ?_
      intro m hm' x hx
      rcases Nat.lt_succ_iff_lt_or_eq.1 hm' with h | rfl
      · have := (hm m h x hx).1
        exact ⟨by dsimp only; omega, fun _ => by dsimp only; omega⟩
      · rw [hy] at hx; cases hx
        exact ⟨le_refl _, fun h => absurd h (lt_irrefl _)⟩
    case isFalse hge =>
      refine ih all (n + 1) best hd' (by omega) (by omega) hg ?_
      intro m hm' x hx
      rcases Nat.lt_succ_iff_lt_or_eq.1 hm' with h | rfl
      · exact hm m h x hx
      · rw [hy] at hx; cases hx
        exact ⟨by omega, fun h => by omega⟩

/-- C114 (load): when every rank has fewer than 2^31 cells and some rank has a cell, the efficiency reported is 100 times the average number
    of cells of a rank over the largest, it lies between 0 and 100 and is 100 exactly when all ranks have equally many; the rank
    reported has the most cells, and no rank before it has as many. -/
theorem C114_load_partial (world : List (List Blk)) (hp : Proper world) (hs : ∀ bs ∈ world, cellsOn bs < 2 ^ 31)
    (hc : 0 < total world) : ∃ e p, loadEfficiency world = some (e, p) ∧ ∃ big, world[p]? = some big ∧
      (∀ bs ∈ world, cellsOn bs ≤ cellsOn big) ∧ (∀ m < p, ∀ bs, world[m]? = some bs → cellsOn bs < cellsOn big) ∧
      e = 100 * ((total world : ℚ) / world.length) / cellsOn big ∧ 0 < e ∧ e ≤ 100 ∧
      (e = 100 ↔ ∀ bs ∈ world, ∀ bs' ∈ world, cellsOn bs = cellsOn bs') := by
  have hmap : world.map rankCells = world.map fun bs => (cellsOn bs : ℤ) := by
    apply List.map_congr_left
    intro bs hb
    rw [rankCells_eq (hp bs hb), int32_id]
    have := hs bs hb
    omega
  cases hw : world with
  | nil => rw [hw] at hc; simp [total] at hc
  | cons w ws =>
    rw [← hw]
    have hl : (world.map fun bs => (cellsOn bs : ℤ)) = (cellsOn w : ℤ) :: ws.map fun bs => (cellsOn bs : ℤ) := by rw [hw]; rfl
    have hA := argmax_spec (ws.map fun bs => (cellsOn bs : ℤ)) (world.map fun bs => (cellsOn bs : ℤ)) 1 (0, (cellsOn w : ℤ))
      (by rw [hl]; rfl) (by simp) (by rw [hl]; simp) (by rw [hl]; rfl) (by
        intro m hm x hx
        obtain rfl : m = 0 := by omega
        rw [hl] at hx
        simp only [List.getElem?_cons_zero, Option.some.injEq] at hx
        subst hx
        exact ⟨le_refl _, fun h => absurd h (by simp)⟩)
    obtain ⟨a1, a2⟩ := hA
    generalize hA : argmaxFrom (ws.map fun bs => (cellsOn bs : ℤ)) 1 (0, (cellsOn w : ℤ)) = B at *
    obtain ⟨p, v⟩ := B
    simp only at a1 a2
    rw [List.getElem?_map, Option.map_eq_some_iff] at a1
    obtain ⟨big, b1, b2⟩ := a1
    have le_big : ∀ bs ∈ world, cellsOn bs ≤ cellsOn big := by
      intro bs hb
      obtain ⟨m, hm, rfl⟩ := List.getElem_of_mem hb
      have := (a2 m (cellsOn world[m]) (by simp [hm])).1
      omega
    have len0 : 0 < world.length := by rw [hw]; simp
    have big0 : 0 < cellsOn big := by
      by_contra h0
      have : total world = 0 := by
        rw [total, List.sum_eq_zero_iff]
        intro x hx
        obtain ⟨bs, hb, rfl⟩ := List.mem_map.1 hx
        have := le_big bs hb
        omega
      omega
    have tot_le : total world ≤ world.length * cellsOn big := by
      have : ∀ l : List (List Blk), (∀ bs ∈ l, cellsOn bs ≤ cellsOn big) → total l ≤ l.length * cellsOn big := by
        intro l
        induction l with
        | nil => simp [total]
        | cons x l ih =>
          intro h
          have h1 := ih fun bs hb => h bs (List.mem_cons_of_mem _ hb)
          have h2 := h x (List.mem_cons_self ..)
          simp only [total, List.map_cons, List.sum_cons, List.length_cons] at h1 ⊢
          rw [Nat.add_mul]
          omega
      exact this _ le_big
    have tot_eq : total world = world.length * cellsOn big ↔ ∀ bs ∈ world, cellsOn bs = cellsOn big := by
      have : ∀ l : List (List Blk), (∀ bs ∈ l, cellsOn bs ≤ cellsOn big) →
          total l ≤ l.length * cellsOn big ∧ (total l = l.length * cellsOn big ↔ ∀ bs ∈ l, cellsOn bs = cellsOn big) := by
        intro l
        induction l with
        | nil => simp [total]
        | cons x l ih =>
          intro h
          obtain ⟨h1, h3⟩ := ih fun bs hb => h bs (List.mem_cons_of_mem _ hb)
          have h2 := h x (List.mem_cons_self ..)
          simp only [List.forall_mem_cons, ← h3]
          simp only [total, List.map_cons, List.sum_cons, List.length_cons] at h1 ⊢
          rw [Nat.add_mul]
          omega
      exact (this _ le_big).2
    have hcast : ((world.map fun bs => (cellsOn bs : ℤ)).map fun x : ℤ => (x : ℚ)).sum = (total world : ℚ) := by
      have : ∀ l : List (List Blk), ((l.map fun bs => (cellsOn bs : ℤ)).map fun x : ℤ => (x : ℚ)).sum = (((l.map cellsOn).sum : ℕ) : ℚ) := by
        intro l
        induction l with
        | nil => simp
        | cons x l ih => simp only [List.map_cons, List.sum_cons, ih]; push_cast; rfl
      exact this world
    have L0 : (0 : ℚ) < world.length := by exact_mod_cast len0
    have B0 : (0 : ℚ) < cellsOn big := by exact_mod_cast big0
    have T0 : (0 : ℚ) < total world := by exact_mod_cast hc
    refine ⟨100 * ((total world : ℚ) / world.length) / cellsOn big, p, ?_, big, b1, le_big, ?_, rfl, by positivity, ?_, ?_⟩
    · unfold loadEfficiency
      rw [hmap, hl]
      simp only [hA]
      rw [← hl, hcast, ← b2]
      simp only [List.length_map, Int.cast_natCast, Option.some.injEq, Prod.mk.injEq, and_true]
      ring
    · intro m hm bs hb
      have := (a2 m (cellsOn bs) (by simp [hb])).2 hm
      omega
    · rw [mul_div_assoc, div_div]
      have : (total world : ℚ) / (world.length * cellsOn big) ≤ 1 := by
        rw [div_le_one (by positivity)]
        exact_mod_cast tot_le
      linarith
    · have : 100 * ((total world : ℚ) / world.length) / cellsOn big = 100 ↔ total world = world.length * cellsOn big := by
        rw [mul_div_assoc, div_div, mul_eq_left₀ (by norm_num), div_eq_one_iff_eq (by positivity)]
        exact_mod_cast Iff.rfl
      rw [this, tot_eq]
      constructor
      · intro h bs hb bs' hb'; rw [h bs hb, h bs' hb']
      · intro h bs hb
        exact h bs hb big (List.mem_of_getElem? b1)

/-- C114 fails for the load too: a rank with 2^31 cells counts as having a negative number. Beside a rank with one cell, that rank is
    reported as the slowest, with a negative efficiency. -/
theorem C114_load_violated : ∃ world e, Proper world ∧ (∀ bs, world[0]? = some bs → cellsOn bs = 2 ^ 31) ∧
    (∀ bs, world[1]? = some bs → cellsOn bs = 1) ∧ loadEfficiency world = some (e, 1) ∧ e < 0 := by
  refine ⟨[[⟨1025, 1025, 2049⟩], [⟨2, 2, 2⟩]], 100 * (-2147483647 / 2), ?_, ?_, ?_, ?_, by norm_num⟩
  · intro bs hb b hb'
    simp only [List.mem_cons, List.not_mem_nil, or_false] at hb
    rcases hb with rfl | rfl <;> simp only [List.mem_cons, List.not_mem_nil, or_false] at hb' <;> subst hb' <;> simp
  · intro bs h; simp at h; subst h; simp [cellsOn, cellsOf]
  · intro bs h; simp at h; subst h; simp [cellsOn, cellsOf]
  · decide +kernel

/-! ### the hypotheses can be met -/

/-- two ranks, three blocks -/
example : numCells [[⟨11, 11, 11⟩, ⟨3, 3, 3⟩], [⟨5, 6, 7⟩]] (.node (.leaf 1) (.leaf 0)) = 1128 := by decide

example : Proper [[⟨11, 11, 11⟩, ⟨3, 3, 3⟩], [⟨5, 6, 7⟩]] := by
  intro bs hb b hb'
  simp only [List.mem_cons, List.not_mem_nil, or_false] at hb
  rcases hb with rfl | rfl <;> simp only [List.mem_cons, List.not_mem_nil, or_false] at hb'
  · rcases hb' with rfl | rfl <;> simp
  · subst hb'; simp

/-- the world of two ranks satisfies the hypotheses of C114_load_partial -/
example : (∀ bs ∈ [[(⟨11, 11, 11⟩ : Blk), ⟨3, 3, 3⟩], [⟨5, 6, 7⟩]], cellsOn bs < 2 ^ 31) ∧
    0 < total [[⟨11, 11, 11⟩, ⟨3, 3, 3⟩], [⟨5, 6, 7⟩]] := by decide

/-- eight ranks of 2^28 cells each: 2147483648 cells are reported as -2147483648 -/
example : total (List.replicate 8 [⟨1025, 513, 513⟩]) = 2 ^ 31 := by decide +kernel

end PG.Util.Load
