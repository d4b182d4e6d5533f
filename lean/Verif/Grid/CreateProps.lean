import Verif.Grid.Create
import Mathlib.Tactic.NormNum
import Mathlib.Tactic.Positivity
/-!
C41, C42, C43: theorems on generated cartesian grids.
-/
namespace PG.Grid
open PG

/-! ### C41: connectivity -/

theorem low_mod {x m : ℤ} (h0 : 0 ≤ x) (h1 : x < m) : (x - 1) % m = if x = 0 then m - 1 else x - 1 := by
  split_ifs with h
  · subst h
    rw [show (0 - 1 : ℤ) = (m - 1) - m by ring, Int.sub_emod_right]
    exact Int.emod_eq_of_lt (by omega) (by omega)
  · exact Int.emod_eq_of_lt (by omega) (by omega)

theorem high_mod {x m : ℤ} (h0 : 0 ≤ x) (h1 : x < m) : (x + 1) % m = if x = m - 1 then 0 else x + 1 := by
  split_ifs with h
  · subst h; simp
  · exact Int.emod_eq_of_lt (by omega) (by omega)

theorem across_inGrid {m : Dims3} {p : Pos} (hp : InGrid m p) (f : ℕ) : InGrid m (across m p f) := by
  obtain ⟨⟨a0, a1⟩, ⟨b0, b1⟩, c0, c1⟩ := hp
  have ha : (0:ℤ) < m.a := by omega
  have hb : (0:ℤ) < m.b := by omega
  have hc : (0:ℤ) < m.c := by omega
  unfold across
  split
  · exact ⟨⟨Int.emod_nonneg _ ha.ne', Int.emod_lt_of_pos _ ha⟩, ⟨b0, b1⟩, c0, c1⟩
  · exact ⟨⟨Int.emod_nonneg _ ha.ne', Int.emod_lt_of_pos _ ha⟩, ⟨b0, b1⟩, c0, c1⟩
  · exact ⟨⟨a0, a1⟩, ⟨Int.emod_nonneg _ hb.ne', Int.emod_lt_of_pos _ hb⟩, c0, c1⟩
  · exact ⟨⟨a0, a1⟩, ⟨Int.emod_nonneg _ hb.ne', Int.emod_lt_of_pos _ hb⟩, c0, c1⟩
  · exact ⟨⟨a0, a1⟩, ⟨b0, b1⟩, Int.emod_nonneg _ hc.ne', Int.emod_lt_of_pos _ hc⟩
  · exact ⟨⟨a0, a1⟩, ⟨b0, b1⟩, Int.emod_nonneg _ hc.ne', Int.emod_lt_of_pos _ hc⟩
  · exact ⟨⟨a0, a1⟩, ⟨b0, b1⟩, c0, c1⟩

/-- one face: what it holds -/
theorem face_eq (m : Dims3) (per : Bool × Bool × Bool) (p : Pos) (hp : InGrid m p) (f : ℕ) (hf : 1 ≤ f ∧ f ≤ 6) :
    ((Outer m p f ∧ PeriodicDir per f = false) → cubicConnectivity m per p f = ⟨"adiabaticNoSlipWall", none, none⟩) ∧
    ((Outer m p f ∧ PeriodicDir per f = true) →
      cubicConnectivity m per p f = ⟨periodicName f, some (blkNum m (across m p f)), some "123"⟩) ∧
    (¬ Outer m p f → cubicConnectivity m per p f = ⟨"b0", some (blkNum m (across m p f)), some "123"⟩) := by
  obtain ⟨⟨a0, a1⟩, ⟨b0, b1⟩, c0, c1⟩ := hp
  obtain ⟨h1, h6⟩ := hf
  interval_cases f
  · simp only [Outer, PeriodicDir, cubicConnectivity, lowFace, across, periodicName, blkNum, low_mod a0 a1]
    refine ⟨fun h => by simp [h.1, h.2], fun h => ?_, fun h => ?_⟩
    · rw [if_pos h.1, if_pos h.1, if_pos h.2]; congr 2; rw [h.1]; ring
    · rw [if_neg h, if_neg h]; congr 2; ring
  · simp only [Outer, PeriodicDir, cubicConnectivity, highFace, across, periodicName, blkNum, high_mod a0 a1]
    refine ⟨fun h => by simp [h.1, h.2], fun h => ?_, fun h => ?_⟩
    · rw [if_pos h.1, if_pos h.1, if_pos h.2]; congr 2; rw [h.1]; ring
    · rw [if_neg h, if_neg h]; congr 2; ring
  · simp only [Outer, PeriodicDir, cubicConnectivity, lowFace, across, periodicName, blkNum, low_mod b0 b1]
    refine ⟨fun h => by simp [h.1, h.2], fun h => ?_, fun h => ?_⟩
    · rw [if_pos h.1, if_pos h.1, if_pos h.2]; congr 2; rw [h.1]; ring
    · rw [if_neg h, if_neg h]; congr 2; ring
  · simp only [Outer, PeriodicDir, cubicConnectivity, highFace, across, periodicName, blkNum, high_mod b0 b1]
    refine ⟨fun h => by simp [h.1, h.2], fun h => ?_, fun h => ?_⟩
    · rw [if_pos h.1, if_pos h.1, if_pos h.2]; congr 2; rw [h.1]; ring
    · rw [if_neg h, if_neg h]; congr 2; ring
  · simp only [Outer, PeriodicDir, cubicConnectivity, lowFace, across, periodicName, blkNum, low_mod c0 c1]
    refine ⟨fun h => by simp [h.1, h.2], fun h => ?_, fun h => ?_⟩
    · rw [if_pos h.1, if_pos h.1, if_pos h.2]; congr 2; rw [h.1]; ring
    · rw [if_neg h, if_neg h]; congr 2; ring
  · simp only [Outer, PeriodicDir, cubicConnectivity, highFace, across, periodicName, blkNum, high_mod c0 c1]
    refine ⟨fun h => by simp [h.1, h.2], fun h => ?_, fun h => ?_⟩
    · rw [if_pos h.1, if_pos h.1, if_pos h.2]; congr 2; rw [h.1]; ring
    · rw [if_neg h, if_neg h]; congr 2; ring

/-- crossing back through the opposite face returns, and both faces are outer or both are not -/
theorem across_back {m : Dims3} {p : Pos} (hp : InGrid m p) (f : ℕ) (hf : 1 ≤ f ∧ f ≤ 6) :
    across m (across m p f) (opposite f) = p ∧ (Outer m (across m p f) (opposite f) ↔ Outer m p f) ∧
    (1 ≤ opposite f ∧ opposite f ≤ 6) ∧ opposite (opposite f) = f := by
  have hq := across_inGrid hp f
  obtain ⟨⟨a0, a1⟩, ⟨b0, b1⟩, c0, c1⟩ := hp
  obtain ⟨h1, h6⟩ := hf
  obtain ⟨i, j, k⟩ := p
  dsimp only at a0 a1 b0 b1 c0 c1
  interval_cases f
  all_goals
    obtain ⟨⟨a0', a1'⟩, ⟨b0', b1'⟩, c0', c1'⟩ := hq
    simp only [across, opposite, Outer, Pos.mk.injEq, true_and, and_true] at *
  · rw [high_mod a0' a1', low_mod a0 a1]; refine ⟨?_, ?_, by omega⟩ <;> split_ifs <;> omega
  · rw [low_mod a0' a1', high_mod a0 a1]; refine ⟨?_, ?_, by omega⟩ <;> split_ifs <;> omega
  · rw [high_mod b0' b1', low_mod b0 b1]; refine ⟨?_, ?_, by omega⟩ <;> split_ifs <;> omega
  · rw [low_mod b0' b1', high_mod b0 b1]; refine ⟨?_, ?_, by omega⟩ <;> split_ifs <;> omega
  · rw [high_mod c0' c1', low_mod c0 c1]; refine ⟨?_, ?_, by omega⟩ <;> split_ifs <;> omega
  · rw [low_mod c0' c1', high_mod c0 c1]; refine ⟨?_, ?_, by omega⟩ <;> split_ifs <;> omega

/-- C41: in a generated grid of blocks of any dimensions and any choice of periodic directions, an outer face of a direction that
    is not periodic is a wall without neighbour. Every other face names the block next to it (wrapping around), oriented
    "123"; that block's face opposite to it - the one the solver derives from the orientation - names this block back, with the
    same orientation; both are interior connections, or a low and a high periodic face. -/
theorem C41_reciprocal (m : Dims3) (per : Bool × Bool × Bool) (p : Pos) (hp : InGrid m p) (f : ℕ) (hf : 1 ≤ f ∧ f ≤ 6) :
    ((Outer m p f ∧ PeriodicDir per f = false) → cubicConnectivity m per p f = ⟨"adiabaticNoSlipWall", none, none⟩) ∧
    (¬ (Outer m p f ∧ PeriodicDir per f = false) →
      Topo.neighborNface f ⟨1, 2, 3⟩ = some (opposite f) ∧ InGrid m (across m p f) ∧
      (cubicConnectivity m per p f).neighbor = some (blkNum m (across m p f)) ∧
      (cubicConnectivity m per (across m p f) (opposite f)).neighbor = some (blkNum m p) ∧
      (cubicConnectivity m per p f).orientation = some "123" ∧
      (cubicConnectivity m per (across m p f) (opposite f)).orientation = some "123" ∧
      (¬ Outer m p f → (cubicConnectivity m per p f).bcType = "b0" ∧
        (cubicConnectivity m per (across m p f) (opposite f)).bcType = "b0") ∧
      (Outer m p f → (cubicConnectivity m per p f).bcType = periodicName f ∧
        (cubicConnectivity m per (across m p f) (opposite f)).bcType = periodicName (opposite f))) := by
  obtain ⟨w1, w2, w3⟩ := face_eq m per p hp f hf
  refine ⟨w1, fun hn => ?_⟩
  have hq := across_inGrid hp f
  obtain ⟨hb, ho, hf', -⟩ := across_back hp f hf
  obtain ⟨-, v2, v3⟩ := face_eq m per (across m p f) hq (opposite f) hf'
  have hpd : PeriodicDir per (opposite f) = PeriodicDir per f := by
    obtain ⟨h1, h6⟩ := hf
    interval_cases f <;> rfl
  have hnf : Topo.neighborNface f ⟨1, 2, 3⟩ = some (opposite f) := by
    obtain ⟨h1, h6⟩ := hf
    interval_cases f <;> rfl
  refine ⟨hnf, hq, ?_⟩
  by_cases h : Outer m p f
  · have hper : PeriodicDir per f = true := by
      cases hx : PeriodicDir per f
      · exact absurd ⟨h, hx⟩ hn
      · rfl
    rw [w2 ⟨h, hper⟩, v2 ⟨ho.2 h, by rw [hpd, hper]⟩, hb]
    exact ⟨rfl, rfl, rfl, rfl, fun e => absurd h e, fun _ => ⟨rfl, rfl⟩⟩
  · rw [w3 h, v3 (fun e => h (ho.1 e)), hb]
    exact ⟨rfl, rfl, rfl, rfl, fun _ => ⟨rfl, rfl⟩, fun e => absurd e h⟩

/-- a 3×1×2 grid periodic in i and j: block (0,0,1), its low i face wraps to block (2,0,1), its j faces to itself -/
example : InGrid ⟨3, 1, 2⟩ ⟨0, 0, 1⟩ ∧
    cubicConnectivity ⟨3, 1, 2⟩ (true, true, false) ⟨0, 0, 1⟩ 1 = ⟨"periodicTransLow", some 5, some "123"⟩ ∧
    cubicConnectivity ⟨3, 1, 2⟩ (true, true, false) ⟨0, 0, 1⟩ 4 = ⟨"periodicTransHigh", some 3, some "123"⟩ ∧
    cubicConnectivity ⟨3, 1, 2⟩ (true, true, false) ⟨0, 0, 1⟩ 5 = ⟨"b0", some 0, some "123"⟩ ∧
    cubicConnectivity ⟨3, 1, 2⟩ (true, true, false) ⟨0, 0, 1⟩ 6 = ⟨"adiabaticNoSlipWall", none, none⟩ :=
  ⟨by simp [InGrid], rfl, rfl, rfl, rfl⟩

/-! ### C42: numbering and tiling -/

/-- C42 (numbering): block numbers are a bijection between positions and 0..(number of blocks − 1) -/
theorem C42_numbering (m : Dims3) :
    (∀ p, InGrid m p → 0 ≤ blkNum m p ∧ blkNum m p < m.a * m.b * m.c) ∧
    (∀ p q, InGrid m p → InGrid m q → blkNum m p = blkNum m q → p = q) ∧
    (0 < m.a → 0 < m.b → 0 < m.c → ∀ n, 0 ≤ n → n < m.a * m.b * m.c → ∃ p, InGrid m p ∧ blkNum m p = n) := by
  have num : ∀ p, blkNum m p = (p.k * m.b + p.j) * m.a + p.i := fun p => by unfold blkNum; ring
  refine ⟨?_, ?_, ?_⟩
  · rintro ⟨i, j, k⟩ ⟨⟨a0, a1⟩, ⟨b0, b1⟩, c0, c1⟩
    dsimp only at *
    rw [num]
    dsimp only
    have hb : 0 ≤ k * m.b + j := by nlinarith
    have hb' : k * m.b + j ≤ m.b * m.c - 1 := by nlinarith
    constructor
    · nlinarith
    · nlinarith
  · rintro ⟨i, j, k⟩ ⟨i', j', k'⟩ ⟨⟨a0, a1⟩, ⟨b0, b1⟩, c0, c1⟩ ⟨⟨a0', a1'⟩, ⟨b0', b1'⟩, c0', c1'⟩ h
    rw [num, num] at h
    dsimp only at *
    have hi : i = i' := by
      have := congrArg (· % m.a) h
      simp only [Int.mul_add_emod_self_right] at this
      rwa [Int.emod_eq_of_lt a0 a1, Int.emod_eq_of_lt a0' a1'] at this
    subst hi
    have h2 : k * m.b + j = k' * m.b + j' := by
      have : (k * m.b + j) * m.a = (k' * m.b + j') * m.a := by linarith
      exact mul_right_cancel₀ (by omega) this
    have hj : j = j' := by
      have := congrArg (· % m.b) h2
      simp only [Int.mul_add_emod_self_right] at this
      rwa [Int.emod_eq_of_lt b0 b1, Int.emod_eq_of_lt b0' b1'] at this
    subst hj
    have hk : k = k' := mul_right_cancel₀ (show m.b ≠ 0 by omega) (by linarith)
    subst hk; rfl
  · intro ha hb hc n h0 h1
    refine ⟨⟨n % m.a, n / m.a % m.b, n / m.a / m.b⟩, ⟨⟨?_, ?_⟩, ⟨?_, ?_⟩, ?_, ?_⟩, ?_⟩
    · exact Int.emod_nonneg _ ha.ne'
    · exact Int.emod_lt_of_pos _ ha
    · exact Int.emod_nonneg _ hb.ne'
    · exact Int.emod_lt_of_pos _ hb
    · exact Int.ediv_nonneg (Int.ediv_nonneg h0 ha.le) hb.le
    · dsimp only
      rw [Int.ediv_lt_iff_lt_mul hb, Int.ediv_lt_iff_lt_mul ha]; nlinarith
    · rw [num]
      dsimp only
      rw [Int.ediv_mul_add_emod, Int.ediv_mul_add_emod]

/-- one direction: node `t` of block `i` is node `i (n-1) + t` of one uniform line of `m (n-1)` cells -/
theorem line (o L : ℝ) (m n i t : ℤ) (hm : 1 ≤ m) (hn : 2 ≤ n) :
    linspace (linspace o (o + L) (m + 1) i) (linspace o (o + L) (m + 1) i +
      (linspace o (o + L) (m + 1) (i + 1) - linspace o (o + L) (m + 1) i)) n t =
    o + ((i * (n - 1) + t : ℤ) : ℝ) * (L / ((m * (n - 1) : ℤ) : ℝ)) := by
  have h1 : (m : ℝ) ≠ 0 := by exact_mod_cast (by omega : m ≠ 0)
  have h2 : ((n : ℝ) - 1) ≠ 0 := by
    have : (1 : ℝ) < n := by exact_mod_cast (by omega : 1 < n)
    linarith
  unfold linspace
  push_cast
  rw [show ((m:ℝ) + 1 - 1) = m by ring]
  field_simp
  ring

/-- the uniform grid of the whole domain: `m (n-1)` cells per direction -/
noncomputable def globalNode (origin lengths : V3) (cells : Dims3) (x y z : ℤ) : V3 :=
  ⟨origin.x + x * (lengths.x / cells.a), origin.y + y * (lengths.y / cells.b), origin.z + z * (lengths.z / cells.c)⟩

/-- C42 (tiling): for all numbers of blocks and nodes per block, origins and lengths, node `(a, b, c)` of the block at `(i, j, k)`
    is node `(i (n_i - 1) + a, j (n_j - 1) + b, k (n_k - 1) + c)` of one uniform grid of the domain. -/
theorem C42_tiling (o L : V3) (m n : Dims3) (hm : 1 ≤ m.a ∧ 1 ≤ m.b ∧ 1 ≤ m.c) (hn : 2 ≤ n.a ∧ 2 ≤ n.b ∧ 2 ≤ n.c)
    (p : Pos) (a b c : ℤ) :
    cubeNode o L m n p a b c = globalNode o L ⟨m.a * (n.a - 1), m.b * (n.b - 1), m.c * (n.c - 1)⟩
      (p.i * (n.a - 1) + a) (p.j * (n.b - 1) + b) (p.k * (n.c - 1) + c) := by
  unfold cubeNode cube blkLengths blkOrigin globalNode
  ext
  · exact line o.x L.x m.a n.a p.i a hm.1 hn.1
  · exact line o.y L.y m.b n.b p.j b hm.2.1 hn.2.1
  · exact line o.z L.z m.c n.c p.k c hm.2.2 hn.2.2

/-- C42 (no gaps, no overlaps): every cell of the uniform domain grid belongs to exactly one block (per direction: a block index and
    a cell index in it, unique), adjacent blocks share the coordinates of their common face nodes, and the grid spans the
    requested box from corner to corner. -/
theorem C42_partition (o L : V3) (m n : Dims3) (hm : 1 ≤ m.a ∧ 1 ≤ m.b ∧ 1 ≤ m.c) (hn : 2 ≤ n.a ∧ 2 ≤ n.b ∧ 2 ≤ n.c) :
    (∀ x y z : ℤ, 0 ≤ x ∧ x < m.a * (n.a - 1) → 0 ≤ y ∧ y < m.b * (n.b - 1) → 0 ≤ z ∧ z < m.c * (n.c - 1) →
      ∃! q : Pos × Pos, InGrid m q.1 ∧ InGrid ⟨n.a - 1, n.b - 1, n.c - 1⟩ q.2 ∧
        q.1.i * (n.a - 1) + q.2.i = x ∧ q.1.j * (n.b - 1) + q.2.j = y ∧ q.1.k * (n.c - 1) + q.2.k = z) ∧
    (∀ i j k a b c : ℤ,
      cubeNode o L m n ⟨i + 1, j, k⟩ 0 b c = cubeNode o L m n ⟨i, j, k⟩ (n.a - 1) b c ∧
      cubeNode o L m n ⟨i, j + 1, k⟩ a 0 c = cubeNode o L m n ⟨i, j, k⟩ a (n.b - 1) c ∧
      cubeNode o L m n ⟨i, j, k + 1⟩ a b 0 = cubeNode o L m n ⟨i, j, k⟩ a b (n.c - 1)) ∧
    cubeNode o L m n ⟨0, 0, 0⟩ 0 0 0 = o ∧
    cubeNode o L m n ⟨m.a - 1, m.b - 1, m.c - 1⟩ (n.a - 1) (n.b - 1) (n.c - 1) = o + L := by
  have one : ∀ (w M N : ℤ), 1 ≤ N → 0 ≤ w → w < M * N → (0 ≤ w / N ∧ w / N < M) ∧ (0 ≤ w % N ∧ w % N < N) ∧ w / N * N + w % N = w ∧
      ∀ s t, 0 ≤ t → t < N → s * N + t = w → s = w / N ∧ t = w % N := by
    intro w M N hN h0 h1
    refine ⟨⟨Int.ediv_nonneg h0 (by omega), (Int.ediv_lt_iff_lt_mul (by omega)).2 h1⟩,
      ⟨Int.emod_nonneg _ (by omega), Int.emod_lt_of_pos _ (by omega)⟩, Int.ediv_mul_add_emod _ _, ?_⟩
    rintro s t ht0 ht1 rfl
    have hm : (s * N + t) % N = t := by rw [Int.mul_add_emod_self_right, Int.emod_eq_of_lt ht0 ht1]
    have hd : (s * N + t) / N = s := by
      have := Int.ediv_mul_add_emod (s * N + t) N
      rw [hm] at this
      exact mul_right_cancel₀ (show N ≠ 0 by omega) (by linarith)
    exact ⟨hd.symm, hm.symm⟩
  refine ⟨?_, ?_, ?_, ?_⟩
  · intro x y z hx hy hz
    obtain ⟨x1, x2, x3, x4⟩ := one x m.a (n.a - 1) (by omega) hx.1 hx.2
    obtain ⟨y1, y2, y3, y4⟩ := one y m.b (n.b - 1) (by omega) hy.1 hy.2
    obtain ⟨z1, z2, z3, z4⟩ := one z m.c (n.c - 1) (by omega) hz.1 hz.2
    refine ⟨(⟨x / (n.a - 1), y / (n.b - 1), z / (n.c - 1)⟩, ⟨x % (n.a - 1), y % (n.b - 1), z % (n.c - 1)⟩),
      ⟨⟨x1, y1, z1⟩, ⟨x2, y2, z2⟩, x3, y3, z3⟩, ?_⟩
    rintro ⟨⟨i, j, k⟩, ⟨a, b, c⟩⟩ ⟨-, ⟨ha, hb, hc⟩, e1, e2, e3⟩
    obtain ⟨p1, p2⟩ := x4 i a ha.1 ha.2 e1
    obtain ⟨q1, q2⟩ := y4 j b hb.1 hb.2 e2
    obtain ⟨r1, r2⟩ := z4 k c hc.1 hc.2 e3
    simp only [Prod.mk.injEq, Pos.mk.injEq]
    exact ⟨⟨p1, q1, r1⟩, p2, q2, r2⟩
  · intro i j k a b c
    refine ⟨?_, ?_, ?_⟩ <;> rw [C42_tiling o L m n hm hn, C42_tiling o L m n hm hn] <;> dsimp only <;> congr 1 <;> ring
  · rw [C42_tiling o L m n hm hn]
    unfold globalNode
    ext <;> simp
  · rw [C42_tiling o L m n hm hn]
    unfold globalNode
    have key : ∀ (M N : ℤ) (l : ℝ), 1 ≤ M → 2 ≤ N → ((((M - 1) * (N - 1) + (N - 1) : ℤ)) : ℝ) * (l / ((M * (N - 1) : ℤ) : ℝ)) = l := by
      intro M N l h1 h2
      have h : ((M * (N - 1) : ℤ) : ℝ) ≠ 0 := by
        have : M * (N - 1) ≠ 0 := mul_ne_zero (by omega) (by omega)
        exact_mod_cast this
      rw [show (M - 1) * (N - 1) + (N - 1) = M * (N - 1) by ring]
      field_simp
    ext
    · simp only [V3.add_x, key _ _ _ hm.1 hn.1]
    · simp only [V3.add_y, key _ _ _ hm.2.1 hn.2.1]
    · simp only [V3.add_z, key _ _ _ hm.2.2 hn.2.2]

/-! ### C43: periodic spans -/

/-- the recorded span of a direction is the length of one block -/
theorem span_block (o L : ℝ) (m i : ℤ) (hm : 1 ≤ m) :
    linspace o (o + L) (m + 1) (i + 1) - linspace o (o + L) (m + 1) i = L / m := by
  have h1 : (m : ℝ) ≠ 0 := by exact_mod_cast (by omega : m ≠ 0)
  unfold linspace
  push_cast
  rw [show ((m:ℝ) + 1 - 1) = m by ring]
  field_simp
  ring

/-- the span recorded on a periodic face `f`, and the number of blocks and the length of the domain in its direction -/
def dirOf (m : Dims3) : ℕ → ℤ
  | 1 => m.a
  | 2 => m.a
  | 3 => m.b
  | 4 => m.b
  | _ => m.c
/-- length of the domain in the direction of the face `f` -/
def lenOf (L : V3) : ℕ → ℝ
  | 1 => L.x
  | 2 => L.x
  | 3 => L.y
  | 4 => L.y
  | _ => L.z
/-- the node of the face `f` with the tangential indices `(s, t)` -/
noncomputable def faceNode (o L : V3) (m n : Dims3) (p : Pos) (f : ℕ) (s t : ℤ) : V3 :=
  match f with
  | 1 => cubeNode o L m n p 0 s t
  | 2 => cubeNode o L m n p (n.a - 1) s t
  | 3 => cubeNode o L m n p s 0 t
  | 4 => cubeNode o L m n p s (n.b - 1) t
  | 5 => cubeNode o L m n p s t 0
  | _ => cubeNode o L m n p s t (n.c - 1)

/-- C43 (exact): on a periodic high face the recorded axis is the unit vector of the direction and the recorded span is the
    domain length divided by the number of blocks in that direction; shifting the low face of the block connected to it by span
    times axis lands on the high face exactly when the direction has a single block (or zero length). -/
theorem C43_span_partial (o L : V3) (m n : Dims3) (hm : 1 ≤ m.a ∧ 1 ≤ m.b ∧ 1 ≤ m.c) (hn : 2 ≤ n.a ∧ 2 ≤ n.b ∧ 2 ≤ n.c)
    (per : Bool × Bool × Bool) (p : Pos) (hp : InGrid m p) (f : ℕ) (hf : f = 2 ∨ f = 4 ∨ f = 6) (ho : Outer m p f)
    (hper : PeriodicDir per f = true) :
    ∃ span axis, periodicInfo o L m per p f = some (span, axis) ∧ V3.dot axis axis = 1 ∧ span * dirOf m f = lenOf L f ∧
      ((∀ s t, faceNode o L m n (across m p f) (opposite f) s t + V3.smul span axis = faceNode o L m n p f s t) ↔
        (dirOf m f = 1 ∨ lenOf L f = 0)) := by
  have hbt : (cubicConnectivity m per p f).bcType = periodicName f := by
    rw [((face_eq m per p hp f (by omega)).2.1 ⟨ho, hper⟩)]
  obtain ⟨i, j, k⟩ := p
  obtain ⟨⟨a0, a1⟩, ⟨b0, b1⟩, c0, c1⟩ := hp
  dsimp only at a0 a1 b0 b1 c0 c1
  have cast : ∀ {M : ℤ}, 1 ≤ M → (M : ℝ) ≠ 0 := fun h => by exact_mod_cast (by omega : _ ≠ (0:ℤ))
  -- one direction: low end + span = high end of the last block
  have key : ∀ (oo l : ℝ) (M N x : ℤ), 1 ≤ M → 2 ≤ N → x = M - 1 →
      ((oo + ((0 * (N - 1) + 0 : ℤ) : ℝ) * (l / ((M * (N - 1) : ℤ) : ℝ)) + l / M * 1 =
        oo + ((x * (N - 1) + (N - 1) : ℤ) : ℝ) * (l / ((M * (N - 1) : ℤ) : ℝ))) ↔ (M = 1 ∨ l = 0)) := by
    intro oo l M N x hM hN hx
    have h1 := cast hM
    have h2 : ((N : ℝ) - 1) ≠ 0 := by
      have : (1 : ℝ) < N := by exact_mod_cast (by omega : 1 < N)
      linarith
    subst hx
    have e1 : oo + ((0 * (N - 1) + 0 : ℤ) : ℝ) * (l / ((M * (N - 1) : ℤ) : ℝ)) + l / M * 1 = oo + l / M := by push_cast; ring
    have e2 : oo + (((M - 1) * (N - 1) + (N - 1) : ℤ) : ℝ) * (l / ((M * (N - 1) : ℤ) : ℝ)) = oo + l := by
      push_cast; field_simp; ring
    rw [e1, e2]
    constructor
    · intro h
      by_cases hl : l = 0
      · exact Or.inr hl
      · left
        have h3 : l / M = l := by linarith
        field_simp at h3
        exact_mod_cast h3.symm
    · rintro (h | h)
      · subst h; simp
      · subst h; simp
  rcases hf with rfl | rfl | rfl
  · simp only [Outer] at ho
    refine ⟨L.x / m.a, ⟨1, 0, 0⟩, ?_, by simp [V3.dot], by simp only [dirOf, lenOf]; have := cast hm.1; field_simp, ?_⟩
    · unfold periodicInfo
      dsimp only
      rw [hbt, if_pos (by simp [periodicName])]
      simp [blkLengths, blkOrigin, span_block o.x L.x m.a i hm.1]
    · simp only [faceNode, opposite, across, dirOf, lenOf, high_mod a0 a1, if_pos ho, C42_tiling o L m n hm hn, globalNode]
      rw [← key o.x L.x m.a n.a i hm.1 hn.1 ho]
      constructor
      · intro h; simpa using congrArg V3.x (h 0 0)
      · intro h s t
        ext
        · simpa using h
        · simp
        · simp
  · simp only [Outer] at ho
    refine ⟨L.y / m.b, ⟨0, 1, 0⟩, ?_, by simp [V3.dot], by simp only [dirOf, lenOf]; have := cast hm.2.1; field_simp, ?_⟩
    · unfold periodicInfo
      dsimp only
      rw [hbt, if_pos (by simp [periodicName])]
      simp [blkLengths, blkOrigin, span_block o.y L.y m.b j hm.2.1]
    · simp only [faceNode, opposite, across, dirOf, lenOf, high_mod b0 b1, if_pos ho, C42_tiling o L m n hm hn, globalNode]
      rw [← key o.y L.y m.b n.b j hm.2.1 hn.2.1 ho]
      constructor
      · intro h; simpa using congrArg V3.y (h 0 0)
      · intro h s t
        ext
        · simp
        · simpa using h
        · simp
  · simp only [Outer] at ho
    refine ⟨L.z / m.c, ⟨0, 0, 1⟩, ?_, by simp [V3.dot], by simp only [dirOf, lenOf]; have := cast hm.2.2; field_simp, ?_⟩
    · unfold periodicInfo
      dsimp only
      rw [hbt, if_pos (by simp [periodicName])]
      simp [blkLengths, blkOrigin, span_block o.z L.z m.c k hm.2.2]
    · simp only [faceNode, opposite, across, dirOf, lenOf, high_mod c0 c1, if_pos ho, C42_tiling o L m n hm hn, globalNode]
      rw [← key o.z L.z m.c n.c k hm.2.2 hn.2.2 ho]
      constructor
      · intro h; simpa using congrArg V3.z (h 0 0)
      · intro h s t
        ext
        · simp
        · simp
        · simpa using h

/-- C43, violated: the unit cube in two blocks along i, periodic in i: the recorded span is 1/2, and shifting the low boundary by it
    does not reach the high boundary. -/
theorem C43_violated :
    periodicInfo ⟨0, 0, 0⟩ ⟨1, 1, 1⟩ ⟨2, 1, 1⟩ (true, false, false) ⟨1, 0, 0⟩ 2 = some (1 / 2, ⟨1, 0, 0⟩) ∧
    faceNode ⟨0, 0, 0⟩ ⟨1, 1, 1⟩ ⟨2, 1, 1⟩ ⟨3, 3, 3⟩ ⟨0, 0, 0⟩ 1 0 0 = ⟨0, 0, 0⟩ ∧
    faceNode ⟨0, 0, 0⟩ ⟨1, 1, 1⟩ ⟨2, 1, 1⟩ ⟨3, 3, 3⟩ ⟨1, 0, 0⟩ 2 0 0 = ⟨1, 0, 0⟩ := by
  refine ⟨?_, ?_, ?_⟩
  · simp [periodicInfo, cubicConnectivity, highFace, blkLengths, blkOrigin, linspace]; norm_num
  · simp [faceNode, cubeNode, cube, blkLengths, blkOrigin, linspace]
  · simp [faceNode, cubeNode, cube, blkLengths, blkOrigin, linspace]; norm_num

end PG.Grid
