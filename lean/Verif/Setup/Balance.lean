import Verif.Setup.Props
import Mathlib.Algebra.BigOperators.Group.List.Basic
import Mathlib.Algebra.Order.BigOperators.Group.List
/-
C40 (load balancer) and C38 (ownership).
-/
namespace PG.Setup
open PG.Text

/-! ### C40 -/

/-- the input of the strategies: each block once with its size, sizes ascending (getSortedBlockSizes,
    loadBalancer.py:13-21: numpy's argsort gives some ascending order) -/
structure SortedBlocks (blocks : List ℕ) (sorted : List (ℕ × ℕ)) : Prop where
  nonempty : blocks ≠ []
  distinct : blocks.Nodup
  same : (sorted.map (·.2)).Perm blocks
  ascending : (sorted.map (·.1)).Pairwise (· ≤ ·)

/-- the self check accepts exactly the complete partitions -/
theorem C40_selfcheck (blocks : List ℕ) (hd : blocks.Nodup) (gs : List (List ℕ)) :
    allBlocksAssigned blocks gs = true ↔ gs.flatten.Perm blocks := by
  have hl : (gs.map List.length).sum = gs.flatten.length := by rw [List.length_flatten]
  unfold allBlocksAssigned
  rw [hl]
  constructor
  · intro h
    simp only at h
    split at h
    · cases h
    · rename_i hlen
      rw [not_not] at hlen
      rw [List.all_eq_true] at h
      have hsub : blocks ⊆ gs.flatten := by
        intro n hn
        have := h n hn
        rw [List.any_eq_true] at this
        obtain ⟨g, hg, hc⟩ := this
        exact List.mem_flatten.2 ⟨g, hg, by simpa using hc⟩
      have := (List.subperm_of_subset hd hsub).perm_of_length_le hlen.le
      exact this.symm
  · intro h
    simp only
    rw [if_neg (not_not.2 h.length_eq), List.all_eq_true]
    intro n hn
    obtain ⟨g, hg, hc⟩ := List.mem_flatten.1 (h.mem_iff.2 hn)
    rw [List.any_eq_true]
    exact ⟨g, hg, by simpa using hc⟩

theorem minProcsGo_flatten (M : ℕ) (lim : Option ℚ) (r : List (ℕ × ℕ)) : ∀ cur sz,
    ((minProcsGo M lim cur sz r).map (·.1)).flatten = cur ++ r.map (·.2) := by
  induction r with
  | nil => intro cur sz; simp [minProcsGo]
  | cons x r ih =>
    intro cur sz
    obtain ⟨s, b⟩ := x
    rw [minProcsGo]
    split
    · rw [ih]; simp
    · split
      · rw [List.map_cons, List.flatten_cons, ih]; simp
      · rw [ih]; simp

theorem minBlksInner_flatten (M : ℕ) (lim : Option ℚ) (r : List (ℕ × ℕ)) : ∀ cur sz,
    (minBlksInner M lim cur sz r).1 ++ (minBlksInner M lim cur sz r).2.2.map (·.2) = cur ++ r.map (·.2) := by
  induction r with
  | nil => intro cur sz; simp [minBlksInner]
  | cons x r ih =>
    intro cur sz
    cases r with
    | nil => simp [minBlksInner]
    | cons y r =>
      rw [minBlksInner]
      split
      · split
        · rfl
        · rw [ih]; simp
      · rfl

theorem minBlksGo_perm (M : ℕ) (lim : Option ℚ) : ∀ (n : ℕ) (r : List (ℕ × ℕ)), r.length ≤ n →
    (((minBlksGo M lim r).map (·.1)).flatten).Perm (r.map (·.2)) := by
  intro n
  induction n with
  | zero =>
    intro r hr
    have : r = [] := List.length_eq_zero_iff.1 (by omega)
    subst this
    rw [minBlksGo]; simp
  | succ n ih =>
    intro r hr
    rw [minBlksGo]
    split
    · rename_i h
      rw [List.getLast?_eq_none_iff] at h
      subst h; simp
    · rename_i l h
      have hne : r ≠ [] := by intro e; rw [e] at h; simp at h
      have hlast : r.dropLast ++ [l] = r := by
        have := List.dropLast_append_getLast hne
        rw [List.getLast?_eq_some_getLast hne] at h
        simp at h
        rw [h] at this; exact this
      simp only [List.map_cons, List.flatten_cons]
      have hlen := minBlksInner_length M lim r.dropLast [l.2] l.1
      have hpos := List.length_pos_iff.2 hne
      have h1 := ih (minBlksInner M lim [l.2] l.1 r.dropLast).2.2 (by rw [List.length_dropLast] at hlen; omega)
      refine (List.Perm.append_left _ h1).trans ?_
      rw [minBlksInner_flatten]
      have h2 : (r.dropLast.map (·.2) ++ [l.2]).Perm (r.map (·.2)) := by
        rw [← List.map_singleton (f := fun x : ℕ × ℕ => x.2), ← List.map_append, hlast]
      exact List.perm_append_comm.trans h2

theorem argmin_lt (l : List ℚ) (h : l ≠ []) : argmin l < l.length := by
  induction l with
  | nil => exact absurd rfl h
  | cons x l ih =>
    cases l with
    | nil => simp [argmin]
    | cons y r =>
      have := ih (by simp)
      simp only [argmin]
      split
      · simp
      · simp at *; omega

/-- the chosen processor has a score not larger than any other -/
theorem argmin_le (l : List ℚ) (k : ℕ) (hk : k < l.length) : l.getD (argmin l) 0 ≤ l.getD k 0 := by
  induction l generalizing k with
  | nil => simp at hk
  | cons x l ih =>
    cases l with
    | nil =>
      simp at hk; subst hk; simp [argmin]
    | cons y r =>
      have h0 := ih 0 (by simp)
      simp only [argmin]
      split
      · rename_i h
        cases k with
        | zero => simp
        | succ k =>
          have := ih k (by simpa using hk)
          simp only [List.getD_cons_zero, List.getD_cons_succ]
          exact h.trans this
      · rename_i h
        cases k with
        | zero => simp only [List.getD_cons_zero, List.getD_cons_succ]; exact (not_le.1 h).le
        | succ k =>
          have := ih k (by simpa using hk)
          simp only [List.getD_cons_succ]
          exact this

theorem loadScore_length (ps : List Proc) : (loadScore ps).length = ps.length := by simp [loadScore]

theorem modify_flatten (ps : List Proc) (i : ℕ) (hi : i < ps.length) (b s : ℕ) :
    ((ps.modify i (fun p => ⟨p.blocks ++ [b], p.load + s, p.nblocks + 1⟩)).map (·.blocks)).flatten.Perm
      ((ps.map (·.blocks)).flatten ++ [b]) := by
  induction ps generalizing i with
  | nil => simp at hi
  | cons p ps ih =>
    cases i with
    | zero =>
      simp only [List.modify_zero_cons, List.map_cons, List.flatten_cons, List.append_assoc]
      exact List.Perm.append_left _ List.perm_append_comm
    | succ i =>
      simp only [List.modify_succ_cons, List.map_cons, List.flatten_cons, List.append_assoc]
      exact List.Perm.append_left _ (ih i (by simpa using hi))

theorem assign_fold (ls : List (ℕ × ℕ)) : ∀ ps : List Proc, ps ≠ [] →
    (((ls.foldl assignOne ps).map (·.blocks)).flatten).Perm ((ps.map (·.blocks)).flatten ++ ls.map (·.2)) ∧
    (ls.foldl assignOne ps).length = ps.length ∧
    ((∀ p ∈ ps, p.blocks ≠ []) → ∀ p ∈ ls.foldl assignOne ps, p.blocks ≠ []) := by
  induction ls with
  | nil => intro ps _; simp
  | cons x ls ih =>
    intro ps hps
    have hlt : argmin (loadScore ps) < ps.length := by
      rw [← loadScore_length]
      apply argmin_lt
      intro h
      have := loadScore_length ps
      rw [h] at this
      exact hps (List.length_eq_zero_iff.1 this.symm)
    have hlen : (assignOne ps x).length = ps.length := by simp [assignOne]
    have hne : assignOne ps x ≠ [] := by
      intro h; rw [h] at hlen; exact hps (List.length_eq_zero_iff.1 hlen.symm)
    obtain ⟨h1, h2, h3⟩ := ih (assignOne ps x) hne
    refine ⟨?_, by rw [List.foldl_cons, h2, hlen], ?_⟩
    · rw [List.foldl_cons]
      refine h1.trans ?_
      refine (List.Perm.append_right _ (modify_flatten ps _ hlt x.2 x.1)).trans ?_
      simp
    · intro hp
      rw [List.foldl_cons]
      apply h3
      intro p hp'
      unfold assignOne at hp'
      obtain ⟨k, hk, rfl⟩ := List.getElem_of_mem hp'
      rw [List.getElem_modify]
      split
      · simp
      · exact hp _ (List.getElem_mem _)

theorem chooseGroups_perm (a : Args) (blocks : List ℕ) (sorted : List (ℕ × ℕ)) (hs : SortedBlocks blocks sorted)
    (hm : a.minProcs = true ∨ a.minBlksPerProc = true ∨ 0 < a.numProcs) :
    (chooseGroups a sorted).flatten.Perm blocks := by
  have hne : sorted ≠ [] := by
    intro h; have := hs.same; rw [h] at this; simp at this; exact hs.nonempty this
  refine List.Perm.trans ?_ hs.same
  unfold chooseGroups
  simp only
  split
  · rw [minProcsGo_flatten]; simp
  · split
    · exact minBlksGo_perm _ _ _ sorted le_rfl
    · rename_i h1 h2
      have h3 : 0 < a.numProcs := by
        rcases hm with h | h | h
        · exact absurd h h1
        · exact absurd h h2
        · exact h
      rw [if_pos h3]
      unfold numProcsGo
      have hseed : (sorted.reverse.take a.numProcs).map (fun x => (⟨[x.2], x.1, 1⟩ : Proc)) ≠ [] := by
        simp only [ne_eq, List.map_eq_nil_iff, List.take_eq_nil_iff, List.reverse_eq_nil_iff]
        rintro (h | h)
        · omega
        · exact hne h
      refine (assign_fold (sorted.reverse.drop a.numProcs) _ hseed).1.trans ?_
      have e : ((((sorted.reverse.take a.numProcs).map (fun x => (⟨[x.2], x.1, 1⟩ : Proc))).map (·.blocks)).flatten)
          = (sorted.reverse.take a.numProcs).map (·.2) := by
        generalize sorted.reverse.take a.numProcs = l
        induction l with
        | nil => rfl
        | cons x xs ih =>
          simp only [List.map_cons, List.flatten_cons, ih]; rfl
      rw [e, ← List.map_append, List.take_append_drop, List.map_reverse]
      exact List.reverse_perm _

/-- C40: for any blocks, sizes, limit and strategy, the program finishes (its self check never fails) and puts every block
    into exactly one group. Without any strategy selected it raises instead of writing a file. -/
theorem C40_partition (a : Args) (blocks : List ℕ) (sorted : List (ℕ × ℕ)) (hs : SortedBlocks blocks sorted) :
    (a.minProcs = true ∨ a.minBlksPerProc = true ∨ 0 < a.numProcs →
      ∃ gs, balance a blocks sorted = .ok gs ∧ gs.flatten.Perm blocks) ∧
    (a.minProcs = false → a.minBlksPerProc = false → a.numProcs = 0 → balance a blocks sorted = .error .assertionError) := by
  have hne : sorted ≠ [] := by
    intro h; have := hs.same; rw [h] at this; simp at this; exact hs.nonempty this
  constructor
  · intro hm
    have hp := chooseGroups_perm a blocks sorted hs hm
    refine ⟨chooseGroups a sorted, ?_, hp⟩
    unfold balance
    rw [if_neg hne, if_pos ((C40_selfcheck blocks hs.distinct _).2 hp)]
  · intro h1 h2 h3
    unfold balance
    rw [if_neg hne]
    have : chooseGroups a sorted = [] := by unfold chooseGroups; simp [h1, h2, h3]
    rw [this, if_neg]
    intro h
    have := (C40_selfcheck blocks hs.distinct _).1 h
    simp at this
    exact hs.nonempty this

/-! limits -/

/-- total size of a group, looked up in the sorted list -/
def groupLoad (sorted : List (ℕ × ℕ)) (g : List ℕ) : ℕ :=
  ((sorted.filter (fun x => x.2 ∈ g)).map (·.1)).sum

theorem minProcsGo_limit (M : ℕ) (k : ℕ) (hk : 1 ≤ k) (r : List (ℕ × ℕ)) : ∀ cur sz, cur.length ≤ k →
    (cur ≠ [] ∨ r ≠ []) →
    ∀ g ∈ minProcsGo M (some (k : ℚ)) cur sz r, g.1.length ≤ k ∧ g.1 ≠ [] := by
  induction r with
  | nil =>
    intro cur sz hc hn g hg
    simp [minProcsGo] at hg
    rcases hn with hn | hn
    · rw [hg]; exact ⟨hc, hn⟩
    · exact absurd rfl hn
  | cons x r ih =>
    intro cur sz hc _ g hg
    obtain ⟨s, b⟩ := x
    rw [minProcsGo] at hg
    split at hg
    · rename_i h
      exact ih _ _ (by rw [h]; simpa using hk) (.inl (by simp)) g hg
    · rename_i hne
      split at hg
      · rcases List.mem_cons.1 hg with rfl | hg
        · exact ⟨hc, hne⟩
        · exact ih [b] s (by simpa using hk) (.inl (by simp)) g hg
      · rename_i hl
        refine ih _ _ ?_ (.inl (by simp)) g hg
        have : cur.length ≠ k := by
          intro e
          apply hl; right
          simp [atLimit, e]
        rw [List.length_append]; simp; omega

theorem minBlksInner_limit (M : ℕ) (k : ℕ) (r : List (ℕ × ℕ)) : ∀ cur sz, cur.length ≤ k →
    (minBlksInner M (some (k : ℚ)) cur sz r).1.length ≤ k := by
  induction r with
  | nil => intro cur sz h; simpa [minBlksInner]
  | cons x r ih =>
    intro cur sz hc
    cases r with
    | nil => simpa [minBlksInner]
    | cons y r =>
      rw [minBlksInner]
      split
      · split
        · exact hc
        · rename_i hl
          apply ih
          have : cur.length ≠ k := by
            intro e
            apply hl; right
            simp [atLimit, e]
          rw [List.length_append]; simp; omega
      · exact hc

theorem minBlksGo_limit (M k : ℕ) (hk : 1 ≤ k) : ∀ (n : ℕ) (r : List (ℕ × ℕ)), r.length ≤ n →
    ∀ g ∈ minBlksGo M (some (k : ℚ)) r, g.1.length ≤ k := by
  intro n
  induction n with
  | zero =>
    intro r hr
    have : r = [] := List.length_eq_zero_iff.1 (by omega)
    subst this
    rw [minBlksGo]; simp
  | succ n ih =>
    intro r hr g hg
    rw [minBlksGo] at hg
    split at hg
    · simp at hg
    · rename_i l h
      have hne : r ≠ [] := by intro e; rw [e] at h; simp at h
      have hlen := minBlksInner_length M (some (k : ℚ)) r.dropLast [l.2] l.1
      have hpos := List.length_pos_iff.2 hne
      rw [List.length_dropLast] at hlen
      rcases List.mem_cons.1 hg with rfl | hg
      · exact minBlksInner_limit M k _ _ _ (by simpa using hk)
      · exact ih _ (by omega) g hg

/-- C40 (partial): with a whole-number limit of at least one block per processor, the two minimising strategies keep every
    group within the limit. MISSING: limits that are not whole numbers and the numProcs strategy, which ignore the limit:
    `C40_limit_violated`. -/
theorem C40_limit_partial (a : Args) (k : ℕ) (hk : 1 ≤ k) (ha : a.limit = some (k : ℚ)) (sorted : List (ℕ × ℕ))
    (hne : sorted ≠ []) (hm : a.minProcs = true ∨ a.minBlksPerProc = true) :
    ∀ g ∈ chooseGroups a sorted, g.length ≤ k := by
  intro g hg
  unfold chooseGroups at hg
  simp only [ha] at hg
  split at hg
  · obtain ⟨p, hp, rfl⟩ := List.mem_map.1 hg
    exact (minProcsGo_limit _ k hk sorted [] 0 (by simp) (.inr hne) p hp).1
  · rename_i h
    rw [if_pos (by simpa [h] using hm)] at hg
    obtain ⟨p, hp, rfl⟩ := List.mem_map.1 hg
    exact minBlksGo_limit _ k hk _ sorted le_rfl p hp

/-- C40 is violated by the limit of the numProcs strategy and by a fractional limit: three unit blocks, limit 1 with one
    processor, and limit 3/2 (no group may then hold two blocks). -/
theorem C40_limit_violated :
    SortedBlocks [0, 1, 2] [(1, 0), (1, 1), (5, 2)] ∧
    chooseGroups ⟨false, false, some 1, 1⟩ [(1, 0), (1, 1), (5, 2)] = [[2, 1, 0]] ∧
    chooseGroups ⟨true, false, some (3/2), 0⟩ [(1, 0), (1, 1), (5, 2)] = [[0, 1], [2]] := by
  refine ⟨⟨by simp, by decide, by decide, by decide⟩, by decide, ?_⟩
  have h : ∀ n : ℕ, atLimit (some (3/2)) n = false := by
    intro n
    simp only [atLimit, beq_eq_false_iff_ne, ne_eq, Option.some.injEq]
    intro h
    have h2 : (3 : ℚ) = ((2 * n : ℕ) : ℚ) := by push_cast; rw [← h]; norm_num
    have h3 : 3 = 2 * n := by exact_mod_cast h2
    omega
  simp [chooseGroups, minProcsGo, h]

/-! loads -/

theorem minProcsGo_load (M : ℕ) (lim : Option ℚ) (r : List (ℕ × ℕ)) : ∀ cur sz (pre : List (ℕ × ℕ)),
    cur = pre.map (·.2) → sz = (pre.map (·.1)).sum → sz ≤ M → (∀ x ∈ r, x.1 ≤ M) →
    ∃ parts : List (List (ℕ × ℕ)), parts.flatten = pre ++ r ∧
      (minProcsGo M lim cur sz r) = parts.map (fun p => (p.map (·.2), (p.map (·.1)).sum)) ∧
      ∀ p ∈ parts, (p.map (·.1)).sum ≤ M := by
  induction r with
  | nil =>
    intro cur sz pre h1 h2 h3 _
    exact ⟨[pre], by simp, by simp [minProcsGo, h1, h2], by simpa [← h2]⟩
  | cons x r ih =>
    intro cur sz pre h1 h2 h3 h4
    obtain ⟨s, b⟩ := x
    have hx := h4 (s, b) (by simp)
    have hr : ∀ x ∈ r, x.1 ≤ M := fun y hy => h4 y (by simp [hy])
    rw [minProcsGo]
    split
    · rename_i hc
      have hp : pre = [] := by rw [hc] at h1; simpa using h1.symm
      subst hp
      simp at h2
      obtain ⟨parts, a1, a2, a3⟩ := ih (cur ++ [b]) (sz + s) [(s, b)] (by simp [hc]) (by simp [h2])
        (by rw [h2]; simpa using hx) hr
      exact ⟨parts, by simpa using a1, a2, a3⟩
    · split
      · obtain ⟨parts, a1, a2, a3⟩ := ih [b] s [(s, b)] (by simp) (by simp) hx hr
        refine ⟨pre :: parts, by simp [a1], ?_, ?_⟩
        · rw [List.map_cons, ← a2, h1, h2]
        · intro p hp
          rcases List.mem_cons.1 hp with rfl | hp
          · rw [← h2]; exact h3
          · exact a3 p hp
      · rename_i hl
        rw [not_or] at hl
        obtain ⟨parts, a1, a2, a3⟩ := ih (cur ++ [b]) (sz + s) (pre ++ [(s, b)]) (by simp [h1]) (by simp [h2])
          (by omega) hr
        exact ⟨parts, by simpa using a1, a2, a3⟩

theorem minBlksInner_load (M : ℕ) (lim : Option ℚ) (r : List (ℕ × ℕ)) : ∀ cur sz (pre : List (ℕ × ℕ)),
    cur = pre.map (·.2) → sz = (pre.map (·.1)).sum → sz ≤ M →
    ∃ pre' : List (ℕ × ℕ), pre ++ r = pre' ++ (minBlksInner M lim cur sz r).2.2 ∧
      (minBlksInner M lim cur sz r).1 = pre'.map (·.2) ∧
      (minBlksInner M lim cur sz r).2.1 = (pre'.map (·.1)).sum ∧ (pre'.map (·.1)).sum ≤ M := by
  induction r with
  | nil => intro cur sz pre h1 h2 h3; exact ⟨pre, by simp [minBlksInner], h1, h2, by rw [← h2]; exact h3⟩
  | cons x r ih =>
    intro cur sz pre h1 h2 h3
    cases r with
    | nil => exact ⟨pre, by simp [minBlksInner], h1, h2, by rw [← h2]; exact h3⟩
    | cons y r =>
      rw [minBlksInner]
      split
      · split
        · rename_i hl
          exact ⟨pre, rfl, h1, h2, by rw [← h2]; exact h3⟩
        · rename_i hl
          rw [not_or] at hl
          obtain ⟨pre', a1, a2⟩ := ih (cur ++ [x.2]) (sz + x.1) (pre ++ [x]) (by simp [h1]) (by simp [h2]) (by omega)
          exact ⟨pre', by rw [← a1]; simp, a2⟩
      · rename_i h; exact absurd h3 h

theorem minBlksGo_load (M : ℕ) (lim : Option ℚ) : ∀ (n : ℕ) (r : List (ℕ × ℕ)), r.length ≤ n → (∀ x ∈ r, x.1 ≤ M) →
    ∃ parts : List (List (ℕ × ℕ)), parts.flatten.Perm r ∧
      minBlksGo M lim r = parts.map (fun p => (p.map (·.2), (p.map (·.1)).sum)) ∧
      ∀ p ∈ parts, (p.map (·.1)).sum ≤ M ∧ p ≠ [] := by
  intro n
  induction n with
  | zero =>
    intro r hr _
    have : r = [] := List.length_eq_zero_iff.1 (by omega)
    subst this
    exact ⟨[], by simp, by rw [minBlksGo]; simp, by simp⟩
  | succ n ih =>
    intro r hr hM
    cases hl : r.getLast? with
    | none =>
      rw [List.getLast?_eq_none_iff] at hl
      subst hl
      exact ⟨[], by simp, by rw [minBlksGo]; simp, by simp⟩
    | some l =>
      have hne : r ≠ [] := by intro e; rw [e] at hl; simp at hl
      have hlast : r.dropLast ++ [l] = r := by
        have := List.dropLast_append_getLast hne
        rw [List.getLast?_eq_some_getLast hne] at hl
        simp at hl
        rw [hl] at this; exact this
      have hlen := minBlksInner_length M lim r.dropLast [l.2] l.1
      have hpos := List.length_pos_iff.2 hne
      rw [List.length_dropLast] at hlen
      have hlM : l.1 ≤ M := hM l (by rw [← hlast]; simp)
      obtain ⟨pre', a1, a2, a3, a4⟩ := minBlksInner_load M lim r.dropLast [l.2] l.1 [l] (by simp) (by simp) hlM
      obtain ⟨parts, b1, b2, b3⟩ := ih (minBlksInner M lim [l.2] l.1 r.dropLast).2.2 (by omega) (by
        intro x hx
        have : x ∈ [l] ++ r.dropLast := by rw [a1]; simp [hx]
        apply hM
        rw [← hlast]
        simp at this ⊢; tauto)
      refine ⟨pre' :: parts, ?_, ?_, ?_⟩
      · rw [List.flatten_cons]
        refine (List.Perm.append_left _ b1).trans ?_
        rw [← a1]
        exact List.perm_append_comm.trans (by rw [hlast])
      · rw [minBlksGo]
        split
        · rename_i h; rw [hl] at h; cases h
        · rename_i l' h
          rw [hl] at h
          cases h
          simp only [List.map_cons, b2, a2, a3]
      · intro p hp
        rcases List.mem_cons.1 hp with rfl | hp
        · refine ⟨a4, ?_⟩
          intro e
          have hm : (minBlksInner M lim [l.2] l.1 r.dropLast).1 = [] := by rw [a2, e]; rfl
          have := minBlksInner_flatten M lim r.dropLast [l.2] l.1
          have hlen2 : (minBlksInner M lim [l.2] l.1 r.dropLast).2.2.length = r.dropLast.length + 1 := by
            have := congrArg List.length a1
            rw [e] at this; simp at this
            rw [List.length_dropLast]; omega
          rw [List.length_dropLast] at hlen2
          omega
        · exact b3 p hp

theorem foldl_max_mem (l : List ℕ) (m : ℕ) : (∀ x ∈ l, x ≤ l.foldl max m) ∧ m ≤ l.foldl max m := by
  induction l generalizing m with
  | nil => simp
  | cons y ys ih =>
    rw [List.foldl_cons]
    obtain ⟨h1, h2⟩ := ih (max m y)
    refine ⟨?_, (le_max_left _ _).trans h2⟩
    intro x hx
    rcases List.mem_cons.1 hx with rfl | hx
    · exact (le_max_right _ _).trans h2
    · exact h1 x hx

/-- C40: the two minimising strategies never load a processor with more cells than the largest block has: the groups are
    a partition of the (size, block) list into parts each of total size at most the largest size, none empty. -/
theorem C40_load (a : Args) (sorted : List (ℕ × ℕ)) (hne : sorted ≠ []) (hm : a.minProcs = true ∨ a.minBlksPerProc = true) :
    ∃ parts : List (List (ℕ × ℕ)), parts.flatten.Perm sorted ∧ chooseGroups a sorted = parts.map (fun p => p.map (·.2)) ∧
      ∀ p ∈ parts, (p.map (·.1)).sum ≤ (sorted.map (·.1)).foldl max 0 := by
  have hM : ∀ x ∈ sorted, x.1 ≤ (sorted.map (·.1)).foldl max 0 := fun x hx =>
    (foldl_max_mem _ 0).1 _ (List.mem_map_of_mem hx)
  unfold chooseGroups
  simp only
  split
  · obtain ⟨parts, h1, h2, h3⟩ := minProcsGo_load _ a.limit sorted [] 0 [] rfl rfl (Nat.zero_le _) hM
    exact ⟨parts, by rw [h1]; simp, by rw [h2]; simp, h3⟩
  · rename_i h
    rw [if_pos (by simpa [h] using hm)]
    obtain ⟨parts, h1, h2, h3⟩ := minBlksGo_load _ a.limit _ sorted le_rfl hM
    exact ⟨parts, h1, by rw [h2]; simp, fun p hp => (h3 p hp).1⟩

/-- C40: the numProcs strategy makes exactly that many non-empty groups (one per block if there are fewer blocks). -/
theorem C40_numProcs (a : Args) (h1 : a.minProcs = false) (h2 : a.minBlksPerProc = false) (h3 : 0 < a.numProcs)
    (sorted : List (ℕ × ℕ)) (hne : sorted ≠ []) :
    (chooseGroups a sorted).length = min a.numProcs sorted.length ∧ ∀ g ∈ chooseGroups a sorted, g ≠ [] := by
  have e : chooseGroups a sorted = (numProcsGo a.numProcs sorted.reverse).map (·.blocks) := by
    unfold chooseGroups; simp [h1, h2, h3]
  have hseed : (sorted.reverse.take a.numProcs).map (fun x => (⟨[x.2], x.1, 1⟩ : Proc)) ≠ [] := by
    simp only [ne_eq, List.map_eq_nil_iff, List.take_eq_nil_iff, List.reverse_eq_nil_iff]
    rintro (h | h)
    · omega
    · exact hne h
  obtain ⟨-, a2, a3⟩ := assign_fold (sorted.reverse.drop a.numProcs) _ hseed
  rw [e]
  unfold numProcsGo
  constructor
  · rw [List.length_map, a2]; simp
  · intro g hg
    obtain ⟨p, hp, rfl⟩ := List.mem_map.1 hg
    refine a3 ?_ p hp
    intro p hp
    obtain ⟨x, _, rfl⟩ := List.mem_map.1 hp
    simp

/-- C40: each further block goes to a processor of least load score at that moment; the other processors are untouched
    and the books kept for the score stay right (load = sum of sizes, count = number of blocks). -/
theorem C40_numProcs_least (ps : List Proc) (hp : ps ≠ []) (x : ℕ × ℕ) :
    ∃ i, ∃ hi : i < ps.length, assignOne ps x = ps.set i ⟨ps[i].blocks ++ [x.2], ps[i].load + x.1, ps[i].nblocks + 1⟩ ∧
      ∀ k (_ : k < ps.length), (loadScore ps).getD i 0 ≤ (loadScore ps).getD k 0 := by
  have hlt : argmin (loadScore ps) < ps.length := by
    rw [← loadScore_length]
    apply argmin_lt
    intro h
    have := loadScore_length ps
    rw [h] at this
    exact hp (List.length_eq_zero_iff.1 this.symm)
  refine ⟨_, hlt, ?_, fun k hk => argmin_le _ k (by rw [loadScore_length]; exact hk)⟩
  unfold assignOne
  apply List.ext_getElem
  · simp
  · intro k h1 h2
    rw [List.getElem_modify, List.getElem_set]
    split
    · rename_i h; subst h; rfl
    · rfl

/-- groups are never empty, whatever the strategy -/
theorem chooseGroups_nonempty (a : Args) (sorted : List (ℕ × ℕ)) (hne : sorted ≠ []) :
    ∀ g ∈ chooseGroups a sorted, g ≠ [] := by
  have key : ∀ (M : ℕ) (lim : Option ℚ) (r : List (ℕ × ℕ)) cur sz, (cur ≠ [] ∨ r ≠ []) →
      ∀ g ∈ minProcsGo M lim cur sz r, g.1 ≠ [] := by
    intro M lim r
    induction r with
    | nil =>
      intro cur sz hn g hg
      simp [minProcsGo] at hg
      rcases hn with hn | hn
      · rw [hg]; exact hn
      · exact absurd rfl hn
    | cons x r ih =>
      intro cur sz _ g hg
      obtain ⟨s, b⟩ := x
      rw [minProcsGo] at hg
      split at hg
      · exact ih _ _ (.inl (by simp)) g hg
      · rename_i hc
        split at hg
        · rcases List.mem_cons.1 hg with rfl | hg
          · exact hc
          · exact ih _ _ (.inl (by simp)) g hg
        · exact ih _ _ (.inl (by simp)) g hg
  by_cases h1 : a.minProcs = true
  · intro g hg
    unfold chooseGroups at hg
    simp only [h1, if_true] at hg
    obtain ⟨p, hp, rfl⟩ := List.mem_map.1 hg
    exact key _ _ _ _ _ (.inr hne) p hp
  · by_cases h2 : a.minBlksPerProc = true
    · intro g hg
      have hM : ∀ x ∈ sorted, x.1 ≤ (sorted.map (·.1)).foldl max 0 := fun x hx =>
        (foldl_max_mem _ 0).1 _ (List.mem_map_of_mem hx)
      unfold chooseGroups at hg
      simp only [h1, h2, if_true] at hg
      obtain ⟨parts, b1, b2, b3⟩ := minBlksGo_load _ a.limit _ sorted le_rfl hM
      rw [if_neg (by simp), b2] at hg
      simp only [List.map_map, List.mem_map, Function.comp] at hg
      obtain ⟨p, hp, rfl⟩ := hg
      simpa using (b3 p hp).2
    · by_cases h3 : 0 < a.numProcs
      · exact (C40_numProcs a (by simpa using h1) (by simpa using h2) h3 sorted hne).2
      · unfold chooseGroups; simp [h1, h2, h3]

example : SortedBlocks [0, 1, 2, 3] [(2, 3), (4, 0), (4, 2), (9, 1)] ∧
    chooseGroups ⟨true, false, none, 0⟩ [(2, 3), (4, 0), (4, 2), (9, 1)] = [[3, 0], [2], [1]] :=
  ⟨⟨by simp, by decide, by decide, by decide⟩, by decide⟩

/-! ### C38 -/

theorem commRank_fold (gs : List (List ℤ)) (n : ℤ) : ∀ (k : ℕ) (acc : Option ℕ),
    ((∀ g ∈ gs, n ∉ g) → (gs.zipIdx k).foldl (fun acc p => if n ∈ p.1 then some p.2 else acc) acc = acc) ∧
    (∀ r, (gs.zipIdx k).foldl (fun acc p => if n ∈ p.1 then some p.2 else acc) acc = some r →
      (acc = some r ∧ ∀ g ∈ gs, n ∉ g) ∨ (k ≤ r ∧ ∃ h : r - k < gs.length, n ∈ gs[r - k])) ∧
    ((∃ g ∈ gs, n ∈ g) → ∃ r, (gs.zipIdx k).foldl (fun acc p => if n ∈ p.1 then some p.2 else acc) acc = some r) := by
  induction gs with
  | nil => intro k acc; simp
  | cons g gs ih =>
    intro k acc
    rw [List.zipIdx_cons, List.foldl_cons]
    simp only
    obtain ⟨h1, h2, h3⟩ := ih (k+1) (if n ∈ g then some k else acc)
    refine ⟨?_, ?_, ?_⟩
    · intro h
      have hg : n ∉ g := h g (by simp)
      have := h1 (fun x hx => h x (by simp [hx]))
      rw [this, if_neg hg]
    · intro r hr
      rcases h2 r hr with ⟨ha, hb⟩ | ⟨ha, hlt, hb⟩
      · by_cases hg : n ∈ g
        · right
          rw [if_pos hg] at ha
          cases ha
          exact ⟨le_rfl, by simp, by simpa using hg⟩
        · left
          rw [if_neg hg] at ha
          refine ⟨ha, ?_⟩
          intro x hx
          rcases List.mem_cons.1 hx with rfl | hx
          · exact hg
          · exact hb x hx
      · right
        refine ⟨by omega, by simp; omega, ?_⟩
        have e : r - k = (r - (k+1)) + 1 := by omega
        simp only [e, List.getElem_cons_succ]
        exact hb
    · rintro ⟨x, hx, hn⟩
      rcases List.mem_cons.1 hx with rfl | hx
      · rw [if_pos hn]
        by_cases hh : ∃ y ∈ gs, n ∈ y
        · have := h3 hh; rw [if_pos hn] at this; exact this
        · have hh' : ∀ y ∈ gs, n ∉ y := fun y hy hc => hh ⟨y, hy, hc⟩
          have := h1 hh'
          rw [if_pos hn] at this
          exact ⟨k, this⟩
      · exact h3 ⟨x, hx, hn⟩

/-- C38: the communication rank of a face is a rank whose group contains the neighbour, and exists iff some rank has it;
    when the neighbour is in one group only, it is that rank. -/
theorem C38_commRank (gs : List (List ℤ)) (n : ℤ) :
    (∀ r, commRank gs n = some r → ∃ h : r < gs.length, n ∈ gs[r]) ∧
    (commRank gs n = none ↔ ∀ g ∈ gs, n ∉ g) ∧
    (∀ r (h : r < gs.length), n ∈ gs[r] → (∀ s (h' : s < gs.length), n ∈ gs[s] → s = r) → commRank gs n = some r) := by
  obtain ⟨h1, h2, h3⟩ := commRank_fold gs n 0 none
  have p1 : ∀ r, commRank gs n = some r → ∃ h : r < gs.length, n ∈ gs[r] := by
    intro r hr
    rcases h2 r hr with ⟨h, _⟩ | ⟨_, h, h'⟩
    · cases h
    · exact ⟨by simpa using h, by simpa using h'⟩
  refine ⟨p1, ?_, ?_⟩
  · constructor
    · intro hn g hg hc
      obtain ⟨r, hr⟩ := h3 ⟨g, hg, hc⟩
      unfold commRank at hn
      rw [hn] at hr; cases hr
    · exact h1
  · intro r hr hn hu
    obtain ⟨s, hs⟩ := h3 ⟨gs[r], List.getElem_mem hr, hn⟩
    obtain ⟨hlt, hm⟩ := p1 s hs
    rw [← hu s hlt hm]; exact hs

theorem countLoop_spec (gs : List (List ℤ)) : ∀ (s m : ℤ),
    ((∀ g ∈ gs, g ≠ []) → ∃ m', countLoop s m gs = .ok (s + gs.flatten.length, m') ∧ m ≤ m' ∧ (∀ x ∈ gs.flatten, x ≤ m') ∧
      (m' = m ∨ m' ∈ gs.flatten)) ∧
    ((∃ g ∈ gs, g = []) → countLoop s m gs = .error .valueError) := by
  have fm : ∀ (l : List ℤ) (a : ℤ), (∀ x ∈ l, x ≤ l.foldl max a) ∧ a ≤ l.foldl max a ∧ (l.foldl max a = a ∨ l.foldl max a ∈ l) := by
    intro l
    induction l with
    | nil => intro a; simp
    | cons y ys ih =>
      intro a
      rw [List.foldl_cons]
      obtain ⟨h1, h2, h3⟩ := ih (max a y)
      refine ⟨?_, (le_max_left _ _).trans h2, ?_⟩
      · intro x hx
        rcases List.mem_cons.1 hx with rfl | hx
        · exact (le_max_right _ _).trans h2
        · exact h1 x hx
      · rcases h3 with h3 | h3
        · rw [h3]
          rcases max_choice a y with h | h
          · left; exact h
          · right; rw [h]; simp
        · right; simp [h3]
  induction gs with
  | nil => intro s m; simp [countLoop]
  | cons g gs ih =>
    intro s m
    constructor
    · intro h
      cases g with
      | nil => exact absurd rfl (h [] (by simp))
      | cons x xs =>
        have e : countLoop s m ((x :: xs) :: gs) = countLoop (s + (x :: xs).length) (max m (xs.foldl max x)) gs := rfl
        obtain ⟨m', a1, a2, a3, a4⟩ := (ih (s + (x :: xs).length) (max m (xs.foldl max x))).1 (fun y hy => h y (by simp [hy]))
        obtain ⟨f1, f2, f3⟩ := fm xs x
        refine ⟨m', ?_, (le_max_left _ _).trans a2, ?_, ?_⟩
        · rw [e, a1]
          congr 2
          simp; omega
        · intro y hy
          rw [List.flatten_cons, List.mem_append] at hy
          rcases hy with hy | hy
          · have : y ≤ xs.foldl max x := by
              rcases List.mem_cons.1 hy with rfl | hy
              · exact f2
              · exact f1 y hy
            exact this.trans ((le_max_right _ _).trans a2)
          · exact a3 y hy
        · rcases a4 with a4 | a4
          · rcases max_choice m (xs.foldl max x) with h' | h'
            · left; rw [a4, h']
            · right; rw [a4, h', List.flatten_cons, List.mem_append]
              left
              rcases f3 with f3 | f3
              · rw [f3]; simp
              · simp [f3]
          · right; rw [List.flatten_cons, List.mem_append]; exact .inr a4
    · rintro ⟨x, hx, rfl⟩
      cases g with
      | nil => rfl
      | cons y ys =>
        rcases List.mem_cons.1 hx with h | hx
        · cases h
        · exact (ih _ _).2 ⟨[], hx, rfl⟩

/-- What acceptance means exactly: as many groups as ranks, no empty group, and the number of entries is the number of
    blocks of the case and one more than the largest entry (or 0). -/
theorem bootstrap_accepts (size total : ℕ) (gs : List (List ℤ)) (h : bootstrapCheck size total gs = .ok ()) :
    gs.length = size ∧ (∀ g ∈ gs, g ≠ []) ∧ gs.flatten.length = total ∧
      (∀ x ∈ gs.flatten, x < total) ∧ 0 < total := by
  unfold bootstrapCheck at h
  split at h
  · cases h
  · rename_i hl
    rw [not_not] at hl
    obtain ⟨c1, c2⟩ := countLoop_spec gs 0 0
    by_cases he : ∃ g ∈ gs, g = []
    · rw [c2 he] at h; cases h
    · have he' : ∀ g ∈ gs, g ≠ [] := fun g hg hc => he ⟨g, hg, hc⟩
      obtain ⟨m, a1, a2, a3, a4⟩ := c1 he'
      rw [a1] at h
      simp only [zero_add, bind, Except.bind] at h
      split at h
      · cases h
      · rename_i hm
        split at h
        · cases h
        · rename_i ht
          rw [not_not] at hm ht
          rw [← List.length_flatten] at ht
          have ht' : gs.flatten.length = total := by exact_mod_cast ht.symm
          refine ⟨hl, he', ht', ?_, ?_⟩
          · intro x hx
            have := a3 x hx
            omega
          · omega

/-- C38 (partial): if no entry is repeated or negative, an accepted assignment gives every block 0..n-1 to exactly one
    rank, and each face's communication rank is that rank. MISSING: repeated entries, which the check does not notice
    (`C38_violated`). -/
theorem C38_ownership_partial (size total : ℕ) (gs : List (List ℤ)) (h : bootstrapCheck size total gs = .ok ())
    (hd : gs.flatten.Nodup) (hn : ∀ x ∈ gs.flatten, 0 ≤ x) :
    gs.length = size ∧ ∀ b : ℕ, b < total → ∃ r, ∃ hr : r < gs.length, (b : ℤ) ∈ gs[r] ∧
      (∀ s (hs : s < gs.length), (b : ℤ) ∈ gs[s] → s = r) ∧ commRank gs b = some r := by
  obtain ⟨h1, h2, h3, h4, h5⟩ := bootstrap_accepts size total gs h
  refine ⟨h1, ?_⟩
  intro b hb
  have hperm : gs.flatten.Perm ((List.range total).map (fun i : ℕ => (i : ℤ))) := by
    have hsub : gs.flatten ⊆ (List.range total).map (fun i : ℕ => (i : ℤ)) := by
      intro x hx
      have a := hn x hx
      have b := h4 x hx
      exact List.mem_map.2 ⟨x.toNat, List.mem_range.2 (by omega), by omega⟩
    exact (List.subperm_of_subset hd hsub).perm_of_length_le (by simp [h3])
  have hmem : (b : ℤ) ∈ gs.flatten := hperm.mem_iff.2 (List.mem_map.2 ⟨b, List.mem_range.2 hb, rfl⟩)
  obtain ⟨g, hg, hbg⟩ := List.mem_flatten.1 hmem
  obtain ⟨r, hr, rfl⟩ := List.getElem_of_mem hg
  have hu : ∀ s (hs : s < gs.length), (b : ℤ) ∈ gs[s] → s = r := by
    intro s hs hbs
    by_contra hne
    have hdis := (List.nodup_flatten.1 hd).2
    rcases lt_or_gt_of_ne hne with hlt | hlt
    · exact (List.pairwise_iff_getElem.1 hdis s r hs hr hlt) hbs hbg
    · exact (List.pairwise_iff_getElem.1 hdis r s hr hs hlt) hbg hbs
  exact ⟨r, hr, hbg, hu, (C38_commRank gs b).2.2 r hr hbg hu⟩

/-- C38 is violated: a file giving block 0 twice and block 1 to nobody is accepted, and a face next to block 1 gets no
    communication rank. -/
theorem C38_violated : bootstrapCheck 2 3 [[0, 0], [2]] = .ok () ∧ commRank [[0, 0], [2]] 1 = none ∧
    commRank [[0], [2, 0]] 0 = some 1 ∧ bootstrapCheck 2 3 [[0], [2, 0]] = .ok () := by
  refine ⟨by decide, by decide, by decide, by decide⟩

theorem cast_flatten (gs : List (List ℕ)) :
    (gs.map (fun g => g.map (fun m : ℕ => (m : ℤ)))).flatten = gs.flatten.map (fun m : ℕ => (m : ℤ)) := by
  rw [List.map_flatten]

theorem bootstrap_of_partition (gs : List (List ℤ)) (total : ℕ) (hpos : 0 < total)
    (hp : gs.flatten.Perm ((List.range total).map (fun i : ℕ => (i : ℤ)))) (he : ∀ g ∈ gs, g ≠ []) :
    bootstrapCheck gs.length total gs = .ok () := by
  have hmem : ∀ x, x ∈ gs.flatten ↔ 0 ≤ x ∧ x < total := by
    intro x
    rw [hp.mem_iff, List.mem_map]
    constructor
    · rintro ⟨i, hi, rfl⟩; have := List.mem_range.1 hi; omega
    · rintro ⟨h1, h2⟩; exact ⟨x.toNat, List.mem_range.2 (by omega), by omega⟩
  have hlen : gs.flatten.length = total := by rw [hp.length_eq]; simp
  obtain ⟨m, a1, a2, a3, a4⟩ := (countLoop_spec gs 0 0).1 he
  have hm : m = total - 1 := by
    have h1 := a3 ((total : ℤ) - 1) ((hmem _).2 ⟨by omega, by omega⟩)
    have h2 : m < total := by
      rcases a4 with a4 | a4
      · omega
      · exact ((hmem m).1 a4).2
    omega
  unfold bootstrapCheck
  rw [if_neg (by simp), a1]
  simp only [zero_add, bind, Except.bind]
  rw [if_neg (by rw [hlen, hm]; simp), if_neg (by rw [← List.length_flatten, hlen]; simp)]

/-- C38, C39, C40 together: for a case of blocks 0..n-1 and any strategy, the file the load balancer writes is read back
    and accepted by a run on as many ranks as groups, every block is owned by exactly one rank and every face talks to the
    owner of its neighbour. -/
theorem C38_balanced (a : Args) (n : ℕ) (hn : 0 < n) (sorted : List (ℕ × ℕ)) (hs : SortedBlocks (List.range n) sorted)
    (hm : a.minProcs = true ∨ a.minBlksPerProc = true ∨ 0 < a.numProcs) (parallel : Bool) :
    ∃ gs file, balance a (List.range n) sorted = .ok gs ∧ readGroups parallel (writeGroups gs) = some file ∧
      bootstrapCheck gs.length n file = .ok () ∧
      ∀ b : ℕ, b < n → ∃ r, ∃ hr : r < file.length, (b : ℤ) ∈ file[r] ∧
        (∀ s (hs : s < file.length), (b : ℤ) ∈ file[s] → s = r) ∧ commRank file b = some r := by
  obtain ⟨gs, h1, h2⟩ := (C40_partition a _ sorted hs).1 hm
  have hne : sorted ≠ [] := by
    intro h; have := hs.same; rw [h] at this; simp at this; omega
  have hgs : gs = chooseGroups a sorted := by
    unfold balance at h1
    rw [if_neg hne] at h1
    split at h1
    · cases h1; rfl
    · cases h1
  have he := chooseGroups_nonempty a sorted hne
  rw [← hgs] at he
  have hfile := C39_roundtrip parallel gs
  have hp : ((gs.map (fun g => g.map (fun m : ℕ => (m : ℤ)))).flatten).Perm ((List.range n).map (fun i : ℕ => (i : ℤ))) := by
    rw [cast_flatten]; exact h2.map _
  have hok := bootstrap_of_partition (gs.map (fun g => g.map (fun m : ℕ => (m : ℤ)))) n hn hp (by
    intro g hg
    obtain ⟨g', hg', rfl⟩ := List.mem_map.1 hg
    simpa using he g' hg')
  rw [List.length_map] at hok
  refine ⟨gs, _, h1, hfile, hok, ?_⟩
  refine (C38_ownership_partial _ n _ hok ?_ ?_).2
  · rw [hp.nodup_iff, List.nodup_map_iff (fun a b h => by exact_mod_cast h)]
    exact List.nodup_range
  · intro x hx
    obtain ⟨i, _, rfl⟩ := List.mem_map.1 (hp.mem_iff.1 hx)
    exact Int.natCast_nonneg i

/-- C38: without an assignment file, rank r owns block r. -/
theorem C38_default (size : ℕ) (h : 0 < size) :
    bootstrapCheck size size (groupsOr size none) = .ok () ∧ ∀ b < size, commRank (groupsOr size none) (b : ℤ) = some b := by
  have hf : (groupsOr size none).flatten = (List.range size).map (fun i : ℕ => (i : ℤ)) := by
    unfold groupsOr
    induction List.range size with
    | nil => rfl
    | cons x xs ih => simp [ih]
  have hl : (groupsOr size none).length = size := by simp [groupsOr]
  have hok := bootstrap_of_partition (groupsOr size none) size h (by rw [hf]) (by
    intro g hg; unfold groupsOr at hg; obtain ⟨i, _, rfl⟩ := List.mem_map.1 hg; simp)
  rw [hl] at hok
  refine ⟨hok, ?_⟩
  intro b hb
  apply (C38_commRank _ _).2.2 b (by rw [hl]; exact hb)
  · simp [groupsOr]
  · intro s hs hm
    simp [groupsOr] at hm
    omega

end PG.Setup
