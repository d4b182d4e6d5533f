import Verif.Comm.Lemmas
import Verif.Halo.Props
/-
C07: `communicate` cannot deadlock.
-/
namespace PG.Comm
open PG.Topo PG.Halo

theorem reach_inv (nv : Nat) (world : List (List Block)) (buffers) (s : State) (k : Nat)
    (h : Reach world.length buffers (start nv world) s k) :
    Inv world.length nv (fun r => recvsOf (world.getD r [])) (fun r => sendsOf (world.getD r [])) s ∧
    remaining world.length s + k = remaining world.length (start nv world) := by
  induction h with
  | refl => exact ⟨fun r hr => by simp [start], by simp⟩
  | step h1 h2 ih =>
    refine ⟨inv_step _ _ _ _ _ _ _ ih.1 h2, ?_⟩
    have := remaining_step _ _ _ _ h2
    omega

/-- C07 (progress): in a reciprocally connected decomposition, in every state reachable by any schedule, if some rank
    has not finished `communicate`, then some rank can complete its next MPI call. `buffers` says for which sends
    the MPI library has buffer space; it is arbitrary, in particular it may be constantly `false`. -/
theorem C07_no_deadlock (nv : Nat) (world : List (List Block)) (hw : WellConnected world)
    (buffers : State → Nat → Bool) (s : State) (k : Nat)
    (h : Reach world.length buffers (start nv world) s k)
    (hun : ∃ r, r < world.length ∧ (s r).todo ≠ []) :
    ∃ s', Step world.length buffers s s' := by
  obtain ⟨hinv, _⟩ := reach_inv nv world buffers s k h
  obtain ⟨r, hr, he⟩ := progress world.length nv _ _ buffers s hinv
    (by
      intro r hr p hp
      obtain ⟨b, hb, f, hf, nb, nf2, hn, _, rfl⟩ := (mem_sendsOf world r p).1 hp
      obtain ⟨b', _, h1, _⟩ := partner world hw r b hb f hf nb hn
      exact owns_lt world _ b' h1)
    (by
      intro r hr p hp
      obtain ⟨b, hb, f, hf, hn, rfl⟩ := (mem_recvsOf world r p).1 hp
      cases hn' : f.neighbor with
      | none => exact absurd hn' hn
      | some nb =>
        obtain ⟨b', _, h1, _⟩ := partner world hw r b hb f hf nb hn'
        exact owns_lt world _ b' h1)
    (fun r d t _ _ => counts_match world hw r d t) hun
  exact ⟨_, r, hr, he, rfl⟩

/-- C07 (termination): no schedule is longer than the total number of MPI calls; a schedule of exactly that length has
    finished every rank. Together with `C07_no_deadlock`: every maximal schedule completes on every rank. -/
theorem C07_terminates (nv : Nat) (world : List (List Block)) (buffers : State → Nat → Bool) (s : State) (k : Nat)
    (h : Reach world.length buffers (start nv world) s k) :
    k ≤ remaining world.length (start nv world) ∧
    (k = remaining world.length (start nv world) → ∀ r, r < world.length → (s r).todo = []) := by
  obtain ⟨_, hr⟩ := reach_inv nv world buffers s k h
  refine ⟨by omega, ?_⟩
  intro e r hlt
  have h0 : remaining world.length s = 0 := by omega
  unfold remaining at h0
  have := List.sum_eq_zero_iff_forall_eq_nat.1 h0 _ (List.mem_map.2 ⟨r, by simpa using hlt, rfl⟩)
  exact List.eq_nil_of_length_eq_zero this

/-- C07 (completion): a schedule that cannot be continued has executed the whole program on every rank, i.e. every
    receive of every variable has been waited for, and every rank passed all `nv` barriers. -/
theorem C07_stuck_is_finished (nv : Nat) (world : List (List Block)) (hw : WellConnected world)
    (buffers : State → Nat → Bool) (s : State) (k : Nat)
    (h : Reach world.length buffers (start nv world) s k) (hstuck : ¬ ∃ s', Step world.length buffers s s') :
    ∀ r, r < world.length → (s r).done = prog nv (recvsOf (world.getD r [])) (sendsOf (world.getD r [])) := by
  obtain ⟨hinv, _⟩ := reach_inv nv world buffers s k h
  intro r hr
  have : (s r).todo = [] := by
    apply Classical.byContradiction
    intro hne
    exact hstuck (C07_no_deadlock nv world hw buffers s k h ⟨r, hr, hne⟩)
  have h2 := hinv r hr
  rwa [this, List.append_nil] at h2

/-- C07 (no mixing of variables): ranks are never more than one variable apart, so a message of one variable cannot be
    taken for another variable's. -/
theorem C07_lockstep (nv : Nat) (world : List (List Block)) (buffers : State → Nat → Bool) (s : State) (k : Nat)
    (h : Reach world.length buffers (start nv world) s k) (r r' : Nat) (hr : r < world.length)
    (hr' : r' < world.length) :
    (s r).done.count .barrier ≤ (s r').done.count .barrier + 1 := by
  suffices H : ∀ r r', r < world.length → r' < world.length →
      (s r).done.count .barrier ≤ (s r').done.count .barrier + 1 ∧
      ((s r).done.count .barrier = (s r').done.count .barrier + 1 → (s r').todo.head? = some .barrier) from
    (H r r' hr hr').1
  clear hr hr' r r'
  induction h with
  | refl => intro r r' _ _; simp [start]
  | @step s1 s2 k h1 h2 ih =>
    obtain ⟨q, hq, he, rfl⟩ := h2
    have hne := enabled_todo _ _ _ _ he
    cases ht : (s1 q).todo with
    | nil => exact absurd ht hne
    | cons op rest =>
      have hadv : ∀ r, (advance s1 q) r = if r = q then ⟨(s1 q).done ++ [op], rest⟩ else s1 r := by
        intro r; unfold advance; split <;> simp [ht]
      intro r r' hr hr'
      rw [hadv, hadv]
      by_cases hop : op = .barrier
      · subst hop
        simp only [enabled, ht] at he
        have hc : ((s1 q).done ++ [Op.barrier]).count .barrier = (s1 q).done.count .barrier + 1 := by simp
        by_cases e : r = q <;> by_cases e' : r' = q
        · subst e; subst e'; simp
        · subst e
          rw [if_pos rfl, if_neg e']
          dsimp only
          rw [hc]
          rcases he r' hr' with hx | ⟨hx, hy⟩
          · exact ⟨by omega, fun hz => by omega⟩
          · exact ⟨by omega, fun _ => hy⟩
        · subst e'
          rw [if_neg e, if_pos rfl]
          dsimp only
          rw [hc]
          have := (ih r r' hr hr').1
          refine ⟨by omega, fun hz => ?_⟩
          -- r is two ahead: impossible
          rcases he r hr with hx | ⟨hx, _⟩ <;> omega
        · rw [if_neg e, if_neg e']; exact ih r r' hr hr'
      · have hc : ((s1 q).done ++ [op]).count .barrier = (s1 q).done.count .barrier := by
          simp [List.count_append, hop]
        by_cases e : r = q <;> by_cases e' : r' = q
        · subst e; subst e'; simp
        · subst e
          rw [if_pos rfl, if_neg e']
          dsimp only
          rw [hc]
          exact ih r r' hr hr'
        · subst e'
          rw [if_neg e, if_pos rfl]
          dsimp only
          rw [hc]
          have := ih r r' hr hr'
          refine ⟨this.1, fun hz => ?_⟩
          have h3 := this.2 hz
          rw [ht] at h3
          exact absurd (by simpa using h3) hop
        · rw [if_neg e, if_neg e']; exact ih r r' hr hr'

/-! Non-vacuity: the two-rank example grid of `Halo.Props` is well connected; its ranks really have calls to make. -/
example : WellConnected exWorld ∧ remaining exWorld.length (start 2 exWorld) = 16 := ⟨exWell, by decide⟩

end PG.Comm
