import Verif.Run.Props
import Mathlib.Data.List.Infix
import Mathlib.Data.Nat.Find

/-! C50: what the driver loop does, for every iteration count, interval and point at which the solution goes bad. -/
namespace PG.Run

/-- the NaN check is due at iteration number `n` and finds a bad solution -/
def Detects (cf : LConf) (bad : ℕ → Bool) (n : ℕ) : Prop := cf.checkNan ≠ 0 ∧ n % cf.checkNan = 0 ∧ bad n = true

instance (cf : LConf) (bad : ℕ → Bool) (n : ℕ) : Decidable (Detects cf bad n) := by unfold Detects; infer_instance

theorem body_cont (cf : LConf) (n : ℕ) (bad : ℕ → Bool) : (body cf n (bad n)).2 = true ↔ ¬ Detects cf bad n := by
  unfold body Detects
  simp only
  split_ifs with h1 h2 <;> simp_all

/-- number of iterations performed: all of them, or up to the first detection -/
def performed (cf : LConf) (bad : ℕ → Bool) : ℕ → ℕ → ℕ
  | 0, _ => 0
  | n+1, nrt => if Detects cf bad (nrt+1) then 1 else 1 + performed cf bad n (nrt+1)

theorem performed_spec (cf : LConf) (bad : ℕ → Bool) (niter nrt : ℕ) :
    performed cf bad niter nrt ≤ niter ∧
    (∀ i, 1 ≤ i → i < performed cf bad niter nrt → ¬ Detects cf bad (nrt + i)) ∧
    (performed cf bad niter nrt < niter → Detects cf bad (nrt + performed cf bad niter nrt)) ∧
    (0 < niter → 0 < performed cf bad niter nrt) := by
  induction niter generalizing nrt with
  | zero => simp [performed]
  | succ n ih =>
    unfold performed
    split_ifs with h
    · exact ⟨by omega, fun i h1 h2 => by omega, fun _ => h, fun _ => by omega⟩
    · obtain ⟨h1, h2, h3, -⟩ := ih (nrt+1)
      refine ⟨by omega, fun i hi hlt => ?_, fun hlt => ?_, fun _ => by omega⟩
      · rcases Nat.eq_or_lt_of_le hi with rfl | hi
        · exact h
        · have := h2 (i-1) (by omega) (by omega)
          rwa [show nrt + 1 + (i - 1) = nrt + i by omega] at this
      · have := h3 (by omega)
        rwa [show nrt + 1 + performed cf bad n (nrt+1) = nrt + (1 + performed cf bad n (nrt+1)) by omega] at this

/-- the trace is the concatenation of the bodies of the performed iterations -/
theorem loop_eq (cf : LConf) (bad : ℕ → Bool) (niter nrt : ℕ) :
    loop cf bad niter nrt = (List.range (performed cf bad niter nrt)).flatMap fun i => (body cf (nrt + i + 1) (bad (nrt + i + 1))).1 := by
  induction niter generalizing nrt with
  | zero => rfl
  | succ n ih =>
    unfold loop performed
    simp only
    by_cases h : Detects cf bad (nrt+1)
    · have hb : (body cf (nrt+1) (bad (nrt+1))).2 = false := by
        have := (body_cont cf (nrt+1) bad).not.2 (not_not.2 h)
        simpa using this
      rw [if_pos h, hb]
      simp
    · rw [if_neg h, (body_cont cf (nrt+1) bad).2 h, if_pos rfl, ih, Nat.add_comm 1, List.range_succ_eq_map, List.flatMap_cons,
        List.flatMap_map]
      simp only [Nat.add_zero, Nat.succ_eq_add_one]
      congr 1
      refine List.flatMap_congr ?_
      intro i _
      rw [show nrt + 1 + i + 1 = nrt + (i + 1) + 1 by omega]

theorem mem_body {cf : LConf} {n : ℕ} {bad : ℕ → Bool} {e : Ev} : e ∈ (body cf n (bad n)).1 ↔
    e = .step ∨ (n % cf.niterRestart = 0 ∧ (e = .restart n ∨ (cf.dualTime = true ∧ e = .qnm1 n))) ∨
    (n % cf.niterArchive = 0 ∧ e = .archive n) ∨ ((cf.checkNan ≠ 0 ∧ n % cf.checkNan = 0) ∧ e = .nanCheck n) ∨
    (Detects cf bad n ∧ e = .emergency) ∨ (¬ Detects cf bad n ∧ e = .coproc n) := by
  unfold body Detects
  simp only
  by_cases h1 : n % cf.niterRestart = 0 <;> by_cases h2 : n % cf.niterArchive = 0 <;> cases h3 : cf.dualTime <;>
    by_cases h4 : cf.checkNan ≠ 0 ∧ n % cf.checkNan = 0 <;> cases h5 : bad n <;>
    simp [h1, h2, h4] <;> tauto

theorem mem_simulate {cf : LConf} {bad : ℕ → Bool} {niter nrt : ℕ} {e : Ev} :
    e ∈ simulate cf bad niter nrt ↔ e = .finalize ∨ ∃ i, 1 ≤ i ∧ i ≤ performed cf bad niter nrt ∧
      e ∈ (body cf (nrt + i) (bad (nrt + i))).1 := by
  unfold simulate
  rw [List.mem_append, loop_eq, List.mem_flatMap]
  simp only [List.mem_range, List.mem_singleton]
  constructor
  · rintro (⟨i, h1, h2⟩ | h)
    · exact Or.inr ⟨i+1, by omega, by omega, by rwa [← Nat.add_assoc]⟩
    · exact Or.inl h
  · rintro (h | ⟨i, h1, h2, h3⟩)
    · exact Or.inr h
    · refine Or.inl ⟨i-1, by omega, ?_⟩
      rwa [show nrt + (i-1) + 1 = nrt + i by omega]

theorem count_body_step (cf : LConf) (n : ℕ) (b : Bool) : (body cf n b).1.count .step = 1 := by
  unfold body
  by_cases h1 : n % cf.niterRestart = 0 <;> by_cases h2 : n % cf.niterArchive = 0 <;> cases h3 : cf.dualTime <;>
    by_cases h4 : cf.checkNan ≠ 0 ∧ n % cf.checkNan = 0 <;> cases b <;> simp [h1, h2, h4, List.count_cons]

/-- C50: the driver performs exactly `niter` steps unless a check finds a bad solution; then it performs the steps up to the
    first such check (the detecting iteration is the first one at which a check is due and the solution is bad). -/
theorem C50_steps (cf : LConf) (bad : ℕ → Bool) (niter nrt : ℕ) :
    ((∀ i, 1 ≤ i → i ≤ niter → ¬ Detects cf bad (nrt + i)) → (simulate cf bad niter nrt).count .step = niter) ∧
    (∀ i, 1 ≤ i → i ≤ niter → Detects cf bad (nrt + i) → (∀ j, 1 ≤ j → j < i → ¬ Detects cf bad (nrt + j)) →
      (simulate cf bad niter nrt).count .step = i) := by
  have hc : (simulate cf bad niter nrt).count .step = performed cf bad niter nrt := by
    unfold simulate
    rw [List.count_append, loop_eq, List.count_flatMap]
    have : (List.count Ev.step ∘ fun i => (body cf (nrt + i + 1) (bad (nrt + i + 1))).1) = fun _ => 1 := by
      funext i; exact count_body_step _ _ _
    rw [this]
    simp
  obtain ⟨h1, h2, h3, h4⟩ := performed_spec cf bad niter nrt
  rw [hc]
  refine ⟨fun h => ?_, fun i hi hn hd hf => ?_⟩
  · by_contra hne
    have hlt : performed cf bad niter nrt < niter := by omega
    exact h _ (h4 (by omega)) h1 (h3 hlt)
  · by_contra hne
    rcases Nat.lt_or_gt_of_ne hne with hlt | hlt
    · exact hf _ (h4 (by omega)) hlt (h3 (by omega))
    · exact h2 i hi hlt hd

/-- C50: restarts, the dual-time companion file, archives, NaN checks and coprocessing happen exactly at the performed
    iterations whose number is a multiple of the configured interval. -/
theorem C50_schedule (cf : LConf) (bad : ℕ → Bool) (niter nrt n : ℕ) (hn : (simulate cf bad niter nrt).count .step = n) (m : ℕ) :
    (Ev.restart m ∈ simulate cf bad niter nrt ↔ nrt < m ∧ m ≤ nrt + n ∧ m % cf.niterRestart = 0) ∧
    (Ev.qnm1 m ∈ simulate cf bad niter nrt ↔ cf.dualTime = true ∧ nrt < m ∧ m ≤ nrt + n ∧ m % cf.niterRestart = 0) ∧
    (Ev.archive m ∈ simulate cf bad niter nrt ↔ nrt < m ∧ m ≤ nrt + n ∧ m % cf.niterArchive = 0) ∧
    (Ev.nanCheck m ∈ simulate cf bad niter nrt ↔ nrt < m ∧ m ≤ nrt + n ∧ cf.checkNan ≠ 0 ∧ m % cf.checkNan = 0) ∧
    (Ev.coproc m ∈ simulate cf bad niter nrt ↔ nrt < m ∧ m ≤ nrt + n ∧ ¬ Detects cf bad m) := by
  have hc : performed cf bad niter nrt = n := by
    rw [← hn]
    unfold simulate
    rw [List.count_append, loop_eq, List.count_flatMap]
    have : (List.count Ev.step ∘ fun i => (body cf (nrt + i + 1) (bad (nrt + i + 1))).1) = fun _ => 1 := by
      funext i; exact count_body_step _ _ _
    rw [this]
    simp
  have conv : ∀ (P : ℕ → Prop), (∃ i, 1 ≤ i ∧ i ≤ n ∧ (m = nrt + i ∧ P (nrt + i))) ↔ nrt < m ∧ m ≤ nrt + n ∧ P m := by
    intro P
    constructor
    · rintro ⟨i, h1, h2, rfl, h3⟩; exact ⟨by omega, by omega, h3⟩
    · rintro ⟨h1, h2, h3⟩
      exact ⟨m - nrt, by omega, by omega, by omega, by rwa [show nrt + (m - nrt) = m by omega]⟩
  simp only [mem_simulate, hc, mem_body]
  refine ⟨?_, ?_, ?_, ?_, ?_⟩
  · rw [← conv fun k => k % cf.niterRestart = 0]
    simp only [reduceCtorEq, false_or, and_false, or_false, Ev.restart.injEq]
    exact exists_congr fun i => by tauto
  · simp only [reduceCtorEq, false_or, and_false, or_false, Ev.qnm1.injEq]
    constructor
    · rintro ⟨i, h1, h2, h3, h4, h5⟩
      exact ⟨h4, by omega, by omega, by rw [h5]; exact h3⟩
    · rintro ⟨h3, h1, h2, h4⟩
      exact ⟨m - nrt, by omega, by omega, by rwa [show nrt + (m - nrt) = m by omega], h3, by omega⟩
  · rw [← conv fun k => k % cf.niterArchive = 0]
    simp only [reduceCtorEq, false_or, and_false, or_false, Ev.archive.injEq]
    exact exists_congr fun i => by tauto
  · rw [← conv fun k => cf.checkNan ≠ 0 ∧ k % cf.checkNan = 0]
    simp only [reduceCtorEq, false_or, and_false, or_false, Ev.nanCheck.injEq]
    exact exists_congr fun i => by tauto
  · rw [← conv fun k => ¬ Detects cf bad k]
    simp only [reduceCtorEq, false_or, and_false, Ev.coproc.injEq]
    exact exists_congr fun i => by tauto

/-- C50: after a detection only the emergency output and the finalisation follow: the trace ends with them, and the emergency
    output occurs exactly once, exactly when a check found a bad solution. -/
theorem C50_abort (cf : LConf) (bad : ℕ → Bool) (niter nrt : ℕ) :
    (Ev.emergency ∈ simulate cf bad niter nrt ↔ ∃ i, 1 ≤ i ∧ i ≤ niter ∧ Detects cf bad (nrt + i)) ∧
    (Ev.emergency ∈ simulate cf bad niter nrt → ∃ pre m, simulate cf bad niter nrt = pre ++ [.nanCheck m, .emergency, .finalize] ∧
      Ev.emergency ∉ pre ∧ bad m = true) := by
  obtain ⟨h1, h2, h3, h4⟩ := performed_spec cf bad niter nrt
  set n := performed cf bad niter nrt with hn
  have hiff : Ev.emergency ∈ simulate cf bad niter nrt ↔ ∃ i, 1 ≤ i ∧ i ≤ n ∧ Detects cf bad (nrt + i) := by
    rw [mem_simulate]
    simp only [mem_body, reduceCtorEq, false_or, and_false, or_false, and_true]
    rfl
  have last : ∀ i, 1 ≤ i → i ≤ n → Detects cf bad (nrt + i) → i = n := by
    intro i hi hin hd
    by_contra hne
    exact h2 i hi (by omega) hd
  refine ⟨?_, ?_⟩
  · rw [hiff]
    constructor
    · rintro ⟨i, a, b, c⟩; exact ⟨i, a, by omega, c⟩
    · rintro ⟨i, a, b, c⟩
      refine ⟨n, h4 (by omega), le_rfl, ?_⟩
      by_cases hlt : n < niter
      · exact h3 hlt
      · have : n = niter := by omega
        by_contra hnd
        have : i < n := by
          rcases Nat.lt_or_ge i n with h | h
          · exact h
          · have : i = n := by omega
            rw [this] at c; exact absurd c hnd
        exact h2 i a this c
  · intro he
    obtain ⟨i, a, b, c⟩ := hiff.1 he
    have hin := last i a b c
    subst hin
    obtain ⟨k, hk⟩ : ∃ k, n = k + 1 := ⟨n - 1, by omega⟩
    have hb : ∃ pre, (body cf (nrt + k + 1) (bad (nrt + k + 1))).1 = pre ++ [.nanCheck (nrt+k+1), .emergency] ∧ Ev.emergency ∉ pre := by
      have c' := c
      rw [hk, ← Nat.add_assoc] at c'
      unfold body
      simp only
      rw [if_pos ⟨c'.1, c'.2.1⟩, if_pos c'.2.2]
      refine ⟨_, rfl, ?_⟩
      by_cases x1 : (nrt + k + 1) % cf.niterRestart = 0 <;> by_cases x2 : (nrt + k + 1) % cf.niterArchive = 0 <;>
        cases x3 : cf.dualTime <;> simp [x1, x2]
    obtain ⟨pre, hp, hpe⟩ := hb
    refine ⟨((List.range k).flatMap fun i => (body cf (nrt + i + 1) (bad (nrt + i + 1))).1) ++ pre, nrt+k+1, ?_, ?_, ?_⟩
    · unfold simulate
      rw [loop_eq, ← hn, hk, List.range_succ, List.flatMap_append, List.flatMap_cons, List.flatMap_nil, hp]
      simp
    · rw [List.mem_append]
      rintro (hm | hm)
      · rw [List.mem_flatMap] at hm
        obtain ⟨i, hi, hm⟩ := hm
        have := List.mem_range.1 hi
        rw [mem_body] at hm
        simp only [reduceCtorEq, false_or, and_false, or_false, and_true] at hm
        exact h2 (i+1) (by omega) (by omega) (by rwa [← Nat.add_assoc])
      · exact hpe hm
    · have c' := c
      rw [hk, ← Nat.add_assoc] at c'
      exact c'.2.2

/-- C50: no regular restart, archive or coprocessing of any iteration is done after the emergency output -/
theorem C50_nothing_after (cf : LConf) (bad : ℕ → Bool) (niter nrt : ℕ) (pre post : List Ev)
    (h : simulate cf bad niter nrt = pre ++ .emergency :: post) : post = [.finalize] := by
  have hm : Ev.emergency ∈ simulate cf bad niter nrt := by rw [h]; simp
  obtain ⟨pre', m, hp, hne, -⟩ := (C50_abort cf bad niter nrt).2 hm
  have e : (pre' ++ [.nanCheck m]) ++ Ev.emergency :: [.finalize] = pre ++ .emergency :: post := by
    rw [← h, hp]; simp
  have hne' : Ev.emergency ∉ pre' ++ [.nanCheck m] := by simp [hne]
  have hlen : (pre' ++ [Ev.nanCheck m]).length ≤ pre.length := by
    by_contra hlt
    push Not at hlt
    have h1 : ((pre' ++ [Ev.nanCheck m]) ++ Ev.emergency :: [.finalize])[pre.length]? = some Ev.emergency := by
      rw [e, List.getElem?_append_right le_rfl]; simp
    rw [List.getElem?_append_left hlt] at h1
    exact hne' (List.mem_of_getElem? h1)
  have hlen2 : pre.length + 1 + post.length = (pre' ++ [Ev.nanCheck m]).length + 2 := by
    have := congrArg List.length e
    simp only [List.length_append, List.length_cons, List.length_nil] at this ⊢
    omega
  by_cases hp0 : pre.length = (pre' ++ [Ev.nanCheck m]).length
  · have := List.append_inj e hp0.symm
    have h2 := this.2
    simp only [List.cons.injEq, true_and] at h2
    exact h2.symm
  · have hx : pre.length = (pre' ++ [Ev.nanCheck m]).length + 1 := by omega
    have h1 : ((pre' ++ [Ev.nanCheck m]) ++ Ev.emergency :: [.finalize])[pre.length]? = some Ev.emergency := by
      rw [e, List.getElem?_append_right le_rfl]; simp
    rw [List.getElem?_append_right (by omega), hx] at h1
    simp at h1

/-- C50 finding: the regular restart comes before the NaN check of the same iteration, so a solution that has already gone
    bad is written as a regular restart (and, without animated file names, replaces the last good one). -/
theorem C50_bad_restart_violated : ∃ (cf : LConf) (bad : ℕ → Bool),
    simulate cf bad 5 0 = [.step, .coproc 1, .step, .restart 2, .nanCheck 2, .emergency, .finalize] ∧ bad 2 = true :=
  ⟨⟨2, 1000, 2, false⟩, fun n => n == 2, by decide, by decide⟩

/-- a run of five iterations with restarts every two, archives every three, checks every step -/
example : simulate ⟨2, 3, 1, true⟩ (fun _ => false) 3 0 =
    [.step, .nanCheck 1, .coproc 1, .step, .restart 2, .qnm1 2, .nanCheck 2, .coproc 2, .step, .archive 3, .nanCheck 3, .coproc 3, .finalize] := by
  decide

end PG.Run
