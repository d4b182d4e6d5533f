import Verif.Comm.Model
import Verif.Halo.System
namespace PG.Comm
open PG.Topo PG.Halo

/-! ### prefixes of repeated rounds -/

/-- a round without its final barrier -/
def body (recvs sends : List (Nat × Nat)) : List Op :=
  recvs.map (fun p => Op.irecv p.1 p.2) ++ sends.map (fun p => Op.send p.1 p.2)
    ++ recvs.map (fun p => Op.wait p.1 p.2)

theorem round_eq (R S : List (Nat × Nat)) : roundProg R S = body R S ++ [Op.barrier] := rfl

theorem body_no_barrier (R S : List (Nat × Nat)) : Op.barrier ∉ body R S := by
  simp [body]

theorem split_round (Q : List Op) (hQ : Op.barrier ∉ Q) (nv : Nat) (dn td : List Op)
    (h : dn ++ td = (List.replicate nv (Q ++ [Op.barrier])).flatten) (m : Nat) (hm : dn.count Op.barrier = m)
    (hlt : m < nv) :
    ∃ pre suf, dn = (List.replicate m (Q ++ [Op.barrier])).flatten ++ pre ∧ Q ++ [Op.barrier] = pre ++ suf ∧
      suf ≠ [] ∧ ∃ rest, td = suf ++ rest := by
  induction m generalizing nv dn with
  | zero =>
    obtain ⟨k, rfl⟩ : ∃ k, nv = k + 1 := ⟨nv - 1, by omega⟩
    rw [List.replicate_succ, List.flatten_cons, List.append_assoc] at h
    rcases List.append_eq_append_iff.1 h with ⟨a', h1, h2⟩ | ⟨c', h1, h2⟩
    · exact ⟨dn, a' ++ [Op.barrier], by simp, by rw [h1]; simp, by simp, (List.replicate k (Q ++ [Op.barrier])).flatten, by rw [h2]; simp⟩
    · cases c' with
      | nil =>
        simp at h1 h2
        exact ⟨dn, [Op.barrier], by simp, by rw [h1], by simp, (List.replicate k (Q ++ [Op.barrier])).flatten, by rw [← h2]; rfl⟩
      | cons x c' =>
        simp only [List.cons_append] at h2
        have hx : x = Op.barrier := by simpa using (List.cons.inj h2).1.symm
        rw [h1, hx] at hm
        simp at hm
  | succ m ih =>
    obtain ⟨k, rfl⟩ : ∃ k, nv = k + 1 := ⟨nv - 1, by omega⟩
    rw [List.replicate_succ, List.flatten_cons, List.append_assoc] at h
    rcases List.append_eq_append_iff.1 h with ⟨a', h1, h2⟩ | ⟨c', h1, h2⟩
    · have : Op.barrier ∉ dn := fun hh => hQ (by rw [h1]; simp [hh])
      rw [List.count_eq_zero_of_not_mem this] at hm
      omega
    · cases c' with
      | nil =>
        simp at h1
        rw [h1, List.count_eq_zero_of_not_mem hQ] at hm
        omega
      | cons x c' =>
        have h3 := List.cons.inj (by simpa using h2 : Op.barrier :: _ = x :: (c' ++ td))
        obtain ⟨hx, h4⟩ := h3
        subst hx
        rw [h1, List.count_append, List.count_eq_zero_of_not_mem hQ] at hm
        simp at hm
        obtain ⟨pre, suf, p1, p2, p3, p4⟩ := ih k c' h4.symm hm (by omega)
        refine ⟨pre, suf, ?_, p2, p3, p4⟩
        rw [h1, p1, List.replicate_succ, List.flatten_cons]
        simp

theorem full_rounds (Q : List Op) (hQ : Op.barrier ∉ Q) (nv : Nat) (dn td : List Op)
    (h : dn ++ td = (List.replicate nv (Q ++ [Op.barrier])).flatten) (m : Nat) (hm : m ≤ dn.count Op.barrier) :
    ∃ rest, dn = (List.replicate m (Q ++ [Op.barrier])).flatten ++ rest := by
  induction m generalizing nv dn with
  | zero => exact ⟨dn, by simp⟩
  | succ m ih =>
    cases nv with
    | zero =>
      simp at h
      rw [h.1] at hm
      simp at hm
    | succ k =>
    rw [List.replicate_succ, List.flatten_cons, List.append_assoc] at h
    rcases List.append_eq_append_iff.1 h with ⟨a', h1, h2⟩ | ⟨c', h1, h2⟩
    · have : Op.barrier ∉ dn := fun hh => hQ (by rw [h1]; simp [hh])
      rw [List.count_eq_zero_of_not_mem this] at hm
      omega
    · cases c' with
      | nil =>
        simp at h1
        rw [h1, List.count_eq_zero_of_not_mem hQ] at hm
        omega
      | cons x c' =>
        have h3 := List.cons.inj (by simpa using h2 : Op.barrier :: _ = x :: (c' ++ td))
        obtain ⟨hx, h4⟩ := h3
        subst hx
        rw [h1, List.count_append, List.count_eq_zero_of_not_mem hQ] at hm
        simp at hm
        obtain ⟨rest, p1⟩ := ih k c' h4.symm hm
        refine ⟨rest, ?_⟩
        rw [h1, p1, List.replicate_succ, List.flatten_cons]
        simp

theorem count_flatten_replicate (m : Nat) (P : List Op) (x : Op) :
    (List.replicate m P).flatten.count x = m * P.count x := by
  induction m with
  | zero => simp
  | succ m ih => rw [List.replicate_succ, List.flatten_cons, List.count_append, ih, Nat.succ_mul, Nat.add_comm]

theorem finished_of_count (Q : List Op) (hQ : Op.barrier ∉ Q) (nv : Nat) (dn td : List Op)
    (h : dn ++ td = (List.replicate nv (Q ++ [Op.barrier])).flatten) (hc : nv ≤ dn.count Op.barrier) : td = [] := by
  obtain ⟨rest, hr⟩ := full_rounds Q hQ nv dn td h nv hc
  rw [hr, List.append_assoc] at h
  have : rest ++ td = [] := List.append_cancel_left (h.trans (by simp))
  simp at this
  exact this.2

/-! ### counting inside a round -/

theorem count_irecv (R S : List (Nat × Nat)) (r t : Nat) :
    (roundProg R S).count (.irecv r t) = R.count (r, t) := by
  have h1 : (R.map (fun p => Op.irecv p.1 p.2)).count (.irecv r t) = R.count (r, t) := by
    induction R with
    | nil => rfl
    | cons p R ih =>
      obtain ⟨a, b⟩ := p
      have e : ∀ a' b' : Nat, ((a, b) == (a', b')) = decide (a = a' ∧ b = b') := by
        intro a' b'; by_cases h : a = a' ∧ b = b' <;> simp [Prod.ext_iff, h]
      simp only [List.map_cons, List.count_cons, ih, e]
      congr 1
      by_cases h : a = r ∧ b = t <;> simp [h]
  simp [roundProg, List.count_append, h1, List.count_eq_zero]

theorem count_send (R S : List (Nat × Nat)) (r t : Nat) :
    (roundProg R S).count (.send r t) = S.count (r, t) := by
  have h1 : (S.map (fun p => Op.send p.1 p.2)).count (.send r t) = S.count (r, t) := by
    induction S with
    | nil => rfl
    | cons p R ih =>
      obtain ⟨a, b⟩ := p
      have e : ∀ a' b' : Nat, ((a, b) == (a', b')) = decide (a = a' ∧ b = b') := by
        intro a' b'; by_cases h : a = a' ∧ b = b' <;> simp [Prod.ext_iff, h]
      simp only [List.map_cons, List.count_cons, ih, e]
      congr 1
      by_cases h : a = r ∧ b = t <;> simp [h]
  have z1 : ∀ l : List (Nat × Nat), (l.map (fun p => Op.irecv p.1 p.2)).count (.send r t) = 0 := fun l => List.count_eq_zero.2 (by simp)
  have z2 : ∀ l : List (Nat × Nat), (l.map (fun p => Op.wait p.1 p.2)).count (.send r t) = 0 := fun l => List.count_eq_zero.2 (by simp)
  simp [roundProg, List.count_append, h1, z1, z2]

theorem count_wait (R S : List (Nat × Nat)) (r t : Nat) :
    (roundProg R S).count (.wait r t) = R.count (r, t) := by
  have h1 : (R.map (fun p => Op.wait p.1 p.2)).count (.wait r t) = R.count (r, t) := by
    induction R with
    | nil => rfl
    | cons p R ih =>
      obtain ⟨a, b⟩ := p
      have e : ∀ a' b' : Nat, ((a, b) == (a', b')) = decide (a = a' ∧ b = b') := by
        intro a' b'; by_cases h : a = a' ∧ b = b' <;> simp [Prod.ext_iff, h]
      simp only [List.map_cons, List.count_cons, ih, e]
      congr 1
      by_cases h : a = r ∧ b = t <;> simp [h]
  have z1 : ∀ l : List (Nat × Nat), (l.map (fun p => Op.irecv p.1 p.2)).count (.wait r t) = 0 := fun l => List.count_eq_zero.2 (by simp)
  have z3 : ∀ l : List (Nat × Nat), (l.map (fun p => Op.send p.1 p.2)).count (.wait r t) = 0 := fun l => List.count_eq_zero.2 (by simp)
  simp [roundProg, List.count_append, h1, z1, z3]

/-- If the next call of a split list is not in the first part, the first part has been completed. -/
theorem prefix_done (A B pre suf : List Op) (x : Op) (h : A ++ B = pre ++ x :: suf) (hx : x ∉ A) :
    ∃ c, pre = A ++ c := by
  rcases List.append_eq_append_iff.1 h with ⟨a', h1, _⟩ | ⟨c', h1, h2⟩
  · exact ⟨a', h1⟩
  · cases c' with
    | nil => exact ⟨[], by simpa using h1.symm⟩
    | cons y c' =>
      have : x = y := (List.cons.inj (by simpa using h2 : x :: suf = y :: (c' ++ B))).1
      exact absurd (by rw [h1, this]; simp) hx

/-! ### general progress for matched programs -/

/-- Invariant: each rank is somewhere inside its program. -/
def Inv (n nv : Nat) (R S : Nat → List (Nat × Nat)) (s : State) : Prop :=
  ∀ r, r < n → (s r).done ++ (s r).todo = prog nv (R r) (S r)

theorem inv_step (n nv : Nat) (R S : Nat → List (Nat × Nat)) (buffers) (s s' : State) (h : Inv n nv R S s)
    (hs : Step n buffers s s') : Inv n nv R S s' := by
  obtain ⟨r, hr, he, rfl⟩ := hs
  intro r' hr'
  unfold advance
  split
  · rename_i e
    subst e
    have := h r' hr'
    cases ht : (s r').todo with
    | nil => simpa [ht] using this
    | cons op rest => simpa [ht] using this
  · exact h r' hr'

theorem exists_min (n : Nat) (hn : 0 < n) (f : Nat → Nat) : ∃ r, r < n ∧ ∀ r', r' < n → f r ≤ f r' := by
  induction n with
  | zero => omega
  | succ n ih =>
    by_cases h0 : n = 0
    · subst h0
      exact ⟨0, by omega, fun r' h => by have : r' = 0 := by omega
                                         subst this; exact Nat.le_refl _⟩
    · obtain ⟨r, hr, hm⟩ := ih (by omega)
      by_cases hc : f r ≤ f n
      · refine ⟨r, by omega, fun r' h => ?_⟩
        by_cases e : r' = n
        · rw [e]; exact hc
        · exact hm r' (by omega)
      · refine ⟨n, by omega, fun r' h => ?_⟩
        by_cases e : r' = n
        · rw [e]; exact Nat.le_refl _
        · exact Nat.le_trans (by omega) (hm r' (by omega))

/-- Progress: if sends and receives of the ranks match up (same number of sends `r → d` with tag `t` as receives on `d`
    from `r` with tag `t`), then in any state inside the program, unless all ranks are finished, some rank can complete
    its next call, even if no send is ever buffered. -/
theorem progress (n nv : Nat) (R S : Nat → List (Nat × Nat)) (buffers : State → Nat → Bool) (s : State)
    (hinv : Inv n nv R S s)
    (hdst : ∀ r, r < n → ∀ p ∈ S r, p.1 < n) (hsrc : ∀ r, r < n → ∀ p ∈ R r, p.1 < n)
    (hmatch : ∀ r d t, r < n → d < n → (S r).count (d, t) = (R d).count (r, t))
    (hun : ∃ r, r < n ∧ (s r).todo ≠ []) : ∃ r, r < n ∧ enabled n buffers s r := by
  obtain ⟨ru, hru, htu⟩ := hun
  obtain ⟨r0, hr0, hmin⟩ := exists_min n (by omega) (fun r => (s r).done.count .barrier)
  let m := (s r0).done.count .barrier
  have hm : m < nv := by
    apply Nat.lt_of_not_le
    intro hle
    apply htu
    exact finished_of_count _ (body_no_barrier _ _) nv _ _ (hinv ru hru) (Nat.le_trans hle (hmin ru hru))
  -- decomposition of the ranks in round m
  have hdec : ∀ r, r < n → (s r).done.count .barrier = m →
      ∃ pre x suf, (s r).done = (List.replicate m (roundProg (R r) (S r))).flatten ++ pre ∧
        roundProg (R r) (S r) = pre ++ x :: suf ∧ ∃ rest, (s r).todo = x :: rest := by
    intro r hr hc
    obtain ⟨pre, suf, h1, h2, h3, rest, h4⟩ :=
      split_round _ (body_no_barrier (R r) (S r)) nv _ _ (hinv r hr) m hc hm
    cases suf with
    | nil => exact absurd rfl h3
    | cons x suf => exact ⟨pre, x, suf, h1, h2, suf ++ rest, h4⟩
  -- ranks beyond round m
  have hbey : ∀ r, r < n → (s r).done.count .barrier ≠ m → ∀ x,
      (m + 1) * (roundProg (R r) (S r)).count x ≤ (s r).done.count x := by
    intro r hr hc x
    have hmr : m ≤ (s r).done.count .barrier := hmin r hr
    obtain ⟨rest, h1⟩ := full_rounds _ (body_no_barrier (R r) (S r)) nv _ _ (hinv r hr) (m+1) (by omega)
    rw [h1, List.count_append, count_flatten_replicate]
    exact Nat.le_add_right _ _
  -- phase 1
  by_cases ph1 : ∃ r, r < n ∧ (s r).done.count .barrier = m ∧ ∃ a t rest, (s r).todo = .irecv a t :: rest
  · obtain ⟨r, hr, _, a, t, rest, ht⟩ := ph1
    exact ⟨r, hr, by simp [enabled, ht]⟩
  have posted : ∀ r, r < n → ∀ a t, (m+1) * (R r).count (a, t) ≤ (s r).done.count (.irecv a t) := by
    intro r hr a t
    by_cases hc : (s r).done.count .barrier = m
    · obtain ⟨pre, x, suf, h1, h2, rest, h3⟩ := hdec r hr hc
      have hx : x ∉ (R r).map (fun p => Op.irecv p.1 p.2) := by
        intro hmem
        obtain ⟨p, _, hp⟩ := List.mem_map.1 hmem
        exact ph1 ⟨r, hr, hc, p.1, p.2, rest, by rw [h3, hp]⟩
      have h2' : (R r).map (fun p => Op.irecv p.1 p.2) ++ ((S r).map (fun p => Op.send p.1 p.2)
          ++ (R r).map (fun p => Op.wait p.1 p.2) ++ [Op.barrier]) = pre ++ x :: suf := by
        rw [← h2]; simp [roundProg]
      obtain ⟨c, hpc⟩ := prefix_done _ _ _ _ _ h2' hx
      rw [h1, List.count_append, count_flatten_replicate, count_irecv, Nat.succ_mul]
      apply Nat.add_le_add_left
      rw [hpc, List.count_append]
      have : (R r).count (a, t) = ((R r).map (fun p => Op.irecv p.1 p.2)).count (.irecv a t) := by
        rw [← count_irecv (R r) []]
        simp [roundProg, List.count_append]
        rw [List.count_eq_zero_of_not_mem]; simp
      omega
    · have := hbey r hr hc (.irecv a t)
      rwa [count_irecv] at this
  -- phase 2
  by_cases ph2 : ∃ r, r < n ∧ (s r).done.count .barrier = m ∧ ∃ a t rest, (s r).todo = .send a t :: rest
  · obtain ⟨r, hr, hc, d, t, rest, ht⟩ := ph2
    refine ⟨r, hr, ?_⟩
    simp only [enabled, ht]
    right
    obtain ⟨pre, x, suf, h1, h2, rest', h3⟩ := hdec r hr hc
    have hx : x = .send d t := by rw [ht] at h3; exact (List.cons.inj h3).1.symm
    subst hx
    have hmem : (d, t) ∈ S r := by
      have : Op.send d t ∈ roundProg (R r) (S r) := by rw [h2]; simp
      simpa [roundProg] using this
    have hd := hdst r hr _ hmem
    refine ⟨hd, ?_⟩
    have hp := posted d hd r t
    rw [← hmatch r d t hr hd] at hp
    have hS : (S r).count (d, t) = pre.count (.send d t) + (suf.count (.send d t) + 1) := by
      rw [← count_send (R r) (S r), h2, List.count_append, List.count_cons]; simp
    rw [h1, List.count_append, count_flatten_replicate, count_send]
    rw [Nat.succ_mul] at hp
    omega
  have sent : ∀ r, r < n → ∀ a t, (m+1) * (S r).count (a, t) ≤ (s r).done.count (.send a t) := by
    intro r hr a t
    by_cases hc : (s r).done.count .barrier = m
    · obtain ⟨pre, x, suf, h1, h2, rest, h3⟩ := hdec r hr hc
      have hx : x ∉ (R r).map (fun p => Op.irecv p.1 p.2) ++ (S r).map (fun p => Op.send p.1 p.2) := by
        intro hmem
        rcases List.mem_append.1 hmem with hmem | hmem
        · obtain ⟨p, _, hp⟩ := List.mem_map.1 hmem
          exact ph1 ⟨r, hr, hc, p.1, p.2, rest, by rw [h3, hp]⟩
        · obtain ⟨p, _, hp⟩ := List.mem_map.1 hmem
          exact ph2 ⟨r, hr, hc, p.1, p.2, rest, by rw [h3, hp]⟩
      have h2' : ((R r).map (fun p => Op.irecv p.1 p.2) ++ (S r).map (fun p => Op.send p.1 p.2))
          ++ ((R r).map (fun p => Op.wait p.1 p.2) ++ [Op.barrier]) = pre ++ x :: suf := by
        rw [← h2]; simp [roundProg]
      obtain ⟨c, hpc⟩ := prefix_done _ _ _ _ _ h2' hx
      rw [h1, List.count_append, count_flatten_replicate, count_send, Nat.succ_mul]
      apply Nat.add_le_add_left
      rw [hpc, List.count_append, List.count_append]
      have : (S r).count (a, t) = ((S r).map (fun p => Op.send p.1 p.2)).count (.send a t) := by
        rw [← count_send [] (S r)]
        simp [roundProg, List.count_append]
      omega
    · have := hbey r hr hc (.send a t)
      rwa [count_send] at this
  -- phase 3
  by_cases ph3 : ∃ r, r < n ∧ (s r).done.count .barrier = m ∧ ∃ a t rest, (s r).todo = .wait a t :: rest
  · obtain ⟨r, hr, hc, a, t, rest, ht⟩ := ph3
    refine ⟨r, hr, ?_⟩
    simp only [enabled, ht]
    obtain ⟨pre, x, suf, h1, h2, rest', h3⟩ := hdec r hr hc
    have hx : x = .wait a t := by rw [ht] at h3; exact (List.cons.inj h3).1.symm
    subst hx
    have hmem : (a, t) ∈ R r := by
      have : Op.wait a t ∈ roundProg (R r) (S r) := by rw [h2]; simp
      simpa [roundProg] using this
    have ha := hsrc r hr _ hmem
    refine ⟨ha, ?_⟩
    have hp := sent a ha r t
    rw [hmatch a r t ha hr] at hp
    have hR : (R r).count (a, t) = pre.count (.wait a t) + (suf.count (.wait a t) + 1) := by
      rw [← count_wait (R r) (S r), h2, List.count_append, List.count_cons]; simp
    rw [h1, List.count_append, count_flatten_replicate, count_wait]
    rw [Nat.succ_mul] at hp
    omega
  -- phase 4: everyone in round m is at the barrier
  have atbar : ∀ r, r < n → (s r).done.count .barrier = m → (s r).todo.head? = some .barrier := by
    intro r hr hc
    obtain ⟨pre, x, suf, h1, h2, rest, h3⟩ := hdec r hr hc
    rw [h3]
    cases x with
    | irecv a t => exact absurd ⟨r, hr, hc, a, t, rest, h3⟩ ph1
    | send a t => exact absurd ⟨r, hr, hc, a, t, rest, h3⟩ ph2
    | wait a t => exact absurd ⟨r, hr, hc, a, t, rest, h3⟩ ph3
    | barrier => rfl
  refine ⟨r0, hr0, ?_⟩
  have hb := atbar r0 hr0 rfl
  cases ht : (s r0).todo with
  | nil => rw [ht] at hb; cases hb
  | cons x rest =>
    rw [ht] at hb
    have hx : x = .barrier := by simpa using hb
    subst hx
    simp only [enabled, ht]
    intro r' hr'
    by_cases hc : (s r').done.count .barrier = m
    · right; exact ⟨hc.symm, atbar r' hr' hc⟩
    · left
      have := hmin r' hr'
      show m < _
      have h' : m ≤ (s r').done.count .barrier := this
      omega

/-! ### the topology provides matching programs -/

theorem getD_owns (world : List (List Block)) (r : Nat) (b : Block) (h : b ∈ world.getD r []) : Owns world r b := by
  unfold Owns
  cases hw : world[r]? with
  | none => simp [List.getD, hw] at h
  | some mb => exact ⟨mb, rfl, by simpa [List.getD, hw] using h⟩

theorem owns_getD (world : List (List Block)) (r : Nat) (b : Block) (h : Owns world r b) : b ∈ world.getD r [] := by
  obtain ⟨mb, h1, h2⟩ := h
  simpa [List.getD, h1] using h2

theorem owns_lt (world : List (List Block)) (r : Nat) (b : Block) (h : Owns world r b) : r < world.length := by
  obtain ⟨mb, h1, _⟩ := h
  exact (List.getElem?_eq_some_iff.1 h1).1

theorem mem_recvsOf (world : List (List Block)) (r : Nat) (p : Nat × Nat) :
    p ∈ recvsOf (world.getD r []) ↔
      ∃ b, Owns world r b ∧ ∃ f ∈ b.faces, f.neighbor ≠ none ∧ p = (f.commRank, tagR b.nblki f.nface) := by
  simp only [recvsOf, List.mem_flatMap, List.mem_filterMap]
  constructor
  · rintro ⟨b, hb, f, hf, h⟩
    refine ⟨b, getD_owns _ _ _ hb, f, hf, ?_⟩
    cases hn : f.neighbor with
    | none => simp [hn] at h
    | some nb => simp [hn] at h; exact ⟨by simp, h.symm⟩
  · rintro ⟨b, hb, f, hf, hn, rfl⟩
    refine ⟨b, owns_getD _ _ _ hb, f, hf, ?_⟩
    cases hn' : f.neighbor with
    | none => exact absurd hn' hn
    | some nb => simp

theorem mem_sendsOf (world : List (List Block)) (r : Nat) (p : Nat × Nat) :
    p ∈ sendsOf (world.getD r []) ↔
      ∃ b, Owns world r b ∧ ∃ f ∈ b.faces, ∃ nb nf2, f.neighbor = some nb ∧ neighborNface f.nface f.ori = some nf2 ∧
        p = (f.commRank, tagS nb nf2) := by
  simp only [sendsOf, List.mem_flatMap, List.mem_filterMap]
  constructor
  · rintro ⟨b, hb, f, hf, h⟩
    refine ⟨b, getD_owns _ _ _ hb, f, hf, ?_⟩
    cases hn : f.neighbor with
    | none => simp [hn] at h
    | some nb =>
      cases hn2 : neighborNface f.nface f.ori with
      | none => simp [hn, hn2] at h
      | some nf2 => simp [hn, hn2] at h; exact ⟨nb, nf2, rfl, rfl, h.symm⟩
  · rintro ⟨b, hb, f, hf, nb, nf2, hn, hn2, rfl⟩
    exact ⟨b, owns_getD _ _ _ hb, f, hf, by simp [hn, hn2]⟩

theorem nodup_flatMap {β γ : Type} (l : List β) (g : β → List γ) (hl : l.Nodup) (hg : ∀ x ∈ l, (g x).Nodup)
    (hd : ∀ x ∈ l, ∀ y ∈ l, x ≠ y → ∀ z, z ∈ g x → z ∉ g y) : (l.flatMap g).Nodup := by
  induction l with
  | nil => simp
  | cons a l ih =>
    rw [List.flatMap_cons, List.nodup_append]
    rw [List.nodup_cons] at hl
    refine ⟨hg a (by simp), ih hl.2 (fun x hx => hg x (by simp [hx]))
      (fun x hx y hy => hd x (by simp [hx]) y (by simp [hy])), ?_⟩
    intro z hz w hw e
    subst e
    obtain ⟨y, hy, hz'⟩ := List.mem_flatMap.1 hw
    exact hd a (by simp) y (by simp [hy]) (fun e => hl.1 (e ▸ hy)) z hz hz'

theorem nodup_filterMap {β γ : Type} (l : List β) (g : β → Option γ) (R : β → β → Prop) (hl : l.Pairwise R)
    (hinj : ∀ x ∈ l, ∀ y ∈ l, R x y → ∀ z, g x = some z → g y ≠ some z) : (l.filterMap g).Nodup := by
  induction l with
  | nil => simp
  | cons a l ih =>
    rw [List.pairwise_cons] at hl
    have ih' := ih hl.2 (fun x hx y hy => hinj x (by simp [hx]) y (by simp [hy]))
    cases hga : g a with
    | none => rw [List.filterMap_cons_none hga]; exact ih'
    | some z =>
      rw [List.filterMap_cons_some hga, List.nodup_cons]
      refine ⟨?_, ih'⟩
      intro hz
      obtain ⟨y, hy, hgy⟩ := List.mem_filterMap.1 hz
      exact hinj a (by simp) y (by simp [hy]) (hl.1 y hy) z hga hgy

theorem world_nodup (world : List (List Block)) (hw : WellConnected world) (r : Nat) : (world.getD r []).Nodup := by
  cases h : world[r]? with
  | none => simp [List.getD, h]
  | some mb => simpa [List.getD, h] using hw.nodup mb (List.mem_of_getElem? h)

theorem recvs_nodup (world : List (List Block)) (hw : WellConnected world) (r : Nat) :
    (recvsOf (world.getD r [])).Nodup := by
  apply nodup_flatMap _ _ (world_nodup world hw r)
  · intro b hb
    have hb' := getD_owns _ _ _ hb
    apply nodup_filterMap _ _ _ (hw.nface_distinct r b hb')
    intro f hf g hg hne z h1 h2
    have hf' := hw.nface_range r b hb' f hf
    have hg' := hw.nface_range r b hb' g hg
    cases e1 : f.neighbor <;> cases e2 : g.neighbor <;> simp [e1, e2] at h1 h2
    rw [← h2] at h1
    exact hne (tag_inj _ _ _ _ hf' hg' (Prod.ext_iff.1 h1).2).2
  · intro b hb b' hb' hne z h1 h2
    have o1 := getD_owns _ _ _ hb
    have o2 := getD_owns _ _ _ hb'
    obtain ⟨f, hf, e1⟩ := List.mem_filterMap.1 h1
    obtain ⟨g, hg, e2⟩ := List.mem_filterMap.1 h2
    cases q1 : f.neighbor <;> cases q2 : g.neighbor <;> simp [q1, q2] at e1 e2
    rw [← e2] at e1
    have := (tag_inj _ _ _ _ (hw.nface_range r b o1 f hf) (hw.nface_range r b' o2 g hg) (Prod.ext_iff.1 e1).2).1
    exact hne (hw.uniq _ _ _ _ o1 o2 this).2

/-- The partner of a sending face. -/
theorem partner (world : List (List Block)) (hw : WellConnected world) (r : Nat) (b : Block) (hb : Owns world r b)
    (f : Face) (hf : f ∈ b.faces) (nb : Nat) (hn : f.neighbor = some nb) :
    ∃ b' f', Owns world f.commRank b' ∧ f' ∈ b'.faces ∧ b'.nblki = nb ∧ f'.neighbor = some b.nblki ∧ f'.commRank = r ∧
      neighborNface f.nface f.ori = some f'.nface ∧ neighborNface f'.nface f'.ori = some f.nface := by
  obtain ⟨hleg, b', h1, h2, _, f', h3, h4, h5, h6⟩ := hw.conn r b hb f hf nb hn
  obtain ⟨fl, _, hc⟩ := conn_of f.nface (hw.nface_range r b hb f hf) f.ori hleg f'.nface f'.ori h5 h6
  obtain ⟨_, b2, g1, g2, _⟩ := hw.conn _ b' h1 f' h3 b.nblki h4
  exact ⟨b', f', h1, h3, h2, h4, (hw.uniq _ _ _ _ g1 hb g2).1, h5, hc.back_nf⟩

theorem sends_nodup (world : List (List Block)) (hw : WellConnected world) (r : Nat) :
    (sendsOf (world.getD r [])).Nodup := by
  have key : ∀ b f b' f' z, Owns world r b → f ∈ b.faces → Owns world r b' → f' ∈ b'.faces →
      (f.neighbor.bind fun nb => (neighborNface f.nface f.ori).map fun nf2 => (f.commRank, tagS nb nf2)) = some z →
      (f'.neighbor.bind fun nb => (neighborNface f'.nface f'.ori).map fun nf2 => (f'.commRank, tagS nb nf2)) = some z →
      b = b' ∧ f = f' := by
    intro b f b' f' z hb hf hb' hf' h1 h2
    cases e1 : f.neighbor with
    | none => simp [e1] at h1
    | some nb =>
    cases e2 : f'.neighbor with
    | none => simp [e2] at h2
    | some nb' =>
    obtain ⟨c, g, c1, c2, c3, c4, c5, c6, c7⟩ := partner world hw r b hb f hf nb e1
    obtain ⟨c', g', d1, d2, d3, d4, d5, d6, d7⟩ := partner world hw r b' hb' f' hf' nb' e2
    simp [e1, c6] at h1
    simp [e2, d6] at h2
    rw [← h2] at h1
    obtain ⟨k1, k2⟩ := Prod.ext_iff.1 h1
    obtain ⟨t1, t2⟩ := tag_inj _ _ _ _ (hw.nface_range _ _ c1 g c2) (hw.nface_range _ _ d1 g' d2) k2
    obtain ⟨_, rfl⟩ := hw.uniq _ _ _ _ c1 d1 (c3.trans (t1.trans d3.symm))
    obtain rfl := face_eq_of_nface (hw.nface_distinct _ _ c1) c2 d2 t2
    rw [c4] at d4
    obtain ⟨_, rfl⟩ := hw.uniq _ _ _ _ hb hb' (Option.some.inj d4)
    rw [c7] at d7
    exact ⟨rfl, face_eq_of_nface (hw.nface_distinct _ _ hb) hf hf' (Option.some.inj d7)⟩
  apply nodup_flatMap _ _ (world_nodup world hw r)
  · intro b hb
    have hb' := getD_owns _ _ _ hb
    apply nodup_filterMap _ _ _ (hw.nface_distinct r b hb')
    intro f hf g hg hne z h1 h2
    exact hne (congrArg Face.nface (key b f b g z hb' hf hb' hg h1 h2).2)
  · intro b hb b' hb' hne z h1 h2
    obtain ⟨f, hf, e1⟩ := List.mem_filterMap.1 h1
    obtain ⟨g, hg, e2⟩ := List.mem_filterMap.1 h2
    exact hne (key b f b' g z (getD_owns _ _ _ hb) hf (getD_owns _ _ _ hb') hg e1 e2).1

theorem send_mem_iff (world : List (List Block)) (hw : WellConnected world) (r d t : Nat) :
    (d, t) ∈ sendsOf (world.getD r []) ↔ (r, t) ∈ recvsOf (world.getD d []) := by
  rw [mem_sendsOf, mem_recvsOf]
  constructor
  · rintro ⟨b, hb, f, hf, nb, nf2, hn, hn2, e⟩
    obtain ⟨b', f', h1, h2, h3, h4, h5, h6, h7⟩ := partner world hw r b hb f hf nb hn
    obtain ⟨e1, e2⟩ := Prod.ext_iff.1 e
    dsimp only at e1 e2
    refine ⟨b', e1 ▸ h1, f', h2, by rw [h4]; simp, ?_⟩
    rw [hn2] at h6
    rw [h5, e2, h3, Option.some.inj h6]
    rfl
  · rintro ⟨b, hb, f, hf, hn, e⟩
    cases hn' : f.neighbor with
    | none => exact absurd hn' hn
    | some nb =>
      obtain ⟨b', f', h1, h2, h3, h4, h5, h6, h7⟩ := partner world hw d b hb f hf nb hn'
      obtain ⟨e1, e2⟩ := Prod.ext_iff.1 e
      dsimp only at e1 e2
      exact ⟨b', e1 ▸ h1, f', h2, b.nblki, f.nface, h4, h7, by rw [h5, e2]; rfl⟩

theorem count_of_nodup (l : List (Nat × Nat)) (h : l.Nodup) (x : Nat × Nat) :
    l.count x = if x ∈ l then 1 else 0 := by
  split
  · rename_i hm
    have := List.nodup_iff_count.1 h x
    have := List.count_pos_iff.2 hm
    omega
  · rename_i hm
    exact List.count_eq_zero_of_not_mem hm

theorem counts_match (world : List (List Block)) (hw : WellConnected world) (r d t : Nat) :
    (sendsOf (world.getD r [])).count (d, t) = (recvsOf (world.getD d [])).count (r, t) := by
  rw [count_of_nodup _ (sends_nodup world hw r), count_of_nodup _ (recvs_nodup world hw d)]
  have := send_mem_iff world hw r d t
  by_cases h : (d, t) ∈ sendsOf (world.getD r [])
  · rw [if_pos h, if_pos (this.1 h)]
  · rw [if_neg h, if_neg (fun h' => h (this.2 h'))]

/-! ### measure -/

/-- calls still to be made by ranks `0..n-1` -/
def remaining (n : Nat) (s : State) : Nat := ((List.range n).map (fun r => (s r).todo.length)).sum

theorem remaining_congr (n : Nat) (s s' : State) (h : ∀ r, r < n → s r = s' r) : remaining n s = remaining n s' := by
  unfold remaining
  congr 1
  apply List.map_congr_left
  intro r hr
  rw [h r (by simpa using hr)]

theorem remaining_succ (n : Nat) (s : State) : remaining (n+1) s = remaining n s + (s n).todo.length := by
  simp [remaining, List.range_succ]

theorem remaining_advance (n : Nat) (s : State) (r : Nat) (hr : r < n) (h : (s r).todo ≠ []) :
    remaining n (advance s r) + 1 = remaining n s := by
  induction n with
  | zero => omega
  | succ n ih =>
    rw [remaining_succ, remaining_succ]
    by_cases e : r = n
    · subst e
      have h1 : remaining r (advance s r) = remaining r s := by
        apply remaining_congr
        intro r' hr'
        unfold advance
        rw [if_neg (by omega)]
      rw [h1]
      have : ((advance s r) r).todo.length + 1 = (s r).todo.length := by
        unfold advance
        rw [if_pos rfl]
        cases ht : (s r).todo with
        | nil => exact absurd ht h
        | cons x l => simp
      omega
    · have h1 := ih (by omega)
      have : (advance s r) n = s n := by unfold advance; rw [if_neg (by omega)]
      rw [this]
      omega

theorem enabled_todo (n : Nat) (buffers) (s : State) (r : Nat) (h : enabled n buffers s r) : (s r).todo ≠ [] := by
  intro e
  simp [enabled, e] at h

theorem remaining_step (n : Nat) (buffers) (s s' : State) (h : Step n buffers s s') :
    remaining n s' + 1 = remaining n s := by
  obtain ⟨r, hr, he, rfl⟩ := h
  exact remaining_advance n s r hr (enabled_todo n buffers s r he)

end PG.Comm
