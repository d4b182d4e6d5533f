import Verif.Comm.Lemmas
import Mathlib.Tactic.Choose
import Mathlib.Tactic.Push
import Mathlib.Data.Nat.Notation
import Mathlib.Tactic.Use
/-
Semantics of the MPI calls of a whole run (not only of one `communicate`), and the general theory of programs that are lists of
segments: point-to-point exchanges and collective calls. Used for C111.
-/
namespace PG.Comm.Job
open PG.Topo PG.Halo

/-- what an `Allreduce` of the run reduces: CFL factors (mpiUtils.py:53), the NaN flag (mpiUtils.py:86), cell counts
    (mpiUtils.py:21), the two rows of residuals (dualTime.py:99-100) -/
inductive Red
  | cfl | nan | cells | resMax | resSum
deriving DecidableEq, Repr

/-- the files opened by all ranks together -/
inductive Fil
  | config | procs | restart (nrt : ℕ) | archive (nrt : ℕ) | extra (i nrt : ℕ) | emergency
deriving DecidableEq, Repr

/-- collective calls: barriers, reductions, broadcast and gather, and the collective calls on files (MPI.File.Open/Close,
    h5py.File with the mpio driver and create_group / create_dataset on it; `none` is the group "iter") -/
inductive Kind
  | barrier
  | allreduce (w : Red)
  | bcast
  | gather
  | openFile (f : Fil)
  | group (f : Fil) (b : Option ℕ)
  | dset (f : Fil) (b : Option ℕ) (v : ℕ)
  | close (f : Fil)
deriving DecidableEq, Repr

/-- kinds for which MPI guarantees that no rank leaves before all have entered; for the others a library may let a rank go on early -/
def Kind.tight : Kind → Bool
  | .barrier => true
  | .allreduce _ => true
  | _ => false

/-- MPI calls of a run -/
inductive Call where
  | irecv (src tag : ℕ)
  | send (dst tag : ℕ)
  | wait (src tag : ℕ)
  | coll (k : Kind)
deriving DecidableEq, Repr

/-- the collective calls of a sequence of calls, in order -/
def colls : List Call → List Kind := List.filterMap fun c => match c with | .coll k => some k | _ => none

@[simp] theorem colls_nil : colls [] = [] := rfl
@[simp] theorem colls_append (a b : List Call) : colls (a ++ b) = colls a ++ colls b := by simp [colls]
@[simp] theorem colls_coll (k : Kind) (l) : colls (.coll k :: l) = k :: colls l := by simp [colls]
@[simp] theorem colls_irecv (a b) (l) : colls (.irecv a b :: l) = colls l := by simp [colls]
@[simp] theorem colls_send (a b) (l) : colls (.send a b :: l) = colls l := by simp [colls]
@[simp] theorem colls_wait (a b) (l) : colls (.wait a b :: l) = colls l := by simp [colls]

/-- Execution state of one rank: calls completed (in order) and calls still to make. -/
structure Rank where
  done : List Call
  todo : List Call

/-- Global state: ranks `0 .. n-1`. -/
abbrev State := ℕ → Rank

/-- What the MPI library may do of its own accord: buffer a send, or let a rank leave a collective call before the others have entered
    it (only of a kind that is not `tight`). Arbitrary; in particular it may never do so. -/
structure Library where
  buffers : State → ℕ → Bool
  early : State → ℕ → Bool

/-- Can rank `r` complete its next call? Non-overtaking matching of messages, as in `Comm.enabled`; a collective call completes once every
    rank has come to the collective call with the same number in its own sequence and makes the same call there (or has passed it). -/
def enabled (n : ℕ) (lib : Library) (s : State) (r : ℕ) : Prop :=
  match (s r).todo with
  | [] => False
  | .irecv _ _ :: _ => True
  | .send d t :: _ => lib.buffers s r = true ∨ (d < n ∧ (s r).done.count (.send d t) < (s d).done.count (.irecv r t))
  | .wait src t :: _ => src < n ∧ (s r).done.count (.wait src t) < (s src).done.count (.send r t)
  | .coll k :: _ => (lib.early s r = true ∧ k.tight = false) ∨ ∀ r', r' < n →
      (colls (s r).done).length < (colls (s r').done).length ∨
      ((colls (s r').done).length = (colls (s r).done).length ∧ (s r').todo.head? = some (.coll k))

/-- Rank `r` completes its next call. -/
def advance (s : State) (r : ℕ) : State := fun r' =>
  if r' = r then
    match (s r).todo with
    | [] => s r
    | op :: rest => ⟨(s r).done ++ [op], rest⟩
  else s r'

/-- One step of the system: some rank whose next call can complete, completes it. -/
def Step (n : ℕ) (lib : Library) (s s' : State) : Prop := ∃ r, r < n ∧ enabled n lib s r ∧ s' = advance s r

/-- States reachable from `s` by any schedule, with the number of calls completed. -/
inductive Reach (n : ℕ) (lib : Library) (s : State) : State → ℕ → Prop
  | refl : Reach n lib s s 0
  | step {s' s'' k} : Reach n lib s s' k → Step n lib s' s'' → Reach n lib s s'' (k+1)

/-- all ranks at the beginning of their programs -/
def start (P : ℕ → List Call) : State := fun r => ⟨[], P r⟩

/-- A segment of a program: for every rank the calls it makes in this segment. -/
abbrev Seg := ℕ → List Call

/-- the program of rank `r` made of segments -/
def prog (l : List Seg) (r : ℕ) : List Call := l.flatMap fun s => s r

/-- A segment that is complete in itself: every message sent in it is received in it and awaited in it, all ranks make the same number of
    collective calls in it, and however far the ranks are inside it, one of those inside can go on without any buffering. -/
structure Good (n : ℕ) (s : Seg) : Prop where
  recv : ∀ r < n, ∀ d < n, ∀ t, (s r).count (.send d t) = (s d).count (.irecv r t)
  wait : ∀ r < n, ∀ d < n, ∀ t, (s r).count (.send d t) = (s d).count (.wait r t)
  coll : ∀ r < n, ∀ r' < n, (colls (s r)).length = (colls (s r')).length
  go : ∀ p : ℕ → List Call, (∀ r < n, p r <+: s r) → (∃ r < n, p r ≠ s r) → ∃ r < n, ∃ op rest, s r = p r ++ op :: rest ∧
    match op with
    | .irecv _ _ => True
    | .send d t => d < n ∧ (p r).count (.send d t) < (p d).count (.irecv r t)
    | .wait src t => src < n ∧ (p r).count (.wait src t) < (p src).count (.send r t)
    | .coll k => ∀ r' < n, (colls (p r)).length < (colls (p r')).length ∨
        ((colls (p r')).length = (colls (p r)).length ∧ ∃ rest', s r' = p r' ++ .coll k :: rest')

/-- where a rank is inside the next segment: it has either finished it, or done a proper part of it -/
theorem inside (base d t a b : List Call) (h : d ++ t = base ++ (a ++ b)) (hb : base <+: d) :
    (∃ e, d = base ++ a ++ e) ∨ ∃ p x q, d = base ++ p ∧ a = p ++ x :: q ∧ t = x :: q ++ b := by
  obtain ⟨u, rfl⟩ := hb
  rw [List.append_assoc] at h
  have h := List.append_cancel_left h
  rcases List.append_eq_append_iff.1 h with ⟨a', h1, h2⟩ | ⟨c', h1, h2⟩
  · cases a' with
    | nil => exact Or.inl ⟨[], by simp [h1]⟩
    | cons x q => exact Or.inr ⟨u, x, q, rfl, h1, h2⟩
  · exact Or.inl ⟨c', by simp [h1]⟩

/-- progress of a program made of good segments, from any state in which every rank has done a part of its program -/
theorem progress_from (n : ℕ) (lib : Library) (s : State) (l : List Seg) (hl : ∀ x ∈ l, Good n x) (base : ℕ → List Call)
    (h1 : ∀ r < n, (s r).done ++ (s r).todo = base r ++ prog l r) (h2 : ∀ r < n, base r <+: (s r).done)
    (b1 : ∀ r < n, ∀ d < n, ∀ t, (base r).count (.send d t) = (base d).count (.irecv r t))
    (b2 : ∀ r < n, ∀ d < n, ∀ t, (base r).count (.send d t) = (base d).count (.wait r t))
    (b3 : ∀ r < n, ∀ r' < n, (colls (base r)).length = (colls (base r')).length)
    (hun : ∃ r, r < n ∧ (s r).todo ≠ []) : ∃ r, r < n ∧ enabled n lib s r := by
  induction l generalizing base with
  | nil =>
    obtain ⟨r, hr, hne⟩ := hun
    have e := h1 r hr
    obtain ⟨u, hu⟩ := h2 r hr
    rw [← hu, prog, List.flatMap_nil, List.append_nil, List.append_assoc] at e
    have := List.append_cancel_left (e.trans (List.append_nil _).symm)
    exact absurd (List.append_eq_nil_iff.1 this).2 hne
  | cons x l ih =>
    have gx := hl x (by simp)
    have hin : ∀ r < n, (∃ e, (s r).done = base r ++ x r ++ e) ∨ ∃ p y q, (s r).done = base r ++ p ∧ x r = p ++ y :: q ∧
        (s r).todo = y :: q ++ prog l r := fun r hr => inside _ _ _ _ _ (by simpa [prog] using h1 r hr) (h2 r hr)
    by_cases hall : ∀ r < n, ∃ e, (s r).done = base r ++ x r ++ e
    · refine ih (fun y hy => hl y (by simp [hy])) (fun r => base r ++ x r) ?_ ?_ ?_ ?_ ?_
      · intro r hr; rw [h1 r hr]; simp [prog]
      · intro r hr; obtain ⟨e, he⟩ := hall r hr; exact ⟨e, he.symm⟩
      · intro r hr d hd t; simp only [List.count_append, b1 r hr d hd t, gx.recv r hr d hd t]
      · intro r hr d hd t; simp only [List.count_append, b2 r hr d hd t, gx.wait r hr d hd t]
      · intro r hr r' hr'; simp only [colls_append, List.length_append, b3 r hr r' hr', gx.coll r hr r' hr']
    · -- the part of the segment each rank has done
      have hp : ∀ r, ∃ p, r < n → p <+: x r ∧ ((p = x r ∧ ∃ e, (s r).done = base r ++ p ++ e) ∨
          ∃ y q, (s r).done = base r ++ p ∧ x r = p ++ y :: q ∧ (s r).todo = y :: q ++ prog l r) := by
        intro r
        by_cases hr : r < n
        · rcases hin r hr with ⟨e, he⟩ | ⟨p, y, q, g1, g2, g3⟩
          · exact ⟨x r, fun _ => ⟨List.prefix_refl _, Or.inl ⟨rfl, e, he⟩⟩⟩
          · exact ⟨p, fun _ => ⟨⟨_, g2.symm⟩, Or.inr ⟨y, q, g1, g2, g3⟩⟩⟩
        · exact ⟨[], fun h => absurd h hr⟩
      choose p hp using hp
      have hsome : ∃ r < n, p r ≠ x r := by
        push Not at hall
        obtain ⟨r, hr, hne⟩ := hall
        refine ⟨r, hr, fun e => ?_⟩
        rcases (hp r hr).2 with ⟨_, e', he⟩ | ⟨y, q, _, g2, _⟩
        · exact hne e' (by rw [he, e])
        · rw [e] at g2
          exact absurd (congrArg List.length g2) (by simp)
      -- what a rank has done at least
      have hdone : ∀ r < n, ∃ e, (s r).done = base r ++ p r ++ e := by
        intro r hr
        rcases (hp r hr).2 with ⟨_, e, he⟩ | ⟨y, q, g1, _, _⟩
        · exact ⟨e, he⟩
        · exact ⟨[], by simp [g1]⟩
      have hexact : ∀ r < n, ∀ op rest, x r = p r ++ op :: rest → (s r).done = base r ++ p r ∧
          (s r).todo = op :: rest ++ prog l r := by
        intro r hr op rest hx
        rcases (hp r hr).2 with ⟨g, _⟩ | ⟨y, q, g1, g2, g3⟩
        · rw [g] at hx
          exact absurd (congrArg List.length hx) (by simp)
        · have := List.append_cancel_left (g2.symm.trans hx)
          exact ⟨g1, by rw [g3, this]⟩
      obtain ⟨r, hr, op, rest, hx, hgo⟩ := gx.go p (fun r hr => (hp r hr).1) hsome
      obtain ⟨d1, t1⟩ := hexact r hr op rest hx
      refine ⟨r, hr, ?_⟩
      unfold enabled
      rw [t1]
      cases op with
      | irecv a b => trivial
      | send d t =>
        obtain ⟨hd, hc⟩ := hgo
        refine Or.inr ⟨hd, ?_⟩
        obtain ⟨e, he⟩ := hdone d hd
        rw [d1, he]
        simp only [List.count_append]
        have := b1 r hr d hd t
        omega
      | wait src t =>
        obtain ⟨hd, hc⟩ := hgo
        refine ⟨hd, ?_⟩
        obtain ⟨e, he⟩ := hdone src hd
        rw [d1, he]
        simp only [List.count_append]
        have := b2 src hd r hr t
        omega
      | coll k =>
        refine Or.inr fun r' hr' => ?_
        obtain ⟨e, he⟩ := hdone r' hr'
        have hb := b3 r hr r' hr'
        rcases hgo r' hr' with hlt | ⟨heq, rest', hx'⟩
        · refine Or.inl ?_
          rw [d1, he]
          simp only [colls_append, List.length_append]
          omega
        · obtain ⟨d2, t2⟩ := hexact r' hr' _ _ hx'
          refine Or.inr ⟨?_, by rw [t2]; rfl⟩
          rw [d1, d2]
          simp only [colls_append, List.length_append]
          omega

/-! ### the invariant and the measure -/

theorem advance_eq {s : State} {r : ℕ} {op : Call} {rest : List Call} (h : (s r).todo = op :: rest) (r' : ℕ) :
    (advance s r) r' = if r' = r then ⟨(s r).done ++ [op], rest⟩ else s r' := by
  unfold advance; split <;> simp [h]

theorem enabled_todo {n : ℕ} {lib : Library} {s : State} {r : ℕ} (h : enabled n lib s r) : (s r).todo ≠ [] := by
  intro e; simp [enabled, e] at h

/-- calls still to be made by ranks `0..n-1` -/
def remaining (n : ℕ) (s : State) : ℕ := ((List.range n).map (fun r => (s r).todo.length)).sum

theorem remaining_step {n : ℕ} {lib : Library} {s s' : State} (h : Step n lib s s') : remaining n s' + 1 = remaining n s := by
  obtain ⟨r, hr, he, rfl⟩ := h
  obtain ⟨op, rest, ht⟩ := List.exists_cons_of_ne_nil (enabled_todo he)
  clear he
  induction n with
  | zero => omega
  | succ n ih =>
    have succ : ∀ s : State, remaining (n+1) s = remaining n s + (s n).todo.length := fun s => by simp [remaining, List.range_succ]
    rw [succ, succ]
    by_cases e : r = n
    · subst e
      have h1 : remaining r (advance s r) = remaining r s := by
        unfold remaining
        congr 1
        apply List.map_congr_left
        intro r' hr'
        rw [advance_eq ht, if_neg (by have := List.mem_range.1 hr'; omega)]
      rw [h1, advance_eq ht, if_pos rfl, ht]
      simp; omega
    · have := ih (by omega)
      rw [advance_eq ht, if_neg (fun h => e h.symm)]
      omega

theorem reach_inv {n : ℕ} {lib : Library} {P : ℕ → List Call} {s : State} {k : ℕ} (h : Reach n lib (start P) s k) :
    (∀ r, (s r).done ++ (s r).todo = P r) ∧ remaining n s + k = remaining n (start P) := by
  induction h with
  | refl => exact ⟨fun r => by simp [start], by simp⟩
  | step h1 h2 ih =>
    have hm := remaining_step h2
    obtain ⟨q, hq, he, rfl⟩ := h2
    obtain ⟨op, rest, ht⟩ := List.exists_cons_of_ne_nil (enabled_todo he)
    refine ⟨fun r => ?_, by omega⟩
    rw [advance_eq ht]
    by_cases e : r = q
    · subst e; rw [if_pos rfl, ← ih.1 r, ht]; simp
    · rw [if_neg e]; exact ih.1 r

/-! ### ranks that disagree on a collective call -/

/-- If the `p`-th collective calls of two ranks differ (one of them may have none), and neither is a call a library may let a rank leave
    early, then under no schedule does either rank get past its `p`-th collective call. -/
theorem blocked {n : ℕ} {lib : Library} {P : ℕ → List Call} {s : State} {k : ℕ} (h : Reach n lib (start P) s k) (a b : ℕ) (ha : a < n)
    (hb : b < n) (p : ℕ) (hne : (colls (P a))[p]? ≠ (colls (P b))[p]?) (ta : ∀ x, (colls (P a))[p]? = some x → x.tight = true)
    (tb : ∀ x, (colls (P b))[p]? = some x → x.tight = true) :
    (colls (s a).done).length ≤ p ∧ (colls (s b).done).length ≤ p := by
  induction h with
  | refl => simp [start]
  | @step s1 s2 k h1 h2 ih =>
    have hinv := (reach_inv h1).1
    obtain ⟨q, hq, he, rfl⟩ := h2
    obtain ⟨op, rest, ht⟩ := List.exists_cons_of_ne_nil (enabled_todo he)
    -- one rank's step keeps it at most at `p`
    have key : ∀ a b : ℕ, a < n → b < n → (colls (P a))[p]? ≠ (colls (P b))[p]? →
        (∀ x, (colls (P a))[p]? = some x → x.tight = true) → (colls (s1 a).done).length ≤ p → (colls (s1 b).done).length ≤ p →
        (colls ((advance s1 q) a).done).length ≤ p := by
      intro a b ha hb hne ta la lb
      rw [advance_eq ht]
      by_cases e : a = q
      · subst e
        rw [if_pos rfl]
        cases op with
        | irecv _ _ => simpa using la
        | send _ _ => simpa using la
        | wait _ _ => simpa using la
        | coll kd =>
          simp only [colls_append, colls_coll, colls_nil, List.length_append, List.length_cons, List.length_nil]
          by_contra hgt
          have hlen : (colls (s1 a).done).length = p := by omega
          have hk : (colls (P a))[p]? = some kd := by
            rw [← hinv a, ht, colls_append, List.getElem?_append_right (by omega), hlen]; simp
          unfold enabled at he
          rw [ht] at he
          rcases he with ⟨_, hf⟩ | he
          · rw [ta kd hk] at hf; exact absurd hf (by simp)
          · rcases he b hb with hlt | ⟨heq, hhead⟩
            · omega
            · apply hne
              rw [hk]
              cases htb : (s1 b).todo with
              | nil => rw [htb] at hhead; simp at hhead
              | cons y l =>
                rw [htb] at hhead
                simp only [List.head?_cons, Option.some.injEq] at hhead
                rw [← hinv b, htb, colls_append, List.getElem?_append_right (by omega), hhead]
                simp [heq, hlen]
      · rw [if_neg e]; exact la
    exact ⟨key a b ha hb hne ta ih.1 ih.2, key b a hb ha (fun e => hne e.symm) tb ih.2 ih.1⟩

/-! ### good segments -/

/-- all ranks make the same collective call -/
def collSeg (k : Kind) : Seg := fun _ => [.coll k]

theorem good_coll (n : ℕ) (k : Kind) : Good n (collSeg k) where
  recv := fun r _ d _ t => by simp [collSeg]
  wait := fun r _ d _ t => by simp [collSeg]
  coll := fun _ _ _ _ => rfl
  go := by
    intro p hp ⟨r, hr, hne⟩
    have hcase : ∀ r < n, p r = [] ∨ p r = [.coll k] := by
      intro r hr
      obtain ⟨e, he⟩ := hp r hr
      unfold collSeg at he
      rcases List.append_eq_singleton_iff.1 he with ⟨h, _⟩ | ⟨h, _⟩
      · exact Or.inl h
      · exact Or.inr h
    have hr0 : p r = [] := (hcase r hr).resolve_right hne
    refine ⟨r, hr, .coll k, [], by simp [hr0, collSeg], fun r' hr' => ?_⟩
    rcases hcase r' hr' with h | h
    · exact Or.inr ⟨by simp [h, hr0], [], by simp [h, collSeg]⟩
    · exact Or.inl (by simp [h, hr0])

/-- every rank posts its receives, makes its sends, and waits for its receives -/
def exchSeg (R S : ℕ → List (ℕ × ℕ)) : Seg := fun r =>
  (R r).map (fun p => .irecv p.1 p.2) ++ ((S r).map (fun p => .send p.1 p.2) ++ (R r).map (fun p => .wait p.1 p.2))

theorem count_map (f : ℕ → ℕ → Call) (hf : ∀ a b a' b', f a b = f a' b' ↔ a = a' ∧ b = b') (l : List (ℕ × ℕ)) (a b : ℕ) :
    (l.map (fun p => f p.1 p.2)).count (f a b) = l.count (a, b) := by
  induction l with
  | nil => rfl
  | cons p l ih =>
    obtain ⟨x, y⟩ := p
    simp only [List.map_cons, List.count_cons, ih, beq_iff_eq, hf, Prod.mk.injEq]

theorem count_irecvs (l : List (ℕ × ℕ)) (a b : ℕ) : (l.map (fun p => Call.irecv p.1 p.2)).count (.irecv a b) = l.count (a, b) :=
  count_map Call.irecv (fun _ _ _ _ => by simp) l a b
theorem count_sends (l : List (ℕ × ℕ)) (a b : ℕ) : (l.map (fun p => Call.send p.1 p.2)).count (.send a b) = l.count (a, b) :=
  count_map Call.send (fun _ _ _ _ => by simp) l a b
theorem count_waits (l : List (ℕ × ℕ)) (a b : ℕ) : (l.map (fun p => Call.wait p.1 p.2)).count (.wait a b) = l.count (a, b) :=
  count_map Call.wait (fun _ _ _ _ => by simp) l a b

theorem zero_irecv (l : List (ℕ × ℕ)) (c : Call) (h : ∀ a b, c ≠ .irecv a b) : (l.map (fun p => Call.irecv p.1 p.2)).count c = 0 :=
  List.count_eq_zero.2 fun hm => by obtain ⟨p, _, e⟩ := List.mem_map.1 hm; exact h _ _ e.symm
theorem zero_send (l : List (ℕ × ℕ)) (c : Call) (h : ∀ a b, c ≠ .send a b) : (l.map (fun p => Call.send p.1 p.2)).count c = 0 :=
  List.count_eq_zero.2 fun hm => by obtain ⟨p, _, e⟩ := List.mem_map.1 hm; exact h _ _ e.symm
theorem zero_wait (l : List (ℕ × ℕ)) (c : Call) (h : ∀ a b, c ≠ .wait a b) : (l.map (fun p => Call.wait p.1 p.2)).count c = 0 :=
  List.count_eq_zero.2 fun hm => by obtain ⟨p, _, e⟩ := List.mem_map.1 hm; exact h _ _ e.symm

theorem exch_irecv (R S) (r a b : ℕ) : (exchSeg R S r).count (.irecv a b) = (R r).count (a, b) := by
  simp [exchSeg, List.count_append, count_irecvs, zero_send, zero_wait]
theorem exch_send (R S) (r a b : ℕ) : (exchSeg R S r).count (.send a b) = (S r).count (a, b) := by
  simp [exchSeg, List.count_append, count_sends, zero_irecv, zero_wait]
theorem exch_wait (R S) (r a b : ℕ) : (exchSeg R S r).count (.wait a b) = (R r).count (a, b) := by
  simp [exchSeg, List.count_append, count_waits, zero_irecv, zero_send]

theorem exch_colls (R S) (r : ℕ) : colls (exchSeg R S r) = [] := by
  have z1 : ∀ l : List (ℕ × ℕ), colls (l.map (fun p => Call.irecv p.1 p.2)) = [] := fun l => by induction l <;> simp_all
  have z2 : ∀ l : List (ℕ × ℕ), colls (l.map (fun p => Call.send p.1 p.2)) = [] := fun l => by induction l <;> simp_all
  have z3 : ∀ l : List (ℕ × ℕ), colls (l.map (fun p => Call.wait p.1 p.2)) = [] := fun l => by induction l <;> simp_all
  simp [exchSeg, z1, z2, z3]

/-- an element still to come is counted less often in what is done than in all -/
theorem count_lt {p : List Call} {x : Call} {rest l : List Call} (h : l = p ++ x :: rest) : p.count x < l.count x := by
  rw [h, List.count_append, List.count_cons_self]; omega

theorem good_exch (n : ℕ) (R S : ℕ → List (ℕ × ℕ)) (hS : ∀ r < n, ∀ x ∈ S r, x.1 < n) (hR : ∀ r < n, ∀ x ∈ R r, x.1 < n)
    (hm : ∀ r < n, ∀ d < n, ∀ t, (S r).count (d, t) = (R d).count (r, t)) : Good n (exchSeg R S) where
  recv := fun r hr d hd t => by rw [exch_irecv, exch_send, hm r hr d hd]
  wait := fun r hr d hd t => by rw [exch_wait, exch_send, hm r hr d hd]
  coll := fun r _ r' _ => by simp [exch_colls]
  go := by
    intro p hp hsome
    have hsplit : ∀ r < n, p r ≠ exchSeg R S r → ∃ op rest, exchSeg R S r = p r ++ op :: rest := by
      intro r hr hne
      obtain ⟨e, he⟩ := hp r hr
      cases e with
      | nil => exact absurd (by simpa using he) hne
      | cons op rest => exact ⟨op, rest, he.symm⟩
    -- a rank whose next call is not a receive has posted all its receives
    by_cases h1 : ∃ r < n, ∃ a b rest, exchSeg R S r = p r ++ .irecv a b :: rest
    · obtain ⟨r, hr, a, b, rest, e⟩ := h1
      exact ⟨r, hr, _, rest, e, trivial⟩
    have hposted : ∀ d < n, ∀ r t, (p d).count (.irecv r t) = (R d).count (r, t) := by
      intro d hd r t
      rw [← exch_irecv R S d]
      by_cases hne : p d = exchSeg R S d
      · rw [hne]
      · obtain ⟨op, rest, e⟩ := hsplit d hd hne
        have : ∃ c, p d = (R d).map (fun p => Call.irecv p.1 p.2) ++ c := by
          unfold exchSeg at e
          rcases List.append_eq_append_iff.1 e with ⟨a', g1, g2⟩ | ⟨c', g1, g2⟩
          · exact ⟨a', g1⟩
          · cases c' with
            | nil => exact ⟨[], by simp_all⟩
            | cons y ys =>
              exfalso
              have hy : y ∈ (R d).map (fun p => Call.irecv p.1 p.2) := by rw [g1]; simp
              obtain ⟨z, _, hz⟩ := List.mem_map.1 hy
              have : op = y := by simpa using (List.cons.inj g2).1
              exact h1 ⟨d, hd, z.1, z.2, rest, by rw [hz, ← this]; exact e⟩
        obtain ⟨c, hc⟩ := this
        have le : (p d).count (.irecv r t) ≤ (exchSeg R S d).count (.irecv r t) := (hp d hd).sublist.count_le _
        have ge : (R d).count (r, t) ≤ (p d).count (.irecv r t) := by
          rw [hc, List.count_append, count_irecvs]; omega
        rw [exch_irecv] at le ⊢
        omega
    by_cases h2 : ∃ r < n, ∃ a b rest, exchSeg R S r = p r ++ .send a b :: rest
    · obtain ⟨r, hr, d, t, rest, e⟩ := h2
      have hd : d < n := by
        have : Call.send d t ∈ exchSeg R S r := by rw [e]; simp
        simp only [exchSeg, List.mem_append, List.mem_map, reduceCtorEq, and_false, exists_false, false_or, or_false] at this
        obtain ⟨z, hz, ez⟩ := this
        have := hS r hr z hz
        injection ez with e1 e2
        omega
      refine ⟨r, hr, _, rest, e, hd, ?_⟩
      rw [hposted d hd, ← hm r hr d hd, ← exch_send R S r]
      exact count_lt e
    -- all sends are made
    have hsent : ∀ d < n, ∀ r t, (p d).count (.send r t) = (S d).count (r, t) := by
      intro d hd r t
      rw [← exch_send R S d]
      by_cases hne : p d = exchSeg R S d
      · rw [hne]
      · obtain ⟨op, rest, e⟩ := hsplit d hd hne
        have : ∃ c, p d = (R d).map (fun p => Call.irecv p.1 p.2) ++ (S d).map (fun p => Call.send p.1 p.2) ++ c := by
          unfold exchSeg at e
          rw [← List.append_assoc] at e
          rcases List.append_eq_append_iff.1 e with ⟨a', g1, g2⟩ | ⟨c', g1, g2⟩
          · exact ⟨a', g1⟩
          · cases c' with
            | nil => exact ⟨[], by simp_all⟩
            | cons y ys =>
              exfalso
              have hy : y ∈ (R d).map (fun p => Call.irecv p.1 p.2) ++ (S d).map (fun p => Call.send p.1 p.2) := by rw [g1]; simp
              have hop : op = y := by simpa using (List.cons.inj g2).1
              rcases List.mem_append.1 hy with hy | hy
              · obtain ⟨z, _, hz⟩ := List.mem_map.1 hy
                exact h1 ⟨d, hd, z.1, z.2, rest, by rw [hz, ← hop, exchSeg, ← List.append_assoc]; exact e⟩
              · obtain ⟨z, _, hz⟩ := List.mem_map.1 hy
                exact h2 ⟨d, hd, z.1, z.2, rest, by rw [hz, ← hop, exchSeg, ← List.append_assoc]; exact e⟩
        obtain ⟨c, hc⟩ := this
        have le : (p d).count (.send r t) ≤ (exchSeg R S d).count (.send r t) := (hp d hd).sublist.count_le _
        have ge : (S d).count (r, t) ≤ (p d).count (.send r t) := by
          rw [hc, List.count_append, List.count_append, count_sends]; omega
        rw [exch_send] at le ⊢
        omega
    obtain ⟨r, hr, hne⟩ := hsome
    obtain ⟨op, rest, e⟩ := hsplit r hr hne
    have hmem : op ∈ exchSeg R S r := by rw [e]; simp
    refine ⟨r, hr, op, rest, e, ?_⟩
    cases op with
    | irecv a b => trivial
    | send a b => exact absurd ⟨r, hr, a, b, rest, e⟩ h2
    | coll k => simp [exchSeg] at hmem
    | wait src t =>
      have hs : src < n := by
        simp only [exchSeg, List.mem_append, List.mem_map, reduceCtorEq, and_false, exists_false, false_or] at hmem
        obtain ⟨z, hz, ez⟩ := hmem
        have := hR r hr z hz
        injection ez with e1 e2
        omega
      refine ⟨hs, ?_⟩
      rw [hsent src hs, hm src hs r hr, ← exch_wait R S r]
      exact count_lt e

end PG.Comm.Job
