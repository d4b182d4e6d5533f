import Verif.Chem.Red22Model
import Verif.Chem.Red22Elim
import Mathlib.Data.Finset.Dedup
import Mathlib.Algebra.BigOperators.Group.Finset.Basic

/-!
A checker for straight-line eliminations: a list of statements `A_t = A_t + A_a * A_b`, `DEN = 1 - A_a * A_b`,
`A_t = A_t / DEN` that passes it performs substitution steps on the system `x_i = A_i0 + Σ_{k ∈ L_i} A_ik x_k`, and
assignments to `XQ[]` that pass it solve the system that is left.
-/
namespace PG.Chem.Red22
open Finset

/-- the columns in use in each row -/
abbrev Live := List (List ℕ)

/-- one substitution of row `j` into row `i`: columns that get a contribution, columns divided by `DEN` -/
structure Blk where
  i : ℕ
  j : ℕ
  keys : List ℕ
  divs : List ℕ

/-- statements of a substitution -/
def Blk.stmts (L : Live) (b : Blk) : List Stmt :=
  b.keys.map (fun k => Stmt.acc (b.i, k) (decide (k ≠ 0 ∧ k ∉ L.getD b.i [])) (b.i, b.j) (b.j, k)) ++
    (Stmt.den (b.i, b.j) (b.j, b.i) :: b.divs.map fun k => Stmt.div (b.i, k))

/-- columns in use afterwards -/
def Blk.next (L : Live) (b : Blk) : Live := L.set b.i (b.divs.filter (· ≠ 0))

/-- the substitution handles every column in use, once -/
def Blk.Ok (n : ℕ) (L : Live) (b : Blk) : Prop :=
  b.i < L.length ∧ b.i ≠ b.j ∧ b.i ∈ Icc 1 n ∧ b.j ∈ Icc 1 n ∧ b.j ∈ L.getD b.i [] ∧ b.i ∈ L.getD b.j [] ∧
  b.i ∉ L.getD b.i [] ∧ b.j ∉ L.getD b.j [] ∧ 0 ∉ L.getD b.i [] ∧ 0 ∉ L.getD b.j [] ∧
  b.keys.Nodup ∧ 0 ∈ b.keys ∧ (∀ k ∈ b.keys, k = 0 ∨ (k ∈ L.getD b.j [] ∧ k ≠ b.i)) ∧ (∀ k ∈ L.getD b.j [], k ≠ b.i → k ∈ b.keys) ∧
  b.divs.Nodup ∧ 0 ∈ b.divs ∧ (∀ k ∈ b.divs, k = 0 ∨ (k ∈ L.getD b.i [] ∧ k ≠ b.j) ∨ (k ∈ L.getD b.j [] ∧ k ≠ b.i)) ∧
  (∀ k ∈ L.getD b.i [], k ≠ b.j → k ∈ b.divs) ∧ (∀ k ∈ L.getD b.j [], k ≠ b.i → k ∈ b.divs)

instance (n : ℕ) (L : Live) (b : Blk) : Decidable (b.Ok n L) := inferInstanceAs (Decidable (_ ∧ _))

/-- all substitutions in turn -/
def OkAll (n : ℕ) : Live → List Blk → Prop
  | _, [] => True
  | L, b :: bs => b.Ok n L ∧ OkAll n (b.next L) bs

instance decOkAll (n : ℕ) : (L : Live) → (l : List Blk) → Decidable (OkAll n L l)
  | _, [] => inferInstanceAs (Decidable True)
  | L, b :: bs => by
    have := decOkAll n (b.next L) bs
    exact inferInstanceAs (Decidable (_ ∧ _))

/-- statements of all substitutions -/
def stmtsAll : Live → List Blk → List Stmt
  | _, [] => []
  | L, b :: bs => b.stmts L ++ stmtsAll (b.next L) bs

/-- columns in use at the end -/
def lastL : Live → List Blk → Live
  | L, [] => L
  | L, b :: bs => lastL (b.next L) bs

/-- guess the substitutions in a list of statements (checked afterwards) -/
def parse (p : List Stmt) : List Blk :=
  p.foldr (fun s acc =>
    match s, acc with
    | .div t, b :: bs => if b.i = 0 then { b with divs := t.2 :: b.divs } :: bs else ⟨0, 0, [], [t.2]⟩ :: b :: bs
    | .div t, [] => [⟨0, 0, [], [t.2]⟩]
    | .den a _, b :: bs => ⟨a.1, a.2, [], b.divs⟩ :: bs
    | .acc t _ _ _, b :: bs => { b with keys := t.2 :: b.keys } :: bs
    | _, [] => []) []

noncomputable section

/-- right-hand sides and matrix that the variables stand for -/
def viewb (A : ℕ → ℕ → ℝ) (i : ℕ) : ℝ := A i 0
def viewB (L : Live) (A : ℕ → ℕ → ℝ) (i k : ℕ) : ℝ := if k ∈ L.getD i [] then A i k else 0

theorem run_accs (i j : ℕ) (N : ℕ → Bool) (hij : i ≠ j) : ∀ (keys : List ℕ) (_ : keys.Nodup) (_ : j ∉ keys) (m : (ℕ → ℕ → ℝ) × ℝ),
    (runAll (keys.map fun k => Stmt.acc (i, k) (N k) (i, j) (j, k)) m).1 =
      fun l k => if l = i ∧ k ∈ keys then (if N k then 0 else m.1 i k) + m.1 i j * m.1 j k else m.1 l k := by
  intro keys
  induction keys with
  | nil => intro _ _ m; funext l k; simp [runAll]
  | cons c cs ih =>
    intro hn hj m
    rw [List.nodup_cons] at hn
    rw [List.mem_cons, not_or] at hj
    have : runAll ((c :: cs).map fun k => Stmt.acc (i, k) (N k) (i, j) (j, k)) m =
        runAll (cs.map fun k => Stmt.acc (i, k) (N k) (i, j) (j, k)) ((Stmt.acc (i, c) (N c) (i, j) (j, c)).run m) := rfl
    rw [this, ih hn.2 hj.2]
    funext l k
    have e1 : ((Stmt.acc (i, c) (N c) (i, j) (j, c)).run m).1 i j = m.1 i j := by
      simp [Stmt.run, hj.1]
    have e2 : ∀ k, ((Stmt.acc (i, c) (N c) (i, j) (j, c)).run m).1 j k = m.1 j k := by
      intro k; simp [Stmt.run, hij.symm]
    rw [e1, e2]
    by_cases hl : l = i
    · subst hl
      by_cases hk : k ∈ cs
      · have hkc : k ≠ c := fun h => hn.1 (h ▸ hk)
        simp [Stmt.run, hk, hkc]
      · by_cases hkc : k = c
        · subst hkc; simp [Stmt.run, hk]
        · simp [Stmt.run, hk, hkc]
    · simp [Stmt.run, hl]

theorem run_divs (i : ℕ) : ∀ (ks : List ℕ) (_ : ks.Nodup) (m : (ℕ → ℕ → ℝ) × ℝ),
    (runAll (ks.map fun k => Stmt.div (i, k)) m).1 = fun l k => if l = i ∧ k ∈ ks then m.1 l k / m.2 else m.1 l k := by
  intro ks
  induction ks with
  | nil => intro _ m; funext l k; simp [runAll]
  | cons c cs ih =>
    intro hn m
    rw [List.nodup_cons] at hn
    have : runAll ((c :: cs).map fun k => Stmt.div (i, k)) m =
        runAll (cs.map fun k => Stmt.div (i, k)) ((Stmt.div (i, c)).run m) := rfl
    rw [this, ih hn.2]
    funext l k
    by_cases hl : l = i
    · subst hl
      by_cases hk : k ∈ cs
      · have hkc : k ≠ c := fun h => hn.1 (h ▸ hk)
        simp [Stmt.run, hk, hkc]
      · by_cases hkc : k = c
        · subst hkc; simp [Stmt.run, hk]
        · simp [Stmt.run, hk, hkc]
    · simp [Stmt.run, hl]

theorem runAll_append (p q : List Stmt) (m) : runAll (p ++ q) m = runAll q (runAll p m) := by
  unfold runAll; rw [List.foldl_append]

theorem getD_set (L : Live) (i : ℕ) (x : List ℕ) (hi : i < L.length) (l : ℕ) :
    (L.set i x).getD l [] = if l = i then x else L.getD l [] := by
  simp only [List.getD_eq_getElem?_getD, List.getElem?_set]
  by_cases h : i = l
  · subst h; simp [hi]
  · rw [if_neg h, if_neg (fun e => h e.symm)]

/-- what a substitution does to the variables -/
theorem run_blk {n : ℕ} {L : Live} {b : Blk} (h : b.Ok n L) (m : (ℕ → ℕ → ℝ) × ℝ) :
    viewb (runAll (b.stmts L) m).1 = elimb b.i b.j (viewb m.1) (viewB L m.1) ∧
    viewB (b.next L) (runAll (b.stmts L) m).1 = elimB b.i b.j (viewB L m.1) := by
  obtain ⟨i, j, keys, divs⟩ := b
  obtain ⟨hlen, hij, _, _, hji, hi_j, hii, hjj, h0i, h0j, hkn, hk0, hk1, hk2, hdn, hd0, hd1, hd2, hd3⟩ := h
  simp only at hlen hij hji hi_j hii hjj h0i h0j hkn hk0 hk1 hk2 hdn hd0 hd1 hd2 hd3 ⊢
  have hjk : j ∉ keys := by
    intro hc
    rcases hk1 j hc with h | h
    · rw [h] at hji; exact h0i hji
    · exact hjj h.1
  set N : ℕ → Bool := fun k => decide (k ≠ 0 ∧ k ∉ L.getD i []) with hN
  have hst : Blk.stmts L ⟨i, j, keys, divs⟩ = (keys.map fun k => Stmt.acc (i, k) (N k) (i, j) (j, k)) ++
      ([Stmt.den (i, j) (j, i)] ++ divs.map fun k => Stmt.div (i, k)) := rfl
  rw [hst, runAll_append, runAll_append]
  set m1 := runAll (keys.map fun k => Stmt.acc (i, k) (N k) (i, j) (j, k)) m with hm1
  have hm1' : m1.1 = _ := run_accs i j N hij keys hkn hjk m
  have hden : runAll [Stmt.den (i, j) (j, i)] m1 = (m1.1, 1 - m1.1 i j * m1.1 j i) := rfl
  rw [hden]
  have hfin := run_divs i divs hdn (m1.1, 1 - m1.1 i j * m1.1 j i)
  have e1 : m1.1 i j = m.1 i j := by rw [hm1']; simp [hjk]
  have e2 : m1.1 j i = m.1 j i := by rw [hm1']; simp [hij.symm]
  rw [e1, e2] at hfin
  rw [e1, e2, hfin]
  have hBij : viewB L m.1 i j = m.1 i j := by simp only [viewB]; rw [if_pos hji]
  have hBji : viewB L m.1 j i = m.1 j i := by simp only [viewB]; rw [if_pos hi_j]
  have hN0 : N 0 = false := by simp [hN]
  constructor
  · funext l
    unfold viewb elimb
    rw [hBij, hBji]
    by_cases hl : l = i
    · subst hl
      simp only [true_and, hd0, if_true]
      rw [hm1']
      simp only [true_and, hk0, if_true, hN0, Bool.false_eq_true, if_false]
    · simp only [hl, false_and, if_false]
      rw [hm1']
      simp [hl]
  · funext l k
    have hnx : (Blk.next L ⟨i, j, keys, divs⟩).getD l [] = if l = i then divs.filter (· ≠ 0) else L.getD l [] :=
      getD_set L i _ hlen l
    unfold elimB
    rw [hBij, hBji]
    rw [viewB, hnx]
    by_cases hl : l = i
    · subst hl
      simp only [if_true, true_and]
      by_cases hkl : k = l ∨ k = j
      · rw [if_pos hkl, if_neg]
        intro hc
        obtain ⟨hc1, hc2⟩ := List.mem_filter.1 hc
        have hc3 : k ≠ 0 := by simpa using hc2
        rcases hd1 k hc1 with h | h | h
        · exact hc3 h
        · rcases hkl with h' | h'
          · subst h'; exact hii h.1
          · exact h.2 h'
        · rcases hkl with h' | h'
          · exact h.2 h'
          · subst h'; exact hjj h.1
      · rw [if_neg hkl]
        rw [not_or] at hkl
        by_cases hk00 : k = 0
        · subst hk00
          rw [if_neg (by simp)]
          simp only [viewB]
          rw [if_neg h0i, if_neg h0j]; simp
        · by_cases hkd : k ∈ divs
          · rw [if_pos (List.mem_filter.2 ⟨hkd, by simpa using hk00⟩), if_pos hkd]
            congr 1
            rw [hm1']
            simp only [true_and]
            by_cases hkk : k ∈ keys
            · rw [if_pos hkk]
              have hkj : k ∈ L.getD j [] := by
                rcases hk1 k hkk with h | h
                · exact absurd h hk00
                · exact h.1
              have e3 : viewB L m.1 j k = m.1 j k := by simp only [viewB]; rw [if_pos hkj]
              rw [e3]
              congr 1
              simp only [viewB]
              by_cases hki : k ∈ L.getD l []
              · rw [if_pos hki]
                have : N k = false := by simp only [hN, decide_eq_false_iff_not, not_and]; exact fun _ h => h hki
                rw [this]; simp
              · rw [if_neg hki]
                have : N k = true := by simp only [hN, decide_eq_true_eq]; exact ⟨hk00, hki⟩
                rw [this]; simp
            · rw [if_neg hkk]
              have hkj : k ∉ L.getD j [] := fun h => hkk (hk2 k h hkl.1)
              have hki : k ∈ L.getD l [] := by
                rcases hd1 k hkd with h | h | h
                · exact absurd h hk00
                · exact h.1
                · exact absurd h.1 hkj
              simp only [viewB]
              rw [if_pos hki, if_neg hkj]; ring
          · rw [if_neg (fun h => hkd (List.mem_filter.1 h).1)]
            have hki : k ∉ L.getD l [] := fun h => hkd (hd2 k h hkl.2)
            have hkj : k ∉ L.getD j [] := fun h => hkd (hd3 k h hkl.1)
            simp only [viewB]
            rw [if_neg hki, if_neg hkj]; simp
    · simp only [hl, false_and, if_false]
      rw [hm1']
      simp [hl, viewB]

/-- a checked elimination keeps the solutions, and all its divisors are positive -/
theorem elim_correct {n : ℕ} : ∀ (bs : List Blk) (L : Live) (m : (ℕ → ℕ → ℝ) × ℝ), OkAll n L bs →
    Good (Icc 1 n) (viewb m.1) (viewB L m.1) →
    Good (Icc 1 n) (viewb (runAll (stmtsAll L bs) m).1) (viewB (lastL L bs) (runAll (stmtsAll L bs) m).1) ∧
    ∀ x, Sol (Icc 1 n) (viewb (runAll (stmtsAll L bs) m).1) (viewB (lastL L bs) (runAll (stmtsAll L bs) m).1) x ↔
      Sol (Icc 1 n) (viewb m.1) (viewB L m.1) x := by
  intro bs
  induction bs with
  | nil => intro L m _ g; exact ⟨g, fun x => Iff.rfl⟩
  | cons b bs ih =>
    intro L m ho g
    obtain ⟨hb, hbs⟩ := ho
    obtain ⟨hv1, hv2⟩ := run_blk hb m
    have hb' := hb
    obtain ⟨_, hij, hi, hj, _⟩ := hb'
    have g' := good_elim g hi hj hij
    rw [← hv1, ← hv2] at g'
    have := ih (b.next L) (runAll (b.stmts L) m) hbs g'
    simp only [stmtsAll, lastL, runAll_append]
    refine ⟨this.1, fun x => (this.2 x).trans ?_⟩
    rw [hv1, hv2]
    exact sol_elim hi hj hij (g.diag _ hi) (g.diag _ hj) (pivot_pos g hi hj).ne'

/-! the assignments to `XQ[]` -/

end

/-- each entry is assigned once, from entries assigned before -/
def BackOk : List ℕ → List Back → Prop
  | _, [] => True
  | done, s :: ss => s.t ∉ done ∧ (∀ p ∈ s.ks, p.2 ∈ done) ∧ BackOk (s.t :: done) ss

instance decBackOk : (d : List ℕ) → (l : List Back) → Decidable (BackOk d l)
  | _, [] => inferInstanceAs (Decidable True)
  | d, s :: ss => by
    have := decBackOk (s.t :: d) ss
    exact inferInstanceAs (Decidable (_ ∧ _))

noncomputable section

theorem back_spec (A : ℕ → ℕ → ℝ) : ∀ (l : List Back) (done : List ℕ) (x : ℕ → ℝ), BackOk done l →
    (∀ q ∈ done, (l.foldl (fun x s => s.run A x) x) q = x q) ∧
    ∀ s ∈ l, (l.foldl (fun x s => s.run A x) x) s.t =
      A s.i 0 + (s.ks.map fun p => A s.i p.1 * (l.foldl (fun x s => s.run A x) x) p.2).sum := by
  intro l
  induction l with
  | nil => intro done x _; exact ⟨fun _ _ => rfl, fun s hs => absurd hs List.not_mem_nil⟩
  | cons s ss ih =>
    intro done x h
    obtain ⟨h1, h2, h3⟩ := h
    obtain ⟨ha, hb⟩ := ih (s.t :: done) (s.run A x) h3
    simp only [List.foldl_cons]
    have hdone : ∀ q ∈ done, (ss.foldl (fun x s => s.run A x) (s.run A x)) q = x q := by
      intro q hq
      rw [ha q (List.mem_cons_of_mem _ hq)]
      have : q ≠ s.t := fun h => h1 (h ▸ hq)
      simp [Back.run, this]
    refine ⟨hdone, fun r hr => ?_⟩
    rcases List.mem_cons.1 hr with rfl | hr
    · rw [ha r.t List.mem_cons_self]
      simp only [Back.run, if_true]
      congr 2
      exact List.map_congr_left fun p hp => by rw [hdone p.2 (h2 p hp)]
    · exact hb r hr

theorem back_nonneg (A : ℕ → ℕ → ℝ) : ∀ (l : List Back) (done : List ℕ) (x : ℕ → ℝ), BackOk done l → (∀ q ∈ done, 0 ≤ x q) →
    (∀ s ∈ l, 0 ≤ A s.i 0 ∧ ∀ p ∈ s.ks, 0 ≤ A s.i p.1) →
    ∀ s ∈ l, 0 ≤ (l.foldl (fun x s => s.run A x) x) s.t := by
  intro l
  induction l with
  | nil => intro _ _ _ _ _ s hs; exact absurd hs List.not_mem_nil
  | cons s ss ih =>
    intro done x h hx hA r hr
    obtain ⟨h1, h2, h3⟩ := h
    simp only [List.foldl_cons]
    have hs : 0 ≤ s.run A x s.t := by
      simp only [Back.run, if_true]
      obtain ⟨ha, hb⟩ := hA s List.mem_cons_self
      refine add_nonneg ha (List.sum_nonneg fun y hy => ?_)
      obtain ⟨p, hp, rfl⟩ := List.mem_map.1 hy
      exact mul_nonneg (hb p hp) (hx _ (h2 p hp))
    have hx' : ∀ q ∈ s.t :: done, 0 ≤ s.run A x q := by
      intro q hq
      rcases List.mem_cons.1 hq with rfl | hq
      · exact hs
      · have : q ≠ s.t := fun h => h1 (h ▸ hq)
        simp only [Back.run, this, if_false]; exact hx q hq
    rcases List.mem_cons.1 hr with rfl | hr
    · rw [(back_spec A ss (r.t :: done) (r.run A x) h3).1 r.t List.mem_cons_self]; exact hs
    · exact ih (s.t :: done) (s.run A x) h3 hx' (fun r hr => hA r (List.mem_cons_of_mem _ hr)) r hr

end

/-- the assignments cover the unknowns 1..n (held in `XQ[0..n-1]`), each by its own row over the columns in use -/
def BackFits (n : ℕ) (L : Live) (l : List Back) : Prop :=
  (∀ i ∈ Icc 1 n, ∃ s ∈ l, s.i = i) ∧
  ∀ s ∈ l, s.i = s.t + 1 ∧ (∀ p ∈ s.ks, p.1 = p.2 + 1 ∧ p.1 ∈ Icc 1 n) ∧ (s.ks.map Prod.fst).Nodup ∧
    (∀ k ∈ s.ks.map Prod.fst, k ∈ L.getD s.i []) ∧ ∀ k ∈ L.getD s.i [], k ∈ s.ks.map Prod.fst

instance (n : ℕ) (L : Live) (l : List Back) : Decidable (BackFits n L l) := inferInstanceAs (Decidable (_ ∧ _))

theorem back_sol {n : ℕ} {L : Live} {l : List Back} (A : ℕ → ℕ → ℝ) (hok : BackOk [] l) (hf : BackFits n L l)
    : Sol (Icc 1 n) (viewb A) (viewB L A) fun i => backAll A l (i - 1) := by
  intro i hi
  obtain ⟨s, hs, rfl⟩ := hf.1 i hi
  obtain ⟨h1, h2, h3, h4, h5⟩ := hf.2 s hs
  have := (back_spec A l [] (fun _ => 0) hok).2 s hs
  have ht : s.i - 1 = s.t := by omega
  dsimp only
  rw [ht]
  unfold backAll
  rw [this]
  unfold viewb
  congr 1
  have hsum : ∑ k ∈ Icc 1 n, viewB L A s.i k * (l.foldl (fun x s => s.run A x) fun _ => 0) (k - 1)
      = ∑ k ∈ (s.ks.map Prod.fst).toFinset, A s.i k * (l.foldl (fun x s => s.run A x) fun _ => 0) (k - 1) := by
    refine (Finset.sum_subset_zero_on_sdiff ?_ ?_ ?_).symm
    · intro k hk
      rw [List.mem_toFinset] at hk
      obtain ⟨p, hp, rfl⟩ := List.mem_map.1 hk
      exact (h2 p hp).2
    · intro k hk
      rw [Finset.mem_sdiff, List.mem_toFinset] at hk
      have : k ∉ L.getD s.i [] := fun h => hk.2 (h5 k h)
      simp only [viewB]
      rw [if_neg this, zero_mul]
    · intro k hk
      rw [List.mem_toFinset] at hk
      simp only [viewB]
      rw [if_pos (h4 k hk)]
  rw [hsum, List.sum_toFinset _ h3, List.map_map]
  congr 1
  refine List.map_congr_left fun p hp => ?_
  have := (h2 p hp).1
  simp only [Function.comp]
  rw [this, Nat.add_sub_cancel]

end PG.Chem.Red22
