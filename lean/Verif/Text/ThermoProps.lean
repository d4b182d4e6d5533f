import Verif.Text.Thermo
import Verif.Thermo.Model
import Mathlib.Tactic.Ring
import Mathlib.Tactic.NormNum
/-!
C119: what the calorically perfect gas kernel leaves in a cell. `Text/Thermo.lean` is generated from the text of cpg.cpp.
-/
namespace PG.Text.ThermoP
open PG.Text.Thermo PG.Thermo

/-! ### specification -/

/-- the arrays of a cell, by the meaning of their components (block_.hpp) -/
def view (r : (ℕ → ℝ) × (ℕ → ℝ) × (ℕ → ℝ)) : PG.Thermo.Cell where
  q := ⟨r.1 0, r.1 1, r.1 2, r.1 3, r.1 4, fun n => r.1 (5 + n)⟩
  Q := ⟨r.2.1 0, r.2.1 1, r.2.1 2, r.2.1 3, r.2.1 4, fun n => r.2.1 (5 + n)⟩
  qh := ⟨r.2.2 0, r.2.2 1, r.2.2 2, r.2.2 3, r.2.2 4, fun n => r.2.2 (5 + n)⟩

/-- the species data the kernel reads -/
def thB (th : Th) : ThB := ⟨th.ns, th.Ru, th.MW, th.cp0⟩

/-! ### proofs -/

/-- species components `5 .. 5+N-1` replaced by `a` -/
def stored (N : ℕ) (a : ℕ → ℝ) (F : ℕ → ℝ) : ℕ → ℝ := fun m => if 5 ≤ m ∧ m < 5 + N then a (m - 5) else F m
/-- the first `N` entries are `y`, the next one is what is left of one -/
noncomputable def filled (N : ℕ) (y : ℕ → ℝ) (Y : ℕ → ℝ) : ℕ → ℝ := fun m =>
  if m < N then y m else if m = N then 1 - ∑ n ∈ Finset.range N, y n else Y m
/-- the first `N` entries over `t`, the next one zero -/
noncomputable def scaled (N : ℕ) (t : ℝ) (Y : ℕ → ℝ) : ℕ → ℝ := fun m => if m < N then Y m / t else if m = N then 0 else Y m

theorem foldS (a : ℕ → ℝ) (F : ℕ → ℝ) (N : ℕ) :
    (List.range N).foldl (fun (st : ℕ → ℝ) n => upd st (5 + n) (a n)) F = stored N a F := by
  induction N with
  | zero => funext m; simp [stored]
  | succ N ih =>
    rw [List.range_succ, List.foldl_append, ih]
    funext m
    simp only [List.foldl_cons, List.foldl_nil, upd, stored]
    by_cases h : m = 5 + N
    · subst h; simp
    · by_cases h' : 5 ≤ m ∧ m < 5 + N
      · rw [if_neg h, if_pos h', if_pos (by omega)]
      · rw [if_neg h, if_neg h', if_neg (by omega)]

theorem foldM (a c : ℕ → ℝ) (x y : ℝ) (N : ℕ) :
    (List.range N).foldl (fun (st : ℝ × ℝ) n => (st.1 + a n, st.2 + c n)) (x, y) =
      (x + ∑ n ∈ Finset.range N, a n, y + ∑ n ∈ Finset.range N, c n) := by
  induction N with
  | zero => simp
  | succ N ih =>
    rw [List.range_succ, List.foldl_append, ih]
    simp only [List.foldl_cons, List.foldl_nil, Finset.sum_range_succ, Prod.mk.injEq]
    exact ⟨by ring, by ring⟩

theorem scale_aux (t : ℝ) (Y : ℕ → ℝ) (N : ℕ) : (List.range N).foldl (fun (st : ℕ → ℝ) n => upd st n (st n / t)) Y =
    fun m => if m < N then Y m / t else Y m := by
  induction N with
  | zero => simp
  | succ N ih =>
    rw [List.range_succ, List.foldl_append, ih]
    funext m
    simp only [List.foldl_cons, List.foldl_nil, upd]
    by_cases h : m = N
    · subst h; simp
    · by_cases h' : m < N
      · rw [if_neg h, if_pos h', if_pos (by omega)]
      · rw [if_neg h, if_neg h', if_neg (by omega)]

theorem foldScale (t : ℝ) (Y : ℕ → ℝ) (N : ℕ) :
    (List.range N).foldl (fun (st : ℕ → ℝ) n => upd st n (st n / t)) (upd Y N 0) = scaled N t Y := by
  rw [scale_aux]
  funext m
  unfold scaled upd
  by_cases h : m < N
  · rw [if_pos h, if_pos h, if_neg (by omega)]
  · rw [if_neg h, if_neg h]

theorem foldScaleQ_aux (t : ℝ) (Y Q : ℕ → ℝ) (N : ℕ) :
    (List.range N).foldl (fun (st : (ℕ → ℝ) × (ℕ → ℝ)) n =>
      (upd st.1 n (st.1 n / t), upd st.2 (5 + n) (upd st.1 n (st.1 n / t) n * st.2 0))) (Y, Q) =
    (fun m => if m < N then Y m / t else Y m, stored N (fun n => Y n / t * Q 0) Q) := by
  induction N with
  | zero => simp; funext m; simp [stored]
  | succ N ih =>
    rw [List.range_succ, List.foldl_append, ih]
    simp only [List.foldl_cons, List.foldl_nil, Prod.mk.injEq]
    constructor
    · funext m
      simp only [upd]
      by_cases h : m = N
      · subst h; simp
      · by_cases h' : m < N
        · rw [if_neg h, if_pos h', if_pos (by omega)]
        · rw [if_neg h, if_neg h', if_neg (by omega)]
    · funext m
      simp only [upd, stored]
      by_cases h : m = 5 + N
      · subst h; simp
      · by_cases h' : 5 ≤ m ∧ m < 5 + N
        · rw [if_neg h, if_pos h', if_pos (by omega)]
        · rw [if_neg h, if_neg h', if_neg (by omega)]

theorem foldScaleQ (t : ℝ) (Y Q : ℕ → ℝ) (N : ℕ) :
    (List.range N).foldl (fun (st : (ℕ → ℝ) × (ℕ → ℝ)) n =>
      (upd st.1 n (st.1 n / t), upd st.2 (5 + n) (upd st.1 n (st.1 n / t) n * st.2 0))) (upd Y N 0, Q) =
    (scaled N t Y, stored N (fun n => Y n / t * Q 0) Q) := by
  rw [foldScaleQ_aux, Prod.mk.injEq]
  constructor
  · funext m
    unfold scaled upd
    by_cases h : m < N
    · rw [if_pos h, if_pos h, if_neg (by omega)]
    · rw [if_neg h, if_neg h]
  · funext m
    unfold stored upd
    by_cases h : 5 ≤ m ∧ m < 5 + N
    · rw [if_pos h, if_pos h]; simp only; rw [if_neg (by omega)]
    · rw [if_neg h, if_neg h]

/-- the loop that clips the species, takes them into `Y` and forms the remainder -/
theorem foldFill (g h : ℝ → ℝ → ℝ) (A Y : ℕ → ℝ) (N K : ℕ) (hK : K ≤ N) :
    (List.range K).foldl (fun (st : (ℕ → ℝ) × (ℕ → ℝ) × ℝ) n =>
      (upd st.1 (5 + n) (g (st.1 0) (st.1 (5 + n))),
       upd (upd st.2.1 n (h (upd st.1 (5 + n) (g (st.1 0) (st.1 (5 + n))) 0) (upd st.1 (5 + n) (g (st.1 0) (st.1 (5 + n))) (5 + n)))) N
        (upd st.2.1 n (h (upd st.1 (5 + n) (g (st.1 0) (st.1 (5 + n))) 0) (upd st.1 (5 + n) (g (st.1 0) (st.1 (5 + n))) (5 + n))) N -
         upd st.2.1 n (h (upd st.1 (5 + n) (g (st.1 0) (st.1 (5 + n))) 0) (upd st.1 (5 + n) (g (st.1 0) (st.1 (5 + n))) (5 + n))) n),
       st.2.2 + upd (upd st.2.1 n (h (upd st.1 (5 + n) (g (st.1 0) (st.1 (5 + n))) 0) (upd st.1 (5 + n) (g (st.1 0) (st.1 (5 + n))) (5 + n)))) N
        (upd st.2.1 n (h (upd st.1 (5 + n) (g (st.1 0) (st.1 (5 + n))) 0) (upd st.1 (5 + n) (g (st.1 0) (st.1 (5 + n))) (5 + n))) N -
         upd st.2.1 n (h (upd st.1 (5 + n) (g (st.1 0) (st.1 (5 + n))) 0) (upd st.1 (5 + n) (g (st.1 0) (st.1 (5 + n))) (5 + n))) n) n))
      (A, upd Y N 1, 0) =
    (stored K (fun n => g (A 0) (A (5 + n))) A,
     fun m => if m < K then h (A 0) (g (A 0) (A (5 + m))) else if m = N then 1 - ∑ n ∈ Finset.range K, h (A 0) (g (A 0) (A (5 + n))) else Y m,
     ∑ n ∈ Finset.range K, h (A 0) (g (A 0) (A (5 + n)))) := by
  induction K with
  | zero =>
    simp only [List.range_zero, List.foldl_nil, Finset.range_zero, Finset.sum_empty, Prod.mk.injEq, and_true]
    constructor
    · funext m; simp [stored]
    · funext m; simp [upd]
  | succ K ih =>
    rw [List.range_succ, List.foldl_append, ih (by omega)]
    have hn : ¬ (K = N) := by omega
    have hn' : ¬ (N < K) := by omega
    have hn2 : ¬ (N = K) := by omega
    have h0 : ¬ (0 = 5 + K) := by omega
    have s0 : stored K (fun n => g (A 0) (A (5 + n))) A 0 = A 0 := by simp [stored]
    have s1 : stored K (fun n => g (A 0) (A (5 + n))) A (5 + K) = A (5 + K) := by simp [stored]
    simp only [List.foldl_cons, List.foldl_nil, Finset.sum_range_succ, Prod.mk.injEq, s0, s1]
    refine ⟨?_, ?_, ?_⟩
    · funext m
      unfold upd stored
      by_cases e : m = 5 + K
      · subst e; simp
      · by_cases e' : 5 ≤ m ∧ m < 5 + K
        · rw [if_neg e, if_pos e', if_pos (by omega)]
        · rw [if_neg e, if_neg e', if_neg (by omega)]
    · funext m
      by_cases e : m = K
      · subst e; simp [upd, hn, s0, h0]
      · by_cases e2 : m = N
        · subst e2
          have : ¬ (m < K + 1) := by omega
          simp [upd, e, hn, hn', hn2, this, s0, h0]; ring
        · by_cases e' : m < K
          · have : m < K + 1 := by omega
            simp [upd, e, e2, e', this]
          · have : ¬ (m < K + 1) := by omega
            simp [upd, e, e2, e', this]
    · simp [upd, hn, s0, h0]

/-- the entries of `Y` that are used are those of the model -/
theorem localY_of (N : ℕ) (y y' Y : ℕ → ℝ) (hy : ∀ n, n < N → y n = y' n) (n : ℕ) (hn : n < N + 1) :
    (if (∑ n ∈ Finset.range N, y n) > 1 then scaled N (∑ n ∈ Finset.range N, y n) (filled N y Y) else filled N y Y) n =
      localY (N + 1) y' n := by
  have hs : ∑ n ∈ Finset.range N, y n = testSum (N + 1) y' := by
    unfold testSum
    exact Finset.sum_congr rfl fun n hn => hy n (Finset.mem_range.1 hn)
  unfold localY
  rw [hs]
  simp only [Nat.add_sub_cancel]
  by_cases h : n < N
  · have hne : ¬ n = N := by omega
    split <;> simp [scaled, filled, h, hne, hy n h]
  · have hne : n = N := by omega
    subst hne
    split <;> simp [scaled, filled, hs]

/-- **C119.** given primitives -/
theorem C119_prims (th : Th) (h : 1 ≤ th.ns) (q Q qh Y : ℕ → ℝ) :
    view (cpg_prims (thB th) q Q qh Y) = cpgPrims th (view (q, Q, qh)) := by
  obtain ⟨N, hN⟩ : ∃ N, th.ns = N + 1 := ⟨th.ns - 1, by omega⟩
  have hF := foldFill (fun _ x => max (min x 1) 0) (fun _ x => x) q Y N N le_rfl
  have hS := fun t Y => foldScale t Y N
  have hM := fun a c x y => foldM a c x y (N + 1)
  have hQ := fun a F => foldS a F N
  have hH := fun a F => foldS a F (N + 1)
  simp only [cpg_prims, thB, hN, Nat.add_sub_cancel, hF, hS, hM, hQ, hH, zero_add]
  have hL := localY_of N (fun n => max (min (q (5 + n)) 1) 0) (clipY (N + 1) (fun n => q (5 + n))) Y
    (fun n hn => by simp [clipY, hn])
  unfold filled at hL
  dsimp only at hL
  generalize (if (∑ n ∈ Finset.range N, max (min (q (5 + n)) 1) 0) > 1 then _ else _ : ℕ → ℝ) = Z at hL ⊢
  have hR : ∑ n ∈ Finset.range (N + 1), Z n / th.MW n =
      ∑ n ∈ Finset.range (N + 1), localY (N + 1) (clipY (N + 1) (fun n => q (5 + n))) n / th.MW n :=
    Finset.sum_congr rfl fun n hn => by rw [hL n (Finset.mem_range.1 hn)]
  have hC : ∑ n ∈ Finset.range (N + 1), Z n * th.cp0 n =
      ∑ n ∈ Finset.range (N + 1), localY (N + 1) (clipY (N + 1) (fun n => q (5 + n))) n * th.cp0 n :=
    Finset.sum_congr rfl fun n hn => by rw [hL n (Finset.mem_range.1 hn)]
  have h5 : ∀ n c, c < 5 → ¬ (5 + n = c) := by intro n c hc; omega
  have half : (0.5 : ℝ) = 1 / 2 := by norm_num
  rw [hR, hC]
  simp only [view, cpgPrims, Rmix, cpmix, hN, half, Nat.add_sub_cancel]
  simp only [Cell.mk.injEq, Prim.mk.injEq, Cons.mk.injEq, Qh.mk.injEq]
  simp only [stored, upd]
  refine ⟨⟨?_, ?_, ?_, ?_, ?_, ?_⟩, ⟨?_, ?_, ?_, ?_, ?_, ?_⟩, ⟨?_, ?_, ?_, ?_, ?_, ?_⟩⟩
  case refine_6 => funext n; simp [clipY]
  case refine_12 =>
    funext n
    by_cases hn : n < N
    · have := hL n (by omega)
      simp [hn, this]
    · simp [hn, h5]
  case refine_18 => funext n; simp [h5]
  all_goals simp

/-- **C119.** given conserved variables -/
theorem C119_cons (th : Th) (h : 1 ≤ th.ns) (q Q qh Y : ℕ → ℝ) :
    view (cpg_cons (thB th) q Q qh Y) = cpgCons th (view (q, Q, qh)) := by
  obtain ⟨N, hN⟩ : ∃ N, th.ns = N + 1 := ⟨th.ns - 1, by omega⟩
  have hF := foldFill (fun c x => max (min x c) 0) (fun c x => x / c) Q Y N N le_rfl
  have hS := fun t Y Q => foldScaleQ t Y Q N
  have hM := fun a c x y => foldM a c x y (N + 1)
  have hQ := fun a F => foldS a F N
  have hH := fun a F => foldS a F (N + 1)
  have hy : ∀ n, n < N → max (min (Q (5 + n)) (Q 0)) 0 / Q 0 =
      consY (N + 1) ⟨Q 0, Q 1, Q 2, Q 3, Q 4, fun n => Q (5 + n)⟩ n :=
    fun n hn => by simp [consY, clipRhoY, hn]
  have hL := localY_of N (fun n => max (min (Q (5 + n)) (Q 0)) 0 / Q 0)
    (consY (N + 1) ⟨Q 0, Q 1, Q 2, Q 3, Q 4, fun n => Q (5 + n)⟩) Y hy
  have hT : testSum (N + 1) (consY (N + 1) ⟨Q 0, Q 1, Q 2, Q 3, Q 4, fun n => Q (5 + n)⟩) =
      ∑ n ∈ Finset.range N, max (min (Q (5 + n)) (Q 0)) 0 / Q 0 :=
    (Finset.sum_congr rfl fun n hn => hy n (Finset.mem_range.1 hn)).symm
  unfold filled at hL
  dsimp only at hL
  have h5 : ∀ n c, c < 5 → ¬ (5 + n = c) := by intro n c hc; omega
  have half : (0.5 : ℝ) = 1 / 2 := by norm_num
  simp only [cpg_cons, thB, hN, Nat.add_sub_cancel, hF, hS, hM, hQ, hH, zero_add]
  by_cases hc : (∑ n ∈ Finset.range N, max (min (Q (5 + n)) (Q 0)) 0 / Q 0) > 1
  all_goals
    simp only [hc, if_true, if_false] at hL ⊢
    have hR := Finset.sum_congr (rfl : Finset.range (N + 1) = _) fun n hn =>
      congrArg (· / th.MW n) (hL n (Finset.mem_range.1 hn))
    have hC := Finset.sum_congr (rfl : Finset.range (N + 1) = _) fun n hn =>
      congrArg (· * th.cp0 n) (hL n (Finset.mem_range.1 hn))
    simp only [hR, hC]
    simp only [view, cpgCons, Rmix, cpmix, hN, half, Nat.add_sub_cancel]
    simp only [Cell.mk.injEq, Prim.mk.injEq, Cons.mk.injEq, Qh.mk.injEq]
    refine ⟨⟨?_, ?_, ?_, ?_, ?_, ?_⟩, ⟨?_, ?_, ?_, ?_, ?_, ?_⟩, ⟨?_, ?_, ?_, ?_, ?_, ?_⟩⟩
    case refine_6 =>
      funext n
      by_cases hn : n < N
      · have := hL n (by omega)
        simp [stored, hn, ← this]
      · simp [stored, upd, hn, h5]
    case refine_12 =>
      funext n
      simp only [consRhoY, hT, hc, Nat.add_sub_cancel]
      by_cases hn : n < N
      · have := hL n (by omega)
        simp [stored, clipRhoY, scaled, hn, ← this]
      · simp [stored, clipRhoY, hn]
    case refine_18 => funext n; simp [stored, upd, h5]
    all_goals simp [stored, upd]

/-- **C119.** what the cell holds afterwards does not depend on what the uninitialised local array held -/
theorem C119_local (th : Th) (h : 1 ≤ th.ns) (q Q qh Y Y' : ℕ → ℝ) :
    view (cpg_prims (thB th) q Q qh Y) = view (cpg_prims (thB th) q Q qh Y') ∧
    view (cpg_cons (thB th) q Q qh Y) = view (cpg_cons (thB th) q Q qh Y') :=
  ⟨(C119_prims th h q Q qh Y).trans (C119_prims th h q Q qh Y').symm,
   (C119_cons th h q Q qh Y).trans (C119_cons th h q Q qh Y').symm⟩

/-- the hypotheses are met, with two species; the translated text gives the ideal gas density there -/
example : ∃ th : Th, 1 ≤ th.ns ∧ ∀ Q qh Y : ℕ → ℝ,
    (view (cpg_prims (thB th) (fun m => if m = 5 then 1 / 4 else 1) Q qh Y)).Q.rho = 1 / (1 * 1) := by
  refine ⟨⟨2, 1, fun _ => 1, fun _ => 2, fun _ _ => 0⟩, by norm_num, fun Q qh Y => ?_⟩
  rw [C119_prims _ (by norm_num)]
  simp [cpgPrims, view, Rmix, localY, testSum, clipY, Finset.sum_range_succ]

end PG.Text.ThermoP
