import Verif.Chem.Red22Checks
import Verif.Chem.Lemmas
import Mathlib.Algebra.BigOperators.Fin
import Mathlib.Tactic.NormNum

/-!
C102, C103: the reduced ethylene mechanism. The radical concentrations `XQ[]` that the elimination produces are nonnegative
and make production equal consumption for each of the ten radicals; hence elements and mass are conserved by the sources of
the 21 transported species although no radical is transported.
-/
noncomputable section
namespace PG.Chem.Red22
open Finset

variable {v : Env}

/-! ### signs of the rates -/

theorem LArr.val_pos (k : LArr) (T : ℝ) : 0 < k.val T := Real.exp_pos _

theorem kf_pos (T : ℝ) : ∀ r, r < 206 → 0 < kf rxns T r := by
  intro r
  induction r using Nat.strong_induction_on with
  | _ r ih =>
    intro hr
    have h := chk_k r hr
    unfold rx at h
    rw [kf]
    cases hk : (rxns.getD r noRx).k with
    | arr k => exact LArr.val_pos k T
    | const c => rw [hk] at h; exact Dec.val_pos h
    | scaled c r' =>
      rw [hk] at h
      obtain ⟨h1, h2⟩ := h
      simp only [h2, dif_pos]
      exact mul_pos (Dec.val_pos h1) (ih r' h2 (by omega))

theorem val_ge_neg_one {d : Dec} (he : d.e ≤ 0) (hm : -(10 : ℤ) ^ (-d.e).toNat ≤ d.m) : -1 ≤ d.val := by
  have h1 : (-(10 : ℝ) ^ (-d.e).toNat) ≤ (d.m : ℝ) := by exact_mod_cast hm
  have h2 : (10 : ℝ) ^ d.e = ((10 : ℝ) ^ (-d.e).toNat)⁻¹ := by
    rw [← zpow_natCast, Int.toNat_of_nonneg (by omega), zpow_neg, inv_inv]
  unfold Dec.val
  rw [h2]
  have hp : (0 : ℝ) < (10 : ℝ) ^ (-d.e).toNat := by positivity
  rw [← div_eq_mul_inv, le_div_iff₀ hp]
  linarith

theorem list_le_range (l : List ℕ) (hn : l.Nodup) (hl : ∀ n ∈ l, n < 22) {cs : ℕ → ℝ} (hc : ∀ n < 22, 0 ≤ cs n) :
    (l.map cs).sum ≤ ∑ n ∈ range 22, cs n := by
  rw [← List.sum_toFinset _ hn]
  refine Finset.sum_le_sum_of_subset_of_nonneg (fun n h => ?_) fun n h _ => hc n (mem_range.1 h)
  exact mem_range.2 (hl n (List.mem_toFinset.1 h))

theorem neg_sum_le (l : List (ℕ × Dec)) (h : ∀ p ∈ l, p.1 < 22 ∧ p.2.e ≤ 0 ∧ -(10 : ℤ) ^ (-p.2.e).toNat ≤ p.2.m) {cs : ℕ → ℝ}
    (hc : ∀ n < 22, 0 ≤ cs n) : -((l.map Prod.fst).map cs).sum ≤ (l.map fun p => p.2.val * cs p.1).sum := by
  induction l with
  | nil => simp
  | cons p ps ih =>
    simp only [List.map_cons, List.sum_cons]
    obtain ⟨h1, h2, h3⟩ := h p List.mem_cons_self
    have := ih fun q hq => h q (List.mem_cons_of_mem _ hq)
    have hv := val_ge_neg_one h2 h3
    have := hc _ h1
    nlinarith

theorem ctb_nonneg {l : List (ℕ × Dec)} (h : CtbOk l) {cs : ℕ → ℝ} (hc : ∀ n < 22, 0 ≤ cs n) : 0 ≤ ctb l cs := by
  have h1 := neg_sum_le l h.2 hc
  have h2 := list_le_range (l.map Prod.fst) h.1 (fun n hn => by
    obtain ⟨p, hp, rfl⟩ := List.mem_map.1 hn; exact (h.2 p hp).1) hc
  unfold ctb; linarith

theorem div_one_add_nonneg {x : ℝ} (h : 0 ≤ x) : 0 ≤ x / (1 + x) := div_nonneg h (by linarith)

theorem mod_nonneg (hv : v.Ok) {m : RMod} (hm : m.Ok) {k : ℝ} (hk : 0 < k) : 0 ≤ m.val v k := by
  cases m with
  | none => exact zero_le_one
  | three l => exact ctb_nonneg hm hv.cs
  | lind l k0 =>
    exact div_one_add_nonneg (div_nonneg (mul_nonneg (LArr.val_pos _ _).le (ctb_nonneg hm hv.cs)) hk.le)
  | troe l k0 a1 T3 a2 T1 T2 =>
    refine mul_nonneg (Real.exp_pos _).le ?_
    exact div_one_add_nonneg (div_nonneg (mul_nonneg (LArr.val_pos _ _).le (ctb_nonneg hm hv.cs)) hk.le)

theorem prodOf_nonneg {l : List ℕ} {c : ℕ → ℝ} (h : ∀ n ∈ l, 0 ≤ c n) : 0 ≤ prodOf l c := by
  unfold prodOf
  refine List.prod_nonneg fun y hy => ?_
  obtain ⟨n, hn, rfl⟩ := List.mem_map.1 hy
  exact h n hn

theorem prodOf_pos {l : List ℕ} {c : ℕ → ℝ} (h : ∀ n ∈ l, 0 < c n) : 0 < prodOf l c := by
  unfold prodOf
  refine List.prod_pos fun y hy => ?_
  obtain ⟨n, hn, rfl⟩ := List.mem_map.1 hy
  exact h n hn

theorem eqk_pos (hv : v.Ok) (x : Rx) : 0 < eqk x v :=
  mul_pos (div_pos (prodOf_pos fun e _ => hv.EG e) (prodOf_pos fun e _ => hv.EG e)) (zpow_pos hv.pref _)

theorem rate1_nonneg (hv : v.Ok) (t : Dir) (ht : t.2 < 206) : 0 ≤ rate1 rxns v t := by
  obtain ⟨d, r⟩ := t
  have hr : r < 206 := ht
  have hk := kf_pos v.T r hr
  have hm := mod_nonneg hv (chk_mod r hr) hk
  obtain ⟨h1, h2, _⟩ := chk_range r hr
  cases d
  · refine mul_nonneg (mul_nonneg (div_pos hk (eqk_pos hv _)).le ?_) (prodOf_nonneg fun n hn => hv.cs n (h2 n hn))
    split_ifs
    · exact hm
    · exact zero_le_one
  · refine mul_nonneg (mul_nonneg hk.le ?_) (prodOf_nonneg fun n hn => hv.cs n (h1 n hn))
    split_ifs
    · exact hm
    · exact zero_le_one

theorem rate2_nonneg (hv : v.Ok) (t : Dir) (ht : t.2 < 206) : 0 ≤ rate2 rxns zeroed v t := by
  unfold rate2
  split_ifs
  · exact le_refl _
  · exact rate1_nonneg hv t ht

theorem total_nonneg {w : Dir → ℝ} {l : List Dir} (h : ∀ t ∈ l, 0 ≤ w t) : 0 ≤ total l w := by
  unfold total
  refine List.sum_nonneg fun y hy => ?_
  obtain ⟨t, ht, rfl⟩ := List.mem_map.1 hy
  exact h t ht

theorem total_pos {w : Dir → ℝ} {l : List Dir} (h : ∀ t ∈ l, 0 ≤ w t) {t : Dir} (ht : t ∈ l) (hp : 0 < w t) : 0 < total l w := by
  have : w t ≤ total l w := by
    unfold total
    refine List.single_le_sum (fun y hy => ?_) _ (List.mem_map_of_mem ht)
    obtain ⟨s, hs, rfl⟩ := List.mem_map.1 hy
    exact h s hs
  linarith

theorem total_append (l m : List Dir) (w : Dir → ℝ) : total (l ++ m) w = total l w + total m w := by
  unfold total; rw [List.map_append, List.sum_append]

theorem total_flatMap (l : List ℕ) (f : ℕ → List Dir) (w : Dir → ℝ) :
    total (l.flatMap f) w = (l.map fun i => total (f i) w).sum := by
  induction l with
  | nil => rfl
  | cons a as ih => rw [List.flatMap_cons, total_append, ih]; rfl

theorem total_perm {l m : List Dir} (h : l.Perm m) (w : Dir → ℝ) : total l w = total m w := (h.map w).sum_eq

theorem sum_Icc_list (f : ℕ → ℝ) : ∑ i ∈ Icc 1 10, f i = ((List.range' 1 10).map f).sum := by
  rw [← List.sum_toFinset f (by decide)]
  exact Finset.sum_congr (by decide) fun _ _ => rfl

/-! ### the linear system -/

/-- the balances before elimination are a good system -/
theorem good_start (hv : v.Ok) (hd : Drains v) :
    Good (Icc 1 10) (viewb (coef0 rows (rate2 rxns zeroed v))) (viewB L0 (coef0 rows (rate2 rxns zeroed v))) ∧
    ∀ i ∈ Icc 1 10, 0 < total (row i).den (rate2 rxns zeroed v) := by
  set w := rate2 rxns zeroed v with hw
  have hnum : ∀ i ∈ Icc 1 10, ∀ k ∈ range 11, 0 ≤ total (num i k) w := fun i hi k hk =>
    total_nonneg fun t ht => rate2_nonneg hv t (chk_num i hi k hk t ht).1
  have hdenn : ∀ i ∈ Icc 1 10, ∀ t ∈ (row i).den, 0 ≤ w t := fun i hi t ht => rate2_nonneg hv t (chk_den i hi t ht).1
  have hsub : ∀ k ∈ Icc 1 10, ∀ t ∈ exits k, 0 ≤ w t := by
    intro k hk t ht
    exact hdenn k hk t ((chk_cols k hk).subset (List.mem_append_right _ ht))
  have hcol : ∀ k ∈ Icc 1 10, total (row k).den w = ∑ i ∈ Icc 1 10, total (num i k) w + total (exits k) w := by
    intro k hk
    rw [← total_perm (chk_cols k hk), total_append, total_flatMap, sum_Icc_list]
  have hnz : ∀ t, 0 < w t → t ∉ zeroed := by
    intro t ht hc
    rw [hw, rate2, if_pos hc] at ht
    exact lt_irrefl _ ht
  have hex : ∀ k ∈ Icc 1 10, k ≠ 1 → 0 < total (exits k) w := by
    intro k hk hk1
    rw [mem_Icc] at hk
    obtain ⟨t, h1, h2, h3, h4⟩ := hd.others (k - 1) (by omega) (by omega)
    have := chk_exit (k - 1) (mem_range.2 (by omega)) t.2 (mem_range.2 h2) t.1 (hnz t h4) h1 h3
    have e : k - 1 + 1 = k := by omega
    rw [e] at this
    exact total_pos (hsub k (mem_Icc.2 hk)) this h4
  have hch : 0 < total (row 1).den w := by
    obtain ⟨t, h1, h2, h3⟩ := hd.ch
    have := chk_uses 0 (by decide) t.2 (mem_range.2 h2) t.1 (hnz t h3) h1
    exact total_pos (hdenn 1 (by decide)) this h3
  have hsum0 : ∀ k ∈ Icc 1 10, 0 ≤ ∑ i ∈ Icc 1 10, total (num i k) w := fun k hk =>
    Finset.sum_nonneg fun i hi => hnum i hi k (by rw [mem_Icc] at hk; exact mem_range.2 (by omega))
  have hD : ∀ i ∈ Icc 1 10, 0 < total (row i).den w := by
    intro i hi
    by_cases h1 : i = 1
    · subst h1; exact hch
    · rw [hcol i hi]
      have := hex i hi h1
      have := hsum0 i hi
      linarith
  refine ⟨?_, hD⟩
  have g := good_init (I := Icc 1 10) (D := fun i => total (row i).den w) (P := fun i k => total (num i k) w)
    (p := fun i => total (num i 0) w) (c := 1) (fun i hi => hnum i hi 0 (by decide))
    (fun i hi k hk => hnum i hi k (by rw [mem_Icc] at hk; exact mem_range.2 (by omega)))
    (fun i hi => by rw [chk_diag i hi]; rfl) (by decide) hD
    (fun k hk => by
      rw [hcol k hk]
      have := total_nonneg (hsub k hk)
      linarith)
    (fun k hk h1 => by
      rw [hcol k hk]
      have := hex k hk h1
      linarith)
  have hB : ∀ i ∈ Icc 1 10, ∀ k ∈ Icc 1 10, viewB L0 (coef0 rows w) i k = total (num i k) w / total (row i).den w := by
    intro i hi k hk
    unfold viewB
    split_ifs with h
    · rfl
    · have := chk_live i hi k hk h
      unfold num
      rw [this]
      simp [total]
  refine ⟨g.b0, fun i hi k hk => ?_, fun i hi => ?_, ?_⟩
  · rw [hB i hi k hk]; exact g.B0 i hi k hk
  · rw [hB i hi i hi]; exact g.diag i hi
  · obtain ⟨u, hu, hs⟩ := g.wt
    refine ⟨u, hu, fun k hk => ?_⟩
    rw [Finset.sum_congr rfl fun i hi => by rw [hB i hi k hk]]
    exact hs k hk

/-- the matrix of the balances on its index range -/
theorem viewB_start (w : Dir → ℝ) {i k : ℕ} (hi : i ∈ Icc 1 10) (hk : k ∈ Icc 1 10) :
    viewB L0 (coef0 rows w) i k = total (num i k) w / total (row i).den w := by
  unfold viewB
  split_ifs with h
  · rfl
  · have := chk_live i hi k hk h
    unfold num
    rw [this]
    simp [total]

theorem xq_eq : mech.xq v = backAll (runAll (stmtsAll L0 (parse prog)) (coef0 rows (rate2 rxns zeroed v), 0)).1 back := by
  rw [chk_prog]; rfl

/-- the radical concentrations are nonnegative and solve the balances -/
theorem xq_sol (hv : v.Ok) (hd : Drains v) : (∀ q < 10, 0 ≤ mech.xq v q) ∧
    Sol (Icc 1 10) (viewb (coef0 rows (rate2 rxns zeroed v))) (viewB L0 (coef0 rows (rate2 rxns zeroed v)))
      fun i => mech.xq v (i - 1) := by
  obtain ⟨g, _⟩ := good_start hv hd
  obtain ⟨g', hs⟩ := elim_correct (parse prog) L0 (coef0 rows (rate2 rxns zeroed v), 0) chk_elim g
  rw [xq_eq]
  refine ⟨?_, (hs _).1 (back_sol _ chk_backOk chk_backFits)⟩
  intro q hq
  obtain ⟨s, hs, hsi⟩ := chk_backFits.1 (q + 1) (mem_Icc.2 (by omega))
  obtain ⟨h1, _⟩ := chk_backFits.2 s hs
  have hq' : q = s.t := by omega
  rw [hq']
  refine back_nonneg _ back [] (fun _ => 0) chk_backOk (fun q h => absurd h List.not_mem_nil) (fun s hs => ?_) s hs
  obtain ⟨h1, h2, h3, h4, h5⟩ := chk_backFits.2 s hs
  have hsI : s.i ∈ Icc 1 10 := by
    have : ∀ s ∈ back, s.i ∈ Icc 1 10 := by decide +kernel
    exact this s hs
  refine ⟨g'.b0 s.i hsI, fun p hp => ?_⟩
  have := g'.B0 s.i hsI p.1 (h2 p hp).2
  rwa [viewB, if_pos (h4 p.1 (List.mem_map_of_mem hp))] at this

/-- the balance of radical `i` with its production and consumption rates -/
theorem balance (hv : v.Ok) (hd : Drains v) {i : ℕ} (hi : i ∈ Icc 1 10) :
    mech.xq v (i - 1) * total (row i).den (rate2 rxns zeroed v) =
      total (num i 0) (rate2 rxns zeroed v) + ∑ k ∈ Icc 1 10, total (num i k) (rate2 rxns zeroed v) * mech.xq v (k - 1) := by
  have hs := (xq_sol hv hd).2 i hi
  have hD := (good_start hv hd).2 i hi
  have e : ∑ k ∈ Icc 1 10, viewB L0 (coef0 rows (rate2 rxns zeroed v)) i k * mech.xq v (k - 1)
      = (∑ k ∈ Icc 1 10, total (num i k) (rate2 rxns zeroed v) * mech.xq v (k - 1)) / total (row i).den (rate2 rxns zeroed v) := by
    rw [Finset.sum_div]
    refine Finset.sum_congr rfl fun k hk => ?_
    rw [viewB_start _ hi hk]; ring
  simp only at hs
  rw [e] at hs
  have hb : viewb (coef0 rows (rate2 rxns zeroed v)) i = total (num i 0) (rate2 rxns zeroed v) / total (row i).den (rate2 rxns zeroed v) := rfl
  rw [hb, ← add_div, eq_div_iff hD.ne'] at hs
  exact hs

/-! ### from the balances to the rates with their `XQ` factors -/

/-- rates with the factors for radical concentrations `y` -/
def rateY (v : Env) (y : ℕ → ℝ) (t : Dir) : ℝ := rate2 rxns zeroed v t * prodOf (xfac t) y

theorem rate_eq (t : Dir) : mech.rate v t = rateY v (mech.xq v) t := rfl

theorem count_sum (f : Dir → ℝ) : ∀ (l : List Dir) (_ : ∀ t ∈ l, t.2 < 206),
    total l f = ∑ r ∈ range 206, ((l.count (true, r) : ℝ) * f (true, r) + (l.count (false, r) : ℝ) * f (false, r)) := by
  intro l
  induction l with
  | nil => intro _; simp [total]
  | cons t ts ih =>
    intro h
    obtain ⟨d, r0⟩ := t
    have hr : r0 ∈ range 206 := mem_range.2 (h _ List.mem_cons_self)
    have e : total ((d, r0) :: ts) f = f (d, r0) + total ts f := rfl
    rw [e, ih fun t ht => h t (List.mem_cons_of_mem _ ht)]
    have e2 : f (d, r0) = ∑ r ∈ range 206, if r = r0 then f (d, r) else 0 := by
      rw [Finset.sum_ite_eq' (range 206) r0 fun r => f (d, r), if_pos hr]
    rw [e2, ← Finset.sum_add_distrib]
    refine Finset.sum_congr rfl fun r _ => ?_
    simp only [List.count_cons]
    by_cases hrr : r = r0
    · subst hrr
      cases d <;> simp <;> ring
    · have h1 : ((d, r0) == (true, r)) = false := by
        rw [beq_eq_false_iff_ne]; intro h; exact hrr (Prod.mk.inj h).2.symm
      have h2 : ((d, r0) == (false, r)) = false := by
        rw [beq_eq_false_iff_ne]; intro h; exact hrr (Prod.mk.inj h).2.symm
      simp [h1, h2, hrr]

/-- net production of radical `i` at radical concentrations `y`: numerators minus `DEN` -/
theorem net_eq (v : Env) (y : ℕ → ℝ) {i : ℕ} (hi : i ∈ Icc 1 10) :
    ∑ r ∈ range 206, (nu (rx r) (egQ (i - 1)) : ℝ) * (rateY v y (true, r) - rateY v y (false, r)) =
      total (num i 0) (rate2 rxns zeroed v) + ∑ k ∈ Icc 1 10, total (num i k) (rate2 rxns zeroed v) * y (k - 1)
        - y (i - 1) * total (row i).den (rate2 rxns zeroed v) := by
  set f := rateY v y with hf
  set all := (List.range 11).flatMap fun k => num i k with hall
  have hallr : ∀ t ∈ all, t.2 < 206 := by
    intro t ht
    obtain ⟨k, hk, ht⟩ := List.mem_flatMap.1 ht
    exact (chk_num i hi k (mem_range.2 (List.mem_range.1 hk)) t ht).1
  have hzero : ∀ t, t ∈ zeroed → f t = 0 := by
    intro t ht
    rw [hf, rateY, rate2, if_pos ht, zero_mul]
  have h1 : ∑ r ∈ range 206, (nu (rx r) (egQ (i - 1)) : ℝ) * (f (true, r) - f (false, r)) = total all f - total (row i).den f := by
    rw [count_sum f all hallr, count_sum f _ fun t ht => (chk_den i hi t ht).1, ← Finset.sum_sub_distrib]
    refine Finset.sum_congr rfl fun r hr => ?_
    obtain ⟨ha, hb⟩ := chk_qss i hi r hr
    have ha' : (nu (rx r) (egQ (i - 1)) : ℝ) * f (true, r) = ((all.count (true, r) : ℝ) - (row i).den.count (true, r)) * f (true, r) := by
      by_cases hz : (true, r) ∈ zeroed
      · rw [hzero _ hz, mul_zero, mul_zero]
      · have := ha hz
        have h : (nu (rx r) (egQ (i - 1)) : ℝ) = (all.count (true, r) : ℝ) - (row i).den.count (true, r) := by
          rw [this]; push_cast; rfl
        rw [h]
    have hb' : -(nu (rx r) (egQ (i - 1)) : ℝ) * f (false, r) = ((all.count (false, r) : ℝ) - (row i).den.count (false, r)) * f (false, r) := by
      by_cases hz : (false, r) ∈ zeroed
      · rw [hzero _ hz, mul_zero, mul_zero]
      · have := hb hz
        have h : -(nu (rx r) (egQ (i - 1)) : ℝ) = (all.count (false, r) : ℝ) - (row i).den.count (false, r) := by
          have := congrArg (fun z : ℤ => (z : ℝ)) this
          push_cast at this
          exact this
        rw [h]
    linear_combination ha' + hb'
  have h2 : total (row i).den f = y (i - 1) * total (row i).den (rate2 rxns zeroed v) := by
    unfold total
    rw [← List.sum_map_mul_left]
    congr 1
    refine List.map_congr_left fun t ht => ?_
    rw [hf, rateY, (chk_den i hi t ht).2]
    simp [prodOf]; ring
  have h3 : ∀ k ∈ range 11, total (num i k) f = total (num i k) (rate2 rxns zeroed v) * if k = 0 then 1 else y (k - 1) := by
    intro k hk
    unfold total
    rw [← List.sum_map_mul_right]
    congr 1
    refine List.map_congr_left fun t ht => ?_
    rw [hf, rateY, (chk_num i hi k hk t ht).2]
    split_ifs <;> simp [prodOf]
  have h4 : total all f = total (num i 0) (rate2 rxns zeroed v) + ∑ k ∈ Icc 1 10, total (num i k) (rate2 rxns zeroed v) * y (k - 1) := by
    rw [hall, total_flatMap]
    have e : (List.range 11) = 0 :: List.range' 1 10 := by decide
    rw [e, List.map_cons, List.sum_cons, h3 0 (by decide), if_pos rfl, mul_one, ← sum_Icc_list]
    congr 1
    refine Finset.sum_congr rfl fun k hk => ?_
    rw [mem_Icc] at hk
    rw [h3 k (mem_range.2 (by omega)), if_neg (by omega)]
  rw [h1, h2, h4]

/-! ### theorems -/

/-- **C102 (radicals).** When the radical pool can empty, every radical concentration the kernel computes is nonnegative, and
    each of the ten radicals (with the stoichiometry of all 206 reactions) is produced exactly as fast as it is consumed. -/
theorem C102_quasi_steady_partial (hv : v.Ok) (hd : Drains v) : ∀ q < 10, 0 ≤ mech.xq v q ∧
    ∑ r ∈ range 206, (nu (rx r) (egQ q) : ℝ) * (mech.rate v (true, r) - mech.rate v (false, r)) = 0 := by
  intro q hq
  refine ⟨(xq_sol hv hd).1 q hq, ?_⟩
  have hi : q + 1 ∈ Icc 1 10 := mem_Icc.2 (by omega)
  have h := net_eq v (mech.xq v) hi
  rw [balance hv hd hi] at h
  rw [sub_self] at h
  exact h

/-- **C102 (uniqueness).** They are the only values with that property. -/
theorem C102_unique (hv : v.Ok) (hd : Drains v) (y : ℕ → ℝ)
    (hy : ∀ q < 10, ∑ r ∈ range 206, (nu (rx r) (egQ q) : ℝ) *
      (rate2 rxns zeroed v (true, r) * prodOf (rx r).fx y - rate2 rxns zeroed v (false, r) * prodOf (rx r).bx y) = 0) :
    ∀ q < 10, y q = mech.xq v q := by
  obtain ⟨g, hD⟩ := good_start hv hd
  have hs : Sol (Icc 1 10) (viewb (coef0 rows (rate2 rxns zeroed v))) (viewB L0 (coef0 rows (rate2 rxns zeroed v)))
      fun i => y (i - 1) := by
    intro i hi
    have hi' := mem_Icc.1 hi
    have h := net_eq v y hi
    have h0 : ∑ r ∈ range 206, (nu (rx r) (egQ (i - 1)) : ℝ) * (rateY v y (true, r) - rateY v y (false, r)) = 0 := hy (i - 1) (by omega)
    rw [h0] at h
    have e : ∑ k ∈ Icc 1 10, viewB L0 (coef0 rows (rate2 rxns zeroed v)) i k * y (k - 1)
        = (∑ k ∈ Icc 1 10, total (num i k) (rate2 rxns zeroed v) * y (k - 1)) / total (row i).den (rate2 rxns zeroed v) := by
      rw [Finset.sum_div]
      refine Finset.sum_congr rfl fun k hk => ?_
      rw [viewB_start _ hi hk]; ring
    have hb : viewb (coef0 rows (rate2 rxns zeroed v)) i = total (num i 0) (rate2 rxns zeroed v) / total (row i).den (rate2 rxns zeroed v) := rfl
    simp only
    rw [e, hb, ← add_div, eq_div_iff (hD i hi).ne']
    linarith
  intro q hq
  have := sol_unique g hs (xq_sol hv hd).2 (q + 1) (mem_Icc.2 (by omega))
  simpa using this

/-! sources -/

theorem rates_nonneg (hv : v.Ok) (hd : Drains v) (t : Dir) (ht : t.2 < 206) : 0 ≤ mech.rate v t := by
  rw [rate_eq]
  refine mul_nonneg (rate2_nonneg hv t ht) (prodOf_nonneg fun q hq => (xq_sol hv hd).1 q ?_)
  obtain ⟨_, _, h1, h2, _⟩ := chk_range t.2 ht
  unfold xfac at hq
  split_ifs at hq
  · exact h1 q hq
  · exact h2 q hq

/-- **C103 (sources).** The source of each transported species is its molecular weight (times 1000, mol/cm³ to kmol/m³) times the
    sum over all reactions of its stoichiometric coefficient times forward minus backward rate; N2 has none. -/
theorem C103_sources (MW : ℕ → ℝ) : (∀ n < 21, mech.dYdt MW v n = 1000 * MW n *
      ∑ r ∈ range 206, (nu (rx r) (egT n) : ℝ) * (mech.rate v (true, r) - mech.rate v (false, r))) ∧
    mech.dYdt MW v 21 = 0 := by
  have hl : mech.rxns.length = 206 := chk_len
  constructor
  · intro n hn
    unfold Mech.dYdt
    rw [hl]
    have : ∑ r ∈ range 206, (srcOf (mech.rxns.getD r noRx) n : ℝ) * mech.rop v r
        = ∑ r ∈ range 206, (nu (rx r) (egT n) : ℝ) * (mech.rate v (true, r) - mech.rate v (false, r)) := by
      refine Finset.sum_congr rfl fun r hr => ?_
      have := chk_src r hr n (mem_range.2 hn)
      rw [← this]; rfl
    rw [this]; ring
  · unfold Mech.dYdt
    rw [hl, Finset.sum_eq_zero, zero_mul]
    intro r hr
    have : srcOf (mech.rxns.getD r noRx) 21 = 0 := by
      unfold srcOf
      have hp : ∀ p ∈ (mech.rxns.getD r noRx).src, p.1 < 21 := chk_src_range r hr
      refine List.sum_eq_zero fun y hy => ?_
      obtain ⟨p, h1, rfl⟩ := List.mem_map.1 hy
      have := hp p h1
      rw [if_neg (by omega)]
    rw [this, Int.cast_zero, zero_mul]

theorem split31 (f : ℕ → ℝ) : ∑ e ∈ range 31, f e = ∑ n ∈ range 21, f (egT n) + ∑ q ∈ range 10, f (egQ q) := by
  have h : ∀ (m : ℕ) (g : ℕ → ℝ), ∑ n ∈ range m, g n = ((List.range m).map g).sum := by
    intro m g
    rw [← List.sum_toFinset g List.nodup_range, List.toFinset_range]
  rw [h, h, h, ← (chk_perm.map f).sum_eq, List.map_append, List.sum_append, List.map_map, List.map_map]
  rfl

/-- weighted sums of the sources vanish for weights that every reaction conserves -/
theorem conserved (hv : v.Ok) (hd : Drains v) {MW : ℕ → ℝ} (hMW : ∀ n < 21, MW n ≠ 0) {W : ℕ → ℝ}
    (hW : ∀ r ∈ range 206, ∑ e ∈ range 31, W e * (nu (rx r) e : ℝ) = 0) :
    ∑ n ∈ range 21, W (egT n) * (mech.dYdt MW v n / MW n) = 0 := by
  have h1 : ∀ n ∈ range 21, W (egT n) * (mech.dYdt MW v n / MW n) =
      1000 * ∑ r ∈ range 206, W (egT n) * (nu (rx r) (egT n) : ℝ) * mech.rop v r := by
    intro n hn
    have hn' := mem_range.1 hn
    rw [(C103_sources MW).1 n hn']
    have := hMW n hn'
    rw [Finset.mul_sum, Finset.mul_sum, Finset.sum_div, Finset.mul_sum]
    refine Finset.sum_congr rfl fun r _ => ?_
    unfold Mech.rop
    field_simp
  rw [Finset.sum_congr rfl h1, ← Finset.mul_sum, Finset.sum_comm]
  have h2 : ∑ q ∈ range 10, ∑ r ∈ range 206, W (egQ q) * (nu (rx r) (egQ q) : ℝ) * mech.rop v r = 0 := by
    refine Finset.sum_eq_zero fun q hq => ?_
    have := (C102_quasi_steady_partial hv hd q (mem_range.1 hq)).2
    have e : ∑ r ∈ range 206, W (egQ q) * (nu (rx r) (egQ q) : ℝ) * mech.rop v r
        = W (egQ q) * ∑ r ∈ range 206, (nu (rx r) (egQ q) : ℝ) * (mech.rate v (true, r) - mech.rate v (false, r)) := by
      rw [Finset.mul_sum]
      exact Finset.sum_congr rfl fun r _ => by unfold Mech.rop; ring
    rw [e, this, mul_zero]
  rw [Finset.sum_comm] at h2
  have h3 : ∑ r ∈ range 206, ∑ n ∈ range 21, W (egT n) * (nu (rx r) (egT n) : ℝ) * mech.rop v r +
      ∑ r ∈ range 206, ∑ q ∈ range 10, W (egQ q) * (nu (rx r) (egQ q) : ℝ) * mech.rop v r = 0 := by
    rw [← Finset.sum_add_distrib]
    refine Finset.sum_eq_zero fun r hr => ?_
    have := hW r hr
    rw [split31] at this
    rw [← Finset.sum_mul, ← Finset.sum_mul, ← add_mul, this, zero_mul]
  rw [h2, add_zero] at h3
  rw [h3, mul_zero]

theorem bal_real {r el : ℕ} (hr : r ∈ range 206) (he : el < 3) : ∑ e ∈ range 31, (atomsE e el : ℝ) * (nu (rx r) e : ℝ) = 0 := by
  have h := chk_bal r hr el (mem_range.2 he)
  rw [← List.sum_toFinset _ List.nodup_range, List.toFinset_range] at h
  exact_mod_cast h

/-- **C102 (elements).** Carbon, hydrogen and oxygen: production rates per molecular weight, weighted by atoms, sum to zero over
    the transported species. -/
theorem C102_elements_partial (hv : v.Ok) (hd : Drains v) {MW : ℕ → ℝ} (hMW : ∀ n < 21, MW n ≠ 0) {el : ℕ} (he : el < 3) :
    ∑ n ∈ range 21, (atomsE (egT n) el : ℝ) * (mech.dYdt MW v n / MW n) = 0 :=
  conserved hv hd hMW (W := fun e => (atomsE e el : ℝ)) fun _ hr => bal_real hr he

/-- **C102 (mass).** With molecular weights that are sums of atomic weights, mass production rates sum to zero. -/
theorem C102_mass_partial (hv : v.Ok) (hd : Drains v) {MW : ℕ → ℝ} (hMW : ∀ n < 21, MW n ≠ 0) (A : ℕ → ℝ)
    (hA : ∀ n < 21, MW n = ∑ el ∈ range 3, A el * atomsE (egT n) el) :
    ∑ n ∈ range 22, mech.dYdt MW v n = 0 := by
  rw [Finset.sum_range_succ, (C103_sources MW).2, add_zero]
  have := conserved hv hd hMW (W := fun e => ∑ el ∈ range 3, A el * (atomsE e el : ℝ)) fun r hr => by
    have : ∀ e ∈ range 31, (∑ el ∈ range 3, A el * (atomsE e el : ℝ)) * (nu (rx r) e : ℝ)
        = ∑ el ∈ range 3, A el * ((atomsE e el : ℝ) * (nu (rx r) e : ℝ)) := fun e _ => by
      rw [Finset.sum_mul]; exact Finset.sum_congr rfl fun _ _ => by ring
    rw [Finset.sum_congr rfl this, Finset.sum_comm]
    refine Finset.sum_eq_zero fun el he => ?_
    rw [← Finset.mul_sum, bal_real hr (mem_range.1 he), mul_zero]
  rw [← this]
  refine Finset.sum_congr rfl fun n hn => ?_
  have hn' := mem_range.1 hn
  rw [← hA n hn', mul_div_cancel₀ _ (hMW n hn')]

/-! mass action -/

/-- rate constant times third-body or fall-off factor times the catalytic colliders written out -/
def kappa (v : Env) (r : ℕ) : ℝ := kf rxns v.T r * (rx r).mod.val v (kf rxns v.T r) * prodOf (coll (rx r)) v.cs

theorem prodOf_append (l m : List ℕ) (c : ℕ → ℝ) : prodOf (l ++ m) c = prodOf l c * prodOf m c := by
  unfold prodOf; rw [List.map_append, List.prod_append]

theorem prodOf_split (l : List ℕ) : prodOf ((l.filter fun e => !isRad e).map pos) v.cs * prodOf ((l.filter isRad).map pos) (mech.xq v)
    = prodOf l (concE v) := by
  induction l with
  | nil => simp [prodOf]
  | cons e es ih =>
    have h2 : prodOf (e :: es) (concE v) = concE v e * prodOf es (concE v) := rfl
    rw [h2, ← ih]
    have h1 : ∀ (a : ℕ) (l : List ℕ) (c : ℕ → ℝ), prodOf (a :: l) c = c a * prodOf l c := fun _ _ _ => rfl
    unfold concE
    by_cases h : isRad e
    · simp only [List.filter_cons, h, Bool.not_true, Bool.false_eq_true, if_false, if_true, List.map_cons, h1]; ring
    · rw [Bool.not_eq_true] at h
      simp only [List.filter_cons, h, Bool.not_false, Bool.false_eq_true, if_false, if_true, List.map_cons, h1]; ring

theorem flag_val {r : ℕ} (hr : r ∈ range 206) (k : ℝ) : (if (rx r).fm then (rx r).mod.val v k else 1) = (rx r).mod.val v k ∧
    (if (rx r).bm then (rx r).mod.val v k else 1) = (rx r).mod.val v k := by
  obtain ⟨h1, h2⟩ := chk_flags r hr
  rw [← h1]
  by_cases h : (rx r).fm
  · simp [h]
  · rw [Bool.not_eq_true] at h
    rw [h2 h]; simp [RMod.val]

/-- **C103 (mass action).** Forward and backward rate of every reaction are one constant times the concentrations of the species
    consumed, respectively that constant over the equilibrium constant times those of the species made, with the computed
    `XQ[]` as concentrations of the radicals; the six directions set to zero excepted. The equilibrium constant carries
    `prefRuT` to the power of the change in the number of moles. -/
theorem C103_mass_action {r : ℕ} (hr : r < 206) :
    ((true, r) ∉ zeroed → mech.rate v (true, r) = kappa v r * ((rx r).reacs.map (concE v)).prod) ∧
    ((false, r) ∉ zeroed → mech.rate v (false, r) = kappa v r / eqk (rx r) v * ((rx r).prods.map (concE v)).prod) ∧
    eqk (rx r) v = ((rx r).prods.map v.EG).prod / ((rx r).reacs.map v.EG).prod * v.pref ^ (((rx r).prods.length : ℤ) - (rx r).reacs.length) := by
  have hr' := mem_range.2 hr
  refine ⟨fun hz => ?_, fun hz => ?_, ?_⟩
  · rw [rate_eq, rateY, rate2, if_neg hz]
    have e : rate1 rxns v (true, r) = kf rxns v.T r * (if (rx r).fm then (rx r).mod.val v (kf rxns v.T r) else 1) * prodOf (rx r).fwd v.cs := rfl
    have e2 : xfac (true, r) = (rx r).fx := rfl
    have e3 : prodOf (rx r).fwd v.cs = prodOf (coll (rx r)) v.cs * prodOf (((rx r).reacs.filter fun e => !isRad e).map pos) v.cs := by
      rw [← prodOf_append]; exact ((chk_fwd r hr').map _).prod_eq
    have e4 := prodOf_split (v := v) (rx r).reacs
    unfold prodOf at e4
    rw [e, e2, chk_fx r hr' hz, (flag_val hr' _).1, e3, ← e4]
    unfold kappa prodOf; ring
  · rw [rate_eq, rateY, rate2, if_neg hz]
    have e : rate1 rxns v (false, r) = kf rxns v.T r / eqk (rx r) v * (if (rx r).bm then (rx r).mod.val v (kf rxns v.T r) else 1) * prodOf (rx r).bwd v.cs := rfl
    have e2 : xfac (false, r) = (rx r).bx := rfl
    have e3 : prodOf (rx r).bwd v.cs = prodOf (coll (rx r)) v.cs * prodOf (((rx r).prods.filter fun e => !isRad e).map pos) v.cs := by
      rw [← prodOf_append]; exact ((chk_bwd r hr').map _).prod_eq
    have e4 := prodOf_split (v := v) (rx r).prods
    unfold prodOf at e4
    rw [e, e2, chk_bx r hr' hz, (flag_val hr' _).2, e3, ← e4]
    unfold kappa prodOf; ring
  · rw [← chk_pref r hr']; rfl

/-- **C103 (equilibrium).** A reaction neither of whose directions is set to zero is at rest when its concentrations are in
    equilibrium. -/
theorem C103_equilibrium (hv : v.Ok) {r : ℕ} (hr : r < 206) (h1 : (true, r) ∉ zeroed) (h2 : (false, r) ∉ zeroed)
    (heq : ((rx r).prods.map (concE v)).prod = eqk (rx r) v * ((rx r).reacs.map (concE v)).prod) :
    mech.rate v (true, r) = mech.rate v (false, r) := by
  obtain ⟨ha, hb, _⟩ := C103_mass_action (v := v) hr
  have := eqk_pos hv (rx r)
  rw [ha h1, hb h2, heq]
  field_simp

/-- **C103 (absent species).** A transported species that is absent is not consumed. -/
theorem C103_absent_not_consumed (hv : v.Ok) (hd : Drains v) {MW : ℕ → ℝ} {n : ℕ} (hn : n < 21) (hMW : 0 ≤ MW n) (h0 : v.cs n = 0) :
    0 ≤ mech.dYdt MW v n := by
  rw [(C103_sources MW).1 n hn]
  refine mul_nonneg (by linarith) (Finset.sum_nonneg fun r hr => ?_)
  have hr' := mem_range.1 hr
  obtain ⟨ha, hb, _⟩ := C103_mass_action (v := v) hr'
  have hc : concE v (egT n) = 0 := by
    have hq : isRad (egT n) = false ∧ pos (egT n) = n := by
      have : ∀ n ∈ range 21, isRad (egT n) = false ∧ pos (egT n) = n := by decide +kernel
      exact this n (mem_range.2 hn)
    unfold concE
    rw [hq.1, hq.2]; exact h0
  have hF : egT n ∈ (rx r).reacs → mech.rate v (true, r) = 0 := by
    intro hm
    by_cases hz : (true, r) ∈ zeroed
    · rw [rate_eq, rateY, rate2, if_pos hz, zero_mul]
    · rw [ha hz, List.prod_eq_zero (List.mem_map.2 ⟨_, hm, hc⟩), mul_zero]
  have hB : egT n ∈ (rx r).prods → mech.rate v (false, r) = 0 := by
    intro hm
    by_cases hz : (false, r) ∈ zeroed
    · rw [rate_eq, rateY, rate2, if_pos hz, zero_mul]
    · rw [hb hz, List.prod_eq_zero (List.mem_map.2 ⟨_, hm, hc⟩), mul_zero]
  have hf0 := rates_nonneg hv hd (true, r) hr'
  have hb0 := rates_nonneg hv hd (false, r) hr'
  by_cases hF' : egT n ∈ (rx r).reacs
  · rw [hF hF']
    by_cases hB' : egT n ∈ (rx r).prods
    · rw [hB hB']; simp
    · have : nu (rx r) (egT n) ≤ 0 := by unfold nu; rw [List.count_eq_zero.2 hB']; omega
      have : (nu (rx r) (egT n) : ℝ) ≤ 0 := by exact_mod_cast this
      nlinarith
  · have : 0 ≤ nu (rx r) (egT n) := by unfold nu; rw [List.count_eq_zero.2 hF']; omega
    have h5 : 0 ≤ (nu (rx r) (egT n) : ℝ) := by exact_mod_cast this
    by_cases hB' : egT n ∈ (rx r).prods
    · rw [hB hB', sub_zero]; exact mul_nonneg h5 hf0
    · have : nu (rx r) (egT n) = 0 := by unfold nu; rw [List.count_eq_zero.2 hF', List.count_eq_zero.2 hB']; rfl
      rw [this]; simp

end PG.Chem.Red22
