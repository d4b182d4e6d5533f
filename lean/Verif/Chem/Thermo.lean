import Verif.Chem.Lemmas

/-! Equilibrium constants, the sign of the net rates (C82) and the fall-off factor (C85), for one reaction. -/
noncomputable section
namespace PG.Chem
open Finset

variable {v : Env} {ns : ℕ} {x : Rxn}

theorem sum_filterMap (f : ℕ → ℤ) (g : ℕ → ℝ) (ns : ℕ) :
    (((List.range ns).filterMap fun n => if f n = 0 then none else some (n, f n)).map fun p => (p.2 : ℝ) * g p.1).sum
      = ∑ n ∈ range ns, (f n : ℝ) * g n := by
  induction ns with
  | zero => simp
  | succ k ih =>
    rw [List.range_succ, List.filterMap_append, List.map_append, List.sum_append, ih, sum_range_succ]
    congr 1
    by_cases h : f k = 0
    · simp [h]
    · simp [h]

theorem sum_range_list (f : ℕ → ℤ) (ns : ℕ) : ((List.range ns).map f).sum = ∑ n ∈ range ns, f n := by
  induction ns with
  | zero => simp
  | succ k ih => rw [List.range_succ, List.map_append, List.sum_append, ih, sum_range_succ]; simp

theorem gibbs_eq (hx : x.Ok ns) (g : ℕ → ℝ) : x.gibbs g = ∑ n ∈ range ns, (stoich x n : ℝ) * g n := by
  unfold Rxn.gibbs
  rw [hx.2.2.1]
  exact sum_filterMap (stoich x) g ns

theorem kc_eq (hx : x.Ok ns) : x.kc = ∑ n ∈ range ns, stoich x n := by
  rw [hx.2.2.2]; exact sum_range_list _ _

/-- the equilibrium constant in concentration units -/
theorem Kc_eq (hx : x.Ok ns) : x.Kc v = v.pref ^ (∑ n ∈ range ns, stoich x n)
    * Real.exp (-∑ n ∈ range ns, (stoich x n : ℝ) * v.gbs n) := by
  unfold Rxn.Kc
  rw [gibbs_eq hx, kc_eq hx]

theorem conc_exp {l : List (ℕ × ℕ)} (hl : ∀ p ∈ l, p.1 < ns) {cs : ℕ → ℝ} (hc : ∀ n < ns, 0 < cs n) :
    conc l cs = Real.exp ((l.map fun p => (p.2 : ℝ) * Real.log (cs p.1)).sum) := by
  induction l with
  | nil => simp [conc]
  | cons p l ih =>
    simp only [conc, List.map_cons, List.prod_cons, List.sum_cons, Real.exp_add]
    have := ih (fun q hq => hl q (List.mem_cons_of_mem _ hq))
    rw [show (l.map fun p => cs p.1 ^ p.2).prod = conc l cs from rfl, this]
    congr 1
    rw [← Real.log_pow, Real.exp_log (pow_pos (hc _ (hl p List.mem_cons_self)) _)]

theorem dMu_eq (hx : x.Ok ns) (hc : ∀ n < ns, 0 < v.cs n) (hp : 0 < v.pref) :
    dMu ns x v = x.gibbs v.gbs + ((x.bwd.map fun p => (p.2 : ℝ) * Real.log (v.cs p.1)).sum
      - (x.fwd.map fun p => (p.2 : ℝ) * Real.log (v.cs p.1)).sum) - (x.kc : ℝ) * Real.log v.pref := by
  have h : dMu ns x v = ∑ n ∈ range ns, ((stoich x n : ℝ) * v.gbs n + (stoich x n : ℝ) * Real.log (v.cs n)
      - (stoich x n : ℝ) * Real.log v.pref) := by
    refine sum_congr rfl fun n hn => ?_
    unfold mu
    rw [Real.log_div (hc n (mem_range.1 hn)).ne' hp.ne']; ring
  rw [h, sum_sub_distrib, sum_add_distrib, ← gibbs_eq hx, sum_stoich hx (fun n => Real.log (v.cs n)), ← sum_mul, kc_eq hx]
  push_cast; ring

/-- net rate of a reversible reaction: forward rate times `1 - exp(ΔG/RT)` -/
theorem rate_eq (hx : x.Ok ns) (hr : x.rev = true) (hc : ∀ n < ns, 0 < v.cs n) (hp : 0 < v.pref) :
    x.rate ns v = x.qf ns v * (1 - Real.exp (dMu ns x v)) := by
  have hz : v.pref ^ x.kc = Real.exp ((x.kc : ℝ) * Real.log v.pref) := by
    rw [← Real.log_zpow, Real.exp_log (zpow_pos hp _)]
  have h1 : conc x.bwd v.cs / x.Kc v = conc x.fwd v.cs * Real.exp (dMu ns x v) := by
    unfold Rxn.Kc
    rw [hz, conc_exp hx.2.1 hc, conc_exp hx.1 hc, dMu_eq hx hc hp, ← Real.exp_add, ← Real.exp_add, ← Real.exp_sub]
    congr 1; ring
  unfold Rxn.rate
  rw [if_pos hr]
  have h2 : x.qb ns v = -(x.kf ns v * (conc x.bwd v.cs / x.Kc v)) := by unfold Rxn.qb; ring
  rw [h2, h1]; unfold Rxn.qf; ring

/-- some species acts as third body -/
def Eff.Some (ns : ℕ) : Eff → Prop
  | .all l => ∃ n < ns, 0 < ((l.lookup n).getD ⟨1, 0⟩).m
  | .only n => n < ns
instance (ns : ℕ) (e : Eff) : Decidable (e.Some ns) := by cases e <;> (simp only [Eff.Some]; infer_instance)

/-- the same for the third body of a reaction, if it has one -/
def Mod.Some (ns : ℕ) : Mod → Prop
  | .none => True
  | .three e => e.Some ns
  | .lind e _ => e.Some ns
  | .troe e _ _ _ _ _ => e.Some ns
instance (ns : ℕ) (e : Mod) : Decidable (e.Some ns) := by cases e <;> (simp only [Mod.Some]; infer_instance)

theorem Eff.val_pos {e : Eff} (he : e.Ok ns) (hs : e.Some ns) {cs : ℕ → ℝ} (hc : ∀ n < ns, 0 < cs n) :
    0 < e.val ns cs := by
  cases e with
  | all l =>
    obtain ⟨n, hn, h⟩ := hs
    refine sum_pos' (fun n hn => mul_nonneg (coef_nonneg he n) (hc n (mem_range.1 hn)).le) ⟨n, mem_range.2 hn, ?_⟩
    exact mul_pos (Dec.val_pos h) (hc n hn)
  | only n => exact hc n he

theorem Mod.val_pos {o : Mod} (ho : o.Ok ns) (hs : o.Some ns) {cs : ℕ → ℝ} (hc : ∀ n < ns, 0 < cs n) (T : ℝ) {kf : ℝ}
    (hk : 0 < kf) : 0 < o.val ns T cs kf := by
  cases o with
  | none => exact zero_lt_one
  | three e => exact Eff.val_pos ho hs hc
  | lind e k0 =>
    have h := div_pos (mul_pos (Eff.val_pos ho.1 hs hc) (Arr.val_pos ho.2 T)) hk
    exact div_pos h (by linarith)
  | troe e k0 a T3 T1 T2 =>
    have h := div_pos (mul_pos (Eff.val_pos ho.1 hs hc) (Arr.val_pos ho.2 T)) hk
    exact mul_pos (div_pos h (by linarith)) (Real.exp_pos _)

theorem qf_pos (hx : x.Ok ns) (hp : x.Pos ns) (hs : x.mod.Some ns) (hc : ∀ n < ns, 0 < v.cs n) : 0 < x.qf ns v := by
  unfold Rxn.qf Rxn.kf
  refine mul_pos (mul_pos (Arr.val_pos hp.1 _) (Mod.val_pos hp.2 hs hc _ (Arr.val_pos hp.1 _))) ?_
  rw [conc_exp hx.1 hc]; exact Real.exp_pos _

/-- a reversible reaction runs downhill in Gibbs energy, and stands still exactly at equilibrium -/
theorem rate_sign (hx : x.Ok ns) (hpo : x.Pos ns) (hs : x.mod.Some ns) (hr : x.rev = true) (hc : ∀ n < ns, 0 < v.cs n)
    (hp : 0 < v.pref) :
    (dMu ns x v < 0 → 0 < x.rate ns v) ∧ (0 < dMu ns x v → x.rate ns v < 0) ∧ (dMu ns x v = 0 → x.rate ns v = 0) := by
  rw [rate_eq hx hr hc hp]
  have hq := qf_pos (v := v) hx hpo hs hc
  refine ⟨fun h => mul_pos hq ?_, fun h => mul_neg_of_pos_of_neg hq ?_, fun h => ?_⟩
  · have := Real.exp_lt_exp.2 h; rw [Real.exp_zero] at this; linarith
  · have := Real.one_lt_exp_iff.2 h; linarith
  · rw [h]; simp

/-! ### pressure fall-off -/

/-- every species is a third body with positive weight -/
def Eff.Strict : Eff → Prop
  | .all l => ∀ p ∈ l, 0 < p.2.m
  | .only _ => False
instance (e : Eff) : Decidable e.Strict := by cases e <;> (simp only [Eff.Strict]; infer_instance)

/-- a literal between 0 and `c` -/
def Dec.Upto (c : ℕ) (d : Dec) : Prop := 0 ≤ d.m ∧ d.e ≤ 0 ∧ d.m ≤ c * 10 ^ (-d.e).toNat
instance (c : ℕ) (d : Dec) : Decidable (d.Upto c) := inferInstanceAs (Decidable (_ ∧ _))

/-- literals of the fall-off forms -/
def Mod.Fall : Mod → Prop
  | .none => True
  | .three _ => True
  | .lind e _ => e.Strict
  | .troe e _ a T3 _ T2 => e.Strict ∧ (a.Upto 1 ∨ (a.Upto 2 ∧ 0 < T3.m ∧ T2.m ≤ 0))
instance (e : Mod) : Decidable e.Fall := by cases e <;> (simp only [Mod.Fall]; infer_instance)

theorem Dec.upto_val {c : ℕ} {d : Dec} (h : d.Upto c) : 0 ≤ d.val ∧ d.val ≤ c := by
  refine ⟨Dec.val_nonneg h.1, ?_⟩
  obtain ⟨_, h2, h3⟩ := h
  unfold Dec.val
  obtain ⟨j, hj⟩ : ∃ j : ℕ, d.e = -(j : ℤ) := ⟨(-d.e).toNat, by omega⟩
  rw [hj] at h3 ⊢
  simp only [neg_neg, Int.toNat_natCast] at h3
  rw [zpow_neg, zpow_natCast, ← div_eq_mul_inv, div_le_iff₀ (by positivity)]
  exact_mod_cast h3

/-- the centre value of the Troe form is positive -/
theorem fcent_pos {a T3 T1 T2 : Dec} (h : a.Upto 1 ∨ (a.Upto 2 ∧ 0 < T3.m ∧ T2.m ≤ 0)) {T : ℝ} (hT : 0 < T) :
    0 < fcent a.val T3.val T1.val T2.val T := by
  have e1 := Real.exp_pos (-T / T3.val)
  have e2 := Real.exp_pos (-T / T1.val)
  have e3 := Real.exp_pos (-T2.val * (1 / T))
  change 0 < (1 - a.val) * _ + a.val * _ + _
  rcases h with h | ⟨h, h3, h2⟩
  · obtain ⟨h0, h1⟩ := Dec.upto_val h
    have := mul_nonneg (sub_nonneg.2 (by simpa using h1)) e1.le
    have := mul_nonneg h0 e2.le
    linarith
  · obtain ⟨h0, h1⟩ := Dec.upto_val h
    have hT2 : T2.val ≤ 0 := by
      unfold Dec.val
      exact mul_nonpos_of_nonpos_of_nonneg (by exact_mod_cast h2) (by positivity)
    have g3 : 1 ≤ Real.exp (-T2.val * (1 / T)) :=
      Real.one_le_exp (mul_nonneg (by linarith) (by positivity))
    have g1 : Real.exp (-T / T3.val) < 1 := by
      rw [neg_div]
      have := div_pos hT (Dec.val_pos h3)
      have := Real.exp_lt_exp.2 (show -(T / T3.val) < 0 by linarith)
      rwa [Real.exp_zero] at this
    push_cast at h1
    by_cases ha : a.val ≤ 1
    · have := mul_nonneg (sub_nonneg.2 ha) e1.le
      have := mul_nonneg h0 e2.le
      linarith
    · have h4 : (a.val - 1) * Real.exp (-T / T3.val) < 1 := by nlinarith
      have h5 := mul_pos (by linarith : (0:ℝ) < a.val) e2
      linarith

/-- lower and upper limits of the broadening factor -/
theorem fpdr_bounds {Fc Pr : ℝ} (hF : 0 < Fc) : min 1 Fc ≤ fpdr Fc Pr ∧ fpdr Fc Pr ≤ max 1 Fc := by
  unfold fpdr
  dsimp only
  generalize (log10 Pr + (-(4 / 10) - 67 / 100 * log10 Fc)) / (75 / 100 - 127 / 100 * log10 Fc
    - 14 / 100 * (log10 Pr + (-(4 / 10) - 67 / 100 * log10 Fc))) = f1
  have h10 : 0 < Real.log 10 := Real.log_pos (by norm_num)
  have he : Real.log 10 * (log10 Fc / (1 + f1 * f1)) = Real.log Fc / (1 + f1 * f1) := by
    unfold log10; field_simp
  rw [he]
  have hd : 1 ≤ 1 + f1 * f1 := by nlinarith [mul_self_nonneg f1]
  have hd0 : 0 < 1 + f1 * f1 := by linarith
  rcases le_total Fc 1 with h | h
  · have hl : Real.log Fc ≤ 0 := Real.log_nonpos hF.le h
    rw [min_eq_right h, max_eq_left h]
    constructor
    · calc Fc = Real.exp (Real.log Fc) := (Real.exp_log hF).symm
        _ ≤ _ := Real.exp_le_exp.2 (by rw [le_div_iff₀ hd0]; nlinarith)
    · have := Real.exp_le_exp.2 (div_nonpos_of_nonpos_of_nonneg hl hd0.le); rwa [Real.exp_zero] at this
  · have hl : 0 ≤ Real.log Fc := Real.log_nonneg h
    rw [min_eq_left h, max_eq_right h]
    constructor
    · have := Real.exp_le_exp.2 (div_nonneg hl hd0.le); rwa [Real.exp_zero] at this
    · calc _ ≤ Real.exp (Real.log Fc) := Real.exp_le_exp.2 (by rw [div_le_iff₀ hd0]; nlinarith)
        _ = Fc := Real.exp_log hF

end PG.Chem
