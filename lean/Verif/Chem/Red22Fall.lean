import Verif.Chem.Red22Cell
import Verif.Chem.Thermo
import Mathlib.Analysis.SpecialFunctions.Log.Base

/-! C103: pressure fall-off and third bodies of the reduced mechanism. -/
namespace PG.Chem.Red22
open Finset

/-! ### specification -/

/-- collision efficiency of species `n`: 1 unless the table changes it -/
noncomputable def eff (l : List (ℕ × Dec)) (n : ℕ) : ℝ := 1 + ((l.lookup n).map Dec.val).getD 0

/-- Troe's broadening exponent: `log F = log Fc / (1 + f²)` -/
noncomputable def troeF (Fc Pr : ℝ) : ℝ :=
  let L := Real.logb 10 Fc
  let c := -(0.4 + 0.67 * L)
  let N := 0.75 - 1.27 * L
  let f := (Real.logb 10 Pr + c) / (N - 0.14 * (Real.logb 10 Pr + c))
  Fc ^ (1 / (1 + f ^ 2))

/-! ### checks of the tables -/

/-- no species twice, all efficiencies positive -/
def EffPos (l : List (ℕ × Dec)) : Prop := (l.map Prod.fst).Nodup ∧ ∀ p ∈ l, p.1 < 22 ∧ p.2.e ≤ 0 ∧ -(10 : ℤ) ^ (-p.2.e).toNat < p.2.m
instance (l : List (ℕ × Dec)) : Decidable (EffPos l) := by unfold EffPos; infer_instance

/-- equality of decimals -/
def Dec.addsTo1 (a b : Dec) : Prop := a.e ≤ 0 ∧ b.e ≤ 0 ∧
  a.m * 10 ^ (-b.e).toNat + b.m * 10 ^ (-a.e).toNat = 10 ^ (-a.e).toNat * 10 ^ (-b.e).toNat
instance (a b : Dec) : Decidable (Dec.addsTo1 a b) := by unfold Dec.addsTo1; infer_instance

/-- literals of the fall-off forms -/
def RMod.Fall : RMod → Prop
  | .none => True
  | .three _ => True
  | .lind l _ => EffPos l
  | .troe l _ a1 T3 a2 T1 T2 => EffPos l ∧ Dec.addsTo1 a1 a2 ∧ 0 < T3.m ∧ 0 < T1.m ∧ a2.Upto 2 ∧ (a2.Upto 1 ∨ 0 ≤ T2.m)
instance (m : RMod) : Decidable m.Fall := by cases m <;> (simp only [RMod.Fall]; infer_instance)

/-- colliders are written out only in reactions without third body -/
theorem chk_coll : ∀ r ∈ range 206, (rx r).mod ≠ .none → coll (rx r) = [] := by decide +kernel
theorem chk_three : ∀ r ∈ range 206, (rx r).mod.Ok := by decide +kernel
theorem chk_fall : ∀ r ∈ range 206, (rx r).mod.Fall := by decide +kernel

/-! ### lemmas -/

theorem val_gt_neg_one {d : Dec} (he : d.e ≤ 0) (hm : -(10 : ℤ) ^ (-d.e).toNat < d.m) : -1 < d.val := by
  have h1 : (-(10 : ℝ) ^ (-d.e).toNat) < (d.m : ℝ) := by exact_mod_cast hm
  have h2 : (10 : ℝ) ^ d.e = ((10 : ℝ) ^ (-d.e).toNat)⁻¹ := by
    rw [← zpow_natCast, Int.toNat_of_nonneg (by omega), zpow_neg, inv_inv]
  unfold Dec.val
  rw [h2]
  have hp : (0 : ℝ) < (10 : ℝ) ^ (-d.e).toNat := by positivity
  rw [← div_eq_mul_inv, lt_div_iff₀ hp]
  linarith

theorem adds_val {a b : Dec} (h : Dec.addsTo1 a b) : a.val = 1 - b.val := by
  obtain ⟨ha, hb, h⟩ := h
  have e : ∀ d : Dec, d.e ≤ 0 → d.val = d.m / (10 : ℝ) ^ (-d.e).toNat := fun d hd => by
    unfold Dec.val
    rw [div_eq_mul_inv, ← zpow_natCast, Int.toNat_of_nonneg (by omega), zpow_neg, inv_inv]
  rw [e a ha, e b hb]
  have h' : (a.m : ℝ) * 10 ^ (-b.e).toNat + b.m * 10 ^ (-a.e).toNat = 10 ^ (-a.e).toNat * 10 ^ (-b.e).toNat := by exact_mod_cast h
  have h1 : (0 : ℝ) < (10 : ℝ) ^ (-a.e).toNat := by positivity
  have h2 : (0 : ℝ) < (10 : ℝ) ^ (-b.e).toNat := by positivity
  field_simp
  linarith

theorem sum_lookup {l : List (ℕ × Dec)} (hn : (l.map Prod.fst).Nodup) (hl : ∀ p ∈ l, p.1 < 22) (cs : ℕ → ℝ) :
    (l.map fun p => p.2.val * cs p.1).sum = ∑ n ∈ range 22, ((l.lookup n).map Dec.val).getD 0 * cs n := by
  induction l with
  | nil => simp
  | cons p ps ih =>
    obtain ⟨m, d⟩ := p
    have hn' := hn
    rw [List.map_cons, List.nodup_cons] at hn
    rw [List.map_cons, List.sum_cons, ih hn.2 fun q hq => hl q (List.mem_cons_of_mem _ hq)]
    have hm : m ∈ range 22 := mem_range.2 (hl (m, d) List.mem_cons_self)
    rw [← Finset.add_sum_erase _ _ hm, ← Finset.add_sum_erase _ _ hm]
    have h0 : ps.lookup m = none := by
      rw [List.lookup_eq_none_iff]
      intro q hq
      have : m ≠ q.1 := fun h => hn.1 (h ▸ List.mem_map.2 ⟨q, hq, rfl⟩)
      simpa using this
    rw [h0]
    have h1 : ((m, d) :: ps).lookup m = some d := by simp
    rw [h1]
    simp only [Option.map_none, Option.getD_none, Option.map_some, Option.getD_some, zero_mul, zero_add]
    congr 1
    refine Finset.sum_congr rfl fun n hn => ?_
    have hne : n ≠ m := (Finset.mem_erase.1 hn).1
    have : ((m, d) :: ps).lookup n = ps.lookup n := by
      rw [List.lookup_cons, beq_eq_false_iff_ne.2 hne]
    rw [this]

theorem ctb_eff {l : List (ℕ × Dec)} (h : EffPos l) (cs : ℕ → ℝ) : ctb l cs = ∑ n ∈ range 22, eff l n * cs n := by
  unfold ctb
  rw [sum_lookup h.1 fun p hp => (h.2 p hp).1, ← Finset.sum_add_distrib]
  exact Finset.sum_congr rfl fun n _ => by unfold eff; ring

theorem ctb_eff' {l : List (ℕ × Dec)} (h : CtbOk l) (cs : ℕ → ℝ) : ctb l cs = ∑ n ∈ range 22, eff l n * cs n := by
  unfold ctb
  rw [sum_lookup h.1 fun p hp => (h.2 p hp).1, ← Finset.sum_add_distrib]
  exact Finset.sum_congr rfl fun n _ => by unfold eff; ring

theorem eff_nonneg {l : List (ℕ × Dec)} (h : CtbOk l) (n : ℕ) : 0 ≤ eff l n := by
  unfold eff
  cases hl : l.lookup n with
  | none => simp
  | some d =>
    have := h.2 _ (lookup_mem hl)
    have := val_ge_neg_one this.2.1 this.2.2
    simp only [Option.map_some, Option.getD_some]; linarith

theorem eff_pos {l : List (ℕ × Dec)} (h : EffPos l) (n : ℕ) : 0 < eff l n := by
  unfold eff
  cases hl : l.lookup n with
  | none => simp
  | some d =>
    have := h.2 _ (lookup_mem hl)
    have := val_gt_neg_one this.2.1 this.2.2
    simp only [Option.map_some, Option.getD_some]; linarith

theorem fc_troe {PR Fc : ℝ} (hF : 0 < Fc) : fc PR Fc = troeF Fc PR := by
  unfold fc troeF
  dsimp only
  have hl : ∀ x, log10 x = Real.logb 10 x := fun x => by unfold log10 Real.logb; rfl
  rw [hl, hl, Real.rpow_def_of_pos hF]
  have h10 : Real.log 10 ≠ 0 := (Real.log_pos (by norm_num)).ne'
  have e : Real.logb 10 Fc = Real.log Fc / Real.log 10 := rfl
  congr 1
  have e1 : Real.logb 10 PR - (4 / 10 + 67 / 100 * Real.logb 10 Fc) = Real.logb 10 PR + -(0.4 + 0.67 * Real.logb 10 Fc) := by norm_num; ring
  have e2 : (75 / 100 - 127 / 100 * Real.logb 10 Fc : ℝ) = 0.75 - 1.27 * Real.logb 10 Fc := by norm_num
  have e3 : (14 / 100 : ℝ) = 0.14 := by norm_num
  rw [e1, e2, e3]
  generalize (Real.logb 10 PR + -(0.4 + 0.67 * Real.logb 10 Fc)) / _ = f
  rw [e]
  field_simp

theorem troeF_bounds {Fc Pr : ℝ} (hF : 0 < Fc) : min 1 Fc ≤ troeF Fc Pr ∧ troeF Fc Pr ≤ max 1 Fc := by
  unfold troeF
  dsimp only
  generalize (Real.logb 10 Pr + _) / _ = f
  have hd : 1 ≤ 1 + f ^ 2 := by nlinarith [sq_nonneg f]
  have h0 : 0 ≤ 1 / (1 + f ^ 2) := by positivity
  have h1 : 1 / (1 + f ^ 2) ≤ 1 := by rw [div_le_one (by linarith)]; exact hd
  rcases le_total Fc 1 with h | h
  · rw [min_eq_right h, max_eq_left h]
    refine ⟨?_, Real.rpow_le_one hF.le h h0⟩
    calc Fc = Fc ^ (1 : ℝ) := (Real.rpow_one _).symm
      _ ≤ _ := Real.rpow_le_rpow_of_exponent_ge hF h h1
  · rw [min_eq_left h, max_eq_right h]
    refine ⟨Real.one_le_rpow h h0, ?_⟩
    calc _ ≤ Fc ^ (1 : ℝ) := Real.rpow_le_rpow_of_exponent_le h h1
      _ = Fc := Real.rpow_one _

theorem fcent_pos {a T3 T1 T2 T : ℝ} (ha0 : 0 ≤ a) (ha2 : a ≤ 2) (h : a ≤ 1 ∨ 0 ≤ T2) (h3 : 0 < T3) (hT : 0 < T) :
    0 < (1 - a) * Real.exp (-T / T3) + a * Real.exp (-T / T1) + Real.exp (T2 / T) := by
  have e1 := Real.exp_pos (-T / T3)
  have e2 := Real.exp_pos (-T / T1)
  have e3 := Real.exp_pos (T2 / T)
  by_cases ha : a ≤ 1
  · have := mul_nonneg (sub_nonneg.2 ha) e1.le
    have := mul_nonneg ha0 e2.le
    linarith
  · have h2 : 0 ≤ T2 := h.resolve_left ha
    have g3 : 1 ≤ Real.exp (T2 / T) := Real.one_le_exp (div_nonneg h2 hT.le)
    have g1 : Real.exp (-T / T3) < 1 := by
      rw [neg_div]
      have := div_pos hT h3
      have := Real.exp_lt_exp.2 (show -(T / T3) < 0 by linarith)
      rwa [Real.exp_zero] at this
    have h4 : (a - 1) * Real.exp (-T / T3) < 1 := by nlinarith
    have h5 := mul_pos (by linarith : (0:ℝ) < a) e2
    linarith

variable {v : Env}

theorem M_pos (hv : v.Ok) (hs : ∃ n < 22, 0 < v.cs n) {l : List (ℕ × Dec)} (h : EffPos l) : 0 < ∑ n ∈ range 22, eff l n * v.cs n := by
  obtain ⟨n, hn, hc⟩ := hs
  exact Finset.sum_pos' (fun m hm => mul_nonneg (eff_pos h m).le (hv.cs m (mem_range.1 hm)))
    ⟨n, mem_range.2 hn, mul_pos (eff_pos h n) hc⟩

/-! ### theorems -/

/-- **C103 (third body).** The constant of a three-body reaction is its rate constant times the concentration of colliders
    weighted by nonnegative efficiencies; that of a reaction without third body is its rate constant times the concentrations
    of the colliders written out. -/
theorem C103_third_body {r : ℕ} (hr : r < 206) :
    (∀ l, (rx r).mod = .three l → (∀ n, 0 ≤ eff l n) ∧ kappa v r = kf rxns v.T r * ∑ n ∈ range 22, eff l n * v.cs n) ∧
    ((rx r).mod = .none → kappa v r = kf rxns v.T r * ((coll (rx r)).map v.cs).prod) := by
  refine ⟨fun l hm => ?_, fun hm => ?_⟩
  · have hf := chk_three r (mem_range.2 hr)
    rw [hm] at hf
    have hc : coll (rx r) = [] := chk_coll r (mem_range.2 hr) (by rw [hm]; simp)
    refine ⟨eff_nonneg hf, ?_⟩
    unfold kappa
    rw [hc, hm]
    simp only [RMod.val, prodOf, List.map_nil, List.prod_nil, mul_one]
    rw [ctb_eff' hf]
  · unfold kappa
    rw [hm]
    simp [RMod.val, prodOf]

/-- **C103 (Lindemann).** In every cell that contains anything, the constant of a Lindemann reaction (it multiplies the
    concentrations in `C103_mass_action`; nothing is written out as collider) is the harmonic combination of the high-pressure
    constant and of the low-pressure constant times the concentration of colliders weighted by positive efficiencies, so it
    is below both. -/
theorem C103_lindemann (hv : v.Ok) (hs : ∃ n < 22, 0 < v.cs n) {r : ℕ} (hr : r < 206) {l : List (ℕ × Dec)} {k0 : LArr}
    (hm : (rx r).mod = .lind l k0) :
    let M := ∑ n ∈ range 22, eff l n * v.cs n
    let ki := kf rxns v.T r
    0 < M ∧ (∀ n, 0 < eff l n) ∧ kappa v r = ki * (k0.val v.T * M) / (ki + k0.val v.T * M) ∧
      kappa v r < ki ∧ kappa v r < k0.val v.T * M := by
  intro M ki
  have hf := chk_fall r (mem_range.2 hr)
  rw [hm] at hf
  have hM : 0 < M := M_pos hv hs hf
  have hk : 0 < ki := kf_pos v.T r hr
  have h0 : 0 < k0.val v.T := LArr.val_pos k0 v.T
  have hkM := mul_pos h0 hM
  have hc : coll (rx r) = [] := chk_coll r (mem_range.2 hr) (by rw [hm]; simp)
  have heq : kappa v r = ki * (k0.val v.T * M) / (ki + k0.val v.T * M) := by
    unfold kappa
    rw [hc, hm]
    simp only [RMod.val, prodOf, List.map_nil, List.prod_nil, mul_one]
    rw [ctb_eff hf, show kf rxns v.T r = ki from rfl, show ∑ n ∈ range 22, eff l n * v.cs n = M from rfl]
    field_simp
  refine ⟨hM, eff_pos hf, heq, ?_, ?_⟩
  · rw [heq, div_lt_iff₀ (by linarith)]; nlinarith
  · rw [heq, div_lt_iff₀ (by linarith)]; nlinarith

/-- **C103 (Troe).** In every cell that contains anything, the logarithms of the Troe form get positive arguments at every
    positive temperature, `FCENT` has the standard form in `a`, `T3`, `T1`, `T2`, and the constant is the Lindemann value times
    Troe's factor, which lies between 1 and `FCENT`. -/
theorem C103_troe (hv : v.Ok) (hs : ∃ n < 22, 0 < v.cs n) {r : ℕ} (hr : r < 206) {l : List (ℕ × Dec)} {k0 : LArr} {a1 T3 a T1 T2 : Dec}
    (hm : (rx r).mod = .troe l k0 a1 T3 a T1 T2) :
    let M := ∑ n ∈ range 22, eff l n * v.cs n
    let ki := kf rxns v.T r
    let Fc := (1 - a.val) * Real.exp (-v.T / T3.val) + a.val * Real.exp (-v.T / T1.val) + Real.exp (T2.val / v.T)
    let F := troeF Fc (k0.val v.T * M / ki)
    0 < M ∧ (∀ n, 0 < eff l n) ∧ 0 < k0.val v.T * M / ki ∧ 0 < Fc ∧ min 1 Fc ≤ F ∧ F ≤ max 1 Fc ∧
      kappa v r = ki * (k0.val v.T * M) / (ki + k0.val v.T * M) * F := by
  intro M ki Fc F
  have hf := chk_fall r (mem_range.2 hr)
  rw [hm] at hf
  obtain ⟨hl, h1, h3, hT1, ha2, ha⟩ := hf
  have hM : 0 < M := M_pos hv hs hl
  have hk : 0 < ki := kf_pos v.T r hr
  have h0 : 0 < k0.val v.T := LArr.val_pos k0 v.T
  have hkM := mul_pos h0 hM
  have hc : coll (rx r) = [] := chk_coll r (mem_range.2 hr) (by rw [hm]; simp)
  have hFc : 0 < Fc := by
    obtain ⟨g0, g2⟩ := Dec.upto_val ha2
    refine fcent_pos g0 (by exact_mod_cast g2) ?_ (Dec.val_pos h3) hv.T
    rcases ha with ha | ha
    · left; have := (Dec.upto_val ha).2; simpa using this
    · right; exact Dec.val_nonneg ha
  refine ⟨hM, eff_pos hl, div_pos hkM hk, hFc, (troeF_bounds hFc).1, (troeF_bounds hFc).2, ?_⟩
  unfold kappa
  rw [hc, hm]
  simp only [RMod.val, prodOf, List.map_nil, List.prod_nil, mul_one]
  rw [ctb_eff hl, show kf rxns v.T r = ki from rfl, show ∑ n ∈ range 22, eff l n * v.cs n = M from rfl]
  have hfe : fcent a1.val T3.val a.val T1.val T2.val v.T = Fc := by unfold fcent; rw [adds_val h1]
  rw [hfe, fc_troe hFc, show troeF Fc (k0.val v.T * M / ki) = F from rfl]
  generalize F = G
  field_simp

/-- one Lindemann reaction (C2H2 <=> H2CC is 113) and twenty Troe reactions exist -/
example : (∃ l k0, (rx 113).mod = .lind l k0) ∧ (∃ l k0 a1 T3 a T1 T2, (rx 114).mod = .troe l k0 a1 T3 a T1 T2) := by
  refine ⟨⟨_, _, rfl⟩, ⟨_, _, _, _, _, _, _, rfl⟩⟩

end PG.Chem.Red22
