import Verif.Chem.Spec
import Mathlib.Algebra.BigOperators.Intervals
import Mathlib.Analysis.SpecialFunctions.Pow.Real
import Mathlib.Tactic.Linarith
import Mathlib.Tactic.FieldSimp
import Mathlib.Tactic.Positivity

/-! Generic lemmas on mechanisms: the source of a species in terms of the reactions. -/
noncomputable section
namespace PG.Chem
open Finset

variable {m : Mech} {v : Env} {ns : ℕ} {x : Rxn}

theorem getD_rates (l : List Rxn) (ns : ℕ) (v : Env) (r : ℕ) :
    ((l.map fun x => x.rate ns v)[r]?).getD 0 = (l[r]?.map fun x => x.rate ns v).getD 0 := by
  rw [List.getElem?_map]

theorem row_sum (n : ℕ) (v : Env) (ns : ℕ) (l pre : List Rxn) :
    ((rowFrom n pre.length l).map fun p => (p.2 : ℝ) * (((pre ++ l).map fun x => x.rate ns v)[p.1]?).getD 0).sum
      = (l.map fun x => (stoich x n : ℝ) * x.rate ns v).sum := by
  induction l generalizing pre with
  | nil => simp [rowFrom]
  | cons x xs ih =>
    have h := ih (pre ++ [x])
    simp only [List.length_append, List.length_cons, List.length_nil, List.append_assoc, List.singleton_append,
      zero_add] at h
    by_cases hz : stoich x n = 0
    · simp only [rowFrom, List.map_cons, List.sum_cons, hz, Int.cast_zero, zero_mul, zero_add]
      rw [← h]; rfl
    · simp only [rowFrom, if_neg hz, List.map_cons, List.sum_cons]
      rw [← h]
      congr 1
      simp

/-- the source of species `n` is its weight times the sum over reactions of net coefficient times rate -/
theorem dYdt_eq (hs : m.SrcOk) (MW : ℕ → ℝ) {n : ℕ} (hn : n < m.ns) :
    m.dYdt MW v n = MW n * (m.rxns.map fun x => (stoich x n : ℝ) * x.rate m.ns v).sum := by
  have hrow : m.src.getD n [] = rowFrom n 0 m.rxns := by
    rw [show m.src = _ from hs, List.getD_eq_getElem _ _ (by simpa using hn)]
    simp
  unfold Mech.dYdt
  rw [hrow]
  have := row_sum n v m.ns m.rxns []
  simp only [List.length_nil, List.nil_append] at this
  rw [← this]
  rfl

theorem sum_ite_list (l : List (ℕ × ℕ)) (hl : ∀ p ∈ l, p.1 < ns) (g : ℕ → ℝ) :
    ∑ n ∈ range ns, (((l.map fun p => if p.1 = n then (p.2 : ℤ) else 0).sum : ℤ) : ℝ) * g n
      = (l.map fun p => (p.2 : ℝ) * g p.1).sum := by
  induction l with
  | nil => simp
  | cons p l ih =>
    simp only [List.map_cons, List.sum_cons, Int.cast_add, add_mul, sum_add_distrib]
    rw [ih (fun q hq => hl q (List.mem_cons_of_mem _ hq))]
    congr 1
    rw [sum_eq_single p.1]
    · simp
    · intro b _ hb; simp [Ne.symm hb]
    · intro h; exact absurd (mem_range.2 (hl p List.mem_cons_self)) h

/-- sums weighted with net coefficients, in terms of the two sides of the reaction -/
theorem sum_stoich (hx : x.Ok ns) (g : ℕ → ℝ) :
    ∑ n ∈ range ns, (stoich x n : ℝ) * g n
      = (x.bwd.map fun p => (p.2 : ℝ) * g p.1).sum - (x.fwd.map fun p => (p.2 : ℝ) * g p.1).sum := by
  rw [← sum_ite_list x.bwd hx.2.1 g, ← sum_ite_list x.fwd hx.1 g, ← sum_sub_distrib]
  refine sum_congr rfl fun n _ => ?_
  simp only [stoich, Int.cast_sub]
  ring

theorem sum_list_map_mul (l : List Rxn) (f : ℕ → ℝ) (g : Rxn → ℕ → ℝ) :
    ∑ n ∈ range ns, f n * (l.map fun x => g x n).sum = (l.map fun x => ∑ n ∈ range ns, f n * g x n).sum := by
  induction l with
  | nil => simp
  | cons x l ih => simp only [List.map_cons, List.sum_cons, mul_add, sum_add_distrib, ih]

/-- weighted molar production: sum over reactions of rate times weighted stoichiometry -/
theorem sum_molar (hs : m.SrcOk) (MW : ℕ → ℝ) (hMW : ∀ n < m.ns, MW n ≠ 0) (f : ℕ → ℝ) :
    ∑ n ∈ range m.ns, f n * (m.dYdt MW v n / MW n)
      = (m.rxns.map fun x => x.rate m.ns v * ∑ n ∈ range m.ns, (stoich x n : ℝ) * f n).sum := by
  have h1 : ∀ n ∈ range m.ns, f n * (m.dYdt MW v n / MW n)
      = f n * (m.rxns.map fun x => (stoich x n : ℝ) * x.rate m.ns v).sum := by
    intro n hn
    have hn' := mem_range.1 hn
    rw [dYdt_eq hs MW hn', mul_div_cancel_left₀ _ (hMW n hn')]
  rw [sum_congr rfl h1, sum_list_map_mul]
  congr 1
  refine List.map_congr_left fun x _ => ?_
  rw [mul_sum]
  exact sum_congr rfl fun n _ => by ring

theorem balanced_sum (hx : x.Ok ns) {f : List (String × List ℕ)} {ne : ℕ} (hb : x.Balanced (f.map Prod.snd) ne)
    {e : ℕ} (he : e < ne) : ∑ n ∈ range ns, (stoich x n : ℝ) * (atoms f n e : ℝ) = 0 := by
  rw [sum_stoich hx, sub_eq_zero]
  have h := hb e he
  have key : ∀ l : List (ℕ × ℕ), (l.map fun p => (p.2 : ℝ) * (atoms f p.1 e : ℝ)).sum
      = (((l.map fun p => p.2 * ((f.map Prod.snd).getD p.1 []).getD e 0).sum : ℕ) : ℝ) := by
    intro l
    induction l with
    | nil => simp
    | cons p l ih => simp only [List.map_cons, List.sum_cons, Nat.cast_add, Nat.cast_mul, ih]; rfl
  rw [key, key, h]

/-- element conservation of a checked mechanism -/
theorem elements_conserved (hs : m.SrcOk) (hok : ∀ x ∈ m.rxns, x.Ok m.ns) {f : List (String × List ℕ)} {ne : ℕ}
    (hb : ∀ x ∈ m.rxns, x.Balanced (f.map Prod.snd) ne) (MW : ℕ → ℝ) (hMW : ∀ n < m.ns, MW n ≠ 0) {e : ℕ} (he : e < ne) :
    ∑ n ∈ range m.ns, (atoms f n e : ℝ) * (m.dYdt MW v n / MW n) = 0 := by
  rw [sum_molar hs MW hMW]
  refine List.sum_eq_zero fun y hy => ?_
  obtain ⟨x, hx, rfl⟩ := List.mem_map.1 hy
  rw [balanced_sum (hok x hx) (hb x hx) he, mul_zero]

/-- mass conservation, when the weights are sums of atomic weights -/
theorem mass_conserved (hs : m.SrcOk) (hok : ∀ x ∈ m.rxns, x.Ok m.ns) {f : List (String × List ℕ)} {ne : ℕ}
    (hb : ∀ x ∈ m.rxns, x.Balanced (f.map Prod.snd) ne) (MW : ℕ → ℝ) (hMW : ∀ n < m.ns, MW n ≠ 0) (W : ℕ → ℝ)
    (hW : ∀ n < m.ns, MW n = ∑ e ∈ range ne, (atoms f n e : ℝ) * W e) :
    ∑ n ∈ range m.ns, m.dYdt MW v n = 0 := by
  have h1 : ∀ n ∈ range m.ns, m.dYdt MW v n
      = ∑ e ∈ range ne, W e * ((atoms f n e : ℝ) * (m.dYdt MW v n / MW n)) := by
    intro n hn
    have hn' := mem_range.1 hn
    have h2 : ∑ e ∈ range ne, W e * ((atoms f n e : ℝ) * (m.dYdt MW v n / MW n))
        = (∑ e ∈ range ne, (atoms f n e : ℝ) * W e) * (m.dYdt MW v n / MW n) := by
      rw [sum_mul]; exact sum_congr rfl fun e _ => by ring
    rw [h2, ← hW n hn', mul_div_cancel₀ _ (hMW n hn')]
  rw [sum_congr rfl h1, sum_comm]
  refine sum_eq_zero fun e he => ?_
  rw [← mul_sum, elements_conserved hs hok hb MW hMW (mem_range.1 he), mul_zero]

/-! ### signs -/

theorem Dec.val_pos {d : Dec} (h : 0 < d.m) : 0 < d.val := by
  unfold Dec.val; exact mul_pos (by exact_mod_cast h) (by positivity)
theorem Dec.val_nonneg {d : Dec} (h : 0 ≤ d.m) : 0 ≤ d.val := by
  unfold Dec.val; exact mul_nonneg (by exact_mod_cast h) (by positivity)
theorem Arr.val_pos {k : Arr} (h : k.Pos) (T : ℝ) : 0 < k.val T := mul_pos (Dec.val_pos h) (Real.exp_pos _)

theorem lookup_mem {l : List (ℕ × Dec)} {n : ℕ} {d : Dec} (h : l.lookup n = some d) : (n, d) ∈ l := by
  induction l with
  | nil => simp at h
  | cons p l ih =>
    rw [List.lookup_cons] at h
    by_cases hp : n = p.1
    · subst hp
      simp only [beq_self_eq_true] at h
      simp only [Option.some.injEq] at h
      subst h
      exact List.mem_cons_self
    · have : (n == p.1) = false := by simpa using hp
      simp only [this] at h
      exact List.mem_cons_of_mem _ (ih h)

theorem coef_nonneg {l : List (ℕ × Dec)} (h : ∀ p ∈ l, 0 ≤ p.2.m) (n : ℕ) : 0 ≤ coef l n := by
  unfold coef
  cases hl : l.lookup n with
  | none => exact Dec.val_nonneg (by simp)
  | some d => exact Dec.val_nonneg (h _ (lookup_mem hl))

theorem Eff.val_nonneg {e : Eff} (he : e.Ok ns) {cs : ℕ → ℝ} (hc : ∀ n < ns, 0 ≤ cs n) : 0 ≤ e.val ns cs := by
  cases e with
  | all l => exact sum_nonneg fun n hn => mul_nonneg (coef_nonneg he n) (hc n (mem_range.1 hn))
  | only n => exact hc n he

theorem Mod.val_nonneg {o : Mod} (ho : o.Ok ns) {cs : ℕ → ℝ} (hc : ∀ n < ns, 0 ≤ cs n) (T : ℝ) {kf : ℝ} (hk : 0 < kf) :
    0 ≤ o.val ns T cs kf := by
  have hPr : ∀ (e : Eff) (k0 : Arr), e.Ok ns → k0.Pos → 0 ≤ e.val ns cs * k0.val T / kf := fun e k0 he h0 =>
    div_nonneg (mul_nonneg (Eff.val_nonneg he hc) (Arr.val_pos h0 T).le) hk.le
  cases o with
  | none => exact zero_le_one
  | three e => exact Eff.val_nonneg ho hc
  | lind e k0 =>
    have := hPr e k0 ho.1 ho.2
    exact div_nonneg this (by linarith)
  | troe e k0 a T3 T1 T2 =>
    have := hPr e k0 ho.1 ho.2
    exact mul_nonneg (div_nonneg this (by linarith)) (Real.exp_pos _).le

theorem Rxn.kf_nonneg (hx : x.Pos ns) (hc : ∀ n < ns, 0 ≤ v.cs n) : 0 ≤ x.kf ns v :=
  mul_nonneg (Arr.val_pos hx.1 _).le (Mod.val_nonneg hx.2 hc _ (Arr.val_pos hx.1 _))

theorem Rxn.Kc_pos (hp : 0 < v.pref) : 0 < x.Kc v := mul_pos (zpow_pos hp _) (Real.exp_pos _)

theorem conc_nonneg {l : List (ℕ × ℕ)} (hl : ∀ p ∈ l, p.1 < ns) {cs : ℕ → ℝ} (hc : ∀ n < ns, 0 ≤ cs n) : 0 ≤ conc l cs := by
  refine List.prod_nonneg fun y hy => ?_
  obtain ⟨p, hp, rfl⟩ := List.mem_map.1 hy
  exact pow_nonneg (hc _ (hl p hp)) _

theorem conc_zero {l : List (ℕ × ℕ)} {cs : ℕ → ℝ} {n : ℕ} (h0 : cs n = 0)
    (hn : (l.map fun p => if p.1 = n then (p.2 : ℤ) else 0).sum ≠ 0) : conc l cs = 0 := by
  induction l with
  | nil => simp at hn
  | cons p l ih =>
    simp only [conc, List.map_cons, List.prod_cons]
    by_cases hp : p.1 = n ∧ p.2 ≠ 0
    · rw [hp.1, h0, zero_pow hp.2, zero_mul]
    · have : (if p.1 = n then (p.2 : ℤ) else 0) = 0 := by
        by_cases h1 : p.1 = n
        · rw [if_pos h1]
          have : p.2 = 0 := by by_contra h; exact hp ⟨h1, h⟩
          rw [this]; rfl
        · rw [if_neg h1]
      have hl : conc l cs = 0 := ih (by simpa [List.map_cons, List.sum_cons, this] using hn)
      rw [show (l.map fun p => cs p.1 ^ p.2).prod = conc l cs from rfl, hl, mul_zero]

theorem side_nonneg (l : List (ℕ × ℕ)) (n : ℕ) : 0 ≤ (l.map fun p => if p.1 = n then (p.2 : ℤ) else 0).sum := by
  refine List.sum_nonneg fun y hy => ?_
  obtain ⟨p, _, rfl⟩ := List.mem_map.1 hy
  by_cases h : p.1 = n
  · simp [if_pos h]
  · simp [if_neg h]

/-- no reaction consumes an absent species -/
theorem stoich_rate_nonneg (ho : x.Ok ns) (hx : x.Pos ns) (hc : ∀ n < ns, 0 ≤ v.cs n) (hp : 0 < v.pref) {n : ℕ} (h0 : v.cs n = 0) :
    0 ≤ (stoich x n : ℝ) * x.rate ns v := by
  have hkf := Rxn.kf_nonneg (ns := ns) hx hc
  have hK := Rxn.Kc_pos (x := x) hp
  have hf : 0 ≤ x.qf ns v := mul_nonneg hkf (conc_nonneg ho.1 hc)
  have hb : x.qb ns v ≤ 0 := by
    unfold Rxn.qb
    rw [neg_div, neg_mul]
    exact neg_nonpos.2 (mul_nonneg (div_nonneg hkf hK.le) (conc_nonneg ho.2.1 hc))
  rcases lt_trichotomy (stoich x n) 0 with hs | hs | hs
  · have hfw : conc x.fwd v.cs = 0 := by
      refine conc_zero h0 ?_
      have := side_nonneg x.bwd n
      unfold stoich at hs
      omega
    have hqf : x.qf ns v = 0 := by unfold Rxn.qf; rw [hfw, mul_zero]
    have hr : x.rate ns v ≤ 0 := by
      unfold Rxn.rate
      split
      · rw [hqf, zero_add]; exact hb
      · rw [hqf]
    exact mul_nonneg_of_nonpos_of_nonpos (by exact_mod_cast hs.le) hr
  · rw [hs]; simp
  · have hbw : conc x.bwd v.cs = 0 := by
      refine conc_zero h0 ?_
      have := side_nonneg x.fwd n
      unfold stoich at hs
      omega
    have hqb : x.qb ns v = 0 := by unfold Rxn.qb; rw [hbw, mul_zero]
    have hr : 0 ≤ x.rate ns v := by
      unfold Rxn.rate
      split
      · rw [hqb, add_zero]; exact hf
      · exact hf
    exact mul_nonneg (by exact_mod_cast hs.le) hr

theorem dYdt_nonneg (hs : m.SrcOk) (hok : ∀ x ∈ m.rxns, x.Ok m.ns) (hpos : ∀ x ∈ m.rxns, x.Pos m.ns) (MW : ℕ → ℝ) (hc : ∀ n < m.ns, 0 ≤ v.cs n) (hp : 0 < v.pref)
    {n : ℕ} (hn : n < m.ns) (hM : 0 ≤ MW n) (h0 : v.cs n = 0) : 0 ≤ m.dYdt MW v n := by
  rw [dYdt_eq hs MW hn]
  refine mul_nonneg hM (List.sum_nonneg fun y hy => ?_)
  obtain ⟨x, hx, rfl⟩ := List.mem_map.1 hy
  exact stoich_rate_nonneg (hok x hx) (hpos x hx) hc hp h0

end PG.Chem
