import Verif.Chem.Red22Props

/-!
C102, C103 for a cell: when the radical pool can empty, and what happens when it cannot.
-/
noncomputable section
namespace PG.Chem.Red22
open Finset

variable {v : Env}

theorem neg_sum_le' (s : ℕ) (l : List (ℕ × Dec)) (h : ∀ p ∈ l, p.1 < 22 ∧ p.2.e ≤ 0 ∧ -(10 : ℤ) ^ (-p.2.e).toNat ≤ p.2.m)
    (hs : ∀ p ∈ l, p.1 = s → 0 ≤ p.2.m) {cs : ℕ → ℝ} (hc : ∀ n < 22, 0 ≤ cs n) :
    -(((l.map Prod.fst).filter (· ≠ s)).map cs).sum ≤ (l.map fun p => p.2.val * cs p.1).sum := by
  induction l with
  | nil => simp
  | cons p ps ih =>
    have ih := ih (fun q hq => h q (List.mem_cons_of_mem _ hq)) fun q hq => hs q (List.mem_cons_of_mem _ hq)
    obtain ⟨h1, h2, h3⟩ := h p List.mem_cons_self
    have hv := val_ge_neg_one h2 h3
    have h4 := hc _ h1
    by_cases hp : p.1 = s
    · have h5 := Dec.val_nonneg (hs p List.mem_cons_self hp)
      have e : ((p :: ps).map Prod.fst).filter (· ≠ s) = (ps.map Prod.fst).filter (· ≠ s) := by simp [hp]
      rw [e, List.map_cons, List.sum_cons]
      have := mul_nonneg h5 h4
      linarith
    · have e : ((p :: ps).map Prod.fst).filter (· ≠ s) = p.1 :: (ps.map Prod.fst).filter (· ≠ s) := by simp [hp]
      rw [e, List.map_cons, List.sum_cons, List.map_cons, List.sum_cons]
      nlinarith

theorem ctb_pos {s : ℕ} {l : List (ℕ × Dec)} (h : CtbOk l) (hs : ∀ p ∈ l, p.1 = s → 0 ≤ p.2.m) (hs22 : s < 22) {cs : ℕ → ℝ}
    (hc : ∀ n < 22, 0 ≤ cs n) (hp : 0 < cs s) : 0 < ctb l cs := by
  have h1 := neg_sum_le' s l h.2 hs hc
  have hmem : ∀ n ∈ s :: (l.map Prod.fst).filter (· ≠ s), n < 22 := by
    intro n hn
    rcases List.mem_cons.1 hn with rfl | hn
    · exact hs22
    · obtain ⟨p, hp, rfl⟩ := List.mem_map.1 (List.mem_filter.1 hn).1
      exact (h.2 p hp).1
  have hnd : (s :: (l.map Prod.fst).filter (· ≠ s)).Nodup := by
    rw [List.nodup_cons]
    refine ⟨?_, h.1.filter _⟩
    intro hc
    simpa using (List.mem_filter.1 hc).2
  have h2 := list_le_range _ hnd hmem hc
  rw [List.map_cons, List.sum_cons] at h2
  unfold ctb; linarith

theorem mod_pos (hv : v.Ok) {m : RMod} (hm : m.Ok) {s : ℕ} (hs22 : s < 22) (hp : 0 < v.cs s) (hs : m.PosBy s) {k : ℝ} (hk : 0 < k) :
    0 < m.val v k := by
  have hdiv : ∀ x : ℝ, 0 < x → 0 < x / (1 + x) := fun x hx => div_pos hx (by linarith)
  cases m with
  | none => exact zero_lt_one
  | three l => exact ctb_pos hm hs hs22 hv.cs hp
  | lind l k0 => exact hdiv _ (div_pos (mul_pos (LArr.val_pos _ _) (ctb_pos hm hs hs22 hv.cs hp)) hk)
  | troe l k0 a1 T3 a2 T1 T2 =>
    exact mul_pos (Real.exp_pos _) (hdiv _ (div_pos (mul_pos (LArr.val_pos _ _) (ctb_pos hm hs hs22 hv.cs hp)) hk))

/-- a direction whose concentration factors are all of a species present has a positive rate -/
theorem rate2_pos (hv : v.Ok) {s : ℕ} (hs22 : s < 22) (hp : 0 < v.cs s) {t : Dir} (ht : t.2 < 206) (hz : t ∉ zeroed)
    (hc : ∀ n ∈ cfac t, n = s) (hm : (rx t.2).mod.PosBy s) : 0 < rate2 rxns zeroed v t := by
  rw [rate2, if_neg hz]
  obtain ⟨d, r⟩ := t
  have hr : r < 206 := ht
  have hk := kf_pos v.T r hr
  have hmod := mod_pos hv (chk_mod r hr) hs22 hp hm hk
  cases d
  · refine mul_pos (mul_pos (div_pos hk (eqk_pos hv _)) ?_) (prodOf_pos fun n hn => by rw [hc n hn]; exact hp)
    split_ifs
    · exact hmod
    · exact zero_lt_one
  · refine mul_pos (mul_pos hk ?_) (prodOf_pos fun n hn => by rw [hc n hn]; exact hp)
    split_ifs
    · exact hmod
    · exact zero_lt_one

/-- **C102 (when).** The radical pool can empty in every mixture that contains at least one of H2, O2, OH, H2O, CH3, CH4, CO, CO2. -/
theorem C102_drains (hv : v.Ok) {s : ℕ} (hs : s ∈ [0, 3, 4, 5, 8, 9, 10, 11]) (hp : 0 < v.cs s) : Drains v := by
  have hs22 : s < 22 := by
    have : ∀ s ∈ drainers, s < 22 := by decide
    exact this s hs
  constructor
  · obtain ⟨r, hr, d, h1, h2, _, h4, h5⟩ := chk_drain s hs 0 (by decide)
    exact ⟨(d, r), h2, mem_range.1 hr, rate2_pos hv hs22 hp (mem_range.1 hr) h1 h4 h5⟩
  · intro q hq hq0
    obtain ⟨r, hr, d, h1, h2, h3, h4, h5⟩ := chk_drain s hs q (mem_range.2 hq)
    rcases h3 with h3 | h3
    · exact absurd h3 hq0
    · exact ⟨(d, r), h2, mem_range.1 hr, h3, rate2_pos hv hs22 hp (mem_range.1 hr) h1 h4 h5⟩

theorem prodOf_zero {l : List ℕ} {c : ℕ → ℝ} {n : ℕ} (h : n ∈ l) (h0 : c n = 0) : prodOf l c = 0 :=
  List.prod_eq_zero (List.mem_map.2 ⟨n, h, h0⟩)

/-- **C102 (violated).** In a mixture of ethylene and nitrogen alone nothing consumes CH: the first denominator of the elimination
    is zero while ethylene decomposes at a positive rate. The kernel then divides zero by zero, every `XQ[]` is not a number, and
    the sources of all species (all of which appear in a reaction with a radical) are replaced by zero. -/
theorem C102_fuel_only_violated (hv : v.Ok) (hf : 0 < v.cs 14) (h0 : ∀ n < 22, n ≠ 14 → n ≠ 21 → v.cs n = 0) :
    total (row 1).den (rate2 mech.rxns mech.zeroed v) = 0 ∧ (∀ t : Dir, t.2 < 206 → egQ 0 ∈ uses t → rate2 mech.rxns mech.zeroed v t = 0) ∧
    0 < rate1 mech.rxns v (true, 154) ∧ (rx 154).reacs = [egOf "C2H4"] := by
  have h1 : ∀ t : Dir, t.2 < 206 → egQ 0 ∈ uses t → rate2 rxns zeroed v t = 0 := by
    intro t ht hu
    by_cases hz : t ∈ zeroed
    · rw [rate2, if_pos hz]
    rw [rate2, if_neg hz]
    obtain ⟨d, r⟩ := t
    obtain ⟨n, hn, hnn⟩ := chk_fuel r (mem_range.2 ht) d hz hu
    simp only [List.mem_cons, List.not_mem_nil, or_false, not_or] at hnn
    obtain ⟨ha, hb, _⟩ := chk_range r ht
    cases d
    · have : prodOf (rx r).bwd v.cs = 0 := prodOf_zero hn (h0 n (hb n hn) hnn.1 hnn.2)
      have e : rate1 rxns v (false, r) = kf rxns v.T r / eqk (rx r) v * (if (rx r).bm then (rx r).mod.val v (kf rxns v.T r) else 1) * prodOf (rx r).bwd v.cs := rfl
      rw [e, this, mul_zero]
    · have : prodOf (rx r).fwd v.cs = 0 := prodOf_zero hn (h0 n (ha n hn) hnn.1 hnn.2)
      have e : rate1 rxns v (true, r) = kf rxns v.T r * (if (rx r).fm then (rx r).mod.val v (kf rxns v.T r) else 1) * prodOf (rx r).fwd v.cs := rfl
      rw [e, this, mul_zero]
  refine ⟨?_, h1, ?_, ?_⟩
  · have hu : ∀ t ∈ (row 1).den, t.2 < 206 ∧ egQ 0 ∈ uses t := by decide +kernel
    unfold total
    refine List.sum_eq_zero fun y hy => ?_
    obtain ⟨t, ht, rfl⟩ := List.mem_map.1 hy
    exact h1 t (hu t ht).1 (hu t ht).2
  · have := rate2_pos hv (s := 14) (by decide) hf (t := (true, 154)) (by decide) chk_154.2.1
      (fun n hn => by have : n ∈ (rx 154).fwd := hn; rw [chk_154.1] at this; simpa using this) chk_154.2.2.1
    rwa [rate2, if_neg chk_154.2.1] at this
  · decide +kernel

/-- every transported species appears in a reaction with a radical factor, so that one undefined radical concentration makes its
    source undefined -/
theorem all_touched : ∀ n ∈ range 21, ∃ r ∈ range 206, srcOf (rx r) n ≠ 0 ∧ ((rx r).fx ≠ [] ∨ (rx r).bx ≠ []) := by decide +kernel

/-! ### cells -/

variable {EG : ℝ → ℕ → ℝ} {p T : ℝ} {Y : ℕ → ℝ}

/-- the literal molecular weights -/
theorem weights_pos : ∀ n < 22, 0 < (weights.getD n ⟨1, 0⟩).val := by
  intro n hn
  have : ∀ n < 22, 0 < (weights.getD n ⟨1, 0⟩).m := by decide
  exact Dec.val_pos (this n hn)

theorem moles_pos (hY : ∀ n < 22, 0 ≤ Y n) {s : ℕ} (hs : s < 22) (hp : 0 < Y s) :
    0 < ∑ k ∈ range 22, Y k / (weights.getD k ⟨1, 0⟩).val := by
  refine Finset.sum_pos' (fun k hk => div_nonneg (hY k (mem_range.1 hk)) (weights_pos k (mem_range.1 hk)).le) ⟨s, mem_range.2 hs, ?_⟩
  exact div_pos hp (weights_pos s hs)

/-- **C103 (concentrations).** The concentrations of a cell sum to `p/(R T)` (dyn/cm², erg/mol/K) and keep the molar proportions of
    the mass fractions. -/
theorem C103_concentrations (hT : 0 < T) (hY : ∀ n < 22, 0 ≤ Y n) {s : ℕ} (hs : s < 22) (hp : 0 < Y s) :
    ∑ n ∈ range 22, conc weights p T Y n = 10 * p / (83145100 * T) ∧
    ∀ n < 22, ∀ m < 22, conc weights p T Y n * (Y m / (weights.getD m ⟨1, 0⟩).val) = conc weights p T Y m * (Y n / (weights.getD n ⟨1, 0⟩).val) := by
  have hM := moles_pos hY hs hp
  refine ⟨?_, fun n _ m _ => by unfold conc; ring⟩
  unfold conc
  rw [← Finset.sum_mul]
  field_simp

theorem env_ok (hEG : ∀ e, 0 < EG T e) (hp : 0 < p) (hT : 0 < T) (hY : ∀ n < 22, 0 ≤ Y n) {s : ℕ} (hs : s < 22) (hYs : 0 < Y s) :
    (envOf weights EG p T Y).Ok ∧ 0 < (envOf weights EG p T Y).cs s := by
  have hM := moles_pos hY hs hYs
  have hf : 0 < p * 10 / ((∑ k ∈ range 22, Y k / (weights.getD k ⟨1, 0⟩).val) * T * 83145100) := by positivity
  refine ⟨⟨hT, ?_, hEG, fun n hn => ?_⟩, ?_⟩
  · change 0 < 1013250 / (83145100 * T); positivity
  · exact mul_nonneg (div_nonneg (hY n hn) (weights_pos n hn).le) hf.le
  · exact mul_pos (div_pos hYs (weights_pos s hs)) hf

/-- **C102 (cell).** For every cell at positive pressure and temperature with nonnegative mass fractions that contains at least one
    of H2, O2, OH, H2O, CH3, CH4, CO, CO2: the radicals are nonnegative and in balance, the elements are conserved, and absent
    species are not consumed. -/
theorem C102_cell_partial (hEG : ∀ e, 0 < EG T e) (hp : 0 < p) (hT : 0 < T) (hY : ∀ n < 22, 0 ≤ Y n)
    {s : ℕ} (hs : s ∈ [0, 3, 4, 5, 8, 9, 10, 11]) (hYs : 0 < Y s) {MW : ℕ → ℝ} (hMW : ∀ n < 21, 0 < MW n) :
    let v := envOf weights EG p T Y
    (∀ q < 10, 0 ≤ mech.xq v q ∧
      ∑ r ∈ range 206, (nu (rx r) (egQ q) : ℝ) * (mech.rate v (true, r) - mech.rate v (false, r)) = 0) ∧
    (∀ el < 3, ∑ n ∈ range 21, (atomsE (egT n) el : ℝ) * (mech.dYdt MW v n / MW n) = 0) ∧
    ∀ n < 21, Y n = 0 → 0 ≤ mech.dYdt MW v n := by
  intro v
  have hs22 : s < 22 := by
    have : ∀ s ∈ drainers, s < 22 := by decide
    exact this s hs
  obtain ⟨hv, hc⟩ := env_ok hEG hp hT hY hs22 hYs
  have hd := C102_drains hv hs hc
  refine ⟨C102_quasi_steady_partial hv hd, fun el he => C102_elements_partial hv hd (fun n hn => (hMW n hn).ne') he, fun n hn h0 => ?_⟩
  refine C103_absent_not_consumed hv hd hn (hMW n hn).le ?_
  change conc weights p T Y n = 0
  unfold conc; rw [h0]; simp

/-- the hypotheses are met: air -/
example : ∃ (EG : ℝ → ℕ → ℝ) (p T : ℝ) (Y : ℕ → ℝ), (∀ e, 0 < EG T e) ∧ 0 < p ∧ 0 < T ∧ (∀ n < 22, 0 ≤ Y n) ∧ 0 < Y 3 ∧
    Drains (envOf weights EG p T Y) := by
  have hY : ∀ n < 22, (0 : ℝ) ≤ (fun n => if n = 3 then 233 / 1000 else if n = 21 then 767 / 1000 else 0 : ℕ → ℝ) n := by
    intro n _; dsimp only; split_ifs <;> norm_num
  have h3 : (0 : ℝ) < (fun n => if n = 3 then 233 / 1000 else if n = 21 then 767 / 1000 else 0 : ℕ → ℝ) 3 := by norm_num
  obtain ⟨hv, hc⟩ := env_ok (EG := fun _ _ => 1) (p := 101325) (T := 1500) (fun _ => one_pos) (by norm_num) (by norm_num) hY (s := 3) (by decide) h3
  exact ⟨fun _ _ => 1, 101325, 1500, _, fun _ => one_pos, by norm_num, by norm_num, hY, h3, C102_drains hv (by decide) hc⟩

/-- the hypotheses of `C102_fuel_only_violated` are met by pure ethylene -/
example : ∃ v : Env, v.Ok ∧ 0 < v.cs 14 ∧ ∀ n < 22, n ≠ 14 → n ≠ 21 → v.cs n = 0 :=
  ⟨⟨1500, 1, fun _ => 1, fun n => if n = 14 then 1 else 0⟩,
    ⟨by norm_num, one_pos, fun _ => one_pos, fun n _ => by dsimp only; split_ifs <;> norm_num⟩, by norm_num,
    fun n _ h _ => by simp [h]⟩

/-- the mechanism: 206 reactions, six one-way ones, 19 substitutions -/
example : rxns.length = 206 ∧ zeroed.length = 6 ∧ (parse prog).length = 19 ∧ prog.length = 143 ∧ egT 14 = egOf "C2H4" := by decide +kernel

end PG.Chem.Red22
