import Verif.Trans.Props
/-!
C78: mixture rules and species fits; C77: pure species.
-/
noncomputable section
namespace PG.Trans
open Finset

/-! ### composition -/

theorem massFrac_nonneg {ns : ℕ} {c : TrIn} (h : Admissible ns c) (n : ℕ) : 0 ≤ massFrac ns c n := by
  unfold massFrac; split
  · exact h.1 n ‹_›
  · linarith [h.2]

theorem massFrac_sum {ns : ℕ} (hns : 1 ≤ ns) (c : TrIn) : ∑ n ∈ range ns, massFrac ns c n = 1 := by
  obtain ⟨m, rfl⟩ : ∃ m, ns = m + 1 := ⟨ns - 1, by omega⟩
  rw [sum_range_succ]
  have : ∑ k ∈ range m, massFrac (m+1) c k = ∑ k ∈ range m, c.Y k :=
    sum_congr rfl fun k hk => by unfold massFrac; rw [if_pos (by simpa using mem_range.1 hk)]
  rw [this]; unfold massFrac; simp

theorem moles_pos {ns : ℕ} (hns : 1 ≤ ns) {MW : ℕ → ℝ} (hMW : ∀ n < ns, 0 < MW n) {c : TrIn} (h : Admissible ns c) :
    0 < ∑ m ∈ range ns, massFrac ns c m / MW m := by
  refine lt_of_le_of_ne (sum_nonneg fun n hn => div_nonneg (massFrac_nonneg h n) (hMW n (mem_range.1 hn)).le) fun e => ?_
  have hz := (sum_eq_zero_iff_of_nonneg fun n hn => div_nonneg (massFrac_nonneg h n) (hMW n (mem_range.1 hn)).le).1 e.symm
  have : ∑ n ∈ range ns, massFrac ns c n = 0 := sum_eq_zero fun n hn => by
    have h1 := hz n hn
    rcases div_eq_zero_iff.1 h1 with h2 | h2
    · exact h2
    · exact absurd h2 (hMW n (mem_range.1 hn)).ne'
  rw [massFrac_sum hns] at this; norm_num at this

/-- C78: mole fractions of an admissible composition are non-negative and sum to one. -/
theorem C78_moleFrac {ns : ℕ} (hns : 1 ≤ ns) {MW : ℕ → ℝ} (hMW : ∀ n < ns, 0 < MW n) {c : TrIn} (h : Admissible ns c) :
    (∀ n < ns, 0 ≤ moleFrac ns MW c n) ∧ ∑ n ∈ range ns, moleFrac ns MW c n = 1 := by
  have hp := moles_pos hns hMW h
  refine ⟨fun n hn => div_nonneg (div_nonneg (massFrac_nonneg h n) (hMW n hn).le) hp.le, ?_⟩
  unfold moleFrac
  rw [← sum_div]; exact div_self hp.ne'

/-! ### conductivity -/

/-- bounds for the mean of arithmetic and harmonic average -/
theorem kmean_bounds {ns : ℕ} {k X : ℕ → ℝ} {lo hi : ℝ} (hlo : 0 < lo) (hX : ∀ n < ns, 0 ≤ X n) (h1 : ∑ n ∈ range ns, X n = 1)
    (hk : ∀ n < ns, lo ≤ k n ∧ k n ≤ hi) :
    lo ≤ (∑ n ∈ range ns, X n * k n + 1 / ∑ n ∈ range ns, X n / k n) / 2 ∧
    (∑ n ∈ range ns, X n * k n + 1 / ∑ n ∈ range ns, X n / k n) / 2 ≤ hi := by
  have hhi : 0 < hi := by
    by_contra hc
    have hempty : ∀ n < ns, False := fun n hn => by have := hk n hn; linarith
    have : ∑ n ∈ range ns, X n = 0 := sum_eq_zero fun n hn => (hempty n (mem_range.1 hn)).elim
    rw [h1] at this; norm_num at this
  have a1 : lo ≤ ∑ n ∈ range ns, X n * k n := by
    calc lo = ∑ n ∈ range ns, X n * lo := by rw [← sum_mul, h1, one_mul]
      _ ≤ _ := sum_le_sum fun n hn => mul_le_mul_of_nonneg_left (hk n (mem_range.1 hn)).1 (hX n (mem_range.1 hn))
  have a2 : ∑ n ∈ range ns, X n * k n ≤ hi := by
    calc _ ≤ ∑ n ∈ range ns, X n * hi :=
          sum_le_sum fun n hn => mul_le_mul_of_nonneg_left (hk n (mem_range.1 hn)).2 (hX n (mem_range.1 hn))
      _ = hi := by rw [← sum_mul, h1, one_mul]
  have b1 : ∑ n ∈ range ns, X n / k n ≤ 1 / lo := by
    calc _ ≤ ∑ n ∈ range ns, X n / lo :=
          sum_le_sum fun n hn => div_le_div_of_nonneg_left (hX n (mem_range.1 hn)) hlo (hk n (mem_range.1 hn)).1
      _ = 1 / lo := by rw [← sum_div, h1]
  have b2 : 1 / hi ≤ ∑ n ∈ range ns, X n / k n := by
    calc 1 / hi = ∑ n ∈ range ns, X n / hi := by rw [← sum_div, h1]
      _ ≤ _ := sum_le_sum fun n hn => div_le_div_of_nonneg_left (hX n (mem_range.1 hn))
          (lt_of_lt_of_le hlo (hk n (mem_range.1 hn)).1) (hk n (mem_range.1 hn)).2
  have hpos : 0 < ∑ n ∈ range ns, X n / k n := lt_of_lt_of_le (by positivity) b2
  have c1 : lo ≤ 1 / ∑ n ∈ range ns, X n / k n := by
    rw [le_div_iff₀ hpos]
    calc lo * ∑ n ∈ range ns, X n / k n ≤ lo * (1 / lo) := mul_le_mul_of_nonneg_left b1 hlo.le
      _ = 1 := by field_simp
  have c2 : 1 / ∑ n ∈ range ns, X n / k n ≤ hi := by
    rw [div_le_iff₀ hpos]
    calc 1 = hi * (1 / hi) := by field_simp
      _ ≤ _ := mul_le_mul_of_nonneg_left b2 hhi.le
  constructor <;> linarith

/-- C78: the mixture conductivity of constantProps lies between the smallest and the largest species conductivity. -/
theorem C78_kappa_bounds (tb : Tab) (hns : 1 ≤ tb.ns) (hMW : ∀ n < tb.ns, 0 < tb.MW n) {lo hi : ℝ} (hlo : 0 < lo)
    (hk : ∀ n < tb.ns, lo ≤ tb.kappa0 n ∧ tb.kappa0 n ≤ hi) (s : Scr) (c : TrIn) (h : Admissible tb.ns c) :
    lo ≤ (constStep tb s c).2.kappa ∧ (constStep tb s c).2.kappa ≤ hi := by
  have hx := C78_moleFrac hns hMW h
  have e : (constStep tb s c).2.kappa = _ := kMix_congr (k' := tb.kappa0) (fun _ _ => rfl) (fillX_eq tb hns c s)
  rw [e]
  exact kmean_bounds hlo hx.1 hx.2 hk

/-! ### viscosity -/

theorem phi_self {MW mu : ℕ → ℝ} {n : ℕ} (hM : MW n ≠ 0) (hm : mu n ≠ 0) : phi MW mu n n = 1 := by
  unfold phi
  rw [div_self hM, div_self hm, Real.sqrt_one, one_mul, Real.sqrt_one, ← Real.sqrt_mul (by norm_num)]
  rw [show (8:ℝ) * (1 + 1) = 4 ^ 2 by norm_num, Real.sqrt_sq (by norm_num)]; norm_num

theorem phi_nonneg (MW mu : ℕ → ℝ) (n n2 : ℕ) : 0 ≤ phi MW mu n n2 := by unfold phi; positivity

/-- a positive Wilke factor -/
theorem phi_pos {MW mu : ℕ → ℝ} {n n2 : ℕ} (h1 : 0 < MW n) (h2 : 0 < MW n2) : 0 < phi MW mu n n2 := by
  unfold phi; positivity

theorem wilke_bounds {ns : ℕ} {MW mu X : ℕ → ℝ} (hMW : ∀ n < ns, 0 < MW n) (hmu : ∀ n < ns, 0 < mu n) (hX : ∀ n < ns, 0 ≤ X n)
    (h1 : ∑ n ∈ range ns, X n = 1) : 0 < wilke ns MW mu X ∧ wilke ns MW mu X ≤ ∑ n ∈ range ns, mu n := by
  have hden : ∀ n < ns, 0 < X n → X n ≤ ∑ n2 ∈ range ns, phi MW mu n n2 * X n2 := fun n hn _ => by
    have := single_le_sum (f := fun n2 => phi MW mu n n2 * X n2)
      (fun n2 h2 => mul_nonneg (phi_nonneg _ _ _ _) (hX n2 (mem_range.1 h2))) (mem_range.2 hn)
    simp only [phi_self (hMW n hn).ne' (hmu n hn).ne', one_mul] at this
    exact this
  have hnn : ∀ n ∈ range ns, 0 ≤ mu n * X n / ∑ n2 ∈ range ns, phi MW mu n n2 * X n2 := fun n hn =>
    div_nonneg (mul_nonneg (hmu n (mem_range.1 hn)).le (hX n (mem_range.1 hn)))
      (sum_nonneg fun n2 h2 => mul_nonneg (phi_nonneg _ _ _ _) (hX n2 (mem_range.1 h2)))
  constructor
  · obtain ⟨m, hm, hXm⟩ : ∃ m ∈ range ns, 0 < X m := by
      by_contra hc
      have : ∑ n ∈ range ns, X n = 0 := sum_eq_zero fun n hn => le_antisymm (not_lt.1 fun h => hc ⟨n, hn, h⟩) (hX n (mem_range.1 hn))
      rw [h1] at this; norm_num at this
    have hm' := mem_range.1 hm
    exact sum_pos' hnn ⟨m, hm, div_pos (mul_pos (hmu m hm') hXm) (lt_of_lt_of_le hXm (hden m hm' hXm))⟩
  · refine sum_le_sum fun n hn => ?_
    have hn' := mem_range.1 hn
    rcases eq_or_lt_of_le (hX n hn') with h0 | hp
    · rw [← h0, mul_zero, zero_div]; exact (hmu n hn').le
    · rw [div_le_iff₀ (lt_of_lt_of_le hp (hden n hn' hp))]
      exact mul_le_mul_of_nonneg_left (hden n hn' hp) (hmu n hn').le

/-- C78: the mixture viscosity of constantProps is positive and at most the sum of the species viscosities. -/
theorem C78_mu_bounds (tb : Tab) (hns : 1 ≤ tb.ns) (hMW : ∀ n < tb.ns, 0 < tb.MW n) (hmu : ∀ n < tb.ns, 0 < tb.mu0 n)
    (s : Scr) (c : TrIn) (h : Admissible tb.ns c) :
    0 < (constStep tb s c).2.mu ∧ (constStep tb s c).2.mu ≤ ∑ n ∈ range tb.ns, tb.mu0 n := by
  have hx := C78_moleFrac hns hMW h
  have e : (constStep tb s c).2.mu = _ := wilke_congr (mu' := tb.mu0) (fun _ _ => rfl) (fillX_eq tb hns c s)
  rw [e]
  exact wilke_bounds hMW hmu hx.1 hx.2

/-- the composition is pure species `m` -/
def PureComp (ns : ℕ) (c : TrIn) (m : ℕ) : Prop := m < ns ∧ ∀ n < ns, massFrac ns c n = if n = m then 1 else 0

theorem moleFrac_pure {ns : ℕ} {MW : ℕ → ℝ} {c : TrIn} {m : ℕ} (hM : MW m ≠ 0) (h : PureComp ns c m) (n : ℕ) (hn : n < ns) :
    moleFrac ns MW c n = if n = m then 1 else 0 := by
  have hs : ∑ k ∈ range ns, massFrac ns c k / MW k = 1 / MW m := by
    rw [sum_eq_single m]
    · rw [h.2 m h.1, if_pos rfl]
    · intro k hk hkm; rw [h.2 k (mem_range.1 hk), if_neg hkm, zero_div]
    · intro hc; exact absurd (mem_range.2 h.1) hc
  unfold moleFrac
  rw [hs, h.2 n hn]
  split
  · rename_i e; subst e; field_simp
  · simp

theorem mix_pure {ns : ℕ} {MW mu k X : ℕ → ℝ} {m : ℕ} (hm : m < ns) (hM : MW m ≠ 0) (hmu : mu m ≠ 0)
    (hX : ∀ n < ns, X n = if n = m then 1 else 0) : wilke ns MW mu X = mu m ∧ kMix ns k X = k m := by
  constructor
  · unfold wilke
    rw [sum_eq_single m]
    · have : ∑ n2 ∈ range ns, phi MW mu m n2 * X n2 = 1 := by
        rw [sum_eq_single m]
        · rw [hX m hm, if_pos rfl, phi_self hM hmu, one_mul]
        · intro k hk hkm; rw [hX k (mem_range.1 hk), if_neg hkm, mul_zero]
        · intro hc; exact absurd (mem_range.2 hm) hc
      rw [this, hX m hm, if_pos rfl]; ring
    · intro k hk hkm; rw [hX k (mem_range.1 hk), if_neg hkm]; simp
    · intro hc; exact absurd (mem_range.2 hm) hc
  · unfold kMix
    have e1 : ∑ n ∈ range ns, X n * k n = k m := by
      rw [sum_eq_single m]
      · rw [hX m hm, if_pos rfl, one_mul]
      · intro j hj hjm; rw [hX j (mem_range.1 hj), if_neg hjm, zero_mul]
      · intro hc; exact absurd (mem_range.2 hm) hc
    have e2 : ∑ n ∈ range ns, X n / k n = 1 / k m := by
      rw [sum_eq_single m]
      · rw [hX m hm, if_pos rfl]
      · intro j hj hjm; rw [hX j (mem_range.1 hj), if_neg hjm, zero_div]
      · intro hc; exact absurd (mem_range.2 hm) hc
    rw [e1, e2, one_div_one_div]; ring

/-- C78: a pure species gets exactly its own tabulated viscosity and conductivity, and unit Lewis number holds. -/
theorem C78_pure (tb : Tab) (hns : 1 ≤ tb.ns) (s : Scr) (c : TrIn) (m : ℕ) (h : PureComp tb.ns c m) (hM : tb.MW m ≠ 0)
    (hmu : tb.mu0 m ≠ 0) :
    (constStep tb s c).2.mu = tb.mu0 m ∧ (constStep tb s c).2.kappa = tb.kappa0 m := by
  have hX : ∀ n < tb.ns, (fillX tb (fillY tb c s)).X n = if n = m then 1 else 0 := fun n hn =>
    (fillX_eq tb hns c s n hn).trans (moleFrac_pure hM h n hn)
  exact mix_pure h.1 hM hmu hX

/-- C78: species diffusivity equals thermal diffusivity (Lewis number one) in the models that say so. -/
theorem C78_unit_lewis (tb : Tab) (s : Scr) (c : TrIn) (hr : c.rho ≠ 0) (hcp : c.cp ≠ 0) (n : ℕ) :
    (constStep tb s c).2.kappa = (constStep tb s c).2.D n * c.rho * c.cp ∧
    (kinULStep tb s c).2.kappa = (kinULStep tb s c).2.D n * c.rho * c.cp := by
  constructor
  · simp only [constStep]; field_simp
  · simp only [kinULStep]; field_simp

/-! ### binary diffusion table -/

theorem tri_step {ns n : ℕ} (hn : n < ns) : (ns - n) * (ns - n - 1) / 2 = (ns - (n+1)) * (ns - (n+1) - 1) / 2 + (ns - (n+1)) := by
  obtain ⟨m, hm⟩ : ∃ m, ns - n = m + 1 := ⟨ns - n - 1, by omega⟩
  have h2 : ns - (n+1) = m := by omega
  rw [hm, h2]
  exact Nat.triangle_succ m

theorem tri_le {ns n : ℕ} (hn : n ≤ ns) : (ns - n) * (ns - n - 1) / 2 ≤ ns * (ns - 1) / 2 := by
  apply Nat.div_le_div_right
  exact Nat.mul_le_mul (by omega) (by omega)

theorem row_start {ns : ℕ} : ∀ n ≤ ns, ns * (ns - 1) / 2 - (ns - n) * (ns - n - 1) / 2 + n = ∑ k ∈ range n, (ns - k) := by
  intro n
  induction n with
  | zero => intro _; simp
  | succ n ih =>
    intro hn
    rw [sum_range_succ, ← ih (by omega)]
    have h1 := tri_step (show n < ns by omega)
    have h2 := tri_le (show n ≤ ns by omega)
    omega

/-- C78: the packed index used by the kernel finds the row the table builder wrote for the pair, for every number of
    species (and so distinct pairs never share a row). -/
theorem C78_packed_index (ns n n2 : ℕ) (h1 : n ≤ n2) (h2 : n2 < ns) : (pairList ns)[packIdx ns n n2]? = some (n, n2) := by
  have key : ∀ m ≤ ns, ((List.range m).flatMap fun k => (List.range (ns - k)).map fun j => (k, k + j)).length =
      ∑ k ∈ range m, (ns - k) := by
    intro m
    induction m with
    | zero => intro _; simp
    | succ m ih =>
      intro hm
      rw [List.range_succ, List.flatMap_append, List.length_append, ih (by omega), sum_range_succ]
      simp
  have split : pairList ns = ((List.range n).flatMap fun k => (List.range (ns - k)).map fun j => (k, k + j)) ++
      ((List.range (ns - n)).flatMap fun i => (List.range (ns - (n + i))).map fun j => (n + i, n + i + j)) := by
    unfold pairList
    conv_lhs => rw [show ns = n + (ns - n) by omega, List.range_add, List.flatMap_append, List.flatMap_map]
    rw [show n + (ns - n) = ns by omega]
  have hstart := row_start (ns := ns) n (by omega)
  have hidx : packIdx ns n n2 = ∑ k ∈ range n, (ns - k) + (n2 - n) := by
    unfold packIdx; omega
  rw [split, List.getElem?_append_right (by rw [key n (by omega), hidx]; omega), key n (by omega), hidx, Nat.add_sub_cancel_left]
  obtain ⟨m, hm⟩ : ∃ m, ns - n = m + 1 := ⟨ns - n - 1, by omega⟩
  rw [hm, List.range_succ_eq_map, List.flatMap_cons]
  rw [List.getElem?_append_left (by simp; omega), List.getElem?_map, List.getElem?_range (by omega)]
  simp; omega

theorem dij_eq (tb : Tab) (junk : Scr) (c : TrIn) {n n2 : ℕ} (hn : n < tb.ns) (hn2 : n2 < tb.ns) :
    (fillSpecies tb c.T (fillXBreak tb (fillY tb c junk.nscompile))).Dij n n2 =
      fitD tb c.T (packIdx tb.ns (min n n2) (max n n2)) := by
  unfold fillSpecies
  dsimp only
  rw [if_pos ⟨hn, hn2⟩, (fillXBreak_other _ _).2.2.1]
  show (0 + poly _ c.T) * _ = _
  unfold fitD poly; ring

/-- mixture-averaged diffusion coefficient of species `n` (the formula of the kinetic-theory literature):
    `1 / (Σ_{j≠n} X_j / D_nj + X_n / (1 - Y_n) Σ_{j≠n} Y_j / D_nj)` -/
def mixAvg (ns : ℕ) (X Y : ℕ → ℝ) (D : ℕ → ℕ → ℝ) (n : ℕ) : ℝ :=
  1 / (∑ j ∈ (range ns).erase n, X j / D n j + X n / (1 - Y n) * ∑ j ∈ (range ns).erase n, Y j / D n j)

/-- binary diffusion coefficient of a pair at pressure `p`, looked up in the builder's order -/
def binary (tb : Tab) (T p : ℝ) (n j : ℕ) : ℝ := fitD tb T ((pairList tb.ns).idxOf (min n j, max n j)) / p

theorem pairList_nodup (ns : ℕ) : (pairList ns).Nodup := by
  unfold pairList
  rw [List.nodup_flatMap]
  refine ⟨fun k _ => (List.nodup_range).map fun a b h => by simpa using h, ?_⟩
  refine List.Pairwise.imp_of_mem ?_ (List.nodup_range (n := ns))
  intro a b _ _ hab
  rw [Function.onFun, List.disjoint_left]
  intro x hx hy
  simp only [List.mem_map] at hx hy
  obtain ⟨_, _, rfl⟩ := hx
  obtain ⟨_, _, h⟩ := hy
  exact hab (by simpa using (congrArg Prod.fst h).symm)

theorem binary_eq (tb : Tab) (T p : ℝ) {n j : ℕ} (hn : n < tb.ns) (hj : j < tb.ns) :
    binary tb T p n j = fitD tb T (packIdx tb.ns (min n j) (max n j)) / p := by
  unfold binary
  have h := C78_packed_index tb.ns (min n j) (max n j) (by omega) (by omega)
  have hl : packIdx tb.ns (min n j) (max n j) < (pairList tb.ns).length := by
    by_contra hc
    rw [List.getElem?_eq_none (by omega)] at h; cases h
  have h2 : (pairList tb.ns)[packIdx tb.ns (min n j) (max n j)] = (min n j, max n j) := by
    rw [List.getElem?_eq_getElem hl] at h; exact Option.some.inj h
  have := (pairList_nodup tb.ns).idxOf_getElem _ hl
  rw [h2] at this
  rw [this]

/-- C78: for a mixture that is not pure, the kinetic-theory diffusion coefficients (on clean accumulators) are the
    mixture-averaged coefficients of the fitted binary coefficients at the cell's temperature and pressure. -/
theorem C78_diffusion (tb : Tab) (hns : 1 ≤ tb.ns) (hMW : ∀ n < tb.ns, 0 < tb.MW n) (junk : Scr) (c : TrIn)
    (h : Admissible tb.ns c) (hp : c.p ≠ 0) (hpure : ∀ n < tb.ns, moleFrac tb.ns tb.MW c n ≠ 1) (n : ℕ) (hn : n < tb.ns) :
    (kinStep tb junk.nscompile c).2.D n =
      mixAvg tb.ns (moleFrac tb.ns tb.MW c) (massFrac tb.ns c) (binary tb c.T c.p) n := by
  set s1 := fillY tb c junk.nscompile with hs1
  have hnone : pureIdx tb s1 = none := by
    unfold pureIdx
    rw [List.find?_eq_none]
    intro m hm
    have hm' := List.mem_range.1 hm
    simp only [decide_eq_true_eq]
    rw [hs1, fillY_eq tb hns c _ m hm', mass_eq tb hns]
    exact hpure m hm'
  have hX : ∀ m < tb.ns, (fillSpecies tb c.T (fillXBreak tb s1)).X m = moleFrac tb.ns tb.MW c m := fun m hm =>
    fillXBreak_eq tb hns c junk.nscompile (fun k hk => hpure k (by omega)) m hm
  have hD : ∀ m < tb.ns, (fillSpecies tb c.T (fillXBreak tb s1)).Dij n m = binary tb c.T c.p n m * c.p := fun m hm => by
    rw [hs1, dij_eq tb junk c hn hm, binary_eq tb c.T c.p hn hm]; field_simp
  have hmoles := moles_pos hns hMW h
  set Nt := ∑ m ∈ range tb.ns, massFrac tb.ns c m / tb.MW m with hNt
  have hmw : mwMix tb s1 = 1 / Nt := by
    unfold mwMix; rw [hnone]; dsimp only
    have : ∀ m ∈ range tb.ns, s1.Y m / tb.MW m / mass tb s1 * tb.MW m = massFrac tb.ns c m / Nt := fun m hm => by
      have hm' := mem_range.1 hm
      rw [hs1, fillY_eq tb hns c _ m hm', mass_eq tb hns, ← hNt]
      have := (hMW m hm').ne'
      field_simp
    rw [sum_congr rfl this, ← sum_div, massFrac_sum hns]
  have hXY : ∀ m < tb.ns, moleFrac tb.ns tb.MW c m * tb.MW m = massFrac tb.ns c m / Nt := fun m hm => by
    unfold moleFrac; rw [← hNt]
    have := (hMW m hm).ne'
    field_simp
  have hout : (kinStep tb junk.nscompile c).2.D n = dMix tb c.p (mwMix tb s1) (fillSpecies tb c.T (fillXBreak tb s1)) n := by
    unfold kinStep fillD
    dsimp only
    rw [← hs1, hnone]
    dsimp only
    rw [if_pos hn]
  rw [hout]
  unfold dMix mixAvg
  dsimp only
  rw [hX n hn, hmw]
  have e1 : ∑ n2 ∈ (range tb.ns).erase n, (fillSpecies tb c.T (fillXBreak tb s1)).X n2 /
      (fillSpecies tb c.T (fillXBreak tb s1)).Dij n n2 =
      (∑ j ∈ (range tb.ns).erase n, moleFrac tb.ns tb.MW c j / binary tb c.T c.p n j) / c.p := by
    rw [sum_div]
    refine sum_congr rfl fun j hj => ?_
    have hj' := mem_range.1 (mem_of_mem_erase hj)
    rw [hX j hj', hD j hj', div_div]
  have e2 : ∑ n2 ∈ (range tb.ns).erase n, (fillSpecies tb c.T (fillXBreak tb s1)).X n2 * tb.MW n2 /
      (fillSpecies tb c.T (fillXBreak tb s1)).Dij n n2 =
      (∑ j ∈ (range tb.ns).erase n, massFrac tb.ns c j / binary tb c.T c.p n j) / (Nt * c.p) := by
    rw [sum_div]
    refine sum_congr rfl fun j hj => ?_
    have hj' := mem_range.1 (mem_of_mem_erase hj)
    rw [hX j hj', hD j hj', hXY j hj', div_div, div_div]
    congr 1; ring
  rw [e1, e2]
  have e3 : 1 / Nt - tb.MW n * moleFrac tb.ns tb.MW c n = (1 - massFrac tb.ns c n) / Nt := by
    rw [mul_comm, hXY n hn]; ring
  rw [e3]
  congr 1
  have hNt' := hmoles.ne'
  by_cases hy : 1 - massFrac tb.ns c n = 0
  · rw [hy]; simp; field_simp
  · field_simp

end PG.Trans
