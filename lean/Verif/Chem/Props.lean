import Verif.Chem.Checks
import Verif.Chem.Thermo
import Verif.Chem.LoopProps

/-! C81-C83, C85: the three tabulated mechanisms. -/
noncomputable section
namespace PG.Chem
open PG.Thermo Finset

/-- the chemistry kernels with tabulated rates -/
inductive Kernel where
  | FFCMY
  | Skeletal
  | GRI30

/-- table of a kernel -/
def Kernel.mech : Kernel → Mech
  | .FFCMY => PG.Chem.FFCMY.mech
  | .Skeletal => PG.Chem.Skeletal.mech
  | .GRI30 => PG.Chem.GRI30.mech

/-- formulas of its species -/
def Kernel.formulas : Kernel → List (String × List ℕ)
  | .FFCMY => formulasFFCMY
  | .Skeletal => formulasSkeletal
  | .GRI30 => formulasGRI30

/-- sizes, as in the code: 12, 32, 53 species, 38, 206, 325 reactions -/
example : Kernel.FFCMY.mech.ns = 12 ∧ Kernel.Skeletal.mech.ns = 32 ∧ Kernel.GRI30.mech.ns = 53 := ⟨rfl, rfl, rfl⟩
example : Kernel.FFCMY.mech.rxns.length = 38 ∧ Kernel.Skeletal.mech.rxns.length = 206 ∧
    Kernel.GRI30.mech.rxns.length = 325 := by decide +kernel

theorem k_src (k : Kernel) : k.mech.SrcOk := by
  cases k
  · exact src_FFCMY
  · exact src_Skeletal
  · exact src_GRI30
theorem k_ok (k : Kernel) : ∀ x ∈ k.mech.rxns, x.Ok k.mech.ns := by
  cases k
  · exact ok_FFCMY
  · exact ok_Skeletal
  · exact ok_GRI30
theorem k_pos (k : Kernel) : ∀ x ∈ k.mech.rxns, x.Pos k.mech.ns := by
  cases k
  · exact pos_FFCMY
  · exact pos_Skeletal
  · exact pos_GRI30
theorem k_bal (k : Kernel) : ∀ x ∈ k.mech.rxns, x.Balanced (k.formulas.map Prod.snd) 5 := by
  cases k
  · exact bal_FFCMY
  · exact bal_Skeletal
  · exact bal_GRI30
theorem k_some (k : Kernel) : ∀ x ∈ k.mech.rxns, x.mod.Some k.mech.ns := by
  cases k
  · exact some_FFCMY
  · exact some_Skeletal
  · exact some_GRI30
theorem k_fall (k : Kernel) : ∀ x ∈ k.mech.rxns, x.mod.Fall := by
  cases k
  · exact fall_FFCMY
  · exact fall_Skeletal
  · exact fall_GRI30

variable (k : Kernel) (th : Th) (rho T : ℝ) (Y : ℕ → ℝ)

/-- **C81** Every element (0: C, 1: H, 2: O, 3: N, 4: Ar) is conserved: the molar production rates, weighted with the number of
    atoms in each species, sum to zero at every temperature, density and composition. -/
theorem C81_elements (hMW : ∀ n < k.mech.ns, th.MW n ≠ 0) {e : ℕ} (he : e < 5) :
    ∑ n ∈ range k.mech.ns, (atoms k.formulas n e : ℝ) * (k.mech.rates th rho T Y n / th.MW n) = 0 :=
  elements_conserved (k_src k) (k_ok k) (k_bal k) th.MW hMW he

/-- **C81** No mass is created: the mass production rates sum to zero, provided the molecular weights of the species file are
    sums of atomic weights. -/
theorem C81_mass (hMW : ∀ n < k.mech.ns, th.MW n ≠ 0) (W : ℕ → ℝ)
    (hW : ∀ n < k.mech.ns, th.MW n = ∑ e ∈ range 5, (atoms k.formulas n e : ℝ) * W e) :
    ∑ n ∈ range k.mech.ns, k.mech.rates th rho T Y n = 0 :=
  mass_conserved (k_src k) (k_ok k) (k_bal k) th.MW hMW W hW

/-- the weights hypothesis can be met: weights computed from the formulas -/
example (W : ℕ → ℝ) : ∃ th : Th, ∀ n < k.mech.ns, th.MW n = ∑ e ∈ range 5, (atoms k.formulas n e : ℝ) * W e :=
  ⟨⟨1, 1, fun n => ∑ e ∈ range 5, (atoms k.formulas n e : ℝ) * W e, fun _ => 0, fun _ _ => 0⟩, fun _ _ => rfl⟩

/-- **C81** Inert species have no source: argon in GRI 3.0 and nitrogen in the ethylene skeleton. -/
theorem C81_inert : GRI30.names.getD 48 "" = "AR" ∧ Kernel.GRI30.mech.rates th rho T Y 48 = 0 ∧
    Skeletal.names.getD 31 "" = "N2" ∧ Kernel.Skeletal.mech.rates th rho T Y 31 = 0 := by
  have h1 : Kernel.GRI30.mech.src.getD 48 [] = [] := by decide +kernel
  have h2 : Kernel.Skeletal.mech.src.getD 31 [] = [] := by decide +kernel
  refine ⟨rfl, ?_, rfl, ?_⟩
  · unfold Mech.rates Mech.dYdt; rw [h1]; simp
  · unfold Mech.rates Mech.dYdt; rw [h2]; simp

/-- **C82** The source of a species is the sum over reactions of its net stoichiometric coefficient, as given by the powers
    in the rate expressions, times the net rate. -/
theorem C82_sources {n : ℕ} (hn : n < k.mech.ns) :
    k.mech.rates th rho T Y n
      = th.MW n * (k.mech.rxns.map fun x => (stoich x n : ℝ) * x.rate k.mech.ns (envOf th T rho Y)).sum :=
  dYdt_eq (k_src k) th.MW hn

/-- **C82** The equilibrium constant of every reaction is the thermodynamic one for the stoichiometry of its rate expressions:
    `Kc = (p°/RuT)^Σν exp(-Σ ν g°/RT)`. -/
theorem C82_equilibrium_constant (x : Rxn) (hx : x ∈ k.mech.rxns) :
    x.Kc (envOf th T rho Y) = (101325 / (th.Ru * T)) ^ (∑ n ∈ range k.mech.ns, stoich x n)
      * Real.exp (-∑ n ∈ range k.mech.ns, (stoich x n : ℝ) * (hND th T n - sND th T n)) :=
  Kc_eq (k_ok k x hx)

section
variable {k th rho T Y}

theorem env_cs_nonneg (hr : 0 ≤ rho) (hMW : ∀ n < k.mech.ns, 0 < th.MW n) (hY : ∀ n < k.mech.ns, 0 ≤ Y n) :
    ∀ n < k.mech.ns, 0 ≤ (envOf th T rho Y).cs n :=
  fun n hn => div_nonneg (mul_nonneg hr (hY n hn)) (hMW n hn).le

theorem env_cs_pos (hr : 0 < rho) (hMW : ∀ n < k.mech.ns, 0 < th.MW n) (hY : ∀ n < k.mech.ns, 0 < Y n) :
    ∀ n < k.mech.ns, 0 < (envOf th T rho Y).cs n :=
  fun n hn => div_pos (mul_pos hr (hY n hn)) (hMW n hn)

theorem env_pref_pos (hRu : 0 < th.Ru) (hT : 0 < T) : 0 < (envOf th T rho Y).pref :=
  div_pos (by norm_num) (mul_pos hRu hT)

/-- **C82** Second law, reaction by reaction: a reversible reaction runs towards lower Gibbs energy, and its net rate vanishes
    exactly at equilibrium (here `dMu` is the Gibbs energy change per unit progress, over RT, from the chemical potentials
    `g° + RT log(c/c°)`). -/
theorem C82_second_law (hr : 0 < rho) (hT : 0 < T) (hRu : 0 < th.Ru) (hMW : ∀ n < k.mech.ns, 0 < th.MW n)
    (hY : ∀ n < k.mech.ns, 0 < Y n) (x : Rxn) (hx : x ∈ k.mech.rxns) (hrev : x.rev = true) :
    (dMu k.mech.ns x (envOf th T rho Y) < 0 → 0 < x.rate k.mech.ns (envOf th T rho Y)) ∧
    (0 < dMu k.mech.ns x (envOf th T rho Y) → x.rate k.mech.ns (envOf th T rho Y) < 0) ∧
    (dMu k.mech.ns x (envOf th T rho Y) = 0 → x.rate k.mech.ns (envOf th T rho Y) = 0) :=
  rate_sign (k_ok k x hx) (k_pos k x hx) (k_some k x hx) hrev (env_cs_pos hr hMW hY) (env_pref_pos hRu hT)

/-- **C82** Irreversible reactions only run forwards. -/
theorem C82_irreversible (hr : 0 < rho) (hMW : ∀ n < k.mech.ns, 0 < th.MW n)
    (hY : ∀ n < k.mech.ns, 0 < Y n) (x : Rxn) (hx : x ∈ k.mech.rxns) (hrev : x.rev = false) :
    0 < x.rate k.mech.ns (envOf th T rho Y) := by
  unfold Rxn.rate
  rw [hrev]
  exact qf_pos (k_ok k x hx) (k_pos k x hx) (k_some k x hx) (env_cs_pos hr hMW hY)

/-- **C82** Second law for the mixture: the production rates of the ethylene skeleton (all reactions reversible) never raise
    the mixture's Gibbs energy at fixed T and density, and lower it unless every reaction is in equilibrium. -/
theorem C82_gibbs_decreases (hr : 0 < rho) (hT : 0 < T) (hRu : 0 < th.Ru) (hMW : ∀ n < 32, 0 < th.MW n)
    (hY : ∀ n < 32, 0 < Y n) :
    (∑ n ∈ range 32, mu (envOf th T rho Y) n * (Skeletal.mech.rates th rho T Y n / th.MW n) ≤ 0) ∧
    (∑ n ∈ range 32, mu (envOf th T rho Y) n * (Skeletal.mech.rates th rho T Y n / th.MW n) = 0 →
      ∀ x ∈ Skeletal.mech.rxns, dMu 32 x (envOf th T rho Y) = 0) := by
  have hsum := sum_molar (m := Skeletal.mech) (v := envOf th T rho Y) src_Skeletal th.MW (fun n hn => (hMW n hn).ne')
    (mu (envOf th T rho Y))
  have hterm : ∀ x ∈ Skeletal.mech.rxns, x.rate 32 (envOf th T rho Y) * dMu 32 x (envOf th T rho Y) ≤ 0 ∧
      (x.rate 32 (envOf th T rho Y) * dMu 32 x (envOf th T rho Y) = 0 → dMu 32 x (envOf th T rho Y) = 0) := by
    intro x hx
    obtain ⟨h1, h2, h3⟩ := C82_second_law (k := .Skeletal) hr hT hRu hMW hY x hx (rev_Skeletal x hx)
    rcases lt_trichotomy (dMu 32 x (envOf th T rho Y)) 0 with h | h | h
    · have := mul_neg_of_pos_of_neg (h1 h) h
      exact ⟨this.le, fun h0 => absurd h0 this.ne⟩
    · exact ⟨by rw [h, mul_zero], fun _ => h⟩
    · have := mul_neg_of_neg_of_pos (h2 h) h
      exact ⟨this.le, fun h0 => absurd h0 this.ne⟩
  have hgen : ∀ l : List Rxn, (∀ x ∈ l, x.rate 32 (envOf th T rho Y) * dMu 32 x (envOf th T rho Y) ≤ 0 ∧
      (x.rate 32 (envOf th T rho Y) * dMu 32 x (envOf th T rho Y) = 0 → dMu 32 x (envOf th T rho Y) = 0)) →
      (l.map fun x => x.rate 32 (envOf th T rho Y) * dMu 32 x (envOf th T rho Y)).sum ≤ 0 ∧
      ((l.map fun x => x.rate 32 (envOf th T rho Y) * dMu 32 x (envOf th T rho Y)).sum = 0 →
        ∀ x ∈ l, dMu 32 x (envOf th T rho Y) = 0) := by
    intro l
    induction l with
    | nil => exact fun _ => ⟨by simp, fun _ x hx => absurd hx (by simp)⟩
    | cons a l ih =>
      intro h
      obtain ⟨i1, i2⟩ := ih fun x hx => h x (List.mem_cons_of_mem _ hx)
      obtain ⟨a1, a2⟩ := h a List.mem_cons_self
      simp only [List.map_cons, List.sum_cons]
      refine ⟨by linarith, fun h0 x hx => ?_⟩
      rcases List.mem_cons.1 hx with rfl | hx
      · exact a2 (by linarith)
      · exact i2 (by linarith) x hx
  obtain ⟨g1, g2⟩ := hgen _ hterm
  exact ⟨le_of_eq_of_le hsum g1, fun h => g2 (hsum.symm.trans h)⟩

/-- **C82** Chemical equilibrium is a rest point: when the chemical potentials are sums of element potentials, every
    reversible reaction stands still. -/
theorem C82_equilibrium (hr : 0 < rho) (hT : 0 < T) (hRu : 0 < th.Ru) (hMW : ∀ n < k.mech.ns, 0 < th.MW n)
    (hY : ∀ n < k.mech.ns, 0 < Y n) (lam : ℕ → ℝ)
    (heq : ∀ n < k.mech.ns, mu (envOf th T rho Y) n = ∑ e ∈ range 5, lam e * (atoms k.formulas n e : ℝ))
    (x : Rxn) (hx : x ∈ k.mech.rxns) (hrev : x.rev = true) : x.rate k.mech.ns (envOf th T rho Y) = 0 := by
  refine (C82_second_law hr hT hRu hMW hY x hx hrev).2.2 ?_
  unfold dMu
  rw [sum_congr rfl fun n hn => by rw [heq n (mem_range.1 hn), mul_sum], sum_comm]
  refine sum_eq_zero fun e he => ?_
  rw [sum_congr rfl fun n _ => show (stoich x n : ℝ) * (lam e * (atoms k.formulas n e : ℝ))
    = lam e * ((stoich x n : ℝ) * (atoms k.formulas n e : ℝ)) by ring, ← mul_sum,
    balanced_sum (k_ok k x hx) (k_bal k x hx) (mem_range.1 he), mul_zero]

/-- **C83** An absent species is never consumed: if its mass fraction is zero and the others are not negative, its production
    rate is not negative. -/
theorem C83_absent_not_consumed (hr : 0 ≤ rho) (hT : 0 < T) (hRu : 0 < th.Ru) (hMW : ∀ n < k.mech.ns, 0 < th.MW n)
    (hY : ∀ n < k.mech.ns, 0 ≤ Y n) {n : ℕ} (hn : n < k.mech.ns) (h0 : Y n = 0) : 0 ≤ k.mech.rates th rho T Y n :=
  dYdt_nonneg (k_src k) (k_ok k) (k_pos k) th.MW (env_cs_nonneg hr hMW hY) (env_pref_pos hRu hT) hn (hMW n hn).le
    (by simp [envOf, concs, h0])

/-- **C83** Hence a short enough sub-step keeps every mass fraction nonnegative with sum one, so that the kernel's clipping
    does nothing there. -/
theorem C83_short_step (hr : 0 < rho) (hT : 0 < T) (hRu : 0 < th.Ru) (hMW : ∀ n < k.mech.ns, 0 < th.MW n) (W : ℕ → ℝ)
    (hW : ∀ n < k.mech.ns, th.MW n = ∑ e ∈ range 5, (atoms k.formulas n e : ℝ) * W e) (s : CSt) (hsT : s.T = T) :
    ∃ τ0 > 0, ∀ τ, 0 ≤ τ → τ ≤ τ0 → Simplex k.mech.ns (subStep th k.mech.ns (k.mech.rates th rho) rho τ s).Y := by
  have hns : 1 ≤ k.mech.ns := by cases k <;> decide
  -- replace the rates away from the temperature of the step by zero: the step does not see them
  let r : ℝ → (ℕ → ℝ) → ℕ → ℝ := fun T' Y' => if T' = T then k.mech.rates th rho T Y' else fun _ => 0
  have hsame : ∀ τ, subStep th k.mech.ns (k.mech.rates th rho) rho τ s = subStep th k.mech.ns r rho τ s := by
    intro τ
    have : r s.T = k.mech.rates th rho s.T := by simp only [r, hsT, if_true]
    simp only [subStep, this]
  obtain ⟨t, ht, h⟩ := C84_short_step (th := th) (rates := r) hns hr
    (fun T' Y' hS => by
      by_cases hT' : T' = T
      · simp only [r, if_pos hT']
        exact C81_mass k th rho T Y' (fun n hn => (hMW n hn).ne') W hW
      · simp only [r, if_neg hT', sum_const_zero])
    (fun T' Y' hS n hn h0 => by
      by_cases hT' : T' = T
      · simp only [r, if_pos hT']
        exact C83_absent_not_consumed hr.le hT hRu hMW hS.nonneg hn h0
      · simp only [r, if_neg hT', le_refl]) s
  exact ⟨t, ht, fun τ ha hb => by rw [hsame]; exact h τ ha hb⟩

/-- **C84** Element masses over any number of unclipped sub-steps of a tabulated kernel. -/
theorem C84_elements (hMW : ∀ n < k.mech.ns, th.MW n ≠ 0) (W : ℕ → ℝ)
    (hW : ∀ n < k.mech.ns, th.MW n = ∑ e ∈ range 5, (atoms k.formulas n e : ℝ) * W e) {q : ℕ → ℝ}
    (hq : OkY k.mech.ns q) (τ : ℝ) (j : ℕ)
    (hnn : ∀ i < j, ∀ n < k.mech.ns, 0 ≤ (euler th k.mech.ns (k.mech.rates th rho) rho τ T q (i+1)).Y n) {e : ℕ} (he : e < 5) :
    ∑ n ∈ range k.mech.ns, (atoms k.formulas n e : ℝ) / th.MW n
        * clipAll k.mech.ns (euler th k.mech.ns (k.mech.rates th rho) rho τ T q j).Y n
      = ∑ n ∈ range k.mech.ns, (atoms k.formulas n e : ℝ) / th.MW n * fullY k.mech.ns q n := by
  have hns : 1 ≤ k.mech.ns := by cases k <;> decide
  refine C84_invariant hns _ (fun T Y _ => C81_mass k th rho T Y hMW W hW) (fun T Y _ => ?_) hq τ j hnn
  rw [← C81_elements k th rho T Y hMW he]
  exact sum_congr rfl fun n _ => by ring

/-! ### fall-off -/

theorem third_body_pos {e : Eff} (he : e.Strict) (hr : 0 < rho) (hMW : ∀ n < k.mech.ns, 0 < th.MW n)
    (hY : Simplex k.mech.ns Y) : 0 < e.val k.mech.ns (envOf th T rho Y).cs := by
  cases e with
  | only n => exact absurd he (by simp [Eff.Strict])
  | all l =>
    have hco : ∀ n, 0 < coef l n := by
      intro n
      unfold coef
      cases hl : l.lookup n with
      | none => exact Dec.val_pos (by simp)
      | some d => exact Dec.val_pos (he _ (lookup_mem hl))
    have := simplex_pos (f := fun n => coef l n * rho / th.MW n) hY
      (fun n hn => div_pos (mul_pos (hco n) hr) (hMW n hn))
    refine lt_of_lt_of_eq this (sum_congr rfl fun n _ => ?_)
    simp only [envOf, concs]; ring

/-- **C85** Lindemann fall-off: the effective constant is the harmonic combination `k∞ k0[M] / (k∞ + k0[M])` of the two limits,
    so it is below both. -/
theorem C85_lindemann (hr : 0 < rho) (hMW : ∀ n < k.mech.ns, 0 < th.MW n) (hY : Simplex k.mech.ns Y) (x : Rxn)
    (hx : x ∈ k.mech.rxns) {e : Eff} {k0 : Arr} (hm : x.mod = .lind e k0) :
    let M := e.val k.mech.ns (envOf th T rho Y).cs
    0 < M ∧ x.kf k.mech.ns (envOf th T rho Y) = x.k.val T * (k0.val T * M) / (x.k.val T + k0.val T * M) ∧
    x.kf k.mech.ns (envOf th T rho Y) < x.k.val T ∧ x.kf k.mech.ns (envOf th T rho Y) < k0.val T * M := by
  intro M
  have hf := k_fall k x hx
  have hp := k_pos k x hx
  rw [hm] at hf
  rw [Rxn.Pos, hm] at hp
  have hM : 0 < M := third_body_pos hf hr hMW hY
  have hk : 0 < x.k.val T := Arr.val_pos hp.1 T
  have h0 : 0 < k0.val T := Arr.val_pos hp.2.2 T
  have heq : x.kf k.mech.ns (envOf th T rho Y) = x.k.val T * (k0.val T * M) / (x.k.val T + k0.val T * M) := by
    unfold Rxn.kf
    rw [hm]
    simp only [Mod.val]
    rw [show (envOf th T rho Y).T = T from rfl, show e.val k.mech.ns (envOf th T rho Y).cs = M from rfl]
    field_simp
  have hkM := mul_pos h0 hM
  refine ⟨hM, heq, ?_, ?_⟩
  · rw [heq, div_lt_iff₀ (by linarith)]; nlinarith
  · rw [heq, div_lt_iff₀ (by linarith)]; nlinarith

/-- **C85** Troe fall-off: the logarithms in the formula get positive arguments (third-body concentration and `Fcent` are
    positive), and the effective constant is the Lindemann value times a factor between 1 and `Fcent`. -/
theorem C85_troe (hr : 0 < rho) (hT : 0 < T) (hMW : ∀ n < k.mech.ns, 0 < th.MW n) (hY : Simplex k.mech.ns Y) (x : Rxn)
    (hx : x ∈ k.mech.rxns) {e : Eff} {k0 : Arr} {a T3 T1 T2 : Dec} (hm : x.mod = .troe e k0 a T3 T1 T2) :
    let M := e.val k.mech.ns (envOf th T rho Y).cs
    let Fc := fcent a.val T3.val T1.val T2.val T
    0 < M ∧ 0 < Fc ∧ ∃ F, min 1 Fc ≤ F ∧ F ≤ max 1 Fc ∧
      x.kf k.mech.ns (envOf th T rho Y) = x.k.val T * (k0.val T * M) / (x.k.val T + k0.val T * M) * F := by
  intro M Fc
  have hf := k_fall k x hx
  have hp := k_pos k x hx
  rw [hm] at hf
  rw [Rxn.Pos, hm] at hp
  have hM : 0 < M := third_body_pos hf.1 hr hMW hY
  have hk : 0 < x.k.val T := Arr.val_pos hp.1 T
  have h0 : 0 < k0.val T := Arr.val_pos hp.2.2 T
  have hFc : 0 < Fc := fcent_pos hf.2 hT
  have hkM := mul_pos h0 hM
  refine ⟨hM, hFc, fpdr Fc (M * k0.val T / x.k.val T), (fpdr_bounds hFc).1, (fpdr_bounds hFc).2, ?_⟩
  unfold Rxn.kf
  rw [hm]
  simp only [Mod.val]
  rw [show (envOf th T rho Y).T = T from rfl, show e.val k.mech.ns (envOf th T rho Y).cs = M from rfl,
    show fcent a.val T3.val T1.val T2.val T = Fc from rfl]
  generalize fpdr Fc (M * k0.val T / x.k.val T) = F
  field_simp

end

/-! ### the hypotheses can be met -/

/-- weights from the formulas with unit atomic weights, `Ru = 8`, zero NASA coefficients -/
def exThK (k : Kernel) : Th :=
  ⟨k.mech.ns, 8, fun n => ∑ e ∈ range 5, (atoms k.formulas n e : ℝ) * 1, fun _ => 0, fun _ _ => 0⟩

theorem atoms_pos (k : Kernel) : ∀ n < k.mech.ns, 0 < ∑ e ∈ range 5, atoms k.formulas n e := by
  cases k <;> decide +kernel

example (k : Kernel) : 0 < (exThK k).Ru ∧ (∀ n < k.mech.ns, 0 < (exThK k).MW n) ∧
    (∀ n < k.mech.ns, (exThK k).MW n = ∑ e ∈ range 5, (atoms k.formulas n e : ℝ) * 1) := by
  refine ⟨by norm_num [exThK], fun n hn => ?_, fun n _ => rfl⟩
  have := atoms_pos k n hn
  simp only [exThK, mul_one]
  exact_mod_cast this

/-- reversible, irreversible, Lindemann and Troe reactions exist in the tables -/
example : (∃ x ∈ GRI30.mech.rxns, x.rev = true) ∧ (∃ x ∈ GRI30.mech.rxns, x.rev = false) ∧
    (∃ x ∈ FFCMY.mech.rxns, x.rev = false) := by
  refine ⟨?_, ?_, ?_⟩ <;> decide +kernel
example : ∃ x ∈ FFCMY.mech.rxns, ∃ e k0 a T3 T1 T2, x.mod = .troe e k0 a T3 T1 T2 :=
  ⟨FFCMY.rx0[9], by decide +kernel, _, _, _, _, _, _, rfl⟩

end PG.Chem
