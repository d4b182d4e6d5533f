import Verif.Trans.Mix
/-!
C77/C78: the dense-gas model `chungDenseGasUnityLewis.cpp`, the pure-species branch of kineticTheory and the viscosity of
kineticTheoryUnityLewis.
-/
noncomputable section
namespace PG.Trans
open Finset

/-- species data of the dense-gas model (thtrdat_.hpp: Tcrit, Vcrit, acentric, redDipole, chungA, chungB, Ru) -/
structure ChungTab where
  Ru : ℝ
  Tcrit : ℕ → ℝ
  Vcrit : ℕ → ℝ
  acentric : ℕ → ℝ
  redDipole : ℕ → ℝ
  chungA : ℕ → ℕ → ℝ
  chungB : ℕ → ℕ → ℝ

/-- `G1`, `G2`, `H2` share their form, chungDenseGasUnityLewis.cpp:121-125, 165-167 -/
def denseG (a1 a2 a3 a4 a5 Yy : ℝ) : ℝ :=
  let G1 := (1 - 0.5 * Yy) / (1 - Yy) ^ 3
  (a1 * (1 - Real.exp (-a4 * Yy)) / Yy + a2 * G1 * Real.exp (a5 * Yy) + a3 * G1) / (a1 * a4 + a2 + a3)

/-- molar critical volume in cm^3/mol, chungDenseGasUnityLewis.cpp:95 -/
def chungVc (tb : Tab) (ct : ChungTab) (n : ℕ) : ℝ := ct.Vcrit n * tb.MW n * 1000
/-- `Omegav`, lines 98-102 -/
def chungOmega (ct : ChungTab) (T : ℝ) (n : ℕ) : ℝ :=
  let Tstar := 1.2593 * (T / ct.Tcrit n)
  1.16145 * Tstar ^ (-(0.14874:ℝ)) + 0.52487 * Real.exp (-0.77320 * Tstar) + 2.16178 * Real.exp (-2.43787 * Tstar)
/-- `Fc`, lines 104-105 -/
def chungFc (ct : ChungTab) (n : ℕ) : ℝ := 1 - 0.2756 * ct.acentric n + 0.059035 * ct.redDipole n ^ 4
/-- `Yy`, lines 119-120 -/
def chungYy (tb : Tab) (ct : ChungTab) (rho : ℝ) (n : ℕ) : ℝ := rho / tb.MW n * (1 / 1000) * chungVc tb ct n / 6

/-- species viscosity, chungDenseGasUnityLewis.cpp:85-135 -/
def chungMu (tb : Tab) (ct : ChungTab) (T rho : ℝ) (n : ℕ) : ℝ :=
  let A := ct.chungA n
  let Vc := chungVc tb ct n
  let Tstar := 1.2593 * (T / ct.Tcrit n)
  let Yy := chungYy tb ct rho n
  let G2 := denseG (A 0) (A 1) (A 2) (A 3) (A 4) Yy
  let etaSS := A 6 * Yy ^ 2 * G2 * Real.exp (A 7 + A 8 / Tstar + A 9 * Tstar ^ (-(2:ℝ)))
  let etaS := Real.sqrt Tstar / chungOmega ct T n * (chungFc ct n / G2 + A 5 * Yy) + etaSS
  etaS * 36.344 * Real.sqrt (tb.MW n * ct.Tcrit n) / Vc ^ (2 / 3 : ℝ) * (1 / 10000000)

/-- species conductivity, chungDenseGasUnityLewis.cpp:137-177; `gam = qh(0)`, `cp = qh(1)` -/
def chungKappa (tb : Tab) (ct : ChungTab) (T rho gam cp : ℝ) (n : ℕ) : ℝ :=
  let B := ct.chungB n
  let Vc := chungVc tb ct n
  let Tr := T / ct.Tcrit n
  let Yy := chungYy tb ct rho n
  let alpha := cp * 0.001 * tb.MW n / gam / (ct.Ru / 1000) - 1.5
  let beta := 0.7862 - 0.7109 * ct.acentric n + 1.3168 * ct.acentric n ^ 2
  let eta0 := 0.000040785 * Real.sqrt (tb.MW n * T) / (Vc ^ (2 / 3 : ℝ) * chungOmega ct T n) * chungFc ct n
  let Z := 2 + 10.5 * Tr ^ 2
  let Psi := 1 + alpha * ((0.215 + 0.28288 * alpha - 1.061 * beta + 0.26665 * Z) / (0.6366 + beta * Z + 1.061 * alpha * beta))
  let lambda0 := 7.452 * eta0 / tb.MW n * Psi
  let H2 := denseG (B 0) (B 1) (B 2) (B 3) (B 4) Yy
  let lambdak := lambda0 * (1 / H2 + B 5 * Yy)
  let lambdap := 0.0003039 * Real.sqrt (ct.Tcrit n / tb.MW n) / Vc ^ (2 / 3 : ℝ) * B 6 * Yy ^ 2 * H2 * Real.sqrt Tr
  (lambdak + lambdap) * 418.68

/-- chungDenseGasUnityLewis.cpp:68-74: the last mass fraction is clamped at zero -/
def fillYClamp (tb : Tab) (c : TrIn) (s : Scr) : Scr :=
  { s with Y := fun n => if n < tb.ns - 1 then c.Y n
                         else if n = tb.ns - 1 then max 0 (1 - ∑ m ∈ range (tb.ns - 1), c.Y m) else s.Y n }

/-- chungDenseGasUnityLewis.cpp:53-217, one cell; `gam c` is `qh(0)` of the cell -/
def chungStep (tb : Tab) (ct : ChungTab) (gam : TrIn → ℝ) (s : Scr) (c : TrIn) : Scr × TrOut :=
  let s2 := fillX tb (fillYClamp tb c s)
  let s3 := { s2 with
    muSp := fun n => if n < tb.ns then chungMu tb ct c.T c.rho n else s2.muSp n
    kappaSp := fun n => if n < tb.ns then chungKappa tb ct c.T c.rho (gam c) c.cp n else s2.kappaSp n }
  let kappa := kMix tb.ns s3.kappaSp s3.X
  (s3, ⟨wilke tb.ns tb.MW s3.muSp s3.X, kappa, fun _ => kappa / (c.rho * c.cp)⟩)

/-- clamped composition -/
def clampIn (ns : ℕ) (c : TrIn) (n : ℕ) : ℝ := if n < ns - 1 then c.Y n else max 0 (1 - ∑ m ∈ range (ns - 1), c.Y m)

/-- what the dense-gas model should give: the Wilke and mean-conductivity mixture of the species correlations -/
def chungSpec (tb : Tab) (ct : ChungTab) (gam : TrIn → ℝ) (c : TrIn) : TrOut :=
  let X := fun n => clampIn tb.ns c n / tb.MW n / ∑ m ∈ range tb.ns, clampIn tb.ns c m / tb.MW m
  let K := chungKappa tb ct c.T c.rho (gam c) c.cp
  let k := (∑ n ∈ range tb.ns, X n * K n + 1 / ∑ n ∈ range tb.ns, X n / K n) / 2
  ⟨wilke tb.ns tb.MW (chungMu tb ct c.T c.rho) X, k, fun _ => k / (c.rho * c.cp)⟩

/-- C77: the dense-gas model gives every cell a result that is a function of its own state, for every distribution of cells
    over workers, every order and any scratch content. -/
theorem C77_chung (tb : Tab) (hns : 1 ≤ tb.ns) (ct : ChungTab) (gam : TrIn → ℝ) :
    StateOnly tb.ns (chungStep tb ct gam) (chungSpec tb ct gam) := by
  refine stateOnly_of_step fun s c => ?_
  have hY : ∀ n < tb.ns, (fillYClamp tb c s).Y n = clampIn tb.ns c n := fun n hn => by
    unfold fillYClamp clampIn
    dsimp only
    split
    · rfl
    · rw [if_pos (by omega)]
  have hmass : mass tb (fillYClamp tb c s) = ∑ m ∈ range tb.ns, clampIn tb.ns c m / tb.MW m :=
    sum_congr rfl fun n hn => by rw [hY n (mem_range.1 hn)]
  have hX : ∀ n < tb.ns, (chungStep tb ct gam s c).1.X n =
      clampIn tb.ns c n / tb.MW n / ∑ m ∈ range tb.ns, clampIn tb.ns c m / tb.MW m := fun n hn => by
    unfold chungStep fillX
    dsimp only
    rw [if_pos hn, hmass, hY n hn]
  have hm : ∀ n < tb.ns, (chungStep tb ct gam s c).1.muSp n = chungMu tb ct c.T c.rho n := fun n hn => by
    unfold chungStep; dsimp only; rw [if_pos hn]
  have hkp : ∀ n < tb.ns, (chungStep tb ct gam s c).1.kappaSp n = chungKappa tb ct c.T c.rho (gam c) c.cp n := fun n hn => by
    unfold chungStep; dsimp only; rw [if_pos hn]
  have hk : (chungStep tb ct gam s c).2.kappa = (chungSpec tb ct gam c).kappa := kMix_congr hkp hX
  refine ⟨wilke_congr hm hX, hk, fun n _ => ?_⟩
  show (chungStep tb ct gam s c).2.kappa / _ = (chungSpec tb ct gam c).kappa / _
  rw [hk]

/-! ### pure species in kineticTheory -/

theorem pure_first (tb : Tab) (hns : tb.ns = 2) (hM : 0 < tb.MW 0) (c : TrIn) (h : PureComp 2 c 0) (s : Scr) :
    pureIdx tb (fillY tb c s) = some 0 := by
  have hX : (fillY tb c s).Y 0 / tb.MW 0 / mass tb (fillY tb c s) = 1 := by
    rw [fillY_eq tb (by omega) c s 0 (by omega), mass_eq tb (by omega)]
    have := moleFrac_pure (MW := tb.MW) hM.ne' h 0 (by norm_num)
    rw [if_pos rfl] at this
    unfold moleFrac at this
    rw [hns]; exact this
  unfold pureIdx
  rw [hns, show List.range 2 = [0, 1] by decide, List.find?_cons_of_pos]
  simpa using hX

/-- conductivity computed for a cell of pure first species: the second mole fraction is whatever the scratch held -/
theorem pure_kappa (tb : Tab) (hns : tb.ns = 2) (hM : 0 < tb.MW 0) (c : TrIn) (h : PureComp 2 c 0) (junk : Scr) :
    (kinStep tb junk.nscompile c).2.kappa =
      (fitKappa tb c.T 0 + junk.X 1 * fitKappa tb c.T 1 + 1 / (1 / fitKappa tb c.T 0 + junk.X 1 / fitKappa tb c.T 1)) / 2 := by
  have hp := pure_first tb hns hM c h junk.nscompile
  have e2 : ∀ n < tb.ns, (kinStep tb junk.nscompile c).1.kappaSp n = fitKappa tb c.T n := fun n hn => by
    unfold kinStep
    dsimp only
    rw [(fillD_other _ _ _ _).2.1]
    unfold fillSpecies
    dsimp only
    rw [if_pos hn, (fillXBreak_other _ _).2.1]
    show (0 + poly (tb.kappaPoly n) c.T) * _ = _
    unfold fitKappa poly; ring
  have e3 : ∀ n < tb.ns, (kinStep tb junk.nscompile c).1.X n = if n = 0 then 1 else junk.X 1 := fun n hn => by
    unfold kinStep
    dsimp only
    rw [(fillD_other _ _ _ _).2.2]
    unfold fillSpecies fillXBreak
    rw [hp]
    dsimp only
    by_cases h0 : n = 0
    · subst h0
      rw [if_pos le_rfl, if_pos rfl, fillY_eq tb (by omega) c _ 0 (by omega), mass_eq tb (by omega)]
      have := moleFrac_pure (MW := tb.MW) hM.ne' h 0 (by norm_num)
      rw [if_pos rfl] at this
      unfold moleFrac at this
      rw [hns]; exact this
    · have h1 : n = 1 := by omega
      subst h1
      rw [if_neg (by omega), if_neg h0]; rfl
  have : (kinStep tb junk.nscompile c).2.kappa = _ := kMix_congr e2 e3
  rw [this, hns]
  simp [sum_range_succ]

/-- C77, violated (NSCOMPILE build): in a cell of pure first species the remaining mole fractions are never written, so the
    conductivity depends on what the stack held; for every two-species gas with positive fits there are two stack contents
    with different results. -/
theorem C77_pure_violated (tb : Tab) (hns : tb.ns = 2) (hM : 0 < tb.MW 0) (c : TrIn) (h : PureComp 2 c 0)
    (h0 : 0 < fitKappa tb c.T 0) (h1 : 0 < fitKappa tb c.T 1) :
    ∃ junk junk' : Scr, (kinStep tb junk.nscompile c).2.kappa ≠ (kinStep tb junk'.nscompile c).2.kappa := by
  set k0 := fitKappa tb c.T 0 with hk0
  set k1 := fitKappa tb c.T 1 with hk1
  refine ⟨Scr.zero, { Scr.zero with X := fun _ => 2 * k0 / k1 }, ?_⟩
  rw [pure_kappa tb hns hM c h, pure_kappa tb hns hM c h, ← hk0, ← hk1]
  have hz : Scr.zero.X 1 = 0 := rfl
  rw [hz]
  dsimp only
  have e1 : (k0 + 0 * k1 + 1 / (1 / k0 + 0 / k1)) / 2 = k0 := by simp
  have hq : 0 < 1 / (1 / k0 + 2 * k0 / k1 / k1) := by positivity
  have e2 : 2 * k0 / k1 * k1 = 2 * k0 := by field_simp
  rw [e1, e2]
  intro e
  linarith

/-! ### viscosity of kineticTheoryUnityLewis -/

/-- C78, violated: for a single-species gas, kineticTheoryUnityLewis returns `√T P(ln T)` although the table holds the fit of
    `√(μ/√T)`, i.e. `μ = √T P²` — which kineticTheory returns; the two agree only where `P` is 0 or 1. -/
theorem C78_unityLewis_violated (tb : Tab) (h1 : tb.ns = 1) (hMW : tb.MW 0 ≠ 0) (junk : Scr) (c : TrIn) (hT : 0 < c.T)
    (hP0 : poly (tb.muPoly 0) c.T ≠ 0) (hP1 : poly (tb.muPoly 0) c.T ≠ 1) :
    (kinStep tb junk.nscompile c).2.mu = fitMu tb c.T 0 ∧ (kinULStep tb junk.nscompile c).2.mu ≠ fitMu tb c.T 0 := by
  have hns : 1 ≤ tb.ns := by omega
  have hX0 := moleFrac_one h1 hMW c
  have hX : ∀ n < tb.ns, moleFrac tb.ns tb.MW c n = if n = 0 then 1 else 0 := fun n hn => by
    have : n = 0 := by omega
    subst this; rw [hX0, if_pos rfl]
  have hs : Real.sqrt c.T ≠ 0 := (Real.sqrt_pos.2 hT).ne'
  have hfit : fitMu tb c.T 0 = Real.sqrt c.T * poly (tb.muPoly 0) c.T ^ 2 := rfl
  have hfit0 : fitMu tb c.T 0 ≠ 0 := by rw [hfit]; exact mul_ne_zero hs (pow_ne_zero 2 hP0)
  constructor
  · rw [(C77_kinetic_partial tb hns junk c (fun n hn => by omega)).1]
    exact (mix_pure (k := fun _ => 1) (by omega) hMW hfit0 hX).1
  · have e1 : (kinULStep tb junk.nscompile c).1.muSp 0 = poly (tb.muPoly 0) c.T * Real.sqrt c.T := by
      unfold kinULStep fillSpeciesUL; dsimp only; rw [if_pos (by omega), sqrt_eq_exp hT]
      show (0 + _) * _ = _
      rw [zero_add]
    have e2 : ∀ n < tb.ns, (kinULStep tb junk.nscompile c).1.X n = if n = 0 then 1 else 0 := fun n hn =>
      (fillX_eq tb hns c junk.nscompile n hn).trans (hX n hn)
    have e3 : (kinULStep tb junk.nscompile c).2.mu = _ :=
      (mix_pure (MW := tb.MW) (mu := (kinULStep tb junk.nscompile c).1.muSp) (k := fun _ => 1) (m := 0) (by omega) hMW
        (by rw [e1]; exact mul_ne_zero hP0 hs) e2).1
    rw [e3, e1, hfit]
    intro e
    have h2 : Real.sqrt c.T * poly (tb.muPoly 0) c.T * (poly (tb.muPoly 0) c.T - 1) = 0 := by linear_combination -e
    rcases mul_eq_zero.1 h2 with h3 | h3
    · exact (mul_ne_zero hs hP0) h3
    · exact hP1 (by linarith)

/-! ### the hypotheses are met -/

/-- a two-species table with air-like numbers -/
def exTab (ns : ℕ) : Tab := ⟨ns, fun n => if n = 0 then 28 else 32, fun _ => 1/50000, fun n => if n = 0 then 1/40 else 1/30,
  fun _ i => if i = 0 then 1/1000 else 0, fun _ i => if i = 0 then 1/700 else 0, fun _ i => if i = 0 then 1 else 0⟩
/-- a cell at 300 K, first mass fraction `y` -/
def exCell (y : ℝ) : TrIn := ⟨101325, 300, fun n => if n = 0 then y else 0, 1, 1000⟩

example : Admissible 2 (exCell (1/4)) ∧ (∀ n < 2, 0 < (exTab 2).MW n) :=
  ⟨⟨fun n hn => by have : n = 0 := by omega
                   subst this; norm_num [exCell], by norm_num [exCell]⟩, fun n _ => by unfold exTab; dsimp; split <;> norm_num⟩

example : PureComp 2 (exCell 1) 0 := ⟨by norm_num, fun n hn => by
  have : n = 0 ∨ n = 1 := by omega
  rcases this with rfl | rfl <;> norm_num [massFrac, exCell]⟩

example : 0 < fitKappa (exTab 2) (exCell 1).T 0 ∧ 0 < fitKappa (exTab 2) (exCell 1).T 1 := by
  constructor <;> simp [fitKappa, exTab, exCell]

example : poly ((exTab 1).muPoly 0) (exCell 1).T ≠ 0 ∧ poly ((exTab 1).muPoly 0) (exCell 1).T ≠ 1 := by
  simp [poly, exTab]

example : NotPure 2 (exTab 2).MW (exCell (1/4)) := fun n hn => by
  have : n = 0 := by omega
  subst this
  norm_num [moleFrac, massFrac, exTab, exCell, sum_range_succ]

end PG.Trans
