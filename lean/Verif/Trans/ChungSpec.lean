import Verif.Trans.Chung
/-!
C78: the species correlations of the dense-gas model against the published ones, and the Wilke factors of the mixture rule.

Reference formulas: T.-H. Chung, M. Ajlan, L. L. Lee, K. E. Starling, Ind. Eng. Chem. Res. 27 (1988) 671-679 (the source the
code names), without the association term `κ`, which the code drops on purpose. Densities in mol/cm³, volumes in cm³/mol,
viscosity in micropoise, conductivity in cal/(cm s K); `E1..E10`, `B1..B7` the ten and seven correlation constants.
-/
noncomputable section
namespace PG.Trans
open Finset

namespace Lit

/-- reduced density -/
def y (rhoMol Vc : ℝ) : ℝ := rhoMol * Vc / 6
/-- hard-sphere term -/
def G1 (y : ℝ) : ℝ := (1 - y / 2) / (1 - y) ^ 3
/-- density function, the same form for viscosity and conductivity -/
def G2 (E : ℕ → ℝ) (y : ℝ) : ℝ :=
  (E 1 * ((1 - Real.exp (-E 4 * y)) / y) + E 2 * G1 y * Real.exp (E 5 * y) + E 3 * G1 y) / (E 1 * E 4 + E 2 + E 3)
/-- reduced collision integral (Neufeld fit without the oscillating term) -/
def Omega (Ts : ℝ) : ℝ := 1.16145 / Ts ^ (0.14874 : ℝ) + 0.52487 / Real.exp (0.77320 * Ts) + 2.16178 / Real.exp (2.43787 * Ts)
/-- shape and polarity factor -/
def Fc (omega mur : ℝ) : ℝ := 1 - 0.2756 * omega + 0.059035 * mur ^ 4
/-- viscosity in micropoise, `Ts = 1.2593 T/Tc` -/
def viscosity (E : ℕ → ℝ) (M Tc Vc omega mur T rhoMol : ℝ) : ℝ :=
  let Ts := 1.2593 * T / Tc
  let y := y rhoMol Vc
  let ess := E 7 * y ^ 2 * G2 E y * Real.exp (E 8 + E 9 / Ts + E 10 / Ts ^ 2)
  let es := Real.sqrt Ts / Omega Ts * (Fc omega mur * (1 / G2 E y + E 6 * y)) + ess
  es * (36.344 * Real.sqrt (M * Tc) / Vc ^ (2/3 : ℝ))
/-- dilute-gas viscosity in poise -/
def eta0 (M Tc Vc omega mur T : ℝ) : ℝ :=
  0.000040785 * Real.sqrt (M * T) / (Vc ^ (2/3 : ℝ) * Omega (1.2593 * T / Tc)) * Fc omega mur
/-- Eucken-type factor; `cv` molar heat capacity divided by the gas constant -/
def Psi (cv omega Tr : ℝ) : ℝ :=
  let alpha := cv - 3 / 2
  let beta := 0.7862 - 0.7109 * omega + 1.3168 * omega ^ 2
  let Z := 2 + 10.5 * Tr ^ 2
  1 + alpha * ((0.215 + 0.28288 * alpha - 1.061 * beta + 0.26665 * Z) / (0.6366 + beta * Z + 1.061 * alpha * beta))
/-- conductivity in cal/(cm s K) -/
def conductivity (B : ℕ → ℝ) (M Tc Vc omega mur cv T rhoMol : ℝ) : ℝ :=
  let y := y rhoMol Vc
  7.452 * eta0 M Tc Vc omega mur T / M * Psi cv omega (T / Tc) * (1 / G2 B y + B 6 * y)
    + 0.0003039 * Real.sqrt (Tc / M) / Vc ^ (2/3 : ℝ) * B 7 * y ^ 2 * G2 B y * Real.sqrt (T / Tc)

end Lit

/-- `rho` in kg/m³, `Vcrit` in m³/kg, `MW` in kg/kmol: molar density in mol/cm³, molar volume in cm³/mol; the constants of
    species `n` numbered from 1 -/
def molDens (tb : Tab) (rho : ℝ) (n : ℕ) : ℝ := rho / tb.MW n / 1000
/-- critical molar volume -/
def molVc (tb : Tab) (ct : ChungTab) (n : ℕ) : ℝ := ct.Vcrit n * tb.MW n * 1000

theorem denseG_lit (E : ℕ → ℝ) (y : ℝ) : denseG (E 1) (E 2) (E 3) (E 4) (E 5) y = Lit.G2 E y := by
  unfold denseG Lit.G2 Lit.G1
  dsimp only
  rw [show (0.5 : ℝ) * y = y / 2 by norm_num; ring]
  ring

theorem omega_lit (ct : ChungTab) (T : ℝ) (n : ℕ) (h : 0 ≤ T / ct.Tcrit n) : chungOmega ct T n = Lit.Omega (1.2593 * T / ct.Tcrit n) := by
  unfold chungOmega Lit.Omega
  dsimp only
  rw [show 1.2593 * (T / ct.Tcrit n) = 1.2593 * T / ct.Tcrit n by ring, Real.rpow_neg (by rw [mul_div_assoc]; positivity),
    neg_mul, neg_mul, Real.exp_neg, Real.exp_neg]
  simp only [div_eq_mul_inv]

theorem y_lit (tb : Tab) (ct : ChungTab) (rho : ℝ) (n : ℕ) : chungYy tb ct rho n = Lit.y (molDens tb rho n) (molVc tb ct n) := by
  unfold chungYy Lit.y molDens molVc chungVc; ring

/-- C78 (dense gas, conductivity): the species conductivity used by the dense-gas model is the published correlation in
    W/(m K) (1 cal/(cm s K) = 418.68 W/(m K)), for every species table, state and constants. -/
theorem C78_chung_kappa (tb : Tab) (ct : ChungTab) (T rho gam cp : ℝ) (n : ℕ) (hT : 0 ≤ T / ct.Tcrit n) (B : ℕ → ℝ)
    (hB : ∀ m, B (m + 1) = ct.chungB n m) :
    chungKappa tb ct T rho gam cp n = 418.68 * Lit.conductivity B (tb.MW n) (ct.Tcrit n) (molVc tb ct n) (ct.acentric n)
      (ct.redDipole n) (cp * tb.MW n / gam / ct.Ru) T (molDens tb rho n) := by
  unfold chungKappa Lit.conductivity
  dsimp only
  rw [← hB 0, ← hB 1, ← hB 2, ← hB 3, ← hB 4, ← hB 5, ← hB 6, denseG_lit, omega_lit ct T n hT, y_lit]
  have ha : cp * 0.001 * tb.MW n / gam / (ct.Ru / 1000) - 1.5 = cp * tb.MW n / gam / ct.Ru - 3 / 2 := by
    rw [div_div_eq_mul_div]
    have : cp * 0.001 * tb.MW n / gam * 1000 = cp * tb.MW n / gam := by
      rw [show (0.001:ℝ) = 1/1000 by norm_num]; ring
    rw [this]; norm_num
  rw [ha]
  have hv : chungVc tb ct n = molVc tb ct n := rfl
  rw [hv]
  simp only [Lit.eta0, Lit.Psi, Lit.Fc, chungFc]
  ring

/-- C78 (dense gas, viscosity; partial): for a species with `Fc = 1` (no acentricity, no dipole) the species viscosity is the
    published correlation in Pa s (1 μP = 1e-7 Pa s). For other species the code multiplies only the first of the two terms by
    `Fc`; see `C78_chung_mu_violated`. -/
theorem C78_chung_mu_partial (tb : Tab) (ct : ChungTab) (T rho : ℝ) (n : ℕ) (hT : 0 ≤ T / ct.Tcrit n) (E : ℕ → ℝ)
    (hE : ∀ m, E (m + 1) = ct.chungA n m) (hF : Lit.Fc (ct.acentric n) (ct.redDipole n) = 1) :
    chungMu tb ct T rho n = Lit.viscosity E (tb.MW n) (ct.Tcrit n) (molVc tb ct n) (ct.acentric n) (ct.redDipole n) T
      (molDens tb rho n) / 10000000 := by
  have hF' : chungFc ct n = 1 := hF
  unfold chungMu Lit.viscosity
  dsimp only
  rw [← hE 0, ← hE 1, ← hE 2, ← hE 3, ← hE 4, ← hE 5, ← hE 6, ← hE 7, ← hE 8, ← hE 9, denseG_lit, omega_lit ct T n hT, y_lit, hF, hF']
  have hv : chungVc tb ct n = molVc tb ct n := rfl
  rw [hv, show 1.2593 * (T / ct.Tcrit n) = 1.2593 * T / ct.Tcrit n by ring, Real.rpow_neg (by rw [mul_div_assoc]; positivity),
    show (2:ℝ) = ((2:ℕ):ℝ) by norm_num, Real.rpow_natCast]
  push_cast
  ring

/-- the viscosity the code returns differs from the published one by the factor `Fc` missing on the `E6 y` term -/
theorem chung_mu_gap (tb : Tab) (ct : ChungTab) (T rho : ℝ) (n : ℕ) (hT : 0 ≤ T / ct.Tcrit n) (E : ℕ → ℝ)
    (hE : ∀ m, E (m + 1) = ct.chungA n m) :
    chungMu tb ct T rho n - Lit.viscosity E (tb.MW n) (ct.Tcrit n) (molVc tb ct n) (ct.acentric n) (ct.redDipole n) T
      (molDens tb rho n) / 10000000 =
    Real.sqrt (1.2593 * T / ct.Tcrit n) / Lit.Omega (1.2593 * T / ct.Tcrit n) * (1 - Lit.Fc (ct.acentric n) (ct.redDipole n)) *
      (E 6 * Lit.y (molDens tb rho n) (molVc tb ct n)) * (36.344 * Real.sqrt (tb.MW n * ct.Tcrit n) / molVc tb ct n ^ (2/3 : ℝ)) /
      10000000 := by
  unfold chungMu Lit.viscosity
  dsimp only
  rw [← hE 0, ← hE 1, ← hE 2, ← hE 3, ← hE 4, ← hE 5, ← hE 6, ← hE 7, ← hE 8, ← hE 9, denseG_lit, omega_lit ct T n hT, y_lit]
  have hv : chungVc tb ct n = molVc tb ct n := rfl
  have hF : chungFc ct n = Lit.Fc (ct.acentric n) (ct.redDipole n) := rfl
  rw [hv, hF, show 1.2593 * (T / ct.Tcrit n) = 1.2593 * T / ct.Tcrit n by ring,
    Real.rpow_neg (by rw [mul_div_assoc]; positivity),
    show (2:ℝ) = ((2:ℕ):ℝ) by norm_num, Real.rpow_natCast]
  push_cast
  ring

/-- C78, violated (dense gas, viscosity): for every species with `Fc ≠ 1` and every positive state in which the correction
    `E6 y` does not vanish, the viscosity differs from the published correlation. -/
theorem C78_chung_mu_violated (tb : Tab) (ct : ChungTab) (T rho : ℝ) (n : ℕ) (hT : 0 < T) (hTc : 0 < ct.Tcrit n)
    (hM : 0 < tb.MW n) (hV : 0 < ct.Vcrit n) (hr : 0 < rho) (E : ℕ → ℝ) (hE : ∀ m, E (m + 1) = ct.chungA n m) (h6 : E 6 ≠ 0)
    (hF : Lit.Fc (ct.acentric n) (ct.redDipole n) ≠ 1) :
    chungMu tb ct T rho n ≠ Lit.viscosity E (tb.MW n) (ct.Tcrit n) (molVc tb ct n) (ct.acentric n) (ct.redDipole n) T
      (molDens tb rho n) / 10000000 := by
  intro e
  have g := chung_mu_gap tb ct T rho n (div_pos hT hTc).le E hE
  rw [e, sub_self] at g
  have hVc : 0 < molVc tb ct n := by unfold molVc; positivity
  have hy : Lit.y (molDens tb rho n) (molVc tb ct n) ≠ 0 := by unfold Lit.y molDens; positivity
  have hO : Lit.Omega (1.2593 * T / ct.Tcrit n) ≠ 0 := by unfold Lit.Omega; positivity
  have hs : Real.sqrt (1.2593 * T / ct.Tcrit n) ≠ 0 := by positivity
  have hq : (36.344 * Real.sqrt (tb.MW n * ct.Tcrit n) / molVc tb ct n ^ (2/3 : ℝ)) ≠ 0 := by positivity
  refine (div_ne_zero ?_ (by norm_num)) g.symm
  exact mul_ne_zero (mul_ne_zero (mul_ne_zero (div_ne_zero hs hO) (sub_ne_zero.2 hF.symm)) (mul_ne_zero h6 hy)) hq

/-- a gas with acentricity 0.2: `Fc ≠ 1` -/
example : Lit.Fc 0.2 0 ≠ 1 := by norm_num [Lit.Fc]
example : Lit.Fc 0 0 = 1 := by norm_num [Lit.Fc]

/-! ### Wilke's rule -/

/-- Wilke's factor as published: `φ_ij = (1 + (μ_i/μ_j)^½ (M_j/M_i)^¼)² / (8 (1 + M_i/M_j))^½` -/
def wilkeFactor (MW mu : ℕ → ℝ) (i j : ℕ) : ℝ :=
  (1 + (mu i / mu j) ^ (1/2 : ℝ) * (MW j / MW i) ^ (1/4 : ℝ)) ^ 2 / (8 * (1 + MW i / MW j)) ^ (1/2 : ℝ)

theorem phi_wilke {MW mu : ℕ → ℝ} {i j : ℕ} (hi : 0 < MW i) (hj : 0 < MW j) (mi : 0 < mu i) (mj : 0 < mu j) :
    phi MW mu i j = wilkeFactor MW mu i j := by
  unfold phi wilkeFactor
  have q1 : 0 ≤ mu i / mu j := (div_pos mi mj).le
  have q2 : 0 ≤ MW j / MW i := (div_pos hj hi).le
  have q3 : (0:ℝ) ≤ 8 * (1 + MW i / MW j) := by positivity
  rw [Real.sqrt_mul q1, Real.sqrt_eq_rpow, Real.sqrt_eq_rpow (Real.sqrt _), Real.sqrt_eq_rpow (MW j / MW i), ← Real.rpow_mul q2,
    ← Real.sqrt_mul (by norm_num), Real.sqrt_eq_rpow]
  norm_num

/-- C78: constantProps applies Wilke's rule to the species viscosities and mole fractions, for every table, composition and
    scratch content. -/
theorem C78_wilke (tb : Tab) (hns : 1 ≤ tb.ns) (hMW : ∀ n < tb.ns, 0 < tb.MW n) (hmu : ∀ n < tb.ns, 0 < tb.mu0 n) (s : Scr)
    (c : TrIn) :
    (constStep tb s c).2.mu = ∑ i ∈ range tb.ns, moleFrac tb.ns tb.MW c i * tb.mu0 i /
      ∑ j ∈ range tb.ns, moleFrac tb.ns tb.MW c j * wilkeFactor tb.MW tb.mu0 i j := by
  have e : (constStep tb s c).2.mu = _ := wilke_congr (MW := tb.MW) (mu := tb.mu0) (fun _ _ => rfl) (fillX_eq tb hns c s)
  rw [e]
  unfold wilke
  refine sum_congr rfl fun i hi => ?_
  have hi := mem_range.1 hi
  rw [mul_comm]
  congr 1
  refine sum_congr rfl fun j hj => ?_
  have hj := mem_range.1 hj
  rw [phi_wilke (hMW i hi) (hMW j hj) (hmu i hi) (hmu j hj), mul_comm]

end PG.Trans
