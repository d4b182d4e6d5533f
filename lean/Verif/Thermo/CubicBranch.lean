import Verif.Thermo.CubicDeriv
import Mathlib.Analysis.Calculus.ImplicitFunction.ProdDomain
import Mathlib.Analysis.Calculus.ContDiff.Operations
import Mathlib.Analysis.Calculus.ContDiff.RCLike
import Mathlib.Analysis.SpecialFunctions.Sqrt

/-! C67, continued: the differentiable branch of roots assumed in `CubicDeriv` exists at every simple root, so the
derivative formulas hold without assuming it. -/
noncomputable section
namespace PG.Thermo
open Finset Topology

variable {th : ThC}

/-- at a simple root of the cubic, the root continues as a differentiable function of the parameter -/
theorem root_branch {A B : ℝ → ℝ} {s Z0 : ℝ} (hA : ContDiffAt ℝ 1 A s) (hB : ContDiffAt ℝ 1 B s)
    (h0 : prCubic (A s) (B s) Z0 = 0) (hd : 3 * Z0^2 + 2 * Z0 * z2 (B s) + z1 (A s) (B s) ≠ 0) :
    ∃ Z : ℝ → ℝ, ∃ dZ' : ℝ, Z s = Z0 ∧ HasDerivAt Z dZ' s ∧ ∀ᶠ t in 𝓝 s, prCubic (A t) (B t) (Z t) = 0 := by
  set F : ℝ × ℝ → ℝ := fun v => prCubic (A v.1) (B v.1) v.2 with hF
  have cA : ContDiffAt ℝ 1 (fun v : ℝ × ℝ => A v.1) (s, Z0) := ContDiffAt.comp (s, Z0) (g := A) hA contDiffAt_fst
  have cB : ContDiffAt ℝ 1 (fun v : ℝ × ℝ => B v.1) (s, Z0) := ContDiffAt.comp (s, Z0) (g := B) hB contDiffAt_fst
  have cF : ContDiffAt ℝ 1 F (s, Z0) := by
    rw [hF]; unfold prCubic
    have c2 : ContDiffAt ℝ 1 (fun v : ℝ × ℝ => v.2) (s, Z0) := contDiffAt_snd
    fun_prop
  have dF := cF.hasStrictFDerivAt one_ne_zero
  have hsec : HasDerivAt (fun z => F (s, z)) (3 * Z0^2 + 2 * Z0 * z2 (B s) + z1 (A s) (B s)) Z0 := by
    have d := (((hasDerivAt_id' Z0).pow 3).sub (((hasDerivAt_id' Z0).pow 2).const_mul (1 - B s))).add
      ((hasDerivAt_id' Z0).const_mul (A s - 3 * B s^2 - 2 * B s)) |>.sub_const (A s * B s - B s^2 - B s^3)
    refine (d.congr_of_eventuallyEq ?_).congr_deriv ?_
    · filter_upwards with z
      simp [hF, prCubic]
    · unfold z2 z1; push_cast; ring
  have hsec' : HasDerivAt (fun z => F (s, z)) (fderiv ℝ F (s, Z0) (0, 1)) Z0 := by
    have hc : HasDerivAt (fun z : ℝ => ((s, z) : ℝ × ℝ)) (0, 1) Z0 := (hasDerivAt_const Z0 s).prodMk (hasDerivAt_id' Z0)
    exact HasFDerivAt.comp_hasDerivAt Z0 (f := fun z : ℝ => ((s, z) : ℝ × ℝ)) (l := F) dF.hasFDerivAt hc
  have hval := hsec'.unique hsec
  have hinv : (fderiv ℝ F (s, Z0) ∘L .inr ℝ ℝ ℝ).IsInvertible := by
    have e : (fderiv ℝ F (s, Z0) ∘L .inr ℝ ℝ ℝ) =
        ((ContinuousLinearEquiv.smulLeft (R₁ := ℝ) (M₁ := ℝ) (Units.mk0 _ hd) : ℝ ≃L[ℝ] ℝ) : ℝ →L[ℝ] ℝ) := by
      ext
      simp [hval, Units.smul_def]
    rw [e]
    exact ⟨_, rfl⟩
  refine ⟨dF.implicitFunctionOfProdDomain hinv, _, ?_, (dF.hasStrictFDerivAt_implicitFunctionOfProdDomain hinv).hasFDerivAt.hasDerivAt, ?_⟩
  · exact (dF.eventually_apply_eq_iff_implicitFunctionOfProdDomain hinv).self_of_nhds.mp rfl
  · filter_upwards [dF.eventually_apply_implicitFunctionOfProdDomain hinv] with t ht
    exact ht.trans h0

theorem contDiff_coeffs (ht : th.Ok) (X : ℕ → ℝ) (p : ℝ) {T : ℝ} (hT : 0 < T) (hb : Branch th T) :
    ContDiffAt ℝ 1 (fun t => Astar th X p t) T ∧ ContDiffAt ℝ 1 (fun t => Bstar th X p t) T ∧
    (∀ x, ContDiffAt ℝ 1 (fun y => Astar th X y T) x ∧ ContDiffAt ℝ 1 (fun y => Bstar th X y T) x) := by
  have hR := ht.Ru
  have hRT : th.Ru * T ≠ 0 := (mul_pos hR hT).ne'
  refine ⟨?_, ?_, fun x => ⟨?_, ?_⟩⟩
  · have cG : ContDiffAt ℝ 1 (fun t => G th X t) T := by
      unfold G
      refine ContDiffAt.sum fun n hn => ?_
      have h2 := ht.Tcrit n (mem_range.1 hn)
      have : ContDiffAt ℝ 1 (fun t : ℝ => Real.sqrt (t / th.Tcrit n)) T :=
        ContDiffAt.sqrt (contDiffAt_id.div_const _) (div_pos hT h2).ne'
      unfold sq
      fun_prop
    have : ContDiffAt ℝ 1 (fun t => (G th X t)^2 * p / (th.Ru * t)^2) T := by
      refine ContDiffAt.div ((cG.pow 2).mul contDiffAt_const) ?_ (pow_ne_zero 2 hRT)
      fun_prop
    refine this.congr_of_eventuallyEq ?_
    filter_upwards [branch_nhds hb] with t hbt
    unfold Astar
    rw [am_eq ht X hbt]
  · unfold Bstar
    exact ContDiffAt.div contDiffAt_const (by fun_prop) hRT
  · unfold Astar; fun_prop
  · unfold Bstar; fun_prop

/-- C67: at every simple root of the cubic, the density the kernel stores has, along the branch of that root, exactly the
    pressure and temperature derivatives the kernel uses. -/
theorem C67_density_branch (ht : th.Ok) (X : ℕ → ℝ) {p T Z : ℝ} (hp : 0 < p) (hT : 0 < T) (hM : MWmix th X ≠ 0)
    (hb : Branch th T) (ha : am th X T ≠ 0) (hZ : Z ≠ 0)
    (h0 : prCubic (Astar th X p T) (Bstar th X p T) Z = 0)
    (hd : 3 * Z^2 + 2 * Z * z2 (Bstar th X p T) + z1 (Astar th X p T) (Bstar th X p T) ≠ 0) :
    ∃ Zp ZT : ℝ → ℝ, Zp p = Z ∧ ZT T = Z ∧
      (∀ᶠ x in 𝓝 p, prCubic (Astar th X x T) (Bstar th X x T) (Zp x) = 0) ∧
      (∀ᶠ t in 𝓝 T, prCubic (Astar th X p t) (Bstar th X p t) (ZT t) = 0) ∧
      HasDerivAt (fun x => rhoOf th X x T (Zp x)) (drhodp th X p T Z (rhoOf th X p T Z)) p ∧
      HasDerivAt (fun t => rhoOf th X p t (ZT t)) (drhodT th X p T Z (rhoOf th X p T Z)) T := by
  obtain ⟨cA, cB, cp⟩ := contDiff_coeffs ht X p hT hb
  obtain ⟨Zp, d1, e1, D1, r1⟩ := root_branch (cp p).1 (cp p).2 h0 hd
  obtain ⟨ZT, d2, e2, D2, r2⟩ := root_branch cA cB h0 hd
  obtain ⟨a, b⟩ := C67_density ht X hp hT hM hb ha D1 D2 e1 e2 hZ r1 r2 hd
  exact ⟨Zp, ZT, e1, e2, r1, r2, a, b⟩

/-- the simple-root condition in terms of `x = Z/B` -/
theorem den_ne {A B Z : ℝ} (hB : 0 < B) (hZB : B < Z) (h : prCubic A B Z = 0) (hd : 3 * Z^2 + 2 * Z * z2 B + z1 A B ≠ 0) :
    ((Z/B)^2 + 2 * (Z/B) + (-1))^2 - A / B * (2 * (Z/B) + 2) * (Z/B - 1)^2 ≠ 0 := by
  have hx := eos_x hB hZB h
  have e1 : Z = B * (Z / B) := by field_simp
  have eA : A = B * (A / B) := by field_simp
  have hx1 : 1 < Z / B := by rw [lt_div_iff₀ hB]; linarith
  set x := Z / B with hxd
  set A' := A / B with hA'd
  have hP : 0 < x^2 + 2*x + (-1) := by nlinarith
  intro hc
  apply hd
  clear_value x A'
  subst e1 eA
  have hx1' : x - 1 ≠ 0 := by linarith
  have hP' := hP.ne'
  have key : B * ((x - 1) * (x^2 + 2*x + (-1))) = (x^2 + 2*x + (-1)) - A' * (x - 1) := by
    clear hc hd h hZB hxd hA'd hB
    have hP2 : x^2 + 2*x - 1 ≠ 0 := by rw [sub_eq_add_neg]; exact hP'
    rw [hx, sub_mul]
    congr 1
    · field_simp
    · rw [mul_comm (x-1), ← mul_assoc, div_mul_cancel₀ _ hP']
  unfold z2 z1
  have : (x - 1) * (x^2 + 2*x + (-1)) * (3 * (B * x)^2 + 2 * (B * x) * (B - 1) + (B * A' - B * (3 * B + 2))) = 0 := by
    linear_combination B * hc + B * (x^2 + 2*x + (-1) + (x-1) * (2*x+2)) * key
  rcases mul_eq_zero.1 this with h' | h'
  · rcases mul_eq_zero.1 h' with h'' | h''
    · exact absurd h'' hx1'
    · exact absurd h'' hP'
  · linear_combination h'

/-- C67: at every simple root above the co-volume, the stored heat capacity is the temperature derivative, along the branch
    of that root, of the stored enthalpy. -/
theorem C67_cp_branch (ht : th.Ok) (X Y : ℕ → ℝ) {p T Z : ℝ} (hp : 0 < p) (hT : 0 < T) (hbm : 0 < bm th X) (hb : Branch th T)
    (ha : am th X T ≠ 0) (hsw : ∀ n < th.ns, T ≠ th.NASA7 n 0)
    (h0 : prCubic (Astar th X p T) (Bstar th X p T) Z = 0)
    (hd : 3 * Z^2 + 2 * Z * z2 (Bstar th X p T) + z1 (Astar th X p T) (Bstar th X p T) ≠ 0)
    (hZB : Bstar th X p T < Z) :
    ∃ Zf : ℝ → ℝ, Zf T = Z ∧ (∀ᶠ t in 𝓝 T, prCubic (Astar th X p t) (Bstar th X p t) (Zf t) = 0) ∧
      HasDerivAt (fun t => hC th X Y p t (Zf t)) (cpC th X Y p T Z) T := by
  obtain ⟨cA, cB, -⟩ := contDiff_coeffs ht X p hT hb
  obtain ⟨Zf, d2, e2, D2, r2⟩ := root_branch cA cB h0 hd
  have hR := ht.Ru
  have hBp : 0 < Bstar th X p T := by unfold Bstar; positivity
  have hAB : am th X T / (bm th X * th.Ru * T) = Astar th X p T / Bstar th X p T := by
    unfold Astar Bstar; field_simp
  have hden := den_ne hBp hZB h0 hd
  rw [← hAB] at hden
  have h := C67_cp ht X Y hp hT hbm hb ha hsw D2 r2 (by rw [e2]; exact hZB) (by rw [e2]; exact hden)
  rw [e2] at h
  exact ⟨Zf, e2, r2, h⟩

/-- a single species at its critical temperature and a tenth of its critical pressure meets the hypotheses of
    `C67_density_branch` and `C67_cp_branch` -/
example : ∃ Z, (exC 1).Ok ∧ (0:ℝ) < 0.1 ∧ MWmix (exC 1) (fun _ => 1) ≠ 0 ∧ 0 < bm (exC 1) (fun _ => 1) ∧ Branch (exC 1) 1 ∧
    am (exC 1) (fun _ => 1) 1 ≠ 0 ∧ (∀ n < (exC 1).ns, (1:ℝ) ≠ (exC 1).NASA7 n 0) ∧
    prCubic (Astar (exC 1) (fun _ => 1) 0.1 1) (Bstar (exC 1) (fun _ => 1) 0.1 1) Z = 0 ∧
    3 * Z^2 + 2 * Z * z2 (Bstar (exC 1) (fun _ => 1) 0.1 1) + z1 (Astar (exC 1) (fun _ => 1) 0.1 1) (Bstar (exC 1) (fun _ => 1) 0.1 1) ≠ 0 ∧
    Bstar (exC 1) (fun _ => 1) 0.1 1 < Z := by
  have hn : (exC 1).ns = 1 := rfl
  have hai : ai (exC 1) 1 0 = 0.457240 := by simp [ai, exC, aiConst]
  have ham : am (exC 1) (fun _ => 1) 1 = 0.457240 := by
    unfold am
    rw [hn, sum_range_one, sum_range_one, hai, Real.sqrt_mul_self (by norm_num)]; norm_num
  have hbm : bm (exC 1) (fun _ => 1) = 0.077796 := by
    unfold bm
    rw [hn, sum_range_one]
    norm_num [bi, biConst, exC]
  have hA : Astar (exC 1) (fun _ => 1) 0.1 1 = 0.045724 := by unfold Astar; rw [ham]; norm_num [exC]
  have hB : Bstar (exC 1) (fun _ => 1) 0.1 1 = 0.0077796 := by unfold Bstar; rw [hbm]; norm_num [exC]
  have hM : MWmix (exC 1) (fun _ => 1) = 1 := by unfold MWmix; rw [hn, sum_range_one]; norm_num [exC]
  rw [hA, hB, hM, hbm, ham]
  obtain ⟨Z, hZ, hz⟩ : ∃ Z ∈ Set.Icc (0.9:ℝ) 1, prCubic 0.045724 0.0077796 Z = 0 := by
    have := intermediate_value_Icc (show (0.9:ℝ) ≤ 1 by norm_num)
      (f := fun Z => prCubic 0.045724 0.0077796 Z) (by unfold prCubic; fun_prop)
    exact this ⟨by unfold prCubic; norm_num, by unfold prCubic; norm_num⟩
  refine ⟨Z, exC_ok 1, by norm_num, one_ne_zero, by norm_num, ?_, by norm_num, ?_, hz, ?_, ?_⟩
  · intro n _; simp [exC]
  · intro n _; simp [exC]
  · have h1 := hZ.1
    unfold z2 z1
    nlinarith
  · have h1 := hZ.1
    linarith

end PG.Thermo
