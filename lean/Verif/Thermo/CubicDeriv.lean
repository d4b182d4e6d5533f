import Verif.Thermo.Cubic
import Verif.Thermo.Tpg
import Mathlib.Analysis.SpecialFunctions.Sqrt
import Mathlib.Analysis.SpecialFunctions.Log.Deriv
import Mathlib.Analysis.Calculus.Deriv.Comp

/-! C67: the derivatives hard-coded in the real-gas kernel are derivatives of the quantities it computes. -/
noncomputable section
namespace PG.Thermo
open Finset

variable {th : ThC}

/-- `1 + fω(1 - √(T/Tc)) > 0` for every species: the attraction term is on its decreasing branch -/
def Branch (th : ThC) (T : ℝ) : Prop := ∀ n < th.ns, 0 < 1 + fOmega th n * (1 - Real.sqrt (T / th.Tcrit n))

/-- `√a_n` -/
def sq (th : ThC) (T : ℝ) (n : ℕ) : ℝ :=
  Real.sqrt (aiConst / th.pcrit n) * (th.Ru * th.Tcrit n) * (1 + fOmega th n * (1 - Real.sqrt (T / th.Tcrit n)))

theorem sqrt_ai (ht : th.Ok) {T : ℝ} (hb : Branch th T) {n : ℕ} (hn : n < th.ns) :
    Real.sqrt (ai th T n) = sq th T n ∧ 0 < sq th T n := by
  have h1 := ht.Ru; have h2 := ht.Tcrit n hn; have h3 := ht.pcrit n hn; have h4 := hb n hn
  have hk : 0 < aiConst / th.pcrit n := div_pos (by norm_num [aiConst]) h3
  have hpos : 0 < sq th T n := by
    unfold sq; have := Real.sqrt_pos.2 hk; positivity
  refine ⟨?_, hpos⟩
  rw [Real.sqrt_eq_iff_mul_self_eq_of_pos hpos]
  unfold sq ai
  have := Real.mul_self_sqrt hk.le
  calc _ = (Real.sqrt (aiConst / th.pcrit n) * Real.sqrt (aiConst / th.pcrit n)) * ((th.Ru * th.Tcrit n)^2 *
      (1 + fOmega th n * (1 - Real.sqrt (T / th.Tcrit n)))^2) := by ring
    _ = _ := by rw [this]; ring

theorem ai_nonneg (ht : th.Ok) (T : ℝ) {n : ℕ} (hn : n < th.ns) : 0 ≤ ai th T n := by
  have h3 := ht.pcrit n hn
  unfold ai aiConst; positivity

/-- `Σ X √a` -/
def G (th : ThC) (X : ℕ → ℝ) (T : ℝ) : ℝ := ∑ n ∈ range th.ns, X n * sq th T n

/-- constant part of the derivative of `G` -/
def Hc (th : ThC) (X : ℕ → ℝ) : ℝ :=
  (-0.5 * th.Ru * Real.sqrt aiConst) * ∑ n ∈ range th.ns, X n * (fOmega th n * Real.sqrt (th.Tcrit n / th.pcrit n))

theorem am_eq (ht : th.Ok) (X : ℕ → ℝ) {T : ℝ} (hb : Branch th T) : am th X T = (G th X T)^2 := by
  unfold am G
  rw [pow_two, sum_mul_sum]
  refine sum_congr rfl fun n hn => sum_congr rfl fun m hm => ?_
  rw [Real.sqrt_mul (ai_nonneg ht T (mem_range.1 hn)), (sqrt_ai ht hb (mem_range.1 hn)).1, (sqrt_ai ht hb (mem_range.1 hm)).1]
  ring

theorem dam_eq (ht : th.Ok) (X : ℕ → ℝ) {T : ℝ} (hT : 0 < T) (hb : Branch th T) :
    dam th X T = 2 * G th X T * (Hc th X / Real.sqrt T) := by
  have e : ∑ n ∈ range th.ns, ∑ m ∈ range th.ns, X m * X n * 1 *
    (fOmega th m * Real.sqrt (ai th T n * th.Tcrit m / th.pcrit m)
      + fOmega th n * Real.sqrt (ai th T m * th.Tcrit n / th.pcrit n)) =
      2 * (G th X T * ∑ n ∈ range th.ns, X n * (fOmega th n * Real.sqrt (th.Tcrit n / th.pcrit n))) := by
    have t : ∀ n ∈ range th.ns, ∀ m ∈ range th.ns, X m * X n * 1 *
      (fOmega th m * Real.sqrt (ai th T n * th.Tcrit m / th.pcrit m)
        + fOmega th n * Real.sqrt (ai th T m * th.Tcrit n / th.pcrit n)) =
        (X n * sq th T n) * (X m * (fOmega th m * Real.sqrt (th.Tcrit m / th.pcrit m))) +
        (X m * sq th T m) * (X n * (fOmega th n * Real.sqrt (th.Tcrit n / th.pcrit n))) := by
      intro n hn m hm
      rw [mul_div_assoc, mul_div_assoc, Real.sqrt_mul (ai_nonneg ht T (mem_range.1 hn)),
        Real.sqrt_mul (ai_nonneg ht T (mem_range.1 hm)), (sqrt_ai ht hb (mem_range.1 hn)).1, (sqrt_ai ht hb (mem_range.1 hm)).1]
      ring
    rw [sum_congr rfl fun n hn => sum_congr rfl fun m hm => t n hn m hm]
    simp only [sum_add_distrib]
    have e1 : ∑ n ∈ range th.ns, ∑ m ∈ range th.ns, (X n * sq th T n) * (X m * (fOmega th m * Real.sqrt (th.Tcrit m / th.pcrit m)))
        = G th X T * ∑ n ∈ range th.ns, X n * (fOmega th n * Real.sqrt (th.Tcrit n / th.pcrit n)) := by
      unfold G; rw [sum_mul_sum]
    have e2 : ∑ n ∈ range th.ns, ∑ m ∈ range th.ns, (X m * sq th T m) * (X n * (fOmega th n * Real.sqrt (th.Tcrit n / th.pcrit n)))
        = G th X T * ∑ n ∈ range th.ns, X n * (fOmega th n * Real.sqrt (th.Tcrit n / th.pcrit n)) := by
      rw [sum_comm, ← e1]
    rw [e1, e2]; ring
  unfold dam
  rw [e, Hc, Real.sqrt_div (by norm_num [aiConst])]
  ring

theorem branch_nhds {T : ℝ} (hb : Branch th T) : ∀ᶠ t in nhds T, Branch th t := by
  have : ∀ n ∈ range th.ns, ∀ᶠ t in nhds T, 0 < 1 + fOmega th n * (1 - Real.sqrt (t / th.Tcrit n)) := by
    intro n hn
    have hc : ContinuousAt (fun t : ℝ => 1 + fOmega th n * (1 - Real.sqrt (t / th.Tcrit n))) T := by fun_prop
    exact hc.eventually (lt_mem_nhds (hb n (mem_range.1 hn)))
  filter_upwards [(range th.ns).eventually_all.2 this] with t ht n hn
  exact ht n (mem_range.2 hn)

theorem sq_deriv (ht : th.Ok) {T : ℝ} (hT : 0 < T) {n : ℕ} (hn : n < th.ns) :
    HasDerivAt (fun t => sq th t n) ((-0.5 * th.Ru * Real.sqrt aiConst) * (fOmega th n * Real.sqrt (th.Tcrit n / th.pcrit n)) / Real.sqrt T) T := by
  have h2 := ht.Tcrit n hn; have h3 := ht.pcrit n hn
  have hpos : T / th.Tcrit n ≠ 0 := (div_pos hT h2).ne'
  have d1 := ((((hasDerivAt_id' T).div_const (th.Tcrit n)).sqrt hpos).const_sub 1).const_mul (fOmega th n) |>.const_add 1
    |>.const_mul (Real.sqrt (aiConst / th.pcrit n) * (th.Ru * th.Tcrit n))
  refine d1.congr_deriv ?_
  have a0 : (0:ℝ) ≤ aiConst := by norm_num [aiConst]
  rw [Real.sqrt_div a0, Real.sqrt_div hT.le, Real.sqrt_div h2.le]
  have s1 : Real.sqrt (th.Tcrit n) ^ 2 = th.Tcrit n := Real.sq_sqrt h2.le
  have s2 := (Real.sqrt_pos.2 hT).ne'
  have s3 := (Real.sqrt_pos.2 h2).ne'
  have s4 := (Real.sqrt_pos.2 h3).ne'
  have h2' := h2.ne'
  field_simp
  ring

theorem G_deriv (ht : th.Ok) (X : ℕ → ℝ) {T : ℝ} (hT : 0 < T) : HasDerivAt (G th X) (Hc th X / Real.sqrt T) T := by
  have := HasDerivAt.sum (u := range th.ns) (A := fun n t => X n * sq th t n) (x := T)
    (fun n hn => (sq_deriv ht hT (mem_range.1 hn)).const_mul (X n))
  refine (this.congr_of_eventuallyEq ?_).congr_deriv ?_
  · filter_upwards with t; simp [G]
  · unfold Hc
    rw [mul_sum, sum_div]
    exact sum_congr rfl fun n _ => by ring

/-- C67: `dam` is the temperature derivative of the mixture attraction parameter `am`. -/
theorem C67_attraction (ht : th.Ok) (X : ℕ → ℝ) {T : ℝ} (hT : 0 < T) (hb : Branch th T) :
    HasDerivAt (am th X) (dam th X T) T := by
  have h1 := (G_deriv ht X hT).pow 2
  refine (h1.congr_of_eventuallyEq ?_).congr_deriv ?_
  · filter_upwards [branch_nhds hb] with t hbt; simp [am_eq ht X hbt]
  · rw [dam_eq ht X hT hb]; push_cast; ring

/-- second derivative of `am` -/
theorem dam_deriv (ht : th.Ok) {X : ℕ → ℝ} {T : ℝ} (hT : 0 < T) (hb : Branch th T) (ha : am th X T ≠ 0) :
    HasDerivAt (dam th X) ((dam th X T)^2 / (2 * am th X T) - dam th X T / (2 * T)) T := by
  have hs := Real.sqrt_pos.2 hT
  have d := ((G_deriv ht X hT).const_mul 2).mul (((hasDerivAt_id' T).sqrt hT.ne').inv hs.ne' |>.const_mul (Hc th X))
  refine (d.congr_of_eventuallyEq ?_).congr_deriv ?_
  · filter_upwards [branch_nhds hb, lt_mem_nhds hT] with t hbt ht0
    rw [dam_eq ht X ht0 hbt]; simp [div_eq_mul_inv]
  · rw [am_eq ht X hb] at ha ⊢
    have hg : G th X T ≠ 0 := fun h => ha (by rw [h]; ring)
    rw [dam_eq ht X hT hb]
    have s1 : Real.sqrt T ^ 2 = T := Real.sq_sqrt hT.le
    simp only [Pi.inv_apply]
    field_simp
    linear_combination (Hc th X * G th X T) * s1

/-- C67: temperature and pressure derivatives of the dimensionless attraction and co-volume. -/
theorem C67_Astar (ht : th.Ok) (X : ℕ → ℝ) (p : ℝ) {T : ℝ} (hT : 0 < T) (hb : Branch th T) (ha : am th X T ≠ 0) :
    HasDerivAt (fun t => Astar th X p t) (dAdT th X p T) T ∧ HasDerivAt (fun t => Bstar th X p t) (dBdT th X p T) T ∧
    (p ≠ 0 → HasDerivAt (fun x => Astar th X x T) (Astar th X p T / p) p ∧ HasDerivAt (fun x => Bstar th X x T) (Bstar th X p T / p) p) := by
  have hR := ht.Ru
  refine ⟨?_, ?_, fun hp => ⟨?_, ?_⟩⟩
  · have d := ((C67_attraction ht X hT hb).mul_const p).div (((hasDerivAt_id' T).const_mul th.Ru).pow 2) (pow_ne_zero 2 (mul_pos hR hT).ne')
    refine d.congr_deriv ?_
    unfold dAdT Astar
    simp only [Pi.pow_apply]
    field_simp
    ring
  · have d := ((hasDerivAt_const T (bm th X * p))).div ((hasDerivAt_id' T).const_mul th.Ru) (by positivity)
    refine d.congr_deriv ?_
    unfold dBdT Bstar
    field_simp
    ring
  · have d := ((hasDerivAt_id' p).const_mul (am th X T)).div_const ((th.Ru * T)^2)
    refine d.congr_deriv ?_
    unfold Astar; field_simp
  · have d := ((hasDerivAt_id' p).const_mul (bm th X)).div_const (th.Ru * T)
    refine d.congr_deriv ?_
    unfold Bstar; field_simp

/-- C67: along any differentiable curve of coefficients, a differentiable root of the cubic moves with the derivative the
    code computes (used with temperature and with pressure as parameter). -/
theorem C67_root_derivative {A B Z : ℝ → ℝ} {s dA dB dZ' : ℝ} (hA : HasDerivAt A dA s) (hB : HasDerivAt B dB s)
    (hZ : HasDerivAt Z dZ' s) (hroot : ∀ᶠ t in nhds s, prCubic (A t) (B t) (Z t) = 0)
    (hd : 3 * (Z s)^2 + 2 * Z s * z2 (B s) + z1 (A s) (B s) ≠ 0) : dZ' = dZ (A s) (B s) dA dB (Z s) := by
  have hB2 := hB.pow 2
  have hB3 := hB.pow 3
  have d := ((hZ.pow 3).sub ((hB.const_sub 1).mul (hZ.pow 2))).add
    (((hA.sub (hB2.const_mul 3)).sub (hB.const_mul 2)).mul hZ) |>.sub (((hA.mul hB).sub hB2).sub hB3)
  have e : (fun _ : ℝ => (0:ℝ)) =ᶠ[nhds s] (((Z ^ 3) - (fun t => 1 - B t) * (Z ^ 2)) + (((A - fun t => 3 * (B^2) t) - fun t => 2 * B t) * Z)) - ((A * B - B^2) - B^3) := by
    filter_upwards [hroot] with t h
    simp only [Pi.sub_apply, Pi.add_apply, Pi.mul_apply, Pi.pow_apply]
    rw [← h]; unfold prCubic; ring
  have h0 := (d.congr_of_eventuallyEq e).unique (hasDerivAt_const s (0:ℝ))
  simp only [Pi.sub_apply, Pi.pow_apply] at h0
  push_cast at h0
  unfold dZ
  simp only
  rw [eq_div_iff hd]
  unfold z2 z1
  linear_combination h0


/-- the density at compressibility `Z` -/
def rhoOf (th : ThC) (X : ℕ → ℝ) (p T Z : ℝ) : ℝ := p / (Z * (th.Ru / MWmix th X) * T)

/-- C67: the density derivatives used for the speed of sound are the derivatives of the stored density with respect to
    pressure and temperature along the root. -/
theorem C67_density (ht : th.Ok) (X : ℕ → ℝ) {p T : ℝ} (hp : 0 < p) (hT : 0 < T) (hM : MWmix th X ≠ 0) (hb : Branch th T)
    (ha : am th X T ≠ 0) {Zp ZT : ℝ → ℝ} {dp dT Z : ℝ} (hZp : HasDerivAt Zp dp p) (hZT : HasDerivAt ZT dT T)
    (h1 : Zp p = Z) (h2 : ZT T = Z) (hZ : Z ≠ 0)
    (r1 : ∀ᶠ x in nhds p, prCubic (Astar th X x T) (Bstar th X x T) (Zp x) = 0)
    (r2 : ∀ᶠ t in nhds T, prCubic (Astar th X p t) (Bstar th X p t) (ZT t) = 0)
    (hd : 3 * Z^2 + 2 * Z * z2 (Bstar th X p T) + z1 (Astar th X p T) (Bstar th X p T) ≠ 0) :
    HasDerivAt (fun x => rhoOf th X x T (Zp x)) (drhodp th X p T Z (rhoOf th X p T Z)) p ∧
    HasDerivAt (fun t => rhoOf th X p t (ZT t)) (drhodT th X p T Z (rhoOf th X p T Z)) T := by
  obtain ⟨dA, dB, dpp⟩ := C67_Astar ht X p hT hb ha
  obtain ⟨dAp, dBp⟩ := dpp hp.ne'
  have hR := ht.Ru.ne'
  have e1 := C67_root_derivative dAp dBp hZp r1 (by rw [h1]; exact hd)
  have e2 := C67_root_derivative dA dB hZT r2 (by rw [h2]; exact hd)
  rw [h1] at e1
  rw [h2] at e2
  have hRM : th.Ru / MWmix th X ≠ 0 := div_ne_zero hR hM
  constructor
  · have d := (hasDerivAt_id' p).div ((hZp.mul_const (th.Ru / MWmix th X)).mul_const T)
      (mul_ne_zero (mul_ne_zero (by rw [h1]; exact hZ) hRM) hT.ne')
    refine d.congr_deriv ?_
    rw [h1]
    unfold drhodp rhoOf
    simp only
    rw [← e1]
    field_simp
  · have d := (hasDerivAt_const T p).div ((hZT.mul_const (th.Ru / MWmix th X)).mul (hasDerivAt_id' T))
      (mul_ne_zero (mul_ne_zero (by rw [h2]; exact hZ) hRM) hT.ne')
    refine d.congr_deriv ?_
    simp only [Pi.mul_apply]
    rw [h2]
    unfold drhodT rhoOf
    rw [← e2]
    field_simp
    try ring

/-- C67: `gamma` is the ratio of heat capacities, with `cv = cp - T (∂rho/∂T)² / (rho² ∂rho/∂p)`. -/
theorem C67_gamma (rp rt rho T cp : ℝ) (h1 : rp ≠ 0) (h2 : rho ≠ 0) (h3 : cp ≠ 0) (h4 : cp - T * rt^2 / (rho^2 * rp) ≠ 0) :
    gammaOf rp rt rho T cp = cp / (cp - T * rt^2 / (rho^2 * rp)) := by
  have h5 : rp - (T / cp) * (rt / rho)^2 ≠ 0 := by
    intro h
    apply h4
    have : cp - T * rt^2 / (rho^2 * rp) = (cp / rp) * (rp - (T / cp) * (rt / rho)^2) := by field_simp
    rw [this, h, mul_zero]
  unfold gammaOf
  rw [div_eq_div_iff h5 h4]
  field_simp

/-- relation obtained by differentiating the equation of state along the root, in terms of `x = Z/B = V/b` -/
theorem eos_x {A B Z : ℝ} (hB : 0 < B) (hZB : B < Z) (h : prCubic A B Z = 0) :
    B = 1 / (Z / B - 1) - (A / B) / ((Z / B)^2 + 2 * (Z / B) + (-1)) := by
  have h1 : Z - B ≠ 0 := by linarith
  have h2 : 0 < Z^2 + 2*B*Z - B^2 := by nlinarith
  have e1 : Z / B - 1 = (Z - B) / B := by field_simp
  have e2 : (Z / B)^2 + 2 * (Z / B) + (-1) = (Z^2 + 2*B*Z - B^2) / B^2 := by field_simp; ring
  rw [e1, e2]
  unfold prCubic at h
  have h2' := h2.ne'
  rw [show 1 / ((Z - B) / B) = B / (Z - B) by field_simp,
    show A / B / ((Z^2 + 2*B*Z - B^2) / B^2) = A * B / (Z^2 + 2*B*Z - B^2) by field_simp, div_sub_div _ _ h1 h2',
    eq_div_iff (mul_ne_zero h1 h2')]
  linear_combination B * h

/-- C67: the heat capacity the code stores is the derivative at constant pressure of the enthalpy it stores. -/
theorem C67_cp (ht : th.Ok) (X Y : ℕ → ℝ) {p T : ℝ} (hp : 0 < p) (hT : 0 < T) (hbm : 0 < bm th X) (hb : Branch th T)
    (ha : am th X T ≠ 0) (hsw : ∀ n < th.ns, T ≠ th.NASA7 n 0) {Zf : ℝ → ℝ} {Z' : ℝ} (hZ : HasDerivAt Zf Z' T)
    (hroot : ∀ᶠ t in nhds T, prCubic (Astar th X p t) (Bstar th X p t) (Zf t) = 0)
    (hZB : Bstar th X p T < Zf T)
    (hden : let x := Zf T / Bstar th X p T
      (x^2 + 2 * x + (-1))^2 - (am th X T / (bm th X * th.Ru * T)) * (2 * x + 2) * (x - 1)^2 ≠ 0) :
    HasDerivAt (fun t => hC th X Y p t (Zf t)) (cpC th X Y p T (Zf T)) T := by
  have hR := ht.Ru
  obtain ⟨-, dB, -⟩ := C67_Astar ht X p hT hb ha
  have dA := C67_attraction ht X hT hb
  have ddam := dam_deriv ht hT hb ha
  have hBpos : 0 < Bstar th X p T := by unfold Bstar; positivity
  set B := Bstar th X p T with hBd
  set Z := Zf T with hZd
  set a := am th X T with had
  set a' := dam th X T with ha'd
  set b := bm th X with hbd
  -- x = Z/B along the curve
  set x := Z / B with hxd
  set x' := (Z' + Z / T) / B with hx'd
  have dx : HasDerivAt (fun t => Zf t / Bstar th X p t) x' T := by
    have d := hZ.div dB (by rw [← hBd]; exact hBpos.ne')
    refine d.congr_deriv ?_
    rw [hx'd]
    unfold dBdT
    rw [← hBd]
    field_simp
    ring
  have hx1 : 1 < x := by rw [hxd, lt_div_iff₀ hBpos]; linarith
  have hP : 0 < x^2 + 2*x + (-1) := by nlinarith
  -- differentiate the equation of state in x
  have hZBn : ∀ᶠ t in nhds T, 0 < Bstar th X p t ∧ Bstar th X p t < Zf t := by
    have c1 : ContinuousAt (fun t => Bstar th X p t) T := dB.continuousAt
    exact (c1.eventually (lt_mem_nhds (show 0 < Bstar th X p T from hBpos))).and
      (c1.eventually_lt hZ.continuousAt hZB)
  have hAB : ∀ᶠ t in nhds T, Astar th X p t / Bstar th X p t = am th X t / (b * th.Ru * t) := by
    filter_upwards [lt_mem_nhds hT] with t ht0
    unfold Astar Bstar
    rw [← hbd]
    field_simp
  have heos : (fun t => Bstar th X p t) =ᶠ[nhds T]
      (fun t => (Zf t / Bstar th X p t - 1)⁻¹ - (am th X t / (b * th.Ru * t)) /
        ((Zf t / Bstar th X p t)^2 + 2 * (Zf t / Bstar th X p t) + (-1))) := by
    filter_upwards [hroot, hZBn, hAB] with t h1 h2 h3
    have := eos_x h2.1 h2.2 h1
    rw [h3, one_div] at this
    exact this
  have dAA : HasDerivAt (fun t => am th X t / (b * th.Ru * t)) ((a' * (b * th.Ru * T) - a * (b * th.Ru)) / (b * th.Ru * T)^2) T := by
    have d := dA.div ((hasDerivAt_id' T).const_mul (b * th.Ru)) (by positivity)
    refine d.congr_deriv ?_
    rw [mul_one]
  have dP : HasDerivAt (fun t => (Zf t / Bstar th X p t)^2 + 2 * (Zf t / Bstar th X p t) + (-1)) (2 * x * x' + 2 * x') T := by
    have d := ((dx.pow 2).add (dx.const_mul 2)).add_const (-1)
    refine d.congr_deriv ?_
    push_cast
    ring
  have deos := ((dx.sub_const 1).inv (by have : x - 1 ≠ 0 := by linarith
                                         exact this)).sub
    (dAA.div dP (by exact hP.ne'))
  have hrel : dBdT th X p T = -x' / (x - 1)^2 - ((a' * (b * th.Ru * T) - a * (b * th.Ru)) / (b * th.Ru * T)^2 * (x^2 + 2*x + (-1))
      - a / (b * th.Ru * T) * (2 * x * x' + 2 * x')) / (x^2 + 2*x + (-1))^2 :=
    dB.unique (deos.congr_of_eventuallyEq heos)
  have hB0 : B = (x - 1)⁻¹ - (a / (b * th.Ru * T)) / (x^2 + 2*x + (-1)) := heos.self_of_nhds
  -- the log
  set r := Real.sqrt (2^2 - 4 * (-1)) with hr
  have hr2 : r^2 = 8 := by rw [hr, Real.sq_sqrt (by norm_num)]; norm_num
  have hr0 : 0 < r := by rw [hr]; exact Real.sqrt_pos.2 (by norm_num)
  have hrlt : r < 2 * x + 2 := by nlinarith
  have n1 : 0 < 2 * x + (2 - r) := by linarith
  have n2 : 0 < 2 * x + (2 + r) := by linarith
  have dL : HasDerivAt (fun t => logZoB (Zf t / Bstar th X p t)) (r * x' / (x^2 + 2*x + (-1))) T := by
    have d1 := (dx.const_mul 2).add_const (2 - r)
    have d2 := (dx.const_mul 2).add_const (2 + r)
    have d := (d1.div d2 n2.ne').log (div_pos n1 n2).ne'
    refine d.congr_deriv ?_
    simp only [← hBd, ← hZd, ← hxd, Pi.div_apply]
    have h4 : (2 * x + (2 - r)) * (2 * x + (2 + r)) = 4 * (x^2 + 2*x + (-1)) := by nlinarith [hr2]
    have n1' := n1.ne'
    have n2' := n2.ne'
    have hP' := hP.ne'
    rw [show (2 * x' * (2 * x + (2 + r)) - (2 * x + (2 - r)) * (2 * x')) / (2 * x + (2 + r))^2 / ((2 * x + (2 - r)) / (2 * x + (2 + r)))
      = (4 * r * x') / ((2 * x + (2 - r)) * (2 * x + (2 + r))) by field_simp; ring, h4]
    field_simp
  -- assemble
  have dDep : HasDerivAt (fun t => th.Ru * t * hDep th X p t (Zf t)) (th.Ru * cpDep th X p T Z) T := by
    have e : (fun t => th.Ru * t * hDep th X p t (Zf t)) =ᶠ[nhds T] fun t => th.Ru * (Cuw th X * ((am th X t - t * dam th X t) *
        logZoB (Zf t / Bstar th X p t)) + t * (Zf t - 1)) := by
      filter_upwards [lt_mem_nhds hT] with t ht0
      unfold hDep
      field_simp
    have d := ((((dA.sub ((hasDerivAt_id' T).mul ddam)).mul dL).const_mul (Cuw th X)).add
      ((hasDerivAt_id' T).mul (hZ.sub_const 1))).const_mul th.Ru
    refine (d.congr_of_eventuallyEq e).congr_deriv ?_
    unfold cpDep
    simp only [← hBd, ← hxd, ← had, ← ha'd, ← hbd, Pi.sub_apply, Pi.mul_apply, ← hZd, Pi.add_apply]
    set L := logZoB x with hL
    set P := x^2 + 2*x + (-1) with hPd
    set A' := a / (b * th.Ru * T) with hA'd
    set al := a' / (b * th.Ru) with hald
    have hCuw : Cuw th X = 1 / (b * th.Ru * r) := rfl
    have hDen : P^2 - A' * (2*x+2) * (x-1)^2 ≠ 0 := hden
    have hx1' : x - 1 ≠ 0 := by linarith
    have hP' := hP.ne'
    have hr' := hr0.ne'
    have hb' := hbm.ne'
    have hR' := hR.ne'
    have hT' := hT.ne'
    have hB' := hBpos.ne'
    -- x' from the differentiated equation of state
    have hN : T * x' * (P^2 - A' * (2*x+2) * (x-1)^2) = (P - al * (x-1)) * (x-1) * P := by
      have h1 : dBdT th X p T = -B / T := by unfold dBdT; rw [← hBd]
      rw [h1, hB0] at hrel
      have h2 : (a' * (b * th.Ru * T) - a * (b * th.Ru)) / (b * th.Ru * T)^2 = (al - A') / T := by
        rw [hald, hA'd]; field_simp
      rw [h2] at hrel
      clear_value x' P A' al x
      field_simp at hrel
      linear_combination hrel
    have hW : T * Z' + Z = B * T * x' := by
      rw [hx'd]; field_simp
    have hBP : B + A' / P - al / P = (P - al * (x-1)) / (P * (x-1)) := by
      rw [hB0]; field_simp; ring
    have hxx : T * x' = (P - al * (x-1)) * (x-1) * P / (P^2 - A' * (2*x+2) * (x-1)^2) := by
      rw [eq_div_iff hDen]; exact hN
    have main : Cuw th X * ((a - T * a') * (r * x' / P)) + (T * Z' + Z) = (P - al * (x-1))^2 / (P^2 - A' * (2*x+2) * (x-1)^2) := by
      have e1 : Cuw th X * ((a - T * a') * (r * x' / P)) + (T * Z' + Z) = T * x' * (B + A' / P - al / P) := by
        rw [hW, hCuw, hA'd, hald]; field_simp; ring
      rw [e1, hBP, hxx]
      field_simp
    have e2 : (a' - (1 * a' + T * (a' ^ 2 / (2 * a) - a' / (2 * T)))) * L = (a / T - a') * L * 0.5 * T / a * a' := by
      field_simp
      ring
    rw [← main]
    rw [show Cuw th X * (a / T - a') * L * 0.5 * T / a * a' = Cuw th X * ((a / T - a') * L * 0.5 * T / a * a') by ring, ← e2]
    ring
  have hdT := (C25_newton_derivative th.toTh Y hT.ne' hsw).1
  have := (dDep.div_const (MWmix th X)).add hdT
  exact this

end PG.Thermo
