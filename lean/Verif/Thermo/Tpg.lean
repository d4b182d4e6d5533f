import Verif.Thermo.Props
import Mathlib.Analysis.Calculus.Deriv.Add
import Mathlib.Analysis.Calculus.Deriv.Mul
import Mathlib.Analysis.Calculus.Deriv.Pow
import Mathlib.Analysis.Calculus.Deriv.Inv
import Mathlib.Analysis.Calculus.Deriv.MeanValue
import Mathlib.Tactic.LinearCombination

/-! C25: thermally perfect gas. -/
noncomputable section
namespace PG.Thermo
open Finset

variable {th : Th}

/-- internal energy of the mixture at temperature `T`: `h(T) - R T` -/
def energyAt (th : Th) (Y : ℕ → ℝ) (T : ℝ) : ℝ := hT th Y T - gasConst th Y * T

/-- one Newton step for `energyAt T = e` -/
def newtonStep (th : Th) (Y : ℕ → ℝ) (e T : ℝ) : ℝ := T + (e - energyAt th Y T) / (cpT th Y T - gasConst th Y)

theorem body_T (Y : ℕ → ℝ) (e : ℝ) (s : NSt) : (newtonBody th Y e s).T = newtonStep th Y e s.T := by
  simp only [newtonBody, newtonStep, energyAt, ← Rmix_eq]
  rw [show (-cpT th Y s.T + Rmix th Y) = -(cpT th Y s.T - Rmix th Y) by ring, div_neg]
  ring

/-- the loop from any state: it performs `n ≤ fuel` bodies, stopping at the first small error -/
theorem loop_iter (Y : ℕ → ℝ) (e : ℝ) (fuel : ℕ) (s : NSt) :
    ∃ n ≤ fuel, newtonLoop th Y e fuel s = (newtonBody th Y e)^[n] s ∧
      (n < fuel → |((newtonBody th Y e)^[n] s).err| ≤ tol) ∧
      (∀ k < n, tol < |((newtonBody th Y e)^[k] s).err|) := by
  induction fuel generalizing s with
  | zero => exact ⟨0, le_refl _, rfl, fun h => absurd h (by omega), fun k hk => absurd hk (by omega)⟩
  | succ m ih =>
    by_cases h : |s.err| > tol
    · obtain ⟨n, hn, he, hs, hk⟩ := ih (newtonBody th Y e s)
      refine ⟨n + 1, by omega, ?_, fun hlt => ?_, fun k hkn => ?_⟩
      · simp only [newtonLoop, h, if_true]
        rw [he, Function.iterate_succ_apply]
      · rw [Function.iterate_succ_apply]; exact hs (by omega)
      · cases k with
        | zero => exact h
        | succ k => rw [Function.iterate_succ_apply]; exact hk k (by omega)
    · exact ⟨0, by omega, by simp [newtonLoop, h], fun _ => not_lt.1 h, fun k hk => absurd hk (by omega)⟩

theorem iter_T (Y : ℕ → ℝ) (e : ℝ) (n : ℕ) (s : NSt) :
    ((newtonBody th Y e)^[n] s).T = (newtonStep th Y e)^[n] s.T ∧ ((newtonBody th Y e)^[n] s).nitr = s.nitr + n := by
  induction n generalizing s with
  | zero => exact ⟨rfl, rfl⟩
  | succ n ih =>
    rw [Function.iterate_succ_apply, Function.iterate_succ_apply]
    obtain ⟨h1, h2⟩ := ih (newtonBody th Y e s)
    exact ⟨by rw [h1, body_T], by rw [h2]; simp only [newtonBody]; omega⟩

/-- values stored by the last body -/
theorem iter_last (Y : ℕ → ℝ) (e : ℝ) (n : ℕ) (s : NSt) :
    ((newtonBody th Y e)^[n+1] s).h = hT th Y ((newtonStep th Y e)^[n] s.T) ∧
    ((newtonBody th Y e)^[n+1] s).cp = cpT th Y ((newtonStep th Y e)^[n] s.T) ∧
    ((newtonBody th Y e)^[n+1] s).hi = his th ((newtonStep th Y e)^[n] s.T) ∧
    ((newtonBody th Y e)^[n+1] s).err = e - energyAt th Y ((newtonStep th Y e)^[n] s.T) := by
  rw [Function.iterate_succ_apply']
  obtain ⟨h1, -⟩ := iter_T (th := th) Y e n s
  simp only [newtonBody, h1, energyAt, ← Rmix_eq, and_self]

/-- C25 (termination and stopping criterion): whatever the table, fractions, energy and guess, the temperature search
    performs some number `n` of Newton steps with `1 ≤ n ≤ 100`; the reported temperature is the n-th iterate; if fewer than
    100 steps were taken the energy of the last-but-one iterate is within 1e-8 of the given energy; no earlier iterate met
    that criterion; and the reported cp, h are those of the last-but-one iterate. -/
theorem C25_search (th : Th) (Y : ℕ → ℝ) (e Tg : ℝ) :
    ∃ n, 1 ≤ n ∧ n ≤ 100 ∧ (newton th Y e Tg).nitr = n ∧
      (newton th Y e Tg).T = (newtonStep th Y e)^[n] (guess Tg) ∧
      (newton th Y e Tg).cp = cpT th Y ((newtonStep th Y e)^[n-1] (guess Tg)) ∧
      (newton th Y e Tg).h = hT th Y ((newtonStep th Y e)^[n-1] (guess Tg)) ∧
      (newton th Y e Tg).hi = his th ((newtonStep th Y e)^[n-1] (guess Tg)) ∧
      (n < 100 → |e - energyAt th Y ((newtonStep th Y e)^[n-1] (guess Tg))| ≤ 1e-8) ∧
      (∀ k, k + 1 < n → 1e-8 < |e - energyAt th Y ((newtonStep th Y e)^[k] (guess Tg))|) := by
  obtain ⟨n, hn, he, hs, hk⟩ := loop_iter (th := th) Y e maxitr ⟨guess Tg, 0, 0, fun _ => 0, 1e100, 0⟩
  have hn' : n ≤ 100 := hn
  have h1 : 1 ≤ n := by
    by_contra hc
    have h0 : n = 0 := by omega
    subst h0
    have := hs (by norm_num [maxitr])
    simp only [Function.iterate_zero, id, tol] at this
    norm_num at this
  obtain ⟨m, rfl⟩ : ∃ m, n = m + 1 := ⟨n - 1, by omega⟩
  have hN : newton th Y e Tg = (newtonBody th Y e)^[m+1] ⟨guess Tg, 0, 0, fun _ => 0, 1e100, 0⟩ := he
  obtain ⟨t1, t2⟩ := iter_T (th := th) Y e (m+1) ⟨guess Tg, 0, 0, fun _ => 0, 1e100, 0⟩
  obtain ⟨l1, l2, l3, l4⟩ := iter_last (th := th) Y e m ⟨guess Tg, 0, 0, fun _ => 0, 1e100, 0⟩
  refine ⟨m + 1, h1, hn', ?_, ?_, ?_, ?_, ?_, fun hlt => ?_, fun k hkn => ?_⟩
  · rw [hN, t2]; simp
  · rw [hN, t1]
  · rw [hN, l2]; rfl
  · rw [hN, l1]; rfl
  · rw [hN, l3]; rfl
  · have := hs hlt; rw [l4] at this; exact this
  · have := hk (k+1) hkn
    rw [(iter_last (th := th) Y e k _).2.2.2] at this; exact this

/-- the search started at a temperature that already carries the energy returns it, after one step -/
theorem newton_exact (Y : ℕ → ℝ) (e T : ℝ) (h1 : 1 ≤ T) (he : energyAt th Y T = e) :
    newton th Y e T = ⟨T, hT th Y T, cpT th Y T, his th T, 0, 1⟩ := by
  have hg : guess T = T := by simp [guess, not_lt.2 h1]
  have h0 : hT th Y T - Rmix th Y * T = e := by rw [Rmix_eq]; exact he
  have hb : newtonBody th Y e ⟨T, 0, 0, fun _ => 0, 1e100, 0⟩ = ⟨T, hT th Y T, cpT th Y T, his th T, 0, 1⟩ := by
    simp only [newtonBody, h0, sub_self, zero_div, sub_zero, zero_add]
  have h2 : |(1e100 : ℝ)| > tol := by norm_num [tol]
  have h3 : ¬ |(0 : ℝ)| > tol := by norm_num [tol]
  unfold newton
  rw [hg, show maxitr = 98 + 1 + 1 by rfl, newtonLoop, if_pos h2, hb, newtonLoop, if_neg h3]

/-- C25 (round trip): for admissible primitives with `T ≥ 1` and `cp > R` at that state, primitives -> conserved ->
    primitives returns the same primitives, conserved variables and derived quantities exactly, the search starting at the
    stored temperature. -/
theorem C25_roundtrip (hns : 1 ≤ th.ns) (hRu : 0 < th.Ru) (hMW : ∀ n < th.ns, 0 < th.MW n) (c : Cell)
    (hq : c.q.Ok th.ns) (hT1 : 1 ≤ c.q.T)
    (_hcp : gasConst th (fullY th.ns c.q.Y) < cpT th (fullY th.ns c.q.Y) c.q.T) :
    (tpgCons th (tpgPrims th c)).q.Same th.ns c.q ∧
    (tpgCons th (tpgPrims th c)).qh.Same th.ns (tpgPrims th c).qh ∧
    (tpgCons th (tpgPrims th c)).Q.Same th.ns (tpgPrims th c).Q := by
  have hu := clipY_unit th.ns c.q.Y
  have hs : Simplex th.ns (localY th.ns (clipY th.ns c.q.Y)) := localY_simplex hns hu
  have hR : 0 < Rmix th (localY th.ns (clipY th.ns c.q.Y)) := Rmix_pos hRu hMW hs
  have hp := hq.p
  have hTp := hq.T
  have hrho : 0 < (tpgPrims th c).Q.rho := by simp only [tpgPrims]; positivity
  have hQ : ∀ n < th.ns - 1, (tpgPrims th c).Q.rhoY n = localY th.ns (clipY th.ns c.q.Y) n * (tpgPrims th c).Q.rho :=
    fun n hn => by simp [tpgPrims, hn]
  have hY : ∀ n < th.ns, localY th.ns (consY th.ns (tpgPrims th c).Q) n = localY th.ns (clipY th.ns c.q.Y) n :=
    fun n hn => readback hns hu hrho hQ hn
  obtain ⟨eR, -, eh⟩ := mix_congr hY
  set Y := localY th.ns (clipY th.ns c.q.Y) with hYd
  set Z := localY th.ns (consY th.ns (tpgPrims th c).Q) with hZd
  set R := Rmix th Y
  have hrn : c.q.p / (R * c.q.T) ≠ 0 := by positivity
  set e := ((tpgPrims th c).Q.rhoE - 0.5 * ((tpgPrims th c).Q.rhou^2 + (tpgPrims th c).Q.rhov^2 + (tpgPrims th c).Q.rhow^2) /
      (tpgPrims th c).Q.rho) / (tpgPrims th c).Q.rho with hed
  have ee : e = hT th Y c.q.T - R * c.q.T := by
    rw [hed]
    change ((c.q.p / (R * c.q.T)) * (hT th Y c.q.T - c.q.p / (c.q.p / (R * c.q.T))) + 0.5 * (c.q.u^2 + c.q.v^2 + c.q.w^2) * (c.q.p / (R * c.q.T))
      - 0.5 * ((c.q.p / (R * c.q.T) * c.q.u)^2 + (c.q.p / (R * c.q.T) * c.q.v)^2 + (c.q.p / (R * c.q.T) * c.q.w)^2) / (c.q.p / (R * c.q.T))) / (c.q.p / (R * c.q.T)) = _
    field_simp
    ring
  have hN : newton th Z e (tpgPrims th c).q.T = ⟨c.q.T, hT th Z c.q.T, cpT th Z c.q.T, his th c.q.T, 0, 1⟩ := by
    refine newton_exact Z e c.q.T hT1 ?_
    unfold energyAt
    rw [← Rmix_eq, eR, (eh c.q.T).1, ee]
  have eT : (tpgCons th (tpgPrims th c)).q.T = c.q.T := by
    change (newton th Z e (tpgPrims th c).q.T).T = _; rw [hN]
  have ep : (tpgCons th (tpgPrims th c)).q.p = c.q.p := by
    have : (tpgCons th (tpgPrims th c)).q.p = (tpgPrims th c).Q.rho * R * (tpgCons th (tpgPrims th c)).q.T := by
      rw [← eR]; rfl
    rw [this, eT]
    change c.q.p / (R * c.q.T) * R * c.q.T = _
    field_simp
  refine ⟨⟨ep, ?_, ?_, ?_, eT, fun n hn => ?_⟩, ⟨?_, ?_, ?_, ?_, ?_, fun n hn => ?_⟩, ⟨rfl, rfl, rfl, rfl, rfl, fun n hn => ?_⟩⟩
  · change c.q.p / (R * c.q.T) * c.q.u / (c.q.p / (R * c.q.T)) = _; exact mul_div_cancel_left₀ _ hrn
  · change c.q.p / (R * c.q.T) * c.q.v / (c.q.p / (R * c.q.T)) = _; exact mul_div_cancel_left₀ _ hrn
  · change c.q.p / (R * c.q.T) * c.q.w / (c.q.p / (R * c.q.T)) = _; exact mul_div_cancel_left₀ _ hrn
  · have : (tpgCons th (tpgPrims th c)).q.Y n = Z n := by simp only [tpgCons, hn, if_true, hZd]
    rw [this, hY n (by omega), hYd, localY_congr (fun m hm => okY_clip hq.Y hm) (by omega), localY_ok hq.Y]
    have : n ≠ th.ns - 1 := by omega
    simp [fullY, this]
  · change (newton th Z e (tpgPrims th c).q.T).cp / ((newton th Z e (tpgPrims th c).q.T).cp - Rmix th Z) = _
    rw [hN, eR]; simp only [(eh c.q.T).2]; rfl
  · change (newton th Z e (tpgPrims th c).q.T).cp = _
    rw [hN]; exact (eh c.q.T).2
  · change (tpgPrims th c).Q.rho * (newton th Z e (tpgPrims th c).q.T).h = _
    rw [hN]; simp only [(eh c.q.T).1]; rfl
  · change Real.sqrt ((newton th Z e (tpgPrims th c).q.T).cp / ((newton th Z e (tpgPrims th c).q.T).cp - Rmix th Z) * Rmix th Z * (newton th Z e (tpgPrims th c).q.T).T) = _
    rw [hN, eR]; simp only [(eh c.q.T).2]; rfl
  · change (tpgPrims th c).Q.rho * e = _
    rw [ee]
    change c.q.p / (R * c.q.T) * _ = c.q.p / (R * c.q.T) * (hT th Y c.q.T - c.q.p / (c.q.p / (R * c.q.T)))
    field_simp
  · have h1 : (tpgCons th (tpgPrims th c)).qh.hi n = (newton th Z e (tpgPrims th c).q.T).hi n := by
      simp only [tpgCons, hn, if_true, hZd, hed]
    rw [h1, hN]; simp [tpgPrims, hn]
  · have : (tpgCons th (tpgPrims th c)).Q.rhoY n = consRhoY th.ns (tpgPrims th c).Q n := rfl
    rw [this, consRhoY_eq hrho hn, hQ n hn]
    rw [← hZd, hY n (by omega)]

/-- the coefficient set used does not change near `T` when `T` is not a species' switch temperature -/
theorem nasaM_nhds (th : Th) {T : ℝ} {n : ℕ} (h : T ≠ th.NASA7 n 0) : ∀ᶠ t in nhds T, nasaM th t n = nasaM th T n := by
  rcases lt_or_gt_of_ne h with hl | hg
  · filter_upwards [eventually_lt_nhds hl] with t ht
    simp [nasaM, ht.le, hl.le]
  · filter_upwards [eventually_gt_nhds hg] with t ht
    simp [nasaM, not_le.2 ht, not_le.2 hg]

theorem his_deriv (th : Th) {T : ℝ} (hT : T ≠ 0) {n : ℕ} (h : T ≠ th.NASA7 n 0) :
    HasDerivAt (fun t => his th t n) (cps th T n) T := by
  set m := nasaM th T n with hm
  have e1 : ∀ᶠ t in nhds T, his th t n = (th.NASA7 n m * t + th.NASA7 n (m+1) / 2 * t^2 + th.NASA7 n (m+2) / 3 * t^3 +
      th.NASA7 n (m+3) / 4 * t^4 + th.NASA7 n (m+4) / 5 * t^5 + th.NASA7 n (m+5)) * (th.Ru / th.MW n) := by
    filter_upwards [nasaM_nhds th h, eventually_ne_nhds hT] with t ht ht0
    simp only [his, ht, ← hm]
    field_simp
    try ring
  have hd : HasDerivAt (fun t : ℝ => (th.NASA7 n m * t + th.NASA7 n (m+1) / 2 * t^2 + th.NASA7 n (m+2) / 3 * t^3 +
      th.NASA7 n (m+3) / 4 * t^4 + th.NASA7 n (m+4) / 5 * t^5 + th.NASA7 n (m+5)) * (th.Ru / th.MW n)) (cps th T n) T := by
    have := ((((((hasDerivAt_id' T).const_mul (th.NASA7 n m)).add ((hasDerivAt_pow 2 T).const_mul (th.NASA7 n (m+1) / 2))).add
      ((hasDerivAt_pow 3 T).const_mul (th.NASA7 n (m+2) / 3))).add ((hasDerivAt_pow 4 T).const_mul (th.NASA7 n (m+3) / 4))).add
      ((hasDerivAt_pow 5 T).const_mul (th.NASA7 n (m+4) / 5))).add_const (th.NASA7 n (m+5)) |>.mul_const (th.Ru / th.MW n)
    refine this.congr_deriv ?_
    simp only [cps, ← hm]
    push_cast
    ring
  exact hd.congr_of_eventuallyEq e1

/-- C25: the heat capacity the code uses is the temperature derivative of the enthalpy it uses, so each search step is a
    Newton step for `energy = given`: the denominator is the derivative of the internal energy. -/
theorem C25_newton_derivative (th : Th) (Y : ℕ → ℝ) {T : ℝ} (hT0 : T ≠ 0) (h : ∀ n < th.ns, T ≠ th.NASA7 n 0) :
    HasDerivAt (hT th Y) (cpT th Y T) T ∧ HasDerivAt (energyAt th Y) (cpT th Y T - gasConst th Y) T := by
  have h1 : HasDerivAt (hT th Y) (cpT th Y T) T := by
    have := HasDerivAt.sum (u := range th.ns) (A := fun n t => his th t n * Y n) (A' := fun n => cps th T n * Y n) (x := T)
      (fun n hn => (his_deriv th hT0 (h n (mem_range.1 hn))).mul_const (Y n))
    refine this.congr_of_eventuallyEq ?_
    filter_upwards with t
    simp [hT]
  refine ⟨h1, ?_⟩
  have := h1.sub ((hasDerivAt_id' T).const_mul (gasConst th Y))
  rw [mul_one] at this
  exact this

/-- energy increases with temperature at rate at least `m` on a set of temperatures -/
def Steep (th : Th) (Y : ℕ → ℝ) (m : ℝ) (S : Set ℝ) : Prop :=
  ∀ a ∈ S, ∀ b ∈ S, a ≤ b → m * (b - a) ≤ energyAt th Y b - energyAt th Y a

/-- A lower bound on `cp - R` on an interval free of switch temperatures makes the energy steep there. -/
theorem steep_of_cv (th : Th) (Y : ℕ → ℝ) {m lo hi : ℝ} (hlo : 0 < lo)
    (hsw : ∀ n < th.ns, th.NASA7 n 0 ∉ Set.Icc lo hi) (hcv : ∀ T ∈ Set.Icc lo hi, m ≤ cpT th Y T - gasConst th Y) :
    Steep th Y m (Set.Icc lo hi) := by
  intro a ha b hb hab
  have hd : ∀ T ∈ Set.Icc lo hi, HasDerivAt (energyAt th Y) (cpT th Y T - gasConst th Y) T := fun T hTm =>
    (C25_newton_derivative th Y (by have := hTm.1; linarith) (fun n hn he => hsw n hn (he ▸ hTm))).2
  have := Convex.mul_sub_le_image_sub_of_le_deriv (convex_Icc lo hi) (f := energyAt th Y) (C := m)
    (fun T hTm => (hd T hTm).continuousAt.continuousWithinAt)
    (fun T hTm => (hd T (interior_subset hTm)).differentiableAt.differentiableWithinAt)
    (fun T hTm => by rw [(hd T (interior_subset hTm)).deriv]; exact hcv T (interior_subset hTm)) a ha b hb hab
  exact this

/-- C25 (accuracy): when the search stops before its cap, and energy is steep (slope at least `m`) on a set containing the
    exact temperature and the last-but-one iterate, that iterate is within `tol/m` of the exact temperature, and when
    moreover `cp - R ≥ m` there the reported temperature is within `2 tol/m`. -/
theorem C25_accuracy (th : Th) (Y : ℕ → ℝ) (e Tg Tstar m : ℝ) (S : Set ℝ) (hm : 0 < m) (hS : Steep th Y m S)
    (hex : energyAt th Y Tstar = e) (hstar : Tstar ∈ S) (hcap : (newton th Y e Tg).nitr < 100)
    (hin : (newtonStep th Y e)^[(newton th Y e Tg).nitr - 1] (guess Tg) ∈ S)
    (hcv : ∀ T ∈ S, m ≤ cpT th Y T - gasConst th Y) :
    |(newtonStep th Y e)^[(newton th Y e Tg).nitr - 1] (guess Tg) - Tstar| ≤ 1e-8 / m ∧
    |(newton th Y e Tg).T - Tstar| ≤ 2 * (1e-8 / m) := by
  obtain ⟨n, h1, h100, hn, hTn, -, -, -, hstop, -⟩ := C25_search th Y e Tg
  rw [hn] at hcap hin ⊢
  obtain ⟨k, rfl⟩ : ∃ k, n = k + 1 := ⟨n - 1, by omega⟩
  simp only [Nat.add_sub_cancel] at hin hstop ⊢
  set t := (newtonStep th Y e)^[k] (guess Tg) with ht
  have herr := hstop hcap
  have hb1 : |t - Tstar| ≤ 1e-8 / m := by
    rw [le_div_iff₀ hm]
    refine le_trans ?_ herr
    rcases le_total t Tstar with h | h
    · have := hS t hin Tstar hstar h
      rw [hex] at this
      rw [abs_of_nonpos (by linarith : t - Tstar ≤ 0)]
      refine le_trans ?_ (le_abs_self _)
      linarith
    · have := hS Tstar hstar t hin h
      rw [hex] at this
      rw [abs_of_nonneg (by linarith : 0 ≤ t - Tstar), abs_sub_comm]
      refine le_trans ?_ (le_abs_self _)
      linarith
  refine ⟨hb1, ?_⟩
  have hT2 : (newton th Y e Tg).T = t + (e - energyAt th Y t) / (cpT th Y t - gasConst th Y) := by
    rw [hTn, Function.iterate_succ_apply']; rfl
  have hd := hcv t hin
  have hb2 : |(e - energyAt th Y t) / (cpT th Y t - gasConst th Y)| ≤ 1e-8 / m := by
    rw [abs_div, abs_of_pos (lt_of_lt_of_le hm hd)]
    exact div_le_div₀ (by norm_num) herr hm hd
  rw [hT2]
  calc |t + (e - energyAt th Y t) / (cpT th Y t - gasConst th Y) - Tstar|
      = |(t - Tstar) + (e - energyAt th Y t) / (cpT th Y t - gasConst th Y)| := by congr 1; ring
    _ ≤ _ := abs_add_le _ _
    _ ≤ _ := by linarith

/-! ### Non-vacuity: a one-species table with constant `cp = 3.5 R`, switch temperature 1000 K -/

def exTpg : Th := ⟨1, 8314, fun _ => 28, fun _ => 0, fun _ j => if j = 0 then 1000 else if j = 1 ∨ j = 8 then 3.5 else 0⟩

theorem exTpg_cp (T : ℝ) : cpT exTpg (fun _ => 1) T = 3.5 * (8314 / 28) := by
  have h : ∀ m, m = 1 ∨ m = 8 → cpT exTpg (fun _ => 1) T = 3.5 * (8314 / 28) ∨ nasaM exTpg T 0 ≠ m := by
    rintro m hm
    by_cases hn : nasaM exTpg T 0 = m
    · left
      simp only [cpT, cps]
      rw [show exTpg.ns = 1 from rfl, sum_range_one, hn]
      rcases hm with rfl | rfl <;> norm_num [exTpg]
    · right; exact hn
  rcases h 1 (Or.inl rfl) with h1 | h1
  · exact h1
  · rcases h 8 (Or.inr rfl) with h2 | h2
    · exact h2
    · exfalso; unfold nasaM at h1 h2; split_ifs at h1 h2 <;> omega

theorem exTpg_R : gasConst exTpg (fun _ => 1) = 8314 / 28 := by
  simp [gasConst, exTpg]; norm_num

/-- the hypotheses of `C25_roundtrip` are met by air-like data at 300 K -/
example : 1 ≤ exTpg.ns ∧ 0 < exTpg.Ru ∧ (∀ n < exTpg.ns, 0 < exTpg.MW n) ∧
    Prim.Ok exTpg.ns ⟨101325, 1, 2, 3, 300, fun _ => 1⟩ ∧
    gasConst exTpg (fullY exTpg.ns fun _ => 1) < cpT exTpg (fullY exTpg.ns fun _ => 1) 300 := by
  have e : fullY exTpg.ns (fun _ => (1:ℝ)) = fun _ => 1 := by
    funext n
    have : exTpg.ns = 1 := rfl
    simp [fullY, this]
  refine ⟨by norm_num [exTpg], by norm_num [exTpg], fun n _ => by norm_num [exTpg], ⟨by norm_num, by norm_num, ?_, ?_⟩, ?_⟩
  · intro n hn; norm_num
  · norm_num [exTpg]
  · rw [e, exTpg_cp, exTpg_R]; norm_num

example : Steep exTpg (fun _ => 1) 700 (Set.Icc 200 900) := by
  refine steep_of_cv exTpg _ (by norm_num) ?_ ?_
  · intro n _ h
    simp only [exTpg, if_true] at h
    have := h.2
    norm_num at this
  · intro T _
    rw [exTpg_cp, exTpg_R]; norm_num

end PG.Thermo
