import Verif.Thermo.Lemmas
import Mathlib.Tactic.NormNum
import Mathlib.Tactic.NormNum.BigOperators

/-! C22, C23, C24: ideal-gas conversions. -/
noncomputable section
namespace PG.Thermo
open Finset

variable {th : Th}

/-- what "cons" reads back after "prims": the same local fractions -/
theorem readback (hns : 1 ≤ ns) {y : ℕ → ℝ} (hy : Unit01 ns y) {Q : Cons} (hr : 0 < Q.rho)
    (hQ : ∀ n < ns - 1, Q.rhoY n = localY ns y n * Q.rho) {n : ℕ} (hn : n < ns) :
    localY ns (consY ns Q) n = localY ns y n := by
  have hu : Unit01 ns (localY ns y) := fun n hn => ⟨localY_nonneg hy (by omega), localY_le_one hns hy (by omega)⟩
  rw [localY_congr (fun m hm => (consY_of hr hu hQ hm).2) hn, localY_localY hns hy]

/-- C23 (primitives given): for ANY stored mass fractions the fractions used lie in [0,1], sum to one over all species, and
    are the ones the conserved species carry; for the calorically and the thermally perfect gas. -/
theorem C23_prims (hns : 1 ≤ th.ns) (c : Cell) :
    ∀ f ∈ [cpgPrims, tpgPrims], (f th c).Q.rho ≠ 0 →
      (∀ n < th.ns, 0 ≤ fullY th.ns (fun n => (f th c).Q.rhoY n / (f th c).Q.rho) n ∧
        fullY th.ns (fun n => (f th c).Q.rhoY n / (f th c).Q.rho) n ≤ 1) ∧
      ∑ n ∈ range th.ns, fullY th.ns (fun n => (f th c).Q.rhoY n / (f th c).Q.rho) n = 1 ∧
      (∀ n < th.ns - 1, 0 ≤ (f th c).q.Y n ∧ (f th c).q.Y n ≤ 1) := by
  have hu := clipY_unit th.ns c.q.Y
  have key : ∀ g : Cell, (∀ n < th.ns - 1, g.Q.rhoY n = localY th.ns (clipY th.ns c.q.Y) n * g.Q.rho) →
      g.Q.rho ≠ 0 → g.q.Y = clipY th.ns c.q.Y →
      (∀ n < th.ns, 0 ≤ fullY th.ns (fun n => g.Q.rhoY n / g.Q.rho) n ∧
        fullY th.ns (fun n => g.Q.rhoY n / g.Q.rho) n ≤ 1) ∧
      ∑ n ∈ range th.ns, fullY th.ns (fun n => g.Q.rhoY n / g.Q.rho) n = 1 ∧
      (∀ n < th.ns - 1, 0 ≤ g.q.Y n ∧ g.q.Y n ≤ 1) := by
    intro g hg hr hy
    have e : ∀ n < th.ns, fullY th.ns (fun n => g.Q.rhoY n / g.Q.rho) n = localY th.ns (clipY th.ns c.q.Y) n := by
      intro n hn
      rw [← fullY_localY hns]
      unfold fullY
      have : ∀ m < th.ns - 1, g.Q.rhoY m / g.Q.rho = localY th.ns (clipY th.ns c.q.Y) m := by
        intro m hm; rw [hg m hm]; field_simp
      rw [sum_congr rfl fun m hm => this m (mem_range.1 hm)]
      split_ifs with h
      · rfl
      · exact this n (by omega)
    refine ⟨fun n hn => ?_, ?_, fun n hn => by rw [hy]; exact hu n hn⟩
    · rw [e n hn]; exact ⟨localY_nonneg hu hn, localY_le_one hns hu hn⟩
    · rw [sum_congr rfl fun n hn => e n (mem_range.1 hn), localY_sum hns]
  intro f hf hr
  simp only [List.mem_cons, List.mem_nil_iff, or_false] at hf
  rcases hf with rfl | rfl
  · exact key _ (fun n hn => by simp [cpgPrims, hn]) hr rfl
  · exact key _ (fun n hn => by simp [tpgPrims, hn]) hr rfl

/-- C23 (conserved variables given): for ANY stored species densities, with positive density, the resulting mass fractions
    lie in [0,1], sum to one over all species, and primitive and conserved species agree; density, momentum and total energy
    are untouched. -/
theorem C23_cons (hns : 1 ≤ th.ns) (c : Cell) (hr : 0 < c.Q.rho) :
    ∀ f ∈ [cpgCons, tpgCons],
      (∀ n < th.ns, 0 ≤ fullY th.ns (f th c).q.Y n ∧ fullY th.ns (f th c).q.Y n ≤ 1) ∧
      ∑ n ∈ range th.ns, fullY th.ns (f th c).q.Y n = 1 ∧
      (∀ n < th.ns - 1, (f th c).Q.rhoY n = (f th c).q.Y n * (f th c).Q.rho) ∧
      (f th c).Q.rho = c.Q.rho ∧ (f th c).Q.rhou = c.Q.rhou ∧ (f th c).Q.rhov = c.Q.rhov ∧
      (f th c).Q.rhow = c.Q.rhow ∧ (f th c).Q.rhoE = c.Q.rhoE := by
  have hu := consY_unit (ns := th.ns) hr
  have key : ∀ g : Cell, (∀ n < th.ns - 1, g.q.Y n = localY th.ns (consY th.ns c.Q) n) →
      g.Q = { c.Q with rhoY := consRhoY th.ns c.Q } →
      (∀ n < th.ns, 0 ≤ fullY th.ns g.q.Y n ∧ fullY th.ns g.q.Y n ≤ 1) ∧
      ∑ n ∈ range th.ns, fullY th.ns g.q.Y n = 1 ∧
      (∀ n < th.ns - 1, g.Q.rhoY n = g.q.Y n * g.Q.rho) ∧
      g.Q.rho = c.Q.rho ∧ g.Q.rhou = c.Q.rhou ∧ g.Q.rhov = c.Q.rhov ∧ g.Q.rhow = c.Q.rhow ∧ g.Q.rhoE = c.Q.rhoE := by
    intro g hg hQ
    have e : ∀ n < th.ns, fullY th.ns g.q.Y n = localY th.ns (consY th.ns c.Q) n := by
      intro n hn
      rw [← fullY_localY hns]
      unfold fullY
      rw [sum_congr rfl fun m hm => hg m (mem_range.1 hm)]
      split_ifs with h
      · rfl
      · exact hg n (by omega)
    refine ⟨fun n hn => ?_, ?_, fun n hn => ?_, by rw [hQ], by rw [hQ], by rw [hQ], by rw [hQ], by rw [hQ]⟩
    · rw [e n hn]; exact ⟨localY_nonneg hu hn, localY_le_one hns hu hn⟩
    · rw [sum_congr rfl fun n hn => e n (mem_range.1 hn), localY_sum hns]
    · rw [hQ, hg n hn]; exact consRhoY_eq hr hn
  intro f hf
  simp only [List.mem_cons, List.mem_nil_iff, or_false] at hf
  rcases hf with rfl | rfl
  · exact key _ (fun n hn => by simp [cpgCons, hn]) rfl
  · exact key _ (fun n hn => by simp [tpgCons, hn]) rfl

/-! ### C22 -/

theorem prims_simplex (ht : th.Ok) (c : Cell) : Simplex th.ns (localY th.ns (clipY th.ns c.q.Y)) :=
  localY_simplex ht.ns (clipY_unit _ _)

/-- C22: primitives -> conserved -> primitives is the identity on admissible primitives, and the derived quantities of both
    conversions agree. -/
theorem C22_prims_cons_prims (ht : th.Ok) (c : Cell) (hq : c.q.Ok th.ns) :
    (cpgCons th (cpgPrims th c)).q.Same th.ns c.q ∧
    (cpgCons th (cpgPrims th c)).qh.Same th.ns (cpgPrims th c).qh ∧
    (cpgCons th (cpgPrims th c)).Q.Same th.ns (cpgPrims th c).Q := by
  have hu := clipY_unit th.ns c.q.Y
  have hs := prims_simplex ht c
  have hR : 0 < Rmix th (localY th.ns (clipY th.ns c.q.Y)) := Rmix_pos ht.Ru ht.MW hs
  have hcp := cp_gt_R ht hs
  have hp := hq.p
  have hT := hq.T
  have hrho : 0 < (cpgPrims th c).Q.rho := by simp only [cpgPrims]; positivity
  have hQ : ∀ n < th.ns - 1, (cpgPrims th c).Q.rhoY n = localY th.ns (clipY th.ns c.q.Y) n * (cpgPrims th c).Q.rho :=
    fun n hn => by simp [cpgPrims, hn]
  have hY : ∀ n < th.ns, localY th.ns (consY th.ns (cpgPrims th c).Q) n = localY th.ns (clipY th.ns c.q.Y) n :=
    fun n hn => readback ht.ns hu hrho hQ hn
  obtain ⟨eR, ecp, -⟩ := mix_congr hY
  set Y := localY th.ns (clipY th.ns c.q.Y) with hYd
  set R := Rmix th Y
  set cp := cpmix th Y
  have hcv : cp - R ≠ 0 := by linarith
  have ee : ((cpgPrims th c).Q.rhoE - 0.5 * ((cpgPrims th c).Q.rhou^2 + (cpgPrims th c).Q.rhov^2 + (cpgPrims th c).Q.rhow^2) /
      (cpgPrims th c).Q.rho) / (cpgPrims th c).Q.rho = (cp - R) * c.q.T := by
    simp only [cpgPrims]
    simp only [← hYd]
    change ((c.q.p / (R * c.q.T)) * (cp * c.q.T - c.q.p / (c.q.p / (R * c.q.T))) + _ - _) / (c.q.p / (R * c.q.T)) = _
    field_simp
    ring
  have eT : (cpgCons th (cpgPrims th c)).q.T = c.q.T := by
    simp only [cpgCons]
    rw [ecp, eR, ee]
    field_simp
  have ep : (cpgCons th (cpgPrims th c)).q.p = c.q.p := by
    have : (cpgCons th (cpgPrims th c)).q.p = (cpgPrims th c).Q.rho * R * (cpgCons th (cpgPrims th c)).q.T := by
      simp only [cpgCons]; rw [eR]
    rw [this, eT]
    simp only [cpgPrims, ← hYd]
    change c.q.p / (R * c.q.T) * R * c.q.T = _
    field_simp
  have hrho' : (cpgPrims th c).Q.rho = c.q.p / (R * c.q.T) := rfl
  have hrn : c.q.p / (R * c.q.T) ≠ 0 := by positivity
  refine ⟨⟨ep, ?_, ?_, ?_, eT, fun n hn => ?_⟩, ⟨?_, ?_, ?_, ?_, ?_, fun n hn => ?_⟩, ⟨rfl, rfl, rfl, rfl, rfl, fun n hn => ?_⟩⟩
  · simp only [cpgCons, cpgPrims, ← hYd]; exact mul_div_cancel_left₀ _ hrn
  · simp only [cpgCons, cpgPrims, ← hYd]; exact mul_div_cancel_left₀ _ hrn
  · simp only [cpgCons, cpgPrims, ← hYd]; exact mul_div_cancel_left₀ _ hrn
  · simp only [cpgCons, hn, if_true]
    rw [hY n (by omega), hYd, localY_congr (fun m hm => okY_clip hq.Y hm) (by omega), localY_ok hq.Y]
    have : n ≠ th.ns - 1 := by omega
    simp [fullY, this]
  · simp only [cpgCons, ecp, eR]; rfl
  · simp only [cpgCons, ecp]; rfl
  · have : (cpgCons th (cpgPrims th c)).qh.rhoh = (cpgPrims th c).Q.rho * ((cp - R) * c.q.T +
        (cpgCons th (cpgPrims th c)).q.p / (cpgPrims th c).Q.rho) := by
      rw [← ee]; rfl
    rw [this, ep]
    simp only [cpgPrims, ← hYd]
    change c.q.p / (R * c.q.T) * ((cp - R) * c.q.T + c.q.p / (c.q.p / (R * c.q.T))) = c.q.p / (R * c.q.T) * (cp * c.q.T)
    field_simp
    ring
  · have : (cpgCons th (cpgPrims th c)).qh.c = Real.sqrt (cp / (cp - R) * R * (cpgCons th (cpgPrims th c)).q.T) := by
      simp only [cpgCons, ecp, eR]
    rw [this, eT]; rfl
  · have : (cpgCons th (cpgPrims th c)).qh.rhoe = (cpgPrims th c).Q.rho * ((cp - R) * c.q.T) := by
      rw [← ee]; rfl
    rw [this]
    simp only [cpgPrims, ← hYd]
    change c.q.p / (R * c.q.T) * ((cp - R) * c.q.T) = c.q.p / (R * c.q.T) * (cp * c.q.T - c.q.p / (c.q.p / (R * c.q.T)))
    field_simp
  · have : (cpgCons th (cpgPrims th c)).qh.hi n = (cpgCons th (cpgPrims th c)).q.T * th.cp0 n := by
      simp [cpgCons, hn]
    rw [this, eT]
    simp [cpgPrims, hn]
  · have : (cpgCons th (cpgPrims th c)).Q.rhoY n = consRhoY th.ns (cpgPrims th c).Q n := rfl
    rw [this, consRhoY_eq hrho hn, hQ n hn, hY n (by omega)]

/-- positive density and internal energy; species arbitrary -/
def PosEnergy (Q : Cons) : Prop := 0 < Q.rho ∧ (Q.rhou^2 + Q.rhov^2 + Q.rhow^2) / (2 * Q.rho) < Q.rhoE

/-- the stored conserved variables after "cons" are reproduced by "prims": positive density and internal energy, any species -/
theorem cons_prims (ht : th.Ok) (c : Cell) (hpe : PosEnergy c.Q) :
    (cpgPrims th (cpgCons th c)).Q.Same th.ns (cpgCons th c).Q ∧
    (cpgPrims th (cpgCons th c)).qh.Same th.ns (cpgCons th c).qh ∧
    0 < (cpgCons th c).q.T ∧ 0 < (cpgCons th c).q.p := by
  obtain ⟨hr, he⟩ := hpe
  have hu := consY_unit (ns := th.ns) hr
  have hs : Simplex th.ns (localY th.ns (consY th.ns c.Q)) := localY_simplex ht.ns hu
  have hR : 0 < Rmix th (localY th.ns (consY th.ns c.Q)) := Rmix_pos ht.Ru ht.MW hs
  have hcp := cp_gt_R ht hs
  have hY : ∀ n < th.ns, localY th.ns (clipY th.ns (cpgCons th c).q.Y) n = localY th.ns (consY th.ns c.Q) n := by
    intro n hn
    have h1 : ∀ m < th.ns - 1, clipY th.ns (cpgCons th c).q.Y m = localY th.ns (consY th.ns c.Q) m := by
      intro m hm
      have : (cpgCons th c).q.Y m = localY th.ns (consY th.ns c.Q) m := by simp [cpgCons, hm]
      simp only [clipY, hm, if_true, this]
      rw [min_eq_left (localY_le_one ht.ns hu (by omega)), max_eq_left (localY_nonneg hu (by omega))]
    rw [localY_congr h1 hn, localY_localY ht.ns hu]
  obtain ⟨eR, ecp, -⟩ := mix_congr hY
  set Y := localY th.ns (consY th.ns c.Q) with hYd
  set R := Rmix th Y with hRd
  set cp := cpmix th Y with hcpd
  have hcv : 0 < cp - R := by linarith
  set e := (c.Q.rhoE - 0.5 * (c.Q.rhou^2 + c.Q.rhov^2 + c.Q.rhow^2) / c.Q.rho) / c.Q.rho with hed
  have hepos : 0 < e := by
    rw [hed]
    refine div_pos ?_ hr
    have : 0.5 * (c.Q.rhou^2 + c.Q.rhov^2 + c.Q.rhow^2) / c.Q.rho = (c.Q.rhou^2 + c.Q.rhov^2 + c.Q.rhow^2) / (2 * c.Q.rho) := by
      field_simp; norm_num; ring
    rw [this]; linarith
  have eT : (cpgCons th c).q.T = e / (cp - R) := rfl
  have hT : 0 < (cpgCons th c).q.T := by rw [eT]; positivity
  have ep : (cpgCons th c).q.p = c.Q.rho * R * (cpgCons th c).q.T := rfl
  have hp : 0 < (cpgCons th c).q.p := by rw [ep]; positivity
  have hrho : (cpgPrims th (cpgCons th c)).Q.rho = c.Q.rho := by
    have : (cpgPrims th (cpgCons th c)).Q.rho = (cpgCons th c).q.p / (R * (cpgCons th c).q.T) := by
      simp only [cpgPrims]; rw [eR]
    rw [this, ep]; field_simp
  have hTn : (cpgCons th c).q.T ≠ 0 := hT.ne'
  have hRe : (cpgPrims th (cpgCons th c)).qh.rhoe = c.Q.rho * e := by
    have : (cpgPrims th (cpgCons th c)).qh.rhoe = (cpgPrims th (cpgCons th c)).Q.rho *
        (cpmix th (localY th.ns (clipY th.ns (cpgCons th c).q.Y)) * (cpgCons th c).q.T -
          (cpgCons th c).q.p / (cpgPrims th (cpgCons th c)).Q.rho) := rfl
    rw [this, hrho, ecp, ep, eT]
    field_simp
  refine ⟨⟨hrho, ?_, ?_, ?_, ?_, fun n hn => ?_⟩, ⟨?_, ?_, ?_, ?_, hRe, fun n hn => ?_⟩, hT, hp⟩
  · have : (cpgPrims th (cpgCons th c)).Q.rhou = (cpgPrims th (cpgCons th c)).Q.rho * (c.Q.rhou / c.Q.rho) := rfl
    rw [this, hrho]; change _ = c.Q.rhou; field_simp
  · have : (cpgPrims th (cpgCons th c)).Q.rhov = (cpgPrims th (cpgCons th c)).Q.rho * (c.Q.rhov / c.Q.rho) := rfl
    rw [this, hrho]; change _ = c.Q.rhov; field_simp
  · have : (cpgPrims th (cpgCons th c)).Q.rhow = (cpgPrims th (cpgCons th c)).Q.rho * (c.Q.rhow / c.Q.rho) := rfl
    rw [this, hrho]; change _ = c.Q.rhow; field_simp
  · have : (cpgPrims th (cpgCons th c)).Q.rhoE = (cpgPrims th (cpgCons th c)).qh.rhoe + 0.5 * ((c.Q.rhou / c.Q.rho)^2 +
        (c.Q.rhov / c.Q.rho)^2 + (c.Q.rhow / c.Q.rho)^2) * (cpgPrims th (cpgCons th c)).Q.rho := rfl
    rw [this, hrho, hRe, hed]; change _ = c.Q.rhoE; field_simp; ring
  · have h1 : (cpgPrims th (cpgCons th c)).Q.rhoY n = localY th.ns (clipY th.ns (cpgCons th c).q.Y) n *
        (cpgPrims th (cpgCons th c)).Q.rho := by simp [cpgPrims, hn]
    have h2 : (cpgCons th c).Q.rhoY n = consRhoY th.ns c.Q n := rfl
    rw [h1, h2, hY n (by omega), hrho, consRhoY_eq hr hn]
  · simp only [cpgPrims, ecp, eR]; rfl
  · simp only [cpgPrims, ecp]; rfl
  · have h1 : (cpgPrims th (cpgCons th c)).qh.rhoh = (cpgPrims th (cpgCons th c)).Q.rho *
        (cpmix th (localY th.ns (clipY th.ns (cpgCons th c).q.Y)) * (cpgCons th c).q.T) := rfl
    have h2 : (cpgCons th c).qh.rhoh = c.Q.rho * (e + (cpgCons th c).q.p / c.Q.rho) := rfl
    rw [h1, h2, hrho, ecp, ep, eT]; field_simp; ring
  · simp only [cpgPrims, ecp, eR]; rfl
  · simp only [cpgPrims, cpgCons, hn, if_true]

/-- C22: conserved -> primitives -> conserved is the identity on admissible conserved variables. -/
theorem C22_cons_prims_cons (ht : th.Ok) (c : Cell) (hQ : c.Q.Ok th.ns) :
    (cpgPrims th (cpgCons th c)).Q.Same th.ns c.Q := by
  obtain ⟨⟨h1, h2, h3, h4, h5, h6⟩, -⟩ := cons_prims ht c ⟨hQ.rho, hQ.e⟩
  refine ⟨h1, h2, h3, h4, h5, fun n hn => ?_⟩
  rw [h6 n hn]
  change consRhoY th.ns c.Q n = _
  rw [consRhoY_eq hQ.rho hn, localY_ok (consY_okY hQ)]
  have : n ≠ th.ns - 1 := by omega
  have := hQ.rho
  simp only [fullY, ‹n ≠ th.ns - 1›, if_false, (consY_ok hQ hn).2]
  field_simp

/-- C22: whatever the stored species (negative, oversumming), once conserved variables with positive density and internal
    energy have been converted, the cell is a fixed point: converting back and forth reproduces conserved variables and
    derived quantities. -/
theorem C22_cleaned (ht : th.Ok) (c : Cell) (hr : 0 < c.Q.rho)
    (he : (c.Q.rhou^2 + c.Q.rhov^2 + c.Q.rhow^2) / (2 * c.Q.rho) < c.Q.rhoE) :
    (cpgPrims th (cpgCons th c)).Q.Same th.ns (cpgCons th c).Q ∧
    (cpgPrims th (cpgCons th c)).qh.Same th.ns (cpgCons th c).qh :=
  ⟨(cons_prims ht c ⟨hr, he⟩).1, (cons_prims ht c ⟨hr, he⟩).2.1⟩

/-! ### C24 -/

theorem consistent_prims_aux (ht : th.Ok) (c : Cell) (hp : 0 < c.q.p) (hT : 0 < c.q.T) :
    Consistent th (cpgPrims th c) := by
  have hs := prims_simplex ht c
  have hR : 0 < Rmix th (localY th.ns (clipY th.ns c.q.Y)) := Rmix_pos ht.Ru ht.MW hs
  have hcp := cp_gt_R ht hs
  have hYe : ∀ n < th.ns, fullY th.ns (fun n => (cpgPrims th c).Q.rhoY n / (cpgPrims th c).Q.rho) n =
      localY th.ns (clipY th.ns c.q.Y) n := by
    intro n hn
    have hrn : (cpgPrims th c).Q.rho ≠ 0 := by simp only [cpgPrims]; positivity
    have h1 : ∀ m < th.ns - 1, (cpgPrims th c).Q.rhoY m / (cpgPrims th c).Q.rho = localY th.ns (clipY th.ns c.q.Y) m := by
      intro m hm
      have : (cpgPrims th c).Q.rhoY m = localY th.ns (clipY th.ns c.q.Y) m * (cpgPrims th c).Q.rho := by simp [cpgPrims, hm]
      rw [this]; field_simp
    rw [← fullY_localY ht.ns]
    unfold fullY
    rw [sum_congr rfl fun m hm => h1 m (mem_range.1 hm)]
    split_ifs with h
    · rfl
    · exact h1 n (by omega)
  have eR : gasConst th (fullY th.ns (fun n => (cpgPrims th c).Q.rhoY n / (cpgPrims th c).Q.rho)) =
      Rmix th (localY th.ns (clipY th.ns c.q.Y)) := by
    rw [← Rmix_eq]; exact (mix_congr hYe).1
  set R := Rmix th (localY th.ns (clipY th.ns c.q.Y)) with hRd
  set cp := cpmix th (localY th.ns (clipY th.ns c.q.Y)) with hcpd
  have hcv : 0 < cp - R := by linarith
  have hcpp : 0 < cp := by linarith
  have hrho : (cpgPrims th c).Q.rho = c.q.p / (R * c.q.T) := rfl
  have hc : (cpgPrims th c).qh.c = Real.sqrt (cp / (cp - R) * R * c.q.T) := rfl
  refine ⟨?_, ⟨rfl, rfl, rfl⟩, ?_, ?_, ?_, ?_, ?_, ?_, hp, hT, ?_⟩
  · rw [eR, hrho]; change c.q.p = _ * R * c.q.T; field_simp
  · change c.q.p / (R * c.q.T) * (cp * c.q.T) = c.q.p / (R * c.q.T) * (cp * c.q.T - c.q.p / (c.q.p / (R * c.q.T))) + c.q.p
    field_simp; ring
  · change c.q.p / (R * c.q.T) * (cp * c.q.T - c.q.p / (c.q.p / (R * c.q.T))) + 0.5 * (c.q.u^2 + c.q.v^2 + c.q.w^2) * (c.q.p / (R * c.q.T))
      = c.q.p / (R * c.q.T) * (cp * c.q.T - c.q.p / (c.q.p / (R * c.q.T))) + (c.q.p / (R * c.q.T)) * (c.q.u^2 + c.q.v^2 + c.q.w^2) / 2
    ring
  · rw [eR, hc, Real.sq_sqrt (by positivity)]; rfl
  · rw [hc]; exact Real.sqrt_pos.2 (by positivity)
  · change 1 < cp / (cp - R)
    rw [lt_div_iff₀ hcv]; linarith
  · rw [hrho]; positivity
  · rw [eR]; change cp / (cp - R) * (cp - R) = cp; field_simp

/-- C24: given primitives with positive pressure and temperature (any species), the converted cell is consistent. -/
theorem C24_prims (ht : th.Ok) (c : Cell) (hp : 0 < c.q.p) (hT : 0 < c.q.T) : Consistent th (cpgPrims th c) :=
  consistent_prims_aux ht c hp hT

/-- C24: given conserved variables with positive density and internal energy (any species), the converted cell is
    consistent. -/
theorem C24_cons (ht : th.Ok) (c : Cell) (hr : 0 < c.Q.rho)
    (he : (c.Q.rhou^2 + c.Q.rhov^2 + c.Q.rhow^2) / (2 * c.Q.rho) < c.Q.rhoE) : Consistent th (cpgCons th c) := by
  obtain ⟨⟨h1, h2, h3, h4, h5, h6⟩, ⟨g1, g2, g3, g4, g5, g6⟩, hT, hp⟩ := cons_prims ht c ⟨hr, he⟩
  have k := consistent_prims_aux ht (cpgCons th c) hp hT
  have eY : ∀ n < th.ns, fullY th.ns (fun n => (cpgPrims th (cpgCons th c)).Q.rhoY n / (cpgPrims th (cpgCons th c)).Q.rho) n =
      fullY th.ns (fun n => (cpgCons th c).Q.rhoY n / (cpgCons th c).Q.rho) n := by
    intro n hn
    have h7 : ∀ m < th.ns - 1, (cpgPrims th (cpgCons th c)).Q.rhoY m / (cpgPrims th (cpgCons th c)).Q.rho =
        (cpgCons th c).Q.rhoY m / (cpgCons th c).Q.rho := fun m hm => by rw [h6 m hm, h1]
    unfold fullY
    rw [sum_congr rfl fun m hm => h7 m (mem_range.1 hm)]
    split_ifs with h
    · rfl
    · exact h7 n (by omega)
  have eR : gasConst th (fullY th.ns (fun n => (cpgPrims th (cpgCons th c)).Q.rhoY n / (cpgPrims th (cpgCons th c)).Q.rho)) =
      gasConst th (fullY th.ns (fun n => (cpgCons th c).Q.rhoY n / (cpgCons th c).Q.rho)) := by
    rw [← Rmix_eq, ← Rmix_eq]; exact (mix_congr eY).1
  have eos := k.eos
  have sound := k.sound
  have mayer := k.mayer
  rw [eR] at eos sound mayer
  rw [h1] at eos
  obtain ⟨m1, m2, m3⟩ := k.mom
  exact ⟨eos, ⟨by rw [← h2, ← h1]; exact m1, by rw [← h3, ← h1]; exact m2, by rw [← h4, ← h1]; exact m3⟩,
    by rw [← g3, ← g5]; exact k.enthalpy, by rw [← h5, ← g5, ← h1]; exact k.energy, by rw [← g4, ← g1]; exact sound,
    by rw [← g4]; exact k.soundPos, by rw [← g1]; exact k.gamma, hr, hp, hT, by rw [← g1, ← g2]; exact mayer⟩

/-- C24 finding: with oversumming stored mass fractions, "prims" rescales the fractions it uses but leaves the stored
    primitive fractions unscaled, so primitives and conserved species of the same cell then disagree (three species, stored
    fractions 1 and 1, conserved 1/2 and 1/2). -/
theorem C23_prims_stale_violated (th : Th) (h3 : th.ns = 3) (c : Cell) (hY : c.q.Y 0 = 1 ∧ c.q.Y 1 = 1)
    (hr : (cpgPrims th c).Q.rho ≠ 0) :
    (cpgPrims th c).q.Y 0 = 1 ∧ (cpgPrims th c).Q.rhoY 0 / (cpgPrims th c).Q.rho = 1/2 := by
  have e0 : clipY 3 c.q.Y 0 = 1 := by simp [clipY, hY.1]
  have e1 : clipY 3 c.q.Y 1 = 1 := by simp [clipY, hY.2]
  have es : testSum 3 (clipY 3 c.q.Y) = 2 := by simp [testSum, sum_range_succ, e0, e1]; norm_num
  refine ⟨?_, ?_⟩
  · simp only [cpgPrims, h3]; exact e0
  · have : (cpgPrims th c).Q.rhoY 0 = localY 3 (clipY 3 c.q.Y) 0 * (cpgPrims th c).Q.rho := by simp [cpgPrims, h3]
    rw [this]
    simp [localY, es, e0]
    field_simp

/-! ### Non-vacuity -/

/-- air-like two-species table -/
def exTh : Th := ⟨2, 8314.46261815324, fun n => if n = 0 then 28 else 32, fun _ => 1000, fun _ _ => 0⟩

example : exTh.Ok ∧ (Prim.Ok 2 ⟨101325, 10, 20, 30, 300, fun _ => 0.7⟩) ∧
    (Cons.Ok 2 ⟨1, 1, 2, 3, 250000, fun _ => 0.7⟩) := by
  refine ⟨⟨by simp [exTh], by norm_num [exTh], ?_, ?_⟩, ⟨by norm_num, by norm_num, ?_, ?_⟩, ⟨by norm_num, by norm_num, ?_, ?_⟩⟩
  · intro n _; simp only [exTh]; split_ifs <;> norm_num
  · intro n _; simp only [exTh]; split_ifs <;> norm_num
  · intro n _; norm_num
  · norm_num
  · intro n _; norm_num
  · norm_num

end PG.Thermo
