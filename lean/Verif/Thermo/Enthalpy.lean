import Verif.Thermo.Cubic
/-
C71: the stored species enthalpies, weighted with the mass fractions, add up to the stored mixture enthalpy.
-/
noncomputable section
namespace PG.Thermo
open Finset

/-- mixture enthalpy per volume = density times mass-weighted species enthalpies -/
def EnthalpySum (ns : ℕ) (Y : ℕ → ℝ) (c : Cell) : Prop := c.qh.rhoh = c.Q.rho * ∑ n ∈ range ns, Y n * c.qh.hi n

/-- C71, calorically perfect gas, primitives given -/
theorem C71_cpg_prims (th : Th) (c : Cell) (hY : OkY th.ns c.q.Y) :
    EnthalpySum th.ns (fullY th.ns c.q.Y) (cpgPrims th c) := by
  unfold EnthalpySum cpgPrims
  simp only
  congr 1
  unfold cpmix
  rw [sum_mul]
  refine sum_congr rfl fun n hn => ?_
  rw [if_pos (mem_range.1 hn), localY_ok (okY_clip_eq hY).1, (okY_clip_eq hY).2 n (mem_range.1 hn)]
  ring

/-- C71, calorically perfect gas, conserved variables given -/
theorem C71_cpg_cons {th : Th} (ht : th.Ok) (c : Cell) (hQ : c.Q.Ok th.ns) :
    EnthalpySum th.ns (fullY th.ns (fun n => c.Q.rhoY n / c.Q.rho)) (cpgCons th c) := by
  have hy := consY_okY hQ
  have hs : Simplex th.ns (localY th.ns (consY th.ns c.Q)) := localY_simplex ht.ns (consY_unit hQ.rho)
  have hcR := cp_gt_R ht hs
  have hYf : ∀ n < th.ns, localY th.ns (consY th.ns c.Q) n = fullY th.ns (fun n => c.Q.rhoY n / c.Q.rho) n := by
    intro n hn
    rw [localY_ok hy]
    unfold fullY
    have : ∑ k ∈ range (th.ns - 1), consY th.ns c.Q k = ∑ k ∈ range (th.ns - 1), c.Q.rhoY k / c.Q.rho :=
      sum_congr rfl fun k hk => (consY_ok hQ (mem_range.1 hk)).2
    rw [this]
    split_ifs with h
    · rfl
    · exact (consY_ok hQ (show n < th.ns - 1 by omega)).2
  unfold EnthalpySum cpgCons
  simp only
  have hr := hQ.rho.ne'
  set Y := localY th.ns (consY th.ns c.Q)
  set e := (c.Q.rhoE - 0.5 * (c.Q.rhou ^ 2 + c.Q.rhov ^ 2 + c.Q.rhow ^ 2) / c.Q.rho) / c.Q.rho
  have h1 : e + c.Q.rho * Rmix th Y * (e / (cpmix th Y - Rmix th Y)) / c.Q.rho = cpmix th Y * (e / (cpmix th Y - Rmix th Y)) := by
    have : cpmix th Y - Rmix th Y ≠ 0 := by linarith
    clear_value e Y
    field_simp
    ring
  rw [h1]
  congr 1
  unfold cpmix
  rw [sum_mul]
  refine sum_congr rfl fun n hn => ?_
  rw [if_pos (mem_range.1 hn), ← hYf n (mem_range.1 hn)]
  ring

/-- C71, thermally perfect gas -/
theorem C71_tpg_prims (th : Th) (c : Cell) (hY : OkY th.ns c.q.Y) :
    EnthalpySum th.ns (fullY th.ns c.q.Y) (tpgPrims th c) := by
  unfold EnthalpySum tpgPrims
  simp only
  congr 1
  unfold hT
  refine sum_congr rfl fun n hn => ?_
  rw [if_pos (mem_range.1 hn), localY_ok (okY_clip_eq hY).1, (okY_clip_eq hY).2 n (mem_range.1 hn)]
  ring

/-- C71, real gas: the departure from ideal-gas enthalpy is shared among the species so that the sum is right -/
theorem C71_cubic_prims {th : ThC} (ht : th.Ok) (c c' : Cell) (hY : OkY th.ns c.q.Y) (h : cubicPrims th c = some c') :
    EnthalpySum th.ns (fullY th.ns c.q.Y) c' := by
  unfold cubicPrims at h
  simp only at h
  split at h
  · cases h
  · rename_i Z hZ
    simp only [Option.some.injEq] at h
    rw [← h]
    unfold EnthalpySum
    simp only
    congr 1
    obtain ⟨hy, hyf⟩ := okY_clip_eq hY
    have hs := fullY_simplex ht.ns hy
    have hsum := sumYMW_pos ht.MW hs
    have hloc : ∀ n, localY th.ns (clipY th.ns c.q.Y) n = fullY th.ns (clipY th.ns c.q.Y) n := fun n => localY_ok hy n
    unfold hC
    rw [moleX_ok th ht.ns _ hy, MWmix_moleFrac th ht.MW hs]
    set D := th.Ru * c.q.T * hDep th (moleFrac th.toTh (fullY th.ns (clipY th.ns c.q.Y))) c.q.p c.q.T Z with hD
    have key : ∀ n ∈ range th.ns, fullY th.ns c.q.Y n *
        (if n < th.ns then hiC th (moleFrac th.toTh (fullY th.ns (clipY th.ns c.q.Y))) c.q.p c.q.T Z n else c.qh.hi n) =
        his th.toTh c.q.T n * localY th.ns (clipY th.ns c.q.Y) n + D * (fullY th.ns (clipY th.ns c.q.Y) n / th.MW n) := by
      intro n hn
      rw [if_pos (mem_range.1 hn), hloc, ← hyf n (mem_range.1 hn)]
      unfold hiC
      rw [← hD]; ring
    rw [sum_congr rfl key, sum_add_distrib, ← mul_sum, div_div_eq_mul_div, div_one]
    unfold hT
    ring

example : OkY 3 (fun n => if n = 0 then 1/4 else 1/2) := by
  constructor
  · intro n _; dsimp only; split_ifs <;> norm_num
  · norm_num [Finset.sum_range_succ]

end PG.Thermo
