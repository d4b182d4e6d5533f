import Verif.Trans.Spec
import Mathlib.Algebra.Order.BigOperators.Ring.Finset
import Mathlib.Data.List.Flatten
import Mathlib.Data.Nat.Choose.Sum
import Mathlib.Algebra.BigOperators.Fin
import Mathlib.Algebra.BigOperators.Field
import Mathlib.Tactic.NormNum
import Mathlib.Tactic.Positivity
/-!
C77: transport properties of a cell depend only on its state. C78: mixture rules.
-/
noncomputable section
namespace PG.Trans
open Finset

/-! ### composition -/

theorem fillY_eq (tb : Tab) (hns : 1 ≤ tb.ns) (c : TrIn) (s : Scr) (n : ℕ) (hn : n < tb.ns) :
    (fillY tb c s).Y n = massFrac tb.ns c n := by
  unfold fillY massFrac
  dsimp only
  split
  · rfl
  · rw [if_pos (by omega)]

theorem mass_eq (tb : Tab) (hns : 1 ≤ tb.ns) (c : TrIn) (s : Scr) :
    mass tb (fillY tb c s) = ∑ m ∈ range tb.ns, massFrac tb.ns c m / tb.MW m :=
  sum_congr rfl fun n hn => by rw [fillY_eq tb hns c s n (mem_range.1 hn)]

theorem fillX_eq (tb : Tab) (hns : 1 ≤ tb.ns) (c : TrIn) (s : Scr) (n : ℕ) (hn : n < tb.ns) :
    (fillX tb (fillY tb c s)).X n = moleFrac tb.ns tb.MW c n := by
  unfold fillX moleFrac
  dsimp only
  rw [if_pos hn, mass_eq tb hns, fillY_eq tb hns c s n hn]

theorem wilke_congr {ns : ℕ} {MW mu mu' X X' : ℕ → ℝ} (hm : ∀ n < ns, mu n = mu' n) (hX : ∀ n < ns, X n = X' n) :
    wilke ns MW mu X = wilke ns MW mu' X' := by
  unfold wilke
  refine sum_congr rfl fun n hn => ?_
  rw [hm n (mem_range.1 hn), hX n (mem_range.1 hn)]
  congr 1
  refine sum_congr rfl fun n2 hn2 => ?_
  unfold phi
  rw [hm n (mem_range.1 hn), hm n2 (mem_range.1 hn2), hX n2 (mem_range.1 hn2)]

theorem kMix_congr {ns : ℕ} {k k' X X' : ℕ → ℝ} (hk : ∀ n < ns, k n = k' n) (hX : ∀ n < ns, X n = X' n) :
    kMix ns k X = (∑ n ∈ range ns, X' n * k' n + 1 / ∑ n ∈ range ns, X' n / k' n) / 2 := by
  unfold kMix
  have e1 : ∑ n ∈ range ns, X n * k n = ∑ n ∈ range ns, X' n * k' n :=
    sum_congr rfl fun n hn => by rw [hk n (mem_range.1 hn), hX n (mem_range.1 hn)]
  have e2 : ∑ n ∈ range ns, X n / k n = ∑ n ∈ range ns, X' n / k' n :=
    sum_congr rfl fun n hn => by rw [hk n (mem_range.1 hn), hX n (mem_range.1 hn)]
  rw [e1, e2]; ring

/-! ### C77 -/

/-- a step whose result does not depend on the scratch gives a schedule-independent call -/
theorem stateOnly_of_step {ns : ℕ} {step : Scr → TrIn → Scr × TrOut} {f : TrIn → TrOut}
    (h : ∀ s c, Same ns (step s c).2 (f c)) : StateOnly ns step f := by
  classical
  intro κ cells sched
  have key : ∀ (l : List (ℕ × κ)) (st : RunSt κ) (x : κ),
      ((∃ r, st.out x = some r ∧ Same ns r (f (cells x))) ∨ ∃ ev ∈ l, ev.2 = x) →
      ∃ r, (l.foldl (runStep step cells) st).out x = some r ∧ Same ns r (f (cells x)) := by
    intro l
    induction l with
    | nil => intro st x hx; simpa using hx
    | cons ev l ih =>
      intro st x hx
      rw [List.foldl_cons]
      refine ih _ x ?_
      by_cases hxe : ev.2 = x
      · left
        refine ⟨(step (st.scr ev.1) (cells ev.2)).2, ?_, ?_⟩
        · subst hxe; simp [runStep]
        · rw [hxe]; exact h _ _
      · rcases hx with ⟨r, h1, h2⟩ | ⟨ev', h1, h2⟩
        · left
          refine ⟨r, ?_, h2⟩
          simp only [runStep]
          rw [Function.update_of_ne (Ne.symm hxe)]
          exact h1
        · rcases List.mem_cons.1 h1 with rfl | h1
          · exact absurd h2 hxe
          · exact Or.inr ⟨ev', h1, h2⟩
  intro ev hev
  exact key sched _ ev.2 (Or.inr ⟨ev, hev, rfl⟩)

/-- C77: constantProps gives every cell the same viscosity, conductivity and diffusivities, functions of that cell's state,
    for every distribution of cells over workers and every order, and whatever the scratch holds. -/
theorem C77_constantProps (tb : Tab) (hns : 1 ≤ tb.ns) : StateOnly tb.ns (constStep tb) (constSpec tb) := by
  refine stateOnly_of_step fun s c => ?_
  have hX := fillX_eq tb hns c s
  have hk : kMix tb.ns tb.kappa0 (fillX tb (fillY tb c s)).X = _ := kMix_congr (k' := tb.kappa0) (fun _ _ => rfl) hX
  refine ⟨wilke_congr (fun _ _ => rfl) hX, hk, fun n _ => ?_⟩
  show kMix tb.ns tb.kappa0 (fillX tb (fillY tb c s)).X / (c.rho * c.cp) = _
  rw [hk]; rfl

theorem pureIdx_none_or_last (tb : Tab) (hns : 1 ≤ tb.ns) (c : TrIn) (s : Scr) (hp : NotPure tb.ns tb.MW c) :
    pureIdx tb (fillY tb c s) = none ∨ pureIdx tb (fillY tb c s) = some (tb.ns - 1) := by
  rcases h : pureIdx tb (fillY tb c s) with _ | pz
  · exact Or.inl rfl
  · right
    have h1 := List.find?_some h
    have h2 := List.mem_of_find?_eq_some h
    simp only [decide_eq_true_eq] at h1
    have h3 : pz < tb.ns := List.mem_range.1 h2
    by_cases h4 : pz < tb.ns - 1
    · refine absurd ?_ (hp pz h4)
      unfold moleFrac
      rw [← fillY_eq tb hns c s pz h3, ← mass_eq tb hns c s]; exact h1
    · congr 1; omega

theorem fillXBreak_eq (tb : Tab) (hns : 1 ≤ tb.ns) (c : TrIn) (s : Scr) (hp : NotPure tb.ns tb.MW c) (n : ℕ) (hn : n < tb.ns) :
    (fillXBreak tb (fillY tb c s)).X n = moleFrac tb.ns tb.MW c n := by
  unfold fillXBreak
  rcases pureIdx_none_or_last tb hns c s hp with h | h <;> rw [h] <;> dsimp only
  · exact fillX_eq tb hns c s n hn
  · rw [if_pos (by omega), ← fillX_eq tb hns c s n hn]
    unfold fillX; dsimp only; rw [if_pos hn]

theorem fillXBreak_other (tb : Tab) (s : Scr) : (fillXBreak tb s).muSp = s.muSp ∧ (fillXBreak tb s).kappaSp = s.kappaSp ∧
    (fillXBreak tb s).Dij = s.Dij ∧ (fillXBreak tb s).D = s.D := by
  unfold fillXBreak; split <;> exact ⟨rfl, rfl, rfl, rfl⟩

theorem fillD_other (tb : Tab) (p : ℝ) (s0 s : Scr) : (fillD tb p s0 s).muSp = s.muSp ∧ (fillD tb p s0 s).kappaSp = s.kappaSp ∧
    (fillD tb p s0 s).X = s.X := by
  unfold fillD; split <;> exact ⟨rfl, rfl, rfl⟩

theorem sqrtsqrt_sq {T : ℝ} : Real.sqrt (Real.sqrt T) ^ 2 = Real.sqrt T := Real.sq_sqrt (Real.sqrt_nonneg _)

/-- C77: kineticTheory started on clean accumulators (NSCOMPILE build, or the first cell a worker processes) gives viscosity
    and conductivity that depend on the cell's state only, provided the mixture is not exactly one pure species other than the
    last: they are the Wilke and mean-conductivity mixtures of the fitted species values, whatever the rest of the scratch
    holds. What is missing: later cells of a worker in the default build (`C77_accumulation_violated`), pure species
    (`C77_pure_violated`). -/
theorem C77_kinetic_partial (tb : Tab) (hns : 1 ≤ tb.ns) (junk : Scr) (c : TrIn) (hp : NotPure tb.ns tb.MW c) :
    (kinStep tb junk.nscompile c).2.mu = wilke tb.ns tb.MW (fitMu tb c.T) (moleFrac tb.ns tb.MW c) ∧
    (kinStep tb junk.nscompile c).2.kappa =
      (let X := moleFrac tb.ns tb.MW c
       (∑ n ∈ range tb.ns, X n * fitKappa tb c.T n + 1 / ∑ n ∈ range tb.ns, X n / fitKappa tb c.T n) / 2) := by
  set s1 := fillY tb c junk.nscompile with hs1
  have hX := fillXBreak_eq tb hns c junk.nscompile hp
  have e1 : ∀ n < tb.ns, (kinStep tb junk.nscompile c).1.muSp n = fitMu tb c.T n := fun n hn => by
    unfold kinStep
    dsimp only
    rw [(fillD_other _ _ _ _).1]
    unfold fillSpecies
    dsimp only
    rw [if_pos hn, (fillXBreak_other _ _).1]
    show ((0 + poly (tb.muPoly n) c.T) * _) ^ 2 = _
    rw [mul_pow, sqrtsqrt_sq]
    unfold fitMu poly; ring
  have e2 : ∀ n < tb.ns, (kinStep tb junk.nscompile c).1.kappaSp n = fitKappa tb c.T n := fun n hn => by
    unfold kinStep
    dsimp only
    rw [(fillD_other _ _ _ _).2.1]
    unfold fillSpecies
    dsimp only
    rw [if_pos hn, (fillXBreak_other _ _).2.1]
    show (0 + poly (tb.kappaPoly n) c.T) * _ = _
    unfold fitKappa poly; ring
  have e3 : ∀ n < tb.ns, (kinStep tb junk.nscompile c).1.X n = moleFrac tb.ns tb.MW c n := fun n hn => by
    unfold kinStep
    dsimp only
    rw [(fillD_other _ _ _ _).2.2]
    exact hX n hn
  exact ⟨wilke_congr e1 e3, kMix_congr e2 e3⟩

/-- C77: the unity-Lewis kinetic model on clean accumulators depends on the state only (no restriction on purity). Missing:
    later cells of a worker in the default build, `C77_accumulation_violated`. -/
theorem C77_unityLewis_partial (tb : Tab) (hns : 1 ≤ tb.ns) (junk junk' : Scr) (c : TrIn) :
    Same tb.ns (kinULStep tb junk.nscompile c).2 (kinULStep tb junk'.nscompile c).2 := by
  have e1 : ∀ j : Scr, ∀ n < tb.ns, (kinULStep tb j.nscompile c).1.muSp n = poly (tb.muPoly n) c.T * Real.exp (0.5 * Real.log c.T) :=
    fun j n hn => by
      unfold kinULStep fillSpeciesUL; dsimp only; rw [if_pos hn]
      show (0 + _) * _ = _
      rw [zero_add]
  have e2 : ∀ j : Scr, ∀ n < tb.ns, (kinULStep tb j.nscompile c).1.kappaSp n = poly (tb.kappaPoly n) c.T * Real.exp (0.5 * Real.log c.T) :=
    fun j n hn => by
      unfold kinULStep fillSpeciesUL; dsimp only; rw [if_pos hn]
      show (0 + _) * _ = _
      rw [zero_add]
  have e3 : ∀ j : Scr, ∀ n < tb.ns, (kinULStep tb j.nscompile c).1.X n = moleFrac tb.ns tb.MW c n :=
    fun j n hn => fillX_eq tb hns c j.nscompile n hn
  have hk : (kinULStep tb junk.nscompile c).2.kappa = (kinULStep tb junk'.nscompile c).2.kappa := by
    have a := kMix_congr (e2 junk) (e3 junk)
    have b := kMix_congr (e2 junk') (e3 junk')
    exact a.trans b.symm
  refine ⟨(wilke_congr (e1 junk) (e3 junk)).trans (wilke_congr (e1 junk') (e3 junk')).symm, hk, fun n _ => ?_⟩
  show (kinULStep tb junk.nscompile c).2.kappa / _ = (kinULStep tb junk'.nscompile c).2.kappa / _
  rw [hk]

/-- the two accumulating kernels -/
inductive Kin | full | unityLewis
/-- the per-cell step of an accumulating kernel -/
def Kin.step : Kin → Tab → Scr → TrIn → Scr × TrOut
  | .full => kinStep
  | .unityLewis => kinULStep

theorem moleFrac_one {tb : Tab} (h1 : tb.ns = 1) (hMW : tb.MW 0 ≠ 0) (c : TrIn) : moleFrac tb.ns tb.MW c 0 = 1 := by
  unfold moleFrac massFrac
  rw [h1]; simp
  field_simp

theorem sqrt_eq_exp {T : ℝ} (hT : 0 < T) : Real.exp (0.5 * Real.log T) = Real.sqrt T := by
  rw [Real.sqrt_eq_rpow, Real.rpow_def_of_pos hT]; congr 1; ring

/-- conductivity of a single-species gas after a worker whose accumulator holds `k` processed the cell -/
theorem kin_single (kd : Kin) (tb : Tab) (h1 : tb.ns = 1) (hMW : tb.MW 0 ≠ 0) (s : Scr) (c : TrIn) (hT : 0 < c.T) :
    (kd.step tb s c).1.kappaSp 0 = (s.kappaSp 0 + poly (tb.kappaPoly 0) c.T) * Real.sqrt c.T ∧
    (kd.step tb s c).2.kappa = (s.kappaSp 0 + poly (tb.kappaPoly 0) c.T) * Real.sqrt c.T := by
  have hns : 1 ≤ tb.ns := by omega
  have hX := moleFrac_one h1 hMW c
  have key : ∀ (k X : ℕ → ℝ), X 0 = 1 → kMix tb.ns k X = k 0 := fun k X h => by
    unfold kMix; rw [h1]; simp [h]; ring
  cases kd
  · have hp : NotPure tb.ns tb.MW c := fun n hn => by omega
    have e : (kinStep tb s c).1.kappaSp 0 = (s.kappaSp 0 + poly (tb.kappaPoly 0) c.T) * Real.sqrt c.T := by
      unfold kinStep
      dsimp only
      rw [(fillD_other _ _ _ _).2.1]
      unfold fillSpecies
      dsimp only
      rw [if_pos (by omega), (fillXBreak_other _ _).2.1]
      rfl
    refine ⟨e, ?_⟩
    show kMix tb.ns (kinStep tb s c).1.kappaSp (kinStep tb s c).1.X = _
    rw [key, e]
    unfold kinStep
    dsimp only
    rw [(fillD_other _ _ _ _).2.2]
    exact (fillXBreak_eq tb hns c s hp 0 (by omega)).trans hX
  · have e : (kinULStep tb s c).1.kappaSp 0 = (s.kappaSp 0 + poly (tb.kappaPoly 0) c.T) * Real.sqrt c.T := by
      unfold kinULStep fillSpeciesUL
      dsimp only
      rw [if_pos (by omega), sqrt_eq_exp hT]
      rfl
    refine ⟨e, ?_⟩
    show kMix tb.ns (kinULStep tb s c).1.kappaSp (kinULStep tb s c).1.X = _
    rw [key, e]
    exact (fillX_eq tb hns c s 0 (by omega)).trans hX

/-- C77, violated (default build, both kinetic kernels): for any single-species gas and any state with positive temperature
    and non-zero conductivity fit, two cells holding exactly the same state get different conductivities when one worker
    processes both. -/
theorem C77_accumulation_violated (kd : Kin) (tb : Tab) (h1 : tb.ns = 1) (hMW : tb.MW 0 ≠ 0) (c : TrIn) (hT : 0 < c.T)
    (hk : fitKappa tb c.T 0 ≠ 0) :
    ∃ r0 r1, (run (kd.step tb) (fun _ : Bool => c) [(0, false), (0, true)]).out false = some r0 ∧
      (run (kd.step tb) (fun _ : Bool => c) [(0, false), (0, true)]).out true = some r1 ∧ r0.kappa ≠ r1.kappa := by
  have a := kin_single kd tb h1 hMW Scr.zero c hT
  set s1 := (kd.step tb Scr.zero c).1 with hs1
  have b := kin_single kd tb h1 hMW s1 c hT
  refine ⟨(kd.step tb Scr.zero c).2, (kd.step tb s1 c).2, ?_, ?_, ?_⟩
  · simp [run, runStep]
  · simp [run, runStep, hs1]
  · rw [a.2, b.2, a.1]
    have hz : Scr.zero.kappaSp 0 = 0 := rfl
    rw [hz]
    set P := poly (tb.kappaPoly 0) c.T with hP
    have hPs : fitKappa tb c.T 0 = Real.sqrt c.T * P := rfl
    rw [hPs] at hk
    have h2 : Real.sqrt c.T ≠ 0 := fun h => hk (by rw [h, zero_mul])
    have h3 : P ≠ 0 := fun h => hk (by rw [h, mul_zero])
    intro e
    have : P * Real.sqrt c.T * Real.sqrt c.T = 0 := by linear_combination -e
    exact (mul_ne_zero (mul_ne_zero h3 h2) h2) this

end PG.Trans
