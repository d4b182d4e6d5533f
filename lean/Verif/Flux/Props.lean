import Verif.Flux.Consistency
import Mathlib.Tactic.Positivity
/-
C26 consistency, C27 antisymmetry, C28 HLLC upwinding and contacts, C29 Rusanov speed, C31 limited reconstruction,
C60 kinetic energy identities.
-/
namespace PG.Flux
open V3

/-! ### C26 -/

/-- C26: on equal states the fluxes rusanov, ausmPlusUp, KEEP, KEEPpe, KEPaEC, centralDifference, fourthOrderKEEP and
    muscl2rusanov are the exact Euler flux of that state (all components, any number of species).
    (KEPaEC: for positive internal energy; its harmonic mean is 0/0 at zero internal energy.) -/
theorem C26_consistent (a : Cell) (g : FaceG) (ha : a.Consistent) (hg : g.Valid) :
    rusanov a a g = euler a g.s ∧ ausm a a g = euler a g.s ∧ KEEP a a g = euler a g.s ∧ KEEPpe a a g = euler a g.s ∧
    (0 < a.rhoe → KEPaEC a a g = euler a g.s) ∧ central a a g = euler a g.s ∧ fourthKEEP a a a a g = euler a g.s ∧
    muscl2rusanov a a a a g = euler a g.s := by
  refine ⟨rusanov_consistent a g ha hg, ausm_consistent a g ha hg, KEEP_consistent a g ha, KEEPpe_consistent a g ha,
    KEPaEC_consistent a g ha, central_consistent a g ha, fourth_consistent a g ha, ?_⟩
  unfold muscl2rusanov
  rw [(muscl_id false a ha).1, (muscl_id false a ha).2]
  exact rusanovOf_consistent a g ha hg

/-- On equal states hllc is the Euler flux except for the tangential momentum in subsonic flow. -/
theorem hllc_same (a : Cell) (g : FaceG) (ha : a.Consistent) (hg : g.Valid) :
    hllc a a g 0 = euler a g.s 0 ∧ hllc a a g 4 = euler a g.s 4 ∧ (∀ n, hllc a a g (n+5) = euler a g.s (n+5)) ∧
    ((NoShear a g.n ∨ a.c ≤ |proj g.n a|) → hllc a a g = euler a g.s) := by
  have hc := ha.c_pos
  have hs := sideFlux_euler a g ha hg
  unfold hllc
  simp only [hllcSstar_same a g ha]
  by_cases h1 : 0 ≤ proj g.n a - a.c
  · simp only [if_pos h1]
    rw [hs]
    exact ⟨rfl, rfl, fun _ => rfl, fun _ => rfl⟩
  · simp only [if_neg h1]
    by_cases h2 : 0 ≤ proj g.n a
    · rw [if_pos ⟨by linarith, h2⟩, starFlux_same a g ha _ (by linarith), hs]
      refine ⟨rfl, rfl, fun _ => rfl, ?_⟩
      rintro (⟨hx, hy, hz⟩ | h)
      · apply mk5_ext <;> simp [← hx, ← hy, ← hz]
      · rw [abs_of_nonneg h2] at h; linarith
    · rw [if_neg (fun h => h2 h.2)]
      by_cases h3 : 0 ≤ proj g.n a + a.c
      · rw [if_pos ⟨h3, by linarith⟩, starFlux_same a g ha _ (by linarith), hs]
        refine ⟨rfl, rfl, fun _ => rfl, ?_⟩
        rintro (⟨hx, hy, hz⟩ | h)
        · apply mk5_ext <;> simp [← hx, ← hy, ← hz]
        · rw [abs_of_neg (by linarith)] at h
          have h0 : proj g.n a + a.c = 0 := by linarith
          rw [h0]
          apply mk5_ext <;> simp
      · rw [if_neg (fun h => h3 h.1), if_pos (by linarith), hs]
        exact ⟨rfl, rfl, fun _ => rfl, fun _ => rfl⟩

/-- C26 (partial, hllc and muscl2hllc): mass, energy and species are consistent always; all components are consistent
    when the velocity is along the face normal or the flow is not subsonic. MISSING: momentum for subsonic flow with a
    tangential velocity, for which the property is false of this code (`C26_hllc_violated`). -/
theorem C26_hllc_partial (a : Cell) (g : FaceG) (ha : a.Consistent) (hg : g.Valid) (f : FluxV)
    (hf : f = hllc a a g ∨ f = muscl2hllc a a a a g) :
    f 0 = euler a g.s 0 ∧ f 4 = euler a g.s 4 ∧ (∀ n, f (n+5) = euler a g.s (n+5)) ∧
    ((NoShear a g.n ∨ a.c ≤ |proj g.n a|) → f = euler a g.s) := by
  rcases hf with rfl | rfl
  · exact hllc_same a g ha hg
  · unfold muscl2hllc
    rw [(muscl_id true a ha).1, (muscl_id true a ha).2]
    exact hllc_same a g ha hg

/-- a consistent cell moving with velocity `(u,v,w)`, density 1, pressure 1, sound speed 2, one kind of species data -/
noncomputable def exCell (u v w : ℝ) : Cell where
  p := 1
  u := u
  v := v
  w := w
  Y := fun _ => 1/4
  rho := 1
  rhou := u
  rhov := v
  rhow := w
  rhoE := 5 + 1/2 * (u ^ 2 + v ^ 2 + w ^ 2)
  rhoY := fun _ => 1/4
  c := 2
  rhoe := 5

theorem exCell_consistent (u v w : ℝ) : (exCell u v w).Consistent := by
  constructor <;> simp [exCell]

/-- a unit face with normal along x -/
noncomputable def exFace : FaceG := ⟨⟨1, 0, 0⟩, ⟨1, 0, 0⟩, 1⟩

theorem exFace_valid : exFace.Valid := by
  unfold FaceG.Valid exFace; ext <;> simp

/-- C26 is violated by hllc and muscl2hllc: for a uniform state sliding along the face (velocity tangential to it) the
    computed tangential momentum flux is `c * rho * v` instead of zero. -/
theorem C26_hllc_violated :
    (exCell 0 1 0).Consistent ∧ exFace.Valid ∧
    hllc (exCell 0 1 0) (exCell 0 1 0) exFace 2 = 2 ∧ euler (exCell 0 1 0) exFace.s 2 = 0 ∧
    muscl2hllc (exCell 0 1 0) (exCell 0 1 0) (exCell 0 1 0) (exCell 0 1 0) exFace 2 = 2 := by
  have key : hllc (exCell 0 1 0) (exCell 0 1 0) exFace 2 = 2 := by
    unfold hllc
    simp only [hllcSstar_same _ exFace (exCell_consistent 0 1 0)]
    norm_num [proj, exCell, exFace, starFlux]
  refine ⟨exCell_consistent 0 1 0, exFace_valid, key, ?_, ?_⟩
  · norm_num [euler, exCell, exFace]
  · unfold muscl2hllc
    rw [(muscl_id true _ (exCell_consistent 0 1 0)).1, (muscl_id true _ (exCell_consistent 0 1 0)).2]
    exact key

/-- scalarDissipation vanishes on uniform data (its contribution is consistent). -/
theorem C26_scalarDissipation_uniform (a : Cell) (pl pr : ℝ) (g : FaceG) : scalarDiss a a a a pl pr g = fun _ => 0 := by
  apply mk5_ext <;> simp [scalarDiss]

/-! ### C27 -/

theorem proj_rev (g : FaceG) (a : Cell) : proj g.rev.n a = -proj g.n a := by
  simp [proj, FaceG.rev]; ring

theorem four_rev (f : Cell → Cell → ℝ) (hf : ∀ a b, f a b = f b a) (A B C D : Cell) :
    four f D C B A = four f A B C D := by
  unfold four; rw [hf B C, hf B D, hf A C]; ring

theorem ausmFace_rev (L R : Cell) (g : FaceG) :
    (ausmFace R L g.rev).2 = (ausmFace L R g).2 ∧
    (ausmFace R L g.rev).1 = -(ausmFace L R g).1 := by
  have ec : (1/2 * (L.c + R.c) : ℝ) = 1/2 * (R.c + L.c) := by ring
  have er : (1/2 * (L.rho + R.rho) : ℝ) = 1/2 * (R.rho + L.rho) := by ring
  simp only [ausmFace, proj_rev, neg_div, abs_neg, ec, er]
  generalize 1/2 * (R.c + L.c) = a
  generalize proj g.n L / a = ML
  generalize proj g.n R / a = MR
  have eM : ((-proj g.n L) ^ 2 + (-proj g.n R) ^ 2) / (2 * a ^ 2) = (proj g.n R ^ 2 + proj g.n L ^ 2) / (2 * a ^ 2) := by
    congr 1; ring
  rw [eM]
  generalize (proj g.n R ^ 2 + proj g.n L ^ 2) / (2 * a ^ 2) = MB
  generalize Real.sqrt (min 1 (max MB (1/10))) = Mo
  generalize Mo * (2 - Mo) = fa
  set p5p := if 1 ≤ |ML| then 1 / ML * (1/2 * (ML + |ML|)) else
    1/4 * (ML + 1) ^ 2 * (2 - ML - 16 * (3/16 * (-4 + 5 * fa ^ 2)) * ML * (-(1/4) * (MR - 1) ^ 2)) with hp
  set p5m := if 1 ≤ |MR| then 1 / MR * (1/2 * (MR - |MR|)) else
    -(1/4) * (MR - 1) ^ 2 * (-2 - MR + 16 * (3/16 * (-4 + 5 * fa ^ 2)) * MR * (1/4 * (ML + 1) ^ 2)) with hm
  have e1 : (if 1 ≤ |MR| then 1 / -MR * (1/2 * (-MR + |MR|)) else
      1/4 * (-MR + 1) ^ 2 * (2 - -MR - 16 * (3/16 * (-4 + 5 * fa ^ 2)) * -MR * (-(1/4) * (-ML - 1) ^ 2))) = p5m := by
    rw [hm]; split
    · rw [one_div, one_div, inv_neg]; ring
    · ring
  have e2 : (if 1 ≤ |ML| then 1 / -ML * (1/2 * (-ML - |ML|)) else
      -(1/4) * (-ML - 1) ^ 2 * (-2 - -ML + 16 * (3/16 * (-4 + 5 * fa ^ 2)) * -ML * (1/4 * (-MR + 1) ^ 2))) = p5p := by
    rw [hp]; split
    · rw [one_div, one_div, inv_neg]; ring
    · ring
  rw [e1, e2]
  set m4p := if 1 ≤ |ML| then 1/2 * (ML + |ML|) else 1/4 * (ML + 1) ^ 2 * (1 - 16 * (1/8) * (-(1/4) * (MR - 1) ^ 2)) with hmp
  set m4m := if 1 ≤ |MR| then 1/2 * (MR - |MR|) else -(1/4) * (MR - 1) ^ 2 * (1 + 16 * (1/8) * (1/4 * (ML + 1) ^ 2)) with hmm
  have e3 : (if 1 ≤ |MR| then 1/2 * (-MR + |MR|) else
      1/4 * (-MR + 1) ^ 2 * (1 - 16 * (1/8) * (-(1/4) * (-ML - 1) ^ 2))) = -m4m := by
    rw [hmm]; split <;> ring
  have e4 : (if 1 ≤ |ML| then 1/2 * (-ML - |ML|) else
      -(1/4) * (-ML - 1) ^ 2 * (1 + 16 * (1/8) * (1/4 * (-MR + 1) ^ 2))) = -m4p := by
    rw [hmp]; split <;> ring
  rw [e3, e4]
  refine ⟨by ring, ?_⟩
  have e5 : -m4m + -m4p - 1/4 / fa * max (1 - 1 * MB) 0 * (L.p - R.p) / (1/2 * (R.rho + L.rho) * a ^ 2)
      = -(m4p + m4m - 1/4 / fa * max (1 - 1 * MB) 0 * (R.p - L.p) / (1/2 * (R.rho + L.rho) * a ^ 2)) := by ring
  rw [e5]
  generalize m4p + m4m - 1/4 / fa * max (1 - 1 * MB) 0 * (R.p - L.p) / (1/2 * (R.rho + L.rho) * a ^ 2) = M12
  rcases lt_trichotomy M12 0 with h | h | h
  · rw [if_pos (by linarith), if_neg (by linarith)]; ring
  · rw [h]; simp
  · rw [if_neg (by linarith), if_pos h]; ring

/-- C27: exchanging the two sides (whole stencil) and reversing the face negates rusanov, ausmPlusUp, KEEP, KEEPpe,
    KEPaEC, centralDifference and fourthOrderKEEP, component by component, for arbitrary states. -/
theorem C27_antisymmetric (LL L R RR : Cell) (g : FaceG) (l : ℕ) :
    rusanov R L g.rev l = -rusanov L R g l ∧ ausm R L g.rev l = -ausm L R g l ∧ KEEP R L g.rev l = -KEEP L R g l ∧
    KEEPpe R L g.rev l = -KEEPpe L R g l ∧ KEPaEC R L g.rev l = -KEPaEC L R g l ∧
    central R L g.rev l = -central L R g l ∧ fourthKEEP RR R L LL g.rev l = -fourthKEEP LL L R RR g l := by
  have hsx : g.rev.s.x = -g.s.x := rfl
  have hsy : g.rev.s.y = -g.s.y := rfl
  have hsz : g.rev.s.z = -g.s.z := rfl
  have hS : g.rev.S = g.S := rfl
  refine ⟨?_, ?_, ?_, ?_, ?_, ?_, ?_⟩
  · suffices h : rusanov R L g.rev = fun l => -rusanov L R g l from congrFun h l
    have hsp : rusanovSpeed R L g.rev = rusanovSpeed L R g := by
      unfold rusanovSpeed; rw [proj_rev, proj_rev, abs_neg, abs_neg, max_comm]
    apply mk5_ext <;> simp only [rusanov, hsp, proj_rev, hsx, hsy, hsz, hS, mk5_0, mk5_1, mk5_2, mk5_3, mk5_4, mk5_5] <;>
      (try intro n) <;> ring
  · suffices h : ausm R L g.rev = fun l => -ausm L R g l from congrFun h l
    obtain ⟨hp, hm⟩ := ausmFace_rev L R g
    unfold ausm
    simp only [hp, hm]
    generalize (ausmFace L R g).1 = m
    generalize (ausmFace L R g).2 = p12
    have hA : m ≠ 0 → (if 0 < -m then R else L) = (if 0 < m then L else R) := by
      intro h0
      rcases lt_or_gt_of_ne h0 with h | h
      · rw [if_pos (by linarith), if_neg (by linarith)]
      · rw [if_neg (by linarith), if_pos h]
    by_cases h0 : m = 0
    · subst h0
      apply mk5_ext <;> simp [hsx, hsy, hsz]
    · rw [hA h0]
      apply mk5_ext <;> simp only [hsx, hsy, hsz, hS, mk5_0, mk5_1, mk5_2, mk5_3, mk5_4, mk5_5] <;> (try intro n) <;> ring
  · suffices h : KEEP R L g.rev = fun l => -KEEP L R g l from congrFun h l
    apply mk5_ext <;> simp only [KEEP, keepWith, keepC, keepU, keepK, keepP, avg, hsx, hsy, hsz, mk5_0, mk5_1, mk5_2,
      mk5_3, mk5_4, mk5_5] <;> (try intro n) <;> ring
  · suffices h : KEEPpe R L g.rev = fun l => -KEEPpe L R g l from congrFun h l
    apply mk5_ext <;> simp only [KEEPpe, keepWith, keepC, keepU, keepK, keepP, avg, hsx, hsy, hsz, mk5_0, mk5_1, mk5_2,
      mk5_3, mk5_4, mk5_5] <;> (try intro n) <;> ring
  · suffices h : KEPaEC R L g.rev = fun l => -KEPaEC L R g l from congrFun h l
    have e : ∀ x y : ℝ, 2 * (y * x) / (y + x) = 2 * (x * y) / (x + y) := by
      intro x y; rw [mul_comm y x, add_comm y x]
    apply mk5_ext <;> simp only [KEPaEC, keepWith, keepC, keepU, keepK, keepP, avg, hsx, hsy, hsz, mk5_0, mk5_1, mk5_2,
      mk5_3, mk5_4, mk5_5, e (R.rhoe / R.rho)] <;> (try intro n) <;>
      generalize 2 * (R.rhoe / R.rho * (L.rhoe / L.rho)) / (R.rhoe / R.rho + L.rhoe / L.rho) = x <;> ring
  · suffices h : central R L g.rev = fun l => -central L R g l from congrFun h l
    apply mk5_ext <;> simp only [central, hsx, hsy, hsz, mk5_0, mk5_1, mk5_2, mk5_3, mk5_4, mk5_5] <;>
      (try intro n) <;> ring
  · suffices h : fourthKEEP RR R L LL g.rev = fun l => -fourthKEEP LL L R RR g l from congrFun h l
    apply mk5_ext <;> simp only [fourthKEEP, four, hsx, hsy, hsz, mk5_0, mk5_1, mk5_2, mk5_3, mk5_4, mk5_5] <;>
      (try intro n) <;> ring

end PG.Flux
