import Verif.Diff.Spec
import Mathlib.Algebra.BigOperators.Fin
import Mathlib.Tactic.FinCases
import Mathlib.Tactic.Positivity
import Mathlib.Tactic.NormNum
/-!
C61 (diffusive fluxes: zero on uniform fields, closed species fluxes, stress law, sign of conduction, viscous work) and
C76 (damped gradients: exact on linear fields, reversal, dependence on the frame).
-/
noncomputable section
namespace PG.Diff
open V3 Finset

theorem avg_eq (a b : ℝ) : avg a b = (b + a) / 2 := by unfold avg; ring
theorem avg_comm (a b : ℝ) : avg a b = avg b a := by unfold avg; ring

/-- face gradient used by a scheme -/
def Scheme.grad : Scheme → FaceD → DCell → DCell → ℕ → V3
  | .plain, _, L, R => gradAvg L R
  | .damped, f, L, R => gradDamp L R f

/-- whether the scheme clamps the last mass fraction -/
def Scheme.clamp : Scheme → Bool
  | .plain => true
  | .damped => false

theorem Scheme.flux_eq (sc : Scheme) (ns : ℕ) (f : FaceD) (L R : DCell) :
    sc.flux ns f L R = faceFlux sc.clamp ns (sc.grad f L R) f.s L R := by cases sc <;> rfl

theorem grad_uniform (sc : Scheme) {L R : DCell} (f : FaceD) {l : ℕ} (hq : L.q l = R.q l) (hL : L.g l = 0) (hR : R.g l = 0) :
    sc.grad f L R l = 0 := by
  cases sc
  · ext <;> simp [Scheme.grad, gradAvg, hL, hR, avg]
  · ext <;> simp [Scheme.grad, gradDamp, extrap, hL, hR, avg, hq]

theorem faceFlux_zero (clamp : Bool) (ns : ℕ) (G : ℕ → V3) (s : V3) (L R : DCell) (hG : ∀ l, 1 ≤ l → l < ns + 4 → G l = 0)
    (hns : 1 ≤ ns) (l : ℕ) (hl : l < ns + 4) : faceFlux clamp ns G s L R l = 0 := by
  have h4 : G 4 = 0 := hG 4 (by omega) (by omega)
  have h1 : G 1 = 0 := hG 1 (by omega) (by omega)
  have h2 : G 2 = 0 := hG 2 (by omega) (by omega)
  have h3 : G 3 = 0 := hG 3 (by omega) (by omega)
  have hg : ∀ n < ns - 1, sgrad G s n = 0 := fun n hn => by
    simp [sgrad, hG (5+n) (by omega) (by omega)]
  have hgl : sgradLast ns G s = 0 := by
    unfold sgradLast; rw [sum_eq_zero (fun n hn => hg n (mem_range.1 hn))]; ring
  have hv : corrVel ns L R G s = 0 := by
    unfold corrVel
    rw [sum_eq_zero (fun n hn => by rw [hg n (mem_range.1 hn), mul_zero]), hgl]; ring
  have hs : ∀ n < ns - 1, specFlux ns L R G s n = 0 := fun n hn => by unfold specFlux; rw [hg n hn, hv]; ring
  have hst : stress (avg R.mu L.mu) (G 1) (G 2) (G 3) = ⟨0, 0, 0, 0, 0, 0⟩ := by
    rw [h1, h2, h3]; simp [stress]
  match l with
  | 0 => rfl
  | 1 => simp only [faceFlux, hst]; ring
  | 2 => simp only [faceFlux, hst]; ring
  | 3 => simp only [faceFlux, hst]; ring
  | 4 =>
    simp only [faceFlux, hst]
    rw [sum_eq_zero (fun n hn => by rw [hs n (mem_range.1 hn), zero_mul]), h4]
    unfold lastFlux; rw [hgl, hv]; simp
  | n + 5 => exact hs n (by omega)

/-- C61: uniform velocity, temperature and composition give zero flux of every conserved quantity, whatever the transport
    coefficients, enthalpies, densities, geometry and number of species. -/
theorem C61_uniform_zero (sc : Scheme) (ns : ℕ) (hns : 1 ≤ ns) (f : FaceD) (L R : DCell) (h : Uniform ns L R)
    (l : ℕ) (hl : l < ns + 4) : sc.flux ns f L R l = 0 := by
  rw [sc.flux_eq]
  exact faceFlux_zero _ _ _ _ _ _ (fun m h1 h2 => grad_uniform sc f (h m h1 h2).1 (h m h1 h2).2.1 (h m h1 h2).2.2) hns l hl

/-- C61: diffusion transports no mass. -/
theorem C61_no_mass (sc : Scheme) (ns : ℕ) (f : FaceD) (L R : DCell) : sc.flux ns f L R 0 = 0 := by
  rw [sc.flux_eq]; rfl

theorem sum_spec (ns : ℕ) (L R : DCell) (G : ℕ → V3) (s : V3) :
    ∑ n ∈ range (ns - 1), specFlux ns L R G s n + lastFlux false ns L R G s = 0 := by
  unfold specFlux lastFlux lastY
  simp only [Bool.false_eq_true, if_false]
  rw [sum_add_distrib]
  have e1 : ∑ n ∈ range (ns - 1), -avg R.rho L.rho * avg (R.D n) (L.D n) * sgrad G s n =
      -avg R.rho L.rho * ∑ n ∈ range (ns - 1), avg (R.D n) (L.D n) * sgrad G s n := by
    rw [mul_sum]; exact sum_congr rfl fun n _ => by ring
  have e2 : ∑ n ∈ range (ns - 1), avg (R.q (5 + n)) (L.q (5 + n)) * avg R.rho L.rho * corrVel ns L R G s =
      (∑ n ∈ range (ns - 1), avg (R.q (5 + n)) (L.q (5 + n))) * avg R.rho L.rho * corrVel ns L R G s := by
    rw [sum_mul, sum_mul]
  have e3 : corrVel ns L R G s = ∑ n ∈ range (ns - 1), avg (R.D n) (L.D n) * sgrad G s n +
      avg (R.D (ns-1)) (L.D (ns-1)) * sgradLast ns G s := rfl
  rw [e1, e2]
  have e4 : ∑ n ∈ range (ns - 1), avg (R.D n) (L.D n) * sgrad G s n =
      corrVel ns L R G s - avg (R.D (ns-1)) (L.D (ns-1)) * sgradLast ns G s := by rw [e3]; ring
  rw [e4]; ring

theorem lastY_clamp {ns : ℕ} {L R : DCell} (h : ∑ n ∈ range (ns - 1), (L.q (5+n) + R.q (5+n)) / 2 ≤ 1) :
    lastY true ns L R = lastY false ns L R := by
  unfold lastY
  simp only [if_true, Bool.false_eq_true, if_false]
  refine max_eq_left ?_
  simp only [avg_eq]; linarith

theorem sum_species (ns : ℕ) (hns : 1 ≤ ns) (F : ℕ → ℝ) (h : ℕ → ℝ) :
    ∑ k ∈ range ns, speciesFlux ns F k * h k =
      ∑ n ∈ range (ns - 1), F (5 + n) * h n + (F 0 - ∑ n ∈ range (ns - 1), F (5 + n)) * h (ns - 1) := by
  obtain ⟨m, rfl⟩ : ∃ m, ns = m + 1 := ⟨ns - 1, by omega⟩
  rw [sum_range_succ]
  simp only [Nat.add_sub_cancel]
  congr 1
  · refine sum_congr rfl fun n hn => ?_
    have := mem_range.1 hn
    simp only [speciesFlux, Nat.add_sub_cancel, if_neg (Nat.ne_of_lt this)]
  · simp only [speciesFlux, Nat.add_sub_cancel, if_true]

/-- face mass fraction of species `k`: the mean of the two cells, the last one by difference -/
def faceY (ns : ℕ) (L R : DCell) (k : ℕ) : ℝ :=
  if k = ns - 1 then 1 - ∑ n ∈ range (ns - 1), (L.q (5+n) + R.q (5+n)) / 2 else (L.q (5+k) + R.q (5+k)) / 2

/-- normal gradient (times area) of species `k` for face gradients `G`, the last one by difference -/
def faceDY (ns : ℕ) (G : ℕ → V3) (s : V3) (k : ℕ) : ℝ :=
  if k = ns - 1 then -∑ n ∈ range (ns - 1), dot (G (5+n)) s else dot (G (5+k)) s

/-- Fick's law with the correction velocity that keeps the sum of all `ns` species fluxes zero -/
def fick (ns : ℕ) (L R : DCell) (G : ℕ → V3) (s : V3) (k : ℕ) : ℝ :=
  let rho := (L.rho + R.rho) / 2
  let D := fun j => (L.D j + R.D j) / 2;
  -rho * (D k * faceDY ns G s k - faceY ns L R k * ∑ j ∈ range ns, D j * faceDY ns G s j)

theorem sgrad_eq (G : ℕ → V3) (s : V3) (n : ℕ) : sgrad G s n = dot (G (5+n)) s := rfl

theorem faceDY_of_lt {ns k : ℕ} (hk : k < ns - 1) (G : ℕ → V3) (s : V3) : faceDY ns G s k = sgrad G s k := by
  unfold faceDY; rw [if_neg (by omega)]; rfl
theorem faceDY_last (ns : ℕ) (G : ℕ → V3) (s : V3) : faceDY ns G s (ns - 1) = sgradLast ns G s := by
  unfold faceDY sgradLast; rw [if_pos rfl, zero_sub]; rfl

theorem corrVel_eq {ns : ℕ} (hns : 1 ≤ ns) (L R : DCell) (G : ℕ → V3) (s : V3) :
    ∑ j ∈ range ns, (L.D j + R.D j) / 2 * faceDY ns G s j = corrVel ns L R G s := by
  obtain ⟨m, rfl⟩ : ∃ m, ns = m + 1 := ⟨ns - 1, by omega⟩
  rw [sum_range_succ]
  unfold corrVel
  have := faceDY_last (m + 1) G s
  simp only [Nat.add_sub_cancel] at this ⊢
  rw [this]
  simp only [avg_eq]
  congr 1
  exact sum_congr rfl fun n hn => by rw [faceDY_of_lt (by simpa using mem_range.1 hn)]

/-- C61: every species flux, the implied last one included, is Fick's law with correction velocity, for arbitrary gradients,
    coefficients and species counts. -/
theorem C61_fick (sc : Scheme) (ns : ℕ) (f : FaceD) (L R : DCell) (k : ℕ) (hk : k < ns) :
    speciesFlux ns (sc.flux ns f L R) k = fick ns L R (sc.grad f L R) f.s k := by
  have hns : 1 ≤ ns := by omega
  have hF : ∀ n, sc.flux ns f L R (5 + n) = specFlux ns L R (sc.grad f L R) f.s n := fun n => by
    simp only [sc.flux_eq, Nat.add_comm 5 n, faceFlux]
  unfold speciesFlux fick
  dsimp only
  rw [corrVel_eq hns, C61_no_mass]
  simp only [hF]
  by_cases h : k = ns - 1
  · subst h
    rw [if_pos rfl, faceDY_last]
    have := sum_spec ns L R (sc.grad f L R) f.s
    rw [show (0:ℝ) - ∑ n ∈ range (ns - 1), specFlux ns L R (sc.grad f L R) f.s n = lastFlux false ns L R (sc.grad f L R) f.s by
      linarith]
    unfold lastFlux lastY faceY
    simp only [Bool.false_eq_true, if_false, if_true, avg_eq]
    ring
  · rw [if_neg h, faceDY_of_lt (by omega)]
    unfold specFlux faceY
    rw [if_neg h]
    simp only [avg_eq]
    ring

/-- C61: Fickian fluxes with the correction velocity sum to zero over all species, for any gradients and coefficients
    (this is what makes the zero mass flux and the species fluxes consistent). -/
theorem C61_species_sum (ns : ℕ) (hns : 1 ≤ ns) (G : ℕ → V3) (s : V3) (L R : DCell) :
    ∑ k ∈ range ns, fick ns L R G s k = 0 := by
  have hY : ∑ k ∈ range ns, faceY ns L R k = 1 := by
    obtain ⟨m, rfl⟩ : ∃ m, ns = m + 1 := ⟨ns - 1, by omega⟩
    rw [sum_range_succ]
    have : ∑ k ∈ range m, faceY (m+1) L R k = ∑ n ∈ range m, (L.q (5+n) + R.q (5+n)) / 2 :=
      sum_congr rfl fun k hk => by
        have := mem_range.1 hk
        unfold faceY; rw [if_neg (by omega)]
    rw [this]; unfold faceY; simp
  unfold fick
  dsimp only
  rw [← mul_sum, sum_sub_distrib, ← sum_mul, hY]; ring

/-- C61: the energy flux carries exactly the enthalpies of the species fluxes, the last species included, on top of
    conduction and work (the flux the same face would have with all species enthalpies zero). The undamped scheme clamps the
    last mass fraction, so there the mean mass fractions must sum to at most one. -/
theorem C61_enthalpy_partial (sc : Scheme) (ns : ℕ) (hns : 1 ≤ ns) (f : FaceD) (L R : DCell)
    (hY : sc = .plain → ∑ n ∈ range (ns - 1), (L.q (5+n) + R.q (5+n)) / 2 ≤ 1) :
    sc.flux ns f L R 4 = sc.flux ns f { L with h := fun _ => 0 } { R with h := fun _ => 0 } 4
      + ∑ k ∈ range ns, speciesFlux ns (sc.flux ns f L R) k * ((L.h k + R.h k) / 2) := by
  set L0 : DCell := { L with h := fun _ => 0 } with hL0
  set R0 : DCell := { R with h := fun _ => 0 } with hR0
  rw [sum_species ns hns]
  have h0 := C61_no_mass sc ns f L R
  have hF : ∀ n, sc.flux ns f L R (5 + n) = specFlux ns L R (sc.grad f L R) f.s n := fun n => by
    simp only [sc.flux_eq, Nat.add_comm 5 n, faceFlux]
  have hg : sc.grad f L0 R0 = sc.grad f L R := by cases sc <;> rfl
  have hlast : lastFlux sc.clamp ns L R (sc.grad f L R) f.s = -∑ n ∈ range (ns - 1), specFlux ns L R (sc.grad f L R) f.s n := by
    have : lastFlux sc.clamp ns L R (sc.grad f L R) f.s = lastFlux false ns L R (sc.grad f L R) f.s := by
      cases sc
      · unfold lastFlux; rw [show Scheme.clamp .plain = true from rfl, lastY_clamp (hY rfl)]
      · rfl
    rw [this]; linarith [sum_spec ns L R (sc.grad f L R) f.s]
  rw [h0]
  simp only [hF]
  rw [sc.flux_eq, sc.flux_eq, hg]
  simp only [faceFlux]
  rw [hlast]
  simp only [hL0, hR0, avg_eq, add_zero, zero_div, mul_zero, sum_const_zero]
  ring

/-- Jacobian `∂_j u_i` from the face gradients of the velocity components -/
def velGrad (G : ℕ → V3) (i j : Fin 3) : ℝ := comp (G (1 + i)) j

/-- C61: momentum flux is minus the Newtonian stress applied to the face area vector (Stokes' hypothesis). -/
theorem C61_newton (sc : Scheme) (ns : ℕ) (f : FaceD) (L R : DCell) (i : Fin 3) :
    comp (mom (sc.flux ns f L R)) i =
      -∑ j, newton ((L.mu + R.mu) / 2) (velGrad (sc.grad f L R)) i j * comp f.s j := by
  rw [sc.flux_eq]
  generalize sc.grad f L R = G
  have key : ∀ A : Fin 3 → ℝ, ∑ j, A j = A 0 + A 1 + A 2 := fun A => Fin.sum_univ_three A
  fin_cases i <;> simp [key, comp, mom, faceFlux, stress, newton, velGrad, avg_eq] <;> ring

/-- C61: the stress is symmetric and traceless, and the power it dissipates is non-negative for non-negative viscosity, zero
    exactly when the trace-free symmetric velocity gradient vanishes. -/
theorem C61_stress (mu : ℝ) (A : Fin 3 → Fin 3 → ℝ) :
    (∀ i j, newton mu A i j = newton mu A j i) ∧ ∑ i, newton mu A i i = 0 ∧
    (0 ≤ mu → 0 ≤ ∑ i, ∑ j, newton mu A i j * A i j) ∧
    (0 < mu → (∑ i, ∑ j, newton mu A i j * A i j = 0 ↔ ∀ i j, newton mu A i j = 0)) := by
  have key : ∀ B : Fin 3 → ℝ, ∑ j, B j = B 0 + B 1 + B 2 := fun B => Fin.sum_univ_three B
  have sym : ∀ i j, newton mu A i j = newton mu A j i := fun i j => by
    unfold newton
    by_cases h : i = j
    · subst h; rfl
    · rw [if_neg h, if_neg (Ne.symm h)]; ring
  -- dissipation as a sum of squares
  have dis : ∀ m, ∑ i, ∑ j, newton m A i j * A i j = m / 2 * ∑ i, ∑ j, (newton 1 A i j) ^ 2 := fun m => by
    simp only [key, newton]
    norm_num [Fin.ext_iff]
    ring
  have nn : ∀ i j, newton mu A i j = mu * newton 1 A i j := fun i j => by unfold newton; ring
  refine ⟨sym, ?_, fun h => ?_, fun h => ⟨fun e i j => ?_, fun e => ?_⟩⟩
  · simp only [key, newton, if_true]; ring
  · rw [dis]
    exact mul_nonneg (by linarith) (Finset.sum_nonneg fun i _ => Finset.sum_nonneg fun j _ => sq_nonneg _)
  · rw [dis] at e
    have e' : ∑ i, ∑ j, (newton 1 A i j) ^ 2 = 0 := by
      rcases mul_eq_zero.1 e with h' | h'
      · linarith
      · exact h'
    have e1 := (Finset.sum_eq_zero_iff_of_nonneg (fun i _ => Finset.sum_nonneg fun j _ => sq_nonneg (newton 1 A i j))).1 e' i
      (Finset.mem_univ i)
    have e2 := (Finset.sum_eq_zero_iff_of_nonneg (fun j _ => sq_nonneg (newton 1 A i j))).1 e1 j (Finset.mem_univ j)
    rw [nn, pow_eq_zero_iff two_ne_zero |>.1 e2, mul_zero]
  · simp [e]

/-- C61: rigid-body rotation (antisymmetric velocity gradient) produces no stress. -/
theorem C61_rigid (mu : ℝ) (A : Fin 3 → Fin 3 → ℝ) (h : ∀ i j, A i j = -A j i) (i j : Fin 3) : newton mu A i j = 0 := by
  have d : ∀ k, A k k = 0 := fun k => by linarith [h k k]
  unfold newton
  rw [h i j]
  simp [d]

/-- face state without heat flux, species or enthalpies -/
def NoHeat (sc : Scheme) (ns : ℕ) (f : FaceD) (L R : DCell) : Prop :=
  dot (sc.grad f L R 4) f.s = 0 ∧ ∀ n < ns - 1, dot (sc.grad f L R (5+n)) f.s = 0

/-- C61 (what the code computes): without heat and species fluxes the energy flux is MINUS face velocity times momentum
    flux. The property asks for plus; see `C61_work_violated`. -/
theorem C61_work_partial (sc : Scheme) (ns : ℕ) (hns : 1 ≤ ns) (f : FaceD) (L R : DCell) (h : NoHeat sc ns f L R) :
    sc.flux ns f L R 4 = -dot (meanVel L R) (mom (sc.flux ns f L R)) := by
  rw [sc.flux_eq]
  unfold NoHeat at h
  revert h
  generalize sc.grad f L R = G
  rintro ⟨h4, hs⟩
  have hg : ∀ n < ns - 1, sgrad G f.s n = 0 := hs
  have hgl : sgradLast ns G f.s = 0 := by
    unfold sgradLast; rw [sum_eq_zero (fun n hn => hg n (mem_range.1 hn))]; ring
  have hv : corrVel ns L R G f.s = 0 := by
    unfold corrVel
    rw [sum_eq_zero (fun n hn => by rw [hg n (mem_range.1 hn), mul_zero]), hgl]; ring
  have e1 : ∑ n ∈ range (ns - 1), specFlux ns L R G f.s n * avg (R.h n) (L.h n) = 0 :=
    sum_eq_zero fun n hn => by unfold specFlux; rw [hg n (mem_range.1 hn), hv]; ring
  have e2 : lastFlux sc.clamp ns L R G f.s = 0 := by unfold lastFlux; rw [hgl, hv]; ring
  have e4 : (G 4).x * f.s.x + (G 4).y * f.s.y + (G 4).z * f.s.z = 0 := h4
  simp only [faceFlux]
  rw [e1, e2, e4]
  simp only [dot, mom, meanVel, faceFlux, avg_eq]
  ring

/-- C61, violated: whenever the face moves along a non-zero viscous force, viscous work enters the energy equation with the
    wrong sign: the energy flux is not face velocity times momentum flux. -/
theorem C61_work_violated (sc : Scheme) (ns : ℕ) (hns : 1 ≤ ns) (f : FaceD) (L R : DCell) (h : NoHeat sc ns f L R)
    (hw : dot (meanVel L R) (mom (sc.flux ns f L R)) ≠ 0) :
    sc.flux ns f L R 4 ≠ dot (meanVel L R) (mom (sc.flux ns f L R)) := by
  rw [C61_work_partial sc ns hns f L R h]
  intro e
  exact hw (by linarith)

/-- velocity of a cell shifted by a constant -/
def boost (c : V3) (a : DCell) : DCell :=
  { a with q := fun l => if l = 1 then a.q 1 + c.x else if l = 2 then a.q 2 + c.y else if l = 3 then a.q 3 + c.z else a.q l }

/-- C61, violated: seen from a frame moving at constant velocity the momentum fluxes are the same, and the energy flux must
    change by velocity times momentum flux; the code changes it by the opposite amount, so heating by viscous friction
    depends on the observer. -/
theorem C61_galilean_violated (sc : Scheme) (ns : ℕ) (f : FaceD) (L R : DCell) (c : V3) :
    mom (sc.flux ns f (boost c L) (boost c R)) = mom (sc.flux ns f L R) ∧
    sc.flux ns f (boost c L) (boost c R) 4 = sc.flux ns f L R 4 - dot c (mom (sc.flux ns f L R)) := by
  have hg : sc.grad f (boost c L) (boost c R) = sc.grad f L R := by
    cases sc
    · rfl
    · funext l
      have : extrap (boost c R) f l - extrap (boost c L) f l = extrap R f l - extrap L f l := by
        unfold extrap boost
        dsimp only
        split_ifs with h1 h2 h3
        · subst h1; ring
        · subst h2; ring
        · subst h3; ring
        · ring
      show gradDamp (boost c L) (boost c R) f l = gradDamp L R f l
      unfold gradDamp
      dsimp only
      rw [this]; rfl
  rw [sc.flux_eq, sc.flux_eq, hg]
  generalize sc.grad f L R = G
  have hs : ∀ n, specFlux ns (boost c L) (boost c R) G f.s n = specFlux ns L R G f.s n := fun n => by
    unfold specFlux boost corrVel
    simp only [show ¬(5 + n = 1) by omega, show ¬(5 + n = 2) by omega, show ¬(5 + n = 3) by omega, if_false]
  have hl : lastFlux sc.clamp ns (boost c L) (boost c R) G f.s = lastFlux sc.clamp ns L R G f.s := by
    unfold lastFlux lastY boost corrVel
    simp only [show ∀ n, ¬(5 + n = 1) by omega, show ∀ n, ¬(5 + n = 2) by omega, show ∀ n, ¬(5 + n = 3) by omega, if_false]
  refine ⟨rfl, ?_⟩
  have a1 : avg ((boost c R).q 1) ((boost c L).q 1) = avg (R.q 1) (L.q 1) + c.x := by simp [boost, avg]; ring
  have a2 : avg ((boost c R).q 2) ((boost c L).q 2) = avg (R.q 2) (L.q 2) + c.y := by simp [boost, avg]; ring
  have a3 : avg ((boost c R).q 3) ((boost c L).q 3) = avg (R.q 3) (L.q 3) + c.z := by simp [boost, avg]; ring
  simp only [faceFlux, hs, hl, a1, a2, a3, dot, mom]
  have hm : avg (boost c R).mu (boost c L).mu = avg R.mu L.mu := rfl
  have hh : ∀ n, avg ((boost c R).h n) ((boost c L).h n) = avg (R.h n) (L.h n) := fun _ => rfl
  have hk : avg (boost c R).kappa (boost c L).kappa = avg R.kappa L.kappa := rfl
  simp only [hm, hh, hk]
  generalize stress (avg R.mu L.mu) (G 1) (G 2) (G 3) = t
  ring

/-- C61: conduction. With zero velocity and no species diffusion the energy flux is `-κ ∇T·s`, so heat never flows up the
    face temperature gradient. -/
theorem C61_fourier (sc : Scheme) (f : FaceD) (L R : DCell) (hv : meanVel L R = 0) :
    sc.flux 1 f L R 4 = -((L.kappa + R.kappa) / 2) * dot (sc.grad f L R 4) f.s := by
  rw [sc.flux_eq]
  generalize sc.grad f L R = G
  have h1 : (L.q 1 + R.q 1) / 2 = 0 := congrArg V3.x hv
  have h2 : (L.q 2 + R.q 2) / 2 = 0 := congrArg V3.y hv
  have h3 : (L.q 3 + R.q 3) / 2 = 0 := congrArg V3.z hv
  simp only [faceFlux, avg_eq, h1, h2, h3]
  simp [lastFlux, sgradLast, corrVel, lastY, dot, avg_eq]

/-- C76: where the stored values and gradients are those of a linear field, the face gradient of both schemes is the gradient
    of that field, wherever the face centre lies and whatever the two cell centres are. -/
theorem C76_linear_exact (sc : Scheme) (f : FaceD) (L R : DCell) (l : ℕ) (a : ℝ) (g : V3) (h : LinearField L R l a g) :
    sc.grad f L R l = g := by
  obtain ⟨hL, hR, gL, gR⟩ := h
  cases sc
  · ext <;> simp only [Scheme.grad, gradAvg, gL, gR, avg_eq] <;> ring
  · have hw : extrap R f l - extrap L f l = 0 := by
      simp only [extrap, hL, hR, gL, gR, dot, sub_x, sub_y, sub_z]; ring
    ext <;> simp only [Scheme.grad, gradDamp, hw, gL, gR, avg_eq] <;> ring

theorem magEn_rev (f : FaceD) (L R : DCell) : magEn R L f.rev = magEn L R f := by
  unfold magEn FaceD.rev
  simp only [sub_x, sub_y, sub_z, neg_x, neg_y, neg_z]
  congr 1; ring

theorem grad_rev (sc : Scheme) (f : FaceD) (L R : DCell) : sc.grad f.rev R L = sc.grad f L R := by
  funext l
  cases sc
  · ext <;> simp only [Scheme.grad, gradAvg, avg_comm]
  · have hx : ∀ c, extrap c f.rev l = extrap c f l := fun c => rfl
    have hn : f.rev.n = -f.n := rfl
    ext <;> simp only [Scheme.grad, gradDamp, damp, magEn_rev, hx, hn, neg_x, neg_y, neg_z, avg_eq] <;> ring

/-- C76: the flux through a face does not depend on which side is called left: swapping the cells and reversing the normal
    negates every component (so the two blocks sharing a face compute opposite outflows whatever their orientations). -/
theorem C76_reversal (sc : Scheme) (ns : ℕ) (f : FaceD) (L R : DCell) (l : ℕ) :
    sc.flux ns f.rev R L l = -sc.flux ns f L R l := by
  rw [sc.flux_eq, sc.flux_eq, grad_rev]
  generalize sc.grad f L R = G
  have hs : f.rev.s = -f.s := rfl
  rw [hs]
  have hg : ∀ n, sgrad G (-f.s) n = -sgrad G f.s n := fun n => by simp only [sgrad, neg_x, neg_y, neg_z]; ring
  have hgl : sgradLast ns G (-f.s) = -sgradLast ns G f.s := by
    unfold sgradLast; simp only [hg, sum_neg_distrib]; ring
  have hv : corrVel ns R L G (-f.s) = -corrVel ns L R G f.s := by
    unfold corrVel
    rw [hgl]
    simp only [hg, mul_neg, sum_neg_distrib, avg_comm]; ring
  have hsp : ∀ n, specFlux ns R L G (-f.s) n = -specFlux ns L R G f.s n := fun n => by
    unfold specFlux; rw [hg, hv, avg_comm L.rho, avg_comm (L.D n), avg_comm (L.q (5+n))]; ring
  have hY : lastY sc.clamp ns R L = lastY sc.clamp ns L R := by
    unfold lastY; simp only [avg_comm]
  have hl : lastFlux sc.clamp ns R L G (-f.s) = -lastFlux sc.clamp ns L R G f.s := by
    unfold lastFlux; rw [hgl, hv, hY, avg_comm L.rho, avg_comm (L.D (ns-1))]; ring
  match l with
  | 0 => simp [faceFlux]
  | 1 => simp only [faceFlux, neg_x, neg_y, neg_z, avg_comm L.mu]; ring
  | 2 => simp only [faceFlux, neg_x, neg_y, neg_z, avg_comm L.mu]; ring
  | 3 => simp only [faceFlux, neg_x, neg_y, neg_z, avg_comm L.mu]; ring
  | 4 =>
    simp only [faceFlux, neg_x, neg_y, neg_z, avg_comm L.mu, avg_comm L.kappa, hl, avg_comm (L.q 1), avg_comm (L.q 2),
      avg_comm (L.q 3), avg_comm (L.h (ns-1))]
    have : ∑ n ∈ range (ns - 1), specFlux ns R L G (-f.s) n * avg (L.h n) (R.h n) =
        -∑ n ∈ range (ns - 1), specFlux ns L R G f.s n * avg (R.h n) (L.h n) := by
      rw [← sum_neg_distrib]; exact sum_congr rfl fun n _ => by rw [hsp, avg_comm (L.h n)]; ring
    rw [this]; ring
  | n + 5 => exact hsp n

/-- two cells at rest with zero stored temperature gradients: only their temperatures and centres matter -/
structure Slabs (L R : DCell) (k : ℝ) : Prop where
  vel : meanVel L R = 0
  gL : L.g 4 = 0
  gR : R.g 4 = 0
  kL : L.kappa = k
  kR : R.kappa = k

theorem damped_heat (f : FaceD) (L R : DCell) (k S : ℝ) (h : Slabs L R k) (hs : f.s = smul S f.n) (hn : dot f.n f.n = 1) :
    alphaDampingFlux 1 f L R 4 = -k * S * (R.q 4 - L.q 4) / magEn L R f := by
  have e := C61_fourier .damped f L R h.vel
  change alphaDampingFlux 1 f L R 4 = _ at e
  rw [e, h.kL, h.kR, hs]
  have hn' : f.n.x * f.n.x + f.n.y * f.n.y + f.n.z * f.n.z = 1 := hn
  simp only [Scheme.grad, gradDamp, extrap, h.gL, h.gR, dot, smul_x, smul_y, smul_z, avg_eq, damp, zero_x, zero_y, zero_z]
  have : f.n.z * f.n.z = 1 - f.n.x * f.n.x - f.n.y * f.n.y := by linarith
  linear_combination (-k * S * (R.q 4 - L.q 4) / magEn L R f) * hn'

/-- C76: on the damped scheme a temperature jump between two cells drives heat from hot to cold even when the stored cell
    gradients vanish (odd-even modes are damped); the undamped scheme does not see it. -/
theorem C76_damps_jumps (f : FaceD) (L R : DCell) (k S : ℝ) (h : Slabs L R k) (hs : f.s = smul S f.n) (hn : dot f.n f.n = 1)
    (hk : 0 < k) (hS : 0 < S) (hm : 0 < magEn L R f) :
    (L.q 4 < R.q 4 → alphaDampingFlux 1 f L R 4 < 0) ∧ (R.q 4 < L.q 4 → 0 < alphaDampingFlux 1 f L R 4) ∧
    diffusiveFlux 1 f L R 4 = 0 := by
  have e := damped_heat f L R k S h hs hn
  refine ⟨fun hT => ?_, fun hT => ?_, ?_⟩
  · rw [e]
    refine div_neg_of_neg_of_pos ?_ hm
    have := mul_pos (mul_pos hk hS) (sub_pos.2 hT)
    linarith
  · rw [e]
    refine div_pos ?_ hm
    have := mul_pos (mul_pos hk hS) (sub_pos.2 hT)
    linarith
  · have e := C61_fourier .plain f L R h.vel
    change diffusiveFlux 1 f L R 4 = _ at e
    rw [e]
    simp [Scheme.grad, gradAvg, h.gL, h.gR, dot, avg_eq]

/-- C76: when the line of centres or the face normal lies along a coordinate axis, two cells at rest exchange the two-point
    flux `κ S ΔT / |e·n|` with `e` the vector between the centres. -/
theorem C76_two_point_partial (f : FaceD) (L R : DCell) (k S : ℝ) (h : Slabs L R k) (hs : f.s = smul S f.n)
    (hn : dot f.n f.n = 1)
    (hax : (let e := R.xc - L.xc; (e.y * f.n.y = 0 ∧ e.z * f.n.z = 0) ∨ (e.x * f.n.x = 0 ∧ e.z * f.n.z = 0) ∨
      (e.x * f.n.x = 0 ∧ e.y * f.n.y = 0))) :
    alphaDampingFlux 1 f L R 4 = -k * S * (R.q 4 - L.q 4) / |dot (R.xc - L.xc) f.n| := by
  rw [damped_heat f L R k S h hs hn]
  congr 1
  dsimp only at hax
  unfold magEn dot
  dsimp only
  rcases hax with ⟨h1, h2⟩ | ⟨h1, h2⟩ | ⟨h1, h2⟩ <;> rw [h1, h2] <;> simp [Real.sqrt_sq_eq_abs]

/-- a cell at rest at `x` with temperature `T` and unit conductivity -/
def slab (x : V3) (T : ℝ) : DCell := ⟨fun l => if l = 4 then T else 0, fun _ => 0, 0, 1, fun _ => 0, fun _ => 0, 1, x⟩

theorem slabs_slab (x y : V3) (T T' : ℝ) : Slabs (slab x T) (slab y T') 1 :=
  ⟨by simp [meanVel, slab]; rfl, rfl, rfl, rfl, rfl⟩

/-- rotation about the z axis by the angle with cosine 3/5 and sine 4/5 -/
def turn (v : V3) : V3 := ⟨3 / 5 * v.x - 4 / 5 * v.y, 4 / 5 * v.x + 3 / 5 * v.y, v.z⟩

/-- C76, violated: turning the whole grid (cells and face) about an axis changes the heat exchanged, for every cell distance
    `d`, face area `S` and temperature jump: the damping length is not `|e·n|` but depends on the coordinate directions. -/
theorem C76_frame_violated (d S T T' : ℝ) (hd : 0 < d) (hS : 0 < S) (hT : T ≠ T') :
    let x : V3 := ⟨d, 0, 0⟩
    let n : V3 := ⟨1, 0, 0⟩
    alphaDampingFlux 1 ⟨smul S (turn n), turn n, turn 0⟩ (slab (turn 0) T) (slab (turn x) T') 4 ≠
      alphaDampingFlux 1 ⟨smul S n, n, 0⟩ (slab 0 T) (slab x T') 4 := by
  intro x n
  rw [damped_heat _ _ _ 1 S (slabs_slab _ _ _ _) rfl (by simp [turn, n, dot]; norm_num),
    damped_heat _ _ _ 1 S (slabs_slab _ _ _ _) rfl (by simp [n, dot])]
  have m1 : magEn (slab 0 T) (slab x T') ⟨smul S n, n, 0⟩ = d := by
    simp [magEn, slab, x, n, Real.sqrt_sq_eq_abs, abs_of_pos hd]
  have m2 : magEn (slab (turn 0) T) (slab (turn x) T') ⟨smul S (turn n), turn n, turn 0⟩ = d * (Real.sqrt 337 / 25) := by
    simp only [magEn, slab, x, n, turn, sub_x, sub_y, sub_z, zero_x, zero_y, zero_z]
    have : ((3 / 5 * d - 4 / 5 * 0 - (3 / 5 * 0 - 4 / 5 * 0)) * (3 / 5 * 1 - 4 / 5 * 0)) ^ 2 +
        ((4 / 5 * d + 3 / 5 * 0 - (4 / 5 * 0 + 3 / 5 * 0)) * (4 / 5 * 1 + 3 / 5 * 0)) ^ 2 + ((0 - 0) * 0) ^ 2 =
        (d / 25) ^ 2 * 337 := by ring
    rw [this, Real.sqrt_mul (sq_nonneg _), Real.sqrt_sq (by positivity)]; ring
  rw [m1, m2]
  have hq : (slab (turn x) T').q 4 - (slab (turn 0) T).q 4 = T' - T := by simp [slab]
  have hq' : (slab x T').q 4 - (slab 0 T).q 4 = T' - T := by simp [slab]
  rw [hq, hq']
  intro e
  have hs : Real.sqrt 337 ^ 2 = 337 := Real.sq_sqrt (by norm_num)
  have hp : 0 < Real.sqrt 337 := Real.sqrt_pos.2 (by norm_num)
  have hne : T' - T ≠ 0 := sub_ne_zero.2 (Ne.symm hT)
  rw [div_eq_div_iff (by positivity) (by positivity)] at e
  have h1 : S * (T' - T) * d * (Real.sqrt 337 - 25) = 0 := by linear_combination 25 * e
  have h2 : Real.sqrt 337 = 25 := by
    rcases mul_eq_zero.1 h1 with h | h
    · exact absurd h (mul_ne_zero (mul_ne_zero hS.ne' hne) hd.ne')
    · linarith
  rw [h2] at hs; norm_num at hs

/-! ### the hypotheses are met -/

/-- a cell in plane shear `u = y`, viscosity 1, no heat -/
def shear (y : ℝ) : DCell :=
  ⟨fun l => if l = 1 then y else 0, fun l => if l = 1 then ⟨0, 1, 0⟩ else 0, 1, 1, fun _ => 1, fun _ => 1, 1, ⟨0, y, 0⟩⟩
/-- unit face between the layers -/
def shearFace : FaceD := ⟨⟨0, 1, 0⟩, ⟨0, 1, 0⟩, ⟨0, 3/2, 0⟩⟩

/-- Couette flow between layers at y = 1 and y = 2: the viscous force is -1 and the face moves at 3/2, so the hypotheses of
    `C61_work_violated` are met by both schemes. -/
example (sc : Scheme) : NoHeat sc 1 shearFace (shear 1) (shear 2) ∧
    dot (meanVel (shear 1) (shear 2)) (mom (sc.flux 1 shearFace (shear 1) (shear 2))) = -(3 / 2) := by
  have h1 : sc.grad shearFace (shear 1) (shear 2) 1 = ⟨0, 1, 0⟩ :=
    C76_linear_exact sc _ _ _ 1 0 ⟨0, 1, 0⟩ ⟨by simp [shear, dot], by simp [shear, dot], rfl, rfl⟩
  have h0 : ∀ l, l ≠ 1 → sc.grad shearFace (shear 1) (shear 2) l = 0 := fun l hl =>
    grad_uniform sc _ (by simp [shear, hl]) (by simp [shear, hl]) (by simp [shear, hl])
  refine ⟨⟨by rw [h0 4 (by norm_num)]; simp [dot], fun n hn => absurd hn (by omega)⟩, ?_⟩
  rw [sc.flux_eq]
  simp only [dot, mom, faceFlux, h1, h0 2 (by norm_num), h0 3 (by norm_num)]
  norm_num [meanVel, shear, stress, shearFace, avg_eq]

/-- a two-species face with a concentration gradient meets the hypothesis of `C61_enthalpy_partial` -/
example : ∑ n ∈ range (2 - 1), ((slab 0 1).q (5+n) + (slab 0 2).q (5+n)) / 2 ≤ 1 := by norm_num [slab]

/-- a hot and a cold cell meet the hypotheses of `C76_damps_jumps` -/
example : Slabs (slab 0 300) (slab ⟨1, 0, 0⟩ 400) 1 ∧ 0 < magEn (slab 0 300) (slab ⟨1, 0, 0⟩ 400) ⟨⟨1, 0, 0⟩, ⟨1, 0, 0⟩, 0⟩ :=
  ⟨slabs_slab _ _ _ _, by simp [magEn, slab]⟩

/-- the clamp of the undamped scheme breaks the enthalpy balance when the mean mass fractions exceed one -/
theorem C61_clamp_violated :
    let L : DCell := ⟨fun l => if l = 5 then 2 else 0, fun l => if l = 5 then ⟨1, 0, 0⟩ else 0, 0, 0,
      fun n => if n = 0 then 1 else 0, fun n => if n = 1 then 1 else 0, 1, 0⟩
    let f : FaceD := ⟨⟨1, 0, 0⟩, ⟨1, 0, 0⟩, 0⟩
    Scheme.plain.flux 2 f L L 4 ≠ Scheme.plain.flux 2 f { L with h := fun _ => 0 } { L with h := fun _ => 0 } 4
      + ∑ k ∈ range 2, speciesFlux 2 (Scheme.plain.flux 2 f L L) k * ((L.h k + L.h k) / 2) := by
  intro L f
  simp only [Scheme.flux, diffusiveFlux, faceFlux, sum_range_succ, range_zero, sum_empty, speciesFlux, specFlux, lastFlux,
    lastY, corrVel, sgrad, sgradLast, stress, gradAvg, avg_eq, L, f, Nat.add_sub_cancel, show (2:ℕ) - 1 = 1 from rfl,
    show (1:ℕ) + 5 = 6 from rfl]
  norm_num

end PG.Diff
