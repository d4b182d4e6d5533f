import Verif.Whole.Rotate
import Verif.Flux.Freestream
/-!
C110: the advective schemes in a rotated frame.
-/
noncomputable section
namespace PG.Flux
open V3

/-- a cell in the rotated frame -/
def Cell.turn (R : Rotation) (c : Cell) : Cell :=
  { c with
    u := (R.f ⟨c.u, c.v, c.w⟩).x, v := (R.f ⟨c.u, c.v, c.w⟩).y, w := (R.f ⟨c.u, c.v, c.w⟩).z
    rhou := (R.f ⟨c.rhou, c.rhov, c.rhow⟩).x, rhov := (R.f ⟨c.rhou, c.rhov, c.rhow⟩).y, rhow := (R.f ⟨c.rhou, c.rhov, c.rhow⟩).z }

/-- a face in the rotated frame -/
def FaceG.turn (R : Rotation) (g : FaceG) : FaceG := ⟨R.f g.s, R.f g.n, g.S⟩

/-- the scheme does not care about this rotation: mass, energy and species fluxes of the rotated face between the rotated cells
    are the same, the momentum flux is rotated -/
def IsotropicAt (R : Rotation) (s : Scheme) : Prop := ∀ a L r b g,
  s (a.turn R) (L.turn R) (r.turn R) (b.turn R) (g.turn R) = R.comps (s a L r b g)

/-- a scheme for which the frame does not matter -/
def Isotropic (s : Scheme) : Prop := ∀ R, IsotropicAt R s

theorem mk5_turn (R : Rotation) {m a b c e m' a' b' c' e' : ℝ} {sp sp' : ℕ → ℝ} (hm : m' = m) (he : e' = e) (hs : ∀ n, sp' n = sp n)
    (hv : (⟨a', b', c'⟩ : V3) = R.f ⟨a, b, c⟩) : mk5 m' a' b' c' e' sp' = R.comps (mk5 m a b c e sp) := by
  subst hm he
  funext l
  match l with
  | 0 => rfl
  | 1 => exact congrArg V3.x hv
  | 2 => exact congrArg V3.y hv
  | 3 => exact congrArg V3.z hv
  | 4 => rfl
  | n + 5 => exact hs n

theorem proj_turn (R : Rotation) (g : FaceG) (c : Cell) : proj (g.turn R).n (c.turn R) = proj g.n c :=
  R.dot g.n ⟨c.u, c.v, c.w⟩

theorem dotu (R : Rotation) (a b : Cell) :
    (a.turn R).u * (b.turn R).u + (a.turn R).v * (b.turn R).v + (a.turn R).w * (b.turn R).w = a.u * b.u + a.v * b.v + a.w * b.w :=
  R.dot ⟨a.u, a.v, a.w⟩ ⟨b.u, b.v, b.w⟩

theorem dots (R : Rotation) (a : Cell) (g : FaceG) :
    (a.turn R).u * (g.turn R).s.x + (a.turn R).v * (g.turn R).s.y + (a.turn R).w * (g.turn R).s.z = a.u * g.s.x + a.v * g.s.y + a.w * g.s.z :=
  R.dot ⟨a.u, a.v, a.w⟩ g.s

theorem dotm (R : Rotation) (a : Cell) (g : FaceG) :
    (g.turn R).s.x * (a.turn R).rhou + (g.turn R).s.y * (a.turn R).rhov + (g.turn R).s.z * (a.turn R).rhow =
      g.s.x * a.rhou + g.s.y * a.rhov + g.s.z * a.rhow :=
  R.dot g.s ⟨a.rhou, a.rhov, a.rhow⟩

theorem rusanovWith_turn (R : Rotation) (L r : Cell) (g : FaceG) (sp : ℝ) :
    let lam := sp * (g.turn R).S
    let UR := proj (g.turn R).n (r.turn R) * (g.turn R).S
    let UL := proj (g.turn R).n (L.turn R) * (g.turn R).S
    (mk5 (1/2 * (UR * (r.turn R).rho + UL * (L.turn R).rho - lam * ((r.turn R).rho - (L.turn R).rho)))
      (1/2 * ((UR * (r.turn R).u * (r.turn R).rho + (r.turn R).p * (g.turn R).s.x) + (UL * (L.turn R).u * (L.turn R).rho + (L.turn R).p * (g.turn R).s.x) - lam * ((r.turn R).rho * (r.turn R).u - (L.turn R).rho * (L.turn R).u)))
      (1/2 * ((UR * (r.turn R).v * (r.turn R).rho + (r.turn R).p * (g.turn R).s.y) + (UL * (L.turn R).v * (L.turn R).rho + (L.turn R).p * (g.turn R).s.y) - lam * ((r.turn R).rho * (r.turn R).v - (L.turn R).rho * (L.turn R).v)))
      (1/2 * ((UR * (r.turn R).w * (r.turn R).rho + (r.turn R).p * (g.turn R).s.z) + (UL * (L.turn R).w * (L.turn R).rho + (L.turn R).p * (g.turn R).s.z) - lam * ((r.turn R).rho * (r.turn R).w - (L.turn R).rho * (L.turn R).w)))
      (1/2 * (UR * ((r.turn R).rhoE + (r.turn R).p) + UL * ((L.turn R).rhoE + (L.turn R).p) - lam * ((r.turn R).rhoE - (L.turn R).rhoE)))
      (fun n => 1/2 * ((r.turn R).rhoY n * UR + (L.turn R).rhoY n * UL - lam * ((r.turn R).rhoY n - (L.turn R).rhoY n)))) =
    R.comps (let lam := sp * g.S
    let UR := proj g.n r * g.S
    let UL := proj g.n L * g.S
    (mk5 (1/2 * (UR * r.rho + UL * L.rho - lam * (r.rho - L.rho)))
      (1/2 * ((UR * r.u * r.rho + r.p * g.s.x) + (UL * L.u * L.rho + L.p * g.s.x) - lam * (r.rho * r.u - L.rho * L.u)))
      (1/2 * ((UR * r.v * r.rho + r.p * g.s.y) + (UL * L.v * L.rho + L.p * g.s.y) - lam * (r.rho * r.v - L.rho * L.v)))
      (1/2 * ((UR * r.w * r.rho + r.p * g.s.z) + (UL * L.w * L.rho + L.p * g.s.z) - lam * (r.rho * r.w - L.rho * L.w)))
      (1/2 * (UR * (r.rhoE + r.p) + UL * (L.rhoE + L.p) - lam * (r.rhoE - L.rhoE)))
      (fun n => 1/2 * (r.rhoY n * UR + L.rhoY n * UL - lam * (r.rhoY n - L.rhoY n))))) := by
  intro lam UR UL
  have hR : UR = proj g.n r * g.S := by simp only [UR, proj_turn]; rfl
  have hL : UL = proj g.n L * g.S := by simp only [UL, proj_turn]; rfl
  rw [hR, hL]
  generalize proj g.n r * g.S = A
  generalize proj g.n L * g.S = B
  refine mk5_turn R rfl rfl (fun n => rfl) (R.comb (α := 1/2 * (r.p + L.p)) (β := 1/2 * (A - lam) * r.rho) (γ := 1/2 * (B + lam) * L.rho)
    (δ := 0) (ε := 0) (s := g.s) (v := ⟨r.u, r.v, r.w⟩) (w := ⟨L.u, L.v, L.w⟩) (z := 0) (y := 0) ?_ ?_ ?_ ?_ ?_ ?_) <;>
    simp only [Cell.turn, FaceG.turn, lam] <;> ring

theorem rusanov_isotropic : Isotropic fun _ L R _ g => rusanov L R g := by
  intro R a L r b g
  have : rusanovSpeed (L.turn R) (r.turn R) (g.turn R) = rusanovSpeed L r g := by
    unfold rusanovSpeed; rw [proj_turn, proj_turn]; rfl
  simp only [rusanov, this]
  exact rusanovWith_turn R L r g _

/-- Rusanov's flux of given left and right states -/
theorem rusanovOf_isotropic : Isotropic fun _ L R _ g => rusanovOf L R g := by
  intro R a L r b g
  have : musclSpeed (L.turn R) (r.turn R) (g.turn R) = musclSpeed L r g := by
    unfold musclSpeed; rw [proj_turn, proj_turn]; rfl
  simp only [rusanovOf, this]
  exact rusanovWith_turn R L r g _

theorem sideFlux_turn (R : Rotation) (A : Cell) (g : FaceG) : sideFlux (A.turn R) (g.turn R) = R.comps (sideFlux A g) := by
  simp only [sideFlux, proj_turn]
  refine mk5_turn R rfl rfl (fun n => rfl) (R.comb (α := A.p) (β := proj g.n A * g.S) (γ := 0) (δ := 0) (ε := 0) (s := g.s)
    (v := ⟨A.rhou, A.rhov, A.rhow⟩) (w := 0) (z := 0) (y := 0) ?_ ?_ ?_ ?_ ?_ ?_) <;> simp only [Cell.turn, FaceG.turn] <;> ring

theorem starFlux_turn (R : Rotation) (A : Cell) (g : FaceG) (Sk Sstar : ℝ) :
    starFlux (A.turn R) (g.turn R) Sk Sstar = R.comps (starFlux A g Sk Sstar) := by
  simp only [starFlux, proj_turn]
  refine mk5_turn R rfl rfl (fun n => rfl) (R.comb (α := A.p) (β := (proj g.n A - Sk) * g.S)
    (γ := Sk * (A.rho * (Sk - proj g.n A) / (Sk - Sstar)) * Sstar * g.S) (δ := 0) (ε := 0) (s := g.s)
    (v := ⟨A.rhou, A.rhov, A.rhow⟩) (w := g.n) (z := 0) (y := 0) ?_ ?_ ?_ ?_ ?_ ?_) <;> simp only [Cell.turn, FaceG.turn] <;> ring

theorem hllc_isotropic : Isotropic fun _ L R _ g => hllc L R g := by
  intro R a L r b g
  have hs : hllcSstar (L.turn R) (r.turn R) (g.turn R) = hllcSstar L r g := by
    unfold hllcSstar; rw [proj_turn, proj_turn]; rfl
  have hz : R.comps (fun _ => 0) = fun _ => 0 := map_zero R.comps
  have h1 : (L.turn R).c = L.c := rfl
  have h2 : (r.turn R).c = r.c := rfl
  simp only [hllc, hs, proj_turn, h1, h2]
  split_ifs
  · exact sideFlux_turn R L g
  · exact starFlux_turn R L g _ _
  · exact starFlux_turn R r g _ _
  · exact sideFlux_turn R r g
  · exact hz.symm

theorem keepU_turn (R : Rotation) (L r : Cell) (g : FaceG) : keepU (L.turn R) (r.turn R) (g.turn R) = keepU L r g := by
  have h1 := dots R L g
  have h2 := dots R r g
  unfold keepU avg
  linear_combination (1/2) * h1 + (1/2) * h2

theorem keepC_turn (R : Rotation) (L r : Cell) (g : FaceG) : keepC (L.turn R) (r.turn R) (g.turn R) = keepC L r g := by
  unfold keepC; rw [keepU_turn]; rfl

theorem keepWith_turn (R : Rotation) (Ij : ℝ) (L r : Cell) (g : FaceG) :
    keepWith Ij (L.turn R) (r.turn R) (g.turn R) = R.comps (keepWith Ij L r g) := by
  have hK : keepK (L.turn R) (r.turn R) (g.turn R) = keepK L r g := by
    unfold keepK; rw [keepC_turn, dotu]
  have hP : keepP (L.turn R) (r.turn R) (g.turn R) = keepP L r g := by
    unfold keepP; rw [dots, dots]; rfl
  simp only [keepWith, keepC_turn, hK, hP]
  refine mk5_turn R rfl rfl (fun n => rfl) (R.comb (α := avg L.p r.p) (β := keepC L r g / 2) (γ := keepC L r g / 2) (δ := 0) (ε := 0)
    (s := g.s) (v := ⟨L.u, L.v, L.w⟩) (w := ⟨r.u, r.v, r.w⟩) (z := 0) (y := 0) ?_ ?_ ?_ ?_ ?_ ?_) <;>
    simp only [Cell.turn, FaceG.turn, avg] <;> ring

theorem keep_isotropic : Isotropic fun _ L R _ g => KEEP L R g := by
  intro R a L r b g
  simp only [KEEP, keepC_turn]
  exact keepWith_turn R _ L r g

theorem keeppe_isotropic : Isotropic fun _ L R _ g => KEEPpe L R g := by
  intro R a L r b g
  simp only [KEEPpe, keepU_turn]
  exact keepWith_turn R _ L r g

theorem kepaec_isotropic : Isotropic fun _ L R _ g => KEPaEC L R g := by
  intro R a L r b g
  simp only [KEPaEC, keepC_turn]
  exact keepWith_turn R _ L r g

theorem central_isotropic : Isotropic fun _ L R _ g => central L R g := by
  intro R a L r b g
  simp only [central, dots, dotm]
  refine mk5_turn R rfl rfl (fun n => rfl) (R.comb (α := 1/2 * (r.p + L.p)) (β := 1/2 * (r.u * g.s.x + r.v * g.s.y + r.w * g.s.z))
    (γ := 1/2 * (L.u * g.s.x + L.v * g.s.y + L.w * g.s.z)) (δ := 0) (ε := 0)
    (s := g.s) (v := ⟨r.rhou, r.rhov, r.rhow⟩) (w := ⟨L.rhou, L.rhov, L.rhow⟩) (z := 0) (y := 0) ?_ ?_ ?_ ?_ ?_ ?_) <;>
    simp only [Cell.turn, FaceG.turn] <;> ring

theorem ausm_isotropic : Isotropic fun _ L R _ g => ausm L R g := by
  intro R a L r b g
  have hf : ausmFace (L.turn R) (r.turn R) (g.turn R) = ausmFace L r g := by
    have h1 := proj_turn R g L
    have h2 := proj_turn R g r
    simp only [ausmFace, h1, h2]
    rfl
  have key : ∀ (A : Cell) (m p : ℝ), mk5 (m * (g.turn R).S) (m * (A.turn R).u * (g.turn R).S + p * (g.turn R).s.x)
      (m * (A.turn R).v * (g.turn R).S + p * (g.turn R).s.y) (m * (A.turn R).w * (g.turn R).S + p * (g.turn R).s.z)
      (m * ((A.turn R).rhoE + (A.turn R).p) / (A.turn R).rho * (g.turn R).S) (fun n => m * (A.turn R).Y n * (g.turn R).S) =
      R.comps (mk5 (m * g.S) (m * A.u * g.S + p * g.s.x) (m * A.v * g.S + p * g.s.y) (m * A.w * g.S + p * g.s.z)
        (m * (A.rhoE + A.p) / A.rho * g.S) (fun n => m * A.Y n * g.S)) := by
    intro A m p
    refine mk5_turn R rfl rfl (fun n => rfl) (R.comb (α := p) (β := m * g.S) (γ := 0) (δ := 0) (ε := 0) (s := g.s)
      (v := ⟨A.u, A.v, A.w⟩) (w := 0) (z := 0) (y := 0) ?_ ?_ ?_ ?_ ?_ ?_) <;> simp only [Cell.turn, FaceG.turn] <;> ring
  simp only [ausm, hf]
  split_ifs
  · exact key L _ _
  · exact key r _ _

theorem fourth_isotropic : Isotropic fourthKEEP := by
  intro R a L r b g
  have hU : (g.turn R).s.x * four (fun a b => 1/2 * (a.u + b.u)) (a.turn R) (L.turn R) (r.turn R) (b.turn R)
      + (g.turn R).s.y * four (fun a b => 1/2 * (a.v + b.v)) (a.turn R) (L.turn R) (r.turn R) (b.turn R)
      + (g.turn R).s.z * four (fun a b => 1/2 * (a.w + b.w)) (a.turn R) (L.turn R) (r.turn R) (b.turn R) =
      g.s.x * four (fun a b => 1/2 * (a.u + b.u)) a L r b + g.s.y * four (fun a b => 1/2 * (a.v + b.v)) a L r b
      + g.s.z * four (fun a b => 1/2 * (a.w + b.w)) a L r b := by
    have h1 := dots R a g
    have h2 := dots R L g
    have h3 := dots R r g
    have h4 := dots R b g
    unfold four
    linear_combination (-1/12) * h1 + (7/12) * h2 + (7/12) * h3 + (-1/12) * h4
  have hE : four (fun a b => 1/2 * (a.rho + b.rho) * (1/2 * (a.rhoe / a.rho + b.rhoe / b.rho) + 1/2 * (a.u * b.u + a.v * b.v + a.w * b.w)))
      (a.turn R) (L.turn R) (r.turn R) (b.turn R) =
      four (fun a b => 1/2 * (a.rho + b.rho) * (1/2 * (a.rhoe / a.rho + b.rhoe / b.rho) + 1/2 * (a.u * b.u + a.v * b.v + a.w * b.w))) a L r b := by
    simp only [four, dotu]; rfl
  have hp : four (fun a b => 1/2 * (b.p * (a.u * (g.turn R).s.x + a.v * (g.turn R).s.y + a.w * (g.turn R).s.z)
      + a.p * (b.u * (g.turn R).s.x + b.v * (g.turn R).s.y + b.w * (g.turn R).s.z))) (a.turn R) (L.turn R) (r.turn R) (b.turn R) =
      four (fun a b => 1/2 * (b.p * (a.u * g.s.x + a.v * g.s.y + a.w * g.s.z) + a.p * (b.u * g.s.x + b.v * g.s.y + b.w * g.s.z))) a L r b := by
    simp only [four, dots]; rfl
  simp only [fourthKEEP, hU, hE, hp]
  generalize (g.s.x * four (fun a b => 1/2 * (a.u + b.u)) a L r b + g.s.y * four (fun a b => 1/2 * (a.v + b.v)) a L r b
      + g.s.z * four (fun a b => 1/2 * (a.w + b.w)) a L r b) = U
  refine mk5_turn R rfl rfl (fun n => rfl) (R.comb (α := four (fun a b => 1/2 * (a.p + b.p)) a L r b)
    (β := U * (2 * (-1/12) * (1/4 * (r.rho + a.rho)))) (γ := U * (2 * (2/3 * (1/4 * (r.rho + L.rho)) + (-1/12) * (1/4 * (b.rho + L.rho)))))
    (δ := U * (2 * (2/3 * (1/4 * (r.rho + L.rho)) + (-1/12) * (1/4 * (r.rho + a.rho))))) (ε := U * (2 * (-1/12) * (1/4 * (b.rho + L.rho))))
    (s := g.s) (v := ⟨a.u, a.v, a.w⟩) (w := ⟨L.u, L.v, L.w⟩) (z := ⟨r.u, r.v, r.w⟩) (y := ⟨b.u, b.v, b.w⟩) ?_ ?_ ?_ ?_ ?_ ?_) <;>
    simp only [Cell.turn, FaceG.turn, four] <;> ring

/-- scalar dissipation, for given switch values -/
theorem diss_turn (R : Rotation) (a L r x : Cell) (pL pR : ℝ) (g : FaceG) :
    scalarDiss (a.turn R) (L.turn R) (r.turn R) (x.turn R) pL pR (g.turn R) = R.comps (scalarDiss a L r x pL pR g) := by
  have hU : (g.turn R).n.x * avg (L.turn R).u (r.turn R).u + (g.turn R).n.y * avg (L.turn R).v (r.turn R).v
      + (g.turn R).n.z * avg (L.turn R).w (r.turn R).w = g.n.x * avg L.u r.u + g.n.y * avg L.v r.v + g.n.z * avg L.w r.w := by
    have h1 := proj_turn R g L
    have h2 := proj_turn R g r
    unfold proj at h1 h2
    unfold avg
    linear_combination (1/2) * h1 + (1/2) * h2
  simp only [scalarDiss, hU]
  have e1 : (r.turn R).c = r.c := rfl
  have e2 : (L.turn R).c = L.c := rfl
  have e3 : (g.turn R).S = g.S := rfl
  rw [e1, e2, e3]
  generalize (|g.n.x * avg L.u r.u + g.n.y * avg L.v r.v + g.n.z * avg L.w r.w| + 1/2 * (r.c + L.c)) * g.S = A
  refine mk5_turn R rfl rfl (fun n => rfl) (R.comb
    (α := A * max 0 (5/1000 - 1/2 * max pR pL)) (β := A * (-(1/2 * max pR pL) - 3 * max 0 (5/1000 - 1/2 * max pR pL)))
    (γ := A * (1/2 * max pR pL + 3 * max 0 (5/1000 - 1/2 * max pR pL))) (δ := -(A * max 0 (5/1000 - 1/2 * max pR pL))) (ε := 0)
    (s := ⟨a.rhou, a.rhov, a.rhow⟩) (v := ⟨L.rhou, L.rhov, L.rhow⟩) (w := ⟨r.rhou, r.rhov, r.rhow⟩) (z := ⟨x.rhou, x.rhov, x.rhow⟩) (y := 0)
    ?_ ?_ ?_ ?_ ?_ ?_) <;>
    simp only [Cell.turn] <;> ring

end PG.Flux
