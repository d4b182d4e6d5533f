import Verif.Whole.RotateGeom
import Verif.Thermo.CubicModel
import Verif.BC.Model
/-!
C110: equations of state and boundary conditions in a rotated frame.
-/
noncomputable section
namespace PG
open V3

namespace Thermo

/-- primitives, conserved variables and a cell in the rotated frame: velocity and momentum turn -/
def Prim.turn (R : Rotation) (q : Prim) : Prim :=
  { q with u := (R.f ⟨q.u, q.v, q.w⟩).x, v := (R.f ⟨q.u, q.v, q.w⟩).y, w := (R.f ⟨q.u, q.v, q.w⟩).z }
def Cons.turn (R : Rotation) (Q : Cons) : Cons :=
  { Q with rhou := (R.f ⟨Q.rhou, Q.rhov, Q.rhow⟩).x, rhov := (R.f ⟨Q.rhou, Q.rhov, Q.rhow⟩).y, rhow := (R.f ⟨Q.rhou, Q.rhov, Q.rhow⟩).z }
def Cell.turn (R : Rotation) (c : Cell) : Cell := ⟨c.q.turn R, c.Q.turn R, c.qh⟩

theorem prim_eq (R : Rotation) {p p' T T' : ℝ} {Y Y' : ℕ → ℝ} {a b c a' b' c' : ℝ} (hp : p' = p) (hT : T' = T) (hY : Y' = Y)
    (h : (⟨a', b', c'⟩ : V3) = R.f ⟨a, b, c⟩) : (⟨p', a', b', c', T', Y'⟩ : Prim) = Prim.turn R ⟨p, a, b, c, T, Y⟩ := by
  subst hp hT hY
  have h1 := congrArg V3.x h
  have h2 := congrArg V3.y h
  have h3 := congrArg V3.z h
  simp only [] at h1 h2 h3
  subst h1 h2 h3
  rfl

theorem cons_eq (R : Rotation) {p p' T T' : ℝ} {Y Y' : ℕ → ℝ} {a b c a' b' c' : ℝ} (hp : p' = p) (hT : T' = T) (hY : Y' = Y)
    (h : (⟨a', b', c'⟩ : V3) = R.f ⟨a, b, c⟩) : (⟨p', a', b', c', T', Y'⟩ : Cons) = Cons.turn R ⟨p, a, b, c, T, Y⟩ := by
  subst hp hT hY
  have h1 := congrArg V3.x h
  have h2 := congrArg V3.y h
  have h3 := congrArg V3.z h
  simp only [] at h1 h2 h3
  subst h1 h2 h3
  rfl

theorem scale (R : Rotation) (k a b c : ℝ) : (⟨k * (R.f ⟨a, b, c⟩).x, k * (R.f ⟨a, b, c⟩).y, k * (R.f ⟨a, b, c⟩).z⟩ : V3) = R.f ⟨k * a, k * b, k * c⟩ :=
  R.comb (α := k) (β := 0) (γ := 0) (δ := 0) (ε := 0) (s := ⟨a, b, c⟩) (v := 0) (w := 0) (z := 0) (y := 0)
    (by ring) (by ring) (by ring) (by ring) (by ring) (by ring)

theorem over (R : Rotation) (k a b c : ℝ) : (⟨(R.f ⟨a, b, c⟩).x / k, (R.f ⟨a, b, c⟩).y / k, (R.f ⟨a, b, c⟩).z / k⟩ : V3) = R.f ⟨a / k, b / k, c / k⟩ :=
  R.comb (α := 1 / k) (β := 0) (γ := 0) (δ := 0) (ε := 0) (s := ⟨a, b, c⟩) (v := 0) (w := 0) (z := 0) (y := 0)
    (by ring) (by ring) (by ring) (by ring) (by ring) (by ring)

/-- the equation of state does not care about the frame -/
def Isotropic (eos : Cell → Cell) : Prop := ∀ R c, eos (c.turn R) = (eos c).turn R

theorem cpgPrims_isotropic (th : Th) : Isotropic (cpgPrims th) := by
  intro R c
  have h := R.sq c.q.u c.q.v c.q.w
  simp only [cpgPrims, Cell.turn]
  refine congr (congrArg₂ Cell.mk rfl (cons_eq R rfl ?_ rfl (scale R _ _ _ _))) rfl
  simp only [Prim.turn, h]

theorem cpgCons_isotropic (th : Th) : Isotropic (cpgCons th) := by
  intro R c
  have h := R.sq c.Q.rhou c.Q.rhov c.Q.rhow
  have e : ∀ n, consY th.ns (c.Q.turn R) n = consY th.ns c.Q n := fun n => rfl
  have e2 : consY th.ns (c.Q.turn R) = consY th.ns c.Q := rfl
  have e3 : consRhoY th.ns (c.Q.turn R) = consRhoY th.ns c.Q := rfl
  simp only [cpgCons, Cell.turn]
  simp only [e2, e3]
  have hk : 0.5 * ((c.Q.turn R).rhou ^ 2 + (c.Q.turn R).rhov ^ 2 + (c.Q.turn R).rhow ^ 2) = 0.5 * (c.Q.rhou ^ 2 + c.Q.rhov ^ 2 + c.Q.rhow ^ 2) := by
    simp only [Cons.turn, h]
  rw [hk]
  exact congr (congrArg₂ Cell.mk (prim_eq R rfl rfl rfl (over R _ _ _ _)) rfl) rfl

theorem tpgPrims_isotropic (th : Th) : Isotropic (tpgPrims th) := by
  intro R c
  have h := R.sq c.q.u c.q.v c.q.w
  simp only [tpgPrims, Cell.turn]
  refine congr (congrArg₂ Cell.mk rfl (cons_eq R rfl ?_ rfl (scale R _ _ _ _))) rfl
  simp only [Prim.turn, h]

theorem tpgCons_isotropic (th : Th) : Isotropic (tpgCons th) := by
  intro R c
  have h := R.sq c.Q.rhou c.Q.rhov c.Q.rhow
  have e2 : consY th.ns (c.Q.turn R) = consY th.ns c.Q := rfl
  have e3 : consRhoY th.ns (c.Q.turn R) = consRhoY th.ns c.Q := rfl
  simp only [tpgCons, Cell.turn]
  simp only [e2, e3]
  have hk : 0.5 * ((c.Q.turn R).rhou ^ 2 + (c.Q.turn R).rhov ^ 2 + (c.Q.turn R).rhow ^ 2) = 0.5 * (c.Q.rhou ^ 2 + c.Q.rhov ^ 2 + c.Q.rhow ^ 2) := by
    simp only [Cons.turn, h]
  rw [hk]
  exact congr (congrArg₂ Cell.mk (prim_eq R rfl rfl rfl (over R _ _ _ _)) rfl) rfl

/-- the real gas, which may fail -/
theorem cubicPrims_isotropic (th : ThC) (R : Rotation) (c : Cell) : cubicPrims th (c.turn R) = (cubicPrims th c).map (Cell.turn R) := by
  have h := R.sq c.q.u c.q.v c.q.w
  simp only [cubicPrims, Cell.turn]
  have e1 : (c.q.turn R).Y = c.q.Y := rfl
  have e2 : (c.q.turn R).p = c.q.p := rfl
  have e3 : (c.q.turn R).T = c.q.T := rfl
  rw [e1, e2, e3]
  cases solveZ (Astar th (moleX th (clipY th.ns c.q.Y)) c.q.p c.q.T) (Bstar th (moleX th (clipY th.ns c.q.Y)) c.q.p c.q.T) with
  | none => rfl
  | some Z =>
    simp only [Option.map_some, Option.some.injEq]
    refine congr (congrArg₂ Cell.mk rfl (cons_eq R rfl ?_ rfl (scale R _ _ _ _))) rfl
    simp only [Prim.turn, h]

theorem cubicCons_isotropic (th : ThC) (R : Rotation) (c : Cell) : cubicCons th (c.turn R) = (cubicCons th c).map (Cell.turn R) := by
  have h := R.sq c.Q.rhou c.Q.rhov c.Q.rhow
  have e2 : consY th.ns (c.Q.turn R) = consY th.ns c.Q := rfl
  have e3 : intEnergy (c.Q.turn R) = intEnergy c.Q := by simp only [intEnergy, Cons.turn, h]
  have e4 : consRhoY th.ns (c.Q.turn R) = consRhoY th.ns c.Q := rfl
  have hf : ∀ r, cubicFinish th (c.turn R) r = (cubicFinish th c r).turn R := by
    intro r
    simp only [cubicFinish, Cell.turn, e2, e3, e4]
    exact congr (congrArg₂ Cell.mk (prim_eq R rfl rfl rfl (over R _ _ _ _)) rfl) rfl
  have e5 : (c.turn R).Q = c.Q.turn R := rfl
  have e6 : (c.turn R).q.T = c.q.T := rfl
  have e7 : (c.Q.turn R).rho = c.Q.rho := rfl
  simp only [cubicCons, e5, e6, e2, e3, e7, Option.map_map]
  refine congrArg (fun f => Option.map f _) (funext fun r => hf r)

end Thermo

namespace BC
open PG.Thermo

/-- face values in the rotated frame -/
def BcVal.turn (R : Rotation) (b : BcVal) : BcVal := ⟨b.q.turn R, b.Q.turn R⟩

/-- rotational periodicity about a rotated axis -/
theorem rotMat_turn (R : Rotation) (a v : V3) (ct st : ℝ) (M' M : Fin 3 → V3) (hM' : M' = rotMat (R.f a) ct st) (hM : M = rotMat a ct st) :
    rot M' (R.f v) = R.f (rot M v) := by
  have e : ∀ a v, rot (rotMat a ct st) v = V3.smul ct v + V3.smul st (V3.cross a v) + V3.smul ((1 - ct) * V3.dot a v) a := by
    intro a v
    ext <;> simp only [rot, rotMat, V3.dot, add_x, add_y, add_z, smul_x, smul_y, smul_z, cross_x, cross_y, cross_z] <;> ring
  subst hM' hM
  rw [e, e, R.add, R.add, R.smul, R.smul, R.smul, R.cross, R.dot]

theorem uDotn_turn (R : Rotation) (q : Prim) (n : V3) : uDotn (q.turn R) (R.f n) = uDotn q n := R.dot ⟨q.u, q.v, q.w⟩ n

theorem wall_turn (R : Rotation) (n : V3) (q : Prim) (T : ℝ) : wallEuler (R.f n) (q.turn R) T = (wallEuler n q T).turn R := by
  simp only [wallEuler, uDotn_turn]
  refine prim_eq R rfl rfl rfl (R.comb (α := 1) (β := -(2 * uDotn q n)) (γ := 0) (δ := 0) (ε := 0) (s := ⟨q.u, q.v, q.w⟩) (v := n) (w := 0) (z := 0) (y := 0)
    ?_ ?_ ?_ ?_ ?_ ?_) <;> simp only [Prim.turn] <;> ring

theorem exitVel_turn (R : Rotation) (k : ℝ) (n : V3) (q1 q2 q0' q0 : Prim) (hp : q0'.p = q0.p) (hT : q0'.T = q0.T) (hY : q0'.Y = q0.Y) :
    exitVel k (R.f n) (q1.turn R) (q2.turn R) q0' = (exitVel k n q1 q2 q0).turn R := by
  simp only [exitVel, uDotn_turn]
  split_ifs
  · refine prim_eq R hp hT hY (R.comb (α := 2) (β := -1) (γ := 0) (δ := 0) (ε := 0) (s := ⟨q1.u, q1.v, q1.w⟩) (v := ⟨q2.u, q2.v, q2.w⟩) (w := 0) (z := 0) (y := 0)
      ?_ ?_ ?_ ?_ ?_ ?_) <;> simp only [Prim.turn] <;> ring
  · refine prim_eq R hp hT hY (R.comb (α := 1) (β := -(2 * (uDotn q1 n * k) * k)) (γ := 0) (δ := 0) (ε := 0) (s := ⟨q1.u, q1.v, q1.w⟩) (v := n) (w := 0) (z := 0) (y := 0)
      ?_ ?_ ?_ ?_ ?_ ?_) <;> simp only [Prim.turn] <;> ring

theorem stag_turn (R : Rotation) (n : V3) (bc : Prim) (c : Cell) : stagEuler (R.f n) (bc.turn R) (c.turn R) = (stagEuler n bc c).turn R := by
  have hV : stagV (c.turn R).q = stagV c.q := by
    unfold stagV
    simp only [Cell.turn, Prim.turn, R.sq]
  have hH : ∀ g a, stagHt g a (c.turn R).q = stagHt g a c.q := by intro g a; unfold stagHt; rw [hV]
  have hJ : ∀ g a, stagJm g a (R.f n) (c.turn R).q = stagJm g a n c.q := by
    intro g a
    unfold stagJm
    exact congrArg (fun x => -x + 2 * a / (g - 1)) (uDotn_turn R c.q n)
  have e1 : (c.turn R).qh = c.qh := rfl
  simp only [stagEuler, hH, hJ, e1]
  exact prim_eq R rfl rfl rfl (scale R _ _ _ _)

/-- data of a face by which boundary values are found: what rotational periodicity needs is axis and span (gridFace.py:22-72) -/
def faceDataOf (nrm : Fin 3 → Ix → V3) (bc : Ix → BcVal) (axis : V3) (span : ℝ) : FaceData := ⟨nrm, bc, rotUp axis span, rotDown axis span⟩

theorem rotUp_turn (R : Rotation) (a v : V3) (span : ℝ) : rot (rotUp (R.f a) span) (R.f v) = R.f (rot (rotUp a span) v) :=
  rotMat_turn R a v _ _ _ _ rfl rfl
theorem rotDown_turn (R : Rotation) (a v : V3) (span : ℝ) : rot (rotDown (R.f a) span) (R.f v) = R.f (rot (rotDown a span) v) :=
  rotMat_turn R a v _ _ _ _ rfl rfl

theorem rotCell_turn (R : Rotation) (M' M : Fin 3 → V3) (h : ∀ v, rot M' (R.f v) = R.f (rot M v)) (c : Cell) :
    rotCell M' (c.turn R) = (rotCell M c).turn R := by
  have e : rot M' ⟨(c.turn R).q.u, (c.turn R).q.v, (c.turn R).q.w⟩ = R.f (rot M ⟨c.q.u, c.q.v, c.q.w⟩) := h ⟨c.q.u, c.q.v, c.q.w⟩
  simp only [rotCell, e]
  refine congr (congrArg₂ Cell.mk (prim_eq R rfl rfl rfl rfl) (cons_eq R rfl rfl rfl ?_)) rfl
  exact R.comb (α := c.Q.rho) (β := 0) (γ := 0) (δ := 0) (ε := 0) (s := rot M ⟨c.q.u, c.q.v, c.q.w⟩) (v := 0) (w := 0) (z := 0) (y := 0)
    (by ring) (by ring) (by ring) (by simp only [Cell.turn, Cons.turn]; ring) (by simp only [Cell.turn, Cons.turn]; ring) (by simp only [Cell.turn, Cons.turn]; ring)

/-- every boundary law, in a rotated frame with rotated normals, boundary values and axis -/
theorem law_turn (R : Rotation) (k : Kind) (f : Face) (F' F : FaceData) (hu : ∀ v, rot F'.rotUp (R.f v) = R.f (rot F.rotUp v))
    (hd : ∀ v, rot F'.rotDown (R.f v) = R.f (rot F.rotDown v)) (n ni : V3) (bc : BcVal) (c0 c1 c2 : Cell) :
    law k f F' (R.f n) (R.f ni) (bc.turn R) (c0.turn R) (c1.turn R) (c2.turn R) = (law k f F n ni bc c0 c1 c2).turn R := by
  have keep : ∀ q' q : Prim, q' = q.turn R → ({ c0.turn R with q := q' } : Cell) = ({ c0 with q := q } : Cell).turn R := by
    rintro _ q rfl; rfl
  cases k
  case adiabaticNoSlipWall => exact keep _ _ (wall_turn R n c1.q _)
  case adiabaticSlipWall => exact keep _ _ (wall_turn R n c1.q _)
  case adiabaticMovingWall => exact keep _ _ (wall_turn R n c1.q _)
  case isoTNoSlipWall => exact keep _ _ (wall_turn R n c1.q _)
  case isoTSlipWall => exact keep _ _ (wall_turn R n c1.q _)
  case isoTMovingWall => exact keep _ _ (wall_turn R n c1.q _)
  case constantVelocitySubsonicInlet => rfl
  case supersonicInlet => rfl
  case constantMassFluxSubsonicInlet =>
    refine keep _ _ (prim_eq R rfl rfl rfl ?_)
    have : (⟨0, 0, 0⟩ : V3) = 0 := rfl
    rw [this, R.zero]
  case stagnationSubsonicInlet => exact keep _ _ (stag_turn R ni bc.q c1)
  case constantPressureSubsonicExit => exact keep _ _ (exitVel_turn R _ n c1.q c2.q _ _ rfl rfl rfl)
  case supersonicExit => exact keep _ _ (exitVel_turn R _ n c1.q c2.q _ _ rfl rfl rfl)
  case periodicRotHigh => exact rotCell_turn R _ _ hu c0
  case periodicRotLow => exact rotCell_turn R _ _ hd c0

theorem massFluxFix_turn (R : Rotation) (bc : BcVal) (c0 c2 : Cell) :
    massFluxFix (bc.turn R) (c0.turn R) (c2.turn R) = (massFluxFix bc c0 c2).turn R := by
  have hv : (⟨4 * (bc.turn R).Q.rhou / ((c0.turn R).Q.rho + (c2.turn R).Q.rho) - (c2.turn R).q.u,
      4 * (bc.turn R).Q.rhov / ((c0.turn R).Q.rho + (c2.turn R).Q.rho) - (c2.turn R).q.v,
      4 * (bc.turn R).Q.rhow / ((c0.turn R).Q.rho + (c2.turn R).Q.rho) - (c2.turn R).q.w⟩ : V3) =
      R.f ⟨4 * bc.Q.rhou / (c0.Q.rho + c2.Q.rho) - c2.q.u, 4 * bc.Q.rhov / (c0.Q.rho + c2.Q.rho) - c2.q.v, 4 * bc.Q.rhow / (c0.Q.rho + c2.Q.rho) - c2.q.w⟩ := by
    refine R.comb (α := 4 / (c0.Q.rho + c2.Q.rho)) (β := -1) (γ := 0) (δ := 0) (ε := 0) (s := ⟨bc.Q.rhou, bc.Q.rhov, bc.Q.rhow⟩) (v := ⟨c2.q.u, c2.q.v, c2.q.w⟩)
      (w := 0) (z := 0) (y := 0) ?_ ?_ ?_ ?_ ?_ ?_ <;> simp only [BcVal.turn, Cell.turn, Cons.turn, Prim.turn] <;> ring
  have hx := congrArg V3.x hv
  have hy := congrArg V3.y hv
  have hz := congrArg V3.z hv
  simp only [] at hx hy hz
  simp only [massFluxFix, hx, hy, hz]
  refine congr (congrArg₂ Cell.mk (prim_eq R rfl rfl rfl rfl) (cons_eq R rfl ?_ rfl ?_)) rfl
  · rw [R.sq]; rfl
  · refine R.comb (α := c0.Q.rho) (β := 0) (γ := 0) (δ := 0) (ε := 0)
      (s := ⟨4 * bc.Q.rhou / (c0.Q.rho + c2.Q.rho) - c2.q.u, 4 * bc.Q.rhov / (c0.Q.rho + c2.Q.rho) - c2.q.v, 4 * bc.Q.rhow / (c0.Q.rho + c2.Q.rho) - c2.q.w⟩)
      (v := 0) (w := 0) (z := 0) (y := 0) ?_ ?_ ?_ ?_ ?_ ?_ <;> simp only [Cell.turn, Cons.turn] <;> ring

theorem preLaw_turn (R : Rotation) (k : Kind) (bc : BcVal) (c0 c1 : Cell) :
    preLaw k (bc.turn R) (c0.turn R) (c1.turn R) = (preLaw k bc c0 c1).turn R := by
  have h1 : (⟨-(c1.turn R).q.u, -(c1.turn R).q.v, -(c1.turn R).q.w⟩ : V3) = R.f ⟨-c1.q.u, -c1.q.v, -c1.q.w⟩ := by
    refine R.comb (α := -1) (β := 0) (γ := 0) (δ := 0) (ε := 0) (s := ⟨c1.q.u, c1.q.v, c1.q.w⟩) (v := 0) (w := 0) (z := 0) (y := 0) ?_ ?_ ?_ ?_ ?_ ?_ <;>
      simp only [Cell.turn, Prim.turn] <;> ring
  have h2 : (⟨2 * (bc.turn R).q.u - (c1.turn R).q.u, 2 * (bc.turn R).q.v - (c1.turn R).q.v, 2 * (bc.turn R).q.w - (c1.turn R).q.w⟩ : V3) =
      R.f ⟨2 * bc.q.u - c1.q.u, 2 * bc.q.v - c1.q.v, 2 * bc.q.w - c1.q.w⟩ := by
    refine R.comb (α := -1) (β := 2) (γ := 0) (δ := 0) (ε := 0) (s := ⟨c1.q.u, c1.q.v, c1.q.w⟩) (v := ⟨bc.q.u, bc.q.v, bc.q.w⟩) (w := 0) (z := 0) (y := 0)
      ?_ ?_ ?_ ?_ ?_ ?_ <;> simp only [Cell.turn, Prim.turn, BcVal.turn] <;> ring
  have keep : ∀ q' q : Prim, q' = q.turn R → ({ c0.turn R with q := q' } : Cell) = ({ c0 with q := q } : Cell).turn R := by
    rintro _ q rfl; rfl
  cases k
  case adiabaticNoSlipWall => exact keep _ _ (prim_eq R rfl rfl rfl h1)
  case isoTNoSlipWall => exact keep _ _ (prim_eq R rfl rfl rfl h1)
  case adiabaticMovingWall => exact keep _ _ (prim_eq R rfl rfl rfl h2)
  case isoTMovingWall => exact keep _ _ (prim_eq R rfl rfl rfl h2)
  all_goals rfl

/-- gradients: periodic faces turn every gradient, the others copy with a sign that is the same for the three velocities -/
theorem postLaw_turn (R : Rotation) (k : Kind) (F' F : FaceData) (hu : ∀ v, rot F'.rotUp (R.f v) = R.f (rot F.rotUp v))
    (hd : ∀ v, rot F'.rotDown (R.f v) = R.f (rot F.rotDown v)) (g0 g1 : Grad) :
    postLaw k F' (R.grads g0) (R.grads g1) = R.grads (postLaw k F g0 g1) := by
  have lin : ∀ M' M : Fin 3 → V3, (∀ v, rot M' (R.f v) = R.f (rot M v)) → (fun l => rot M' (R.grads g0 l)) = R.grads fun l => rot M (g0 l) := by
    intro M' M h
    have ha : ∀ a b c (x y z : V3), rot M' (V3.smul a x + V3.smul b y + V3.smul c z) = V3.smul a (rot M' x) + V3.smul b (rot M' y) + V3.smul c (rot M' z) := by
      intro a b c x y z
      ext <;> simp only [rot, V3.dot, add_x, add_y, add_z, smul_x, smul_y, smul_z] <;> ring
    funext l
    match l with
    | 0 => exact h _
    | 1 => simp only [Rotation.grads, ha, h]
    | 2 => simp only [Rotation.grads, ha, h]
    | 3 => simp only [Rotation.grads, ha, h]
    | n + 4 => exact h _
  have sgn : ∀ σ : ℕ → ℝ, σ 2 = σ 1 → σ 3 = σ 1 → (fun l => V3.smul (σ l) (R.grads g1 l)) = R.grads fun l => V3.smul (σ l) (g1 l) := by
    intro σ h2 h3
    funext l
    match l with
    | 0 => exact (R.smul _ _).symm
    | 1 =>
      simp only [Rotation.grads, R.smul, h2, h3]
      ext <;> simp only [add_x, add_y, add_z, smul_x, smul_y, smul_z] <;> ring
    | 2 =>
      simp only [Rotation.grads, R.smul, h2, h3]
      ext <;> simp only [add_x, add_y, add_z, smul_x, smul_y, smul_z] <;> ring
    | 3 =>
      simp only [Rotation.grads, R.smul, h2, h3]
      ext <;> simp only [add_x, add_y, add_z, smul_x, smul_y, smul_z] <;> ring
    | n + 4 => exact (R.smul _ _).symm
  cases k
  case periodicRotHigh => exact lin _ _ hu
  case periodicRotLow => exact lin _ _ hd
  all_goals exact sgn _ (by simp [gradSign]) (by simp [gradSign])

end BC
end PG
