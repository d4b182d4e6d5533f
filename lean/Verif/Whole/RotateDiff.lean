import Verif.Whole.RotateFlux
/-!
C110: gradients, stresses and diffusive fluxes in a rotated frame.
-/
noncomputable section
namespace PG
open V3

namespace Rotation
variable (R : Rotation)

/-- velocity gradients as a tensor: the gradient in direction `s` is a velocity -/
theorem grads_dot (g : ℕ → V3) (s : V3) :
    (⟨V3.dot (R.grads g 1) (R.f s), V3.dot (R.grads g 2) (R.f s), V3.dot (R.grads g 3) (R.f s)⟩ : V3) =
      R.f ⟨V3.dot (g 1) s, V3.dot (g 2) s, V3.dot (g 3) s⟩ := by
  rw [R.apply_eq ⟨V3.dot (g 1) s, V3.dot (g 2) s, V3.dot (g 3) s⟩]
  have h1 := R.dot (g 1) s
  have h2 := R.dot (g 2) s
  have h3 := R.dot (g 3) s
  rw [← h1, ← h2, ← h3]
  ext <;> simp only [grads, V3.dot, add_x, add_y, add_z, smul_x, smul_y, smul_z] <;> ring

/-- and so is the transposed product -/
theorem grads_tdot (g : ℕ → V3) (s : V3) :
    V3.smul (R.f s).x (R.grads g 1) + V3.smul (R.f s).y (R.grads g 2) + V3.smul (R.f s).z (R.grads g 3) =
      R.f (V3.smul s.x (g 1) + V3.smul s.y (g 2) + V3.smul s.z (g 3)) := by
  have hx : V3.dot (R.f s) (R.f ex) = s.x := by rw [R.dot]; simp [V3.dot, ex]
  have hy : V3.dot (R.f s) (R.f ey) = s.y := by rw [R.dot]; simp [V3.dot, ey]
  have hz : V3.dot (R.f s) (R.f ez) = s.z := by rw [R.dot]; simp [V3.dot, ez]
  rw [R.add, R.add, R.smul, R.smul, R.smul, ← hx, ← hy, ← hz]
  ext <;> simp only [grads, V3.dot, add_x, add_y, add_z, smul_x, smul_y, smul_z] <;> ring

/-- the divergence is a scalar -/
theorem grads_div (g : ℕ → V3) : (R.grads g 1).x + (R.grads g 2).y + (R.grads g 3).z = (g 1).x + (g 2).y + (g 3).z := by
  have h1 : V3.dot (R.f ex) (R.f (g 1)) = (g 1).x := by rw [R.dot]; simp [V3.dot, ex]
  have h2 : V3.dot (R.f ey) (R.f (g 2)) = (g 2).y := by rw [R.dot]; simp [V3.dot, ey]
  have h3 : V3.dot (R.f ez) (R.f (g 3)) = (g 3).z := by rw [R.dot]; simp [V3.dot, ez]
  rw [← h1, ← h2, ← h3]
  simp only [grads, V3.dot, add_x, add_y, add_z, smul_x, smul_y, smul_z]
  ring

/-- gradients of scalars -/
theorem grads_scalar (g : ℕ → V3) (n : ℕ) : R.grads g (n + 4) = R.f (g (n + 4)) := rfl

/-- sum of the squares of the velocity gradients -/
theorem grads_sq (g : ℕ → V3) : V3.dot (R.grads g 1) (R.grads g 1) + V3.dot (R.grads g 2) (R.grads g 2) + V3.dot (R.grads g 3) (R.grads g 3) =
    V3.dot (g 1) (g 1) + V3.dot (g 2) (g 2) + V3.dot (g 3) (g 3) := by
  have key : ∀ a b c : ℝ, V3.dot (V3.smul a (R.f (g 1)) + V3.smul b (R.f (g 2)) + V3.smul c (R.f (g 3)))
      (V3.smul a (R.f (g 1)) + V3.smul b (R.f (g 2)) + V3.smul c (R.f (g 3))) =
      a * a * V3.dot (g 1) (g 1) + b * b * V3.dot (g 2) (g 2) + c * c * V3.dot (g 3) (g 3)
        + 2 * (a * b * V3.dot (g 1) (g 2) + a * c * V3.dot (g 1) (g 3) + b * c * V3.dot (g 2) (g 3)) := by
    intro a b c
    rw [← R.dot (g 1) (g 1), ← R.dot (g 2) (g 2), ← R.dot (g 3) (g 3), ← R.dot (g 1) (g 2), ← R.dot (g 1) (g 3), ← R.dot (g 2) (g 3)]
    simp only [V3.dot, add_x, add_y, add_z, smul_x, smul_y, smul_z]
    ring
  have e1 := R.xx
  have e2 := R.yy
  have e3 := R.zz
  have e4 := R.xy
  have e5 := R.xz
  have e6 := R.yz
  show V3.dot (V3.smul _ _ + V3.smul _ _ + V3.smul _ _) (V3.smul _ _ + V3.smul _ _ + V3.smul _ _)
    + V3.dot (V3.smul _ _ + V3.smul _ _ + V3.smul _ _) (V3.smul _ _ + V3.smul _ _ + V3.smul _ _)
    + V3.dot (V3.smul _ _ + V3.smul _ _ + V3.smul _ _) (V3.smul _ _ + V3.smul _ _ + V3.smul _ _) = _
  rw [key, key, key]
  generalize V3.dot (g 1) (g 1) = A
  generalize V3.dot (g 2) (g 2) = B
  generalize V3.dot (g 3) (g 3) = C
  generalize V3.dot (g 1) (g 2) = D
  generalize V3.dot (g 1) (g 3) = E
  generalize V3.dot (g 2) (g 3) = F
  simp only [V3.dot] at e1 e2 e3 e4 e5 e6
  linear_combination A * e1 + B * e2 + C * e3 + 2 * D * e4 + 2 * E * e5 + 2 * F * e6

/-- a gradient table from the gradients of the velocity components -/
def table (a b c : V3) : ℕ → V3
  | 1 => a
  | 2 => b
  | 3 => c
  | _ => 0

/-- `Σ_j (v)_j (∇u_j)` -/
def tdot (g : ℕ → V3) (v : V3) : V3 := V3.smul v.x (g 1) + V3.smul v.y (g 2) + V3.smul v.z (g 3)

/-- `Σ_ij ∂_j u_i ∂_i u_j` -/
theorem grads_tr (g : ℕ → V3) : (tdot (R.grads g) (R.grads g 1)).x + (tdot (R.grads g) (R.grads g 2)).y + (tdot (R.grads g) (R.grads g 3)).z =
    (tdot g (g 1)).x + (tdot g (g 2)).y + (tdot g (g 3)).z := by
  have lin : ∀ a b c : ℝ, tdot (R.grads g) (V3.smul a (R.f (g 1)) + V3.smul b (R.f (g 2)) + V3.smul c (R.f (g 3))) =
      V3.smul a (R.f (tdot g (g 1))) + V3.smul b (R.f (tdot g (g 2))) + V3.smul c (R.f (tdot g (g 3))) := by
    intro a b c
    have h1 := R.grads_tdot g (g 1)
    have h2 := R.grads_tdot g (g 2)
    have h3 := R.grads_tdot g (g 3)
    change tdot (R.grads g) (R.f (g 1)) = R.f (tdot g (g 1)) at h1
    change tdot (R.grads g) (R.f (g 2)) = R.f (tdot g (g 2)) at h2
    change tdot (R.grads g) (R.f (g 3)) = R.f (tdot g (g 3)) at h3
    rw [← h1, ← h2, ← h3]
    generalize R.grads g = G
    ext <;> simp only [tdot, add_x, add_y, add_z, smul_x, smul_y, smul_z] <;> ring
  have := R.grads_div (table (tdot g (g 1)) (tdot g (g 2)) (tdot g (g 3)))
  simp only [grads, table] at this
  rw [show R.grads g 1 = V3.smul (R.f ex).x (R.f (g 1)) + V3.smul (R.f ey).x (R.f (g 2)) + V3.smul (R.f ez).x (R.f (g 3)) from rfl,
    show R.grads g 2 = V3.smul (R.f ex).y (R.f (g 1)) + V3.smul (R.f ey).y (R.f (g 2)) + V3.smul (R.f ez).y (R.f (g 3)) from rfl,
    show R.grads g 3 = V3.smul (R.f ex).z (R.f (g 1)) + V3.smul (R.f ey).z (R.f (g 2)) + V3.smul (R.f ez).z (R.f (g 3)) from rfl,
    lin, lin, lin]
  exact this

end Rotation

namespace Diff
open Finset

/-- a cell and a face in the frame rotated by `R` and moved by `m` -/
def DCell.turn (R : Rotation) (m : V3) (c : DCell) : DCell := { c with q := R.comps c.q, g := R.grads c.g, xc := R.f c.xc + m }
def FaceD.turn (R : Rotation) (m : V3) (f : FaceD) : FaceD := ⟨R.f f.s, R.f f.n, R.f f.xf + m⟩

/-- viscous force on a face -/
theorem stress_force (mu : ℝ) (g : ℕ → V3) (s : V3) :
    let t := stress mu (g 1) (g 2) (g 3)
    (⟨t.txx * s.x + t.txy * s.y + t.txz * s.z, t.txy * s.x + t.tyy * s.y + t.tyz * s.z, t.txz * s.x + t.tyz * s.y + t.tzz * s.z⟩ : V3) =
      V3.smul (-mu) (⟨V3.dot (g 1) s, V3.dot (g 2) s, V3.dot (g 3) s⟩ + Rotation.tdot g s)
        + V3.smul (2/3 * mu * ((g 1).x + (g 2).y + (g 3).z)) s := by
  ext <;> simp only [stress, Rotation.tdot, V3.dot, add_x, add_y, add_z, smul_x, smul_y, smul_z] <;> ring

theorem stress_turn (R : Rotation) (mu : ℝ) (g : ℕ → V3) (s : V3) :
    let t' := stress mu (R.grads g 1) (R.grads g 2) (R.grads g 3)
    let t := stress mu (g 1) (g 2) (g 3)
    (⟨t'.txx * (R.f s).x + t'.txy * (R.f s).y + t'.txz * (R.f s).z, t'.txy * (R.f s).x + t'.tyy * (R.f s).y + t'.tyz * (R.f s).z,
      t'.txz * (R.f s).x + t'.tyz * (R.f s).y + t'.tzz * (R.f s).z⟩ : V3) =
      R.f ⟨t.txx * s.x + t.txy * s.y + t.txz * s.z, t.txy * s.x + t.tyy * s.y + t.tyz * s.z, t.txz * s.x + t.tyz * s.y + t.tzz * s.z⟩ := by
  intro t' t
  have h' := stress_force mu (R.grads g) (R.f s)
  have h := stress_force mu g s
  simp only [] at h' h
  rw [h', h, R.grads_dot, R.grads_div]
  have := R.grads_tdot g s
  change Rotation.tdot (R.grads g) (R.f s) = R.f (Rotation.tdot g s) at this
  rw [this, R.add, R.smul, R.smul, R.add]

/-- face gradients that are the rotated ones give the rotated flux -/
theorem faceFlux_turn (R : Rotation) (m : V3) (clamp : Bool) (ns : ℕ) (G : ℕ → V3) (s : V3) (L r : DCell) :
    faceFlux clamp ns (R.grads G) (R.f s) (L.turn R m) (r.turn R m) = R.comps (faceFlux clamp ns G s L r) := by
  have hmu : avg (r.turn R m).mu (L.turn R m).mu = avg r.mu L.mu := rfl
  have hT := stress_turn R (avg r.mu L.mu) G s
  have hsg : ∀ n, sgrad (R.grads G) (R.f s) n = sgrad G s n := by
    intro n
    have e : (5 + n) = (n + 1) + 4 := by omega
    unfold sgrad
    rw [e, R.grads_scalar]
    exact R.dot _ _
  have hsp : ∀ n, specFlux ns (L.turn R m) (r.turn R m) (R.grads G) (R.f s) n = specFlux ns L r G s n := by
    intro n
    have e : (5 + n) = (n + 1) + 4 := by omega
    simp only [specFlux, corrVel, sgradLast, hsg]
    rw [e]
    rfl
  funext l
  match l with
  | 0 => rfl
  | 1 => exact congrArg V3.x hT
  | 2 => exact congrArg V3.y hT
  | 3 => exact congrArg V3.z hT
  | 4 =>
    have hq : (R.grads G 4).x * (R.f s).x + (R.grads G 4).y * (R.f s).y + (R.grads G 4).z * (R.f s).z =
        (G 4).x * s.x + (G 4).y * s.y + (G 4).z * s.z := R.dot _ _
    have hlast : lastFlux clamp ns (L.turn R m) (r.turn R m) (R.grads G) (R.f s) = lastFlux clamp ns L r G s := by
      have hY : lastY clamp ns (L.turn R m) (r.turn R m) = lastY clamp ns L r := by
        unfold lastY
        have : ∀ n, avg ((r.turn R m).q (5+n)) ((L.turn R m).q (5+n)) = avg (r.q (5+n)) (L.q (5+n)) := by
          intro n
          have e : (5 + n) = (n + 1) + 4 := by omega
          rw [e]
          rfl
        simp only [this]
      simp only [lastFlux, corrVel, sgradLast, hsg, hY]
      rfl
    have hvel : (⟨avg ((r.turn R m).q 1) ((L.turn R m).q 1), avg ((r.turn R m).q 2) ((L.turn R m).q 2),
        avg ((r.turn R m).q 3) ((L.turn R m).q 3)⟩ : V3) = R.f ⟨avg (r.q 1) (L.q 1), avg (r.q 2) (L.q 2), avg (r.q 3) (L.q 3)⟩ := by
      refine R.comb (α := 0.5) (β := 0.5) (γ := 0) (δ := 0) (ε := 0) (s := ⟨r.q 1, r.q 2, r.q 3⟩) (v := ⟨L.q 1, L.q 2, L.q 3⟩) (w := 0) (z := 0) (y := 0)
        ?_ ?_ ?_ ?_ ?_ ?_ <;> simp only [avg, DCell.turn, Rotation.comps, LinearMap.coe_mk, AddHom.coe_mk] <;> ring
    have hw := R.dot ⟨avg (r.q 1) (L.q 1), avg (r.q 2) (L.q 2), avg (r.q 3) (L.q 3)⟩
      (let t := stress (avg r.mu L.mu) (G 1) (G 2) (G 3)
       ⟨t.txx * s.x + t.txy * s.y + t.txz * s.z, t.txy * s.x + t.tyy * s.y + t.tyz * s.z, t.txz * s.x + t.tyz * s.y + t.tzz * s.z⟩)
    rw [← hvel, ← hT] at hw
    simp only [V3.dot] at hw
    show faceFlux clamp ns (R.grads G) (R.f s) (L.turn R m) (r.turn R m) 4 = faceFlux clamp ns G s L r 4
    simp only [faceFlux, hmu, hq, hsp, hlast]
    have hk : avg (r.turn R m).kappa (L.turn R m).kappa = avg r.kappa L.kappa := rfl
    have hh : ∀ n, avg ((r.turn R m).h n) ((L.turn R m).h n) = avg (r.h n) (L.h n) := fun n => rfl
    simp only [hk, hh]
    linear_combination -hw
  | n + 5 => exact hsp n

/-- averaged gradients -/
theorem gradAvg_turn (R : Rotation) (m : V3) (L r : DCell) : gradAvg (L.turn R m) (r.turn R m) = R.grads (gradAvg L r) := by
  have key : ∀ a b : V3, (⟨avg (R.f a).x (R.f b).x, avg (R.f a).y (R.f b).y, avg (R.f a).z (R.f b).z⟩ : V3) = R.f ⟨avg a.x b.x, avg a.y b.y, avg a.z b.z⟩ := by
    intro a b
    refine R.comb (α := 0.5) (β := 0.5) (γ := 0) (δ := 0) (ε := 0) (s := a) (v := b) (w := 0) (z := 0) (y := 0)
        ?_ ?_ ?_ ?_ ?_ ?_ <;> simp only [avg] <;> ring
  have h1 := key (r.g 1) (L.g 1)
  have h2 := key (r.g 2) (L.g 2)
  have h3 := key (r.g 3) (L.g 3)
  funext l
  match l with
  | 0 => exact key _ _
  | 1 =>
    simp only [gradAvg, DCell.turn, Rotation.grads, ← h1, ← h2, ← h3]
    ext <;> simp only [avg, add_x, add_y, add_z, smul_x, smul_y, smul_z] <;> ring
  | 2 =>
    simp only [gradAvg, DCell.turn, Rotation.grads, ← h1, ← h2, ← h3]
    ext <;> simp only [avg, add_x, add_y, add_z, smul_x, smul_y, smul_z] <;> ring
  | 3 =>
    simp only [gradAvg, DCell.turn, Rotation.grads, ← h1, ← h2, ← h3]
    ext <;> simp only [avg, add_x, add_y, add_z, smul_x, smul_y, smul_z] <;> ring
  | n + 4 => exact key _ _

/-- the diffusive scheme does not care about this rotation -/
def IsotropicAt (R : Rotation) (sd : Scheme) : Prop := ∀ m ns f L r,
  sd.flux ns (f.turn R m) (L.turn R m) (r.turn R m) = R.comps (sd.flux ns f L r)

theorem plain_isotropic (R : Rotation) : IsotropicAt R .plain := by
  intro m ns f L r
  show faceFlux true ns (gradAvg (L.turn R m) (r.turn R m)) (R.f f.s) _ _ = _
  rw [gradAvg_turn]
  exact faceFlux_turn R m true ns _ f.s L r

/-- the damped scheme, where the length it divides by is the same in both frames -/
theorem gradDamp_turn (R : Rotation) (m : V3) (L r : DCell) (f : FaceD)
    (h : magEn (L.turn R m) (r.turn R m) (f.turn R m) = magEn L r f) : gradDamp (L.turn R m) (r.turn R m) (f.turn R m) = R.grads (gradDamp L r f) := by
  have hd : damp (L.turn R m) (r.turn R m) (f.turn R m) = R.f (damp L r f) := by
    unfold damp
    rw [h]
    exact R.comb (α := 1 / magEn L r f) (β := 0) (γ := 0) (δ := 0) (ε := 0) (s := f.n) (v := 0) (w := 0) (z := 0) (y := 0)
      (by ring) (by ring) (by ring) (by simp only [FaceD.turn]; ring) (by simp only [FaceD.turn]; ring) (by simp only [FaceD.turn]; ring)
  have hx : ∀ c : DCell, (f.turn R m).xf - (c.turn R m).xc = R.f (f.xf - c.xc) := by
    intro c
    rw [R.sub]
    ext <;> simp [FaceD.turn, DCell.turn]
  have he : ∀ (c : DCell), (fun l => extrap (c.turn R m) (f.turn R m) l) = R.comps (fun l => extrap c f l) := by
    intro c
    have hg := R.grads_dot c.g (f.xf - c.xc)
    have hv : ∀ l, R.comps (fun l => extrap c f l) l = R.comps c.q l + R.comps (fun l => V3.dot (c.g l) (f.xf - c.xc)) l := by
      intro l
      have : (fun l => extrap c f l) = c.q + fun l => V3.dot (c.g l) (f.xf - c.xc) := rfl
      rw [this, map_add]; rfl
    funext l
    rw [hv]
    simp only [extrap, hx]
    match l with
    | 0 => exact congrArg (c.q 0 + ·) (R.dot _ _)
    | 1 => exact congrArg (R.comps c.q 1 + ·) (congrArg V3.x hg)
    | 2 => exact congrArg (R.comps c.q 2 + ·) (congrArg V3.y hg)
    | 3 => exact congrArg (R.comps c.q 3 + ·) (congrArg V3.z hg)
    | n + 4 => exact congrArg (c.q (n + 4) + ·) (R.dot _ _)
  have hjump : (fun l => extrap (r.turn R m) (f.turn R m) l - extrap (L.turn R m) (f.turn R m) l) =
      R.comps (fun l => extrap r f l - extrap L f l) := by
    have h1 := he r
    have h2 := he L
    have : (fun l => extrap r f l - extrap L f l) = (fun l => extrap r f l) - (fun l => extrap L f l) := rfl
    rw [this, map_sub, ← h1, ← h2]
    rfl
  have split : ∀ (L r : DCell) (f : FaceD) l, gradDamp L r f l = gradAvg L r l + V3.smul (extrap r f l - extrap L f l) (damp L r f) := by
    intro L r f l
    ext <;> simp only [gradDamp, gradAvg, add_x, add_y, add_z, smul_x, smul_y, smul_z] <;> ring
  have ha := gradAvg_turn R m L r
  have hj := R.apply_eq ⟨extrap r f 1 - extrap L f 1, extrap r f 2 - extrap L f 2, extrap r f 3 - extrap L f 3⟩
  funext l
  rw [split, hd, congrFun ha l, congrFun hjump l]
  have hl : gradDamp L r f = fun l => gradAvg L r l + V3.smul (extrap r f l - extrap L f l) (damp L r f) := funext (split L r f)
  rw [hl]
  have gen : ∀ (A : ℕ → V3) (j : ℕ → ℝ) (D : V3), R.grads A l + V3.smul (R.comps j l) (R.f D) = R.grads (fun l => A l + V3.smul (j l) D) l := by
    intro A j D
    have hj := R.apply_eq ⟨j 1, j 2, j 3⟩
    match l with
    | 0 => simp only [Rotation.grads, R.add, R.smul]; rfl
    | 1 =>
      have : R.comps j 1 = j 1 * (R.f Rotation.ex).x + j 2 * (R.f Rotation.ey).x + j 3 * (R.f Rotation.ez).x := congrArg V3.x hj
      rw [this]
      simp only [Rotation.grads, R.add, R.smul]
      ext <;> simp only [add_x, add_y, add_z, smul_x, smul_y, smul_z] <;> ring
    | 2 =>
      have : R.comps j 2 = j 1 * (R.f Rotation.ex).y + j 2 * (R.f Rotation.ey).y + j 3 * (R.f Rotation.ez).y := congrArg V3.y hj
      rw [this]
      simp only [Rotation.grads, R.add, R.smul]
      ext <;> simp only [add_x, add_y, add_z, smul_x, smul_y, smul_z] <;> ring
    | 3 =>
      have : R.comps j 3 = j 1 * (R.f Rotation.ex).z + j 2 * (R.f Rotation.ey).z + j 3 * (R.f Rotation.ez).z := congrArg V3.z hj
      rw [this]
      simp only [Rotation.grads, R.add, R.smul]
      ext <;> simp only [add_x, add_y, add_z, smul_x, smul_y, smul_z] <;> ring
    | n + 4 => simp only [Rotation.grads, R.add, R.smul]; rfl
  exact gen _ _ _

theorem damped_isotropic (R : Rotation) (h : ∀ m L r f, magEn (L.turn R m) (r.turn R m) (f.turn R m) = magEn L r f) : IsotropicAt R .damped := by
  intro m ns f L r
  show faceFlux false ns (gradDamp (L.turn R m) (r.turn R m) (f.turn R m)) (R.f f.s) _ _ = _
  rw [gradDamp_turn R m L r f (h m L r f)]
  exact faceFlux_turn R m false ns _ f.s L r

end Diff
end PG
