import Verif.Whole.Frame
import Verif.Whole.Real
import Verif.Subgrid.Model
/-!
C110: rigid motions of the case. A rotation is a linear map of space that preserves inner and cross products; what it does to
the things the solver stores: velocities and momenta turn, scalars stay, gradients of scalars turn, gradients of the velocity
components turn as a tensor.
-/
noncomputable section
namespace PG
open V3

/-- a rotation of space -/
structure Rotation where
  f : V3 → V3
  add : ∀ a b, f (a + b) = f a + f b
  smul : ∀ c a, f (smul c a) = smul c (f a)
  dot : ∀ a b, V3.dot (f a) (f b) = V3.dot a b
  cross : ∀ a b, V3.cross (f a) (f b) = f (V3.cross a b)

namespace Rotation
variable (R : Rotation)

theorem zero : R.f 0 = 0 := by
  have := R.smul 0 0
  rw [show V3.smul 0 (0 : V3) = 0 from by ext <;> simp] at this
  rw [this]; ext <;> simp

theorem sub (a b : V3) : R.f (a - b) = R.f a - R.f b := by
  have e : a - b = a + V3.smul (-1) b := by ext <;> simp <;> ring
  rw [e, R.add, R.smul]; ext <;> simp <;> ring

theorem neg (a : V3) : R.f (-a) = - R.f a := by
  have e : -a = V3.smul (-1) a := by ext <;> simp
  rw [e, R.smul]; ext <;> simp

/-- linear combinations of up to five vectors, by components -/
theorem comb {α β γ δ ε : ℝ} {s v w z y : V3} {a b c a' b' c' : ℝ}
    (h1 : a = α * s.x + β * v.x + γ * w.x + δ * z.x + ε * y.x) (h2 : b = α * s.y + β * v.y + γ * w.y + δ * z.y + ε * y.y)
    (h3 : c = α * s.z + β * v.z + γ * w.z + δ * z.z + ε * y.z)
    (h1' : a' = α * (R.f s).x + β * (R.f v).x + γ * (R.f w).x + δ * (R.f z).x + ε * (R.f y).x)
    (h2' : b' = α * (R.f s).y + β * (R.f v).y + γ * (R.f w).y + δ * (R.f z).y + ε * (R.f y).y)
    (h3' : c' = α * (R.f s).z + β * (R.f v).z + γ * (R.f w).z + δ * (R.f z).z + ε * (R.f y).z) :
    (⟨a', b', c'⟩ : V3) = R.f ⟨a, b, c⟩ := by
  have e : (⟨a, b, c⟩ : V3) = V3.smul α s + V3.smul β v + V3.smul γ w + V3.smul δ z + V3.smul ε y := by
    ext
    · exact h1
    · exact h2
    · exact h3
  rw [e]
  simp only [R.add, R.smul]
  ext
  · exact h1'
  · exact h2'
  · exact h3'

/-- basis vectors -/
def ex : V3 := ⟨1, 0, 0⟩
def ey : V3 := ⟨0, 1, 0⟩
def ez : V3 := ⟨0, 0, 1⟩

theorem apply_eq (v : V3) : R.f v = V3.smul v.x (R.f ex) + V3.smul v.y (R.f ey) + V3.smul v.z (R.f ez) := by
  have e : v = V3.smul v.x ex + V3.smul v.y ey + V3.smul v.z ez := by ext <;> simp [ex, ey, ez]
  conv_lhs => rw [e]
  simp only [R.add, R.smul]

theorem xx : V3.dot (R.f ex) (R.f ex) = 1 := by rw [R.dot]; simp [V3.dot, ex]
theorem yy : V3.dot (R.f ey) (R.f ey) = 1 := by rw [R.dot]; simp [V3.dot, ey]
theorem zz : V3.dot (R.f ez) (R.f ez) = 1 := by rw [R.dot]; simp [V3.dot, ez]
theorem xy : V3.dot (R.f ex) (R.f ey) = 0 := by rw [R.dot]; simp [V3.dot, ex, ey]
theorem xz : V3.dot (R.f ex) (R.f ez) = 0 := by rw [R.dot]; simp [V3.dot, ex, ez]
theorem yz : V3.dot (R.f ey) (R.f ez) = 0 := by rw [R.dot]; simp [V3.dot, ey, ez]

theorem sq (a b c : ℝ) : (R.f ⟨a, b, c⟩).x ^ 2 + (R.f ⟨a, b, c⟩).y ^ 2 + (R.f ⟨a, b, c⟩).z ^ 2 = a ^ 2 + b ^ 2 + c ^ 2 := by
  have := R.dot ⟨a, b, c⟩ ⟨a, b, c⟩
  simp only [V3.dot] at this
  linarith

theorem sq' (v : V3) : (R.f v).x ^ 2 + (R.f v).y ^ 2 + (R.f v).z ^ 2 = v.x ^ 2 + v.y ^ 2 + v.z ^ 2 := R.sq v.x v.y v.z

theorem dot' (a b : V3) : (R.f a).x * (R.f b).x + (R.f a).y * (R.f b).y + (R.f a).z * (R.f b).z = a.x * b.x + a.y * b.y + a.z * b.z :=
  R.dot a b

/-- a matrix given by its rows, with orthonormal columns, whose third column is the cross product of the first two -/
def ofColumns (a b c : V3) (haa : V3.dot a a = 1) (hbb : V3.dot b b = 1) (hab : V3.dot a b = 0) (hc : c = V3.cross a b) : Rotation where
  f v := V3.smul v.x a + V3.smul v.y b + V3.smul v.z c
  add u v := by ext <;> simp <;> ring
  smul k v := by ext <;> simp <;> ring
  dot u v := by
    subst hc
    simp only [V3.dot] at haa hbb hab
    simp only [V3.dot, add_x, add_y, add_z, smul_x, smul_y, smul_z, cross_x, cross_y, cross_z]
    linear_combination (u.x * v.x + u.z * v.z * (b.x * b.x + b.y * b.y + b.z * b.z)) * haa + (u.y * v.y + u.z * v.z) * hbb
      + (u.x * v.y + u.y * v.x - u.z * v.z * (a.x * b.x + a.y * b.y + a.z * b.z)) * hab
  cross u v := by
    subst hc
    simp only [V3.dot] at haa hbb hab
    ext
    · simp only [add_x, add_y, add_z, smul_x, smul_y, smul_z, cross_x, cross_y, cross_z]
      linear_combination (-(u.x * v.z - u.z * v.x) * b.x) * haa + ((u.y * v.z - u.z * v.y) * a.x) * hbb
        + ((u.x * v.z - u.z * v.x) * a.x - (u.y * v.z - u.z * v.y) * b.x) * hab
    · simp only [add_x, add_y, add_z, smul_x, smul_y, smul_z, cross_x, cross_y, cross_z]
      linear_combination (-(u.x * v.z - u.z * v.x) * b.y) * haa + ((u.y * v.z - u.z * v.y) * a.y) * hbb
        + ((u.x * v.z - u.z * v.x) * a.y - (u.y * v.z - u.z * v.y) * b.y) * hab
    · simp only [add_x, add_y, add_z, smul_x, smul_y, smul_z, cross_x, cross_y, cross_z]
      linear_combination (-(u.x * v.z - u.z * v.x) * b.z) * haa + ((u.y * v.z - u.z * v.y) * a.z) * hbb
        + ((u.x * v.z - u.z * v.x) * a.z - (u.y * v.z - u.z * v.y) * b.z) * hab

/-- rotation about the z axis -/
def aboutZ (θ : ℝ) : Rotation :=
  ofColumns ⟨Real.cos θ, Real.sin θ, 0⟩ ⟨-Real.sin θ, Real.cos θ, 0⟩ ⟨0, 0, 1⟩
    (by simp only [V3.dot]; nlinarith [Real.sin_sq_add_cos_sq θ]) (by simp only [V3.dot]; nlinarith [Real.sin_sq_add_cos_sq θ])
    (by simp only [V3.dot]; ring)
    (by ext <;> simp only [cross_x, cross_y, cross_z] <;> nlinarith [Real.sin_sq_add_cos_sq θ])

/-- what a rotation does to component vectors: components 1-3 are a vector -/
def comps : (ℕ → ℝ) →ₗ[ℝ] (ℕ → ℝ) where
  toFun x
    | 1 => (R.f ⟨x 1, x 2, x 3⟩).x
    | 2 => (R.f ⟨x 1, x 2, x 3⟩).y
    | 3 => (R.f ⟨x 1, x 2, x 3⟩).z
    | 0 => x 0
    | n + 4 => x (n + 4)
  map_add' x y := by
    have e : (⟨(x + y) 1, (x + y) 2, (x + y) 3⟩ : V3) = ⟨x 1, x 2, x 3⟩ + ⟨y 1, y 2, y 3⟩ := rfl
    funext l
    match l with
    | 0 => rfl
    | 1 => simp only [e, R.add]; rfl
    | 2 => simp only [e, R.add]; rfl
    | 3 => simp only [e, R.add]; rfl
    | n + 4 => rfl
  map_smul' a x := by
    have e : (⟨(a • x) 1, (a • x) 2, (a • x) 3⟩ : V3) = V3.smul a ⟨x 1, x 2, x 3⟩ := rfl
    funext l
    match l with
    | 0 => rfl
    | 1 => simp only [e, R.smul]; rfl
    | 2 => simp only [e, R.smul]; rfl
    | 3 => simp only [e, R.smul]; rfl
    | n + 4 => rfl

/-- what it does to stored gradients: gradients of the velocity components (1-3) form a tensor, the others are vectors -/
def grads (g : ℕ → V3) : ℕ → V3
  | 1 => V3.smul (R.f ex).x (R.f (g 1)) + V3.smul (R.f ey).x (R.f (g 2)) + V3.smul (R.f ez).x (R.f (g 3))
  | 2 => V3.smul (R.f ex).y (R.f (g 1)) + V3.smul (R.f ey).y (R.f (g 2)) + V3.smul (R.f ez).y (R.f (g 3))
  | 3 => V3.smul (R.f ex).z (R.f (g 1)) + V3.smul (R.f ey).z (R.f (g 2)) + V3.smul (R.f ez).z (R.f (g 3))
  | 0 => R.f (g 0)
  | n + 4 => R.f (g (n + 4))

end Rotation
end PG
