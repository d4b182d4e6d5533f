import Verif.Diff.Model
/-!
Specification notions for the diffusive fluxes: Newton's stress, Fourier's law, Fickian species transport, all written from
the text-book formulas and not from the kernels.
-/
noncomputable section
namespace PG.Diff
open V3 Finset

/-- the two schemes share a signature; a scheme with `ns` species maps a face and its two cells to a flux vector -/
inductive Scheme
  | plain | damped

/-- flux vector of a scheme -/
def Scheme.flux : Scheme → ℕ → FaceD → DCell → DCell → ℕ → ℝ
  | .plain => diffusiveFlux
  | .damped => alphaDampingFlux

/-- component `i` of a vector -/
def comp (a : V3) : Fin 3 → ℝ
  | 0 => a.x
  | 1 => a.y
  | 2 => a.z

/-- mean velocity of the two cells -/
def meanVel (L R : DCell) : V3 := ⟨(L.q 1 + R.q 1) / 2, (L.q 2 + R.q 2) / 2, (L.q 3 + R.q 3) / 2⟩

/-- momentum part of a flux vector -/
def mom (F : ℕ → ℝ) : V3 := ⟨F 1, F 2, F 3⟩

/-- Newtonian stress with Stokes' hypothesis: `τ_ij = μ (∂_j u_i + ∂_i u_j - 2/3 δ_ij ∂_k u_k)` for `A i j = ∂_j u_i` -/
def newton (mu : ℝ) (A : Fin 3 → Fin 3 → ℝ) (i j : Fin 3) : ℝ :=
  mu * (A i j + A j i - (if i = j then 2 / 3 * ∑ k, A k k else 0))

/-- the field stored in `L` and `R` for variable `l` is the linear function `a + g·x` -/
def LinearField (L R : DCell) (l : ℕ) (a : ℝ) (g : V3) : Prop :=
  L.q l = a + dot g L.xc ∧ R.q l = a + dot g R.xc ∧ L.g l = g ∧ R.g l = g

/-- velocity, temperature and species 0..ns-2 are the same in both cells and all their gradients vanish -/
def Uniform (ns : ℕ) (L R : DCell) : Prop :=
  ∀ l, 1 ≤ l → l < ns + 4 → L.q l = R.q l ∧ L.g l = 0 ∧ R.g l = 0

/-- mass flux of species `k` implied by a flux vector: the last one carries what is left of the total mass flux -/
def speciesFlux (ns : ℕ) (F : ℕ → ℝ) (k : ℕ) : ℝ :=
  if k = ns - 1 then F 0 - ∑ n ∈ range (ns - 1), F (5 + n) else F (5 + k)

/-- face with its normal reversed -/
def FaceD.rev (f : FaceD) : FaceD := ⟨-f.s, -f.n, f.xf⟩

end PG.Diff
