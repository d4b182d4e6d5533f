import Verif.Gen.Model
import Mathlib.Algebra.BigOperators.Group.Finset.Basic

/-!
Specification for C94: the law of mass action for a mechanism, written without reference to the generator.
-/
namespace PG.Gen
noncomputable section
open Finset

/-- modified Arrhenius law `A T^b exp(-E / (Ru T))` -/
def Arr.k (a : Arr) (Ru T : ℝ) : ℝ := a.A * T ^ a.b * Real.exp (-(a.E / (Ru * T)))

/-- third-body concentration -/
def CtRxn.third (r : CtRxn) (ns : ℕ) (cs : ℕ → ℝ) : ℝ := ∑ j ∈ range ns, r.eff j * cs j

/-- Troe's centring factor: three parameters `a, T3, T1`, and a fourth `T2` whose term is absent when it is 0 or not given -/
def centring (c : List ℝ) (T : ℝ) : ℝ :=
  (1 - c.getD 0 0) * Real.exp (-T / c.getD 1 0) + c.getD 0 0 * Real.exp (-T / c.getD 2 0)
    + if c.getD 3 0 = 0 then 0 else Real.exp (-c.getD 3 0 / T)

/-- decimal logarithm -/
def lg (x : ℝ) : ℝ := Real.log x / Real.log 10

/-- Troe's broadening factor -/
def broadening (Fc Pr : ℝ) : ℝ :=
  let c := -0.4 - 0.67 * lg Fc
  let n := 0.75 - 1.27 * lg Fc
  (10 : ℝ) ^ (lg Fc / (1 + ((lg Pr + c) / (n - 0.14 * (lg Pr + c))) ^ 2))

/-- effective forward rate constant -/
def CtRxn.kEff (r : CtRxn) (ns : ℕ) (Ru T : ℝ) (cs : ℕ → ℝ) : ℝ :=
  let Pr := r.third ns cs * r.low.k Ru T / r.high.k Ru T
  if r.type = "Arrhenius" then r.rate.k Ru T
  else if r.type = "three-body-Arrhenius" then r.rate.k Ru T * r.third ns cs
  else if r.type = "falloff-Lindemann" then r.high.k Ru T * (Pr / (1 + Pr))
  else if r.type = "falloff-Troe" then r.high.k Ru T * (Pr / (1 + Pr) * broadening (centring r.coeffs T) Pr)
  else 0

/-- equilibrium constant in concentration units from the standard Gibbs energies `g` (divided by `RT`) and the reference
    concentration `pref` -/
def CtRxn.kc (r : CtRxn) (ns : ℕ) (pref : ℝ) (g : ℕ → ℝ) : ℝ :=
  pref ^ (∑ j ∈ range ns, (r.nuB j - r.nuF j)) * Real.exp (-∑ j ∈ range ns, (r.nuB j - r.nuF j) * g j)

/-- net rate of progress -/
def CtRxn.progress (r : CtRxn) (ns : ℕ) (Ru T pref : ℝ) (g cs : ℕ → ℝ) : ℝ :=
  r.kEff ns Ru T cs * ((∏ j ∈ range ns, cs j ^ r.order j) -
    if r.rev then (∏ j ∈ range ns, cs j ^ r.nuB j) / r.kc ns pref g else 0)

/-- mass production rate of species `n` -/
def Ct.source (m : Ct) (MW : ℕ → ℝ) (T pref : ℝ) (g cs : ℕ → ℝ) (n : ℕ) : ℝ :=
  MW n * (m.rxns.map fun r => (r.nuB n - r.nuF n) * r.progress m.ns m.Ru T pref g cs).sum

/-- a usable rate: the exponent is an integer or not within 1e-16 of the integer below it in size (true of every double
    other than 0 with modulus above 1e-16), and the pre-exponential factor is positive unless the rate is a plain integer
    power of `T` -/
def Arr.Ok (a : Arr) : Prop :=
  ((∃ n : ℤ, a.b = n) ∨ (10 : ℝ) ^ (-16 : ℤ) < |a.b - trunc a.b|) ∧ (0 < a.A ∨ a.E = 0 ∧ ∃ n : ℤ, a.b = n)

/-- the mechanisms the tool is meant for: coefficients not negative, a third-body type has efficiencies that are not
    negative nor all zero, usable rates, three or four Troe coefficients -/
structure CtRxn.Ok (r : CtRxn) (ns : ℕ) : Prop where
  nuF : ∀ j, 0 ≤ r.nuF j
  nuB : ∀ j, 0 ≤ r.nuB j
  eff : r.type ≠ "Arrhenius" → (∀ j, 0 ≤ r.eff j) ∧ ∃ j < ns, 0 < r.eff j
  rate : (r.type = "Arrhenius" ∨ r.type = "three-body-Arrhenius") → r.rate.Ok
  fall : (r.type = "falloff-Lindemann" ∨ r.type = "falloff-Troe") → r.high.Ok ∧ r.low.Ok
  coeffs : r.type = "falloff-Troe" → r.coeffs.length = 3 ∨ r.coeffs.length = 4

/-- the forward rate law has the reactant coefficients as exponents -/
def CtRxn.Elementary (r : CtRxn) : Prop := ∀ j, r.order j = r.nuF j

/-- the cell the generated text works on -/
structure Cell (σ : Store) (T Ru : ℝ) (cs g MW : ℕ → ℝ) : Prop where
  T : σ.v "T" = T
  Ru : σ.v "th.Ru" = Ru
  cs : σ.a "cs" = cs
  g : σ.a "gbs" = g
  MW : σ.a "th.MW" = MW

end
end PG.Gen
