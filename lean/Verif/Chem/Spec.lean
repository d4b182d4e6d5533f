import Verif.Chem.Model
import Mathlib.Algebra.BigOperators.Ring.Finset
import Mathlib.Algebra.Order.BigOperators.Group.Finset

/-! Specification vocabulary for the chemistry properties C81-C85, and the table checks. -/
namespace PG.Chem

/-- net stoichiometric coefficient of species `n` in a reaction, read off the two rate expressions: the power with which
    its concentration enters `q_b` minus the power with which it enters `q_f` -/
def stoich (x : Rxn) (n : ℕ) : ℤ :=
  (x.bwd.map fun p => if p.1 = n then (p.2 : ℤ) else 0).sum - (x.fwd.map fun p => if p.1 = n then (p.2 : ℤ) else 0).sum

/-- the source row of species `n` that the reactions call for, numbering reactions from `r` -/
def rowFrom (n : ℕ) : ℕ → List Rxn → List (ℕ × ℤ)
  | _, [] => []
  | r, x :: xs => if stoich x n = 0 then rowFrom n (r+1) xs else (r, stoich x n) :: rowFrom n (r+1) xs

/-- the source rows are those the reactions call for -/
def Mech.SrcOk (m : Mech) : Prop := m.src = (List.range m.ns).map fun n => rowFrom n 0 m.rxns

instance (m : Mech) : Decidable m.SrcOk := inferInstanceAs (Decidable (_ = _))

/-- species named by a reaction exist, `dG` and the exponent in `K_c` follow the net stoichiometry -/
def Rxn.Ok (ns : ℕ) (x : Rxn) : Prop :=
  (∀ p ∈ x.fwd, p.1 < ns) ∧ (∀ p ∈ x.bwd, p.1 < ns) ∧
  x.dG = (List.range ns).filterMap (fun n => if stoich x n = 0 then none else some (n, stoich x n)) ∧
  x.kc = ((List.range ns).map (stoich x)).sum

instance (ns : ℕ) (x : Rxn) : Decidable (x.Ok ns) := inferInstanceAs (Decidable (_ ∧ _))

/-- number of atoms of element `e` in species `n`, in a table of formulas -/
def atoms (f : List (String × List ℕ)) (n e : ℕ) : ℕ := ((f.map Prod.snd).getD n []).getD e 0

/-- the reaction conserves the first `ne` elements -/
def Rxn.Balanced (f : List (List ℕ)) (ne : ℕ) (x : Rxn) : Prop :=
  ∀ e < ne, (x.bwd.map fun p => p.2 * (f.getD p.1 []).getD e 0).sum = (x.fwd.map fun p => p.2 * (f.getD p.1 []).getD e 0).sum

instance (f : List (List ℕ)) (ne : ℕ) (x : Rxn) : Decidable (x.Balanced f ne) :=
  inferInstanceAs (Decidable (∀ e < ne, _))

/-- the literals of a rate constant: positive pre-exponential factor -/
def Arr.Pos (k : Arr) : Prop := 0 < k.A.m
instance (k : Arr) : Decidable k.Pos := inferInstanceAs (Decidable (0 < _))

/-- third-body weights are not negative, a single third body exists -/
def Eff.Ok (ns : ℕ) : Eff → Prop
  | .all l => ∀ p ∈ l, 0 ≤ p.2.m
  | .only n => n < ns
instance (ns : ℕ) (e : Eff) : Decidable (e.Ok ns) := by cases e <;> (simp only [Eff.Ok]; infer_instance)

/-- signs of the literals of a modification -/
def Mod.Ok (ns : ℕ) : Mod → Prop
  | .none => True
  | .three e => e.Ok ns
  | .lind e k0 => e.Ok ns ∧ k0.Pos
  | .troe e k0 _ _ _ _ => e.Ok ns ∧ k0.Pos
instance (ns : ℕ) (e : Mod) : Decidable (e.Ok ns) := by cases e <;> (simp only [Mod.Ok]; infer_instance)

/-- signs of the literals of a reaction -/
def Rxn.Pos (ns : ℕ) (x : Rxn) : Prop := x.k.Pos ∧ x.mod.Ok ns
instance (ns : ℕ) (x : Rxn) : Decidable (x.Pos ns) := inferInstanceAs (Decidable (_ ∧ _))

noncomputable section
open Finset

/-- dimensionless chemical potential of species `n`: `g°/RT + log(c / c°)`, `c° = p°/RT` -/
def mu (v : Env) (n : ℕ) : ℝ := v.gbs n + Real.log (v.cs n / v.pref)

/-- reaction affinity with the opposite sign: change of the mixture's Gibbs energy per unit of progress -/
def dMu (ns : ℕ) (x : Rxn) (v : Env) : ℝ := ∑ n ∈ range ns, (stoich x n : ℝ) * mu v n

end
end PG.Chem
