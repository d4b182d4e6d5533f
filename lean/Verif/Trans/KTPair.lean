import Verif.Trans.KT
import Mathlib.Data.List.Pairwise
import Mathlib.Tactic.FieldSimp
import Mathlib.Tactic.Linarith

/-! Closed form of the double loop over pairs of species (`reduced`). -/
noncomputable section
namespace PG.Trans.KT

variable {d : SpData}

/-! ### order of the loop -/

theorem mem_loopPairs {ns i j : ℕ} : (i, j) ∈ loopPairs ns ↔ i ≤ j ∧ j < ns := by
  unfold loopPairs
  simp only [List.mem_flatMap, List.mem_map, List.mem_range, Prod.mk.injEq]
  constructor
  · rintro ⟨a, ha, t, ht, rfl, rfl⟩; omega
  · rintro ⟨h1, h2⟩; exact ⟨i, by omega, j - i, by omega, rfl, by omega⟩

/-- before in the loop -/
def Before (p q : ℕ × ℕ) : Prop := p.1 < q.1 ∨ p.1 = q.1 ∧ p.2 < q.2

theorem loopPairs_sorted (ns : ℕ) : (loopPairs ns).Pairwise Before := by
  unfold loopPairs
  rw [List.pairwise_flatMap]
  constructor
  · intro i _
    rw [List.pairwise_map]
    exact (List.pairwise_lt_range).imp fun h => Or.inr ⟨rfl, by simpa using h⟩
  · refine (List.pairwise_lt_range).imp fun h => ?_
    intro x hx y hy
    obtain ⟨t, _, rfl⟩ := List.mem_map.1 hx
    obtain ⟨u, _, rfl⟩ := List.mem_map.1 hy
    exact Or.inl h

theorem split_facts {ns i j : ℕ} {P Q : List (ℕ × ℕ)} (h : loopPairs ns = P ++ (i, j) :: Q) :
    i ≤ j ∧ j < ns ∧ (i, j) ∉ P ∧ (i < j → (i, i) ∈ P ∧ (j, j) ∉ P ∧ (j, i) ∉ P) := by
  have hm : (i, j) ∈ loopPairs ns := by rw [h]; simp
  obtain ⟨h1, h2⟩ := mem_loopPairs.1 hm
  have hs := loopPairs_sorted ns
  rw [h, List.pairwise_append] at hs
  obtain ⟨-, hq, hp⟩ := hs
  have hp' : ∀ a ∈ P, Before a (i, j) := fun a ha => hp a ha _ (by simp)
  have hq' : ∀ b ∈ Q, Before (i, j) b := fun b hb => (List.pairwise_cons.1 hq).1 b hb
  refine ⟨h1, h2, fun hc => ?_, fun hlt => ⟨?_, fun hc => ?_, fun hc => ?_⟩⟩
  · rcases hp' _ hc with h | ⟨_, h⟩ <;> exact lt_irrefl _ h
  · have hm2 : (i, i) ∈ loopPairs ns := mem_loopPairs.2 ⟨le_rfl, by omega⟩
    rw [h] at hm2
    rcases List.mem_append.1 hm2 with h3 | h3
    · exact h3
    · rcases List.mem_cons.1 h3 with h4 | h4
      · rw [Prod.mk.injEq] at h4; omega
      · rcases hq' _ h4 with h5 | ⟨_, h5⟩ <;> simp at h5; omega
  · rcases hp' _ hc with h | ⟨h, h'⟩ <;> simp at h <;> omega
  · rcases hp' _ hc with h | ⟨h, h'⟩ <;> simp at h <;> omega

/-! ### values -/

/-- what the loop stores for the pair `i ≤ j`: `r_dipole[kp, kp]` is the dipole moment if the polar species is `i`, else still 0 -/
def xiGot (d : SpData) (i j : ℕ) : ℝ := xiNow d (fun a b => if a = i ∧ b = i then Real.sqrt (d.dipole i * d.dipole i) else 0) i j

def gotMass (d : SpData) (i j : ℕ) : ℝ := mass d i * mass d j / (mass d i + mass d j)
def gotWell (d : SpData) (i j : ℕ) : ℝ := Real.sqrt (d.well i * d.well j) * xiGot d i j ^ 2
def gotDiam (d : SpData) (i j : ℕ) : ℝ := 1 / 2 * (d.diam i + d.diam j) * xiGot d i j ^ (-(1 / 6) : ℝ)
def gotDipole (d : SpData) (i j : ℕ) : ℝ := Real.sqrt (d.dipole i * d.dipole j)
def gotDelta (d : SpData) (i j : ℕ) : ℝ :=
  1 / 2 * Real.sqrt (d.dipole i * d.dipole j) ^ 2 / (4 * Real.pi * d.eps0 * Real.sqrt (d.well i * d.well j) * (1 / 2 * (d.diam i + d.diam j)) ^ 3)

/-- entry `a b` of the arrays is that of the ordered pair -/
def Entry (d : SpData) (r : Red) (a b : ℕ) : Prop :=
  r.mass a b = gotMass d (min a b) (max a b) ∧ r.well a b = gotWell d (min a b) (max a b) ∧ r.diam a b = gotDiam d (min a b) (max a b) ∧
  r.dipole a b = gotDipole d (min a b) (max a b) ∧ r.delta a b = gotDelta d (min a b) (max a b)

/-- state after the pairs `P` -/
def Inv (d : SpData) (P : List (ℕ × ℕ)) (r : Red) : Prop :=
  ∀ a b, if (min a b, max a b) ∈ P then Entry d r a b else r.dipole a b = 0

theorem put_put {f : ℕ → ℕ → ℝ} {i j a b : ℕ} {x : ℝ} (hij : i ≤ j) :
    put (put f i j x) j i x a b = if min a b = i ∧ max a b = j then x else f a b := by
  unfold put
  rcases le_total a b with h | h
  · rw [min_eq_left h, max_eq_right h]
    by_cases h1 : a = j ∧ b = i
    · have : a = b := by omega
      rw [if_pos h1, if_pos (by omega)]
    · rw [if_neg h1]
  · rw [min_eq_right h, max_eq_left h]
    by_cases h1 : a = j ∧ b = i
    · rw [if_pos h1, if_pos ⟨h1.2, h1.1⟩]
    · have h3 : ¬(b = i ∧ a = j) := fun h => h1 ⟨h.2, h.1⟩
      rw [if_neg h1, if_neg h3]
      by_cases h2 : a = i ∧ b = j
      · exfalso; omega
      · rw [if_neg h2]

theorem xiNow_congr {f g : ℕ → ℕ → ℝ} {i j : ℕ} (h1 : f i i = g i i) (h2 : f j j = g j j) : xiNow d f i j = xiNow d g i j := by
  unfold xiNow
  split_ifs with h hp
  · rfl
  · show (1 + 1 / 4 * _ * (f i i / _) ^ 2 * _ : ℝ) = 1 + 1 / 4 * _ * (g i i / _) ^ 2 * _
    rw [h1]
  · show (1 + 1 / 4 * _ * (f j j / _) ^ 2 * _ : ℝ) = 1 + 1 / 4 * _ * (g j j / _) ^ 2 * _
    rw [h2]

theorem xiNow_self {f : ℕ → ℕ → ℝ} {i : ℕ} : xiNow d f i i = 1 := by
  unfold xiNow; rw [if_pos Iff.rfl]

theorem inv_step {ns i j : ℕ} {P Q : List (ℕ × ℕ)} (h : loopPairs ns = P ++ (i, j) :: Q) {r : Red} (hr : Inv d P r) :
    Inv d (P ++ [(i, j)]) (pairStep d r (i, j)) := by
  obtain ⟨hij, hj, hn, hlt⟩ := split_facts h
  have hxi : xiNow d (put r.dipole i j (Real.sqrt (d.dipole i * d.dipole j))) i j = xiGot d i j := by
    rcases Nat.eq_or_lt_of_le hij with rfl | hl
    · unfold xiGot; rw [xiNow_self, xiNow_self]
    · obtain ⟨h1, h2, h3⟩ := hlt hl
      unfold xiGot
      refine xiNow_congr ?_ ?_
      · have := hr i i
        rw [min_self, max_self, if_pos h1] at this
        obtain ⟨-, -, -, h4, -⟩ := this
        unfold put
        rw [if_neg (by omega), h4, min_self, max_self, if_pos ⟨rfl, rfl⟩]; rfl
      · have := hr j j
        rw [min_self, max_self, if_neg h2] at this
        unfold put
        rw [if_neg (by omega), this, if_neg (by omega)]
  intro a b
  by_cases hab : min a b = i ∧ max a b = j
  · rw [if_pos (by rw [hab.1, hab.2]; simp)]
    unfold Entry pairStep
    simp only [hxi]
    rw [put_put hij, put_put hij, put_put hij, put_put hij, put_put hij, if_pos hab, if_pos hab, if_pos hab, if_pos hab, if_pos hab, hab.1, hab.2]
    exact ⟨rfl, rfl, rfl, rfl, rfl⟩
  · have e : ((min a b, max a b) ∈ P ++ [(i, j)]) ↔ (min a b, max a b) ∈ P := by
      rw [List.mem_append, List.mem_singleton, Prod.mk.injEq]; tauto
    have := hr a b
    by_cases hP : (min a b, max a b) ∈ P
    · rw [if_pos (e.2 hP)]
      rw [if_pos hP] at this
      unfold Entry pairStep at *
      simp only [put_put hij, if_neg hab]
      exact this
    · rw [if_neg (mt e.1 hP)]
      rw [if_neg hP] at this
      unfold pairStep
      simp only [put_put hij, if_neg hab]
      exact this

theorem inv_fold {ns : ℕ} : ∀ (Q P : List (ℕ × ℕ)) (r : Red), loopPairs ns = P ++ Q → Inv d P r → Inv d (P ++ Q) (Q.foldl (pairStep d) r)
  | [], P, r, _, hr => by simpa using hr
  | (i, j) :: Q, P, r, h, hr => by
    have := inv_fold Q (P ++ [(i, j)]) (pairStep d r (i, j)) (by rw [h]; simp) (inv_step h hr)
    rw [List.append_assoc] at this
    exact this

/-- what the loop leaves in the arrays -/
theorem reduced_eq {a b : ℕ} (ha : a < d.ns) (hb : b < d.ns) : Entry d (reduced d) a b := by
  have h0 : Inv d [] Red.zero := fun a b => by simp [Red.zero]
  have := inv_fold (ns := d.ns) (loopPairs d.ns) [] Red.zero rfl h0 a b
  rw [List.nil_append, if_pos (mem_loopPairs.2 ⟨by omega, by omega⟩)] at this
  exact this

end PG.Trans.KT
