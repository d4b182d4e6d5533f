import Verif.Trans.KTPair
import Mathlib.Logic.Equiv.Basic
import Mathlib.Tactic.Ring

/-! C104: species and pair data of kinetic theory, and the tables made from them. -/
noncomputable section
namespace PG.Trans.KT
open scoped Classical

/-! ### specification -/

/-- physical data: positive constants, masses, well depths and diameters; dipole moments, polarisabilities and relaxation
    numbers not negative -/
structure Sane (d : SpData) : Prop where
  kb : 0 < d.kb
  eps0 : 0 < d.eps0
  av : 0 < d.avogadro
  Ru : 0 < d.Ru
  MW : ∀ k < d.ns, 0 < d.MW k
  well : ∀ k < d.ns, 0 < d.well k
  diam : ∀ k < d.ns, 0 < d.diam k
  dipole : ∀ k < d.ns, 0 ≤ d.dipole k
  polarize : ∀ k < d.ns, 0 ≤ d.polarize k
  zrot : ∀ k < d.ns, 0 ≤ d.zrot k

/-- the induction between polar species `p` and nonpolar species `n`:
    `1 + α_n/(4 σ_n³) · μ_p²/(4πε₀ σ_p³ ε_p) · √(ε_p/ε_n)` -/
def induct (d : SpData) (p n : ℕ) : ℝ :=
  1 + 1 / 4 * (d.polarize n / d.diam n ^ 3) * (d.dipole p ^ 2 / (4 * Real.pi * d.eps0 * d.diam p ^ 3 * d.well p)) * Real.sqrt (d.well p / d.well n)

/-- correction of a pair for induction -/
def xi (d : SpData) (i j : ℕ) : ℝ :=
  if polar d i ∧ ¬polar d j then induct d i j else if polar d j ∧ ¬polar d i then induct d j i else 1

/-- rotational heat capacity over the gas constant -/
def rot : String → Option ℝ
  | "atom" => some 0
  | "linear" => some 1
  | "nonlinear" => some (3 / 2)
  | _ => none

/-- the species with numbers `a` and `b` listed in each other's place -/
def exchange (d : SpData) (a b : ℕ) : SpData :=
  let s := Equiv.swap a b
  { d with MW := d.MW ∘ s, well := d.well ∘ s, diam := d.diam ∘ s, dipole := d.dipole ∘ s, polarize := d.polarize ∘ s, zrot := d.zrot ∘ s,
           geometry := d.geometry ∘ s }

variable {d : SpData}

/-! ### pairs -/

theorem mass_pos (h : Sane d) {k : ℕ} (hk : k < d.ns) : 0 < mass d k := div_pos (h.MW k hk) h.av

theorem sqrt_self (h : Sane d) {k : ℕ} (hk : k < d.ns) : Real.sqrt (d.dipole k * d.dipole k) = d.dipole k :=
  Real.sqrt_mul_self (h.dipole k hk)

theorem induct_pos (h : Sane d) {p n : ℕ} (hp : p < d.ns) (hn : n < d.ns) : 1 ≤ induct d p n := by
  have h1 := h.polarize n hn
  have h2 := h.diam n hn
  have h3 := h.diam p hp
  have h4 := h.well p hp
  have h5 := h.eps0
  have h6 := Real.pi_pos
  have h7 := h.dipole p hp
  unfold induct
  have : 0 ≤ 1 / 4 * (d.polarize n / d.diam n ^ 3) * (d.dipole p ^ 2 / (4 * Real.pi * d.eps0 * d.diam p ^ 3 * d.well p)) * Real.sqrt (d.well p / d.well n) := by
    positivity
  linarith

theorem xiNow_same {f : ℕ → ℕ → ℝ} {i j : ℕ} (h : polar d i ↔ polar d j) : xiNow d f i j = 1 := by
  unfold xiNow; exact if_pos h

theorem xiNow_fst {f : ℕ → ℕ → ℝ} {i j : ℕ} (h1 : polar d i) (h2 : ¬polar d j) : xiNow d f i j =
    1 + 1 / 4 * (d.polarize j / d.diam j ^ 3) * (f i i / Real.sqrt (4 * Real.pi * d.eps0 * d.diam i ^ 3 * d.well i)) ^ 2 * Real.sqrt (d.well i / d.well j) := by
  have : ¬(polar d i ↔ polar d j) := fun c => h2 (c.1 h1)
  simp [xiNow, h1, h2]

theorem xiNow_snd {f : ℕ → ℕ → ℝ} {i j : ℕ} (h1 : ¬polar d i) (h2 : polar d j) : xiNow d f i j =
    1 + 1 / 4 * (d.polarize i / d.diam i ^ 3) * (f j j / Real.sqrt (4 * Real.pi * d.eps0 * d.diam j ^ 3 * d.well j)) ^ 2 * Real.sqrt (d.well j / d.well i) := by
  simp [xiNow, h1, h2]

theorem xiGot_eq (h : Sane d) {i j : ℕ} (hi : i < d.ns) :
    xiGot d i j = if polar d i ∧ ¬polar d j then induct d i j else 1 := by
  unfold xiGot
  by_cases hp : polar d i
  · by_cases hq : polar d j
    · rw [xiNow_same (by tauto), if_neg (by tauto)]
    · have h3 := h.diam i hi
      have h4 := h.well i hi
      have h5 := h.eps0
      have h6 := Real.pi_pos
      rw [xiNow_fst hp hq, if_pos (show i = i ∧ i = i from ⟨rfl, rfl⟩), if_pos ⟨hp, hq⟩, sqrt_self h hi, div_pow, Real.sq_sqrt (by positivity)]
      rfl
  · by_cases hq : polar d j
    · have hne : j ≠ i := fun e => hp (e ▸ hq)
      rw [xiNow_snd hp hq, if_neg (show ¬(j = i ∧ j = i) from fun c => hne c.1), if_neg (fun c => hp c.1)]
      simp
    · rw [xiNow_same (by tauto), if_neg (by tauto)]

theorem xiGot_ge (h : Sane d) {i j : ℕ} (hi : i < d.ns) (hj : j < d.ns) (hij : i ≤ j) : 1 ≤ xiGot d i j := by
  rw [xiGot_eq h hi]
  split_ifs
  · exact induct_pos h hi hj
  · exact le_rfl

/-- **C104 (symmetric).** All pair data are symmetric, positive where they are divided by, for every list of species. -/
theorem C104_symmetric (h : Sane d) {i j : ℕ} (hi : i < d.ns) (hj : j < d.ns) :
    let r := reduced d
    (r.mass i j = r.mass j i ∧ r.well i j = r.well j i ∧ r.diam i j = r.diam j i ∧ r.dipole i j = r.dipole j i ∧ r.delta i j = r.delta j i) ∧
    0 < r.mass i j ∧ 0 < r.well i j ∧ 0 < r.diam i j ∧ 0 ≤ r.delta i j := by
  intro r
  obtain ⟨a1, a2, a3, a4, a5⟩ := reduced_eq hi hj
  obtain ⟨b1, b2, b3, b4, b5⟩ := reduced_eq hj hi
  rw [min_comm j i, max_comm j i] at b1 b2 b3 b4 b5
  refine ⟨⟨a1.trans b1.symm, a2.trans b2.symm, a3.trans b3.symm, a4.trans b4.symm, a5.trans b5.symm⟩, ?_⟩
  have hm : min i j < d.ns := by omega
  have hM : max i j < d.ns := by omega
  have m1 := mass_pos h hm
  have m2 := mass_pos h hM
  have w1 := h.well _ hm
  have w2 := h.well _ hM
  have s1 := h.diam _ hm
  have s2 := h.diam _ hM
  have hx : 0 < xiGot d (min i j) (max i j) := lt_of_lt_of_le one_pos (xiGot_ge h hm hM (by omega))
  have h5 := h.eps0
  have h6 := Real.pi_pos
  refine ⟨?_, ?_, ?_, ?_⟩
  · show 0 < (reduced d).mass i j
    rw [a1]; unfold gotMass; positivity
  · show 0 < (reduced d).well i j
    rw [a2]; unfold gotWell; positivity
  · show 0 < (reduced d).diam i j
    rw [a3]; unfold gotDiam; positivity
  · show 0 ≤ (reduced d).delta i j
    rw [a5]; unfold gotDelta; positivity

/-- **C104 (pairs), partial.** If no polar species is listed behind a nonpolar partner, the data of a pair are the textbook ones:
    reduced mass, arithmetic mean diameter times `ξ^(-1/6)`, geometric mean well depth times `ξ²`, reduced dipole moment. (Without
    the restriction: `C104_order_iff`.) -/
theorem C104_pairs_partial (h : Sane d) {i j : ℕ} (hi : i < d.ns) (hj : j < d.ns) (h1 : i ≤ j → polar d j → polar d i)
    (h2 : j ≤ i → polar d i → polar d j) :
    (reduced d).mass i j = mass d i * mass d j / (mass d i + mass d j) ∧
    (reduced d).well i j = Real.sqrt (d.well i * d.well j) * xi d i j ^ 2 ∧
    (reduced d).diam i j = (d.diam i + d.diam j) / 2 * xi d i j ^ (-(1 / 6) : ℝ) ∧
    (reduced d).delta i j = d.dipole i * d.dipole j
      / (2 * (4 * Real.pi * d.eps0 * Real.sqrt (d.well i * d.well j) * ((d.diam i + d.diam j) / 2) ^ 3)) := by
  have key : ∀ {i j : ℕ}, i < d.ns → j < d.ns → i ≤ j → (polar d j → polar d i) →
      gotMass d i j = mass d i * mass d j / (mass d i + mass d j) ∧
      gotWell d i j = Real.sqrt (d.well i * d.well j) * xi d i j ^ 2 ∧
      gotDiam d i j = (d.diam i + d.diam j) / 2 * xi d i j ^ (-(1 / 6) : ℝ) ∧
      gotDelta d i j = d.dipole i * d.dipole j
        / (2 * (4 * Real.pi * d.eps0 * Real.sqrt (d.well i * d.well j) * ((d.diam i + d.diam j) / 2) ^ 3)) := by
    intro i j hi hj hij hp
    have hx : xiGot d i j = xi d i j := by
      rw [xiGot_eq h hi]; unfold xi
      by_cases c : polar d i ∧ ¬polar d j
      · rw [if_pos c, if_pos c]
      · rw [if_neg c, if_neg c, if_neg (by tauto)]
    have hw := mul_pos (h.well i hi) (h.well j hj)
    have hd := h.diam i hi
    have hd' := h.diam j hj
    have h5 := h.eps0
    refine ⟨rfl, by unfold gotWell; rw [hx], by unfold gotDiam; rw [hx]; ring, ?_⟩
    unfold gotDelta
    rw [Real.sq_sqrt (mul_nonneg (h.dipole i hi) (h.dipole j hj)), show (1 / 2 * (d.diam i + d.diam j) : ℝ) = (d.diam i + d.diam j) / 2 by ring]
    rw [show (1 / 2 * (d.dipole i * d.dipole j) : ℝ) = d.dipole i * d.dipole j / 2 by ring, div_div]
  obtain ⟨a1, a2, a3, _, a5⟩ := reduced_eq hi hj
  rcases le_total i j with hij | hij
  · rw [a1, a2, a3, a5, min_eq_left hij, max_eq_right hij]
    exact key hi hj hij (h1 hij)
  · rw [a1, a2, a3, a5, min_eq_right hij, max_eq_left hij]
    obtain ⟨k1, k2, k3, k4⟩ := key hj hi hij (h2 hij)
    have hs : xi d j i = xi d i j := by
      unfold xi
      by_cases c : polar d i ∧ ¬polar d j
      · rw [if_pos c, if_neg (by tauto), if_pos c]
      · rw [if_neg c, if_neg c]
    rw [k1, k2, k3, k4, hs, mul_comm (mass d j), add_comm (mass d j), mul_comm (d.well j), add_comm (d.diam j), mul_comm (d.dipole j)]
    exact ⟨rfl, rfl, rfl, rfl⟩

/-- **C104 (order of the list).** The correction for induction is applied exactly unless the polar species is listed behind a
    polarisable nonpolar one: then `r_dipole[kp, kp]` has not been set yet and the pair is treated as if the polar species had no dipole. -/
theorem C104_order_iff (h : Sane d) {i j : ℕ} (hj : j < d.ns) (hij : i < j) :
    (reduced d).well i j = Real.sqrt (d.well i * d.well j) * xi d i j ^ 2 ↔ ¬(¬polar d i ∧ polar d j ∧ 0 < d.polarize i) := by
  have hi : i < d.ns := by omega
  have hw := Real.sqrt_pos.2 (mul_pos (h.well i hi) (h.well j hj))
  obtain ⟨_, a2, _⟩ := reduced_eq hi hj
  rw [a2, min_eq_left hij.le, max_eq_right hij.le]
  unfold gotWell
  rw [xiGot_eq h hi]
  constructor
  · rintro he ⟨h1, h2, h3⟩
    unfold xi at he
    rw [if_neg (by tauto), if_neg (by tauto), if_pos ⟨h2, h1⟩] at he
    have := mul_left_cancel₀ hw.ne' he
    have g1 : 1 < induct d j i := by
      have q1 := h.diam i hi
      have q2 := h.diam j hj
      have q3 := h.well j hj
      have q3' := h.well i hi
      have q4 := h.eps0
      have q5 := Real.pi_pos
      have q6 : 0 < d.dipole j := h2
      unfold induct
      have : 0 < 1 / 4 * (d.polarize i / d.diam i ^ 3) * (d.dipole j ^ 2 / (4 * Real.pi * d.eps0 * d.diam j ^ 3 * d.well j)) * Real.sqrt (d.well j / d.well i) := by
        positivity
      linarith
    nlinarith
  · intro hn
    unfold xi
    by_cases c : polar d i ∧ ¬polar d j
    · rw [if_pos c, if_pos c]
    · rw [if_neg c, if_neg c]
      by_cases c2 : polar d j ∧ ¬polar d i
      · have h0 : d.polarize i = 0 := le_antisymm (not_lt.1 fun h3 => hn ⟨c2.2, c2.1, h3⟩) (h.polarize i hi)
        rw [if_pos c2]; unfold induct; rw [h0]; simp
      · rw [if_neg c2]

theorem exchange_sane (h : Sane d) {a b : ℕ} (ha : a < d.ns) (hb : b < d.ns) : Sane (exchange d a b) := by
  have hs : ∀ k < d.ns, Equiv.swap a b k < d.ns := by
    intro k hk
    rw [Equiv.swap_apply_def]
    split_ifs <;> assumption
  exact ⟨h.kb, h.eps0, h.av, h.Ru, fun k hk => h.MW _ (hs k hk), fun k hk => h.well _ (hs k hk), fun k hk => h.diam _ (hs k hk),
    fun k hk => h.dipole _ (hs k hk), fun k hk => h.polarize _ (hs k hk), fun k hk => h.zrot _ (hs k hk)⟩

/-- **C104 (order of the list), violated.** Exchanging the places of a polarisable nonpolar and a polar species in the species
    list changes the well depth (hence the binary diffusion coefficient) of the very same pair. -/
theorem C104_order_violated (h : Sane d) {i j : ℕ} (hj : j < d.ns) (hij : i < j) (h1 : ¬polar d i) (h2 : polar d j) (h3 : 0 < d.polarize i) :
    (reduced (exchange d i j)).well i j ≠ (reduced d).well i j := by
  have hi : i < d.ns := by omega
  have he := exchange_sane h hi hj
  have e1 : polar (exchange d i j) i ↔ polar d j := by simp [polar, exchange]
  have e2 : polar (exchange d i j) j ↔ polar d i := by simp [polar, exchange]
  have k1 := (C104_order_iff he (i := i) (j := j) hj hij).2 (by rw [e1]; tauto)
  have k2 := mt (C104_order_iff h (i := i) (j := j) hj hij).1 (by tauto)
  have e3 : xi (exchange d i j) i j = xi d i j := by
    unfold xi
    rw [if_pos (by rw [e1, e2]; tauto), if_neg (by tauto), if_pos ⟨h2, h1⟩]
    unfold induct exchange
    simp
  have e4 : (exchange d i j).well i * (exchange d i j).well j = d.well i * d.well j := by
    simp [exchange, mul_comm]
  rw [k1, e3, e4]
  exact fun c => k2 c.symm

/-- nitrogen and steam, roughly, in units of convenience -/
def exMix : SpData :=
  { ns := 2, kb := 1, eps0 := 1, avogadro := 2, Ru := 2, MW := fun k => if k = 0 then 28 else 18, well := fun _ => 1, diam := fun _ => 1,
    dipole := fun k => if k = 0 then 0 else 1, polarize := fun k => if k = 0 then 1 else 0, zrot := fun _ => 4,
    geometry := fun k => if k = 0 then "linear" else "nonlinear" }

theorem exMix_sane : Sane exMix := by
  refine ⟨?_, ?_, ?_, ?_, ?_, ?_, ?_, ?_, ?_, ?_⟩ <;> (try intro k _) <;> simp only [exMix] <;> (try split_ifs) <;> norm_num

example : ¬polar exMix 0 ∧ polar exMix 1 ∧ 0 < exMix.polarize 0 := by simp [polar, exMix]

/-! ### viscosity and diffusion -/

section
variable {o22 astar : ℝ → ℝ → ℝ}

/-- **C104 (viscosity).** The tabulated viscosity is the Chapman-Enskog value `5/16 √(m k T/π) / (σ² Ω)` and positive. -/
theorem C104_viscosity (h : Sane d) (ho : ∀ a b, 0 < o22 a b) {T : ℝ} (hT : 0 < T) {k : ℕ} (hk : k < d.ns) :
    visc d o22 T k = 5 / 16 * Real.sqrt (mass d k * d.kb * T / Real.pi)
      / (d.diam k ^ 2 * o22 (d.kb * T / d.well k) (d.dipole k ^ 2 / (2 * (4 * Real.pi * d.eps0 * d.well k * d.diam k ^ 3)))) ∧
    0 < visc d o22 T k := by
  have hm := mass_pos h hk
  have hs := h.diam k hk
  have hw := h.well k hk
  have hp := Real.pi_pos
  have hb := h.kb
  have hdel : (reduced d).delta k k = d.dipole k ^ 2 / (2 * (4 * Real.pi * d.eps0 * d.well k * d.diam k ^ 3)) := by
    obtain ⟨_, _, _, h4⟩ := C104_pairs_partial h hk hk (fun _ => id) (fun _ => id)
    rw [h4, Real.sqrt_mul_self hw.le, ← sq]; congr 3; ring
  unfold visc
  rw [hdel, mul_comm T]
  refine ⟨?_, ?_⟩
  · set O := o22 (d.kb * T / d.well k) (d.dipole k ^ 2 / (2 * (4 * Real.pi * d.eps0 * d.well k * d.diam k ^ 3))) with hO
    have hO' : 0 < O := ho _ _
    have e : Real.sqrt (Real.pi * mass d k * d.kb * T) = Real.pi * Real.sqrt (mass d k * d.kb * T / Real.pi) := by
      rw [show Real.pi * mass d k * d.kb * T = Real.pi ^ 2 * (mass d k * d.kb * T / Real.pi) by field_simp,
        Real.sqrt_mul (by positivity), Real.sqrt_sq hp.le]
    rw [e]; field_simp
  · have := ho (d.kb * T / d.well k) (d.dipole k ^ 2 / (2 * (4 * Real.pi * d.eps0 * d.well k * d.diam k ^ 3)))
    positivity

theorem rpow_three_halves {x : ℝ} (hx : 0 ≤ x) : x ^ (3 / 2 : ℝ) = Real.sqrt (x ^ 3) := by
  rw [Real.sqrt_eq_rpow, ← Real.rpow_natCast, ← Real.rpow_mul hx]; norm_num

/-- first-order diffusion coefficient at unit pressure: `3/16 √(2 (kT)³/(π m)) / (σ² Ω₁₁)`, `Ω₁₁ = Ω₂₂ / A*` -/
def chapman (kT m s om : ℝ) : ℝ := 3 / 16 * Real.sqrt (2 * kT ^ 3 / (Real.pi * m)) / (s ^ 2 * om)

theorem chapman_eq {kT m s om : ℝ} (hk : 0 < kT) (hm : 0 < m) :
    3 / 16 * Real.sqrt (2 * Real.pi / m) * kT ^ (3 / 2 : ℝ) / (Real.pi * s ^ 2 * om) = chapman kT m s om := by
  have hp := Real.pi_pos
  have e : Real.sqrt (2 * Real.pi / m) * kT ^ (3 / 2 : ℝ) = Real.pi * Real.sqrt (2 * kT ^ 3 / (Real.pi * m)) := by
    rw [rpow_three_halves hk.le, ← Real.sqrt_mul (by positivity),
      show 2 * Real.pi / m * kT ^ 3 = Real.pi ^ 2 * (2 * kT ^ 3 / (Real.pi * m)) by field_simp,
      Real.sqrt_mul (by positivity), Real.sqrt_sq hp.le]
  unfold chapman
  rw [mul_assoc (3 / 16 : ℝ), e, mul_assoc Real.pi, ← mul_assoc (3 / 16 : ℝ), mul_comm (3 / 16 : ℝ), mul_assoc Real.pi,
    mul_div_mul_left _ _ hp.ne']

/-- **C104 (binary diffusion).** The tabulated binary coefficients are symmetric, positive, and the Chapman-Enskog value of the
    pair data. -/
theorem C104_diffusion (h : Sane d) (ho : ∀ a b, 0 < o22 a b) (ha : ∀ a b, 0 < astar a b) {T : ℝ} (hT : 0 < T) {i j : ℕ}
    (hi : i < d.ns) (hj : j < d.ns) :
    let r := reduced d
    let t := d.kb * T / r.well i j
    diff d o22 astar T i j = diff d o22 astar T j i ∧ 0 < diff d o22 astar T i j ∧
    diff d o22 astar T i j = chapman (d.kb * T) (r.mass i j) (r.diam i j) (o22 t (r.delta i j) / astar t (r.delta i j)) := by
  intro r t
  have hsym : diff d o22 astar T i j = diff d o22 astar T j i := by
    unfold diff
    rcases lt_trichotomy i j with h1 | h1 | h1
    · rw [if_pos h1.le, if_neg (by omega)]
    · rw [h1]
    · rw [if_neg (by omega), if_pos h1.le]
  have hkT := mul_pos h.kb hT
  have main : ∀ {a b : ℕ}, a < d.ns → b < d.ns → diffLoop d o22 astar T a b = chapman (d.kb * T) (r.mass a b) (r.diam a b)
      (o22 (d.kb * T / r.well a b) (r.delta a b) / astar (d.kb * T / r.well a b) (r.delta a b)) := by
    intro a b ha' hb'
    obtain ⟨⟨_, s2, s3, _, s5⟩, m, _⟩ := C104_symmetric h ha' hb'
    unfold diffLoop
    dsimp only
    rw [chapman_eq hkT m, ← s2, ← s3, ← s5, mul_comm T]
  have heq : diff d o22 astar T i j = chapman (d.kb * T) (r.mass i j) (r.diam i j) (o22 t (r.delta i j) / astar t (r.delta i j)) := by
    unfold diff
    split_ifs with hij
    · exact main hi hj
    · rw [main hj hi]
      obtain ⟨⟨s1, s2, s3, _, s5⟩, _⟩ := C104_symmetric h hi hj
      show _ = chapman (d.kb * T) ((reduced d).mass i j) ((reduced d).diam i j)
        (o22 (d.kb * T / (reduced d).well i j) ((reduced d).delta i j) / astar (d.kb * T / (reduced d).well i j) ((reduced d).delta i j))
      rw [s1, s2, s3, s5]
  refine ⟨hsym, ?_, heq⟩
  rw [heq]
  obtain ⟨_, m, _, s, _⟩ := C104_symmetric h hi hj
  have := ho t (r.delta i j)
  have := ha t (r.delta i j)
  have hp := Real.pi_pos
  unfold chapman
  positivity

/-! ### conductivity -/

theorem selfDiff_eq (h : Sane d) (ho : ∀ a b, 0 < o22 a b) (ha : ∀ a b, 0 < astar a b) {T : ℝ} (hT : 0 < T) {k : ℕ} (hk : k < d.ns) :
    selfDiff d o22 astar T k = 6 / 5 * astar (d.kb * T / d.well k) ((reduced d).delta k k) * (d.kb * T / mass d k) * visc d o22 T k := by
  have hm := mass_pos h hk
  have hs := h.diam k hk
  have hp := Real.pi_pos
  have hb := h.kb
  have hkT := mul_pos hb hT
  have hr : (reduced d).mass k k = mass d k / 2 := by
    rw [(C104_pairs_partial h hk hk (fun _ => id) (fun _ => id)).1]; field_simp; ring
  unfold selfDiff visc
  dsimp only
  rw [hr, mul_comm T]
  set O := o22 (d.kb * T / d.well k) ((reduced d).delta k k)
  set A := astar (d.kb * T / d.well k) ((reduced d).delta k k)
  have hO : 0 < O := ho _ _
  have hA : 0 < A := ha _ _
  have e : Real.sqrt (2 * Real.pi / (mass d k / 2)) * (d.kb * T) ^ (3 / 2 : ℝ)
      = 2 * (d.kb * T / mass d k) * Real.sqrt (Real.pi * mass d k * d.kb * T) := by
    rw [rpow_three_halves hkT.le, ← Real.sqrt_mul (by positivity),
      show 2 * Real.pi / (mass d k / 2) * (d.kb * T) ^ 3 = (2 * (d.kb * T / mass d k)) ^ 2 * (Real.pi * mass d k * d.kb * T) by
        field_simp,
      Real.sqrt_mul (by positivity), Real.sqrt_sq (by positivity)]
  rw [mul_assoc (3 / 16 : ℝ), e]
  field_simp
  norm_num

/-- **C104 (internal diffusion).** With `Ru = k N_A` the factor `f_int` is Eucken's `6/5 A*`. -/
theorem C104_fint (h : Sane d) (hR : d.Ru = d.kb * d.avogadro) (ho : ∀ a b, 0 < o22 a b) (ha : ∀ a b, 0 < astar a b) {T : ℝ} (hT : 0 < T)
    {k : ℕ} (hk : k < d.ns) : fInt d o22 astar T k = 6 / 5 * astar (d.kb * T / d.well k) ((reduced d).delta k k) := by
  unfold fInt
  rw [selfDiff_eq h ho ha hT hk, hR]
  have hv := (C104_viscosity h ho hT hk).2
  have hM := h.MW k hk
  have hb := h.kb
  have hav := h.av
  unfold mass
  field_simp

theorem rotDOF_get {ns : ℕ} {g : ℕ → String} (hall : ∀ k < ns, rot (g k) ≠ none) :
    ((List.range ns).flatMap fun k => if g k = "atom" then [(0 : ℝ)] else if g k = "linear" then [1] else if g k = "nonlinear" then [3 / 2] else [])
      = (List.range ns).map fun k => (rot (g k)).getD 0 := by
  rw [List.map_eq_flatMap]
  refine List.flatMap_congr fun k hk => ?_
  have := hall k (List.mem_range.1 hk)
  unfold rot at this ⊢
  split at this <;> simp_all

theorem short {f : ℕ → List ℝ} (hf : ∀ k, (f k).length ≤ 1) : ∀ L : List ℕ, (L.flatMap f).length ≤ L.length ∧
    ((∃ k ∈ L, f k = []) → (L.flatMap f).length < L.length)
  | [] => by simp
  | x :: L => by
    obtain ⟨h1, h2⟩ := short hf L
    have := hf x
    simp only [List.flatMap_cons, List.length_append, List.length_cons, List.mem_cons, exists_eq_or_imp]
    refine ⟨by omega, ?_⟩
    rintro (h | h)
    · rw [h, List.length_nil]; omega
    · have := h2 h; omega

theorem mapM_all {α : Type} {f : ℕ → Option α} {g : ℕ → α} : ∀ L : List ℕ, (∀ k ∈ L, f k = some (g k)) → L.mapM f = some (L.map g)
  | [], _ => rfl
  | x :: L, h => by
    rw [List.mapM_cons, h x List.mem_cons_self, mapM_all L fun k hk => h k (List.mem_cons_of_mem _ hk)]; rfl

theorem mapM_none {α : Type} {f : ℕ → Option α} : ∀ L : List ℕ, (∃ k ∈ L, f k = none) → L.mapM f = none
  | [], h => by simp at h
  | x :: L, h => by
    rw [List.mapM_cons]
    cases hx : f x with
    | none => rfl
    | some y =>
      have : ∃ k ∈ L, f k = none := by
        obtain ⟨k, hk, hn⟩ := h
        rcases List.mem_cons.1 hk with rfl | hk
        · rw [hx] at hn; cases hn
        · exact ⟨k, hk, hn⟩
      rw [mapM_none L this]; rfl

theorem rotDOF_some (hall : ∀ k < d.ns, rot (d.geometry k) ≠ none) {k : ℕ} (hk : k < d.ns) : (rotDOF d)[k]? = rot (d.geometry k) := by
  have e : rotDOF d = (List.range d.ns).map fun k => (rot (d.geometry k)).getD 0 := rotDOF_get hall
  rw [e, List.getElem?_map, List.getElem?_range hk]
  cases h : rot (d.geometry k) with
  | none => exact absurd h (hall k hk)
  | some x => rw [Option.map_some, h]; rfl

theorem rotDOF_none (h : ∃ k < d.ns, rot (d.geometry k) = none) : (rotDOF d)[d.ns - 1]? = none ∧ 0 < d.ns := by
  obtain ⟨k, hk, hn⟩ := h
  refine ⟨?_, by omega⟩
  rw [List.getElem?_eq_none_iff]
  have := (short (f := fun k => if d.geometry k = "atom" then [(0 : ℝ)] else if d.geometry k = "linear" then [1]
    else if d.geometry k = "nonlinear" then [3 / 2] else []) (fun k => by split_ifs <;> simp) (List.range d.ns)).2 ⟨k, List.mem_range.2 hk, by
      unfold rot at hn; split at hn <;> simp_all⟩
  rw [List.length_range] at this
  have e : (rotDOF d).length = _ := rfl
  unfold rotDOF
  omega

/-- **C104 (geometry).** The function succeeds exactly if every species is an atom, linear or nonlinear; another word is never read as
    the geometry of a neighbour in the list. -/
theorem C104_geometry {h : Heat} {fit : Polyfit} {mu0 kappa0 : ℕ → ℝ} :
    tables d h o22 astar fit mu0 kappa0 ≠ none ↔ ∀ k < d.ns, d.geometry k = "atom" ∨ d.geometry k = "linear" ∨ d.geometry k = "nonlinear" := by
  have e : ∀ g : String, rot g ≠ none ↔ g = "atom" ∨ g = "linear" ∨ g = "nonlinear" := by
    intro g; unfold rot; split <;> simp_all
  simp only [← e]
  constructor
  · intro ht k hk hn
    obtain ⟨h1, h2⟩ := rotDOF_none ⟨k, hk, hn⟩
    exact ht (by unfold tables; rw [mapM_none _ ⟨d.ns - 1, List.mem_range.2 (by omega), h1⟩]; rfl)
  · intro hall
    unfold tables
    rw [mapM_all (g := fun k => (rot (d.geometry k)).getD 0) _ fun k hk => ?_]
    · simp
    · rw [rotDOF_some hall (List.mem_range.1 hk)]
      cases hx : rot (d.geometry k) with
      | none => exact absurd hx (hall k (List.mem_range.1 hk))
      | some x => rfl

/-- heat capacity over the gas constant (per mole) of the data: what `cp_R` stands for -/
def cpOverR (d : SpData) (h : Heat) (k : ℕ) (T : ℝ) : ℝ :=
  match h with
  | .cpg cp0 => cp0 k * d.MW k / d.Ru
  | .nasa c => if T ≤ c k 0 then c k 8 + c k 9 * T + c k 10 * T ^ 2 + c k 11 * T ^ 3 + c k 12 * T ^ 4
      else c k 1 + c k 2 * T + c k 3 * T ^ 2 + c k 4 * T ^ 3 + c k 5 * T ^ 4

/-- Mason and Monchick: `κ M/(μ R) = 15/4 + f (c_p/R - 5/2) - (2/π) c_rot (5/2 - f)² / B`, `f = 6/5 A*`,
    `B = Z_rot F(298 K)/F(T) + (2/π)(5/3 c_rot + f)` -/
def eucken (f c cp Z : ℝ) : ℝ := 15 / 4 + f * (cp - 5 / 2) - 2 / Real.pi * c * (5 / 2 - f) ^ 2 / (Z + 2 / Real.pi * (5 / 3 * c + f))

/-- Parker's function of `x = ε/(k T)`: `1 + (π^{3/2}/2) x^{1/2} + (π²/4 + 2) x + π^{3/2} x^{3/2}` -/
def parker (x : ℝ) : ℝ :=
  1 + Real.pi ^ (3 / 2 : ℝ) / 2 * x ^ (1 / 2 : ℝ) + (Real.pi ^ 2 / 4 + 2) * x + Real.pi ^ (3 / 2 : ℝ) * x ^ (3 / 2 : ℝ)

/-- relaxation number at temperature `T`: `Z_rot` is given at 298 K -/
def relax (d : SpData) (k : ℕ) (T : ℝ) : ℝ := d.zrot k * parker (d.well k / (d.kb * 298)) / parker (d.well k / (d.kb * T))

theorem fz_eq {t : ℝ} (ht : 0 < t) : fz t = parker (1 / t) := by
  have hs : Real.sqrt t * Real.sqrt t = t := Real.mul_self_sqrt ht.le
  have hp : 0 < Real.sqrt t := Real.sqrt_pos.2 ht
  have h1 : (1 / t) ^ (1 / 2 : ℝ) = 1 / Real.sqrt t := by
    rw [← Real.sqrt_eq_rpow, Real.sqrt_div zero_le_one, Real.sqrt_one]
  have h3 : (1 / t) ^ (3 / 2 : ℝ) = 1 / t * (1 / Real.sqrt t) := by
    rw [show (3 / 2 : ℝ) = 1 + 1 / 2 by norm_num, Real.rpow_add (by positivity), Real.rpow_one, h1]
  unfold fz parker
  rw [h1, h3]
  field_simp
  ring

theorem condOf_eq (h : Sane d) (hR : d.Ru = d.kb * d.avogadro) (ho : ∀ a b, 0 < o22 a b) (ha : ∀ a b, 0 < astar a b) {T : ℝ} (hT : 0 < T)
    {k : ℕ} (hk : k < d.ns) (hh : Heat) (c : ℝ) : condOf d hh o22 astar T k c = visc d o22 T k * d.Ru / d.MW k *
      eucken (6 / 5 * astar (d.kb * T / d.well k) ((reduced d).delta k k)) c (cpR d hh k T) (relax d k T) := by
  unfold condOf
  dsimp only
  have hw := h.well k hk
  have hb := h.kb
  rw [C104_fint h hR ho ha hT hk, mul_comm T, fz_eq (by positivity), fz_eq (by positivity), one_div_div, one_div_div]
  unfold eucken relax
  generalize d.zrot k * parker (d.well k / (d.kb * 298)) / parker (d.well k / (d.kb * T)) = Z
  generalize 6 / 5 * astar (d.kb * T / d.well k) ((reduced d).delta k k) = f
  generalize hB : Z + 2 / Real.pi * (5 / 3 * c + f) = B
  ring

/-- **C104 (conductivity), partial.** For the NASA7 equations of state (`tpg`, `cubic`) the tabulated conductivity is the
    Mason-Monchick value with the heat capacity of the species and the rotational degrees of freedom of its geometry.
    (Missing: `cpg`, where it is false, `C104_cpg_violated`.) -/
theorem C104_conductivity_partial (h : Sane d) (hR : d.Ru = d.kb * d.avogadro) (ho : ∀ a b, 0 < o22 a b) (ha : ∀ a b, 0 < astar a b)
    {T : ℝ} (hT : 0 < T) (hg : ∀ k < d.ns, rot (d.geometry k) ≠ none) {k : ℕ} (hk : k < d.ns) {c : ℝ} (hc : rot (d.geometry k) = some c)
    (n : ℕ → ℕ → ℝ) : cond d (.nasa n) o22 astar T k = some (visc d o22 T k * d.Ru / d.MW k *
      eucken (6 / 5 * astar (d.kb * T / d.well k) ((reduced d).delta k k)) c (cpOverR d (.nasa n) k T) (relax d k T)) := by
  unfold cond
  rw [rotDOF_some hg hk, hc, Option.map_some, condOf_eq h hR ho ha hT hk]
  congr 3
  unfold cpR cpOverR
  dsimp only
  simp only [Finset.sum_range_succ, Finset.sum_range_zero]
  norm_num

/-- **C104 (conductivity of a constant-cp gas), violated.** With `cpg` the code uses `cp0 T / (Ru MW)` for `cp/R`, which is
    `cp0 MW / Ru`: the conductivity is right only at the temperature whose number is the square of the molecular weight. -/
theorem C104_cpg_violated (h : Sane d) (hR : d.Ru = d.kb * d.avogadro) (ho : ∀ a b, 0 < o22 a b) (ha : ∀ a b, 0 < astar a b) {T : ℝ}
    (hT : 0 < T) (hg : ∀ k < d.ns, rot (d.geometry k) ≠ none) {k : ℕ} (hk : k < d.ns) {c : ℝ} (hc : rot (d.geometry k) = some c)
    {cp0 : ℕ → ℝ} (hcp : 0 < cp0 k) :
    cond d (.cpg cp0) o22 astar T k = some (visc d o22 T k * d.Ru / d.MW k *
      eucken (6 / 5 * astar (d.kb * T / d.well k) ((reduced d).delta k k)) c (cpOverR d (.cpg cp0) k T) (relax d k T)) ↔ T = d.MW k ^ 2 := by
  unfold cond
  rw [rotDOF_some hg hk, hc, Option.map_some, condOf_eq h hR ho ha hT hk, Option.some_inj]
  have hv := (C104_viscosity h ho hT hk).2
  have hM := h.MW k hk
  have hRu := h.Ru
  have hA := ha (d.kb * T / d.well k) ((reduced d).delta k k)
  rw [mul_right_inj' (by positivity)]
  unfold eucken cpR cpOverR
  dsimp only
  have hf : 0 < 6 / 5 * astar (d.kb * T / d.well k) ((reduced d).delta k k) := by positivity
  generalize 6 / 5 * astar (d.kb * T / d.well k) ((reduced d).delta k k) = f at *
  rw [sub_left_inj, add_right_inj]
  constructor
  · intro e
    have e1 := mul_left_cancel₀ hf.ne' e
    have e2 : cp0 k * T / (d.Ru * d.MW k) = cp0 k * d.MW k / d.Ru := by linarith
    rw [div_eq_div_iff (by positivity) hRu.ne'] at e2
    have e3 : cp0 k * d.Ru * T = cp0 k * d.Ru * d.MW k ^ 2 := by linarith
    exact mul_left_cancel₀ (by positivity) e3
  · intro e; rw [e]; field_simp

/-- **C104 (monatomic gas).** An atom whose NASA7 polynomial gives `cp = 5/2 R` has `κ = 15/4 μ R/M`. -/
theorem C104_monatomic (h : Sane d) (hR : d.Ru = d.kb * d.avogadro) (ho : ∀ a b, 0 < o22 a b) (ha : ∀ a b, 0 < astar a b)
    {T : ℝ} (hT : 0 < T) (hg : ∀ k < d.ns, rot (d.geometry k) ≠ none) {k : ℕ} (hk : k < d.ns) (hc : d.geometry k = "atom")
    {n : ℕ → ℕ → ℝ} (hn : cpOverR d (.nasa n) k T = 5 / 2) :
    cond d (.nasa n) o22 astar T k = some (15 / 4 * visc d o22 T k * d.Ru / d.MW k) := by
  rw [C104_conductivity_partial h hR ho ha hT hg hk (c := 0) (by rw [hc]; rfl), hn]
  unfold eucken
  congr 1
  ring

theorem parker_pos {t : ℝ} (ht : 0 < t) : 0 < parker t := by
  have := Real.pi_pos
  unfold parker; positivity

/-- **C104 (conductivity positive).** With `A* < 25/6` (the tables stay below 1.4) and `cp >= 5/2 R` the tabulated conductivity is
    positive, so the weights of its fit are finite. -/
theorem C104_conductivity_positive (h : Sane d) (hR : d.Ru = d.kb * d.avogadro) (ho : ∀ a b, 0 < o22 a b) (ha : ∀ a b, 0 < astar a b)
    (ha' : ∀ a b, astar a b < 25 / 6) {T : ℝ} (hT : 0 < T) {k : ℕ} (hk : k < d.ns) {c : ℝ} (hc : 0 ≤ c) {hh : Heat} (hcp : 5 / 2 ≤ cpR d hh k T) :
    0 < condOf d hh o22 astar T k c := by
  rw [condOf_eq h hR ho ha hT hk]
  have hv := (C104_viscosity h ho hT hk).2
  have hM := h.MW k hk
  have hRu := h.Ru
  have hA := ha (d.kb * T / d.well k) ((reduced d).delta k k)
  have hA' := ha' (d.kb * T / d.well k) ((reduced d).delta k k)
  have hf : 0 < 6 / 5 * astar (d.kb * T / d.well k) ((reduced d).delta k k) := by positivity
  have hf' : 6 / 5 * astar (d.kb * T / d.well k) ((reduced d).delta k k) < 5 := by linarith
  have hw := h.well k hk
  have hb := h.kb
  have hZ : 0 ≤ relax d k T := by
    have := parker_pos (show 0 < d.well k / (d.kb * 298) by positivity)
    have := parker_pos (show 0 < d.well k / (d.kb * T) by positivity)
    have := h.zrot k hk
    unfold relax; positivity
  refine mul_pos (by positivity) ?_
  generalize 6 / 5 * astar (d.kb * T / d.well k) ((reduced d).delta k k) = f at *
  unfold eucken
  have hp := Real.pi_pos
  have hB : 0 < relax d k T + 2 / Real.pi * (5 / 3 * c + f) := by positivity
  have h1 : 2 / Real.pi * c * (5 / 2 - f) ^ 2 / (relax d k T + 2 / Real.pi * (5 / 3 * c + f)) ≤ 3 / 5 * (5 / 2 - f) ^ 2 := by
    rw [div_le_iff₀ hB]
    have hq : 0 ≤ (5 / 2 - f) ^ 2 := sq_nonneg _
    have h2 : 2 / Real.pi * c ≤ 3 / 5 * (relax d k T + 2 / Real.pi * (5 / 3 * c + f)) := by
      have : 0 ≤ 2 / Real.pi * f := by positivity
      nlinarith
    nlinarith
  have h3 : 3 / 5 * (5 / 2 - f) ^ 2 < 15 / 4 := by nlinarith
  have h4 : 0 ≤ f * (cpR d hh k T - 5 / 2) := mul_nonneg hf.le (by linarith)
  linarith

/-- the hypotheses of the conductivity theorems are met -/
example : Sane exMix ∧ exMix.Ru = exMix.kb * exMix.avogadro ∧ (∀ k < exMix.ns, rot (exMix.geometry k) ≠ none) ∧
    rot (exMix.geometry 0) = some 1 := by
  refine ⟨exMix_sane, by norm_num [exMix], fun k hk => ?_, rfl⟩
  have : k = 0 ∨ k = 1 := by simp only [exMix] at hk; omega
  rcases this with rfl | rfl <;> simp [exMix, rot]

/-- the constants of the library satisfy `Ru = k N_A` exactly, speciesLibrary.yaml:3-5 -/
example : (8314.46261815324 : ℝ) = 1.380649e-23 * 6.02214076e26 := by norm_num

end
end PG.Trans.KT
