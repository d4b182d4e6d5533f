import Mathlib.Data.EReal.Inv
import Mathlib.Analysis.Real.Sqrt
import Mathlib.Algebra.BigOperators.Fin
import Mathlib.Tactic.Ring
import Mathlib.Tactic.Linarith
import Mathlib.Tactic.FieldSimp
import Mathlib.Tactic.NormNum
import Mathlib.Tactic.Positivity
import Mathlib.Tactic.FinCases
/-!
C92: the local pseudo time step, localDtau (/repo/src/compute/timeIntegration/dualTime.cpp:36-105), for one cell. Doubles are
reals; the infinity that switches a direction off is `⊤` of the extended reals.
-/
noncomputable section
namespace PG.Dual
open Finset

/-- what localDtau reads of the grid at a cell: centres and unit normals of the two faces (`false` low, `true` high) of
    each direction (ixc..kzc, inx..knz) -/
structure FaceGeo where
  ctr : Fin 3 → Bool → Fin 3 → ℝ
  nrm : Fin 3 → Bool → Fin 3 → ℝ

/-- dI, dJ, dK: distance of opposite face centres (dualTime.cpp:59-67) -/
def cellLen (g : FaceGeo) (d : Fin 3) : ℝ := √(∑ x, (g.ctr d true x - g.ctr d false x) ^ 2)
/-- uI, uJ, uK (dualTime.cpp:74-85): root of the sum of squares of the products of mean normal and velocity components -/
def convSpeed (g : FaceGeo) (u : Fin 3 → ℝ) (d : Fin 3) : ℝ := √(∑ x, (0.5 * (g.nrm d false x + g.nrm d true x) * u x) ^ 2)
/-- iMult, jMult, kMult (dualTime.cpp:40-51) -/
def mult (thin : Fin 3 → Bool) (d : Fin 3) : EReal := if thin d then ⊤ else 1
/-- candidate of the convective limit (dualTime.cpp:93-95) -/
def convLimit (thin : Fin 3 → Bool) (g : FaceGeo) (u : Fin 3 → ℝ) (c : ℝ) (d : Fin 3) : EReal :=
  mult thin d * ((0.5 * cellLen g d / (convSpeed g u d + c) : ℝ) : EReal)
/-- candidate of the viscous limit (dualTime.cpp:98-100); division by nu = 0 gives infinity -/
def viscLimit (thin : Fin 3 → Bool) (g : FaceGeo) (nu : ℝ) (d : Fin 3) : EReal :=
  if nu = 0 then ⊤ else mult thin d * ((0.1 * cellLen g d ^ 2 / nu : ℝ) : EReal)
/-- localDtau (dualTime.cpp:36-105): smallest candidate. `mu` is b.qt(.,0), `rho` is b.Q(.,0). -/
def localDtau (thin : Fin 3 → Bool) (viscous : Bool) (g : FaceGeo) (u : Fin 3 → ℝ) (c mu rho : ℝ) : EReal :=
  let d0 := min (min (min ⊤ (convLimit thin g u c 0)) (convLimit thin g u c 1)) (convLimit thin g u c 2)
  if viscous then
    let nu := mu / rho
    min (min (min d0 (viscLimit thin g nu 0)) (viscLimit thin g nu 1)) (viscLimit thin g nu 2)
  else d0

/-! ### specification -/

/-- a proper cell in a physical state -/
structure GoodCell (g : FaceGeo) (c mu rho : ℝ) : Prop where
  len : ∀ d, ∃ x, g.ctr d true x ≠ g.ctr d false x
  c : 0 < c
  mu : 0 ≤ mu
  rho : 0 < rho

/-- flow speed through the cell along direction `d`: mean face normal times velocity -/
def through (g : FaceGeo) (u : Fin 3 → ℝ) (d : Fin 3) : ℝ := |∑ x, (g.nrm d false x + g.nrm d true x) / 2 * u x|
/-- distance of the centres of the two faces of direction `d` -/
def width (g : FaceGeo) (d : Fin 3) : ℝ := √(∑ x, (g.ctr d true x - g.ctr d false x) ^ 2)

variable {g : FaceGeo} {u : Fin 3 → ℝ} {c mu rho : ℝ} {thin : Fin 3 → Bool} {viscous : Bool}

theorem len_pos (h : GoodCell g c mu rho) (d : Fin 3) : 0 < cellLen g d := by
  obtain ⟨x, hx⟩ := h.len d
  refine Real.sqrt_pos.2 (lt_of_lt_of_le ?_ (single_le_sum (f := fun x => (g.ctr d true x - g.ctr d false x) ^ 2)
    (fun i _ => sq_nonneg _) (mem_univ x)))
  have := sub_ne_zero.2 hx
  positivity

theorem mult_thin {d : Fin 3} (h : thin d = true) {x : ℝ} (hx : 0 < x) : mult thin d * (x : EReal) = ⊤ := by
  unfold mult; rw [if_pos h]; exact EReal.top_mul_coe_of_pos hx

theorem mult_thick {d : Fin 3} (h : thin d = false) (x : ℝ) : mult thin d * (x : EReal) = x := by
  unfold mult; rw [if_neg (by simp [h])]; exact one_mul _

theorem conv_thick {d : Fin 3} (h : thin d = false) :
    convLimit thin g u c d = ((0.5 * cellLen g d / (convSpeed g u d + c) : ℝ) : EReal) := mult_thick h _

theorem conv_pos (h : GoodCell g c mu rho) (d : Fin 3) : 0 < 0.5 * cellLen g d / (convSpeed g u d + c) := by
  have h1 := len_pos h d
  have h2 : 0 ≤ convSpeed g u d := Real.sqrt_nonneg _
  have h3 := h.c
  positivity

theorem convLimit_pos (h : GoodCell g c mu rho) (d : Fin 3) : 0 < convLimit thin g u c d := by
  have := conv_pos (u := u) h d
  cases ht : thin d
  · rw [conv_thick ht]; exact_mod_cast this
  · unfold convLimit; rw [mult_thin ht this]; exact EReal.zero_lt_top

theorem viscLimit_pos (h : GoodCell g c mu rho) (d : Fin 3) : 0 < viscLimit thin g (mu / rho) d := by
  unfold viscLimit
  split_ifs with hn
  · exact EReal.zero_lt_top
  have h1 := len_pos h d
  have h2 : 0 < mu / rho := lt_of_le_of_ne (div_nonneg h.mu h.rho.le) (Ne.symm hn)
  have : 0 < 0.1 * cellLen g d ^ 2 / (mu / rho) := by positivity
  cases ht : thin d
  · rw [mult_thick ht]; exact_mod_cast this
  · rw [mult_thin ht this]; exact EReal.zero_lt_top

theorem le_conv (d : Fin 3) : localDtau thin viscous g u c mu rho ≤ convLimit thin g u c d := by
  unfold localDtau
  have h : min (min (min ⊤ (convLimit thin g u c 0)) (convLimit thin g u c 1)) (convLimit thin g u c 2) ≤ convLimit thin g u c d := by
    fin_cases d <;> simp
  cases viscous
  · simpa using h
  · simp only [if_true]
    exact le_trans (le_trans (min_le_left _ _) (le_trans (min_le_left _ _) (min_le_left _ _))) h

theorem le_visc (d : Fin 3) : localDtau thin true g u c mu rho ≤ viscLimit thin g (mu / rho) d := by
  unfold localDtau
  fin_cases d <;> simp

theorem lt_dtau {a : EReal} (ha : a < ⊤) (h1 : ∀ d, a < convLimit thin g u c d)
    (h2 : viscous = true → ∀ d, a < viscLimit thin g (mu / rho) d) : a < localDtau thin viscous g u c mu rho := by
  unfold localDtau
  cases viscous
  · simp only [Bool.false_eq_true, if_false, lt_min_iff]
    exact ⟨⟨⟨ha, h1 0⟩, h1 1⟩, h1 2⟩
  · simp only [if_true, lt_min_iff]
    exact ⟨⟨⟨⟨⟨⟨ha, h1 0⟩, h1 1⟩, h1 2⟩, h2 rfl 0⟩, h2 rfl 1⟩, h2 rfl 2⟩

/-- C92: the local pseudo time step of a proper cell is positive. -/
theorem C92_positive (h : GoodCell g c mu rho) : 0 < localDtau thin viscous g u c mu rho :=
  lt_dtau EReal.zero_lt_top (fun d => convLimit_pos h d) (fun _ d => viscLimit_pos h d)

/-- C92: it is a finite number as soon as the block has more than one cell in some direction. Partial: in a block of a single
    cell it is infinite (`C92_single_cell_violated`). -/
theorem C92_finite_partial (h : GoodCell g c mu rho) {d : Fin 3} (hd : thin d = false) :
    ∃ x : ℝ, 0 < x ∧ localDtau thin viscous g u c mu rho = x := by
  have h0 := C92_positive (thin := thin) (viscous := viscous) (u := u) h
  have h1 : localDtau thin viscous g u c mu rho < ⊤ := lt_of_le_of_lt (le_conv d) (by rw [conv_thick hd]; exact EReal.coe_lt_top _)
  refine ⟨(localDtau thin viscous g u c mu rho).toReal, ?_, (EReal.coe_toReal h1.ne (ne_bot_of_gt h0)).symm⟩
  exact EReal.toReal_pos h0 h1.ne

theorem C92_single_cell_violated (h : GoodCell g c mu rho) (hd : ∀ d, thin d = true) :
    localDtau thin viscous g u c mu rho = ⊤ := by
  by_contra hne
  have hc : ∀ d, convLimit thin g u c d = ⊤ := fun d => mult_thin (hd d) (conv_pos h d)
  have hv : ∀ d, viscLimit thin g (mu / rho) d = ⊤ := by
    intro d
    unfold viscLimit
    split_ifs with hn
    · rfl
    have h1 := len_pos h d
    have h2 : 0 < mu / rho := lt_of_le_of_ne (div_nonneg h.mu h.rho.le) (Ne.symm hn)
    exact mult_thin (hd d) (by positivity)
  apply hne
  unfold localDtau
  simp only [hc, hv]
  cases viscous <;> simp

/-- C92: in every direction that is not switched off, the viscous stability number `nu dtau / width²` is at most 0.1, -/
theorem C92_viscous (h : GoodCell g c mu rho) {d : Fin 3} (hd : thin d = false) {x : ℝ}
    (hx : localDtau thin true g u c mu rho = x) : mu / rho * x / width g d ^ 2 ≤ 0.1 := by
  have hl : 0 < width g d := len_pos h d
  by_cases hn : mu / rho = 0
  · rw [hn]; norm_num
  have h2 : 0 < mu / rho := lt_of_le_of_ne (div_nonneg h.mu h.rho.le) (Ne.symm hn)
  have := le_visc (thin := thin) (g := g) (u := u) (c := c) (mu := mu) (rho := rho) d
  rw [hx] at this
  unfold viscLimit at this
  rw [if_neg hn, mult_thick hd, EReal.coe_le_coe_iff] at this
  rw [le_div_iff₀ h2] at this
  rw [div_le_iff₀ (by positivity)]
  change x * (mu / rho) ≤ 0.1 * width g d ^ 2 at this
  linarith

theorem conv_bound (h : GoodCell g c mu rho) {d : Fin 3} (hd : thin d = false) {x : ℝ}
    (hx : localDtau thin viscous g u c mu rho = x) : (convSpeed g u d + c) * x ≤ 0.5 * cellLen g d := by
  have h1 := le_conv (thin := thin) (viscous := viscous) (g := g) (u := u) (c := c) (mu := mu) (rho := rho) d
  rw [hx, conv_thick hd, EReal.coe_le_coe_iff] at h1
  have h2 : 0 ≤ convSpeed g u d := Real.sqrt_nonneg _
  have h3 := h.c
  rw [le_div_iff₀ (by positivity)] at h1
  linarith

theorem through_le : through g u d ≤ √3 * convSpeed g u d := by
  unfold through convSpeed
  rw [← Real.sqrt_mul (by norm_num)]
  refine Real.abs_le_sqrt ?_
  have e : ∀ x, (g.nrm d false x + g.nrm d true x) / 2 * u x = 0.5 * (g.nrm d false x + g.nrm d true x) * u x := fun x => by ring
  simp only [e]
  rw [Fin.sum_univ_three, Fin.sum_univ_three]
  set f : Fin 3 → ℝ := fun x => 0.5 * (g.nrm d false x + g.nrm d true x) * u x
  change (f 0 + f 1 + f 2) ^ 2 ≤ 3 * (f 0 ^ 2 + f 1 ^ 2 + f 2 ^ 2)
  nlinarith [sq_nonneg (f 0 - f 1), sq_nonneg (f 1 - f 2), sq_nonneg (f 0 - f 2)]

/-- C92: and the convective number `(|n·u| + c) dtau / width` is at most `√3 / 2` (the code asks for 1/2; what it gets is 1/2
    when the mean normal lies along a coordinate axis, `C92_convective_aligned`, but not in general,
    `C92_convective_violated`). -/
theorem C92_convective_partial (h : GoodCell g c mu rho) {d : Fin 3} (hd : thin d = false) {x : ℝ}
    (hx : localDtau thin viscous g u c mu rho = x) : (through g u d + c) * x / width g d ≤ √3 / 2 := by
  have hl : 0 < width g d := len_pos h d
  have hb := conv_bound h hd hx
  have hx0 : 0 < x := by
    have := C92_positive (thin := thin) (viscous := viscous) (u := u) h
    rw [hx] at this; exact_mod_cast this
  have h3 : 1 ≤ √3 := by rw [Real.one_le_sqrt]; norm_num
  rw [div_le_iff₀ hl]
  have h1 : through g u d + c ≤ √3 * (convSpeed g u d + c) := by
    have := through_le (g := g) (u := u) (d := d)
    have := h.c
    nlinarith
  calc (through g u d + c) * x ≤ √3 * (convSpeed g u d + c) * x := mul_le_mul_of_nonneg_right h1 hx0.le
    _ = √3 * ((convSpeed g u d + c) * x) := by ring
    _ ≤ √3 * (0.5 * cellLen g d) := mul_le_mul_of_nonneg_left hb (by positivity)
    _ = √3 / 2 * width g d := by unfold width cellLen; ring

theorem C92_convective_aligned (h : GoodCell g c mu rho) {d : Fin 3} (hd : thin d = false) {x : ℝ} (a : Fin 3)
    (ha : ∀ y, y ≠ a → g.nrm d false y + g.nrm d true y = 0) (hx : localDtau thin viscous g u c mu rho = x) :
    (through g u d + c) * x / width g d ≤ 1 / 2 := by
  have hl : 0 < width g d := len_pos h d
  have hb := conv_bound h hd hx
  have e : through g u d = convSpeed g u d := by
    unfold through convSpeed
    rw [sum_eq_single a (fun y _ hy => by rw [ha y hy]; simp) (by simp),
      sum_eq_single a (fun y _ hy => by rw [ha y hy]; simp) (by simp), Real.sqrt_sq_eq_abs]
    congr 1; ring
  rw [div_le_iff₀ hl, e]
  calc _ ≤ _ := hb
    _ = _ := by unfold width cellLen; norm_num

/-- a cube of width 1 with faces turned to the space diagonal, in a flow along the diagonal -/
def diagGeo : FaceGeo := ⟨fun _ s x => if s then (if x = 0 then 1 else 0) else 0, fun _ _ _ => 1 / √3⟩

theorem diag_len (d : Fin 3) : cellLen diagGeo d = 1 := by
  unfold cellLen diagGeo; simp [Fin.sum_univ_three]

theorem s3 : √3 * √3 = 3 := Real.mul_self_sqrt (by norm_num)

theorem diag_speed (U : ℝ) (hU : 0 ≤ U) (d : Fin 3) : convSpeed diagGeo (fun _ => U) d = U := by
  unfold convSpeed diagGeo
  have h3 : (√3 : ℝ) ≠ 0 := by positivity
  have : ∑ x : Fin 3, (0.5 * (1 / √3 + 1 / √3) * U) ^ 2 = U ^ 2 := by
    rw [Fin.sum_univ_three]
    have h := s3
    field_simp
    nlinarith
  rw [this, Real.sqrt_sq hU]

theorem diag_through (U : ℝ) (hU : 0 ≤ U) (d : Fin 3) : through diagGeo (fun _ => U) d = √3 * U := by
  unfold through diagGeo
  have h3 : (√3 : ℝ) ≠ 0 := by positivity
  have : ∑ x : Fin 3, (1 / √3 + 1 / √3) / 2 * U = √3 * U := by
    rw [Fin.sum_univ_three]
    have h := s3
    field_simp
    nlinarith
  rw [this, abs_of_nonneg (by positivity)]

theorem diag_good : GoodCell diagGeo 1 0 1 := ⟨fun d => ⟨0, by simp [diagGeo]⟩, by norm_num, le_rfl, by norm_num⟩

theorem diag_dtau (U : ℝ) (hU : 0 ≤ U) :
    localDtau (fun _ => false) false diagGeo (fun _ => U) 1 0 1 = ((0.5 / (U + 1) : ℝ) : EReal) := by
  have e : ∀ d, convLimit (fun _ => false) diagGeo (fun _ => U) 1 d = ((0.5 / (U + 1) : ℝ) : EReal) := by
    intro d; rw [conv_thick rfl, diag_len, diag_speed U hU, mul_one]
  unfold localDtau
  simp [e]

/-- C92 violated: the convective number can come as close to `√3 / 2` as one likes: the limit 1/2 asked for is exceeded. -/
theorem C92_convective_violated (eps : ℝ) (he : 0 < eps) : ∃ U x : ℝ, 0 ≤ U ∧
    localDtau (fun _ => false) false diagGeo (fun _ => U) 1 0 1 = x ∧
    √3 / 2 - eps < (through diagGeo (fun _ => U) 0 + 1) * x / width diagGeo 0 := by
  have h3 : 0 ≤ √3 := by positivity
  have hU : 0 ≤ √3 / eps := by positivity
  refine ⟨√3 / eps, 0.5 / (√3 / eps + 1), hU, diag_dtau _ hU, ?_⟩
  rw [diag_through _ hU]
  have : width diagGeo 0 = 1 := diag_len 0
  rw [this, div_one, mul_div_assoc', lt_div_iff₀ (by positivity)]
  have h := s3
  have e : √3 * (√3 / eps) = 3 / eps := by rw [mul_div_assoc', h]
  have e2 : (√3 / 2 - eps) * (√3 / eps + 1) = 3 / eps / 2 + √3 / 2 - √3 - eps := by
    field_simp; nlinarith
  rw [e2, e]
  have : 1 ≤ √3 := by rw [Real.one_le_sqrt]; norm_num
  nlinarith

/-- C92 violated: turning grid and flow together changes the pseudo time step: the same cell with the same flow straight
    through it (speed √3, width 1, sound speed 1), once turned to the diagonal and once along the axis -/
def axisGeo : FaceGeo := ⟨fun _ s x => if s then (if x = 0 then 1 else 0) else 0, fun _ _ x => if x = 0 then 1 else 0⟩

theorem C92_frame_violated :
    through diagGeo (fun _ => 1) 0 = through axisGeo (fun x => if x = 0 then √3 else 0) 0 ∧
    width diagGeo 0 = width axisGeo 0 ∧
    (∑ x : Fin 3, ((1 : ℝ)) ^ 2 = ∑ x : Fin 3, (if x = 0 then √3 else (0 : ℝ)) ^ 2) ∧
    localDtau (fun _ => false) false diagGeo (fun _ => 1) 1 0 1 ≠
      localDtau (fun _ => false) false axisGeo (fun x => if x = 0 then √3 else 0) 1 0 1 := by
  refine ⟨?_, rfl, ?_, ?_⟩
  · rw [diag_through _ zero_le_one]
    unfold through axisGeo
    simp [Fin.sum_univ_three, abs_of_nonneg (Real.sqrt_nonneg 3)]
  · rw [Fin.sum_univ_three, Fin.sum_univ_three]; simp
    norm_num
  · rw [diag_dtau _ zero_le_one]
    have hg : GoodCell axisGeo 1 0 1 := ⟨fun d => ⟨0, by simp [axisGeo]⟩, by norm_num, le_rfl, by norm_num⟩
    intro he
    have h1 := conv_bound (d := 0) hg rfl he.symm
    have e1 : convSpeed axisGeo (fun x => if x = 0 then √3 else 0) 0 = √3 := by
      unfold convSpeed axisGeo
      rw [Fin.sum_univ_three]
      simp
      norm_num
    have e2 : cellLen axisGeo 0 = 1 := by unfold cellLen axisGeo; simp [Fin.sum_univ_three]
    rw [e1, e2] at h1
    have : 1 < √3 := by rw [Real.lt_sqrt] <;> norm_num
    nlinarith

/-- C92: which direction limits is decided by the grid alone along a scaling of space: cells `s` times larger give `s` times the
    inviscid pseudo time step -/
theorem C92_scaling (h : GoodCell g c mu rho) {s : ℝ} (hs : 0 < s) {d : Fin 3} (hd : thin d = false) :
    ∃ x : ℝ, localDtau thin false g u c mu rho = x ∧
      localDtau thin false ⟨fun d b x => s * g.ctr d b x, g.nrm⟩ u c mu rho = ((s * x : ℝ) : EReal) := by
  obtain ⟨x, hx0, hx⟩ := C92_finite_partial (thin := thin) (viscous := false) (u := u) h hd
  refine ⟨x, hx, ?_⟩
  set g' : FaceGeo := ⟨fun d b x => s * g.ctr d b x, g.nrm⟩
  have el : ∀ d, cellLen g' d = s * cellLen g d := by
    intro d
    unfold cellLen
    have : ∑ x, (g'.ctr d true x - g'.ctr d false x) ^ 2 = s ^ 2 * ∑ x, (g.ctr d true x - g.ctr d false x) ^ 2 := by
      rw [mul_sum]; refine sum_congr rfl fun x _ => ?_
      change (s * _ - s * _) ^ 2 = _
      ring
    rw [this, Real.sqrt_mul (by positivity), Real.sqrt_sq hs.le]
  have e : ∀ d, convLimit thin g' u c d = (s : EReal) * convLimit thin g u c d := by
    intro d
    unfold convLimit
    change mult thin d * ((0.5 * cellLen g' d / (convSpeed g u d + c) : ℝ) : EReal) = _
    rw [el, show 0.5 * (s * cellLen g d) / (convSpeed g u d + c) = s * (0.5 * cellLen g d / (convSpeed g u d + c)) by ring,
      EReal.coe_mul]
    cases ht : thin d
    · unfold mult; simp [ht]
    · rw [← EReal.coe_mul, mult_thin ht (mul_pos hs (conv_pos h d)), mult_thin ht (conv_pos h d), EReal.coe_mul_top_of_pos hs]
  have hm : Monotone fun y : EReal => (s : EReal) * y := fun a b hab => mul_le_mul_of_nonneg_left hab (by exact_mod_cast hs.le)
  rw [EReal.coe_mul, ← hx]
  unfold localDtau
  simp only [Bool.false_eq_true, if_false, e, le_top, inf_of_le_right]
  rw [hm.map_min, hm.map_min]

example : ∃ x : ℝ, 0 < x ∧ localDtau (fun d => decide (d = 2)) true diagGeo (fun _ => 3) 1 0 1 = x :=
  C92_finite_partial (d := 0) diag_good rfl

end PG.Dual
