import Verif.Whole.RotateDiff
import Verif.Whole.ResumeGas
/-!
C110: metrics, gradients, subgrid model and equation of state in a moved frame.
-/
noncomputable section
namespace PG
open V3 PG.Mesh

/-! ### metrics (metrics.py) -/

theorem area_turn (R : Rotation) (s : V3) : area (R.f s) = area s := by
  unfold area
  rw [R.sq']

theorem normal_turn (R : Rotation) (s : V3) : normal (R.f s) = R.f (normal s) := by
  unfold normal
  rw [area_turn]
  exact R.comb (α := 1 / area s) (β := 0) (γ := 0) (δ := 0) (ε := 0) (s := s) (v := 0) (w := 0) (z := 0) (y := 0)
    (by ring) (by ring) (by ring) (by ring) (by ring) (by ring)

namespace Whole
open PG.Topo PG.Halo PG.Time PG.Flux

theorem faceOf_turn (R : Rotation) (s : V3) : faceOf (R.f s) = (faceOf s).turn R := by
  unfold faceOf FaceG.turn
  rw [normal_turn, area_turn]

/-- the metrics of a cell in the frame rotated by `R` and moved by `m` -/
def Geo.move (R : Rotation) (m : V3) (g : Geo) : Geo := ⟨g.J, g.J_pos, R.f g.xc + m, fun d => R.f (g.s d), fun d => R.f (g.xf d) + m⟩

/-- nodes in the moved frame -/
def movedNodes (R : Rotation) (m : V3) (X : Pos → V3) : Pos → V3 := fun p => R.f (X p) + m

theorem diff_moved (R : Rotation) (m a b : V3) : (R.f a + m) - (R.f b + m) = R.f (a - b) := by
  rw [R.sub]; ext <;> simp

theorem iArea_move (R : Rotation) (m : V3) (N : Nodes) (i j k : ℕ) : iArea (fun i j k => R.f (N i j k) + m) i j k = R.f (iArea N i j k) := by
  unfold iArea; rw [diff_moved, diff_moved, R.cross, R.smul]
theorem jArea_move (R : Rotation) (m : V3) (N : Nodes) (i j k : ℕ) : jArea (fun i j k => R.f (N i j k) + m) i j k = R.f (jArea N i j k) := by
  unfold jArea; rw [diff_moved, diff_moved, R.cross, R.smul]
theorem kArea_move (R : Rotation) (m : V3) (N : Nodes) (i j k : ℕ) : kArea (fun i j k => R.f (N i j k) + m) i j k = R.f (kArea N i j k) := by
  unfold kArea; rw [diff_moved, diff_moved, R.cross, R.smul]

theorem volume_move (R : Rotation) (m : V3) (N : Nodes) (i j k : ℕ) : volume (fun i j k => R.f (N i j k) + m) i j k = volume N i j k := by
  have e : ∀ N : Nodes, rawVolume N i j k = V3.dot (N (i+1) (j+1) (k+1) - N i j k) (iArea N (i+1) j k + jArea N i (j+1) k + kArea N i j (k+1)) / 3 := fun _ => rfl
  unfold volume
  rw [e, e, iArea_move, jArea_move, kArea_move, diff_moved, ← R.add, ← R.add, R.dot]

/-- the metrics of the moved grid are the moved metrics -/
theorem geoOf_move (R : Rotation) (m : V3) (X : Pos → V3) (p : Pos) : geoOf (movedNodes R m X) p = (geoOf X p).move R m := by
  have hl : loc (movedNodes R m X) p = fun i j k => R.f (loc X p i j k) + m := rfl
  unfold geoOf Geo.move
  simp only [hl, volume_move, iArea_move, jArea_move, kArea_move]
  congr 1
  · unfold cellCentre
    simp only [R.add, R.smul]
    ext <;> simp <;> ring
  · funext d
    split_ifs <;> rfl
  · funext d
    split_ifs
    · unfold iCentre
      simp only [R.add, R.smul]
      ext <;> simp <;> ring
    · unfold jCentre
      simp only [R.add, R.smul]
      ext <;> simp <;> ring
    · unfold kCentre
      simp only [R.add, R.smul]
      ext <;> simp <;> ring

/-! ### gradients (dq2FD.cpp, dq4FD.cpp) -/

/-- `dxdE` etc. (metrics.py:324-334): the step from the low to the high face centre along an axis -/
def dAx (L : Fin 3 → Int → Geo) (d : Fin 3) : V3 := (L d 1).xf d - (L d 0).xf d
/-- `dEdx` etc. (metrics.py:336-346): cross product of the other two steps, over the volume -/
def dInv (L : Fin 3 → Int → Geo) (d : Fin 3) : V3 := smul (1 / (L 0 0).J) (cross (dAx L (d + 1)) (dAx L (d + 2)))

/-- differences of a variable along the axes: dq2FD.cpp:16-20 (second order), dq4FD.cpp:15-28 (fourth order) -/
def diffs (fourth : Bool) (x : Int → ℝ) : ℝ :=
  if fourth then 1/12 * (-x 2 + 8 * x 1 - 8 * x (-1) + x (-2)) else 1/2 * (x 1 - x (-1))

/-- gradients of all primitive variables at a cell (dq2FD.cpp:16-29, dq4FD.cpp:15-37) -/
def gradAt (fourth : Bool) (q : Fin 3 → Int → Vec) (L : Fin 3 → Int → Geo) : ℕ → V3 := fun l =>
  chain (diffs fourth fun u => q 0 u l) (diffs fourth fun u => q 1 u l) (diffs fourth fun u => q 2 u l) (dInv L 0) (dInv L 1) (dInv L 2)

/-- these are the metrics of metrics.py -/
theorem dInv_is (X : Pos → V3) (p : Pos) :
    let L := fun d u => geoOf X (shift p d u)
    dInv L 0 = gradE (loc X p) 0 0 0 ∧ dInv L 1 = gradN (loc X p) 0 0 0 ∧ dInv L 2 = gradC (loc X p) 0 0 0 := by
  intro L
  have hg := shift_zero p
  have e : ∀ (d : Fin 3) i j k, loc X (shift p d 1) i j k = loc X p (i + if d = 0 then 1 else 0) (j + if d = 1 then 1 else 0) (k + if d = 2 then 1 else 0) := by
    intro d i j k
    refine congrArg X (funext fun a => ?_)
    fin_cases a <;> fin_cases d <;> simp [shift] <;> ring
  have hE : dAx L 0 = dE (loc X p) 0 0 0 := by
    unfold dAx dE
    simp only [L, hg, geoOf, if_true, iCentre, e]
    ext <;> simp <;> ring
  have hN : dAx L 1 = dN (loc X p) 0 0 0 := by
    unfold dAx dN
    simp only [L, hg, geoOf, one_ne_zero, if_true, if_false, jCentre, e]
    ext <;> simp <;> ring
  have hC : dAx L 2 = dC (loc X p) 0 0 0 := by
    unfold dAx dC
    simp only [L, hg, geoOf, kCentre, e]
    ext <;> simp <;> ring
  have hJ : (L 0 0).J = volume (loc X p) 0 0 0 := by simp only [L, hg]; rfl
  refine ⟨?_, ?_, ?_⟩
  · unfold dInv gradE
    rw [show (0 + 1 : Fin 3) = 1 from rfl, show (0 + 2 : Fin 3) = 2 from rfl, hN, hC, hJ]
    ext <;> simp only [smul_x, smul_y, smul_z, cross_x, cross_y, cross_z] <;> ring
  · unfold dInv gradN
    rw [show (1 + 1 : Fin 3) = 2 from rfl, show (1 + 2 : Fin 3) = 0 from rfl, hE, hC, hJ]
    ext <;> simp only [smul_x, smul_y, smul_z, cross_x, cross_y, cross_z] <;> ring
  · unfold dInv gradC
    rw [show (2 + 1 : Fin 3) = 0 from rfl, show (2 + 2 : Fin 3) = 1 from rfl, hE, hN, hJ]
    ext <;> simp only [smul_x, smul_y, smul_z, cross_x, cross_y, cross_z] <;> ring

/-- the gradients are those of the kernels dq2FD.cpp and dq4FD.cpp on the nodes around the cell -/
theorem gradAt_is (fourth : Bool) (X : Pos → V3) (q : Pos → Vec) (p : Pos) (l : ℕ) :
    let o : Pos := fun a => p a - 2
    let f : ℕ → ℕ → ℕ → ℝ := fun i j k => q (fun a => o a + (if a = 0 then i else if a = 1 then j else k : ℕ)) l
    gradAt fourth (fun d u => q (shift p d u)) (fun d u => geoOf X (shift p d u)) l =
      if fourth = true then dq4FD (loc X o) f 2 2 2 else dq2FD (loc X o) f 2 2 2 := by
  intro o f
  have hl : loc X p = fun i j k => loc X o (i + 2) (j + 2) (k + 2) := by
    funext i j k
    refine congrArg X (funext fun a => ?_)
    fin_cases a <;> simp [o]
  have hf : ∀ (d : Fin 3) (u : ℤ) (i j k : ℕ), (i : ℤ) = 2 + (if d = 0 then u else 0) → (j : ℤ) = 2 + (if d = 1 then u else 0) →
      (k : ℤ) = 2 + (if d = 2 then u else 0) → q (shift p d u) l = f i j k := by
    intro d u i j k h1 h2 h3
    refine congrFun (congrArg q (funext fun a => ?_)) l
    fin_cases a <;> fin_cases d <;> simp [shift, o] at h1 h2 h3 ⊢ <;> omega
  obtain ⟨e1, e2, e3⟩ := dInv_is X p
  have g1 : gradE (loc X p) 0 0 0 = gradE (loc X o) 2 2 2 := by rw [hl]; rfl
  have g2 : gradN (loc X p) 0 0 0 = gradN (loc X o) 2 2 2 := by rw [hl]; rfl
  have g3 : gradC (loc X p) 0 0 0 = gradC (loc X o) 2 2 2 := by rw [hl]; rfl
  unfold gradAt
  rw [e1, e2, e3, g1, g2, g3]
  cases fourth
  · simp only [Bool.false_eq_true, if_false, diffs, dq2FD]
    rw [hf 0 1 3 2 2, hf 0 (-1) 1 2 2, hf 1 1 2 3 2, hf 1 (-1) 2 1 2, hf 2 1 2 2 3, hf 2 (-1) 2 2 1] <;> simp
  · simp only [if_true, diffs, dq4FD]
    rw [hf 0 1 3 2 2, hf 0 (-1) 1 2 2, hf 1 1 2 3 2, hf 1 (-1) 2 1 2, hf 2 1 2 2 3, hf 2 (-1) 2 2 1,
      hf 0 2 4 2 2, hf 0 (-2) 0 2 2, hf 1 2 2 4 2, hf 1 (-2) 2 0 2, hf 2 2 2 2 4, hf 2 (-2) 2 2 0]
    · ext <;> simp [chain] <;> ring
    all_goals simp

theorem dInv_move (R : Rotation) (m : V3) (L : Fin 3 → Int → Geo) (d : Fin 3) : dInv (fun d u => (L d u).move R m) d = R.f (dInv L d) := by
  have e : ∀ d, dAx (fun d u => (L d u).move R m) d = R.f (dAx L d) := fun d => diff_moved R m _ _
  unfold dInv
  rw [e, e, R.cross, ← R.smul]
  rfl

/-- the gradients of the turned velocities in the moved grid are the turned gradients -/
theorem gradAt_move (R : Rotation) (m : V3) (fourth : Bool) (q : Fin 3 → Int → Vec) (L : Fin 3 → Int → Geo) :
    gradAt fourth (fun d u => R.comps (q d u)) (fun d u => (L d u).move R m) = R.grads (gradAt fourth q L) := by
  have lin : ∀ (d : Fin 3), (⟨diffs fourth fun u => R.comps (q d u) 1, diffs fourth fun u => R.comps (q d u) 2, diffs fourth fun u => R.comps (q d u) 3⟩ : V3) =
      R.f ⟨diffs fourth fun u => q d u 1, diffs fourth fun u => q d u 2, diffs fourth fun u => q d u 3⟩ := by
    intro d
    cases fourth
    · refine R.comb (α := 1/2) (β := -1/2) (γ := 0) (δ := 0) (ε := 0) (s := ⟨q d 1 1, q d 1 2, q d 1 3⟩) (v := ⟨q d (-1) 1, q d (-1) 2, q d (-1) 3⟩)
        (w := 0) (z := 0) (y := 0) ?_ ?_ ?_ ?_ ?_ ?_ <;>
        simp only [diffs, Rotation.comps, LinearMap.coe_mk, AddHom.coe_mk, Bool.false_eq_true, if_false] <;> ring
    · refine R.comb (α := -1/12) (β := 8/12) (γ := -8/12) (δ := 1/12) (ε := 0) (s := ⟨q d 2 1, q d 2 2, q d 2 3⟩) (v := ⟨q d 1 1, q d 1 2, q d 1 3⟩)
        (w := ⟨q d (-1) 1, q d (-1) 2, q d (-1) 3⟩) (z := ⟨q d (-2) 1, q d (-2) 2, q d (-2) 3⟩) (y := 0) ?_ ?_ ?_ ?_ ?_ ?_ <;>
        simp only [diffs, Rotation.comps, LinearMap.coe_mk, AddHom.coe_mk, if_true] <;> ring
  have ch : ∀ a b c (E N C : V3), chain a b c E N C = smul a E + smul b N + smul c C := by
    intro a b c E N C
    ext <;> simp [chain]
  have h0 := lin 0
  have h1 := lin 1
  have h2 := lin 2
  rw [R.apply_eq] at h0 h1 h2
  funext l
  unfold gradAt
  simp only [dInv_move, ch]
  match l with
  | 0 => simp only [Rotation.grads, R.add, R.smul]; rfl
  | 1 =>
    have e0 := congrArg V3.x h0
    have e1 := congrArg V3.x h1
    have e2 := congrArg V3.x h2
    simp only [] at e0 e1 e2
    rw [e0, e1, e2]
    simp only [Rotation.grads, R.add, R.smul]
    ext <;> simp only [add_x, add_y, add_z, smul_x, smul_y, smul_z] <;> ring
  | 2 =>
    have e0 := congrArg V3.y h0
    have e1 := congrArg V3.y h1
    have e2 := congrArg V3.y h2
    simp only [] at e0 e1 e2
    rw [e0, e1, e2]
    simp only [Rotation.grads, R.add, R.smul]
    ext <;> simp only [add_x, add_y, add_z, smul_x, smul_y, smul_z] <;> ring
  | 3 =>
    have e0 := congrArg V3.z h0
    have e1 := congrArg V3.z h1
    have e2 := congrArg V3.z h2
    simp only [] at e0 e1 e2
    rw [e0, e1, e2]
    simp only [Rotation.grads, R.add, R.smul]
    ext <;> simp only [add_x, add_y, add_z, smul_x, smul_y, smul_z] <;> ring
  | n + 4 => simp only [Rotation.grads, R.add, R.smul]; rfl

end Whole

/-! ### subgrid model (smagorinsky.cpp) -/
namespace Subgrid

theorem magS_turn (R : Rotation) (g : ℕ → V3) (J rho cp : ℝ) :
    magS ⟨R.grads g 1, R.grads g 2, R.grads g 3, J, rho, cp⟩ = magS ⟨g 1, g 2, g 3, J, rho, cp⟩ := by
  have e : ∀ g : ℕ → V3, ∑ l, ∑ m, strain ⟨g 1, g 2, g 3, J, rho, cp⟩ l m * strain ⟨g 1, g 2, g 3, J, rho, cp⟩ l m =
      1/2 * (V3.dot (g 1) (g 1) + V3.dot (g 2) (g 2) + V3.dot (g 3) (g 3)) +
      1/2 * ((Rotation.tdot g (g 1)).x + (Rotation.tdot g (g 2)).y + (Rotation.tdot g (g 3)).z) := by
    intro g
    simp only [Fin.sum_univ_three, strain, V3.dot, Rotation.tdot, add_x, add_y, add_z, smul_x, smul_y, smul_z]
    ring
  unfold magS
  rw [e, e, R.grads_sq, R.grads_tr]

end Subgrid
end PG
