import Verif.Flux.Upwind
import Verif.Mesh.Props
import Verif.FV.Props
/-
C12: a uniform state gives a zero residual on every grid (geometry of metrics.py, flux kernels, applyFlux together).
-/
namespace PG.Flux
open V3 PG.Mesh PG.FV

/-- A face kernel: the four cells around the face in the face direction and the face geometry. -/
abbrev Scheme := Cell → Cell → Cell → Cell → FaceG → FluxV

/-- geometry handed to the kernels for the face with area vector `s` (metrics.py:112-122 and the j, k analogues) -/
noncomputable def faceOf (s : V3) : FaceG := ⟨s, normal s, area s⟩

/-- The three flux arrays that a kernel fills: face `i` of direction i lies between the cells `i-1` and `i`, the wide
    stencils add `i-2` and `i+1` (loops of every advFlux kernel, e.g. rusanov.cpp:16-20, 89-92, 162-165;
    muscl2rusanov.cpp:36-40). -/
noncomputable def fluxArrays (sch : Scheme) (X : Nodes) (st : ℕ → ℕ → ℕ → Cell) : Fluxes where
  iF i j k l := sch (st (i-2) j k) (st (i-1) j k) (st i j k) (st (i+1) j k) (faceOf (iArea X i j k)) l
  jF i j k l := sch (st i (j-2) k) (st i (j-1) k) (st i j k) (st i (j+1) k) (faceOf (jArea X i j k)) l
  kF i j k l := sch (st i j (k-2)) (st i j (k-1)) (st i j k) (st i j (k+1)) (faceOf (kArea X i j k)) l

/-- scalarDissipation reads the cell `(i+1,j,k)` in all three directions (scalarDissipation.cpp) -/
noncomputable def dissArrays (phi : A4) (X : Nodes) (st : ℕ → ℕ → ℕ → Cell) : Fluxes where
  iF i j k l := scalarDiss (st (i-2) j k) (st (i-1) j k) (st i j k) (st (i+1) j k) (phi (i-1) j k 0) (phi i j k 0)
    (faceOf (iArea X i j k)) l
  jF i j k l := scalarDiss (st i (j-2) k) (st i (j-1) k) (st i j k) (st (i+1) j k) (phi i (j-1) k 1) (phi i j k 1)
    (faceOf (jArea X i j k)) l
  kF i j k l := scalarDiss (st i j (k-2)) (st i j (k-1)) (st i j k) (st (i+1) j k) (phi i j (k-1) 2) (phi i j k 2)
    (faceOf (kArea X i j k)) l

theorem faceOf_valid (s : V3) : (faceOf s).Valid := (C13_area_times_normal s).symm

/-- The schemes for which consistency was proved (C26), as kernels of four cells. KEPaEC separately. -/
inductive Consistent : Scheme → Prop
  | rusanov : Consistent (fun _ L R _ g => rusanov L R g)
  | ausm : Consistent (fun _ L R _ g => ausm L R g)
  | KEEP : Consistent (fun _ L R _ g => KEEP L R g)
  | KEEPpe : Consistent (fun _ L R _ g => KEEPpe L R g)
  | central : Consistent (fun _ L R _ g => central L R g)
  | fourth : Consistent fourthKEEP
  | muscl : Consistent muscl2rusanov

/-- the Euler flux is linear in the area vector, so on a closed surface a uniform state has no net flux -/
theorem euler_closed (a : Cell) (i0 i1 j0 j1 k0 k1 : V3) (h : (i1 - i0) + (j1 - j0) + (k1 - k0) = 0) (l : ℕ) :
    euler a i0 l + euler a j0 l + euler a k0 l = euler a i1 l + euler a j1 l + euler a k1 l := by
  have hx := congrArg V3.x h
  have hy := congrArg V3.y h
  have hz := congrArg V3.z h
  simp only [V3.add_x, V3.sub_x, V3.zero_x, V3.add_y, V3.sub_y, V3.zero_y, V3.add_z, V3.sub_z, V3.zero_z] at hx hy hz
  have ex : i1.x = i0.x + j0.x + k0.x - j1.x - k1.x := by linarith
  have ey : i1.y = i0.y + j0.y + k0.y - j1.y - k1.y := by linarith
  have ez : i1.z = i0.z + j0.z + k0.z - j1.z - k1.z := by linarith
  match l with
  | 0 => simp only [euler, mk5_0]; rw [ex, ey, ez]; ring
  | 1 => simp only [euler, mk5_1]; rw [ex, ey, ez]; ring
  | 2 => simp only [euler, mk5_2]; rw [ex, ey, ez]; ring
  | 3 => simp only [euler, mk5_3]; rw [ex, ey, ez]; ring
  | 4 => simp only [euler, mk5_4]; rw [ex, ey, ez]; ring
  | n + 5 => simp only [euler, mk5_5]; rw [ex, ey, ez]; ring

/-- the flux arrays of the exact Euler flux of state `a` -/
noncomputable def eulerArrays (a : Cell) (X : Nodes) : Fluxes where
  iF i j k l := euler a (iArea X i j k) l
  jF i j k l := euler a (jArea X i j k) l
  kF i j k l := euler a (kArea X i j k) l

theorem uniform_of (sch : Scheme) (a : Cell) (h : ∀ s, sch a a a a (faceOf s) = euler a s) (X : Nodes) :
    fluxArrays sch X (fun _ _ _ => a) = eulerArrays a X := by
  simp only [fluxArrays, eulerArrays, h]

theorem rhs_euler (b : Dims) (J : A3) (a : Cell) (X : Nodes) (i j k l : ℕ) :
    applyFlux b J (eulerArrays a X) dQzero i j k l = 0 := by
  unfold applyFlux
  by_cases h : InRange b i j k l
  · rw [if_pos h]
    simp only [eulerArrays, dQzero, zero_add]
    rw [euler_closed a _ _ _ _ _ _ (C11_closed_cell X i j k) l]
    ring
  · rw [if_neg h]; rfl

theorem scheme_uniform (sch : Scheme) (hs : Consistent sch) (a : Cell) (ha : a.Consistent) (s : V3) :
    sch a a a a (faceOf s) = euler a s := by
  have hc := C26_consistent a (faceOf s) ha (faceOf_valid s)
  cases hs
  · exact hc.1
  · exact hc.2.1
  · exact hc.2.2.1
  · exact hc.2.2.2.1
  · exact hc.2.2.2.2.2.1
  · exact hc.2.2.2.2.2.2.1
  · exact hc.2.2.2.2.2.2.2

/-- C12: on every grid (arbitrary node coordinates) a uniform state has zero residual in every cell and component, for
    rusanov, ausmPlusUp, KEEP, KEEPpe, centralDifference, fourthOrderKEEP and muscl2rusanov used as the only flux. -/
theorem C12_freestream (sch : Scheme) (hs : Consistent sch) (a : Cell) (ha : a.Consistent) (X : Nodes) (b : Dims)
    (i j k l : ℕ) :
    rhsPlain b (volume X) (fluxArrays sch X (fun _ _ _ => a)) i j k l = 0 := by
  rw [uniform_of sch a (scheme_uniform sch hs a ha) X]
  exact rhs_euler b _ a X i j k l

/-- C12: KEPaEC too, for positive internal energy. -/
theorem C12_freestream_KEPaEC (a : Cell) (ha : a.Consistent) (he : 0 < a.rhoe) (X : Nodes) (b : Dims) (i j k l : ℕ) :
    rhsPlain b (volume X) (fluxArrays (fun _ L R _ g => KEPaEC L R g) X (fun _ _ _ => a)) i j k l = 0 := by
  rw [uniform_of _ a (fun s => (C26_consistent a (faceOf s) ha (faceOf_valid s)).2.2.2.2.1 he) X]
  exact rhs_euler b _ a X i j k l

/-- C12: blending two consistent fluxes with any switch field keeps a uniform state. -/
theorem C12_freestream_hybrid (s1 s2 : Scheme) (h1 : Consistent s1) (h2 : Consistent s2) (a : Cell)
    (ha : a.Consistent) (X : Nodes) (b : Dims) (hg : 1 ≤ b.ng) (phi : A4) (i j k l : ℕ) :
    rhsHybrid b (volume X) phi (fluxArrays s1 X (fun _ _ _ => a)) (fluxArrays s2 X (fun _ _ _ => a)) i j k l = 0 := by
  rw [uniform_of s1 a (scheme_uniform s1 h1 a ha) X, uniform_of s2 a (scheme_uniform s2 h2 a ha) X,
    C10_hybrid_is_blend b hg]
  have : blend phi (eulerArrays a X) (eulerArrays a X) = eulerArrays a X := by
    simp only [blend, eulerArrays]
    congr 1 <;> (funext i j k l; ring)
  rw [this]
  exact rhs_euler b _ a X i j k l

/-- C12: adding scalar dissipation with any switch field keeps a uniform state. -/
theorem C12_freestream_dissipation (sch : Scheme) (hs : Consistent sch) (a : Cell) (ha : a.Consistent) (X : Nodes)
    (b : Dims) (phi : A4) (i j k l : ℕ) (hl : l < b.ne) :
    rhsDissipation b (volume X) (fluxArrays sch X (fun _ _ _ => a)) (dissArrays phi X (fun _ _ _ => a)) i j k l = 0 := by
  rw [uniform_of sch a (scheme_uniform sch hs a ha) X,
    (C10_dissipation_conservation b _ _ _ l hl (fun i j k => (volume_pos X i j k).ne')).1]
  have : minus (eulerArrays a X) (dissArrays phi X (fun _ _ _ => a)) = eulerArrays a X := by
    simp only [minus, eulerArrays, dissArrays, C26_scalarDissipation_uniform, sub_zero]
  rw [this]
  exact rhs_euler b _ a X i j k l

/-- C12 (partial, hllc and muscl2hllc): mass, energy and species residuals vanish on every grid; all of them vanish when
    the fluid is at rest. MISSING: momentum for moving fluid, false of this code (`C12_hllc_violated`). -/
theorem C12_hllc_partial (sch : Scheme) (hs : sch = (fun _ L R _ g => hllc L R g) ∨ sch = muscl2hllc) (a : Cell)
    (ha : a.Consistent) (X : Nodes) (b : Dims) (i j k l : ℕ)
    (hl : l = 0 ∨ 4 ≤ l ∨ (a.u = 0 ∧ a.v = 0 ∧ a.w = 0)) :
    rhsPlain b (volume X) (fluxArrays sch X (fun _ _ _ => a)) i j k l = 0 := by
  have key : ∀ s, sch a a a a (faceOf s) l = euler a s l := by
    intro s
    have hp := C26_hllc_partial a (faceOf s) ha (faceOf_valid s) (sch a a a a (faceOf s))
      (by rcases hs with rfl | rfl <;> simp)
    rcases hl with rfl | hl | ⟨h1, h2, h3⟩
    · exact hp.1
    · rcases Nat.eq_or_lt_of_le hl with h4 | h5
      · subst h4; exact hp.2.1
      · obtain ⟨n, rfl⟩ := Nat.exists_eq_add_of_le h5
        rw [show Nat.succ 4 + n = n + 5 by omega]
        exact hp.2.2.1 n
    · have : NoShear a (faceOf s).n := by
        simp [NoShear, proj, h1, h2, h3]
      rw [hp.2.2.2 (Or.inl this)]; rfl
  have h0 := rhs_euler b (volume X) a X i j k l
  unfold rhsPlain applyFlux at *
  simp only [fluxArrays, key]
  simpa only [eulerArrays] using h0

/-- a uniform flow along z over faces parallel to z: hllc computes a spurious momentum flux `c rho w S` -/
theorem hllc_slide (w : ℝ) (g : FaceG) (hz : g.n.z = 0) (hs : g.s.z = 0) :
    hllc (exCell 0 0 w) (exCell 0 0 w) g 3 = 2 * w * g.S := by
  unfold hllc
  simp only [hllcSstar_same _ g (exCell_consistent 0 0 w)]
  have h0 : proj g.n (exCell 0 0 w) = 0 := by simp [proj, exCell, hz]
  rw [h0]
  norm_num [exCell, starFlux, hs, hz]
  simp [proj, hz]

/-- a grid whose j lines diverge: `x = i, y = (j-1) i, z = k` -/
noncomputable def exWedge : Nodes := fun i j k => ⟨i, ((j:ℝ) - 1) * i, k⟩

/-- C12 is violated by hllc: uniform flow of density 1, pressure 1, sound speed 2, velocity (0,0,1) on a one-cell wedge
    (faces of different size) produces a z-momentum residual. -/
theorem C12_hllc_violated :
    (exCell 0 0 1).Consistent ∧
    rhsPlain ⟨2, 2, 2, 1, 5⟩ (volume exWedge) (fluxArrays (fun _ L R _ g => hllc L R g) exWedge (fun _ _ _ => exCell 0 0 1))
      1 1 1 3 * volume exWedge 1 1 1 = -(2 * Real.sqrt 2) ∧
    rhsPlain ⟨2, 2, 2, 1, 5⟩ (volume exWedge) (fluxArrays (fun _ L R _ g => hllc L R g) exWedge (fun _ _ _ => exCell 0 0 1))
      1 1 1 3 ≠ 0 := by
  have hv := volume_pos exWedge 1 1 1
  have hi1 : iArea exWedge 1 1 1 = ⟨1, 0, 0⟩ := by ext <;> simp [iArea, exWedge] <;> norm_num
  have hi2 : iArea exWedge 2 1 1 = ⟨2, 0, 0⟩ := by ext <;> simp [iArea, exWedge] <;> norm_num
  have hj1 : jArea exWedge 1 1 1 = ⟨0, 1, 0⟩ := by ext <;> simp [jArea, exWedge] <;> norm_num
  have hj2 : jArea exWedge 1 2 1 = ⟨-1, 1, 0⟩ := by ext <;> simp [jArea, exWedge] <;> norm_num
  have hk : kArea exWedge 1 1 1 = kArea exWedge 1 1 2 := by ext <;> simp [kArea, exWedge]
  have c2 : (1:ℝ) / 10^16 ≤ Real.sqrt 2 := by
    have : (1:ℝ) ≤ Real.sqrt 2 := Real.one_le_sqrt.2 (by norm_num)
    exact le_trans (by norm_num) this
  have s1 : area ⟨1, 0, 0⟩ = 1 := by norm_num [area, clip]
  have s2 : area ⟨2, 0, 0⟩ = 2 := by
    have : Real.sqrt ((2:ℝ) ^ 2) = 2 := Real.sqrt_sq (by norm_num)
    norm_num [area, clip] at this ⊢
    rw [this]; norm_num
  have s3 : area ⟨0, 1, 0⟩ = 1 := by norm_num [area, clip]
  have s4 : area ⟨-1, 1, 0⟩ = Real.sqrt 2 := by
    have : ((-1:ℝ)) ^ 2 + 1 ^ 2 + 0 ^ 2 = 2 := by norm_num
    simp only [area, clip, this]
    exact max_eq_left c2
  have key : rhsPlain ⟨2, 2, 2, 1, 5⟩ (volume exWedge)
      (fluxArrays (fun _ L R _ g => hllc L R g) exWedge (fun _ _ _ => exCell 0 0 1)) 1 1 1 3 * volume exWedge 1 1 1
      = -(2 * Real.sqrt 2) := by
    unfold rhsPlain applyFlux
    rw [if_pos (by unfold InRange; decide)]
    simp only [fluxArrays, dQzero, zero_add, hi1, hj1, hk, Nat.reduceAdd, hi2, hj2]
    rw [hllc_slide 1 (faceOf ⟨1,0,0⟩) (by simp [faceOf, normal]) rfl, hllc_slide 1 (faceOf ⟨2,0,0⟩) (by simp [faceOf, normal]) rfl,
      hllc_slide 1 (faceOf ⟨0,1,0⟩) (by simp [faceOf, normal]) rfl, hllc_slide 1 (faceOf ⟨-1,1,0⟩) (by simp [faceOf, normal]) rfl]
    simp only [faceOf, s1, s2, s3, s4]
    field_simp
    ring
  refine ⟨exCell_consistent _ _ _, key, fun h => ?_⟩
  rw [h, zero_mul] at key
  have : (1:ℝ) ≤ Real.sqrt 2 := Real.one_le_sqrt.2 (by norm_num)
  linarith

/-- Non-vacuity: a moving consistent uniform state on the (non-trivial) wedge grid. -/
example : Consistent muscl2rusanov ∧ (exCell 1 2 3).Consistent ∧ exWedge 3 4 5 = ⟨3, 9, 5⟩ :=
  ⟨.muscl, exCell_consistent _ _ _, by simp [exWedge]; norm_num⟩

end PG.Flux
