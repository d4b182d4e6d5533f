import Verif.Text.FluxMuscl
/-!
C115: muscl2hllc.
-/
namespace PG.Text
open PG.Flux

/-- density, velocity, specific internal energy and every mass fraction vary along the stencil -/
def VariedY (ns : ℕ) (L R RR : Cell) : Prop := Varied L R RR ∧ ∀ n < ns, Varies (fun c => c.Y n) L R RR

set_option maxRecDepth 8000 in
set_option maxHeartbeats 4000000 in
theorem muscl2hllc_i (b : Blk) (hb : 5 ≤ b.ne) (i j k : ℤ) (F : FluxV) (m : ℕ) (h : VariedY (b.ne - 5) (cell b (i - 1) j k) (cell b i j k) (cell b (i + 1) j k)) :
    muscl2hllc_iF b i j k F m = if m < b.ne then
      muscl2hllc (cell b (i - 2) j k) (cell b (i - 1) j k) (cell b i j k) (cell b (i + 1) j k) (faceI b i j k) m else F m := by
  obtain ⟨⟨⟨a1, a2⟩, ⟨b1, b2⟩, ⟨c1, c2⟩, ⟨d1, d2⟩, e1, e2⟩, hY⟩ := h
  simp only [cell, eInt] at a1 a2 b1 b2 c1 c2 d1 d2 e1 e2
  refine leaves_of hb ?_ ?_ ?_ ?_ ?_ (fun n hn => ?_) (fun n hn => ?_) _
  rotate_left 5
  · obtain ⟨y1, y2⟩ := hY n (by omega)
    simp only [cell] at y1 y2
    simp [muscl2hllc_iF, muscl2hllc, mk5_species, hn, hllc_apply, hllcSstar, sideFlux, starFlux, ite_apply, faceR, faceL, musclR, musclL, recR, recL, eInt, faceI, set, cell, proj,
      phiR_eq y2, phiL_eq y1, phiR_eq a2, phiR_eq b2, phiR_eq c2, phiR_eq d2, phiR_eq e2, phiL_eq a1, phiL_eq b1, phiL_eq c1, phiL_eq d1, phiL_eq e1]
    split_ifs <;> first | rfl | ring1 | (rename_i h0 h1 h2 h3; exact (no_fifth h0 h1 h2 h3).elim)
  · simp [muscl2hllc_iF, ite_apply, set, hn, sp1, sp2, sp3, sp4]
  all_goals
    clear hY
    simp [muscl2hllc_iF, muscl2hllc, mk5, hllc_apply, hllcSstar, sideFlux, starFlux, ite_apply, faceR, faceL, musclR, musclL, recR, recL, eInt, faceI, set, cell, proj,
      phiR_eq a2, phiR_eq b2, phiR_eq c2, phiR_eq d2, phiR_eq e2, phiL_eq a1, phiL_eq b1, phiL_eq c1, phiL_eq d1, phiL_eq e1]
    split_ifs <;> first | rfl | ring1 | (rename_i h0 h1 h2 h3; exact (no_fifth h0 h1 h2 h3).elim)

set_option maxRecDepth 8000 in
set_option maxHeartbeats 4000000 in
theorem muscl2hllc_j (b : Blk) (hb : 5 ≤ b.ne) (i j k : ℤ) (F : FluxV) (m : ℕ) (h : VariedY (b.ne - 5) (cell b i (j - 1) k) (cell b i j k) (cell b i (j + 1) k)) :
    muscl2hllc_jF b i j k F m = if m < b.ne then
      muscl2hllc (cell b i (j - 2) k) (cell b i (j - 1) k) (cell b i j k) (cell b i (j + 1) k) (faceJ b i j k) m else F m := by
  obtain ⟨⟨⟨a1, a2⟩, ⟨b1, b2⟩, ⟨c1, c2⟩, ⟨d1, d2⟩, e1, e2⟩, hY⟩ := h
  simp only [cell, eInt] at a1 a2 b1 b2 c1 c2 d1 d2 e1 e2
  refine leaves_of hb ?_ ?_ ?_ ?_ ?_ (fun n hn => ?_) (fun n hn => ?_) _
  rotate_left 5
  · obtain ⟨y1, y2⟩ := hY n (by omega)
    simp only [cell] at y1 y2
    simp [muscl2hllc_jF, muscl2hllc, mk5_species, hn, hllc_apply, hllcSstar, sideFlux, starFlux, ite_apply, faceR, faceL, musclR, musclL, recR, recL, eInt, faceJ, set, cell, proj,
      phiR_eq y2, phiL_eq y1, phiR_eq a2, phiR_eq b2, phiR_eq c2, phiR_eq d2, phiR_eq e2, phiL_eq a1, phiL_eq b1, phiL_eq c1, phiL_eq d1, phiL_eq e1]
    split_ifs <;> first | rfl | ring1 | (rename_i h0 h1 h2 h3; exact (no_fifth h0 h1 h2 h3).elim)
  · simp [muscl2hllc_jF, ite_apply, set, hn, sp1, sp2, sp3, sp4]
  all_goals
    clear hY
    simp [muscl2hllc_jF, muscl2hllc, mk5, hllc_apply, hllcSstar, sideFlux, starFlux, ite_apply, faceR, faceL, musclR, musclL, recR, recL, eInt, faceJ, set, cell, proj,
      phiR_eq a2, phiR_eq b2, phiR_eq c2, phiR_eq d2, phiR_eq e2, phiL_eq a1, phiL_eq b1, phiL_eq c1, phiL_eq d1, phiL_eq e1]
    split_ifs <;> first | rfl | ring1 | (rename_i h0 h1 h2 h3; exact (no_fifth h0 h1 h2 h3).elim)

set_option maxRecDepth 8000 in
set_option maxHeartbeats 4000000 in
theorem muscl2hllc_k (b : Blk) (hb : 5 ≤ b.ne) (i j k : ℤ) (F : FluxV) (m : ℕ) (h : VariedY (b.ne - 5) (cell b i j (k - 1)) (cell b i j k) (cell b i j (k + 1))) :
    muscl2hllc_kF b i j k F m = if m < b.ne then
      muscl2hllc (cell b i j (k - 2)) (cell b i j (k - 1)) (cell b i j k) (cell b i j (k + 1)) (faceK b i j k) m else F m := by
  obtain ⟨⟨⟨a1, a2⟩, ⟨b1, b2⟩, ⟨c1, c2⟩, ⟨d1, d2⟩, e1, e2⟩, hY⟩ := h
  simp only [cell, eInt] at a1 a2 b1 b2 c1 c2 d1 d2 e1 e2
  refine leaves_of hb ?_ ?_ ?_ ?_ ?_ (fun n hn => ?_) (fun n hn => ?_) _
  rotate_left 5
  · obtain ⟨y1, y2⟩ := hY n (by omega)
    simp only [cell] at y1 y2
    simp [muscl2hllc_kF, muscl2hllc, mk5_species, hn, hllc_apply, hllcSstar, sideFlux, starFlux, ite_apply, faceR, faceL, musclR, musclL, recR, recL, eInt, faceK, set, cell, proj,
      phiR_eq y2, phiL_eq y1, phiR_eq a2, phiR_eq b2, phiR_eq c2, phiR_eq d2, phiR_eq e2, phiL_eq a1, phiL_eq b1, phiL_eq c1, phiL_eq d1, phiL_eq e1]
    split_ifs <;> first | rfl | ring1 | (rename_i h0 h1 h2 h3; exact (no_fifth h0 h1 h2 h3).elim)
  · simp [muscl2hllc_kF, ite_apply, set, hn, sp1, sp2, sp3, sp4]
  all_goals
    clear hY
    simp [muscl2hllc_kF, muscl2hllc, mk5, hllc_apply, hllcSstar, sideFlux, starFlux, ite_apply, faceR, faceL, musclR, musclL, recR, recL, eInt, faceK, set, cell, proj,
      phiR_eq a2, phiR_eq b2, phiR_eq c2, phiR_eq d2, phiR_eq e2, phiL_eq a1, phiL_eq b1, phiL_eq c1, phiL_eq d1, phiL_eq e1]
    split_ifs <;> first | rfl | ring1 | (rename_i h0 h1 h2 h3; exact (no_fifth h0 h1 h2 h3).elim)

/-- C115 (muscl2hllc), at the faces whose cells differ -/
theorem C115_muscl2hllc_partial : FourCellAt VariedY muscl2hllc muscl2hllc_iF muscl2hllc_jF muscl2hllc_kF :=
  fun b hb i j k F m => ⟨muscl2hllc_i b hb i j k F m, muscl2hllc_j b hb i j k F m, muscl2hllc_k b hb i j k F m⟩

/-! ### the hypotheses can be met -/

/-- a block whose state varies along every direction -/
noncomputable def ramp : Blk := { spike with
  ne := 7
  q := fun i j k n => (i + j + k : ℤ) + n
  Q := fun i j k n => (i + j + k : ℤ) + 3 + n
  qh := fun i j k _ => ((i + j + k : ℤ) + 3) ^ 2 }

example : VariedY (ramp.ne - 5) (cell ramp (-1) 0 0) (cell ramp 0 0 0) (cell ramp 1 0 0) := by
  refine ⟨⟨⟨?_, ?_⟩, ⟨?_, ?_⟩, ⟨?_, ?_⟩, ⟨?_, ?_⟩, ?_, ?_⟩, fun n _ => ⟨?_, ?_⟩⟩ <;> simp [cell, ramp, eInt] <;> norm_num

end PG.Text
