import Verif.Text.FluxProps
/-!
C115: the MUSCL schemes. The limiter divides by differences of neighbouring cells; the translation of the text uses real division, so the
comparison is made where no such difference is zero.
-/
namespace PG.Text
open PG.Flux

/-- a quantity has different values in cells that follow each other -/
def Varies (f : Cell → ℝ) (L R RR : Cell) : Prop := f R - f L ≠ 0 ∧ f RR - f R ≠ 0

/-- density, velocity and specific internal energy vary along the stencil -/
def Varied (L R RR : Cell) : Prop :=
  Varies Cell.rho L R RR ∧ Varies Cell.u L R RR ∧ Varies Cell.v L R RR ∧ Varies Cell.w L R RR ∧ Varies eInt L R RR

/-- what a four-cell scheme must compute at the faces whose stencil satisfies `P` -/
def FourCellAt (P : ℕ → Cell → Cell → Cell → Prop) (f : Cell → Cell → Cell → Cell → FaceG → FluxV) (pi pj pk : Blk → ℤ → ℤ → ℤ → FluxV → FluxV) : Prop :=
  ∀ b : Blk, 5 ≤ b.ne → ∀ (i j k : ℤ) (old : FluxV) (m : ℕ),
    (P (b.ne - 5) (cell b (i - 1) j k) (cell b i j k) (cell b (i + 1) j k) → pi b i j k old m = if m < b.ne then
      f (cell b (i - 2) j k) (cell b (i - 1) j k) (cell b i j k) (cell b (i + 1) j k) (faceI b i j k) m else old m) ∧
    (P (b.ne - 5) (cell b i (j - 1) k) (cell b i j k) (cell b i (j + 1) k) → pj b i j k old m = if m < b.ne then
      f (cell b i (j - 2) k) (cell b i (j - 1) k) (cell b i j k) (cell b i (j + 1) k) (faceJ b i j k) m else old m) ∧
    (P (b.ne - 5) (cell b i j (k - 1)) (cell b i j k) (cell b i j (k + 1)) → pk b i j k old m = if m < b.ne then
      f (cell b i j (k - 2)) (cell b i j (k - 1)) (cell b i j k) (cell b i j (k + 1)) (faceK b i j k) m else old m)

theorem lim_eq {num den : ℝ} (h : den ≠ 0) : limiter num den = max 0 (min (min (2 * (num / den)) ((1 + num / den) / 2)) 2) := if_neg h

theorem phiR_eq {a b c d : ℝ} (h : d - c ≠ 0) : phiR a b c d = max 0 (min (min (2 * ((c - b) / (d - c))) ((1 + (c - b) / (d - c)) / 2)) 2) := lim_eq h
theorem phiL_eq {a b c d : ℝ} (h : c - b ≠ 0) : phiL a b c d = max 0 (min (min (2 * ((b - a) / (c - b))) ((1 + (b - a) / (c - b)) / 2)) 2) := lim_eq h

theorem muscl2rusanov_i (b : Blk) (hb : 5 ≤ b.ne) (i j k : ℤ) (F : FluxV) (m : ℕ) (h : Varied (cell b (i - 1) j k) (cell b i j k) (cell b (i + 1) j k)) :
    muscl2rusanov_iF b i j k F m = if m < b.ne then
      muscl2rusanov (cell b (i - 2) j k) (cell b (i - 1) j k) (cell b i j k) (cell b (i + 1) j k) (faceI b i j k) m else F m := by
  obtain ⟨⟨a1, a2⟩, ⟨b1, b2⟩, ⟨c1, c2⟩, ⟨d1, d2⟩, e1, e2⟩ := h
  simp only [cell, eInt] at a1 a2 b1 b2 c1 c2 d1 d2 e1 e2
  refine leaves_of hb ?_ ?_ ?_ ?_ ?_ (fun n hn => ?_) (fun n hn => ?_) _
  rotate_left 5
  · simp [muscl2rusanov_iF, muscl2rusanov, rusanovOf, musclSpeed, faceR, faceL, musclR, musclL, recR, recL, eInt, faceI, mk5_species, set, cell, proj, hn,
      phiR_eq a2, phiR_eq b2, phiR_eq c2, phiR_eq d2, phiR_eq e2, phiL_eq a1, phiL_eq b1, phiL_eq c1, phiL_eq d1, phiL_eq e1]
    try ring1
  · simp [muscl2rusanov_iF, set, hn, sp1, sp2, sp3, sp4]
  all_goals
    simp [muscl2rusanov_iF, muscl2rusanov, rusanovOf, musclSpeed, faceR, faceL, musclR, musclL, recR, recL, eInt, faceI, mk5, set, cell, proj,
      phiR_eq a2, phiR_eq b2, phiR_eq c2, phiR_eq d2, phiR_eq e2, phiL_eq a1, phiL_eq b1, phiL_eq c1, phiL_eq d1, phiL_eq e1]

theorem muscl2rusanov_j (b : Blk) (hb : 5 ≤ b.ne) (i j k : ℤ) (F : FluxV) (m : ℕ) (h : Varied (cell b i (j - 1) k) (cell b i j k) (cell b i (j + 1) k)) :
    muscl2rusanov_jF b i j k F m = if m < b.ne then
      muscl2rusanov (cell b i (j - 2) k) (cell b i (j - 1) k) (cell b i j k) (cell b i (j + 1) k) (faceJ b i j k) m else F m := by
  obtain ⟨⟨a1, a2⟩, ⟨b1, b2⟩, ⟨c1, c2⟩, ⟨d1, d2⟩, e1, e2⟩ := h
  simp only [cell, eInt] at a1 a2 b1 b2 c1 c2 d1 d2 e1 e2
  refine leaves_of hb ?_ ?_ ?_ ?_ ?_ (fun n hn => ?_) (fun n hn => ?_) _
  rotate_left 5
  · simp [muscl2rusanov_jF, muscl2rusanov, rusanovOf, musclSpeed, faceR, faceL, musclR, musclL, recR, recL, eInt, faceJ, mk5_species, set, cell, proj, hn,
      phiR_eq a2, phiR_eq b2, phiR_eq c2, phiR_eq d2, phiR_eq e2, phiL_eq a1, phiL_eq b1, phiL_eq c1, phiL_eq d1, phiL_eq e1]
    try ring1
  · simp [muscl2rusanov_jF, set, hn, sp1, sp2, sp3, sp4]
  all_goals
    simp [muscl2rusanov_jF, muscl2rusanov, rusanovOf, musclSpeed, faceR, faceL, musclR, musclL, recR, recL, eInt, faceJ, mk5, set, cell, proj,
      phiR_eq a2, phiR_eq b2, phiR_eq c2, phiR_eq d2, phiR_eq e2, phiL_eq a1, phiL_eq b1, phiL_eq c1, phiL_eq d1, phiL_eq e1]

theorem muscl2rusanov_k (b : Blk) (hb : 5 ≤ b.ne) (i j k : ℤ) (F : FluxV) (m : ℕ) (h : Varied (cell b i j (k - 1)) (cell b i j k) (cell b i j (k + 1))) :
    muscl2rusanov_kF b i j k F m = if m < b.ne then
      muscl2rusanov (cell b i j (k - 2)) (cell b i j (k - 1)) (cell b i j k) (cell b i j (k + 1)) (faceK b i j k) m else F m := by
  obtain ⟨⟨a1, a2⟩, ⟨b1, b2⟩, ⟨c1, c2⟩, ⟨d1, d2⟩, e1, e2⟩ := h
  simp only [cell, eInt] at a1 a2 b1 b2 c1 c2 d1 d2 e1 e2
  refine leaves_of hb ?_ ?_ ?_ ?_ ?_ (fun n hn => ?_) (fun n hn => ?_) _
  rotate_left 5
  · simp [muscl2rusanov_kF, muscl2rusanov, rusanovOf, musclSpeed, faceR, faceL, musclR, musclL, recR, recL, eInt, faceK, mk5_species, set, cell, proj, hn,
      phiR_eq a2, phiR_eq b2, phiR_eq c2, phiR_eq d2, phiR_eq e2, phiL_eq a1, phiL_eq b1, phiL_eq c1, phiL_eq d1, phiL_eq e1]
    try ring1
  · simp [muscl2rusanov_kF, set, hn, sp1, sp2, sp3, sp4]
  all_goals
    simp [muscl2rusanov_kF, muscl2rusanov, rusanovOf, musclSpeed, faceR, faceL, musclR, musclL, recR, recL, eInt, faceK, mk5, set, cell, proj,
      phiR_eq a2, phiR_eq b2, phiR_eq c2, phiR_eq d2, phiR_eq e2, phiL_eq a1, phiL_eq b1, phiL_eq c1, phiL_eq d1, phiL_eq e1]

/-- C115 (muscl2rusanov), at the faces whose cells differ -/
theorem C115_muscl2rusanov_partial : FourCellAt (fun _ => Varied) muscl2rusanov muscl2rusanov_iF muscl2rusanov_jF muscl2rusanov_kF :=
  fun b hb i j k F m => ⟨muscl2rusanov_i b hb i j k F m, muscl2rusanov_j b hb i j k F m, muscl2rusanov_k b hb i j k F m⟩

end PG.Text
