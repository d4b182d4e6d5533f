import Verif.Mesh.Model
/-
C11 (closed cells), C13 (volumes, areas, normals), C14 (metrics invert the Jacobian), C62 (finite difference gradients).
-/
namespace PG.Mesh
open V3

/-! ### C11 -/

/-- C11: for arbitrary node positions the six outward area vectors of every cell sum to zero. -/
theorem C11_closed_cell (X : Nodes) (i j k : ℕ) :
    (iArea X (i+1) j k - iArea X i j k) + (jArea X i (j+1) k - jArea X i j k) + (kArea X i j (k+1) - kArea X i j k)
      = 0 := by
  ext <;> simp [iArea, jArea, kArea] <;> ring

/-- Specification: area vector of a (possibly warped) quadrilateral with corners `p00 p10 p11 p01` in order, the integral
    of `dS` over any surface spanning it: sum of the two triangles `p00 p10 p11` and `p00 p11 p01`. -/
noncomputable def quadArea (p00 p10 p11 p01 : V3) : V3 :=
  smul (1/2) (cross (p10 - p00) (p11 - p00)) + smul (1/2) (cross (p11 - p00) (p01 - p00))

/-- C11: the computed area vectors are the area vectors of the face quadrilaterals, oriented towards growing index
    (i faces are traversed j then k, j faces k then i, k faces i then j). -/
theorem C11_area_is_quad (X : Nodes) (i j k : ℕ) :
    iArea X i j k = quadArea (X i j k) (X i (j+1) k) (X i (j+1) (k+1)) (X i j (k+1)) ∧
    jArea X i j k = quadArea (X i j k) (X i j (k+1)) (X (i+1) j (k+1)) (X (i+1) j k) ∧
    kArea X i j k = quadArea (X i j k) (X (i+1) j k) (X (i+1) (j+1) k) (X i (j+1) k) := by
  refine ⟨?_, ?_, ?_⟩ <;> ext <;> simp [iArea, jArea, kArea, quadArea] <;> ring

/-- C11: a face shared by two blocks is the same quadrilateral listed from any of its four corners, in the same or in
    the opposite sense; the area vector is the same, or its negative respectively. (All eight relabellings are
    generated by the two below.) -/
theorem C11_shared_face (p00 p10 p11 p01 : V3) :
    quadArea p10 p11 p01 p00 = quadArea p00 p10 p11 p01 ∧
    quadArea p00 p01 p11 p10 = - quadArea p00 p10 p11 p01 := by
  refine ⟨?_, ?_⟩ <;> ext <;> simp [quadArea] <;> ring

/-! ### C13 -/

theorem clip_pos (a : ℝ) : 0 < clip a := lt_of_lt_of_le (by norm_num) (le_max_right a _)

theorem area_pos (s : V3) : 0 < area s := clip_pos _

theorem volume_pos (X : Nodes) (i j k : ℕ) : 0 < volume X i j k := clip_pos _

/-- C13: for every face, area times unit normal is the area vector, clipped or not. -/
theorem C13_area_times_normal (s : V3) : smul (area s) (normal s) = s := by
  have h := (area_pos s).ne'
  ext <;> simp [normal] <;> field_simp

/-- C13: whenever the length of the area vector is not below the clip, the area is that length and the normal has unit
    length. -/
theorem C13_unit_normal (s : V3) (h : 1 / 10^16 ≤ Real.sqrt (s.x ^ 2 + s.y ^ 2 + s.z ^ 2)) :
    area s ^ 2 = dot s s ∧ dot (normal s) (normal s) = 1 := by
  have ha : area s = Real.sqrt (s.x ^ 2 + s.y ^ 2 + s.z ^ 2) := max_eq_left h
  have hsq : area s ^ 2 = s.x ^ 2 + s.y ^ 2 + s.z ^ 2 := by
    rw [ha, Real.sq_sqrt (by positivity)]
  have hd : dot s s = s.x ^ 2 + s.y ^ 2 + s.z ^ 2 := by simp only [dot]; ring
  refine ⟨hsq.trans hd.symm, ?_⟩
  have hp := (area_pos s).ne'
  have : dot (normal s) (normal s) = (s.x ^ 2 + s.y ^ 2 + s.z ^ 2) / area s ^ 2 := by
    simp only [dot, normal]; field_simp
  rw [this, ← hsq]
  field_simp

/-- C13: in every case the normal is not longer than one. -/
theorem C13_normal_le_one (s : V3) : dot (normal s) (normal s) ≤ 1 := by
  have hp := area_pos s
  have h0 : 0 ≤ s.x ^ 2 + s.y ^ 2 + s.z ^ 2 := by positivity
  have h1 : Real.sqrt (s.x ^ 2 + s.y ^ 2 + s.z ^ 2) ≤ area s := le_max_left _ _
  have h2 : s.x ^ 2 + s.y ^ 2 + s.z ^ 2 ≤ area s ^ 2 := by
    calc s.x ^ 2 + s.y ^ 2 + s.z ^ 2 = Real.sqrt (s.x ^ 2 + s.y ^ 2 + s.z ^ 2) ^ 2 := (Real.sq_sqrt h0).symm
      _ ≤ area s ^ 2 := pow_le_pow_left₀ (Real.sqrt_nonneg _) h1 2
  have : dot (normal s) (normal s) = (s.x ^ 2 + s.y ^ 2 + s.z ^ 2) / area s ^ 2 := by
    simp only [dot, normal]; field_simp
  rw [this]
  exact div_le_one_of_le₀ h2 (by positivity)

/-- Specification: six times the volume of the hexahedron with corners `x1..x8` (numbering of metrics.py:5-23) as the
    sum of the six tetrahedra around the diagonal `x1 x7`. -/
def sixHexVolume (x1 x2 x3 x4 x5 x6 x7 x8 : V3) : ℝ :=
  det (x4 - x1) (x3 - x1) (x7 - x1) + det (x3 - x1) (x2 - x1) (x7 - x1) + det (x2 - x1) (x6 - x1) (x7 - x1)
  + det (x6 - x1) (x5 - x1) (x7 - x1) + det (x5 - x1) (x8 - x1) (x7 - x1) + det (x8 - x1) (x4 - x1) (x7 - x1)

/-- C13: for arbitrary nodes the volume before clipping is the signed volume of the cell cut into the six tetrahedra
    around its main diagonal. -/
theorem C13_volume_is_hex_volume (X : Nodes) (i j k : ℕ) :
    rawVolume X i j k = sixHexVolume (X i j k) (X i (j+1) k) (X (i+1) (j+1) k) (X (i+1) j k)
      (X i j (k+1)) (X i (j+1) (k+1)) (X (i+1) (j+1) (k+1)) (X (i+1) j (k+1)) / 6 := by
  simp [rawVolume, sixHexVolume, iArea, jArea, kArea, det]
  ring

/-- Specification: the cell at `(i,j,k)` is the parallelepiped at `o` with edges `a`, `b`, `c`. -/
structure IsParallelepiped (X : Nodes) (i j k : ℕ) (o a b c : V3) : Prop where
  h000 : X i j k = o
  h100 : X (i+1) j k = o + a
  h010 : X i (j+1) k = o + b
  h001 : X i j (k+1) = o + c
  h110 : X (i+1) (j+1) k = o + a + b
  h101 : X (i+1) j (k+1) = o + a + c
  h011 : X i (j+1) (k+1) = o + b + c
  h111 : X (i+1) (j+1) (k+1) = o + a + b + c

/-- C13: the volume of a parallelepiped cell is the determinant of its edges, raised to the clip if smaller; so it is
    exact for right-handed cells larger than the clip, and positive always. Face areas are the edge cross products. -/
theorem C13_parallelepiped (X : Nodes) (i j k : ℕ) (o a b c : V3) (h : IsParallelepiped X i j k o a b c) :
    volume X i j k = max (det a b c) (1 / 10^16) ∧
    (1 / 10^16 ≤ det a b c → volume X i j k = det a b c) ∧
    0 < volume X i j k ∧
    iArea X i j k = cross b c ∧ iArea X (i+1) j k = cross b c ∧
    jArea X i j k = cross c a ∧ jArea X i (j+1) k = cross c a ∧
    kArea X i j k = cross a b ∧ kArea X i j (k+1) = cross a b := by
  have hr : rawVolume X i j k = det a b c := by
    simp [rawVolume, iArea, jArea, kArea, h.h000, h.h100, h.h010, h.h001, h.h110, h.h101, h.h011, h.h111, det]
    ring
  have hv : volume X i j k = max (det a b c) (1 / 10^16) := by rw [volume, clip, hr]
  refine ⟨hv, fun hc => hv.trans (max_eq_left hc), volume_pos X i j k, ?_, ?_, ?_, ?_, ?_, ?_⟩ <;>
    ext <;> simp [iArea, jArea, kArea, h.h000, h.h100, h.h010, h.h001, h.h110, h.h101, h.h011, h.h111] <;> ring

/-! ### C14, C62 -/

/-- C14 on arbitrary grids: each metric row is dual to the coordinate derivatives up to the common factor
    (Jacobian determinant)/(cell volume). -/
theorem C14_metrics_dual (X : Nodes) (i j k : ℕ) :
    let r := det (dE X i j k) (dN X i j k) (dC X i j k) / volume X i j k
    dot (gradE X i j k) (dE X i j k) = r ∧ dot (gradE X i j k) (dN X i j k) = 0 ∧ dot (gradE X i j k) (dC X i j k) = 0 ∧
    dot (gradN X i j k) (dE X i j k) = 0 ∧ dot (gradN X i j k) (dN X i j k) = r ∧ dot (gradN X i j k) (dC X i j k) = 0 ∧
    dot (gradC X i j k) (dE X i j k) = 0 ∧ dot (gradC X i j k) (dN X i j k) = 0 ∧ dot (gradC X i j k) (dC X i j k) = r
    := by
  have h := (volume_pos X i j k).ne'
  refine ⟨?_, ?_, ?_, ?_, ?_, ?_, ?_, ?_, ?_⟩ <;>
    simp only [dot, gradE, gradN, gradC, det, div_neg] <;> field_simp <;> ring

/-- Specification: an affinely mapped grid. -/
def IsAffine (X : Nodes) (o a b c : V3) : Prop :=
  ∀ i j k : ℕ, X i j k = o + smul i a + smul j b + smul k c

theorem IsAffine.cell {X o a b c} (h : IsAffine X o a b c) (i j k : ℕ) :
    IsParallelepiped X i j k (X i j k) a b c := by
  have H : ∀ i j k : ℕ, X i j k = o + smul i a + smul j b + smul k c := h
  constructor <;> (try rfl) <;> simp only [H] <;> ext <;> simp <;> ring

theorem affine_deriv {X o a b c} (h : IsAffine X o a b c) (i j k : ℕ) :
    dE X i j k = a ∧ dN X i j k = b ∧ dC X i j k = c := by
  have hc := h.cell i j k
  refine ⟨?_, ?_, ?_⟩ <;> ext <;>
    simp [dE, dN, dC, hc.h100, hc.h010, hc.h001, hc.h110, hc.h101, hc.h011, hc.h111] <;> ring

/-- C14: on an affine right-handed grid the metric terms are the inverse of the matrix of coordinate derivatives:
    `(dE dN dC)` as columns are `a b c`, and the rows `gradE gradN gradC` satisfy `row · column = identity`. -/
theorem C14_affine_inverse (X : Nodes) (o a b c : V3) (h : IsAffine X o a b c) (hv : 1 / 10^16 ≤ det a b c)
    (i j k : ℕ) :
    dot (gradE X i j k) a = 1 ∧ dot (gradE X i j k) b = 0 ∧ dot (gradE X i j k) c = 0 ∧
    dot (gradN X i j k) a = 0 ∧ dot (gradN X i j k) b = 1 ∧ dot (gradN X i j k) c = 0 ∧
    dot (gradC X i j k) a = 0 ∧ dot (gradC X i j k) b = 0 ∧ dot (gradC X i j k) c = 1 := by
  have hd := C14_metrics_dual X i j k
  obtain ⟨h1, h2, h3⟩ := affine_deriv h i j k
  have hV := (C13_parallelepiped X i j k _ a b c (h.cell i j k)).2.1 hv
  have hp := volume_pos X i j k
  simp only [h1, h2, h3, hV] at hd
  rw [hV] at hp
  rw [div_self hp.ne'] at hd
  exact hd

theorem chain_of_dual (E N C a b c g : V3)
    (d : dot E a = 1 ∧ dot E b = 0 ∧ dot E c = 0 ∧ dot N a = 0 ∧ dot N b = 1 ∧ dot N c = 0 ∧
      dot C a = 0 ∧ dot C b = 0 ∧ dot C c = 1) (hdet : det a b c ≠ 0) :
    chain (dot g a) (dot g b) (dot g c) E N C = g := by
  obtain ⟨e1, e2, e3, n1, n2, n3, c1, c2, c3⟩ := d
  -- the vector `chain - g` is orthogonal to a, b, c
  have key : ∀ r : V3, dot r a = 0 → dot r b = 0 → dot r c = 0 → r = 0 := by
    intro r ha hb hc
    simp only [dot] at ha hb hc
    have hx : det a b c * r.x = 0 := by
      have : det a b c * r.x = (r.x * a.x + r.y * a.y + r.z * a.z) * (b.y * c.z - b.z * c.y)
        - (r.x * b.x + r.y * b.y + r.z * b.z) * (a.y * c.z - a.z * c.y)
        + (r.x * c.x + r.y * c.y + r.z * c.z) * (a.y * b.z - a.z * b.y) := by simp only [det]; ring
      rw [this, ha, hb, hc]; ring
    have hy : det a b c * r.y = 0 := by
      have : det a b c * r.y = -(r.x * a.x + r.y * a.y + r.z * a.z) * (b.x * c.z - b.z * c.x)
        + (r.x * b.x + r.y * b.y + r.z * b.z) * (a.x * c.z - a.z * c.x)
        - (r.x * c.x + r.y * c.y + r.z * c.z) * (a.x * b.z - a.z * b.x) := by simp only [det]; ring
      rw [this, ha, hb, hc]; ring
    have hz : det a b c * r.z = 0 := by
      have : det a b c * r.z = (r.x * a.x + r.y * a.y + r.z * a.z) * (b.x * c.y - b.y * c.x)
        - (r.x * b.x + r.y * b.y + r.z * b.z) * (a.x * c.y - a.y * c.x)
        + (r.x * c.x + r.y * c.y + r.z * c.z) * (a.x * b.y - a.y * b.x) := by simp only [det]; ring
      rw [this, ha, hb, hc]; ring
    ext
    · exact (mul_eq_zero.1 hx).resolve_left hdet
    · exact (mul_eq_zero.1 hy).resolve_left hdet
    · exact (mul_eq_zero.1 hz).resolve_left hdet
  have lin : ∀ t : V3, dot (chain (dot g a) (dot g b) (dot g c) E N C - g) t
      = dot g a * dot E t + dot g b * dot N t + dot g c * dot C t - dot g t := by
    intro t; simp [dot, chain]; ring
  have h0 := key (chain (dot g a) (dot g b) (dot g c) E N C - g)
    (by rw [lin, e1, n1, c1]; ring) (by rw [lin, e2, n2, c2]; ring) (by rw [lin, e3, n3, c3]; ring)
  have hx := congrArg V3.x h0
  have hy := congrArg V3.y h0
  have hz := congrArg V3.z h0
  simp only [sub_x, sub_y, sub_z, zero_x, zero_y, zero_z] at hx hy hz
  ext <;> linarith

/-- Specification: `q` holds at each cell the value of the linear function with value `v0` at the origin and gradient
    `g`, evaluated at the cell centre. -/
def IsLinearField (X : Nodes) (q : ℕ → ℕ → ℕ → ℝ) (v0 : ℝ) (g : V3) : Prop :=
  ∀ i j k, q i j k = v0 + dot g (cellCentre X i j k)

theorem linear_diff {X o a b c q v0 g} (h : IsAffine X o a b c) (hq : IsLinearField X q v0 g) (i j k : ℕ) :
    q i j k = v0 + dot g o + dot g (smul (1/2) (a + b + c)) + i * dot g a + j * dot g b + k * dot g c := by
  rw [hq]
  simp only [dot, cellCentre, h _ _ _, smul_x, smul_y, smul_z, add_x, add_y, add_z]
  push_cast
  ring

/-- C62 (and C14): on affine right-handed grids both gradient operators are exact for linear fields, at every cell with
    enough neighbours. -/
theorem C62_linear_exact (X : Nodes) (o a b c : V3) (h : IsAffine X o a b c) (hv : 1 / 10^16 ≤ det a b c)
    (q : ℕ → ℕ → ℕ → ℝ) (v0 : ℝ) (g : V3) (hq : IsLinearField X q v0 g) (i j k : ℕ) :
    (1 ≤ i → 1 ≤ j → 1 ≤ k → dq2FD X q i j k = g) ∧
    (2 ≤ i → 2 ≤ j → 2 ≤ k → dq4FD X q i j k = g) := by
  have hd : det a b c ≠ 0 := by
    intro h0; rw [h0] at hv; norm_num at hv
  have hch := chain_of_dual _ _ _ a b c g (C14_affine_inverse X o a b c h hv i j k) hd
  constructor
  · intro h1 h2 h3
    obtain ⟨i, rfl⟩ := Nat.exists_eq_add_of_le' h1
    obtain ⟨j, rfl⟩ := Nat.exists_eq_add_of_le' h2
    obtain ⟨k, rfl⟩ := Nat.exists_eq_add_of_le' h3
    unfold dq2FD
    convert hch using 1
    simp only [Nat.add_sub_cancel, linear_diff h hq]
    push_cast
    congr 1 <;> ring
  · intro h1 h2 h3
    obtain ⟨i, rfl⟩ := Nat.exists_eq_add_of_le' h1
    obtain ⟨j, rfl⟩ := Nat.exists_eq_add_of_le' h2
    obtain ⟨k, rfl⟩ := Nat.exists_eq_add_of_le' h3
    have e : ∀ n : ℕ, n + 2 - 1 = n + 1 := fun n => rfl
    have hs : ∀ (d1 d2 d3 : ℝ) (E N C : V3), smul (1/12) (chain (12 * d1) (12 * d2) (12 * d3) E N C) = chain d1 d2 d3 E N C := by
      intros; ext <;> simp [chain] <;> ring
    rw [← hch, ← hs]
    unfold dq4FD
    simp only [Nat.add_sub_cancel, e, linear_diff h hq]
    push_cast
    congr 2 <;> ring

/-- C62: gradients of a constant field vanish on every grid. -/
theorem C62_constant (X : Nodes) (q : ℕ → ℕ → ℕ → ℝ) (v : ℝ) (hq : ∀ i j k, q i j k = v) (i j k : ℕ) :
    dq2FD X q i j k = 0 ∧ dq4FD X q i j k = 0 := by
  constructor <;> ext <;> simp [dq2FD, dq4FD, chain, hq]

/-! Non-vacuity: a skewed affine grid with volume 6 and a linear field on it. -/
noncomputable def exGrid : Nodes := fun i j k =>
  (⟨1, 2, 3⟩ : V3) + smul i ⟨1, 0, 0⟩ + smul j ⟨1, 2, 0⟩ + smul k ⟨1, 1, 3⟩

example : IsAffine exGrid ⟨1, 2, 3⟩ ⟨1, 0, 0⟩ ⟨1, 2, 0⟩ ⟨1, 1, 3⟩ ∧ (1 / 10^16 : ℝ) ≤ det ⟨1, 0, 0⟩ ⟨1, 2, 0⟩ ⟨1, 1, 3⟩
    ∧ IsLinearField exGrid (fun i j k => 5 + dot ⟨1, 1, 1⟩ (cellCentre exGrid i j k)) 5 ⟨1, 1, 1⟩ := by
  refine ⟨fun _ _ _ => rfl, ?_, fun _ _ _ => rfl⟩
  norm_num [det]

example : (1 / 10^16 : ℝ) ≤ Real.sqrt ((3:ℝ) ^ 2 + 4 ^ 2 + 0 ^ 2) := by
  have : (5:ℝ) = Real.sqrt ((3:ℝ) ^ 2 + 4 ^ 2 + 0 ^ 2) := by
    rw [show (3:ℝ) ^ 2 + 4 ^ 2 + 0 ^ 2 = 5 ^ 2 by norm_num, Real.sqrt_sq (by norm_num)]
  rw [← this]; norm_num

end PG.Mesh
