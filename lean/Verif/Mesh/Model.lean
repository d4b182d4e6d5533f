import Verif.Base.Vec
/-
Model of /repo/src/peregrinepy/grid/metrics.py (metrics): cell centres, face centres, face area vectors, areas, unit
normals, cell volumes and coordinate transformation derivatives, all from node coordinates.

Node coordinates are a function of the three array indices (the arrays blk.array["x"|"y"|"z"], including halos);
numpy slicing `[0:-1]`/`[1::]` becomes index `i`/`i+1`. Doubles are modelled as reals.
-/
namespace PG.Mesh
open V3

/-- node coordinates of one block by array index (x, y, z arrays; gridBlock.py:79-81, solverBlock.py:109-110) -/
abbrev Nodes := ℕ → ℕ → ℕ → V3

/-- np.clip(a, 1e-16, None) (metrics.py:118, 178, 238, 284) -/
noncomputable def clip (a : ℝ) : ℝ := max a (1 / 10^16)

/-- cell centre (metrics.py:39-70) -/
noncomputable def cellCentre (X : Nodes) (i j k : ℕ) : V3 :=
  smul (1/8) (X i j k + X i j (k+1) + X i (j+1) k + X i (j+1) (k+1)
    + X (i+1) j k + X (i+1) j (k+1) + X (i+1) (j+1) k + X (i+1) (j+1) (k+1))

/-- i-face centre (metrics.py:82-90) -/
noncomputable def iCentre (X : Nodes) (i j k : ℕ) : V3 :=
  smul (1/4) (X i j k + X i j (k+1) + X i (j+1) k + X i (j+1) (k+1))
/-- j-face centre (metrics.py:142-150) -/
noncomputable def jCentre (X : Nodes) (i j k : ℕ) : V3 :=
  smul (1/4) (X i j k + X i j (k+1) + X (i+1) j k + X (i+1) j (k+1))
/-- k-face centre (metrics.py:202-210) -/
noncomputable def kCentre (X : Nodes) (i j k : ℕ) : V3 :=
  smul (1/4) (X i j k + X i (j+1) k + X (i+1) j k + X (i+1) (j+1) k)

/-- i-face area vector `isx isy isz` (metrics.py:92-112): half the cross product of the diagonals `x2-x5`, `x6-x1` -/
noncomputable def iArea (X : Nodes) (i j k : ℕ) : V3 :=
  smul (1/2) (cross (X i (j+1) k - X i j (k+1)) (X i (j+1) (k+1) - X i j k))
/-- j-face area vector `jsx jsy jsz` (metrics.py:152-172): diagonals `x5-x4`, `x8-x1` -/
noncomputable def jArea (X : Nodes) (i j k : ℕ) : V3 :=
  smul (1/2) (cross (X i j (k+1) - X (i+1) j k) (X (i+1) j (k+1) - X i j k))
/-- k-face area vector `ksx ksy ksz` (metrics.py:212-232): diagonals `x4-x2`, `x3-x1` -/
noncomputable def kArea (X : Nodes) (i j k : ℕ) : V3 :=
  smul (1/2) (cross (X (i+1) j k - X i (j+1) k) (X (i+1) (j+1) k - X i j k))

/-- face area `iS` etc.: clipped length of the area vector (metrics.py:114-118, 174-178, 234-238) -/
noncomputable def area (s : V3) : ℝ := clip (Real.sqrt (s.x ^ 2 + s.y ^ 2 + s.z ^ 2))
/-- unit normal `inx iny inz` etc. (metrics.py:120-122, 180-182, 240-242) -/
noncomputable def normal (s : V3) : V3 := ⟨s.x / area s, s.y / area s, s.z / area s⟩

/-- cell volume before clipping (metrics.py:263-282) -/
noncomputable def rawVolume (X : Nodes) (i j k : ℕ) : ℝ :=
  (((X (i+1) (j+1) (k+1)).x - (X i j k).x) * ((iArea X (i+1) j k).x + (jArea X i (j+1) k).x + (kArea X i j (k+1)).x)
  + ((X (i+1) (j+1) (k+1)).y - (X i j k).y) * ((iArea X (i+1) j k).y + (jArea X i (j+1) k).y + (kArea X i j (k+1)).y)
  + ((X (i+1) (j+1) (k+1)).z - (X i j k).z) * ((iArea X (i+1) j k).z + (jArea X i (j+1) k).z + (kArea X i j (k+1)).z)) / 3

/-- cell volume `J` (metrics.py:284) -/
noncomputable def volume (X : Nodes) (i j k : ℕ) : ℝ := clip (rawVolume X i j k)

/-- derivative of the coordinates along i: `dxdE, dydE, dzdE` (metrics.py:324-326) -/
noncomputable def dE (X : Nodes) (i j k : ℕ) : V3 :=
  smul (1/4) ((X (i+1) j k - X i j k) + (X (i+1) j (k+1) - X i j (k+1))
    + (X (i+1) (j+1) k - X i (j+1) k) + (X (i+1) (j+1) (k+1) - X i (j+1) (k+1)))
/-- derivative along j: `dxdN, dydN, dzdN` (metrics.py:328-330) -/
noncomputable def dN (X : Nodes) (i j k : ℕ) : V3 :=
  smul (1/4) ((X i (j+1) k - X i j k) + (X (i+1) (j+1) k - X (i+1) j k)
    + (X (i+1) (j+1) (k+1) - X (i+1) j (k+1)) + (X i (j+1) (k+1) - X i j (k+1)))
/-- derivative along k: `dxdC, dydC, dzdC` (metrics.py:332-334) -/
noncomputable def dC (X : Nodes) (i j k : ℕ) : V3 :=
  smul (1/4) ((X i j (k+1) - X i j k) + (X (i+1) j (k+1) - X (i+1) j k)
    + (X i (j+1) (k+1) - X i (j+1) k) + (X (i+1) (j+1) (k+1) - X (i+1) (j+1) k))

/-- `dEdx, dEdy, dEdz` (metrics.py:336-338) -/
noncomputable def gradE (X : Nodes) (i j k : ℕ) : V3 :=
  let N := dN X i j k
  let C := dC X i j k
  let J := volume X i j k
  ⟨(N.y * C.z - C.y * N.z) / J, (N.x * C.z - C.x * N.z) / -J, (N.x * C.y - C.x * N.y) / J⟩
/-- `dNdx, dNdy, dNdz` (metrics.py:340-342) -/
noncomputable def gradN (X : Nodes) (i j k : ℕ) : V3 :=
  let E := dE X i j k
  let C := dC X i j k
  let J := volume X i j k
  ⟨(E.y * C.z - C.y * E.z) / -J, (E.x * C.z - C.x * E.z) / J, (E.x * C.y - C.x * E.y) / -J⟩
/-- `dCdx, dCdy, dCdz` (metrics.py:344-346) -/
noncomputable def gradC (X : Nodes) (i j k : ℕ) : V3 :=
  let E := dE X i j k
  let N := dN X i j k
  let J := volume X i j k
  ⟨(E.y * N.z - N.y * E.z) / J, (E.x * N.z - N.x * E.z) / -J, (E.x * N.y - N.x * E.y) / J⟩

/-- one component `dqdx`/`dqdy`/`dqdz` from the three computational differences and the matching metric components
    (dq2FD.cpp:21-28) -/
noncomputable def chain (d1 d2 d3 : ℝ) (E N C : V3) : V3 :=
  ⟨d1 * E.x + d2 * N.x + d3 * C.x, d1 * E.y + d2 * N.y + d3 * C.y, d1 * E.z + d2 * N.z + d3 * C.z⟩

/-- dq2FD (dq2FD.cpp:16-29): gradient of one primitive variable at cell `(i,j,k)` -/
noncomputable def dq2FD (X : Nodes) (q : ℕ → ℕ → ℕ → ℝ) (i j k : ℕ) : V3 :=
  chain (1/2 * (q (i+1) j k - q (i-1) j k)) (1/2 * (q i (j+1) k - q i (j-1) k)) (1/2 * (q i j (k+1) - q i j (k-1)))
    (gradE X i j k) (gradN X i j k) (gradC X i j k)

/-- dq4FD (dq4FD.cpp:15-37) -/
noncomputable def dq4FD (X : Nodes) (q : ℕ → ℕ → ℕ → ℝ) (i j k : ℕ) : V3 :=
  let t1 := -q (i+2) j k + 8 * q (i+1) j k - 8 * q (i-1) j k + q (i-2) j k
  let t2 := -q i (j+2) k + 8 * q i (j+1) k - 8 * q i (j-1) k + q i (j-2) k
  let t3 := -q i j (k+2) + 8 * q i j (k+1) - 8 * q i j (k-1) + q i j (k-2)
  smul (1/12) (chain t1 t2 t3 (gradE X i j k) (gradN X i j k) (gradC X i j k))

end PG.Mesh
