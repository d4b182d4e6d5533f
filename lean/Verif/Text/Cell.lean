import Mathlib.Analysis.Real.Sqrt
/-
Generated by tools/mktext3.py from the text of kernels that compute values of a cell; do not edit. For each kernel, the range of its loop and
one iteration: what it does to the values stored at its index. The translation fails on a kernel that stores at another index than its own or
that reads an array it writes at another index. Doubles are reals.
-/
namespace PG.Text.Cell

/-- what the kernels read of a block without writing it (block_.hpp) -/
structure CBlk where
  ne : ℕ
  ng : ℤ
  ni : ℤ
  nj : ℤ
  nk : ℤ
  q : ℤ → ℤ → ℤ → ℕ → ℝ
  iF : ℤ → ℤ → ℤ → ℕ → ℝ
  jF : ℤ → ℤ → ℤ → ℕ → ℝ
  kF : ℤ → ℤ → ℤ → ℕ → ℝ
  phi : ℤ → ℤ → ℤ → ℕ → ℝ
  J : ℤ → ℤ → ℤ → ℝ
  dEdx : ℤ → ℤ → ℤ → ℝ
  dEdy : ℤ → ℤ → ℤ → ℝ
  dEdz : ℤ → ℤ → ℤ → ℝ
  dNdx : ℤ → ℤ → ℤ → ℝ
  dNdy : ℤ → ℤ → ℤ → ℝ
  dNdz : ℤ → ℤ → ℤ → ℝ
  dCdx : ℤ → ℤ → ℤ → ℝ
  dCdy : ℤ → ℤ → ℤ → ℝ
  dCdz : ℤ → ℤ → ℤ → ℝ
  xc : ℤ → ℤ → ℤ → ℝ
  yc : ℤ → ℤ → ℤ → ℝ
  zc : ℤ → ℤ → ℤ → ℝ

/-- the values at one index of the arrays that the kernels write: at (i,j,k,l), or at (i,j,k) with the component in the name -/
structure W where
  dQ : ℝ
  dqdx : ℝ
  dqdy : ℝ
  dqdz : ℝ
  phi_0 : ℝ
  phi_1 : ℝ
  phi_2 : ℝ
  qt_0 : ℝ

/-- the range of the loop of utils/applyFluxes.cpp:6-25 -/
def applyFlux_range (b : CBlk) (i j k : ℤ) (l : ℕ) : Prop :=
  b.ng ≤ i ∧ i < b.ni + b.ng - 1 ∧ b.ng ≤ j ∧ j < b.nj + b.ng - 1 ∧ b.ng ≤ k ∧ k < b.nk + b.ng - 1 ∧ l < b.ne

/-- utils/applyFluxes.cpp:6-25 -/
noncomputable def applyFlux (b : CBlk) (i j k : ℤ) (l : ℕ) (v : W) : W :=
  let v : W := { v with dQ := (v.dQ + ((((b.iF i j k l) + (b.jF i j k l)) + (b.kF i j k l)) / (b.J i j k))) }
  let v : W := { v with dQ := (v.dQ - ((((b.iF (i + 1) j k l) + (b.jF i (j + 1) k l)) + (b.kF i j (k + 1) l)) / (b.J i j k))) }
  v

/-- the range of the loop of utils/applyFluxes.cpp:27-62 -/
def applyHybridFlux_range (b : CBlk) (i j k : ℤ) (l : ℕ) : Prop :=
  b.ng ≤ i ∧ i < b.ni + b.ng - 1 ∧ b.ng ≤ j ∧ j < b.nj + b.ng - 1 ∧ b.ng ≤ k ∧ k < b.nk + b.ng - 1 ∧ l < b.ne

/-- utils/applyFluxes.cpp:27-62 -/
noncomputable def applyHybridFlux (b : CBlk) (primary : ℝ) (i j k : ℤ) (l : ℕ) (v : W) : W :=
  let iFphi : ℝ := (max (b.phi i j k 0) (b.phi (i - 1) j k 0))
  let iFphi1 : ℝ := (max (b.phi i j k 0) (b.phi (i + 1) j k 0))
  let jFphi : ℝ := (max (b.phi i j k 1) (b.phi i (j - 1) k 1))
  let jFphi1 : ℝ := (max (b.phi i j k 1) (b.phi i (j + 1) k 1))
  let kFphi : ℝ := (max (b.phi i j k 2) (b.phi i j (k - 1) 2))
  let kFphi1 : ℝ := (max (b.phi i j k 2) (b.phi i j (k + 1) 2))
  let dPrimary : ℝ := ((2 * primary) - 1)
  let v : W := { v with dQ := (v.dQ + (((((b.iF i j k l) * (primary - (iFphi * dPrimary))) + ((b.jF i j k l) * (primary - (jFphi * dPrimary)))) + ((b.kF i j k l) * (primary - (kFphi * dPrimary)))) / (b.J i j k))) }
  let v : W := { v with dQ := (v.dQ - (((((b.iF (i + 1) j k l) * (primary - (iFphi1 * dPrimary))) + ((b.jF i (j + 1) k l) * (primary - (jFphi1 * dPrimary)))) + ((b.kF i j (k + 1) l) * (primary - (kFphi1 * dPrimary)))) / (b.J i j k))) }
  v

/-- the range of the loop of utils/applyFluxes.cpp:64-83 -/
def applyDissipationFlux_range (b : CBlk) (i j k : ℤ) (l : ℕ) : Prop :=
  b.ng ≤ i ∧ i < b.ni + b.ng - 1 ∧ b.ng ≤ j ∧ j < b.nj + b.ng - 1 ∧ b.ng ≤ k ∧ k < b.nk + b.ng - 1 ∧ l < b.ne

/-- utils/applyFluxes.cpp:64-83 -/
noncomputable def applyDissipationFlux (b : CBlk) (i j k : ℤ) (l : ℕ) (v : W) : W :=
  let v : W := { v with dQ := (v.dQ - ((((b.iF i j k l) + (b.jF i j k l)) + (b.kF i j k l)) / (b.J i j k))) }
  let v : W := { v with dQ := (v.dQ + ((((b.iF (i + 1) j k l) + (b.jF i (j + 1) k l)) + (b.kF i j (k + 1) l)) / (b.J i j k))) }
  v

/-- the range of the loop of utils/dq2FD.cpp:6-30 -/
def dq2FD_range (b : CBlk) (i j k : ℤ) (l : ℕ) : Prop :=
  b.ng ≤ i ∧ i < b.ni + b.ng - 1 ∧ b.ng ≤ j ∧ j < b.nj + b.ng - 1 ∧ b.ng ≤ k ∧ k < b.nk + b.ng - 1 ∧ l < b.ne

/-- utils/dq2FD.cpp:6-30 -/
noncomputable def dq2FD (b : CBlk) (i j k : ℤ) (l : ℕ) (v : W) : W :=
  let dqdE : ℝ := ((1 / 2) * ((b.q (i + 1) j k l) - (b.q (i - 1) j k l)))
  let dqdN : ℝ := ((1 / 2) * ((b.q i (j + 1) k l) - (b.q i (j - 1) k l)))
  let dqdC : ℝ := ((1 / 2) * ((b.q i j (k + 1) l) - (b.q i j (k - 1) l)))
  let v : W := { v with dqdx := (((dqdE * (b.dEdx i j k)) + (dqdN * (b.dNdx i j k))) + (dqdC * (b.dCdx i j k))) }
  let v : W := { v with dqdy := (((dqdE * (b.dEdy i j k)) + (dqdN * (b.dNdy i j k))) + (dqdC * (b.dCdy i j k))) }
  let v : W := { v with dqdz := (((dqdE * (b.dEdz i j k)) + (dqdN * (b.dNdz i j k))) + (dqdC * (b.dCdz i j k))) }
  v

/-- the range of the loop of utils/dq4FD.cpp:5-38 -/
def dq4FD_range (b : CBlk) (i j k : ℤ) (l : ℕ) : Prop :=
  b.ng ≤ i ∧ i < b.ni + b.ng - 1 ∧ b.ng ≤ j ∧ j < b.nj + b.ng - 1 ∧ b.ng ≤ k ∧ k < b.nk + b.ng - 1 ∧ l < b.ne

/-- utils/dq4FD.cpp:5-38 -/
noncomputable def dq4FD (b : CBlk) (i j k : ℤ) (l : ℕ) (v : W) : W :=
  let term1 : ℝ := ((((-(b.q (i + 2) j k l)) + (8 * (b.q (i + 1) j k l))) - (8 * (b.q (i - 1) j k l))) + (b.q (i - 2) j k l))
  let term2 : ℝ := ((((-(b.q i (j + 2) k l)) + (8 * (b.q i (j + 1) k l))) - (8 * (b.q i (j - 1) k l))) + (b.q i (j - 2) k l))
  let term3 : ℝ := ((((-(b.q i j (k + 2) l)) + (8 * (b.q i j (k + 1) l))) - (8 * (b.q i j (k - 1) l))) + (b.q i j (k - 2) l))
  let v : W := { v with dqdx := ((((term1 * (b.dEdx i j k)) + (term2 * (b.dNdx i j k))) + (term3 * (b.dCdx i j k))) / 12) }
  let v : W := { v with dqdy := ((((term1 * (b.dEdy i j k)) + (term2 * (b.dNdy i j k))) + (term3 * (b.dCdy i j k))) / 12) }
  let v : W := { v with dqdz := ((((term1 * (b.dEdz i j k)) + (term2 * (b.dNdz i j k))) + (term3 * (b.dCdz i j k))) / 12) }
  v

/-- the range of the loop of switches/jameson.cpp:7-35 -/
def jamesonPressure_range (b : CBlk) (i j k : ℤ) : Prop :=
  b.ng ≤ i ∧ i < b.ni + b.ng - 1 ∧ b.ng ≤ j ∧ j < b.nj + b.ng - 1 ∧ b.ng ≤ k ∧ k < b.nk + b.ng - 1

/-- switches/jameson.cpp:7-35 -/
noncomputable def jamesonPressure (b : CBlk) (i j k : ℤ) (v : W) : W :=
  let p : ℝ := (b.q i j k 0)
  let pip : ℝ := (b.q (i + 1) j k 0)
  let pim : ℝ := (b.q (i - 1) j k 0)
  let pjp : ℝ := (b.q i (j + 1) k 0)
  let pjm : ℝ := (b.q i (j - 1) k 0)
  let pkp : ℝ := (b.q i j (k + 1) 0)
  let pkm : ℝ := (b.q i j (k - 1) 0)
  let ri : ℝ := (|((pip - (2 * p)) + pim)| / |((pip + (2 * p)) + pim)|)
  let v : W := { v with phi_0 := ri }
  let rj : ℝ := (|((pjp - (2 * p)) + pjm)| / |((pjp + (2 * p)) + pjm)|)
  let v : W := { v with phi_1 := rj }
  let rk : ℝ := (|((pkp - (2 * p)) + pkm)| / |((pkp + (2 * p)) + pkm)|)
  let v : W := { v with phi_2 := rk }
  v

/-- the range of the loop of switches/vanAlbada.cpp:7-35 -/
def vanAlbadaPressure_range (b : CBlk) (i j k : ℤ) : Prop :=
  b.ng ≤ i ∧ i < b.ni + b.ng - 1 ∧ b.ng ≤ j ∧ j < b.nj + b.ng - 1 ∧ b.ng ≤ k ∧ k < b.nk + b.ng - 1

/-- switches/vanAlbada.cpp:7-35 -/
noncomputable def vanAlbadaPressure (b : CBlk) (i j k : ℤ) (v : W) : W :=
  let p : ℝ := (b.q i j k 0)
  let pip : ℝ := (b.q (i + 1) j k 0)
  let pim : ℝ := (b.q (i - 1) j k 0)
  let pjp : ℝ := (b.q i (j + 1) k 0)
  let pjm : ℝ := (b.q i (j - 1) k 0)
  let pkp : ℝ := (b.q i j (k + 1) 0)
  let pkm : ℝ := (b.q i j (k - 1) 0)
  let ri : ℝ := (((p - pim) + (1 / 10000000000000000)) / ((pip - p) + (1 / 10000000000000000)))
  let v : W := { v with phi_0 := (1 - ((ri + |ri|) / (1 + (ri ^ 2)))) }
  let rj : ℝ := (((p - pjm) + (1 / 10000000000000000)) / ((pjp - p) + (1 / 10000000000000000)))
  let v : W := { v with phi_1 := (1 - ((rj + |rj|) / (1 + (rj ^ 2)))) }
  let rk : ℝ := (((p - pkm) + (1 / 10000000000000000)) / ((pkp - p) + (1 / 10000000000000000)))
  let v : W := { v with phi_2 := (1 - ((rk + |rk|) / (1 + (rk ^ 2)))) }
  v

/-- the range of the loop of switches/vanLeer.cpp:7-43 -/
def vanLeer_range (b : CBlk) (i j k : ℤ) : Prop :=
  b.ng ≤ i ∧ i < b.ni + b.ng - 1 ∧ b.ng ≤ j ∧ j < b.nj + b.ng - 1 ∧ b.ng ≤ k ∧ k < b.nk + b.ng - 1

/-- switches/vanLeer.cpp:7-43 -/
noncomputable def vanLeer (b : CBlk) (i j k : ℤ) (v : W) : W :=
  let eps : ℝ := (1 / 1000)
  let p : ℝ := (b.q i j k 0)
  let pip : ℝ := (b.q (i + 1) j k 0)
  let pim : ℝ := (b.q (i - 1) j k 0)
  let pjp : ℝ := (b.q i (j + 1) k 0)
  let pjm : ℝ := (b.q i (j - 1) k 0)
  let pkp : ℝ := (b.q i j (k + 1) 0)
  let pkm : ℝ := (b.q i j (k - 1) 0)
  let ri : ℝ := (|((pip - (2 * p)) + pim)| / (((1 - eps) * (|(pip - p)| + |(p - pim)|)) + (eps * ((pip + (2 * p)) + pim))))
  let v : W := { v with phi_0 := ri }
  let rj : ℝ := (|((pjp - (2 * p)) + pjm)| / (((1 - eps) * (|(pjp - p)| + |(p - pjm)|)) + (eps * ((pjp + (2 * p)) + pjm))))
  let v : W := { v with phi_1 := rj }
  let rk : ℝ := (|((pkp - (2 * p)) + pkm)| / (((1 - eps) * (|(pkp - p)| + |(p - pkm)|)) + (eps * ((pkp + (2 * p)) + pkm))))
  let v : W := { v with phi_2 := rk }
  v

/-- the range of the loop of utils/viscousSponge.cpp:6-39 -/
def viscousSponge_range (b : CBlk) (i j k : ℤ) : Prop :=
  b.ng - 1 ≤ i ∧ i < b.ni + b.ng ∧ b.ng - 1 ≤ j ∧ j < b.nj + b.ng ∧ b.ng - 1 ≤ k ∧ k < b.nk + b.ng

/-- utils/viscousSponge.cpp:6-39 -/
noncomputable def viscousSponge (b : CBlk) (origin_0 origin_1 origin_2 ending_0 ending_1 ending_2 mult : ℝ) (i j k : ℤ) (v : W) : W :=
  let xc : ℝ := (b.xc i j k)
  let yc : ℝ := (b.yc i j k)
  let zc : ℝ := (b.zc i j k)
  let vectorX : ℝ := (xc - origin_0)
  let vectorY : ℝ := (yc - origin_1)
  let vectorZ : ℝ := (zc - origin_2)
  let spongeLength : ℝ := (Real.sqrt ((((ending_0 - origin_0) ^ 2) + ((ending_1 - origin_1) ^ 2)) + ((ending_2 - origin_2) ^ 2)))
  let normal_0 : ℝ := ((ending_0 - origin_0) / spongeLength)
  let normal_1 : ℝ := ((ending_1 - origin_1) / spongeLength)
  let normal_2 : ℝ := ((ending_2 - origin_2) / spongeLength)
  let dist : ℝ := (((vectorX * normal_0) + (vectorY * normal_1)) + (vectorZ * normal_2))
  let multiplier : ℝ := ((dist / spongeLength) * (mult - 1))
  let multiplier : ℝ := (1 + (min (max 0 multiplier) mult))
  let v : W := { v with qt_0 := (v.qt_0 * multiplier) }
  v

end PG.Text.Cell
