import Verif.Flux.Model
/-
Generated by tools/mktext.py from the text of the convective flux kernels; do not edit. Each definition is the body of one parallel loop,
statement by statement: what the loop leaves in the components of the flux array at (i,j,k), given what it held before (`F`).
Doubles are reals; `fmax`, `fmin`, `abs`, `sqrt` and integer powers are those of the reals.
-/
namespace PG.Text
open PG.Flux (FluxV)

/-- a component of a block's face data, by cell index -/
abbrev Arr := ℤ → ℤ → ℤ → ℝ
/-- a field of a block with components -/
abbrev Arr4 := ℤ → ℤ → ℤ → ℕ → ℝ

/-- what the flux kernels read of a block (block_.hpp) -/
structure Blk where
  ne : ℕ
  q : Arr4
  Q : Arr4
  qh : Arr4
  phi : Arr4
  isx : Arr
  isy : Arr
  isz : Arr
  inx : Arr
  iny : Arr
  inz : Arr
  iS : Arr
  jsx : Arr
  jsy : Arr
  jsz : Arr
  jnx : Arr
  jny : Arr
  jnz : Arr
  jS : Arr
  ksx : Arr
  ksy : Arr
  ksz : Arr
  knx : Arr
  kny : Arr
  knz : Arr
  kS : Arr

/-- store into one component -/
def set (F : FluxV) (c : ℕ) (x : ℝ) : FluxV := fun m => if m = c then x else F m

/-- advFlux/KEEP.cpp:8-78 -/
noncomputable def KEEP_computeFlux (b : Blk) (isx isy isz : Arr) (iMod jMod kMod i j k : ℤ) (F : FluxV) : FluxV :=
  let uf : ℝ := ((1 / 2) * ((b.q i j k 1) + (b.q (i - iMod) (j - jMod) (k - kMod) 1)))
  let vf : ℝ := ((1 / 2) * ((b.q i j k 2) + (b.q (i - iMod) (j - jMod) (k - kMod) 2)))
  let wf : ℝ := ((1 / 2) * ((b.q i j k 3) + (b.q (i - iMod) (j - jMod) (k - kMod) 3)))
  let U : ℝ := ((((isx i j k) * uf) + ((isy i j k) * vf)) + ((isz i j k) * wf))
  let pf : ℝ := ((1 / 2) * ((b.q i j k 0) + (b.q (i - iMod) (j - jMod) (k - kMod) 0)))
  let rho : ℝ := ((1 / 2) * ((b.Q i j k 0) + (b.Q (i - iMod) (j - jMod) (k - kMod) 0)))
  let C : ℝ := (rho * U)
  let F : FluxV := set F 0 C
  let F : FluxV := set F 1 ((C * uf) + (pf * (isx i j k)))
  let F : FluxV := set F 2 ((C * vf) + (pf * (isy i j k)))
  let F : FluxV := set F 3 ((C * wf) + (pf * (isz i j k)))
  let Kj : ℝ := ((C * (1 / 2)) * ((((b.q i j k 1) * (b.q (i - iMod) (j - jMod) (k - kMod) 1)) + ((b.q i j k 2) * (b.q (i - iMod) (j - jMod) (k - kMod) 2))) + ((b.q i j k 3) * (b.q (i - iMod) (j - jMod) (k - kMod) 3))))
  let Pj : ℝ := ((1 / 2) * (((b.q (i - iMod) (j - jMod) (k - kMod) 0) * ((((b.q i j k 1) * (isx i j k)) + ((b.q i j k 2) * (isy i j k))) + ((b.q i j k 3) * (isz i j k)))) + ((b.q i j k 0) * ((((b.q (i - iMod) (j - jMod) (k - kMod) 1) * (isx i j k)) + ((b.q (i - iMod) (j - jMod) (k - kMod) 2) * (isy i j k))) + ((b.q (i - iMod) (j - jMod) (k - kMod) 3) * (isz i j k))))))
  let e : ℝ := ((b.qh i j k 4) / (b.Q i j k 0))
  let em : ℝ := ((b.qh (i - iMod) (j - jMod) (k - kMod) 4) / (b.Q (i - iMod) (j - jMod) (k - kMod) 0))
  let Ij : ℝ := ((C * (1 / 2)) * (e + em))
  let F : FluxV := set F 4 ((Ij + Kj) + Pj)
  let F : FluxV := fun m => if 5 ≤ m ∧ m < b.ne then
      let n : ℕ := m - 5
      let F : FluxV := set F (5 + n) (((1 / 2) * ((b.q i j k (5 + n)) + (b.q (i - iMod) (j - jMod) (k - kMod) (5 + n)))) * C)
      F m
    else F m
  F

/-- advFlux/KEEP.cpp:81 -/
noncomputable def KEEP_iF (b : Blk) (i j k : ℤ) (F : FluxV) : FluxV :=
  KEEP_computeFlux b b.isx b.isy b.isz 1 0 0 i j k F

/-- advFlux/KEEP.cpp:82 -/
noncomputable def KEEP_jF (b : Blk) (i j k : ℤ) (F : FluxV) : FluxV :=
  KEEP_computeFlux b b.jsx b.jsy b.jsz 0 1 0 i j k F

/-- advFlux/KEEP.cpp:83 -/
noncomputable def KEEP_kF (b : Blk) (i j k : ℤ) (F : FluxV) : FluxV :=
  KEEP_computeFlux b b.ksx b.ksy b.ksz 0 0 1 i j k F

/-- advFlux/KEEPpe.cpp:8-77 -/
noncomputable def KEEPpe_computeFlux (b : Blk) (isx isy isz : Arr) (iMod jMod kMod i j k : ℤ) (F : FluxV) : FluxV :=
  let uf : ℝ := ((1 / 2) * ((b.q i j k 1) + (b.q (i - iMod) (j - jMod) (k - kMod) 1)))
  let vf : ℝ := ((1 / 2) * ((b.q i j k 2) + (b.q (i - iMod) (j - jMod) (k - kMod) 2)))
  let wf : ℝ := ((1 / 2) * ((b.q i j k 3) + (b.q (i - iMod) (j - jMod) (k - kMod) 3)))
  let U : ℝ := ((((isx i j k) * uf) + ((isy i j k) * vf)) + ((isz i j k) * wf))
  let pf : ℝ := ((1 / 2) * ((b.q i j k 0) + (b.q (i - iMod) (j - jMod) (k - kMod) 0)))
  let rho : ℝ := ((1 / 2) * ((b.Q i j k 0) + (b.Q (i - iMod) (j - jMod) (k - kMod) 0)))
  let C : ℝ := (rho * U)
  let F : FluxV := set F 0 C
  let F : FluxV := set F 1 ((C * uf) + (pf * (isx i j k)))
  let F : FluxV := set F 2 ((C * vf) + (pf * (isy i j k)))
  let F : FluxV := set F 3 ((C * wf) + (pf * (isz i j k)))
  let Kj : ℝ := ((C * (1 / 2)) * ((((b.q i j k 1) * (b.q (i - iMod) (j - jMod) (k - kMod) 1)) + ((b.q i j k 2) * (b.q (i - iMod) (j - jMod) (k - kMod) 2))) + ((b.q i j k 3) * (b.q (i - iMod) (j - jMod) (k - kMod) 3))))
  let Pj : ℝ := ((1 / 2) * (((b.q (i - iMod) (j - jMod) (k - kMod) 0) * ((((b.q i j k 1) * (isx i j k)) + ((b.q i j k 2) * (isy i j k))) + ((b.q i j k 3) * (isz i j k)))) + ((b.q i j k 0) * ((((b.q (i - iMod) (j - jMod) (k - kMod) 1) * (isx i j k)) + ((b.q (i - iMod) (j - jMod) (k - kMod) 2) * (isy i j k))) + ((b.q (i - iMod) (j - jMod) (k - kMod) 3) * (isz i j k))))))
  let e : ℝ := (b.qh i j k 4)
  let em : ℝ := (b.qh (i - iMod) (j - jMod) (k - kMod) 4)
  let Ij : ℝ := (((1 / 2) * (e + em)) * U)
  let F : FluxV := set F 4 ((Ij + Kj) + Pj)
  let F : FluxV := fun m => if 5 ≤ m ∧ m < b.ne then
      let n : ℕ := m - 5
      let F : FluxV := set F (5 + n) (((1 / 2) * ((b.q i j k (5 + n)) + (b.q (i - iMod) (j - jMod) (k - kMod) (5 + n)))) * C)
      F m
    else F m
  F

/-- advFlux/KEEPpe.cpp:80 -/
noncomputable def KEEPpe_iF (b : Blk) (i j k : ℤ) (F : FluxV) : FluxV :=
  KEEPpe_computeFlux b b.isx b.isy b.isz 1 0 0 i j k F

/-- advFlux/KEEPpe.cpp:81 -/
noncomputable def KEEPpe_jF (b : Blk) (i j k : ℤ) (F : FluxV) : FluxV :=
  KEEPpe_computeFlux b b.jsx b.jsy b.jsz 0 1 0 i j k F

/-- advFlux/KEEPpe.cpp:82 -/
noncomputable def KEEPpe_kF (b : Blk) (i j k : ℤ) (F : FluxV) : FluxV :=
  KEEPpe_computeFlux b b.ksx b.ksy b.ksz 0 0 1 i j k F

/-- advFlux/KEPaEC.cpp:6-78 -/
noncomputable def KEPaEC_computeFlux (b : Blk) (isx isy isz : Arr) (iMod jMod kMod i j k : ℤ) (F : FluxV) : FluxV :=
  let uf : ℝ := ((1 / 2) * ((b.q i j k 1) + (b.q (i - iMod) (j - jMod) (k - kMod) 1)))
  let vf : ℝ := ((1 / 2) * ((b.q i j k 2) + (b.q (i - iMod) (j - jMod) (k - kMod) 2)))
  let wf : ℝ := ((1 / 2) * ((b.q i j k 3) + (b.q (i - iMod) (j - jMod) (k - kMod) 3)))
  let U : ℝ := ((((isx i j k) * uf) + ((isy i j k) * vf)) + ((isz i j k) * wf))
  let pf : ℝ := ((1 / 2) * ((b.q i j k 0) + (b.q (i - iMod) (j - jMod) (k - kMod) 0)))
  let rho : ℝ := ((1 / 2) * ((b.Q i j k 0) + (b.Q (i - iMod) (j - jMod) (k - kMod) 0)))
  let C : ℝ := (rho * U)
  let F : FluxV := set F 0 C
  let F : FluxV := set F 1 ((C * uf) + (pf * (isx i j k)))
  let F : FluxV := set F 2 ((C * vf) + (pf * (isy i j k)))
  let F : FluxV := set F 3 ((C * wf) + (pf * (isz i j k)))
  let Kj : ℝ := ((C * (1 / 2)) * ((((b.q i j k 1) * (b.q (i - iMod) (j - jMod) (k - kMod) 1)) + ((b.q i j k 2) * (b.q (i - iMod) (j - jMod) (k - kMod) 2))) + ((b.q i j k 3) * (b.q (i - iMod) (j - jMod) (k - kMod) 3))))
  let Pj : ℝ := ((1 / 2) * (((b.q (i - iMod) (j - jMod) (k - kMod) 0) * ((((b.q i j k 1) * (isx i j k)) + ((b.q i j k 2) * (isy i j k))) + ((b.q i j k 3) * (isz i j k)))) + ((b.q i j k 0) * ((((b.q (i - iMod) (j - jMod) (k - kMod) 1) * (isx i j k)) + ((b.q (i - iMod) (j - jMod) (k - kMod) 2) * (isy i j k))) + ((b.q (i - iMod) (j - jMod) (k - kMod) 3) * (isz i j k))))))
  let eR : ℝ := ((b.qh i j k 4) / (b.Q i j k 0))
  let eL : ℝ := ((b.qh (i - iMod) (j - jMod) (k - kMod) 4) / (b.Q (i - iMod) (j - jMod) (k - kMod) 0))
  let Ij : ℝ := (((2 * (eL * eR)) / (eL + eR)) * C)
  let F : FluxV := set F 4 ((Ij + Kj) + Pj)
  let F : FluxV := fun m => if 5 ≤ m ∧ m < b.ne then
      let n : ℕ := m - 5
      let F : FluxV := set F (5 + n) (((1 / 2) * ((b.q i j k (5 + n)) + (b.q (i - iMod) (j - jMod) (k - kMod) (5 + n)))) * C)
      F m
    else F m
  F

/-- advFlux/KEPaEC.cpp:81 -/
noncomputable def KEPaEC_iF (b : Blk) (i j k : ℤ) (F : FluxV) : FluxV :=
  KEPaEC_computeFlux b b.isx b.isy b.isz 1 0 0 i j k F

/-- advFlux/KEPaEC.cpp:82 -/
noncomputable def KEPaEC_jF (b : Blk) (i j k : ℤ) (F : FluxV) : FluxV :=
  KEPaEC_computeFlux b b.jsx b.jsy b.jsz 0 1 0 i j k F

/-- advFlux/KEPaEC.cpp:83 -/
noncomputable def KEPaEC_kF (b : Blk) (i j k : ℤ) (F : FluxV) : FluxV :=
  KEPaEC_computeFlux b b.ksx b.ksy b.ksz 0 0 1 i j k F

/-- advFlux/centralDifference.cpp:8-71 -/
noncomputable def centralDifference_computeFlux (b : Blk) (isx isy isz : Arr) (iMod jMod kMod i j k : ℤ) (F : FluxV) : FluxV :=
  let uR : ℝ := (b.q i j k 1)
  let uL : ℝ := (b.q (i - iMod) (j - jMod) (k - kMod) 1)
  let vR : ℝ := (b.q i j k 2)
  let vL : ℝ := (b.q (i - iMod) (j - jMod) (k - kMod) 2)
  let wR : ℝ := (b.q i j k 3)
  let wL : ℝ := (b.q (i - iMod) (j - jMod) (k - kMod) 3)
  let UfR : ℝ := (((uR * (isx i j k)) + (vR * (isy i j k))) + (wR * (isz i j k)))
  let UfL : ℝ := (((uL * (isx i j k)) + (vL * (isy i j k))) + (wL * (isz i j k)))
  let pR : ℝ := (b.q i j k 0)
  let pL : ℝ := (b.q (i - iMod) (j - jMod) (k - kMod) 0)
  let rhouR : ℝ := (b.Q i j k 1)
  let rhovR : ℝ := (b.Q i j k 2)
  let rhowR : ℝ := (b.Q i j k 3)
  let rhouL : ℝ := (b.Q (i - iMod) (j - jMod) (k - kMod) 1)
  let rhovL : ℝ := (b.Q (i - iMod) (j - jMod) (k - kMod) 2)
  let rhowL : ℝ := (b.Q (i - iMod) (j - jMod) (k - kMod) 3)
  let CjR : ℝ := ((((isx i j k) * rhouR) + ((isy i j k) * rhovR)) + ((isz i j k) * rhowR))
  let CjL : ℝ := ((((isx i j k) * rhouL) + ((isy i j k) * rhovL)) + ((isz i j k) * rhowL))
  let F : FluxV := set F 0 ((1 / 2) * (CjR + CjL))
  let F : FluxV := set F 1 ((1 / 2) * ((((rhouR * UfR) + (pR * (isx i j k))) + (rhouL * UfL)) + (pL * (isx i j k))))
  let F : FluxV := set F 2 ((1 / 2) * ((((rhovR * UfR) + (pR * (isy i j k))) + (rhovL * UfL)) + (pL * (isy i j k))))
  let F : FluxV := set F 3 ((1 / 2) * ((((rhowR * UfR) + (pR * (isz i j k))) + (rhowL * UfL)) + (pL * (isz i j k))))
  let rhoER : ℝ := (b.Q i j k 4)
  let rhoEL : ℝ := (b.Q (i - iMod) (j - jMod) (k - kMod) 4)
  let F : FluxV := set F 4 ((1 / 2) * (((rhoER + pR) * UfR) + ((rhoEL + pL) * UfL)))
  let F : FluxV := fun m => if 5 ≤ m ∧ m < b.ne then
      let n : ℕ := m - 5
      let F : FluxV := set F (5 + n) ((1 / 2) * (((b.Q i j k (5 + n)) * UfR) + ((b.Q (i - iMod) (j - jMod) (k - kMod) (5 + n)) * UfL)))
      F m
    else F m
  F

/-- advFlux/centralDifference.cpp:74 -/
noncomputable def centralDifference_iF (b : Blk) (i j k : ℤ) (F : FluxV) : FluxV :=
  centralDifference_computeFlux b b.isx b.isy b.isz 1 0 0 i j k F

/-- advFlux/centralDifference.cpp:75 -/
noncomputable def centralDifference_jF (b : Blk) (i j k : ℤ) (F : FluxV) : FluxV :=
  centralDifference_computeFlux b b.jsx b.jsy b.jsz 0 1 0 i j k F

/-- advFlux/centralDifference.cpp:76 -/
noncomputable def centralDifference_kF (b : Blk) (i j k : ℤ) (F : FluxV) : FluxV :=
  centralDifference_computeFlux b b.ksx b.ksy b.ksz 0 0 1 i j k F

/-- advFlux/rusanov.cpp:10-88 -/
noncomputable def rusanov_computeFlux (b : Blk) (iS isx isy isz inx iny inz : Arr) (iMod jMod kMod i j k : ℤ) (F : FluxV) : FluxV :=
  let ufR : ℝ := (b.q i j k 1)
  let vfR : ℝ := (b.q i j k 2)
  let wfR : ℝ := (b.q i j k 3)
  let ufL : ℝ := (b.q (i - iMod) (j - jMod) (k - kMod) 1)
  let vfL : ℝ := (b.q (i - iMod) (j - jMod) (k - kMod) 2)
  let wfL : ℝ := (b.q (i - iMod) (j - jMod) (k - kMod) 3)
  let UR : ℝ := ((((inx i j k) * ufR) + ((iny i j k) * vfR)) + ((inz i j k) * wfR))
  let UL : ℝ := ((((inx i j k) * ufL) + ((iny i j k) * vfL)) + ((inz i j k) * wfL))
  let rhoR : ℝ := (b.Q i j k 0)
  let rhoL : ℝ := (b.Q (i - iMod) (j - jMod) (k - kMod) 0)
  let pR : ℝ := (b.q i j k 0)
  let pL : ℝ := (b.q (i - iMod) (j - jMod) (k - kMod) 0)
  let ER : ℝ := (b.Q i j k 4)
  let EL : ℝ := (b.Q (i - iMod) (j - jMod) (k - kMod) 4)
  let lam : ℝ := ((max (|UL| + (b.qh i j k 3)) (|UR| + (b.qh (i - iMod) (j - jMod) (k - kMod) 3))) * (iS i j k))
  let UR : ℝ := (UR * (iS i j k))
  let UL : ℝ := (UL * (iS i j k))
  let FrhoR : ℝ := (UR * rhoR)
  let FrhoL : ℝ := (UL * rhoL)
  let F : FluxV := set F 0 ((1 / 2) * ((FrhoR + FrhoL) - (lam * (rhoR - rhoL))))
  let FUR : ℝ := (((UR * ufR) * rhoR) + (pR * (isx i j k)))
  let FUL : ℝ := (((UL * ufL) * rhoL) + (pL * (isx i j k)))
  let F : FluxV := set F 1 ((1 / 2) * ((FUR + FUL) - (lam * ((rhoR * ufR) - (rhoL * ufL)))))
  let FUR : ℝ := (((UR * vfR) * rhoR) + (pR * (isy i j k)))
  let FUL : ℝ := (((UL * vfL) * rhoL) + (pL * (isy i j k)))
  let F : FluxV := set F 2 ((1 / 2) * ((FUR + FUL) - (lam * ((rhoR * vfR) - (rhoL * vfL)))))
  let FUR : ℝ := (((UR * wfR) * rhoR) + (pR * (isz i j k)))
  let FUL : ℝ := (((UL * wfL) * rhoL) + (pL * (isz i j k)))
  let F : FluxV := set F 3 ((1 / 2) * ((FUR + FUL) - (lam * ((rhoR * wfR) - (rhoL * wfL)))))
  let FER : ℝ := (UR * (ER + pR))
  let FEL : ℝ := (UL * (EL + pL))
  let F : FluxV := set F 4 ((1 / 2) * ((FER + FEL) - (lam * (ER - EL))))
  let F : FluxV := fun m => if 5 ≤ m ∧ m < b.ne then
      let n : ℕ := m - 5
      let FYiR : ℝ := ((b.Q i j k (5 + n)) * UR)
      let FYiL : ℝ := ((b.Q (i - iMod) (j - jMod) (k - kMod) (5 + n)) * UL)
      let YiR : ℝ := (b.Q i j k (5 + n))
      let YiL : ℝ := (b.Q (i - iMod) (j - jMod) (k - kMod) (5 + n))
      let F : FluxV := set F (5 + n) ((1 / 2) * ((FYiR + FYiL) - (lam * (YiR - YiL))))
      F m
    else F m
  F

/-- advFlux/rusanov.cpp:91 -/
noncomputable def rusanov_iF (b : Blk) (i j k : ℤ) (F : FluxV) : FluxV :=
  rusanov_computeFlux b b.iS b.isx b.isy b.isz b.inx b.iny b.inz 1 0 0 i j k F

/-- advFlux/rusanov.cpp:92 -/
noncomputable def rusanov_jF (b : Blk) (i j k : ℤ) (F : FluxV) : FluxV :=
  rusanov_computeFlux b b.jS b.jsx b.jsy b.jsz b.jnx b.jny b.jnz 0 1 0 i j k F

/-- advFlux/rusanov.cpp:93 -/
noncomputable def rusanov_kF (b : Blk) (i j k : ℤ) (F : FluxV) : FluxV :=
  rusanov_computeFlux b b.kS b.ksx b.ksy b.ksz b.knx b.kny b.knz 0 0 1 i j k F

/-- advFlux/hllc.cpp:10-149 -/
noncomputable def hllc_computeFlux (b : Blk) (iS isx isy isz inx iny inz : Arr) (iMod jMod kMod i j k : ℤ) (F : FluxV) : FluxV :=
  let ufR : ℝ := (b.q i j k 1)
  let vfR : ℝ := (b.q i j k 2)
  let wfR : ℝ := (b.q i j k 3)
  let ufL : ℝ := (b.q (i - iMod) (j - jMod) (k - kMod) 1)
  let vfL : ℝ := (b.q (i - iMod) (j - jMod) (k - kMod) 2)
  let wfL : ℝ := (b.q (i - iMod) (j - jMod) (k - kMod) 3)
  let nx : ℝ := (inx i j k)
  let ny : ℝ := (iny i j k)
  let nz : ℝ := (inz i j k)
  let UR : ℝ := (((nx * ufR) + (ny * vfR)) + (nz * wfR))
  let UL : ℝ := (((nx * ufL) + (ny * vfL)) + (nz * wfL))
  let rhoR : ℝ := (b.Q i j k 0)
  let rhoL : ℝ := (b.Q (i - iMod) (j - jMod) (k - kMod) 0)
  let rhouR : ℝ := (b.Q i j k 1)
  let rhouL : ℝ := (b.Q (i - iMod) (j - jMod) (k - kMod) 1)
  let rhovR : ℝ := (b.Q i j k 2)
  let rhovL : ℝ := (b.Q (i - iMod) (j - jMod) (k - kMod) 2)
  let rhowR : ℝ := (b.Q i j k 3)
  let rhowL : ℝ := (b.Q (i - iMod) (j - jMod) (k - kMod) 3)
  let pR : ℝ := (b.q i j k 0)
  let pL : ℝ := (b.q (i - iMod) (j - jMod) (k - kMod) 0)
  let ER : ℝ := (b.Q i j k 4)
  let EL : ℝ := (b.Q (i - iMod) (j - jMod) (k - kMod) 4)
  let cR : ℝ := (b.qh i j k 3)
  let cL : ℝ := (b.qh (i - iMod) (j - jMod) (k - kMod) 3)
  let pstar : ℝ := (((1 / 2) * (pL + pR)) - ((((((1 / 2) * (UR - UL)) * (1 / 2)) * (rhoL + rhoR)) * (1 / 2)) * (cL + cR)))
  let pstar : ℝ := (max 0 pstar)
  let SL : ℝ := (UL - cL)
  let SR : ℝ := (UR + cR)
  let Sstar : ℝ := ((((pR - pL) + ((rhoL * UL) * (SL - UL))) - ((rhoR * UR) * (SR - UR))) / ((rhoL * (SL - UL)) - (rhoR * (SR - UR))))
  let F' : FluxV := if SL ≥ 0 then
        let F : FluxV := set F 0 ((UL * rhoL) * (iS i j k))
        let F : FluxV := set F 1 (((UL * rhouL) * (iS i j k)) + (pL * (isx i j k)))
        let F : FluxV := set F 2 (((UL * rhovL) * (iS i j k)) + (pL * (isy i j k)))
        let F : FluxV := set F 3 (((UL * rhowL) * (iS i j k)) + (pL * (isz i j k)))
        let F : FluxV := set F 4 ((UL * (EL + pL)) * (iS i j k))
        let F : FluxV := fun m => if 5 ≤ m ∧ m < b.ne then
            let n : ℕ := m - 5
            let rhoYiL : ℝ := (b.Q (i - iMod) (j - jMod) (k - kMod) (5 + n))
            let F : FluxV := set F (5 + n) ((UL * rhoYiL) * (iS i j k))
            F m
          else F m
        F
      else
        let F' : FluxV := if (SL ≤ 0 ∧ Sstar ≥ 0) then
              let FrhoL : ℝ := ((UL * rhoL) * (iS i j k))
              let FUL : ℝ := (((UL * rhouL) * (iS i j k)) + (pL * (isx i j k)))
              let FVL : ℝ := (((UL * rhovL) * (iS i j k)) + (pL * (isy i j k)))
              let FWL : ℝ := (((UL * rhowL) * (iS i j k)) + (pL * (isz i j k)))
              let FEL : ℝ := ((UL * (EL + pL)) * (iS i j k))
              let UstarL : ℝ := ((rhoL * (SL - UL)) / (SL - Sstar))
              let F : FluxV := set F 0 (FrhoL + ((SL * (UstarL - rhoL)) * (iS i j k)))
              let F : FluxV := set F 1 (FUL + ((SL * (((UstarL * Sstar) * nx) - rhouL)) * (iS i j k)))
              let F : FluxV := set F 2 (FVL + ((SL * (((UstarL * Sstar) * ny) - rhovL)) * (iS i j k)))
              let F : FluxV := set F 3 (FWL + ((SL * (((UstarL * Sstar) * nz) - rhowL)) * (iS i j k)))
              let F : FluxV := set F 4 (FEL + ((SL * ((UstarL * ((EL / rhoL) + ((Sstar - UL) * (Sstar + (pL / (rhoL * (SL - UL))))))) - EL)) * (iS i j k)))
              let F : FluxV := fun m => if 5 ≤ m ∧ m < b.ne then
                  let n : ℕ := m - 5
                  let FYiL : ℝ := (((b.Q (i - iMod) (j - jMod) (k - kMod) (5 + n)) * UL) * (iS i j k))
                  let YiL : ℝ := (b.q (i - iMod) (j - jMod) (k - kMod) (5 + n))
                  let rhoYiL : ℝ := (b.Q (i - iMod) (j - jMod) (k - kMod) (5 + n))
                  let F : FluxV := set F (5 + n) (FYiL + ((SL * ((UstarL * YiL) - rhoYiL)) * (iS i j k)))
                  F m
                else F m
              F
            else
              let F' : FluxV := if (SR ≥ 0 ∧ Sstar ≤ 0) then
                    let FrhoR : ℝ := ((UR * rhoR) * (iS i j k))
                    let FUR : ℝ := (((UR * rhouR) * (iS i j k)) + (pR * (isx i j k)))
                    let FVR : ℝ := (((UR * rhovR) * (iS i j k)) + (pR * (isy i j k)))
                    let FWR : ℝ := (((UR * rhowR) * (iS i j k)) + (pR * (isz i j k)))
                    let FER : ℝ := ((UR * (ER + pR)) * (iS i j k))
                    let UstarR : ℝ := ((rhoR * (SR - UR)) / (SR - Sstar))
                    let F : FluxV := set F 0 (FrhoR + ((SR * (UstarR - rhoR)) * (iS i j k)))
                    let F : FluxV := set F 1 (FUR + ((SR * (((UstarR * Sstar) * nx) - rhouR)) * (iS i j k)))
                    let F : FluxV := set F 2 (FVR + ((SR * (((UstarR * Sstar) * ny) - rhovR)) * (iS i j k)))
                    let F : FluxV := set F 3 (FWR + ((SR * (((UstarR * Sstar) * nz) - rhowR)) * (iS i j k)))
                    let F : FluxV := set F 4 (FER + ((SR * ((UstarR * ((ER / rhoR) + ((Sstar - UR) * (Sstar + (pR / (rhoR * (SR - UR))))))) - ER)) * (iS i j k)))
                    let F : FluxV := fun m => if 5 ≤ m ∧ m < b.ne then
                        let n : ℕ := m - 5
                        let FYiR : ℝ := (((b.Q i j k (5 + n)) * UR) * (iS i j k))
                        let YiR : ℝ := (b.q i j k (5 + n))
                        let rhoYiR : ℝ := (b.Q i j k (5 + n))
                        let F : FluxV := set F (5 + n) (FYiR + ((SR * ((UstarR * YiR) - rhoYiR)) * (iS i j k)))
                        F m
                      else F m
                    F
                  else
                    let F' : FluxV := if SR ≤ 0 then
                          let F : FluxV := set F 0 ((UR * rhoR) * (iS i j k))
                          let F : FluxV := set F 1 (((UR * rhouR) * (iS i j k)) + (pR * (isx i j k)))
                          let F : FluxV := set F 2 (((UR * rhovR) * (iS i j k)) + (pR * (isy i j k)))
                          let F : FluxV := set F 3 (((UR * rhowR) * (iS i j k)) + (pR * (isz i j k)))
                          let F : FluxV := set F 4 ((UR * (ER + pR)) * (iS i j k))
                          let F : FluxV := fun m => if 5 ≤ m ∧ m < b.ne then
                              let n : ℕ := m - 5
                              let rhoYiR : ℝ := (b.Q i j k (5 + n))
                              let F : FluxV := set F (5 + n) ((UR * rhoYiR) * (iS i j k))
                              F m
                            else F m
                          F
                        else
                          F
                    let F : FluxV := F'
                    F
              let F : FluxV := F'
              F
        let F : FluxV := F'
        F
  let F : FluxV := F'
  F

/-- advFlux/hllc.cpp:152 -/
noncomputable def hllc_iF (b : Blk) (i j k : ℤ) (F : FluxV) : FluxV :=
  hllc_computeFlux b b.iS b.isx b.isy b.isz b.inx b.iny b.inz 1 0 0 i j k F

/-- advFlux/hllc.cpp:153 -/
noncomputable def hllc_jF (b : Blk) (i j k : ℤ) (F : FluxV) : FluxV :=
  hllc_computeFlux b b.jS b.jsx b.jsy b.jsz b.jnx b.jny b.jnz 0 1 0 i j k F

/-- advFlux/hllc.cpp:154 -/
noncomputable def hllc_kF (b : Blk) (i j k : ℤ) (F : FluxV) : FluxV :=
  hllc_computeFlux b b.kS b.ksx b.ksy b.ksz b.knx b.kny b.knz 0 0 1 i j k F

/-- advFlux/scalarDissipation.cpp:11-104 -/
noncomputable def scalarDissipation_computeFlux (b : Blk) (iS isx isy isz inx iny inz : Arr) (iMod jMod kMod i j k : ℤ) (F : FluxV) : FluxV :=
  let kappa2 : ℝ := (1 / 2)
  let kappa4 : ℝ := (1 / 200)
  let phiIndex : ℤ := ((((iMod - 1) * iMod) + (jMod * jMod)) + ((kMod + 1) * kMod))
  let eps2 : ℝ := (kappa2 * (max (b.phi i j k (Int.toNat phiIndex)) (b.phi (i - iMod) (j - jMod) (k - kMod) (Int.toNat phiIndex))))
  let eps4 : ℝ := (max 0 (kappa4 - eps2))
  let uf : ℝ := ((1 / 2) * ((b.q i j k 1) + (b.q (i - iMod) (j - jMod) (k - kMod) 1)))
  let vf : ℝ := ((1 / 2) * ((b.q i j k 2) + (b.q (i - iMod) (j - jMod) (k - kMod) 2)))
  let wf : ℝ := ((1 / 2) * ((b.q i j k 3) + (b.q (i - iMod) (j - jMod) (k - kMod) 3)))
  let U : ℝ := ((((inx i j k) * uf) + ((iny i j k) * vf)) + ((inz i j k) * wf))
  let a : ℝ := ((|U| + ((1 / 2) * ((b.qh i j k 3) + (b.qh (i - iMod) (j - jMod) (k - kMod) 3)))) * (iS i j k))
  let rho2 : ℝ := ((b.Q i j k 0) - (b.Q (i - iMod) (j - jMod) (k - kMod) 0))
  let rho4 : ℝ := ((((b.Q (i + 1) j k 0) - (3 * (b.Q i j k 0))) + (3 * (b.Q (i - iMod) (j - jMod) (k - kMod) 0))) - (b.Q (i - (iMod * 2)) (j - (jMod * 2)) (k - (kMod * 2)) 0))
  let F : FluxV := set F 0 (a * ((eps2 * rho2) - (eps4 * rho4)))
  let u2 : ℝ := ((b.Q i j k 1) - (b.Q (i - iMod) (j - jMod) (k - kMod) 1))
  let u4 : ℝ := ((((b.Q (i + 1) j k 1) - (3 * (b.Q i j k 1))) + (3 * (b.Q (i - iMod) (j - jMod) (k - kMod) 1))) - (b.Q (i - (iMod * 2)) (j - (jMod * 2)) (k - (kMod * 2)) 1))
  let F : FluxV := set F 1 (a * ((eps2 * u2) - (eps4 * u4)))
  let v2 : ℝ := ((b.Q i j k 2) - (b.Q (i - iMod) (j - jMod) (k - kMod) 2))
  let v4 : ℝ := ((((b.Q (i + 1) j k 2) - (3 * (b.Q i j k 2))) + (3 * (b.Q (i - iMod) (j - jMod) (k - kMod) 2))) - (b.Q (i - (iMod * 2)) (j - (jMod * 2)) (k - (kMod * 2)) 2))
  let F : FluxV := set F 2 (a * ((eps2 * v2) - (eps4 * v4)))
  let w2 : ℝ := ((b.Q i j k 3) - (b.Q (i - iMod) (j - jMod) (k - kMod) 3))
  let w4 : ℝ := ((((b.Q (i + 1) j k 3) - (3 * (b.Q i j k 3))) + (3 * (b.Q (i - iMod) (j - jMod) (k - kMod) 3))) - (b.Q (i - (iMod * 2)) (j - (jMod * 2)) (k - (kMod * 2)) 3))
  let F : FluxV := set F 3 (a * ((eps2 * w2) - (eps4 * w4)))
  let e2 : ℝ := ((b.Q i j k 4) - (b.Q (i - iMod) (j - jMod) (k - kMod) 4))
  let e4 : ℝ := ((((b.Q (i + 1) j k 4) - (3 * (b.Q i j k 4))) + (3 * (b.Q (i - iMod) (j - jMod) (k - kMod) 4))) - (b.Q (i - (iMod * 2)) (j - (jMod * 2)) (k - (kMod * 2)) 4))
  let F : FluxV := set F 4 (a * ((eps2 * e2) - (eps4 * e4)))
  let F : FluxV := fun m => if 5 ≤ m ∧ m < b.ne then
      let n : ℕ := m - 5
      let Y2 : ℝ := ((b.Q i j k (5 + n)) - (b.Q (i - iMod) (j - jMod) (k - kMod) (5 + n)))
      let Y4 : ℝ := ((((b.Q (i + 1) j k (5 + n)) - (3 * (b.Q i j k (5 + n)))) + (3 * (b.Q (i - iMod) (j - jMod) (k - kMod) (5 + n)))) - (b.Q (i - (iMod * 2)) (j - (jMod * 2)) (k - (kMod * 2)) (5 + n)))
      let F : FluxV := set F (5 + n) (a * ((eps2 * Y2) - (eps4 * Y4)))
      F m
    else F m
  F

/-- advFlux/scalarDissipation.cpp:107 -/
noncomputable def scalarDissipation_iF (b : Blk) (i j k : ℤ) (F : FluxV) : FluxV :=
  scalarDissipation_computeFlux b b.iS b.isx b.isy b.isz b.inx b.iny b.inz 1 0 0 i j k F

/-- advFlux/scalarDissipation.cpp:108 -/
noncomputable def scalarDissipation_jF (b : Blk) (i j k : ℤ) (F : FluxV) : FluxV :=
  scalarDissipation_computeFlux b b.jS b.jsx b.jsy b.jsz b.jnx b.jny b.jnz 0 1 0 i j k F

/-- advFlux/scalarDissipation.cpp:109 -/
noncomputable def scalarDissipation_kF (b : Blk) (i j k : ℤ) (F : FluxV) : FluxV :=
  scalarDissipation_computeFlux b b.kS b.ksx b.ksy b.ksz b.knx b.kny b.knz 0 0 1 i j k F

/-- advFlux/fourthOrderKEEP.cpp:19-174 -/
noncomputable def fourthOrderKEEP_iF (b : Blk) (i j k : ℤ) (F : FluxV) : FluxV :=
  let aq_0 : ℝ := (2 / 3)
  let aq_1 : ℝ := ((-1) / 12)
  let uf : ℝ := 0
  let vf : ℝ := 0
  let wf : ℝ := 0
  let tempu : ℝ := 0
  let tempv : ℝ := 0
  let tempw : ℝ := 0
  let uR_0 : ℝ := ((1 / 2) * ((b.q i j k 1) + (b.q (i - 1) j k 1)))
  let vR_0 : ℝ := ((1 / 2) * ((b.q i j k 2) + (b.q (i - 1) j k 2)))
  let wR_0 : ℝ := ((1 / 2) * ((b.q i j k 3) + (b.q (i - 1) j k 3)))
  let tempu : ℝ := (tempu + uR_0)
  let tempv : ℝ := (tempv + vR_0)
  let tempw : ℝ := (tempw + wR_0)
  let a : ℝ := aq_0
  let uf : ℝ := (uf + (a * tempu))
  let vf : ℝ := (vf + (a * tempv))
  let wf : ℝ := (wf + (a * tempw))
  let tempu : ℝ := 0
  let tempv : ℝ := 0
  let tempw : ℝ := 0
  let uR_1 : ℝ := ((1 / 2) * ((b.q i j k 1) + (b.q (i - 2) j k 1)))
  let vR_1 : ℝ := ((1 / 2) * ((b.q i j k 2) + (b.q (i - 2) j k 2)))
  let wR_1 : ℝ := ((1 / 2) * ((b.q i j k 3) + (b.q (i - 2) j k 3)))
  let tempu : ℝ := (tempu + uR_1)
  let tempv : ℝ := (tempv + vR_1)
  let tempw : ℝ := (tempw + wR_1)
  let uR_2 : ℝ := ((1 / 2) * ((b.q (i + 1) j k 1) + (b.q (i - 1) j k 1)))
  let vR_2 : ℝ := ((1 / 2) * ((b.q (i + 1) j k 2) + (b.q (i - 1) j k 2)))
  let wR_2 : ℝ := ((1 / 2) * ((b.q (i + 1) j k 3) + (b.q (i - 1) j k 3)))
  let tempu : ℝ := (tempu + uR_2)
  let tempv : ℝ := (tempv + vR_2)
  let tempw : ℝ := (tempw + wR_2)
  let a : ℝ := aq_1
  let uf : ℝ := (uf + (a * tempu))
  let vf : ℝ := (vf + (a * tempv))
  let wf : ℝ := (wf + (a * tempw))
  let uf : ℝ := (uf * 2)
  let vf : ℝ := (vf * 2)
  let wf : ℝ := (wf * 2)
  let U : ℝ := ((((b.isx i j k) * uf) + ((b.isy i j k) * vf)) + ((b.isz i j k) * wf))
  let rho : ℝ := 0
  let temprho : ℝ := 0
  let a : ℝ := aq_0
  let temprho : ℝ := 0
  let rhoR_0 : ℝ := ((1 / 2) * ((b.Q i j k 0) + (b.Q (i - 1) j k 0)))
  let temprho : ℝ := (temprho + rhoR_0)
  let rho : ℝ := (rho + (a * temprho))
  let a : ℝ := aq_1
  let temprho : ℝ := 0
  let rhoR_1 : ℝ := ((1 / 2) * ((b.Q i j k 0) + (b.Q (i - 2) j k 0)))
  let temprho : ℝ := (temprho + rhoR_1)
  let rhoR_2 : ℝ := ((1 / 2) * ((b.Q (i + 1) j k 0) + (b.Q (i - 1) j k 0)))
  let temprho : ℝ := (temprho + rhoR_2)
  let rho : ℝ := (rho + (a * temprho))
  let rho : ℝ := (rho * 2)
  let F : FluxV := set F 0 (rho * U)
  let rhou : ℝ := 0
  let rhov : ℝ := 0
  let rhow : ℝ := 0
  let p : ℝ := 0
  let a : ℝ := aq_0
  let temprhou : ℝ := 0
  let temprhov : ℝ := 0
  let temprhow : ℝ := 0
  let tempp : ℝ := 0
  let temprhou : ℝ := (temprhou + (rhoR_0 * uR_0))
  let temprhov : ℝ := (temprhov + (rhoR_0 * vR_0))
  let temprhow : ℝ := (temprhow + (rhoR_0 * wR_0))
  let tempp : ℝ := (tempp + ((1 / 2) * ((b.q i j k 0) + (b.q (i - 1) j k 0))))
  let rhou : ℝ := (rhou + (a * temprhou))
  let rhov : ℝ := (rhov + (a * temprhov))
  let rhow : ℝ := (rhow + (a * temprhow))
  let p : ℝ := (p + (a * tempp))
  let a : ℝ := aq_1
  let temprhou : ℝ := 0
  let temprhov : ℝ := 0
  let temprhow : ℝ := 0
  let tempp : ℝ := 0
  let temprhou : ℝ := (temprhou + (rhoR_1 * uR_1))
  let temprhov : ℝ := (temprhov + (rhoR_1 * vR_1))
  let temprhow : ℝ := (temprhow + (rhoR_1 * wR_1))
  let tempp : ℝ := (tempp + ((1 / 2) * ((b.q i j k 0) + (b.q (i - 2) j k 0))))
  let temprhou : ℝ := (temprhou + (rhoR_2 * uR_2))
  let temprhov : ℝ := (temprhov + (rhoR_2 * vR_2))
  let temprhow : ℝ := (temprhow + (rhoR_2 * wR_2))
  let tempp : ℝ := (tempp + ((1 / 2) * ((b.q (i + 1) j k 0) + (b.q (i - 1) j k 0))))
  let rhou : ℝ := (rhou + (a * temprhou))
  let rhov : ℝ := (rhov + (a * temprhov))
  let rhow : ℝ := (rhow + (a * temprhow))
  let p : ℝ := (p + (a * tempp))
  let rhow : ℝ := (rhow * 2)
  let rhov : ℝ := (rhov * 2)
  let rhou : ℝ := (rhou * 2)
  let p : ℝ := (p * 2)
  let F : FluxV := set F 1 ((rhou * U) + (p * (b.isx i j k)))
  let F : FluxV := set F 2 ((rhov * U) + (p * (b.isy i j k)))
  let F : FluxV := set F 3 ((rhow * U) + (p * (b.isz i j k)))
  let rhoE : ℝ := 0
  let pu : ℝ := 0
  let a : ℝ := aq_0
  let temprhoE : ℝ := 0
  let temppu : ℝ := 0
  let e : ℝ := ((b.qh i j k 4) / (b.Q i j k 0))
  let em : ℝ := ((b.qh (i - 1) j k 4) / (b.Q (i - 1) j k 0))
  let temprhoE : ℝ := (temprhoE + (rhoR_0 * (((1 / 2) * (e + em)) + ((1 / 2) * ((((b.q i j k 1) * (b.q (i - 1) j k 1)) + ((b.q i j k 2) * (b.q (i - 1) j k 2))) + ((b.q i j k 3) * (b.q (i - 1) j k 3)))))))
  let temppu : ℝ := (temppu + ((1 / 2) * (((b.q (i - 1) j k 0) * ((((b.q i j k 1) * (b.isx i j k)) + ((b.q i j k 2) * (b.isy i j k))) + ((b.q i j k 3) * (b.isz i j k)))) + ((b.q i j k 0) * ((((b.q (i - 1) j k 1) * (b.isx i j k)) + ((b.q (i - 1) j k 2) * (b.isy i j k))) + ((b.q (i - 1) j k 3) * (b.isz i j k)))))))
  let rhoE : ℝ := (rhoE + (a * temprhoE))
  let pu : ℝ := (pu + (a * temppu))
  let a : ℝ := aq_1
  let temprhoE : ℝ := 0
  let temppu : ℝ := 0
  let e : ℝ := ((b.qh i j k 4) / (b.Q i j k 0))
  let em : ℝ := ((b.qh (i - 2) j k 4) / (b.Q (i - 2) j k 0))
  let temprhoE : ℝ := (temprhoE + (rhoR_1 * (((1 / 2) * (e + em)) + ((1 / 2) * ((((b.q i j k 1) * (b.q (i - 2) j k 1)) + ((b.q i j k 2) * (b.q (i - 2) j k 2))) + ((b.q i j k 3) * (b.q (i - 2) j k 3)))))))
  let temppu : ℝ := (temppu + ((1 / 2) * (((b.q (i - 2) j k 0) * ((((b.q i j k 1) * (b.isx i j k)) + ((b.q i j k 2) * (b.isy i j k))) + ((b.q i j k 3) * (b.isz i j k)))) + ((b.q i j k 0) * ((((b.q (i - 2) j k 1) * (b.isx i j k)) + ((b.q (i - 2) j k 2) * (b.isy i j k))) + ((b.q (i - 2) j k 3) * (b.isz i j k)))))))
  let e : ℝ := ((b.qh (i + 1) j k 4) / (b.Q (i + 1) j k 0))
  let em : ℝ := ((b.qh (i - 1) j k 4) / (b.Q (i - 1) j k 0))
  let temprhoE : ℝ := (temprhoE + (rhoR_2 * (((1 / 2) * (e + em)) + ((1 / 2) * ((((b.q (i + 1) j k 1) * (b.q (i - 1) j k 1)) + ((b.q (i + 1) j k 2) * (b.q (i - 1) j k 2))) + ((b.q (i + 1) j k 3) * (b.q (i - 1) j k 3)))))))
  let temppu : ℝ := (temppu + ((1 / 2) * (((b.q (i - 1) j k 0) * ((((b.q (i + 1) j k 1) * (b.isx i j k)) + ((b.q (i + 1) j k 2) * (b.isy i j k))) + ((b.q (i + 1) j k 3) * (b.isz i j k)))) + ((b.q (i + 1) j k 0) * ((((b.q (i - 1) j k 1) * (b.isx i j k)) + ((b.q (i - 1) j k 2) * (b.isy i j k))) + ((b.q (i - 1) j k 3) * (b.isz i j k)))))))
  let rhoE : ℝ := (rhoE + (a * temprhoE))
  let pu : ℝ := (pu + (a * temppu))
  let rhoE : ℝ := (rhoE * 2)
  let pu : ℝ := (pu * 2)
  let F : FluxV := set F 4 ((rhoE * U) + pu)
  let F : FluxV := fun m => if 5 ≤ m ∧ m < b.ne then
      let n : ℕ := m - 5
      let rhoY : ℝ := 0
      let temprhoY : ℝ := 0
      let a : ℝ := aq_0
      let temprhoY : ℝ := 0
      let temprhoY : ℝ := (temprhoY + ((rhoR_0 * (1 / 2)) * ((b.q i j k (5 + n)) + (b.q (i - 1) j k (5 + n)))))
      let rhoY : ℝ := (rhoY + (a * temprhoY))
      let a : ℝ := aq_1
      let temprhoY : ℝ := 0
      let temprhoY : ℝ := (temprhoY + ((rhoR_1 * (1 / 2)) * ((b.q i j k (5 + n)) + (b.q (i - 2) j k (5 + n)))))
      let temprhoY : ℝ := (temprhoY + ((rhoR_2 * (1 / 2)) * ((b.q (i + 1) j k (5 + n)) + (b.q (i - 1) j k (5 + n)))))
      let rhoY : ℝ := (rhoY + (a * temprhoY))
      let rhoY : ℝ := (rhoY * 2)
      let F : FluxV := set F (5 + n) (rhoY * U)
      F m
    else F m
  F

/-- advFlux/fourthOrderKEEP.cpp:187-342 -/
noncomputable def fourthOrderKEEP_jF (b : Blk) (i j k : ℤ) (F : FluxV) : FluxV :=
  let aq_0 : ℝ := (2 / 3)
  let aq_1 : ℝ := ((-1) / 12)
  let uf : ℝ := 0
  let vf : ℝ := 0
  let wf : ℝ := 0
  let tempu : ℝ := 0
  let tempv : ℝ := 0
  let tempw : ℝ := 0
  let uR_0 : ℝ := ((1 / 2) * ((b.q i j k 1) + (b.q i (j - 1) k 1)))
  let vR_0 : ℝ := ((1 / 2) * ((b.q i j k 2) + (b.q i (j - 1) k 2)))
  let wR_0 : ℝ := ((1 / 2) * ((b.q i j k 3) + (b.q i (j - 1) k 3)))
  let tempu : ℝ := (tempu + uR_0)
  let tempv : ℝ := (tempv + vR_0)
  let tempw : ℝ := (tempw + wR_0)
  let a : ℝ := aq_0
  let uf : ℝ := (uf + (a * tempu))
  let vf : ℝ := (vf + (a * tempv))
  let wf : ℝ := (wf + (a * tempw))
  let tempu : ℝ := 0
  let tempv : ℝ := 0
  let tempw : ℝ := 0
  let uR_1 : ℝ := ((1 / 2) * ((b.q i j k 1) + (b.q i (j - 2) k 1)))
  let vR_1 : ℝ := ((1 / 2) * ((b.q i j k 2) + (b.q i (j - 2) k 2)))
  let wR_1 : ℝ := ((1 / 2) * ((b.q i j k 3) + (b.q i (j - 2) k 3)))
  let tempu : ℝ := (tempu + uR_1)
  let tempv : ℝ := (tempv + vR_1)
  let tempw : ℝ := (tempw + wR_1)
  let uR_2 : ℝ := ((1 / 2) * ((b.q i (j + 1) k 1) + (b.q i (j - 1) k 1)))
  let vR_2 : ℝ := ((1 / 2) * ((b.q i (j + 1) k 2) + (b.q i (j - 1) k 2)))
  let wR_2 : ℝ := ((1 / 2) * ((b.q i (j + 1) k 3) + (b.q i (j - 1) k 3)))
  let tempu : ℝ := (tempu + uR_2)
  let tempv : ℝ := (tempv + vR_2)
  let tempw : ℝ := (tempw + wR_2)
  let a : ℝ := aq_1
  let uf : ℝ := (uf + (a * tempu))
  let vf : ℝ := (vf + (a * tempv))
  let wf : ℝ := (wf + (a * tempw))
  let uf : ℝ := (uf * 2)
  let vf : ℝ := (vf * 2)
  let wf : ℝ := (wf * 2)
  let V : ℝ := ((((b.jsx i j k) * uf) + ((b.jsy i j k) * vf)) + ((b.jsz i j k) * wf))
  let rho : ℝ := 0
  let temprho : ℝ := 0
  let a : ℝ := aq_0
  let temprho : ℝ := 0
  let rhoR_0 : ℝ := ((1 / 2) * ((b.Q i j k 0) + (b.Q i (j - 1) k 0)))
  let temprho : ℝ := (temprho + rhoR_0)
  let rho : ℝ := (rho + (a * temprho))
  let a : ℝ := aq_1
  let temprho : ℝ := 0
  let rhoR_1 : ℝ := ((1 / 2) * ((b.Q i j k 0) + (b.Q i (j - 2) k 0)))
  let temprho : ℝ := (temprho + rhoR_1)
  let rhoR_2 : ℝ := ((1 / 2) * ((b.Q i (j + 1) k 0) + (b.Q i (j - 1) k 0)))
  let temprho : ℝ := (temprho + rhoR_2)
  let rho : ℝ := (rho + (a * temprho))
  let rho : ℝ := (rho * 2)
  let F : FluxV := set F 0 (rho * V)
  let rhou : ℝ := 0
  let rhov : ℝ := 0
  let rhow : ℝ := 0
  let p : ℝ := 0
  let a : ℝ := aq_0
  let temprhou : ℝ := 0
  let temprhov : ℝ := 0
  let temprhow : ℝ := 0
  let tempp : ℝ := 0
  let temprhou : ℝ := (temprhou + (rhoR_0 * uR_0))
  let temprhov : ℝ := (temprhov + (rhoR_0 * vR_0))
  let temprhow : ℝ := (temprhow + (rhoR_0 * wR_0))
  let tempp : ℝ := (tempp + ((1 / 2) * ((b.q i j k 0) + (b.q i (j - 1) k 0))))
  let rhou : ℝ := (rhou + (a * temprhou))
  let rhov : ℝ := (rhov + (a * temprhov))
  let rhow : ℝ := (rhow + (a * temprhow))
  let p : ℝ := (p + (a * tempp))
  let a : ℝ := aq_1
  let temprhou : ℝ := 0
  let temprhov : ℝ := 0
  let temprhow : ℝ := 0
  let tempp : ℝ := 0
  let temprhou : ℝ := (temprhou + (rhoR_1 * uR_1))
  let temprhov : ℝ := (temprhov + (rhoR_1 * vR_1))
  let temprhow : ℝ := (temprhow + (rhoR_1 * wR_1))
  let tempp : ℝ := (tempp + ((1 / 2) * ((b.q i j k 0) + (b.q i (j - 2) k 0))))
  let temprhou : ℝ := (temprhou + (rhoR_2 * uR_2))
  let temprhov : ℝ := (temprhov + (rhoR_2 * vR_2))
  let temprhow : ℝ := (temprhow + (rhoR_2 * wR_2))
  let tempp : ℝ := (tempp + ((1 / 2) * ((b.q i (j + 1) k 0) + (b.q i (j - 1) k 0))))
  let rhou : ℝ := (rhou + (a * temprhou))
  let rhov : ℝ := (rhov + (a * temprhov))
  let rhow : ℝ := (rhow + (a * temprhow))
  let p : ℝ := (p + (a * tempp))
  let rhow : ℝ := (rhow * 2)
  let rhov : ℝ := (rhov * 2)
  let rhou : ℝ := (rhou * 2)
  let p : ℝ := (p * 2)
  let F : FluxV := set F 1 ((rhou * V) + (p * (b.jsx i j k)))
  let F : FluxV := set F 2 ((rhov * V) + (p * (b.jsy i j k)))
  let F : FluxV := set F 3 ((rhow * V) + (p * (b.jsz i j k)))
  let rhoE : ℝ := 0
  let pu : ℝ := 0
  let a : ℝ := aq_0
  let temprhoE : ℝ := 0
  let temppu : ℝ := 0
  let e : ℝ := ((b.qh i j k 4) / (b.Q i j k 0))
  let em : ℝ := ((b.qh i (j - 1) k 4) / (b.Q i (j - 1) k 0))
  let temprhoE : ℝ := (temprhoE + (rhoR_0 * (((1 / 2) * (e + em)) + ((1 / 2) * ((((b.q i j k 1) * (b.q i (j - 1) k 1)) + ((b.q i j k 2) * (b.q i (j - 1) k 2))) + ((b.q i j k 3) * (b.q i (j - 1) k 3)))))))
  let temppu : ℝ := (temppu + ((1 / 2) * (((b.q i (j - 1) k 0) * ((((b.q i j k 1) * (b.jsx i j k)) + ((b.q i j k 2) * (b.jsy i j k))) + ((b.q i j k 3) * (b.jsz i j k)))) + ((b.q i j k 0) * ((((b.q i (j - 1) k 1) * (b.jsx i j k)) + ((b.q i (j - 1) k 2) * (b.jsy i j k))) + ((b.q i (j - 1) k 3) * (b.jsz i j k)))))))
  let rhoE : ℝ := (rhoE + (a * temprhoE))
  let pu : ℝ := (pu + (a * temppu))
  let a : ℝ := aq_1
  let temprhoE : ℝ := 0
  let temppu : ℝ := 0
  let e : ℝ := ((b.qh i j k 4) / (b.Q i j k 0))
  let em : ℝ := ((b.qh i (j - 2) k 4) / (b.Q i (j - 2) k 0))
  let temprhoE : ℝ := (temprhoE + (rhoR_1 * (((1 / 2) * (e + em)) + ((1 / 2) * ((((b.q i j k 1) * (b.q i (j - 2) k 1)) + ((b.q i j k 2) * (b.q i (j - 2) k 2))) + ((b.q i j k 3) * (b.q i (j - 2) k 3)))))))
  let temppu : ℝ := (temppu + ((1 / 2) * (((b.q i (j - 2) k 0) * ((((b.q i j k 1) * (b.jsx i j k)) + ((b.q i j k 2) * (b.jsy i j k))) + ((b.q i j k 3) * (b.jsz i j k)))) + ((b.q i j k 0) * ((((b.q i (j - 2) k 1) * (b.jsx i j k)) + ((b.q i (j - 2) k 2) * (b.jsy i j k))) + ((b.q i (j - 2) k 3) * (b.jsz i j k)))))))
  let e : ℝ := ((b.qh i (j + 1) k 4) / (b.Q i (j + 1) k 0))
  let em : ℝ := ((b.qh i (j - 1) k 4) / (b.Q i (j - 1) k 0))
  let temprhoE : ℝ := (temprhoE + (rhoR_2 * (((1 / 2) * (e + em)) + ((1 / 2) * ((((b.q i (j + 1) k 1) * (b.q i (j - 1) k 1)) + ((b.q i (j + 1) k 2) * (b.q i (j - 1) k 2))) + ((b.q i (j + 1) k 3) * (b.q i (j - 1) k 3)))))))
  let temppu : ℝ := (temppu + ((1 / 2) * (((b.q i (j - 1) k 0) * ((((b.q i (j + 1) k 1) * (b.jsx i j k)) + ((b.q i (j + 1) k 2) * (b.jsy i j k))) + ((b.q i (j + 1) k 3) * (b.jsz i j k)))) + ((b.q i (j + 1) k 0) * ((((b.q i (j - 1) k 1) * (b.jsx i j k)) + ((b.q i (j - 1) k 2) * (b.jsy i j k))) + ((b.q i (j - 1) k 3) * (b.jsz i j k)))))))
  let rhoE : ℝ := (rhoE + (a * temprhoE))
  let pu : ℝ := (pu + (a * temppu))
  let rhoE : ℝ := (rhoE * 2)
  let pu : ℝ := (pu * 2)
  let F : FluxV := set F 4 ((rhoE * V) + pu)
  let F : FluxV := fun m => if 5 ≤ m ∧ m < b.ne then
      let n : ℕ := m - 5
      let rhoY : ℝ := 0
      let temprhoY : ℝ := 0
      let a : ℝ := aq_0
      let temprhoY : ℝ := 0
      let temprhoY : ℝ := (temprhoY + ((rhoR_0 * (1 / 2)) * ((b.q i j k (5 + n)) + (b.q i (j - 1) k (5 + n)))))
      let rhoY : ℝ := (rhoY + (a * temprhoY))
      let a : ℝ := aq_1
      let temprhoY : ℝ := 0
      let temprhoY : ℝ := (temprhoY + ((rhoR_1 * (1 / 2)) * ((b.q i j k (5 + n)) + (b.q i (j - 2) k (5 + n)))))
      let temprhoY : ℝ := (temprhoY + ((rhoR_2 * (1 / 2)) * ((b.q i (j + 1) k (5 + n)) + (b.q i (j - 1) k (5 + n)))))
      let rhoY : ℝ := (rhoY + (a * temprhoY))
      let rhoY : ℝ := (rhoY * 2)
      let F : FluxV := set F (5 + n) (rhoY * V)
      F m
    else F m
  F

/-- advFlux/fourthOrderKEEP.cpp:355-510 -/
noncomputable def fourthOrderKEEP_kF (b : Blk) (i j k : ℤ) (F : FluxV) : FluxV :=
  let aq_0 : ℝ := (2 / 3)
  let aq_1 : ℝ := ((-1) / 12)
  let uf : ℝ := 0
  let vf : ℝ := 0
  let wf : ℝ := 0
  let tempu : ℝ := 0
  let tempv : ℝ := 0
  let tempw : ℝ := 0
  let uR_0 : ℝ := ((1 / 2) * ((b.q i j k 1) + (b.q i j (k - 1) 1)))
  let vR_0 : ℝ := ((1 / 2) * ((b.q i j k 2) + (b.q i j (k - 1) 2)))
  let wR_0 : ℝ := ((1 / 2) * ((b.q i j k 3) + (b.q i j (k - 1) 3)))
  let tempu : ℝ := (tempu + uR_0)
  let tempv : ℝ := (tempv + vR_0)
  let tempw : ℝ := (tempw + wR_0)
  let a : ℝ := aq_0
  let uf : ℝ := (uf + (a * tempu))
  let vf : ℝ := (vf + (a * tempv))
  let wf : ℝ := (wf + (a * tempw))
  let tempu : ℝ := 0
  let tempv : ℝ := 0
  let tempw : ℝ := 0
  let uR_1 : ℝ := ((1 / 2) * ((b.q i j k 1) + (b.q i j (k - 2) 1)))
  let vR_1 : ℝ := ((1 / 2) * ((b.q i j k 2) + (b.q i j (k - 2) 2)))
  let wR_1 : ℝ := ((1 / 2) * ((b.q i j k 3) + (b.q i j (k - 2) 3)))
  let tempu : ℝ := (tempu + uR_1)
  let tempv : ℝ := (tempv + vR_1)
  let tempw : ℝ := (tempw + wR_1)
  let uR_2 : ℝ := ((1 / 2) * ((b.q i j (k + 1) 1) + (b.q i j (k - 1) 1)))
  let vR_2 : ℝ := ((1 / 2) * ((b.q i j (k + 1) 2) + (b.q i j (k - 1) 2)))
  let wR_2 : ℝ := ((1 / 2) * ((b.q i j (k + 1) 3) + (b.q i j (k - 1) 3)))
  let tempu : ℝ := (tempu + uR_2)
  let tempv : ℝ := (tempv + vR_2)
  let tempw : ℝ := (tempw + wR_2)
  let a : ℝ := aq_1
  let uf : ℝ := (uf + (a * tempu))
  let vf : ℝ := (vf + (a * tempv))
  let wf : ℝ := (wf + (a * tempw))
  let uf : ℝ := (uf * 2)
  let vf : ℝ := (vf * 2)
  let wf : ℝ := (wf * 2)
  let W : ℝ := ((((b.ksx i j k) * uf) + ((b.ksy i j k) * vf)) + ((b.ksz i j k) * wf))
  let rho : ℝ := 0
  let temprho : ℝ := 0
  let a : ℝ := aq_0
  let temprho : ℝ := 0
  let rhoR_0 : ℝ := ((1 / 2) * ((b.Q i j k 0) + (b.Q i j (k - 1) 0)))
  let temprho : ℝ := (temprho + rhoR_0)
  let rho : ℝ := (rho + (a * temprho))
  let a : ℝ := aq_1
  let temprho : ℝ := 0
  let rhoR_1 : ℝ := ((1 / 2) * ((b.Q i j k 0) + (b.Q i j (k - 2) 0)))
  let temprho : ℝ := (temprho + rhoR_1)
  let rhoR_2 : ℝ := ((1 / 2) * ((b.Q i j (k + 1) 0) + (b.Q i j (k - 1) 0)))
  let temprho : ℝ := (temprho + rhoR_2)
  let rho : ℝ := (rho + (a * temprho))
  let rho : ℝ := (rho * 2)
  let F : FluxV := set F 0 (rho * W)
  let rhou : ℝ := 0
  let rhov : ℝ := 0
  let rhow : ℝ := 0
  let p : ℝ := 0
  let a : ℝ := aq_0
  let temprhou : ℝ := 0
  let temprhov : ℝ := 0
  let temprhow : ℝ := 0
  let tempp : ℝ := 0
  let temprhou : ℝ := (temprhou + (rhoR_0 * uR_0))
  let temprhov : ℝ := (temprhov + (rhoR_0 * vR_0))
  let temprhow : ℝ := (temprhow + (rhoR_0 * wR_0))
  let tempp : ℝ := (tempp + ((1 / 2) * ((b.q i j k 0) + (b.q i j (k - 1) 0))))
  let rhou : ℝ := (rhou + (a * temprhou))
  let rhov : ℝ := (rhov + (a * temprhov))
  let rhow : ℝ := (rhow + (a * temprhow))
  let p : ℝ := (p + (a * tempp))
  let a : ℝ := aq_1
  let temprhou : ℝ := 0
  let temprhov : ℝ := 0
  let temprhow : ℝ := 0
  let tempp : ℝ := 0
  let temprhou : ℝ := (temprhou + (rhoR_1 * uR_1))
  let temprhov : ℝ := (temprhov + (rhoR_1 * vR_1))
  let temprhow : ℝ := (temprhow + (rhoR_1 * wR_1))
  let tempp : ℝ := (tempp + ((1 / 2) * ((b.q i j k 0) + (b.q i j (k - 2) 0))))
  let temprhou : ℝ := (temprhou + (rhoR_2 * uR_2))
  let temprhov : ℝ := (temprhov + (rhoR_2 * vR_2))
  let temprhow : ℝ := (temprhow + (rhoR_2 * wR_2))
  let tempp : ℝ := (tempp + ((1 / 2) * ((b.q i j (k + 1) 0) + (b.q i j (k - 1) 0))))
  let rhou : ℝ := (rhou + (a * temprhou))
  let rhov : ℝ := (rhov + (a * temprhov))
  let rhow : ℝ := (rhow + (a * temprhow))
  let p : ℝ := (p + (a * tempp))
  let rhow : ℝ := (rhow * 2)
  let rhov : ℝ := (rhov * 2)
  let rhou : ℝ := (rhou * 2)
  let p : ℝ := (p * 2)
  let F : FluxV := set F 1 ((rhou * W) + (p * (b.ksx i j k)))
  let F : FluxV := set F 2 ((rhov * W) + (p * (b.ksy i j k)))
  let F : FluxV := set F 3 ((rhow * W) + (p * (b.ksz i j k)))
  let rhoE : ℝ := 0
  let pu : ℝ := 0
  let a : ℝ := aq_0
  let temprhoE : ℝ := 0
  let temppu : ℝ := 0
  let e : ℝ := ((b.qh i j k 4) / (b.Q i j k 0))
  let em : ℝ := ((b.qh i j (k - 1) 4) / (b.Q i j (k - 1) 0))
  let temprhoE : ℝ := (temprhoE + (rhoR_0 * (((1 / 2) * (e + em)) + ((1 / 2) * ((((b.q i j k 1) * (b.q i j (k - 1) 1)) + ((b.q i j k 2) * (b.q i j (k - 1) 2))) + ((b.q i j k 3) * (b.q i j (k - 1) 3)))))))
  let temppu : ℝ := (temppu + ((1 / 2) * (((b.q i j (k - 1) 0) * ((((b.q i j k 1) * (b.ksx i j k)) + ((b.q i j k 2) * (b.ksy i j k))) + ((b.q i j k 3) * (b.ksz i j k)))) + ((b.q i j k 0) * ((((b.q i j (k - 1) 1) * (b.ksx i j k)) + ((b.q i j (k - 1) 2) * (b.ksy i j k))) + ((b.q i j (k - 1) 3) * (b.ksz i j k)))))))
  let rhoE : ℝ := (rhoE + (a * temprhoE))
  let pu : ℝ := (pu + (a * temppu))
  let a : ℝ := aq_1
  let temprhoE : ℝ := 0
  let temppu : ℝ := 0
  let e : ℝ := ((b.qh i j k 4) / (b.Q i j k 0))
  let em : ℝ := ((b.qh i j (k - 2) 4) / (b.Q i j (k - 2) 0))
  let temprhoE : ℝ := (temprhoE + (rhoR_1 * (((1 / 2) * (e + em)) + ((1 / 2) * ((((b.q i j k 1) * (b.q i j (k - 2) 1)) + ((b.q i j k 2) * (b.q i j (k - 2) 2))) + ((b.q i j k 3) * (b.q i j (k - 2) 3)))))))
  let temppu : ℝ := (temppu + ((1 / 2) * (((b.q i j (k - 2) 0) * ((((b.q i j k 1) * (b.ksx i j k)) + ((b.q i j k 2) * (b.ksy i j k))) + ((b.q i j k 3) * (b.ksz i j k)))) + ((b.q i j k 0) * ((((b.q i j (k - 2) 1) * (b.ksx i j k)) + ((b.q i j (k - 2) 2) * (b.ksy i j k))) + ((b.q i j (k - 2) 3) * (b.ksz i j k)))))))
  let e : ℝ := ((b.qh i j (k + 1) 4) / (b.Q i j (k + 1) 0))
  let em : ℝ := ((b.qh i j (k - 1) 4) / (b.Q i j (k - 1) 0))
  let temprhoE : ℝ := (temprhoE + (rhoR_2 * (((1 / 2) * (e + em)) + ((1 / 2) * ((((b.q i j (k + 1) 1) * (b.q i j (k - 1) 1)) + ((b.q i j (k + 1) 2) * (b.q i j (k - 1) 2))) + ((b.q i j (k + 1) 3) * (b.q i j (k - 1) 3)))))))
  let temppu : ℝ := (temppu + ((1 / 2) * (((b.q i j (k - 1) 0) * ((((b.q i j (k + 1) 1) * (b.ksx i j k)) + ((b.q i j (k + 1) 2) * (b.ksy i j k))) + ((b.q i j (k + 1) 3) * (b.ksz i j k)))) + ((b.q i j (k + 1) 0) * ((((b.q i j (k - 1) 1) * (b.ksx i j k)) + ((b.q i j (k - 1) 2) * (b.ksy i j k))) + ((b.q i j (k - 1) 3) * (b.ksz i j k)))))))
  let rhoE : ℝ := (rhoE + (a * temprhoE))
  let pu : ℝ := (pu + (a * temppu))
  let rhoE : ℝ := (rhoE * 2)
  let pu : ℝ := (pu * 2)
  let F : FluxV := set F 4 ((rhoE * W) + pu)
  let F : FluxV := fun m => if 5 ≤ m ∧ m < b.ne then
      let n : ℕ := m - 5
      let rhoY : ℝ := 0
      let temprhoY : ℝ := 0
      let a : ℝ := aq_0
      let temprhoY : ℝ := 0
      let temprhoY : ℝ := (temprhoY + ((rhoR_0 * (1 / 2)) * ((b.q i j k (5 + n)) + (b.q i j (k - 1) (5 + n)))))
      let rhoY : ℝ := (rhoY + (a * temprhoY))
      let a : ℝ := aq_1
      let temprhoY : ℝ := 0
      let temprhoY : ℝ := (temprhoY + ((rhoR_1 * (1 / 2)) * ((b.q i j k (5 + n)) + (b.q i j (k - 2) (5 + n)))))
      let temprhoY : ℝ := (temprhoY + ((rhoR_2 * (1 / 2)) * ((b.q i j (k + 1) (5 + n)) + (b.q i j (k - 1) (5 + n)))))
      let rhoY : ℝ := (rhoY + (a * temprhoY))
      let rhoY : ℝ := (rhoY * 2)
      let F : FluxV := set F (5 + n) (rhoY * W)
      F m
    else F m
  F

/-- advFlux/muscl2rusanov.cpp:31-174 -/
noncomputable def muscl2rusanov_iF (b : Blk) (i j k : ℤ) (F : FluxV) : FluxV :=
  let theta : ℝ := 2
  let rhoi : ℝ := (b.Q i j k 0)
  let rhoim1 : ℝ := (b.Q (i - 1) j k 0)
  let rhoim2 : ℝ := (b.Q (i - 2) j k 0)
  let rhoip1 : ℝ := (b.Q (i + 1) j k 0)
  let rR : ℝ := ((rhoi - rhoim1) / (rhoip1 - rhoi))
  let rL : ℝ := ((rhoim1 - rhoim2) / (rhoi - rhoim1))
  let phiRhoR : ℝ := (max 0 (min (min (theta * rR) ((1 + rR) / 2)) theta))
  let phiRhoL : ℝ := (max 0 (min (min (theta * rL) ((1 + rL) / 2)) theta))
  let rhoR : ℝ := (rhoi - (((1 / 2) * phiRhoR) * (rhoip1 - rhoi)))
  let rhoL : ℝ := (rhoim1 + (((1 / 2) * phiRhoL) * (rhoi - rhoim1)))
  let ui : ℝ := (b.q i j k 1)
  let uim1 : ℝ := (b.q (i - 1) j k 1)
  let uim2 : ℝ := (b.q (i - 2) j k 1)
  let uip1 : ℝ := (b.q (i + 1) j k 1)
  let rR : ℝ := ((ui - uim1) / (uip1 - ui))
  let rL : ℝ := ((uim1 - uim2) / (ui - uim1))
  let phiR : ℝ := (max 0 (min (min (theta * rR) ((1 + rR) / 2)) theta))
  let phiL : ℝ := (max 0 (min (min (theta * rL) ((1 + rL) / 2)) theta))
  let ufR : ℝ := (ui - (((1 / 2) * phiR) * (uip1 - ui)))
  let ufL : ℝ := (uim1 + (((1 / 2) * phiL) * (ui - uim1)))
  let vi : ℝ := (b.q i j k 2)
  let vim1 : ℝ := (b.q (i - 1) j k 2)
  let vim2 : ℝ := (b.q (i - 2) j k 2)
  let vip1 : ℝ := (b.q (i + 1) j k 2)
  let rR : ℝ := ((vi - vim1) / (vip1 - vi))
  let rL : ℝ := ((vim1 - vim2) / (vi - vim1))
  let phiR : ℝ := (max 0 (min (min (theta * rR) ((1 + rR) / 2)) theta))
  let phiL : ℝ := (max 0 (min (min (theta * rL) ((1 + rL) / 2)) theta))
  let vfR : ℝ := (vi - (((1 / 2) * phiR) * (vip1 - vi)))
  let vfL : ℝ := (vim1 + (((1 / 2) * phiL) * (vi - vim1)))
  let wi : ℝ := (b.q i j k 3)
  let wim1 : ℝ := (b.q (i - 1) j k 3)
  let wim2 : ℝ := (b.q (i - 2) j k 3)
  let wip1 : ℝ := (b.q (i + 1) j k 3)
  let rR : ℝ := ((wi - wim1) / (wip1 - wi))
  let rL : ℝ := ((wim1 - wim2) / (wi - wim1))
  let phiR : ℝ := (max 0 (min (min (theta * rR) ((1 + rR) / 2)) theta))
  let phiL : ℝ := (max 0 (min (min (theta * rL) ((1 + rL) / 2)) theta))
  let wfR : ℝ := (wi - (((1 / 2) * phiR) * (wip1 - wi)))
  let wfL : ℝ := (wim1 + (((1 / 2) * phiL) * (wi - wim1)))
  let UR : ℝ := ((((b.inx i j k) * ufR) + ((b.iny i j k) * vfR)) + ((b.inz i j k) * wfR))
  let UL : ℝ := ((((b.inx i j k) * ufL) + ((b.iny i j k) * vfL)) + ((b.inz i j k) * wfL))
  let ei : ℝ := ((b.qh i j k 4) / rhoi)
  let eim1 : ℝ := ((b.qh (i - 1) j k 4) / rhoim1)
  let eim2 : ℝ := ((b.qh (i - 2) j k 4) / rhoim2)
  let eip1 : ℝ := ((b.qh (i + 1) j k 4) / rhoip1)
  let rR : ℝ := ((ei - eim1) / (eip1 - ei))
  let rL : ℝ := ((eim1 - eim2) / (ei - eim1))
  let phiR : ℝ := (max 0 (min (min (theta * rR) ((1 + rR) / 2)) theta))
  let phiL : ℝ := (max 0 (min (min (theta * rL) ((1 + rL) / 2)) theta))
  let eR : ℝ := (ei - (((1 / 2) * phiR) * (eip1 - ei)))
  let eL : ℝ := (eim1 + (((1 / 2) * phiL) * (ei - eim1)))
  let pi : ℝ := (b.q i j k 0)
  let pim1 : ℝ := (b.q (i - 1) j k 0)
  let pip1 : ℝ := (b.q (i + 1) j k 0)
  let pR : ℝ := (pi - (((1 / 2) * phiR) * (pip1 - pi)))
  let pL : ℝ := (pim1 + (((1 / 2) * phiL) * (pi - pim1)))
  let ci : ℝ := (b.qh i j k 3)
  let cim1 : ℝ := (b.qh (i - 1) j k 3)
  let cip1 : ℝ := (b.qh (i + 1) j k 3)
  let cR : ℝ := (ci - (((1 / 2) * phiR) * (cip1 - ci)))
  let cL : ℝ := (cim1 + (((1 / 2) * phiL) * (ci - cim1)))
  let kR : ℝ := ((1 / 2) * (((ufR ^ 2) + (vfR ^ 2)) + (wfR ^ 2)))
  let kL : ℝ := ((1 / 2) * (((ufL ^ 2) + (vfL ^ 2)) + (wfL ^ 2)))
  let ER : ℝ := (rhoR * (eR + kR))
  let EL : ℝ := (rhoL * (eL + kL))
  let lam : ℝ := ((max (|UL| + cL) (|UR| + cR)) * (b.iS i j k))
  let UR : ℝ := (UR * (b.iS i j k))
  let UL : ℝ := (UL * (b.iS i j k))
  let FrhoR : ℝ := (UR * rhoR)
  let FrhoL : ℝ := (UL * rhoL)
  let F : FluxV := set F 0 ((1 / 2) * ((FrhoR + FrhoL) - (lam * (rhoR - rhoL))))
  let FUR : ℝ := (((UR * ufR) * rhoR) + (pR * (b.isx i j k)))
  let FUL : ℝ := (((UL * ufL) * rhoL) + (pL * (b.isx i j k)))
  let F : FluxV := set F 1 ((1 / 2) * ((FUR + FUL) - (lam * ((rhoR * ufR) - (rhoL * ufL)))))
  let FUR : ℝ := (((UR * vfR) * rhoR) + (pR * (b.isy i j k)))
  let FUL : ℝ := (((UL * vfL) * rhoL) + (pL * (b.isy i j k)))
  let F : FluxV := set F 2 ((1 / 2) * ((FUR + FUL) - (lam * ((rhoR * vfR) - (rhoL * vfL)))))
  let FUR : ℝ := (((UR * wfR) * rhoR) + (pR * (b.isz i j k)))
  let FUL : ℝ := (((UL * wfL) * rhoL) + (pL * (b.isz i j k)))
  let F : FluxV := set F 3 ((1 / 2) * ((FUR + FUL) - (lam * ((rhoR * wfR) - (rhoL * wfL)))))
  let FER : ℝ := (UR * (ER + pR))
  let FEL : ℝ := (UL * (EL + pL))
  let F : FluxV := set F 4 ((1 / 2) * ((FER + FEL) - (lam * (ER - EL))))
  let F : FluxV := fun m => if 5 ≤ m ∧ m < b.ne then
      let n : ℕ := m - 5
      let rhoYi : ℝ := (b.Q i j k (5 + n))
      let rhoYim1 : ℝ := (b.Q (i - 1) j k (5 + n))
      let rhoYip1 : ℝ := (b.Q (i + 1) j k (5 + n))
      let rhoYiR : ℝ := (rhoYi - (((1 / 2) * phiRhoR) * (rhoYip1 - rhoYi)))
      let rhoYiL : ℝ := (rhoYim1 + (((1 / 2) * phiRhoL) * (rhoYi - rhoYim1)))
      let FYiR : ℝ := (rhoYiR * UR)
      let FYiL : ℝ := (rhoYiL * UL)
      let F : FluxV := set F (5 + n) ((1 / 2) * ((FYiR + FYiL) - (lam * (rhoYiR - rhoYiL))))
      F m
    else F m
  F

/-- advFlux/muscl2rusanov.cpp:185-328 -/
noncomputable def muscl2rusanov_jF (b : Blk) (i j k : ℤ) (F : FluxV) : FluxV :=
  let theta : ℝ := 2
  let rhoi : ℝ := (b.Q i j k 0)
  let rhoim1 : ℝ := (b.Q i (j - 1) k 0)
  let rhoim2 : ℝ := (b.Q i (j - 2) k 0)
  let rhoip1 : ℝ := (b.Q i (j + 1) k 0)
  let rR : ℝ := ((rhoi - rhoim1) / (rhoip1 - rhoi))
  let rL : ℝ := ((rhoim1 - rhoim2) / (rhoi - rhoim1))
  let phiRhoR : ℝ := (max 0 (min (min (theta * rR) ((1 + rR) / 2)) theta))
  let phiRhoL : ℝ := (max 0 (min (min (theta * rL) ((1 + rL) / 2)) theta))
  let rhoR : ℝ := (rhoi - (((1 / 2) * phiRhoR) * (rhoip1 - rhoi)))
  let rhoL : ℝ := (rhoim1 + (((1 / 2) * phiRhoL) * (rhoi - rhoim1)))
  let ui : ℝ := (b.q i j k 1)
  let uim1 : ℝ := (b.q i (j - 1) k 1)
  let uim2 : ℝ := (b.q i (j - 2) k 1)
  let uip1 : ℝ := (b.q i (j + 1) k 1)
  let rR : ℝ := ((ui - uim1) / (uip1 - ui))
  let rL : ℝ := ((uim1 - uim2) / (ui - uim1))
  let phiR : ℝ := (max 0 (min (min (theta * rR) ((1 + rR) / 2)) theta))
  let phiL : ℝ := (max 0 (min (min (theta * rL) ((1 + rL) / 2)) theta))
  let ufR : ℝ := (ui - (((1 / 2) * phiR) * (uip1 - ui)))
  let ufL : ℝ := (uim1 + (((1 / 2) * phiL) * (ui - uim1)))
  let vi : ℝ := (b.q i j k 2)
  let vim1 : ℝ := (b.q i (j - 1) k 2)
  let vim2 : ℝ := (b.q i (j - 2) k 2)
  let vip1 : ℝ := (b.q i (j + 1) k 2)
  let rR : ℝ := ((vi - vim1) / (vip1 - vi))
  let rL : ℝ := ((vim1 - vim2) / (vi - vim1))
  let phiR : ℝ := (max 0 (min (min (theta * rR) ((1 + rR) / 2)) theta))
  let phiL : ℝ := (max 0 (min (min (theta * rL) ((1 + rL) / 2)) theta))
  let vfR : ℝ := (vi - (((1 / 2) * phiR) * (vip1 - vi)))
  let vfL : ℝ := (vim1 + (((1 / 2) * phiL) * (vi - vim1)))
  let wi : ℝ := (b.q i j k 3)
  let wim1 : ℝ := (b.q i (j - 1) k 3)
  let wim2 : ℝ := (b.q i (j - 2) k 3)
  let wip1 : ℝ := (b.q i (j + 1) k 3)
  let rR : ℝ := ((wi - wim1) / (wip1 - wi))
  let rL : ℝ := ((wim1 - wim2) / (wi - wim1))
  let phiR : ℝ := (max 0 (min (min (theta * rR) ((1 + rR) / 2)) theta))
  let phiL : ℝ := (max 0 (min (min (theta * rL) ((1 + rL) / 2)) theta))
  let wfR : ℝ := (wi - (((1 / 2) * phiR) * (wip1 - wi)))
  let wfL : ℝ := (wim1 + (((1 / 2) * phiL) * (wi - wim1)))
  let UR : ℝ := ((((b.jnx i j k) * ufR) + ((b.jny i j k) * vfR)) + ((b.jnz i j k) * wfR))
  let UL : ℝ := ((((b.jnx i j k) * ufL) + ((b.jny i j k) * vfL)) + ((b.jnz i j k) * wfL))
  let ei : ℝ := ((b.qh i j k 4) / rhoi)
  let eim1 : ℝ := ((b.qh i (j - 1) k 4) / rhoim1)
  let eim2 : ℝ := ((b.qh i (j - 2) k 4) / rhoim2)
  let eip1 : ℝ := ((b.qh i (j + 1) k 4) / rhoip1)
  let rR : ℝ := ((ei - eim1) / (eip1 - ei))
  let rL : ℝ := ((eim1 - eim2) / (ei - eim1))
  let phiR : ℝ := (max 0 (min (min (theta * rR) ((1 + rR) / 2)) theta))
  let phiL : ℝ := (max 0 (min (min (theta * rL) ((1 + rL) / 2)) theta))
  let eR : ℝ := (ei - (((1 / 2) * phiR) * (eip1 - ei)))
  let eL : ℝ := (eim1 + (((1 / 2) * phiL) * (ei - eim1)))
  let pi : ℝ := (b.q i j k 0)
  let pim1 : ℝ := (b.q i (j - 1) k 0)
  let pip1 : ℝ := (b.q i (j + 1) k 0)
  let pR : ℝ := (pi - (((1 / 2) * phiR) * (pip1 - pi)))
  let pL : ℝ := (pim1 + (((1 / 2) * phiL) * (pi - pim1)))
  let ci : ℝ := (b.qh i j k 3)
  let cim1 : ℝ := (b.qh i (j - 1) k 3)
  let cip1 : ℝ := (b.qh i (j + 1) k 3)
  let cR : ℝ := (ci - (((1 / 2) * phiR) * (cip1 - ci)))
  let cL : ℝ := (cim1 + (((1 / 2) * phiL) * (ci - cim1)))
  let kR : ℝ := ((1 / 2) * (((ufR ^ 2) + (vfR ^ 2)) + (wfR ^ 2)))
  let kL : ℝ := ((1 / 2) * (((ufL ^ 2) + (vfL ^ 2)) + (wfL ^ 2)))
  let ER : ℝ := (rhoR * (eR + kR))
  let EL : ℝ := (rhoL * (eL + kL))
  let lam : ℝ := ((max (|UL| + cL) (|UR| + cR)) * (b.jS i j k))
  let UR : ℝ := (UR * (b.jS i j k))
  let UL : ℝ := (UL * (b.jS i j k))
  let FrhoR : ℝ := (UR * rhoR)
  let FrhoL : ℝ := (UL * rhoL)
  let F : FluxV := set F 0 ((1 / 2) * ((FrhoR + FrhoL) - (lam * (rhoR - rhoL))))
  let FUR : ℝ := (((UR * ufR) * rhoR) + (pR * (b.jsx i j k)))
  let FUL : ℝ := (((UL * ufL) * rhoL) + (pL * (b.jsx i j k)))
  let F : FluxV := set F 1 ((1 / 2) * ((FUR + FUL) - (lam * ((rhoR * ufR) - (rhoL * ufL)))))
  let FUR : ℝ := (((UR * vfR) * rhoR) + (pR * (b.jsy i j k)))
  let FUL : ℝ := (((UL * vfL) * rhoL) + (pL * (b.jsy i j k)))
  let F : FluxV := set F 2 ((1 / 2) * ((FUR + FUL) - (lam * ((rhoR * vfR) - (rhoL * vfL)))))
  let FUR : ℝ := (((UR * wfR) * rhoR) + (pR * (b.jsz i j k)))
  let FUL : ℝ := (((UL * wfL) * rhoL) + (pL * (b.jsz i j k)))
  let F : FluxV := set F 3 ((1 / 2) * ((FUR + FUL) - (lam * ((rhoR * wfR) - (rhoL * wfL)))))
  let FER : ℝ := (UR * (ER + pR))
  let FEL : ℝ := (UL * (EL + pL))
  let F : FluxV := set F 4 ((1 / 2) * ((FER + FEL) - (lam * (ER - EL))))
  let F : FluxV := fun m => if 5 ≤ m ∧ m < b.ne then
      let n : ℕ := m - 5
      let rhoYi : ℝ := (b.Q i j k (5 + n))
      let rhoYim1 : ℝ := (b.Q i (j - 1) k (5 + n))
      let rhoYip1 : ℝ := (b.Q i (j + 1) k (5 + n))
      let rhoYiR : ℝ := (rhoYi - (((1 / 2) * phiRhoR) * (rhoYip1 - rhoYi)))
      let rhoYiL : ℝ := (rhoYim1 + (((1 / 2) * phiRhoL) * (rhoYi - rhoYim1)))
      let FYiR : ℝ := (rhoYiR * UR)
      let FYiL : ℝ := (rhoYiL * UL)
      let F : FluxV := set F (5 + n) ((1 / 2) * ((FYiR + FYiL) - (lam * (rhoYiR - rhoYiL))))
      F m
    else F m
  F

/-- advFlux/muscl2rusanov.cpp:338-481 -/
noncomputable def muscl2rusanov_kF (b : Blk) (i j k : ℤ) (F : FluxV) : FluxV :=
  let theta : ℝ := 2
  let rhoi : ℝ := (b.Q i j k 0)
  let rhoim1 : ℝ := (b.Q i j (k - 1) 0)
  let rhoim2 : ℝ := (b.Q i j (k - 2) 0)
  let rhoip1 : ℝ := (b.Q i j (k + 1) 0)
  let rR : ℝ := ((rhoi - rhoim1) / (rhoip1 - rhoi))
  let rL : ℝ := ((rhoim1 - rhoim2) / (rhoi - rhoim1))
  let phiRhoR : ℝ := (max 0 (min (min (theta * rR) ((1 + rR) / 2)) theta))
  let phiRhoL : ℝ := (max 0 (min (min (theta * rL) ((1 + rL) / 2)) theta))
  let rhoR : ℝ := (rhoi - (((1 / 2) * phiRhoR) * (rhoip1 - rhoi)))
  let rhoL : ℝ := (rhoim1 + (((1 / 2) * phiRhoL) * (rhoi - rhoim1)))
  let ui : ℝ := (b.q i j k 1)
  let uim1 : ℝ := (b.q i j (k - 1) 1)
  let uim2 : ℝ := (b.q i j (k - 2) 1)
  let uip1 : ℝ := (b.q i j (k + 1) 1)
  let rR : ℝ := ((ui - uim1) / (uip1 - ui))
  let rL : ℝ := ((uim1 - uim2) / (ui - uim1))
  let phiR : ℝ := (max 0 (min (min (theta * rR) ((1 + rR) / 2)) theta))
  let phiL : ℝ := (max 0 (min (min (theta * rL) ((1 + rL) / 2)) theta))
  let ufR : ℝ := (ui - (((1 / 2) * phiR) * (uip1 - ui)))
  let ufL : ℝ := (uim1 + (((1 / 2) * phiL) * (ui - uim1)))
  let vi : ℝ := (b.q i j k 2)
  let vim1 : ℝ := (b.q i j (k - 1) 2)
  let vim2 : ℝ := (b.q i j (k - 2) 2)
  let vip1 : ℝ := (b.q i j (k + 1) 2)
  let rR : ℝ := ((vi - vim1) / (vip1 - vi))
  let rL : ℝ := ((vim1 - vim2) / (vi - vim1))
  let phiR : ℝ := (max 0 (min (min (theta * rR) ((1 + rR) / 2)) theta))
  let phiL : ℝ := (max 0 (min (min (theta * rL) ((1 + rL) / 2)) theta))
  let vfR : ℝ := (vi - (((1 / 2) * phiR) * (vip1 - vi)))
  let vfL : ℝ := (vim1 + (((1 / 2) * phiL) * (vi - vim1)))
  let wi : ℝ := (b.q i j k 3)
  let wim1 : ℝ := (b.q i j (k - 1) 3)
  let wim2 : ℝ := (b.q i j (k - 2) 3)
  let wip1 : ℝ := (b.q i j (k + 1) 3)
  let rR : ℝ := ((wi - wim1) / (wip1 - wi))
  let rL : ℝ := ((wim1 - wim2) / (wi - wim1))
  let phiR : ℝ := (max 0 (min (min (theta * rR) ((1 + rR) / 2)) theta))
  let phiL : ℝ := (max 0 (min (min (theta * rL) ((1 + rL) / 2)) theta))
  let wfR : ℝ := (wi - (((1 / 2) * phiR) * (wip1 - wi)))
  let wfL : ℝ := (wim1 + (((1 / 2) * phiL) * (wi - wim1)))
  let UR : ℝ := ((((b.knx i j k) * ufR) + ((b.kny i j k) * vfR)) + ((b.knz i j k) * wfR))
  let UL : ℝ := ((((b.knx i j k) * ufL) + ((b.kny i j k) * vfL)) + ((b.knz i j k) * wfL))
  let ei : ℝ := ((b.qh i j k 4) / rhoi)
  let eim1 : ℝ := ((b.qh i j (k - 1) 4) / rhoim1)
  let eim2 : ℝ := ((b.qh i j (k - 2) 4) / rhoim2)
  let eip1 : ℝ := ((b.qh i j (k + 1) 4) / rhoip1)
  let rR : ℝ := ((ei - eim1) / (eip1 - ei))
  let rL : ℝ := ((eim1 - eim2) / (ei - eim1))
  let phiR : ℝ := (max 0 (min (min (theta * rR) ((1 + rR) / 2)) theta))
  let phiL : ℝ := (max 0 (min (min (theta * rL) ((1 + rL) / 2)) theta))
  let eR : ℝ := (ei - (((1 / 2) * phiR) * (eip1 - ei)))
  let eL : ℝ := (eim1 + (((1 / 2) * phiL) * (ei - eim1)))
  let pi : ℝ := (b.q i j k 0)
  let pim1 : ℝ := (b.q i j (k - 1) 0)
  let pip1 : ℝ := (b.q i j (k + 1) 0)
  let pR : ℝ := (pi - (((1 / 2) * phiR) * (pip1 - pi)))
  let pL : ℝ := (pim1 + (((1 / 2) * phiL) * (pi - pim1)))
  let ci : ℝ := (b.qh i j k 3)
  let cim1 : ℝ := (b.qh i j (k - 1) 3)
  let cip1 : ℝ := (b.qh i j (k + 1) 3)
  let cR : ℝ := (ci - (((1 / 2) * phiR) * (cip1 - ci)))
  let cL : ℝ := (cim1 + (((1 / 2) * phiL) * (ci - cim1)))
  let kR : ℝ := ((1 / 2) * (((ufR ^ 2) + (vfR ^ 2)) + (wfR ^ 2)))
  let kL : ℝ := ((1 / 2) * (((ufL ^ 2) + (vfL ^ 2)) + (wfL ^ 2)))
  let ER : ℝ := (rhoR * (eR + kR))
  let EL : ℝ := (rhoL * (eL + kL))
  let lam : ℝ := ((max (|UL| + cL) (|UR| + cR)) * (b.kS i j k))
  let UR : ℝ := (UR * (b.kS i j k))
  let UL : ℝ := (UL * (b.kS i j k))
  let FrhoR : ℝ := (UR * rhoR)
  let FrhoL : ℝ := (UL * rhoL)
  let F : FluxV := set F 0 ((1 / 2) * ((FrhoR + FrhoL) - (lam * (rhoR - rhoL))))
  let FUR : ℝ := (((UR * ufR) * rhoR) + (pR * (b.ksx i j k)))
  let FUL : ℝ := (((UL * ufL) * rhoL) + (pL * (b.ksx i j k)))
  let F : FluxV := set F 1 ((1 / 2) * ((FUR + FUL) - (lam * ((rhoR * ufR) - (rhoL * ufL)))))
  let FUR : ℝ := (((UR * vfR) * rhoR) + (pR * (b.ksy i j k)))
  let FUL : ℝ := (((UL * vfL) * rhoL) + (pL * (b.ksy i j k)))
  let F : FluxV := set F 2 ((1 / 2) * ((FUR + FUL) - (lam * ((rhoR * vfR) - (rhoL * vfL)))))
  let FUR : ℝ := (((UR * wfR) * rhoR) + (pR * (b.ksz i j k)))
  let FUL : ℝ := (((UL * wfL) * rhoL) + (pL * (b.ksz i j k)))
  let F : FluxV := set F 3 ((1 / 2) * ((FUR + FUL) - (lam * ((rhoR * wfR) - (rhoL * wfL)))))
  let FER : ℝ := (UR * (ER + pR))
  let FEL : ℝ := (UL * (EL + pL))
  let F : FluxV := set F 4 ((1 / 2) * ((FER + FEL) - (lam * (ER - EL))))
  let F : FluxV := fun m => if 5 ≤ m ∧ m < b.ne then
      let n : ℕ := m - 5
      let rhoYi : ℝ := (b.Q i j k (5 + n))
      let rhoYim1 : ℝ := (b.Q i j (k - 1) (5 + n))
      let rhoYip1 : ℝ := (b.Q i j (k + 1) (5 + n))
      let rhoYiR : ℝ := (rhoYi - (((1 / 2) * phiRhoR) * (rhoYip1 - rhoYi)))
      let rhoYiL : ℝ := (rhoYim1 + (((1 / 2) * phiRhoL) * (rhoYi - rhoYim1)))
      let FYiR : ℝ := (rhoYiR * UR)
      let FYiL : ℝ := (rhoYiL * UL)
      let F : FluxV := set F (5 + n) ((1 / 2) * ((FYiR + FYiL) - (lam * (rhoYiR - rhoYiL))))
      F m
    else F m
  F

/-- advFlux/muscl2hllc.cpp:30-255 -/
noncomputable def muscl2hllc_iF (b : Blk) (i j k : ℤ) (F : FluxV) : FluxV :=
  let theta : ℝ := 2
  let rhoi : ℝ := (b.Q i j k 0)
  let rhoim1 : ℝ := (b.Q (i - 1) j k 0)
  let rhoim2 : ℝ := (b.Q (i - 2) j k 0)
  let rhoip1 : ℝ := (b.Q (i + 1) j k 0)
  let rR : ℝ := ((rhoi - rhoim1) / (rhoip1 - rhoi))
  let rL : ℝ := ((rhoim1 - rhoim2) / (rhoi - rhoim1))
  let phiR : ℝ := (max 0 (min (min (theta * rR) ((1 + rR) / 2)) theta))
  let phiL : ℝ := (max 0 (min (min (theta * rL) ((1 + rL) / 2)) theta))
  let rhoR : ℝ := (rhoi - (((1 / 2) * phiR) * (rhoip1 - rhoi)))
  let rhoL : ℝ := (rhoim1 + (((1 / 2) * phiL) * (rhoi - rhoim1)))
  let ui : ℝ := (b.q i j k 1)
  let uim1 : ℝ := (b.q (i - 1) j k 1)
  let uim2 : ℝ := (b.q (i - 2) j k 1)
  let uip1 : ℝ := (b.q (i + 1) j k 1)
  let rR : ℝ := ((ui - uim1) / (uip1 - ui))
  let rL : ℝ := ((uim1 - uim2) / (ui - uim1))
  let phiR : ℝ := (max 0 (min (min (theta * rR) ((1 + rR) / 2)) theta))
  let phiL : ℝ := (max 0 (min (min (theta * rL) ((1 + rL) / 2)) theta))
  let ufR : ℝ := (ui - (((1 / 2) * phiR) * (uip1 - ui)))
  let ufL : ℝ := (uim1 + (((1 / 2) * phiL) * (ui - uim1)))
  let vi : ℝ := (b.q i j k 2)
  let vim1 : ℝ := (b.q (i - 1) j k 2)
  let vim2 : ℝ := (b.q (i - 2) j k 2)
  let vip1 : ℝ := (b.q (i + 1) j k 2)
  let rR : ℝ := ((vi - vim1) / (vip1 - vi))
  let rL : ℝ := ((vim1 - vim2) / (vi - vim1))
  let phiR : ℝ := (max 0 (min (min (theta * rR) ((1 + rR) / 2)) theta))
  let phiL : ℝ := (max 0 (min (min (theta * rL) ((1 + rL) / 2)) theta))
  let vfR : ℝ := (vi - (((1 / 2) * phiR) * (vip1 - vi)))
  let vfL : ℝ := (vim1 + (((1 / 2) * phiL) * (vi - vim1)))
  let wi : ℝ := (b.q i j k 3)
  let wim1 : ℝ := (b.q (i - 1) j k 3)
  let wim2 : ℝ := (b.q (i - 2) j k 3)
  let wip1 : ℝ := (b.q (i + 1) j k 3)
  let rR : ℝ := ((wi - wim1) / (wip1 - wi))
  let rL : ℝ := ((wim1 - wim2) / (wi - wim1))
  let phiR : ℝ := (max 0 (min (min (theta * rR) ((1 + rR) / 2)) theta))
  let phiL : ℝ := (max 0 (min (min (theta * rL) ((1 + rL) / 2)) theta))
  let wfR : ℝ := (wi - (((1 / 2) * phiR) * (wip1 - wi)))
  let wfL : ℝ := (wim1 + (((1 / 2) * phiL) * (wi - wim1)))
  let nx : ℝ := (b.inx i j k)
  let ny : ℝ := (b.iny i j k)
  let nz : ℝ := (b.inz i j k)
  let UR : ℝ := (((nx * ufR) + (ny * vfR)) + (nz * wfR))
  let UL : ℝ := (((nx * ufL) + (ny * vfL)) + (nz * wfL))
  let rhouR : ℝ := (rhoR * ufR)
  let rhouL : ℝ := (rhoL * ufL)
  let rhovR : ℝ := (rhoR * vfR)
  let rhovL : ℝ := (rhoL * vfL)
  let rhowR : ℝ := (rhoR * wfR)
  let rhowL : ℝ := (rhoL * wfL)
  let ei : ℝ := ((b.qh i j k 4) / rhoi)
  let eim1 : ℝ := ((b.qh (i - 1) j k 4) / rhoim1)
  let eim2 : ℝ := ((b.qh (i - 2) j k 4) / rhoim2)
  let eip1 : ℝ := ((b.qh (i + 1) j k 4) / rhoip1)
  let rR : ℝ := ((ei - eim1) / (eip1 - ei))
  let rL : ℝ := ((eim1 - eim2) / (ei - eim1))
  let phiR : ℝ := (max 0 (min (min (theta * rR) ((1 + rR) / 2)) theta))
  let phiL : ℝ := (max 0 (min (min (theta * rL) ((1 + rL) / 2)) theta))
  let eR : ℝ := (ei - (((1 / 2) * phiR) * (eip1 - ei)))
  let eL : ℝ := (eim1 + (((1 / 2) * phiL) * (ei - eim1)))
  let pi : ℝ := (b.q i j k 0)
  let pim1 : ℝ := (b.q (i - 1) j k 0)
  let pip1 : ℝ := (b.q (i + 1) j k 0)
  let pR : ℝ := (pi - (((1 / 2) * phiR) * (pip1 - pi)))
  let pL : ℝ := (pim1 + (((1 / 2) * phiL) * (pi - pim1)))
  let ci : ℝ := (b.qh i j k 3)
  let cim1 : ℝ := (b.qh (i - 1) j k 3)
  let cip1 : ℝ := (b.qh (i + 1) j k 3)
  let cR : ℝ := (ci - (((1 / 2) * phiR) * (cip1 - ci)))
  let cL : ℝ := (cim1 + (((1 / 2) * phiL) * (ci - cim1)))
  let kR : ℝ := ((1 / 2) * (((ufR ^ 2) + (vfR ^ 2)) + (wfR ^ 2)))
  let kL : ℝ := ((1 / 2) * (((ufL ^ 2) + (vfL ^ 2)) + (wfL ^ 2)))
  let ER : ℝ := (rhoR * (eR + kR))
  let EL : ℝ := (rhoL * (eL + kL))
  let pstar : ℝ := (((1 / 2) * (pL + pR)) - ((((((1 / 2) * (UR - UL)) * (1 / 2)) * (rhoL + rhoR)) * (1 / 2)) * (cL + cR)))
  let pstar : ℝ := (max 0 pstar)
  let SL : ℝ := (UL - cL)
  let SR : ℝ := (UR + cR)
  let Sstar : ℝ := ((((pR - pL) + ((rhoL * UL) * (SL - UL))) - ((rhoR * UR) * (SR - UR))) / ((rhoL * (SL - UL)) - (rhoR * (SR - UR))))
  let F' : FluxV := if SL ≥ 0 then
        let F : FluxV := set F 0 ((UL * rhoL) * (b.iS i j k))
        let F : FluxV := set F 1 (((UL * rhouL) * (b.iS i j k)) + (pL * (b.isx i j k)))
        let F : FluxV := set F 2 (((UL * rhovL) * (b.iS i j k)) + (pL * (b.isy i j k)))
        let F : FluxV := set F 3 (((UL * rhowL) * (b.iS i j k)) + (pL * (b.isz i j k)))
        let F : FluxV := set F 4 ((UL * (EL + pL)) * (b.iS i j k))
        let F : FluxV := fun m => if 5 ≤ m ∧ m < b.ne then
            let n : ℕ := m - 5
            let Yi : ℝ := (b.q i j k (5 + n))
            let Yim1 : ℝ := (b.q (i - 1) j k (5 + n))
            let Yim2 : ℝ := (b.q (i - 2) j k (5 + n))
            let rL : ℝ := ((Yim1 - Yim2) / (Yi - Yim1))
            let phiL : ℝ := (max 0 (min (min (theta * rL) ((1 + rL) / 2)) theta))
            let YL : ℝ := (Yim1 + (((1 / 2) * phiL) * (Yi - Yim1)))
            let rhoYL : ℝ := (rhoL * YL)
            let F : FluxV := set F (5 + n) ((UL * rhoYL) * (b.iS i j k))
            F m
          else F m
        F
      else
        let F' : FluxV := if (SL ≤ 0 ∧ Sstar ≥ 0) then
              let FrhoL : ℝ := ((UL * rhoL) * (b.iS i j k))
              let FUL : ℝ := (((UL * rhouL) * (b.iS i j k)) + (pL * (b.isx i j k)))
              let FVL : ℝ := (((UL * rhovL) * (b.iS i j k)) + (pL * (b.isy i j k)))
              let FWL : ℝ := (((UL * rhowL) * (b.iS i j k)) + (pL * (b.isz i j k)))
              let FEL : ℝ := ((UL * (EL + pL)) * (b.iS i j k))
              let UstarL : ℝ := ((rhoL * (SL - UL)) / (SL - Sstar))
              let F : FluxV := set F 0 (FrhoL + ((SL * (UstarL - rhoL)) * (b.iS i j k)))
              let F : FluxV := set F 1 (FUL + ((SL * (((UstarL * Sstar) * nx) - rhouL)) * (b.iS i j k)))
              let F : FluxV := set F 2 (FVL + ((SL * (((UstarL * Sstar) * ny) - rhovL)) * (b.iS i j k)))
              let F : FluxV := set F 3 (FWL + ((SL * (((UstarL * Sstar) * nz) - rhowL)) * (b.iS i j k)))
              let F : FluxV := set F 4 (FEL + ((SL * ((UstarL * ((EL / rhoL) + ((Sstar - UL) * (Sstar + (pL / (rhoL * (SL - UL))))))) - EL)) * (b.iS i j k)))
              let F : FluxV := fun m => if 5 ≤ m ∧ m < b.ne then
                  let n : ℕ := m - 5
                  let Yi : ℝ := (b.q i j k (5 + n))
                  let Yim1 : ℝ := (b.q (i - 1) j k (5 + n))
                  let Yim2 : ℝ := (b.q (i - 2) j k (5 + n))
                  let rL : ℝ := ((Yim1 - Yim2) / (Yi - Yim1))
                  let phiL : ℝ := (max 0 (min (min (theta * rL) ((1 + rL) / 2)) theta))
                  let YL : ℝ := (Yim1 + (((1 / 2) * phiL) * (Yi - Yim1)))
                  let rhoYL : ℝ := (rhoL * YL)
                  let FYL : ℝ := ((rhoYL * UL) * (b.iS i j k))
                  let F : FluxV := set F (5 + n) (FYL + ((SL * ((UstarL * YL) - rhoYL)) * (b.iS i j k)))
                  F m
                else F m
              F
            else
              let F' : FluxV := if (SR ≥ 0 ∧ Sstar ≤ 0) then
                    let FrhoR : ℝ := ((UR * rhoR) * (b.iS i j k))
                    let FUR : ℝ := (((UR * rhouR) * (b.iS i j k)) + (pR * (b.isx i j k)))
                    let FVR : ℝ := (((UR * rhovR) * (b.iS i j k)) + (pR * (b.isy i j k)))
                    let FWR : ℝ := (((UR * rhowR) * (b.iS i j k)) + (pR * (b.isz i j k)))
                    let FER : ℝ := ((UR * (ER + pR)) * (b.iS i j k))
                    let UstarR : ℝ := ((rhoR * (SR - UR)) / (SR - Sstar))
                    let F : FluxV := set F 0 (FrhoR + ((SR * (UstarR - rhoR)) * (b.iS i j k)))
                    let F : FluxV := set F 1 (FUR + ((SR * (((UstarR * Sstar) * nx) - rhouR)) * (b.iS i j k)))
                    let F : FluxV := set F 2 (FVR + ((SR * (((UstarR * Sstar) * ny) - rhovR)) * (b.iS i j k)))
                    let F : FluxV := set F 3 (FWR + ((SR * (((UstarR * Sstar) * nz) - rhowR)) * (b.iS i j k)))
                    let F : FluxV := set F 4 (FER + ((SR * ((UstarR * ((ER / rhoR) + ((Sstar - UR) * (Sstar + (pR / (rhoR * (SR - UR))))))) - ER)) * (b.iS i j k)))
                    let F : FluxV := fun m => if 5 ≤ m ∧ m < b.ne then
                        let n : ℕ := m - 5
                        let Yi : ℝ := (b.q i j k (5 + n))
                        let Yim1 : ℝ := (b.q (i - 1) j k (5 + n))
                        let Yip1 : ℝ := (b.q (i + 1) j k (5 + n))
                        let rR : ℝ := ((Yi - Yim1) / (Yip1 - Yi))
                        let phiR : ℝ := (max 0 (min (min (theta * rR) ((1 + rR) / 2)) theta))
                        let YR : ℝ := (Yi - (((1 / 2) * phiR) * (Yip1 - Yi)))
                        let rhoYR : ℝ := (rhoR * YR)
                        let FYR : ℝ := ((rhoYR * UR) * (b.iS i j k))
                        let F : FluxV := set F (5 + n) (FYR + ((SR * ((UstarR * YR) - rhoYR)) * (b.iS i j k)))
                        F m
                      else F m
                    F
                  else
                    let F' : FluxV := if SR ≤ 0 then
                          let F : FluxV := set F 0 ((UR * rhoR) * (b.iS i j k))
                          let F : FluxV := set F 1 (((UR * rhouR) * (b.iS i j k)) + (pR * (b.isx i j k)))
                          let F : FluxV := set F 2 (((UR * rhovR) * (b.iS i j k)) + (pR * (b.isy i j k)))
                          let F : FluxV := set F 3 (((UR * rhowR) * (b.iS i j k)) + (pR * (b.isz i j k)))
                          let F : FluxV := set F 4 ((UR * (ER + pR)) * (b.iS i j k))
                          let F : FluxV := fun m => if 5 ≤ m ∧ m < b.ne then
                              let n : ℕ := m - 5
                              let Yi : ℝ := (b.q i j k (5 + n))
                              let Yim1 : ℝ := (b.q (i - 1) j k (5 + n))
                              let Yip1 : ℝ := (b.q (i + 1) j k (5 + n))
                              let rR : ℝ := ((Yi - Yim1) / (Yip1 - Yi))
                              let phiR : ℝ := (max 0 (min (min (theta * rR) ((1 + rR) / 2)) theta))
                              let YR : ℝ := (Yi - (((1 / 2) * phiR) * (Yip1 - Yi)))
                              let rhoYR : ℝ := (rhoR * YR)
                              let F : FluxV := set F (5 + n) ((UR * rhoYR) * (b.iS i j k))
                              F m
                            else F m
                          F
                        else
                          F
                    let F : FluxV := F'
                    F
              let F : FluxV := F'
              F
        let F : FluxV := F'
        F
  let F : FluxV := F'
  F

/-- advFlux/muscl2hllc.cpp:267-492 -/
noncomputable def muscl2hllc_jF (b : Blk) (i j k : ℤ) (F : FluxV) : FluxV :=
  let theta : ℝ := 2
  let rhoi : ℝ := (b.Q i j k 0)
  let rhoim1 : ℝ := (b.Q i (j - 1) k 0)
  let rhoim2 : ℝ := (b.Q i (j - 2) k 0)
  let rhoip1 : ℝ := (b.Q i (j + 1) k 0)
  let rR : ℝ := ((rhoi - rhoim1) / (rhoip1 - rhoi))
  let rL : ℝ := ((rhoim1 - rhoim2) / (rhoi - rhoim1))
  let phiR : ℝ := (max 0 (min (min (theta * rR) ((1 + rR) / 2)) theta))
  let phiL : ℝ := (max 0 (min (min (theta * rL) ((1 + rL) / 2)) theta))
  let rhoR : ℝ := (rhoi - (((1 / 2) * phiR) * (rhoip1 - rhoi)))
  let rhoL : ℝ := (rhoim1 + (((1 / 2) * phiL) * (rhoi - rhoim1)))
  let ui : ℝ := (b.q i j k 1)
  let uim1 : ℝ := (b.q i (j - 1) k 1)
  let uim2 : ℝ := (b.q i (j - 2) k 1)
  let uip1 : ℝ := (b.q i (j + 1) k 1)
  let rR : ℝ := ((ui - uim1) / (uip1 - ui))
  let rL : ℝ := ((uim1 - uim2) / (ui - uim1))
  let phiR : ℝ := (max 0 (min (min (theta * rR) ((1 + rR) / 2)) theta))
  let phiL : ℝ := (max 0 (min (min (theta * rL) ((1 + rL) / 2)) theta))
  let ufR : ℝ := (ui - (((1 / 2) * phiR) * (uip1 - ui)))
  let ufL : ℝ := (uim1 + (((1 / 2) * phiL) * (ui - uim1)))
  let vi : ℝ := (b.q i j k 2)
  let vim1 : ℝ := (b.q i (j - 1) k 2)
  let vim2 : ℝ := (b.q i (j - 2) k 2)
  let vip1 : ℝ := (b.q i (j + 1) k 2)
  let rR : ℝ := ((vi - vim1) / (vip1 - vi))
  let rL : ℝ := ((vim1 - vim2) / (vi - vim1))
  let phiR : ℝ := (max 0 (min (min (theta * rR) ((1 + rR) / 2)) theta))
  let phiL : ℝ := (max 0 (min (min (theta * rL) ((1 + rL) / 2)) theta))
  let vfR : ℝ := (vi - (((1 / 2) * phiR) * (vip1 - vi)))
  let vfL : ℝ := (vim1 + (((1 / 2) * phiL) * (vi - vim1)))
  let wi : ℝ := (b.q i j k 3)
  let wim1 : ℝ := (b.q i (j - 1) k 3)
  let wim2 : ℝ := (b.q i (j - 2) k 3)
  let wip1 : ℝ := (b.q i (j + 1) k 3)
  let rR : ℝ := ((wi - wim1) / (wip1 - wi))
  let rL : ℝ := ((wim1 - wim2) / (wi - wim1))
  let phiR : ℝ := (max 0 (min (min (theta * rR) ((1 + rR) / 2)) theta))
  let phiL : ℝ := (max 0 (min (min (theta * rL) ((1 + rL) / 2)) theta))
  let wfR : ℝ := (wi - (((1 / 2) * phiR) * (wip1 - wi)))
  let wfL : ℝ := (wim1 + (((1 / 2) * phiL) * (wi - wim1)))
  let nx : ℝ := (b.jnx i j k)
  let ny : ℝ := (b.jny i j k)
  let nz : ℝ := (b.jnz i j k)
  let UR : ℝ := (((nx * ufR) + (ny * vfR)) + (nz * wfR))
  let UL : ℝ := (((nx * ufL) + (ny * vfL)) + (nz * wfL))
  let rhouR : ℝ := (rhoR * ufR)
  let rhouL : ℝ := (rhoL * ufL)
  let rhovR : ℝ := (rhoR * vfR)
  let rhovL : ℝ := (rhoL * vfL)
  let rhowR : ℝ := (rhoR * wfR)
  let rhowL : ℝ := (rhoL * wfL)
  let ei : ℝ := ((b.qh i j k 4) / rhoi)
  let eim1 : ℝ := ((b.qh i (j - 1) k 4) / rhoim1)
  let eim2 : ℝ := ((b.qh i (j - 2) k 4) / rhoim2)
  let eip1 : ℝ := ((b.qh i (j + 1) k 4) / rhoip1)
  let rR : ℝ := ((ei - eim1) / (eip1 - ei))
  let rL : ℝ := ((eim1 - eim2) / (ei - eim1))
  let phiR : ℝ := (max 0 (min (min (theta * rR) ((1 + rR) / 2)) theta))
  let phiL : ℝ := (max 0 (min (min (theta * rL) ((1 + rL) / 2)) theta))
  let eR : ℝ := (ei - (((1 / 2) * phiR) * (eip1 - ei)))
  let eL : ℝ := (eim1 + (((1 / 2) * phiL) * (ei - eim1)))
  let pi : ℝ := (b.q i j k 0)
  let pim1 : ℝ := (b.q i (j - 1) k 0)
  let pip1 : ℝ := (b.q i (j + 1) k 0)
  let pR : ℝ := (pi - (((1 / 2) * phiR) * (pip1 - pi)))
  let pL : ℝ := (pim1 + (((1 / 2) * phiL) * (pi - pim1)))
  let ci : ℝ := (b.qh i j k 3)
  let cim1 : ℝ := (b.qh i (j - 1) k 3)
  let cip1 : ℝ := (b.qh i (j + 1) k 3)
  let cR : ℝ := (ci - (((1 / 2) * phiR) * (cip1 - ci)))
  let cL : ℝ := (cim1 + (((1 / 2) * phiL) * (ci - cim1)))
  let kR : ℝ := ((1 / 2) * (((ufR ^ 2) + (vfR ^ 2)) + (wfR ^ 2)))
  let kL : ℝ := ((1 / 2) * (((ufL ^ 2) + (vfL ^ 2)) + (wfL ^ 2)))
  let ER : ℝ := (rhoR * (eR + kR))
  let EL : ℝ := (rhoL * (eL + kL))
  let pstar : ℝ := (((1 / 2) * (pL + pR)) - ((((((1 / 2) * (UR - UL)) * (1 / 2)) * (rhoL + rhoR)) * (1 / 2)) * (cL + cR)))
  let pstar : ℝ := (max 0 pstar)
  let SL : ℝ := (UL - cL)
  let SR : ℝ := (UR + cR)
  let Sstar : ℝ := ((((pR - pL) + ((rhoL * UL) * (SL - UL))) - ((rhoR * UR) * (SR - UR))) / ((rhoL * (SL - UL)) - (rhoR * (SR - UR))))
  let F' : FluxV := if SL ≥ 0 then
        let F : FluxV := set F 0 ((UL * rhoL) * (b.jS i j k))
        let F : FluxV := set F 1 (((UL * rhouL) * (b.jS i j k)) + (pL * (b.jsx i j k)))
        let F : FluxV := set F 2 (((UL * rhovL) * (b.jS i j k)) + (pL * (b.jsy i j k)))
        let F : FluxV := set F 3 (((UL * rhowL) * (b.jS i j k)) + (pL * (b.jsz i j k)))
        let F : FluxV := set F 4 ((UL * (EL + pL)) * (b.jS i j k))
        let F : FluxV := fun m => if 5 ≤ m ∧ m < b.ne then
            let n : ℕ := m - 5
            let Yi : ℝ := (b.q i j k (5 + n))
            let Yim1 : ℝ := (b.q i (j - 1) k (5 + n))
            let Yim2 : ℝ := (b.q i (j - 2) k (5 + n))
            let rL : ℝ := ((Yim1 - Yim2) / (Yi - Yim1))
            let phiL : ℝ := (max 0 (min (min (theta * rL) ((1 + rL) / 2)) theta))
            let YL : ℝ := (Yim1 + (((1 / 2) * phiL) * (Yi - Yim1)))
            let rhoYL : ℝ := (rhoL * YL)
            let F : FluxV := set F (5 + n) ((UL * rhoYL) * (b.jS i j k))
            F m
          else F m
        F
      else
        let F' : FluxV := if (SL ≤ 0 ∧ Sstar ≥ 0) then
              let FrhoL : ℝ := ((UL * rhoL) * (b.jS i j k))
              let FUL : ℝ := (((UL * rhouL) * (b.jS i j k)) + (pL * (b.jsx i j k)))
              let FVL : ℝ := (((UL * rhovL) * (b.jS i j k)) + (pL * (b.jsy i j k)))
              let FWL : ℝ := (((UL * rhowL) * (b.jS i j k)) + (pL * (b.jsz i j k)))
              let FEL : ℝ := ((UL * (EL + pL)) * (b.jS i j k))
              let UstarL : ℝ := ((rhoL * (SL - UL)) / (SL - Sstar))
              let F : FluxV := set F 0 (FrhoL + ((SL * (UstarL - rhoL)) * (b.jS i j k)))
              let F : FluxV := set F 1 (FUL + ((SL * (((UstarL * Sstar) * nx) - rhouL)) * (b.jS i j k)))
              let F : FluxV := set F 2 (FVL + ((SL * (((UstarL * Sstar) * ny) - rhovL)) * (b.jS i j k)))
              let F : FluxV := set F 3 (FWL + ((SL * (((UstarL * Sstar) * nz) - rhowL)) * (b.jS i j k)))
              let F : FluxV := set F 4 (FEL + ((SL * ((UstarL * ((EL / rhoL) + ((Sstar - UL) * (Sstar + (pL / (rhoL * (SL - UL))))))) - EL)) * (b.jS i j k)))
              let F : FluxV := fun m => if 5 ≤ m ∧ m < b.ne then
                  let n : ℕ := m - 5
                  let Yi : ℝ := (b.q i j k (5 + n))
                  let Yim1 : ℝ := (b.q i (j - 1) k (5 + n))
                  let Yim2 : ℝ := (b.q i (j - 2) k (5 + n))
                  let rL : ℝ := ((Yim1 - Yim2) / (Yi - Yim1))
                  let phiL : ℝ := (max 0 (min (min (theta * rL) ((1 + rL) / 2)) theta))
                  let YL : ℝ := (Yim1 + (((1 / 2) * phiL) * (Yi - Yim1)))
                  let rhoYL : ℝ := (rhoL * YL)
                  let FYL : ℝ := ((rhoYL * UL) * (b.jS i j k))
                  let F : FluxV := set F (5 + n) (FYL + ((SL * ((UstarL * YL) - rhoYL)) * (b.jS i j k)))
                  F m
                else F m
              F
            else
              let F' : FluxV := if (SR ≥ 0 ∧ Sstar ≤ 0) then
                    let FrhoR : ℝ := ((UR * rhoR) * (b.jS i j k))
                    let FUR : ℝ := (((UR * rhouR) * (b.jS i j k)) + (pR * (b.jsx i j k)))
                    let FVR : ℝ := (((UR * rhovR) * (b.jS i j k)) + (pR * (b.jsy i j k)))
                    let FWR : ℝ := (((UR * rhowR) * (b.jS i j k)) + (pR * (b.jsz i j k)))
                    let FER : ℝ := ((UR * (ER + pR)) * (b.jS i j k))
                    let UstarR : ℝ := ((rhoR * (SR - UR)) / (SR - Sstar))
                    let F : FluxV := set F 0 (FrhoR + ((SR * (UstarR - rhoR)) * (b.jS i j k)))
                    let F : FluxV := set F 1 (FUR + ((SR * (((UstarR * Sstar) * nx) - rhouR)) * (b.jS i j k)))
                    let F : FluxV := set F 2 (FVR + ((SR * (((UstarR * Sstar) * ny) - rhovR)) * (b.jS i j k)))
                    let F : FluxV := set F 3 (FWR + ((SR * (((UstarR * Sstar) * nz) - rhowR)) * (b.jS i j k)))
                    let F : FluxV := set F 4 (FER + ((SR * ((UstarR * ((ER / rhoR) + ((Sstar - UR) * (Sstar + (pR / (rhoR * (SR - UR))))))) - ER)) * (b.jS i j k)))
                    let F : FluxV := fun m => if 5 ≤ m ∧ m < b.ne then
                        let n : ℕ := m - 5
                        let Yi : ℝ := (b.q i j k (5 + n))
                        let Yim1 : ℝ := (b.q i (j - 1) k (5 + n))
                        let Yip1 : ℝ := (b.q i (j + 1) k (5 + n))
                        let rR : ℝ := ((Yi - Yim1) / (Yip1 - Yi))
                        let phiR : ℝ := (max 0 (min (min (theta * rR) ((1 + rR) / 2)) theta))
                        let YR : ℝ := (Yi - (((1 / 2) * phiR) * (Yip1 - Yi)))
                        let rhoYR : ℝ := (rhoR * YR)
                        let FYR : ℝ := ((rhoYR * UR) * (b.jS i j k))
                        let F : FluxV := set F (5 + n) (FYR + ((SR * ((UstarR * YR) - rhoYR)) * (b.jS i j k)))
                        F m
                      else F m
                    F
                  else
                    let F' : FluxV := if SR ≤ 0 then
                          let F : FluxV := set F 0 ((UR * rhoR) * (b.jS i j k))
                          let F : FluxV := set F 1 (((UR * rhouR) * (b.jS i j k)) + (pR * (b.jsx i j k)))
                          let F : FluxV := set F 2 (((UR * rhovR) * (b.jS i j k)) + (pR * (b.jsy i j k)))
                          let F : FluxV := set F 3 (((UR * rhowR) * (b.jS i j k)) + (pR * (b.jsz i j k)))
                          let F : FluxV := set F 4 ((UR * (ER + pR)) * (b.jS i j k))
                          let F : FluxV := fun m => if 5 ≤ m ∧ m < b.ne then
                              let n : ℕ := m - 5
                              let Yi : ℝ := (b.q i j k (5 + n))
                              let Yim1 : ℝ := (b.q i (j - 1) k (5 + n))
                              let Yip1 : ℝ := (b.q i (j + 1) k (5 + n))
                              let rR : ℝ := ((Yi - Yim1) / (Yip1 - Yi))
                              let phiR : ℝ := (max 0 (min (min (theta * rR) ((1 + rR) / 2)) theta))
                              let YR : ℝ := (Yi - (((1 / 2) * phiR) * (Yip1 - Yi)))
                              let rhoYR : ℝ := (rhoR * YR)
                              let F : FluxV := set F (5 + n) ((UR * rhoYR) * (b.jS i j k))
                              F m
                            else F m
                          F
                        else
                          F
                    let F : FluxV := F'
                    F
              let F : FluxV := F'
              F
        let F : FluxV := F'
        F
  let F : FluxV := F'
  F

/-- advFlux/muscl2hllc.cpp:503-728 -/
noncomputable def muscl2hllc_kF (b : Blk) (i j k : ℤ) (F : FluxV) : FluxV :=
  let theta : ℝ := 2
  let rhoi : ℝ := (b.Q i j k 0)
  let rhoim1 : ℝ := (b.Q i j (k - 1) 0)
  let rhoim2 : ℝ := (b.Q i j (k - 2) 0)
  let rhoip1 : ℝ := (b.Q i j (k + 1) 0)
  let rR : ℝ := ((rhoi - rhoim1) / (rhoip1 - rhoi))
  let rL : ℝ := ((rhoim1 - rhoim2) / (rhoi - rhoim1))
  let phiR : ℝ := (max 0 (min (min (theta * rR) ((1 + rR) / 2)) theta))
  let phiL : ℝ := (max 0 (min (min (theta * rL) ((1 + rL) / 2)) theta))
  let rhoR : ℝ := (rhoi - (((1 / 2) * phiR) * (rhoip1 - rhoi)))
  let rhoL : ℝ := (rhoim1 + (((1 / 2) * phiL) * (rhoi - rhoim1)))
  let ui : ℝ := (b.q i j k 1)
  let uim1 : ℝ := (b.q i j (k - 1) 1)
  let uim2 : ℝ := (b.q i j (k - 2) 1)
  let uip1 : ℝ := (b.q i j (k + 1) 1)
  let rR : ℝ := ((ui - uim1) / (uip1 - ui))
  let rL : ℝ := ((uim1 - uim2) / (ui - uim1))
  let phiR : ℝ := (max 0 (min (min (theta * rR) ((1 + rR) / 2)) theta))
  let phiL : ℝ := (max 0 (min (min (theta * rL) ((1 + rL) / 2)) theta))
  let ufR : ℝ := (ui - (((1 / 2) * phiR) * (uip1 - ui)))
  let ufL : ℝ := (uim1 + (((1 / 2) * phiL) * (ui - uim1)))
  let vi : ℝ := (b.q i j k 2)
  let vim1 : ℝ := (b.q i j (k - 1) 2)
  let vim2 : ℝ := (b.q i j (k - 2) 2)
  let vip1 : ℝ := (b.q i j (k + 1) 2)
  let rR : ℝ := ((vi - vim1) / (vip1 - vi))
  let rL : ℝ := ((vim1 - vim2) / (vi - vim1))
  let phiR : ℝ := (max 0 (min (min (theta * rR) ((1 + rR) / 2)) theta))
  let phiL : ℝ := (max 0 (min (min (theta * rL) ((1 + rL) / 2)) theta))
  let vfR : ℝ := (vi - (((1 / 2) * phiR) * (vip1 - vi)))
  let vfL : ℝ := (vim1 + (((1 / 2) * phiL) * (vi - vim1)))
  let wi : ℝ := (b.q i j k 3)
  let wim1 : ℝ := (b.q i j (k - 1) 3)
  let wim2 : ℝ := (b.q i j (k - 2) 3)
  let wip1 : ℝ := (b.q i j (k + 1) 3)
  let rR : ℝ := ((wi - wim1) / (wip1 - wi))
  let rL : ℝ := ((wim1 - wim2) / (wi - wim1))
  let phiR : ℝ := (max 0 (min (min (theta * rR) ((1 + rR) / 2)) theta))
  let phiL : ℝ := (max 0 (min (min (theta * rL) ((1 + rL) / 2)) theta))
  let wfR : ℝ := (wi - (((1 / 2) * phiR) * (wip1 - wi)))
  let wfL : ℝ := (wim1 + (((1 / 2) * phiL) * (wi - wim1)))
  let nx : ℝ := (b.knx i j k)
  let ny : ℝ := (b.kny i j k)
  let nz : ℝ := (b.knz i j k)
  let UR : ℝ := (((nx * ufR) + (ny * vfR)) + (nz * wfR))
  let UL : ℝ := (((nx * ufL) + (ny * vfL)) + (nz * wfL))
  let rhouR : ℝ := (rhoR * ufR)
  let rhouL : ℝ := (rhoL * ufL)
  let rhovR : ℝ := (rhoR * vfR)
  let rhovL : ℝ := (rhoL * vfL)
  let rhowR : ℝ := (rhoR * wfR)
  let rhowL : ℝ := (rhoL * wfL)
  let ei : ℝ := ((b.qh i j k 4) / rhoi)
  let eim1 : ℝ := ((b.qh i j (k - 1) 4) / rhoim1)
  let eim2 : ℝ := ((b.qh i j (k - 2) 4) / rhoim2)
  let eip1 : ℝ := ((b.qh i j (k + 1) 4) / rhoip1)
  let rR : ℝ := ((ei - eim1) / (eip1 - ei))
  let rL : ℝ := ((eim1 - eim2) / (ei - eim1))
  let phiR : ℝ := (max 0 (min (min (theta * rR) ((1 + rR) / 2)) theta))
  let phiL : ℝ := (max 0 (min (min (theta * rL) ((1 + rL) / 2)) theta))
  let eR : ℝ := (ei - (((1 / 2) * phiR) * (eip1 - ei)))
  let eL : ℝ := (eim1 + (((1 / 2) * phiL) * (ei - eim1)))
  let pi : ℝ := (b.q i j k 0)
  let pim1 : ℝ := (b.q i j (k - 1) 0)
  let pip1 : ℝ := (b.q i j (k + 1) 0)
  let pR : ℝ := (pi - (((1 / 2) * phiR) * (pip1 - pi)))
  let pL : ℝ := (pim1 + (((1 / 2) * phiL) * (pi - pim1)))
  let ci : ℝ := (b.qh i j k 3)
  let cim1 : ℝ := (b.qh i j (k - 1) 3)
  let cip1 : ℝ := (b.qh i j (k + 1) 3)
  let cR : ℝ := (ci - (((1 / 2) * phiR) * (cip1 - ci)))
  let cL : ℝ := (cim1 + (((1 / 2) * phiL) * (ci - cim1)))
  let kR : ℝ := ((1 / 2) * (((ufR ^ 2) + (vfR ^ 2)) + (wfR ^ 2)))
  let kL : ℝ := ((1 / 2) * (((ufL ^ 2) + (vfL ^ 2)) + (wfL ^ 2)))
  let ER : ℝ := (rhoR * (eR + kR))
  let EL : ℝ := (rhoL * (eL + kL))
  let pstar : ℝ := (((1 / 2) * (pL + pR)) - ((((((1 / 2) * (UR - UL)) * (1 / 2)) * (rhoL + rhoR)) * (1 / 2)) * (cL + cR)))
  let pstar : ℝ := (max 0 pstar)
  let SL : ℝ := (UL - cL)
  let SR : ℝ := (UR + cR)
  let Sstar : ℝ := ((((pR - pL) + ((rhoL * UL) * (SL - UL))) - ((rhoR * UR) * (SR - UR))) / ((rhoL * (SL - UL)) - (rhoR * (SR - UR))))
  let F' : FluxV := if SL ≥ 0 then
        let F : FluxV := set F 0 ((UL * rhoL) * (b.kS i j k))
        let F : FluxV := set F 1 (((UL * rhouL) * (b.kS i j k)) + (pL * (b.ksx i j k)))
        let F : FluxV := set F 2 (((UL * rhovL) * (b.kS i j k)) + (pL * (b.ksy i j k)))
        let F : FluxV := set F 3 (((UL * rhowL) * (b.kS i j k)) + (pL * (b.ksz i j k)))
        let F : FluxV := set F 4 ((UL * (EL + pL)) * (b.kS i j k))
        let F : FluxV := fun m => if 5 ≤ m ∧ m < b.ne then
            let n : ℕ := m - 5
            let Yi : ℝ := (b.q i j k (5 + n))
            let Yim1 : ℝ := (b.q i j (k - 1) (5 + n))
            let Yim2 : ℝ := (b.q i j (k - 2) (5 + n))
            let rL : ℝ := ((Yim1 - Yim2) / (Yi - Yim1))
            let phiL : ℝ := (max 0 (min (min (theta * rL) ((1 + rL) / 2)) theta))
            let YL : ℝ := (Yim1 + (((1 / 2) * phiL) * (Yi - Yim1)))
            let rhoYL : ℝ := (rhoL * YL)
            let F : FluxV := set F (5 + n) ((UL * rhoYL) * (b.kS i j k))
            F m
          else F m
        F
      else
        let F' : FluxV := if (SL ≤ 0 ∧ Sstar ≥ 0) then
              let FrhoL : ℝ := ((UL * rhoL) * (b.kS i j k))
              let FUL : ℝ := (((UL * rhouL) * (b.kS i j k)) + (pL * (b.ksx i j k)))
              let FVL : ℝ := (((UL * rhovL) * (b.kS i j k)) + (pL * (b.ksy i j k)))
              let FWL : ℝ := (((UL * rhowL) * (b.kS i j k)) + (pL * (b.ksz i j k)))
              let FEL : ℝ := ((UL * (EL + pL)) * (b.kS i j k))
              let UstarL : ℝ := ((rhoL * (SL - UL)) / (SL - Sstar))
              let F : FluxV := set F 0 (FrhoL + ((SL * (UstarL - rhoL)) * (b.kS i j k)))
              let F : FluxV := set F 1 (FUL + ((SL * (((UstarL * Sstar) * nx) - rhouL)) * (b.kS i j k)))
              let F : FluxV := set F 2 (FVL + ((SL * (((UstarL * Sstar) * ny) - rhovL)) * (b.kS i j k)))
              let F : FluxV := set F 3 (FWL + ((SL * (((UstarL * Sstar) * nz) - rhowL)) * (b.kS i j k)))
              let F : FluxV := set F 4 (FEL + ((SL * ((UstarL * ((EL / rhoL) + ((Sstar - UL) * (Sstar + (pL / (rhoL * (SL - UL))))))) - EL)) * (b.kS i j k)))
              let F : FluxV := fun m => if 5 ≤ m ∧ m < b.ne then
                  let n : ℕ := m - 5
                  let Yi : ℝ := (b.q i j k (5 + n))
                  let Yim1 : ℝ := (b.q i j (k - 1) (5 + n))
                  let Yim2 : ℝ := (b.q i j (k - 2) (5 + n))
                  let rL : ℝ := ((Yim1 - Yim2) / (Yi - Yim1))
                  let phiL : ℝ := (max 0 (min (min (theta * rL) ((1 + rL) / 2)) theta))
                  let YL : ℝ := (Yim1 + (((1 / 2) * phiL) * (Yi - Yim1)))
                  let rhoYL : ℝ := (rhoL * YL)
                  let FYL : ℝ := ((rhoYL * UL) * (b.kS i j k))
                  let F : FluxV := set F (5 + n) (FYL + ((SL * ((UstarL * YL) - rhoYL)) * (b.kS i j k)))
                  F m
                else F m
              F
            else
              let F' : FluxV := if (SR ≥ 0 ∧ Sstar ≤ 0) then
                    let FrhoR : ℝ := ((UR * rhoR) * (b.kS i j k))
                    let FUR : ℝ := (((UR * rhouR) * (b.kS i j k)) + (pR * (b.ksx i j k)))
                    let FVR : ℝ := (((UR * rhovR) * (b.kS i j k)) + (pR * (b.ksy i j k)))
                    let FWR : ℝ := (((UR * rhowR) * (b.kS i j k)) + (pR * (b.ksz i j k)))
                    let FER : ℝ := ((UR * (ER + pR)) * (b.kS i j k))
                    let UstarR : ℝ := ((rhoR * (SR - UR)) / (SR - Sstar))
                    let F : FluxV := set F 0 (FrhoR + ((SR * (UstarR - rhoR)) * (b.kS i j k)))
                    let F : FluxV := set F 1 (FUR + ((SR * (((UstarR * Sstar) * nx) - rhouR)) * (b.kS i j k)))
                    let F : FluxV := set F 2 (FVR + ((SR * (((UstarR * Sstar) * ny) - rhovR)) * (b.kS i j k)))
                    let F : FluxV := set F 3 (FWR + ((SR * (((UstarR * Sstar) * nz) - rhowR)) * (b.kS i j k)))
                    let F : FluxV := set F 4 (FER + ((SR * ((UstarR * ((ER / rhoR) + ((Sstar - UR) * (Sstar + (pR / (rhoR * (SR - UR))))))) - ER)) * (b.kS i j k)))
                    let F : FluxV := fun m => if 5 ≤ m ∧ m < b.ne then
                        let n : ℕ := m - 5
                        let Yi : ℝ := (b.q i j k (5 + n))
                        let Yim1 : ℝ := (b.q i j (k - 1) (5 + n))
                        let Yip1 : ℝ := (b.q i j (k + 1) (5 + n))
                        let rR : ℝ := ((Yi - Yim1) / (Yip1 - Yi))
                        let phiR : ℝ := (max 0 (min (min (theta * rR) ((1 + rR) / 2)) theta))
                        let YR : ℝ := (Yi - (((1 / 2) * phiR) * (Yip1 - Yi)))
                        let rhoYR : ℝ := (rhoR * YR)
                        let FYR : ℝ := ((rhoYR * UR) * (b.kS i j k))
                        let F : FluxV := set F (5 + n) (FYR + ((SR * ((UstarR * YR) - rhoYR)) * (b.kS i j k)))
                        F m
                      else F m
                    F
                  else
                    let F' : FluxV := if SR ≤ 0 then
                          let F : FluxV := set F 0 ((UR * rhoR) * (b.kS i j k))
                          let F : FluxV := set F 1 (((UR * rhouR) * (b.kS i j k)) + (pR * (b.ksx i j k)))
                          let F : FluxV := set F 2 (((UR * rhovR) * (b.kS i j k)) + (pR * (b.ksy i j k)))
                          let F : FluxV := set F 3 (((UR * rhowR) * (b.kS i j k)) + (pR * (b.ksz i j k)))
                          let F : FluxV := set F 4 ((UR * (ER + pR)) * (b.kS i j k))
                          let F : FluxV := fun m => if 5 ≤ m ∧ m < b.ne then
                              let n : ℕ := m - 5
                              let Yi : ℝ := (b.q i j k (5 + n))
                              let Yim1 : ℝ := (b.q i j (k - 1) (5 + n))
                              let Yip1 : ℝ := (b.q i j (k + 1) (5 + n))
                              let rR : ℝ := ((Yi - Yim1) / (Yip1 - Yi))
                              let phiR : ℝ := (max 0 (min (min (theta * rR) ((1 + rR) / 2)) theta))
                              let YR : ℝ := (Yi - (((1 / 2) * phiR) * (Yip1 - Yi)))
                              let rhoYR : ℝ := (rhoR * YR)
                              let F : FluxV := set F (5 + n) ((UR * rhoYR) * (b.kS i j k))
                              F m
                            else F m
                          F
                        else
                          F
                    let F : FluxV := F'
                    F
              let F : FluxV := F'
              F
        let F : FluxV := F'
        F
  let F : FluxV := F'
  F

end PG.Text
