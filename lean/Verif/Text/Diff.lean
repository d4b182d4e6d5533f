import Verif.Text.Flux
/-
Generated by tools/mktext.py from the text of the diffusive flux kernels; do not edit. A loop over the species that carries values from one
species to the next is a fold.
-/
namespace PG.Text
open PG.Flux (FluxV)

/-- what the diffusive flux kernels read of a block (block_.hpp) -/
structure DBlk where
  ne : ℕ
  q : Arr4
  Q : Arr4
  qh : Arr4
  qt : Arr4
  dqdx : Arr4
  dqdy : Arr4
  dqdz : Arr4
  xc : Arr
  yc : Arr
  zc : Arr
  isx : Arr
  isy : Arr
  isz : Arr
  inx : Arr
  iny : Arr
  inz : Arr
  ixc : Arr
  iyc : Arr
  izc : Arr
  jsx : Arr
  jsy : Arr
  jsz : Arr
  jnx : Arr
  jny : Arr
  jnz : Arr
  jxc : Arr
  jyc : Arr
  jzc : Arr
  ksx : Arr
  ksy : Arr
  ksz : Arr
  knx : Arr
  kny : Arr
  knz : Arr
  kxc : Arr
  kyc : Arr
  kzc : Arr

/-- diffFlux/diffusiveFlux.cpp:11-152 -/
noncomputable def diffusiveFlux_computeFlux (b : DBlk) (isx isy isz : Arr) (iMod jMod kMod i j k : ℤ) (F : FluxV) : FluxV :=
  let bulkVisc : ℝ := 0
  let mu : ℝ := ((1 / 2) * ((b.qt i j k 0) + (b.qt (i - iMod) (j - jMod) (k - kMod) 0)))
  let kappa : ℝ := ((1 / 2) * ((b.qt i j k 1) + (b.qt (i - iMod) (j - jMod) (k - kMod) 1)))
  let lambda : ℝ := (bulkVisc - ((2 / 3) * mu))
  let F : FluxV := set F 0 0
  let dudx : ℝ := ((1 / 2) * ((b.dqdx i j k 1) + (b.dqdx (i - iMod) (j - jMod) (k - kMod) 1)))
  let dvdx : ℝ := ((1 / 2) * ((b.dqdx i j k 2) + (b.dqdx (i - iMod) (j - jMod) (k - kMod) 2)))
  let dwdx : ℝ := ((1 / 2) * ((b.dqdx i j k 3) + (b.dqdx (i - iMod) (j - jMod) (k - kMod) 3)))
  let dudy : ℝ := ((1 / 2) * ((b.dqdy i j k 1) + (b.dqdy (i - iMod) (j - jMod) (k - kMod) 1)))
  let dvdy : ℝ := ((1 / 2) * ((b.dqdy i j k 2) + (b.dqdy (i - iMod) (j - jMod) (k - kMod) 2)))
  let dwdy : ℝ := ((1 / 2) * ((b.dqdy i j k 3) + (b.dqdy (i - iMod) (j - jMod) (k - kMod) 3)))
  let dudz : ℝ := ((1 / 2) * ((b.dqdz i j k 1) + (b.dqdz (i - iMod) (j - jMod) (k - kMod) 1)))
  let dvdz : ℝ := ((1 / 2) * ((b.dqdz i j k 2) + (b.dqdz (i - iMod) (j - jMod) (k - kMod) 2)))
  let dwdz : ℝ := ((1 / 2) * ((b.dqdz i j k 3) + (b.dqdz (i - iMod) (j - jMod) (k - kMod) 3)))
  let div : ℝ := ((dudx + dvdy) + dwdz)
  let txx : ℝ := ((((-2) * mu) * dudx) - (lambda * div))
  let txy : ℝ := ((-mu) * (dvdx + dudy))
  let txz : ℝ := ((-mu) * (dwdx + dudz))
  let F : FluxV := set F 1 (((txx * (isx i j k)) + (txy * (isy i j k))) + (txz * (isz i j k)))
  let tyx : ℝ := txy
  let tyy : ℝ := ((((-2) * mu) * dvdy) - (lambda * div))
  let tyz : ℝ := ((-mu) * (dwdy + dvdz))
  let F : FluxV := set F 2 (((tyx * (isx i j k)) + (tyy * (isy i j k))) + (tyz * (isz i j k)))
  let tzx : ℝ := txz
  let tzy : ℝ := tyz
  let tzz : ℝ := ((((-2) * mu) * dwdz) - (lambda * div))
  let F : FluxV := set F 3 (((tzx * (isx i j k)) + (tzy * (isy i j k))) + (tzz * (isz i j k)))
  let dTdx : ℝ := ((1 / 2) * ((b.dqdx i j k 4) + (b.dqdx (i - iMod) (j - jMod) (k - kMod) 4)))
  let dTdy : ℝ := ((1 / 2) * ((b.dqdy i j k 4) + (b.dqdy (i - iMod) (j - jMod) (k - kMod) 4)))
  let dTdz : ℝ := ((1 / 2) * ((b.dqdz i j k 4) + (b.dqdz (i - iMod) (j - jMod) (k - kMod) 4)))
  let q : ℝ := ((-kappa) * (((dTdx * (isx i j k)) + (dTdy * (isy i j k))) + (dTdz * (isz i j k))))
  let uf : ℝ := ((1 / 2) * ((b.q i j k 1) + (b.q (i - iMod) (j - jMod) (k - kMod) 1)))
  let vf : ℝ := ((1 / 2) * ((b.q i j k 2) + (b.q (i - iMod) (j - jMod) (k - kMod) 2)))
  let wf : ℝ := ((1 / 2) * ((b.q i j k 3) + (b.q (i - iMod) (j - jMod) (k - kMod) 3)))
  let F : FluxV := set F 4 (((((-(((uf * txx) + (vf * txy)) + (wf * txz))) * (isx i j k)) - ((((uf * tyx) + (vf * tyy)) + (wf * tyz)) * (isy i j k))) - ((((uf * tzx) + (vf * tzy)) + (wf * tzz)) * (isz i j k))) + q)
  let Vc : ℝ := 0
  let gradYns : ℝ := 0
  let rho : ℝ := ((1 / 2) * ((b.Q i j k 0) + (b.Q (i - iMod) (j - jMod) (k - kMod) 0)))
  let st : FluxV × ℝ × ℝ := (List.range (b.ne - 5)).foldl (fun (st : FluxV × ℝ × ℝ) (n : ℕ) =>
      let F : FluxV := st.1
      let gradYns : ℝ := st.2.1
      let Vc : ℝ := st.2.2
      let Dk : ℝ := ((1 / 2) * ((b.qt i j k (2 + n)) + (b.qt (i - iMod) (j - jMod) (k - kMod) (2 + n))))
      let dYdx : ℝ := ((1 / 2) * ((b.dqdx i j k (5 + n)) + (b.dqdx (i - iMod) (j - jMod) (k - kMod) (5 + n))))
      let dYdy : ℝ := ((1 / 2) * ((b.dqdy i j k (5 + n)) + (b.dqdy (i - iMod) (j - jMod) (k - kMod) (5 + n))))
      let dYdz : ℝ := ((1 / 2) * ((b.dqdz i j k (5 + n)) + (b.dqdz (i - iMod) (j - jMod) (k - kMod) (5 + n))))
      let gradYk : ℝ := (((dYdx * (isx i j k)) + (dYdy * (isy i j k))) + (dYdz * (isz i j k)))
      let gradYns : ℝ := (gradYns - gradYk)
      let Vc : ℝ := (Vc + (Dk * gradYk))
      let F : FluxV := set F (5 + n) (((-rho) * Dk) * gradYk)
      (F, gradYns, Vc)) (F, gradYns, Vc)
  let F : FluxV := st.1
  let gradYns : ℝ := st.2.1
  let Vc : ℝ := st.2.2
  let Dk : ℝ := ((1 / 2) * ((b.qt i j k ((2 + b.ne) - 5)) + (b.qt (i - iMod) (j - jMod) (k - kMod) ((2 + b.ne) - 5))))
  let Vc : ℝ := (Vc + (Dk * gradYns))
  let Yns : ℝ := 1
  let st : FluxV × ℝ := (List.range (b.ne - 5)).foldl (fun (st : FluxV × ℝ) (n : ℕ) =>
      let F : FluxV := st.1
      let Yns : ℝ := st.2
      let Yk : ℝ := ((1 / 2) * ((b.q i j k (5 + n)) + (b.q (i - iMod) (j - jMod) (k - kMod) (5 + n))))
      let Yns : ℝ := (Yns - Yk)
      let F : FluxV := set F (5 + n) (F (5 + n) + ((Yk * rho) * Vc))
      let hk : ℝ := ((1 / 2) * ((b.qh i j k (5 + n)) + (b.qh (i - iMod) (j - jMod) (k - kMod) (5 + n))))
      let F : FluxV := set F 4 (F 4 + ((F (5 + n)) * hk))
      (F, Yns)) (F, Yns)
  let F : FluxV := st.1
  let Yns : ℝ := st.2
  let Yns : ℝ := (max Yns 0)
  let hk : ℝ := ((1 / 2) * ((b.qh i j k b.ne) + (b.qh (i - iMod) (j - jMod) (k - kMod) b.ne)))
  let F : FluxV := set F 4 (F 4 + (((((-rho) * Dk) * gradYns) + ((Yns * rho) * Vc)) * hk))
  F

/-- diffFlux/diffusiveFlux.cpp:155 -/
noncomputable def diffusiveFlux_iF (b : DBlk) (i j k : ℤ) (F : FluxV) : FluxV :=
  diffusiveFlux_computeFlux b b.isx b.isy b.isz 1 0 0 i j k F

/-- diffFlux/diffusiveFlux.cpp:156 -/
noncomputable def diffusiveFlux_jF (b : DBlk) (i j k : ℤ) (F : FluxV) : FluxV :=
  diffusiveFlux_computeFlux b b.jsx b.jsy b.jsz 0 1 0 i j k F

/-- diffFlux/diffusiveFlux.cpp:157 -/
noncomputable def diffusiveFlux_kF (b : DBlk) (i j k : ℤ) (F : FluxV) : FluxV :=
  diffusiveFlux_computeFlux b b.ksx b.ksy b.ksz 0 0 1 i j k F

/-- diffFlux/alphaDampingFlux.cpp:20-237 -/
noncomputable def alphaDampingFlux_computeFlux (b : DBlk) (isx isy isz inx iny inz ixc iyc izc : Arr) (iMod jMod kMod i j k : ℤ) (F : FluxV) : FluxV :=
  let bulkVisc : ℝ := 0
  let alpha : ℝ := 1
  let mu : ℝ := ((1 / 2) * ((b.qt i j k 0) + (b.qt (i - iMod) (j - jMod) (k - kMod) 0)))
  let kappa : ℝ := ((1 / 2) * ((b.qt i j k 1) + (b.qt (i - iMod) (j - jMod) (k - kMod) 1)))
  let lambda : ℝ := (bulkVisc - ((2 / 3) * mu))
  let F : FluxV := set F 0 0
  let e_0 : ℝ := ((b.xc i j k) - (b.xc (i - iMod) (j - jMod) (k - kMod)))
  let e_1 : ℝ := ((b.yc i j k) - (b.yc (i - iMod) (j - jMod) (k - kMod)))
  let e_2 : ℝ := ((b.zc i j k) - (b.zc (i - iMod) (j - jMod) (k - kMod)))
  let njk_0 : ℝ := (inx i j k)
  let njk_1 : ℝ := (iny i j k)
  let njk_2 : ℝ := (inz i j k)
  let MAGeDOTn : ℝ := (Real.sqrt ((((e_0 * njk_0) ^ 2) + ((e_1 * njk_1) ^ 2)) + ((e_2 * njk_2) ^ 2)))
  let damp_0 : ℝ := ((alpha / MAGeDOTn) * njk_0)
  let damp_1 : ℝ := ((alpha / MAGeDOTn) * njk_1)
  let damp_2 : ℝ := ((alpha / MAGeDOTn) * njk_2)
  let xcim1_0 : ℝ := ((ixc i j k) - (b.xc (i - iMod) (j - jMod) (k - kMod)))
  let xcim1_1 : ℝ := ((iyc i j k) - (b.yc (i - iMod) (j - jMod) (k - kMod)))
  let xcim1_2 : ℝ := ((izc i j k) - (b.zc (i - iMod) (j - jMod) (k - kMod)))
  let xci_0 : ℝ := ((ixc i j k) - (b.xc i j k))
  let xci_1 : ℝ := ((iyc i j k) - (b.yc i j k))
  let xci_2 : ℝ := ((izc i j k) - (b.zc i j k))
  let wDOTxc : ℝ := ((((b.dqdx (i - iMod) (j - jMod) (k - kMod) 1) * xcim1_0) + ((b.dqdy (i - iMod) (j - jMod) (k - kMod) 1) * xcim1_1)) + ((b.dqdz (i - iMod) (j - jMod) (k - kMod) 1) * xcim1_2))
  let wL : ℝ := ((b.q (i - iMod) (j - jMod) (k - kMod) 1) + wDOTxc)
  let wDOTxc : ℝ := ((((b.dqdx i j k 1) * xci_0) + ((b.dqdy i j k 1) * xci_1)) + ((b.dqdz i j k 1) * xci_2))
  let wR : ℝ := ((b.q i j k 1) + wDOTxc)
  let dudx : ℝ := (((1 / 2) * ((b.dqdx i j k 1) + (b.dqdx (i - iMod) (j - jMod) (k - kMod) 1))) + (damp_0 * (wR - wL)))
  let dudy : ℝ := (((1 / 2) * ((b.dqdy i j k 1) + (b.dqdy (i - iMod) (j - jMod) (k - kMod) 1))) + (damp_1 * (wR - wL)))
  let dudz : ℝ := (((1 / 2) * ((b.dqdz i j k 1) + (b.dqdz (i - iMod) (j - jMod) (k - kMod) 1))) + (damp_2 * (wR - wL)))
  let wDOTxc : ℝ := ((((b.dqdx (i - iMod) (j - jMod) (k - kMod) 2) * xcim1_0) + ((b.dqdy (i - iMod) (j - jMod) (k - kMod) 2) * xcim1_1)) + ((b.dqdz (i - iMod) (j - jMod) (k - kMod) 2) * xcim1_2))
  let wL : ℝ := ((b.q (i - iMod) (j - jMod) (k - kMod) 2) + wDOTxc)
  let wDOTxc : ℝ := ((((b.dqdx i j k 2) * xci_0) + ((b.dqdy i j k 2) * xci_1)) + ((b.dqdz i j k 2) * xci_2))
  let wR : ℝ := ((b.q i j k 2) + wDOTxc)
  let dvdx : ℝ := (((1 / 2) * ((b.dqdx i j k 2) + (b.dqdx (i - iMod) (j - jMod) (k - kMod) 2))) + (damp_0 * (wR - wL)))
  let dvdy : ℝ := (((1 / 2) * ((b.dqdy i j k 2) + (b.dqdy (i - iMod) (j - jMod) (k - kMod) 2))) + (damp_1 * (wR - wL)))
  let dvdz : ℝ := (((1 / 2) * ((b.dqdz i j k 2) + (b.dqdz (i - iMod) (j - jMod) (k - kMod) 2))) + (damp_2 * (wR - wL)))
  let wDOTxc : ℝ := ((((b.dqdx (i - iMod) (j - jMod) (k - kMod) 3) * xcim1_0) + ((b.dqdy (i - iMod) (j - jMod) (k - kMod) 3) * xcim1_1)) + ((b.dqdz (i - iMod) (j - jMod) (k - kMod) 3) * xcim1_2))
  let wL : ℝ := ((b.q (i - iMod) (j - jMod) (k - kMod) 3) + wDOTxc)
  let wDOTxc : ℝ := ((((b.dqdx i j k 3) * xci_0) + ((b.dqdy i j k 3) * xci_1)) + ((b.dqdz i j k 3) * xci_2))
  let wR : ℝ := ((b.q i j k 3) + wDOTxc)
  let dwdx : ℝ := (((1 / 2) * ((b.dqdx i j k 3) + (b.dqdx (i - iMod) (j - jMod) (k - kMod) 3))) + (damp_0 * (wR - wL)))
  let dwdy : ℝ := (((1 / 2) * ((b.dqdy i j k 3) + (b.dqdy (i - iMod) (j - jMod) (k - kMod) 3))) + (damp_1 * (wR - wL)))
  let dwdz : ℝ := (((1 / 2) * ((b.dqdz i j k 3) + (b.dqdz (i - iMod) (j - jMod) (k - kMod) 3))) + (damp_2 * (wR - wL)))
  let div : ℝ := ((dudx + dvdy) + dwdz)
  let txx : ℝ := ((((-2) * mu) * dudx) - (lambda * div))
  let txy : ℝ := ((-mu) * (dvdx + dudy))
  let txz : ℝ := ((-mu) * (dwdx + dudz))
  let F : FluxV := set F 1 (((txx * (isx i j k)) + (txy * (isy i j k))) + (txz * (isz i j k)))
  let tyx : ℝ := txy
  let tyy : ℝ := ((((-2) * mu) * dvdy) - (lambda * div))
  let tyz : ℝ := ((-mu) * (dwdy + dvdz))
  let F : FluxV := set F 2 (((tyx * (isx i j k)) + (tyy * (isy i j k))) + (tyz * (isz i j k)))
  let tzx : ℝ := txz
  let tzy : ℝ := tyz
  let tzz : ℝ := ((((-2) * mu) * dwdz) - (lambda * div))
  let F : FluxV := set F 3 (((tzx * (isx i j k)) + (tzy * (isy i j k))) + (tzz * (isz i j k)))
  let wDOTxc : ℝ := ((((b.dqdx (i - iMod) (j - jMod) (k - kMod) 4) * xcim1_0) + ((b.dqdy (i - iMod) (j - jMod) (k - kMod) 4) * xcim1_1)) + ((b.dqdz (i - iMod) (j - jMod) (k - kMod) 4) * xcim1_2))
  let wL : ℝ := ((b.q (i - iMod) (j - jMod) (k - kMod) 4) + wDOTxc)
  let wDOTxc : ℝ := ((((b.dqdx i j k 4) * xci_0) + ((b.dqdy i j k 4) * xci_1)) + ((b.dqdz i j k 4) * xci_2))
  let wR : ℝ := ((b.q i j k 4) + wDOTxc)
  let dTdx : ℝ := (((1 / 2) * ((b.dqdx i j k 4) + (b.dqdx (i - iMod) (j - jMod) (k - kMod) 4))) + (damp_0 * (wR - wL)))
  let dTdy : ℝ := (((1 / 2) * ((b.dqdy i j k 4) + (b.dqdy (i - iMod) (j - jMod) (k - kMod) 4))) + (damp_1 * (wR - wL)))
  let dTdz : ℝ := (((1 / 2) * ((b.dqdz i j k 4) + (b.dqdz (i - iMod) (j - jMod) (k - kMod) 4))) + (damp_2 * (wR - wL)))
  let q : ℝ := ((-kappa) * (((dTdx * (isx i j k)) + (dTdy * (isy i j k))) + (dTdz * (isz i j k))))
  let uf : ℝ := ((1 / 2) * ((b.q i j k 1) + (b.q (i - iMod) (j - jMod) (k - kMod) 1)))
  let vf : ℝ := ((1 / 2) * ((b.q i j k 2) + (b.q (i - iMod) (j - jMod) (k - kMod) 2)))
  let wf : ℝ := ((1 / 2) * ((b.q i j k 3) + (b.q (i - iMod) (j - jMod) (k - kMod) 3)))
  let F : FluxV := set F 4 (((((-(((uf * txx) + (vf * txy)) + (wf * txz))) * (isx i j k)) - ((((uf * tyx) + (vf * tyy)) + (wf * tyz)) * (isy i j k))) - ((((uf * tzx) + (vf * tzy)) + (wf * tzz)) * (isz i j k))) + q)
  let Vc : ℝ := 0
  let gradYns : ℝ := 0
  let rho : ℝ := ((1 / 2) * ((b.Q i j k 0) + (b.Q (i - iMod) (j - jMod) (k - kMod) 0)))
  let st : FluxV × ℝ × ℝ := (List.range (b.ne - 5)).foldl (fun (st : FluxV × ℝ × ℝ) (n : ℕ) =>
      let F : FluxV := st.1
      let gradYns : ℝ := st.2.1
      let Vc : ℝ := st.2.2
      let Dk : ℝ := ((1 / 2) * ((b.qt i j k (2 + n)) + (b.qt (i - iMod) (j - jMod) (k - kMod) (2 + n))))
      let wDOTxc : ℝ := ((((b.dqdx (i - iMod) (j - jMod) (k - kMod) (5 + n)) * xcim1_0) + ((b.dqdy (i - iMod) (j - jMod) (k - kMod) (5 + n)) * xcim1_1)) + ((b.dqdz (i - iMod) (j - jMod) (k - kMod) (5 + n)) * xcim1_2))
      let wL : ℝ := ((b.q (i - iMod) (j - jMod) (k - kMod) (5 + n)) + wDOTxc)
      let wDOTxc : ℝ := ((((b.dqdx i j k (5 + n)) * xci_0) + ((b.dqdy i j k (5 + n)) * xci_1)) + ((b.dqdz i j k (5 + n)) * xci_2))
      let wR : ℝ := ((b.q i j k (5 + n)) + wDOTxc)
      let dYdx : ℝ := (((1 / 2) * ((b.dqdx i j k (5 + n)) + (b.dqdx (i - iMod) (j - jMod) (k - kMod) (5 + n)))) + (damp_0 * (wR - wL)))
      let dYdy : ℝ := (((1 / 2) * ((b.dqdy i j k (5 + n)) + (b.dqdy (i - iMod) (j - jMod) (k - kMod) (5 + n)))) + (damp_1 * (wR - wL)))
      let dYdz : ℝ := (((1 / 2) * ((b.dqdz i j k (5 + n)) + (b.dqdz (i - iMod) (j - jMod) (k - kMod) (5 + n)))) + (damp_2 * (wR - wL)))
      let gradYk : ℝ := (((dYdx * (isx i j k)) + (dYdy * (isy i j k))) + (dYdz * (isz i j k)))
      let gradYns : ℝ := (gradYns - gradYk)
      let Vc : ℝ := (Vc + (Dk * gradYk))
      let F : FluxV := set F (5 + n) (((-rho) * Dk) * gradYk)
      (F, gradYns, Vc)) (F, gradYns, Vc)
  let F : FluxV := st.1
  let gradYns : ℝ := st.2.1
  let Vc : ℝ := st.2.2
  let Dk : ℝ := ((1 / 2) * ((b.qt i j k ((2 + b.ne) - 5)) + (b.qt (i - iMod) (j - jMod) (k - kMod) ((2 + b.ne) - 5))))
  let Vc : ℝ := (Vc + (Dk * gradYns))
  let Yns : ℝ := 1
  let st : FluxV × ℝ := (List.range (b.ne - 5)).foldl (fun (st : FluxV × ℝ) (n : ℕ) =>
      let F : FluxV := st.1
      let Yns : ℝ := st.2
      let Yk : ℝ := ((1 / 2) * ((b.q i j k (5 + n)) + (b.q (i - iMod) (j - jMod) (k - kMod) (5 + n))))
      let Yns : ℝ := (Yns - Yk)
      let F : FluxV := set F (5 + n) (F (5 + n) + ((Yk * rho) * Vc))
      let hk : ℝ := ((1 / 2) * ((b.qh i j k (5 + n)) + (b.qh (i - iMod) (j - jMod) (k - kMod) (5 + n))))
      let F : FluxV := set F 4 (F 4 + ((F (5 + n)) * hk))
      (F, Yns)) (F, Yns)
  let F : FluxV := st.1
  let Yns : ℝ := st.2
  let hk : ℝ := ((1 / 2) * ((b.qh i j k b.ne) + (b.qh (i - iMod) (j - jMod) (k - kMod) b.ne)))
  let F : FluxV := set F 4 (F 4 + (((((-rho) * Dk) * gradYns) + ((Yns * rho) * Vc)) * hk))
  F

/-- diffFlux/alphaDampingFlux.cpp:241 -/
noncomputable def alphaDampingFlux_iF (b : DBlk) (i j k : ℤ) (F : FluxV) : FluxV :=
  alphaDampingFlux_computeFlux b b.isx b.isy b.isz b.inx b.iny b.inz b.ixc b.iyc b.izc 1 0 0 i j k F

/-- diffFlux/alphaDampingFlux.cpp:243 -/
noncomputable def alphaDampingFlux_jF (b : DBlk) (i j k : ℤ) (F : FluxV) : FluxV :=
  alphaDampingFlux_computeFlux b b.jsx b.jsy b.jsz b.jnx b.jny b.jnz b.jxc b.jyc b.jzc 0 1 0 i j k F

/-- diffFlux/alphaDampingFlux.cpp:245 -/
noncomputable def alphaDampingFlux_kF (b : DBlk) (i j k : ℤ) (F : FluxV) : FluxV :=
  alphaDampingFlux_computeFlux b b.ksx b.ksy b.ksz b.knx b.kny b.knz b.kxc b.kyc b.kzc 0 0 1 i j k F

end PG.Text
