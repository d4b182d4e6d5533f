import Verif.Base.Vec
import Mathlib.Algebra.BigOperators.Group.Finset.Basic
import Mathlib.Algebra.BigOperators.Intervals
import Mathlib.Algebra.BigOperators.Ring.Finset
/-!
Model of the diffusive face fluxes, `src/compute/diffFlux/{diffusiveFlux,alphaDampingFlux}.cpp`. Doubles are reals; the
accumulations `+=`/`-=` over the species loop `n = 0 .. ne-6` are sums over `range (ns-1)` with `ns = ne - 4` species.
One call of the kernel body writes the flux vector of one face from the cells on its two sides, `L = (i-iMod, ..)` and
`R = (i, ..)`; the three `computeFlux` calls differ only in the face arrays passed (diffusiveFlux.cpp:146-150,
alphaDampingFlux.cpp:227-236). Division by zero (`MAGeDOTn = 0`) is not modelled as IEEE infinity: statements about the
damped flux assume it is positive.
-/
noncomputable section
namespace PG.Diff
open V3 Finset

/-- what the kernels read of one cell: `q l` primitives (0 p, 1-3 velocity, 4 T, 5+n species), `g l` their stored gradients
    (b.dqdx, b.dqdy, b.dqdz), `mu = qt(0)`, `kappa = qt(1)`, `D n = qt(2+n)`, `h n = qh(5+n)`, `rho = Q(0)`, `xc` centre -/
structure DCell where
  q : ℕ → ℝ
  g : ℕ → V3
  mu : ℝ
  kappa : ℝ
  D : ℕ → ℝ
  h : ℕ → ℝ
  rho : ℝ
  xc : V3

/-- face geometry: area vector, unit normal, centre -/
structure FaceD where
  s : V3
  n : V3
  xf : V3

/-- `0.5 * (right + left)` -/
def avg (r l : ℝ) : ℝ := 0.5 * (r + l)

/-- face gradient of variable `l`, diffusiveFlux.cpp:36-54, 84-89, 117-122 -/
def gradAvg (L R : DCell) (l : ℕ) : V3 :=
  ⟨avg (R.g l).x (L.g l).x, avg (R.g l).y (L.g l).y, avg (R.g l).z (L.g l).z⟩

/-- alphaDampingFlux.cpp:46-54: MAGeDOTn, the root of the sum of the squared componentwise products -/
def magEn (L R : DCell) (f : FaceD) : ℝ :=
  let e := R.xc - L.xc
  Real.sqrt ((e.x * f.n.x) ^ 2 + (e.y * f.n.y) ^ 2 + (e.z * f.n.z) ^ 2)

/-- alphaDampingFlux.cpp:56-57 with alpha = 1 (line 26) -/
def damp (L R : DCell) (f : FaceD) : V3 :=
  let alpha : ℝ := 1
  ⟨alpha / magEn L R f * f.n.x, alpha / magEn L R f * f.n.y, alpha / magEn L R f * f.n.z⟩

/-- `wL`, `wR`: value of variable `l` extrapolated from cell `c` to the face centre, alphaDampingFlux.cpp:58-73, 86-92, ... -/
def extrap (c : DCell) (f : FaceD) (l : ℕ) : ℝ :=
  let d := f.xf - c.xc
  c.q l + ((c.g l).x * d.x + (c.g l).y * d.y + (c.g l).z * d.z)

/-- alphaDampingFlux.cpp:74-82, 93-101, 112-120, 157-172, 190-208 -/
def gradDamp (L R : DCell) (f : FaceD) (l : ℕ) : V3 :=
  let d := damp L R f
  let dw := extrap R f l - extrap L f l
  ⟨avg (R.g l).x (L.g l).x + d.x * dw, avg (R.g l).y (L.g l).y + d.y * dw, avg (R.g l).z (L.g l).z + d.z * dw⟩

/-- the stress components of diffusiveFlux.cpp:56-77 (= alphaDampingFlux.cpp:122-143), rows x, y, z -/
structure Stress where
  txx : ℝ
  txy : ℝ
  txz : ℝ
  tyy : ℝ
  tyz : ℝ
  tzz : ℝ

/-- diffusiveFlux.cpp:29, 56-77; `gu gv gw` face gradients of the velocity components -/
def stress (mu : ℝ) (gu gv gw : V3) : Stress :=
  let bulkVisc : ℝ := 0
  let lambda := bulkVisc - 2 / 3 * mu
  let div := gu.x + gv.y + gw.z
  { txx := -2 * mu * gu.x - lambda * div
    txy := -mu * (gv.x + gu.y)
    txz := -mu * (gw.x + gu.z)
    tyy := -2 * mu * gv.y - lambda * div
    tyz := -mu * (gw.y + gv.z)
    tzz := -2 * mu * gw.z - lambda * div }

/-- gradYk, diffusiveFlux.cpp:124-125 -/
def sgrad (G : ℕ → V3) (s : V3) (n : ℕ) : ℝ := (G (5+n)).x * s.x + (G (5+n)).y * s.y + (G (5+n)).z * s.z
/-- gradYns after the loop, diffusiveFlux.cpp:107, 126 -/
def sgradLast (ns : ℕ) (G : ℕ → V3) (s : V3) : ℝ := 0 - ∑ n ∈ range (ns - 1), sgrad G s n
/-- Vc after the last species was added, diffusiveFlux.cpp:106, 127, 131-133; index `2 + b.ne - 5` is `D (ns-1)` -/
def corrVel (ns : ℕ) (L R : DCell) (G : ℕ → V3) (s : V3) : ℝ :=
  ∑ n ∈ range (ns - 1), avg (R.D n) (L.D n) * sgrad G s n + avg (R.D (ns-1)) (L.D (ns-1)) * sgradLast ns G s
/-- iF(5+n) after the correction, diffusiveFlux.cpp:128, 142 -/
def specFlux (ns : ℕ) (L R : DCell) (G : ℕ → V3) (s : V3) (n : ℕ) : ℝ :=
  -avg R.rho L.rho * avg (R.D n) (L.D n) * sgrad G s n + avg (R.q (5+n)) (L.q (5+n)) * avg R.rho L.rho * corrVel ns L R G s
/-- Yns, diffusiveFlux.cpp:137, 141, 149; `clamp` is the `fmax` only diffusiveFlux has (alphaDampingFlux.cpp:199-219 has not) -/
def lastY (clamp : Bool) (ns : ℕ) (L R : DCell) : ℝ :=
  let y := 1 - ∑ n ∈ range (ns - 1), avg (R.q (5+n)) (L.q (5+n))
  if clamp then max y 0 else y
/-- the factor in front of the last species' enthalpy, diffusiveFlux.cpp:152 -/
def lastFlux (clamp : Bool) (ns : ℕ) (L R : DCell) (G : ℕ → V3) (s : V3) : ℝ :=
  -avg R.rho L.rho * avg (R.D (ns-1)) (L.D (ns-1)) * sgradLast ns G s
    + lastY clamp ns L R * avg R.rho L.rho * corrVel ns L R G s

/-- the kernel body once the face gradients `G` are known; component 0 continuity, 1-3 momentum, 4 energy, 5+n species.
    diffusiveFlux.cpp:24-153, alphaDampingFlux.cpp:36-225 -/
def faceFlux (clamp : Bool) (ns : ℕ) (G : ℕ → V3) (s : V3) (L R : DCell) : ℕ → ℝ
  | 0 => 0
  | 1 => let t := stress (avg R.mu L.mu) (G 1) (G 2) (G 3); t.txx * s.x + t.txy * s.y + t.txz * s.z
  | 2 => let t := stress (avg R.mu L.mu) (G 1) (G 2) (G 3); t.txy * s.x + t.tyy * s.y + t.tyz * s.z
  | 3 => let t := stress (avg R.mu L.mu) (G 1) (G 2) (G 3); t.txz * s.x + t.tyz * s.y + t.tzz * s.z
  | 4 =>
    let t := stress (avg R.mu L.mu) (G 1) (G 2) (G 3)
    let q := -avg R.kappa L.kappa * ((G 4).x * s.x + (G 4).y * s.y + (G 4).z * s.z)
    let uf := avg (R.q 1) (L.q 1)
    let vf := avg (R.q 2) (L.q 2)
    let wf := avg (R.q 3) (L.q 3);
    -(uf * t.txx + vf * t.txy + wf * t.txz) * s.x - (uf * t.txy + vf * t.tyy + wf * t.tyz) * s.y
      - (uf * t.txz + vf * t.tyz + wf * t.tzz) * s.z + q
      + ∑ n ∈ range (ns - 1), specFlux ns L R G s n * avg (R.h n) (L.h n)
      + lastFlux clamp ns L R G s * avg (R.h (ns-1)) (L.h (ns-1))
  | n + 5 => specFlux ns L R G s n

/-- one face of diffusiveFlux (diffusiveFlux.cpp:10-153) -/
def diffusiveFlux (ns : ℕ) (f : FaceD) (L R : DCell) : ℕ → ℝ := faceFlux true ns (gradAvg L R) f.s L R

/-- one face of alphaDampingFlux (alphaDampingFlux.cpp:16-225), the scheme every solver uses (multiBlock/__init__.py:122) -/
def alphaDampingFlux (ns : ℕ) (f : FaceD) (L R : DCell) : ℕ → ℝ := faceFlux false ns (gradDamp L R f) f.s L R

end PG.Diff
