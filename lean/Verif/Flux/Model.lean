import Verif.Base.Vec
/-
Model of the advective flux kernels bound to Python (/repo/src/compute/advFlux/bindingsAdvFlux.cpp):
rusanov, hllc, ausmPlusUp, KEEP, KEEPpe, KEPaEC, centralDifference, fourthOrderKEEP, muscl2rusanov, muscl2hllc,
scalarDissipation.  Each kernel computes the flux of one face from the cells next to it: `L` is the cell
`(i-iMod, j-jMod, k-kMod)`, `R` the cell `(i,j,k)`; the wider stencils also use the next cell on each side
(`LL`, `RR`). The three directional loops of each kernel are identical up to the direction (checked by text comparison),
so one face function per kernel is modelled. Doubles are reals; divisions by zero that the kernels can meet are modelled
explicitly with IEEE semantics (limiter).
-/
namespace PG.Flux
open V3

/-- Data of one cell read by the kernels: `q = p,u,v,w,T,Y..`, `Q = rho,rhou,rhov,rhow,rhoE,rhoY..`,
    `qh = gamma,cp,rho*h,c,rho*e,..` (block_.hpp, thermo/cpg.cpp) -/
structure Cell where
  p : ℝ
  u : ℝ
  v : ℝ
  w : ℝ
  Y : ℕ → ℝ
  rho : ℝ
  rhou : ℝ
  rhov : ℝ
  rhow : ℝ
  rhoE : ℝ
  rhoY : ℕ → ℝ
  c : ℝ
  rhoe : ℝ

/-- Face geometry: area vector `isx isy isz`, unit normal `inx iny inz`, area `iS` -/
structure FaceG where
  s : V3
  n : V3
  S : ℝ

/-- component-indexed face flux: 0 mass, 1-3 momentum, 4 energy, 5.. species -/
abbrev FluxV := ℕ → ℝ

/-- assemble a flux from its components -/
def mk5 (m a b c e : ℝ) (sp : ℕ → ℝ) : FluxV
  | 0 => m
  | 1 => a
  | 2 => b
  | 3 => c
  | 4 => e
  | n + 5 => sp n

/-- `nx*u + ny*v + nz*w` -/
def proj (n : V3) (c : Cell) : ℝ := n.x * c.u + n.y * c.v + n.z * c.w

/-! #### rusanov.cpp -/

/-- wave speed estimate (rusanov.cpp:43-45, before multiplication by the area): note which sound speed goes with which
    velocity -/
noncomputable def rusanovSpeed (L R : Cell) (g : FaceG) : ℝ := max (|proj g.n L| + R.c) (|proj g.n R| + L.c)

/-- rusanov (rusanov.cpp:19-86) -/
noncomputable def rusanov (L R : Cell) (g : FaceG) : FluxV :=
  let lam := rusanovSpeed L R g * g.S
  let UR := proj g.n R * g.S
  let UL := proj g.n L * g.S
  mk5 (1/2 * (UR * R.rho + UL * L.rho - lam * (R.rho - L.rho)))
    (1/2 * ((UR * R.u * R.rho + R.p * g.s.x) + (UL * L.u * L.rho + L.p * g.s.x) - lam * (R.rho * R.u - L.rho * L.u)))
    (1/2 * ((UR * R.v * R.rho + R.p * g.s.y) + (UL * L.v * L.rho + L.p * g.s.y) - lam * (R.rho * R.v - L.rho * L.v)))
    (1/2 * ((UR * R.w * R.rho + R.p * g.s.z) + (UL * L.w * L.rho + L.p * g.s.z) - lam * (R.rho * R.w - L.rho * L.w)))
    (1/2 * (UR * (R.rhoE + R.p) + UL * (L.rhoE + L.p) - lam * (R.rhoE - L.rhoE)))
    (fun n => 1/2 * (R.rhoY n * UR + L.rhoY n * UL - lam * (R.rhoY n - L.rhoY n)))

/-! #### hllc.cpp -/

/-- contact wave speed estimate (hllc.cpp:61-63) -/
noncomputable def hllcSstar (L R : Cell) (g : FaceG) : ℝ :=
  let UR := proj g.n R
  let UL := proj g.n L
  let SL := UL - L.c
  let SR := UR + R.c
  (R.p - L.p + L.rho * UL * (SL - UL) - R.rho * UR * (SR - UR)) / (L.rho * (SL - UL) - R.rho * (SR - UR))

/-- flux of one side (hllc.cpp:66-74, 137-146) -/
noncomputable def sideFlux (A : Cell) (g : FaceG) : FluxV :=
  let U := proj g.n A
  mk5 (U * A.rho * g.S) (U * A.rhou * g.S + A.p * g.s.x) (U * A.rhov * g.S + A.p * g.s.y)
    (U * A.rhow * g.S + A.p * g.s.z) (U * (A.rhoE + A.p) * g.S) (fun n => U * A.rhoY n * g.S)

/-- star flux of one side with signal speed `Sk` (hllc.cpp:75-105 with `Sk = SL`, 106-136 with `Sk = SR`) -/
noncomputable def starFlux (A : Cell) (g : FaceG) (Sk Sstar : ℝ) : FluxV :=
  let U := proj g.n A
  let Ustar := A.rho * (Sk - U) / (Sk - Sstar)
  mk5 (U * A.rho * g.S + Sk * (Ustar - A.rho) * g.S)
    (U * A.rhou * g.S + A.p * g.s.x + Sk * (Ustar * Sstar * g.n.x - A.rhou) * g.S)
    (U * A.rhov * g.S + A.p * g.s.y + Sk * (Ustar * Sstar * g.n.y - A.rhov) * g.S)
    (U * A.rhow * g.S + A.p * g.s.z + Sk * (Ustar * Sstar * g.n.z - A.rhow) * g.S)
    (U * (A.rhoE + A.p) * g.S
      + Sk * (Ustar * (A.rhoE / A.rho + (Sstar - U) * (Sstar + A.p / (A.rho * (Sk - U)))) - A.rhoE) * g.S)
    (fun n => A.rhoY n * U * g.S + Sk * (Ustar * A.Y n - A.rhoY n) * g.S)

/-- hllc (hllc.cpp:20-147). The last `else` (no branch taken, possible only with NaN) is modelled as 0. -/
noncomputable def hllc (L R : Cell) (g : FaceG) : FluxV :=
  let SL := proj g.n L - L.c
  let SR := proj g.n R + R.c
  let Sstar := hllcSstar L R g
  if 0 ≤ SL then sideFlux L g
  else if SL ≤ 0 ∧ 0 ≤ Sstar then starFlux L g SL Sstar
  else if 0 ≤ SR ∧ Sstar ≤ 0 then starFlux R g SR Sstar
  else if SR ≤ 0 then sideFlux R g
  else fun _ => 0

/-! #### KEEP family -/

/-- arithmetic mean as written in the kernels -/
noncomputable def avg (a b : ℝ) : ℝ := 1/2 * (b + a)

/-- face normal volume flux with averaged velocities (KEEP.cpp:18-25, KEEPpe.cpp, KEPaEC.cpp:17-24) -/
noncomputable def keepU (L R : Cell) (g : FaceG) : ℝ :=
  g.s.x * avg L.u R.u + g.s.y * avg L.v R.v + g.s.z * avg L.w R.w

/-- mass flux of the KEEP family (KEEP.cpp:30-36) -/
noncomputable def keepC (L R : Cell) (g : FaceG) : ℝ := avg L.rho R.rho * keepU L R g

/-- kinetic energy part `Kj` (KEEP.cpp:48-51) -/
noncomputable def keepK (L R : Cell) (g : FaceG) : ℝ :=
  keepC L R g * (1/2) * (R.u * L.u + R.v * L.v + R.w * L.w)

/-- pressure work part `Pj` (KEEP.cpp:53-61) -/
noncomputable def keepP (L R : Cell) (g : FaceG) : ℝ :=
  1/2 * (L.p * (R.u * g.s.x + R.v * g.s.y + R.w * g.s.z) + R.p * (L.u * g.s.x + L.v * g.s.y + L.w * g.s.z))

/-- Common part of the three KEEP kernels: mass, momentum, `Ij + Kj + Pj`, species. -/
noncomputable def keepWith (Ij : ℝ) (L R : Cell) (g : FaceG) : FluxV :=
  let C := keepC L R g
  let pf := avg L.p R.p
  mk5 C (C * avg L.u R.u + pf * g.s.x) (C * avg L.v R.v + pf * g.s.y) (C * avg L.w R.w + pf * g.s.z)
    (Ij + keepK L R g + keepP L R g) (fun n => 1/2 * (R.Y n + L.Y n) * C)

/-- KEEP (KEEP.cpp:16-77): internal energy flux from the mean specific internal energy -/
noncomputable def KEEP (L R : Cell) (g : FaceG) : FluxV :=
  keepWith (keepC L R g * (1/2) * (R.rhoe / R.rho + L.rhoe / L.rho)) L R g
/-- KEEPpe (KEEPpe.cpp:18-76): mean volumetric internal energy -/
noncomputable def KEEPpe (L R : Cell) (g : FaceG) : FluxV :=
  keepWith (1/2 * (R.rhoe + L.rhoe) * keepU L R g) L R g
/-- KEPaEC (KEPaEC.cpp:16-77): harmonic mean of specific internal energy -/
noncomputable def KEPaEC (L R : Cell) (g : FaceG) : FluxV :=
  let eR := R.rhoe / R.rho
  let eL := L.rhoe / L.rho
  keepWith (2 * (eL * eR) / (eL + eR) * keepC L R g) L R g

/-- centralDifference (centralDifference.cpp:18-69) -/
noncomputable def central (L R : Cell) (g : FaceG) : FluxV :=
  let UR := R.u * g.s.x + R.v * g.s.y + R.w * g.s.z
  let UL := L.u * g.s.x + L.v * g.s.y + L.w * g.s.z
  mk5 (1/2 * ((g.s.x * R.rhou + g.s.y * R.rhov + g.s.z * R.rhow) + (g.s.x * L.rhou + g.s.y * L.rhov + g.s.z * L.rhow)))
    (1/2 * (R.rhou * UR + R.p * g.s.x + L.rhou * UL + L.p * g.s.x))
    (1/2 * (R.rhov * UR + R.p * g.s.y + L.rhov * UL + L.p * g.s.y))
    (1/2 * (R.rhow * UR + R.p * g.s.z + L.rhow * UL + L.p * g.s.z))
    (1/2 * ((R.rhoE + R.p) * UR + (L.rhoE + L.p) * UL))
    (fun n => 1/2 * (R.rhoY n * UR + L.rhoY n * UL))

/-! #### ausmPlusUp.cpp -/

/-- intermediate quantities of AUSM+-up: interface mass flux `mDot12` and pressure `p12` (ausmPlusUp.cpp:28-84) -/
noncomputable def ausmFace (L R : Cell) (g : FaceG) : ℝ × ℝ :=
  let UR := proj g.n R
  let UL := proj g.n L
  let a12 := 1/2 * (R.c + L.c)
  let ML := UL / a12
  let MR := UR / a12
  let MbarSQ := (UR ^ 2 + UL ^ 2) / (2 * a12 ^ 2)
  let MinfSQ := 1/10
  let Mo := Real.sqrt (min 1 (max MbarSQ MinfSQ))
  let fa := Mo * (2 - Mo)
  let beta := 1/8
  let M1Plus := 1/2 * (ML + |ML|)
  let M1Minus := 1/2 * (MR - |MR|)
  let M2Plus := 1/4 * (ML + 1) ^ 2
  let M2Minus := -(1/4) * (MR - 1) ^ 2
  let M4Plus := if 1 ≤ |ML| then M1Plus else M2Plus * (1 - 16 * beta * M2Minus)
  let M4Minus := if 1 ≤ |MR| then M1Minus else M2Minus * (1 + 16 * beta * M2Plus)
  let Kp := 1/4
  let sigma := 1
  let rho12 := 1/2 * (R.rho + L.rho)
  let M12 := M4Plus + M4Minus - Kp / fa * (max (1 - sigma * MbarSQ) 0) * (R.p - L.p) / (rho12 * a12 ^ 2)
  let mDot12 := if 0 < M12 then a12 * M12 * L.rho else a12 * M12 * R.rho
  let alpha := 3/16 * (-4 + 5 * fa ^ 2)
  let p5Plus := if 1 ≤ |ML| then 1 / ML * M1Plus else M2Plus * ((2 - ML) - 16 * alpha * ML * M2Minus)
  let p5Minus := if 1 ≤ |MR| then 1 / MR * M1Minus else M2Minus * ((-2 - MR) + 16 * alpha * MR * M2Plus)
  let Ku := 3/4
  let p12 := p5Plus * L.p + p5Minus * R.p - Ku * p5Plus * p5Minus * (R.rho + L.rho) * (fa * a12) * (UR - UL)
  (mDot12, p12)

/-- ausmPlusUp (ausmPlusUp.cpp:86-116): upwinded by the sign of the mass flux -/
noncomputable def ausm (L R : Cell) (g : FaceG) : FluxV :=
  let m := (ausmFace L R g).1
  let p12 := (ausmFace L R g).2
  let A := if 0 < m then L else R
  mk5 (m * g.S) (m * A.u * g.S + p12 * g.s.x) (m * A.v * g.S + p12 * g.s.y) (m * A.w * g.S + p12 * g.s.z)
    (m * (A.rhoE + A.p) / A.rho * g.S) (fun n => m * A.Y n * g.S)

/-! #### fourthOrderKEEP.cpp -/

/-- Weighted two-point sum of the fourth-order scheme (fourthOrderKEEP.cpp:36-56 and the loops that follow): `f a b` is
    the two-point quantity of the pair `(i+js, i+js-is)`: is=1: (R,L); is=2: (R,LL) for js=0, (RR,L) for js=1;
    weights 2/3 and -1/12, times 2. -/
noncomputable def four (f : Cell → Cell → ℝ) (LL L R RR : Cell) : ℝ :=
  2 * (2/3 * f R L + (-1/12) * (f R LL + f RR L))

/-- fourthOrderKEEP (fourthOrderKEEP.cpp:22-179) -/
noncomputable def fourthKEEP (LL L R RR : Cell) (g : FaceG) : FluxV :=
  let uf := four (fun a b => 1/2 * (a.u + b.u)) LL L R RR
  let vf := four (fun a b => 1/2 * (a.v + b.v)) LL L R RR
  let wf := four (fun a b => 1/2 * (a.w + b.w)) LL L R RR
  let U := g.s.x * uf + g.s.y * vf + g.s.z * wf
  let rho := four (fun a b => 1/2 * (a.rho + b.rho)) LL L R RR
  let rhou := four (fun a b => 1/2 * (a.rho + b.rho) * (1/2 * (a.u + b.u))) LL L R RR
  let rhov := four (fun a b => 1/2 * (a.rho + b.rho) * (1/2 * (a.v + b.v))) LL L R RR
  let rhow := four (fun a b => 1/2 * (a.rho + b.rho) * (1/2 * (a.w + b.w))) LL L R RR
  let p := four (fun a b => 1/2 * (a.p + b.p)) LL L R RR
  let rhoE := four (fun a b => 1/2 * (a.rho + b.rho) * (1/2 * (a.rhoe / a.rho + b.rhoe / b.rho)
    + 1/2 * (a.u * b.u + a.v * b.v + a.w * b.w))) LL L R RR
  let pu := four (fun a b => 1/2 * (b.p * (a.u * g.s.x + a.v * g.s.y + a.w * g.s.z)
    + a.p * (b.u * g.s.x + b.v * g.s.y + b.w * g.s.z))) LL L R RR
  mk5 (rho * U) (rhou * U + p * g.s.x) (rhov * U + p * g.s.y) (rhow * U + p * g.s.z) (rhoE * U + pu)
    (fun n => four (fun a b => 1/2 * (a.rho + b.rho) * (1/2) * (a.Y n + b.Y n)) LL L R RR * U)

/-! #### MUSCL reconstruction (muscl2rusanov.cpp, muscl2hllc.cpp) -/

/-- generalized minmod limiter with theta = 2 applied to `r = num/den` (muscl2rusanov.cpp:43-46). IEEE semantics for a
    zero denominator (differences of equal doubles are +0): a negative numerator gives `r = -inf`, so 0; a positive one
    gives `+inf`, so theta; 0/0 is NaN, which fmin/fmax discard, so theta. -/
noncomputable def limiter (num den : ℝ) : ℝ :=
  if den = 0 then (if num < 0 then 0 else 2)
  else max 0 (min (min (2 * (num / den)) ((1 + num / den) / 2)) 2)

/-- limiter value used for the right state: `rR = (q_i - q_im1)/(q_ip1 - q_i)` (muscl2rusanov.cpp:43, 45) -/
noncomputable def phiR (_qm2 qm1 q0 qp1 : ℝ) : ℝ := limiter (q0 - qm1) (qp1 - q0)
/-- limiter value used for the left state: `rL = (q_im1 - q_im2)/(q_i - q_im1)` (muscl2rusanov.cpp:44, 46) -/
noncomputable def phiL (qm2 qm1 q0 _qp1 : ℝ) : ℝ := limiter (qm1 - qm2) (q0 - qm1)

/-- right reconstruction with a given limiter value (muscl2rusanov.cpp:48) -/
noncomputable def recR (phi q0 qp1 : ℝ) : ℝ := q0 - 1/2 * phi * (qp1 - q0)
/-- left reconstruction with a given limiter value (muscl2rusanov.cpp:49) -/
noncomputable def recL (phi qm1 q0 : ℝ) : ℝ := qm1 + 1/2 * phi * (q0 - qm1)

/-- right reconstruction of a variable with its own limiter -/
noncomputable def musclR (f : Cell → ℝ) (LL L R RR : Cell) : ℝ := recR (phiR (f LL) (f L) (f R) (f RR)) (f R) (f RR)
/-- left reconstruction of a variable with its own limiter -/
noncomputable def musclL (f : Cell → ℝ) (LL L R RR : Cell) : ℝ := recL (phiL (f LL) (f L) (f R) (f RR)) (f L) (f R)

/-- specific internal energy as computed in the kernels (muscl2rusanov.cpp:97) -/
noncomputable def eInt (a : Cell) : ℝ := a.rhoe / a.rho

/-- reconstructed right state (muscl2rusanov.cpp:36-128, 164-172; muscl2hllc.cpp:36-135): rho,u,v,w,e with their own
    limiters; p and c reuse the limiter of e. `ownY` says how species are reconstructed: muscl2rusanov reconstructs
    rhoY with the density limiter, muscl2hllc reconstructs Y with its own limiter. -/
noncomputable def faceR (ownY : Bool) (LL L R RR : Cell) : Cell :=
  let rho := musclR Cell.rho LL L R RR
  let u := musclR Cell.u LL L R RR
  let v := musclR Cell.v LL L R RR
  let w := musclR Cell.w LL L R RR
  let e := musclR eInt LL L R RR
  let pe := phiR (eInt LL) (eInt L) (eInt R) (eInt RR)
  let pr := phiR LL.rho L.rho R.rho RR.rho
  { p := recR pe R.p RR.p, u := u, v := v, w := w
    Y := fun n => musclR (fun a => a.Y n) LL L R RR
    rho := rho, rhou := rho * u, rhov := rho * v, rhow := rho * w
    rhoE := rho * (e + 1/2 * (u ^ 2 + v ^ 2 + w ^ 2))
    rhoY := fun n => if ownY then rho * musclR (fun a => a.Y n) LL L R RR else recR pr (R.rhoY n) (RR.rhoY n)
    c := recR pe R.c RR.c
    rhoe := rho * e }

/-- reconstructed left state (same lines as `faceR`) -/
noncomputable def faceL (ownY : Bool) (LL L R RR : Cell) : Cell :=
  let rho := musclL Cell.rho LL L R RR
  let u := musclL Cell.u LL L R RR
  let v := musclL Cell.v LL L R RR
  let w := musclL Cell.w LL L R RR
  let e := musclL eInt LL L R RR
  let pe := phiL (eInt LL) (eInt L) (eInt R) (eInt RR)
  let pr := phiL LL.rho L.rho R.rho RR.rho
  { p := recL pe L.p R.p, u := u, v := v, w := w
    Y := fun n => musclL (fun a => a.Y n) LL L R RR
    rho := rho, rhou := rho * u, rhov := rho * v, rhow := rho * w
    rhoE := rho * (e + 1/2 * (u ^ 2 + v ^ 2 + w ^ 2))
    rhoY := fun n => if ownY then rho * musclL (fun a => a.Y n) LL L R RR else recL pr (L.rhoY n) (R.rhoY n)
    c := recL pe L.c R.c
    rhoe := rho * e }

/-- wave speed of muscl2rusanov (muscl2rusanov.cpp:132, before multiplication by the area) -/
noncomputable def musclSpeed (L R : Cell) (g : FaceG) : ℝ := max (|proj g.n L| + L.c) (|proj g.n R| + R.c)

/-- Rusanov flux of reconstructed states (muscl2rusanov.cpp:130-177) -/
noncomputable def rusanovOf (L R : Cell) (g : FaceG) : FluxV :=
  let lam := musclSpeed L R g * g.S
  let UR := proj g.n R * g.S
  let UL := proj g.n L * g.S
  mk5 (1/2 * (UR * R.rho + UL * L.rho - lam * (R.rho - L.rho)))
    (1/2 * ((UR * R.u * R.rho + R.p * g.s.x) + (UL * L.u * L.rho + L.p * g.s.x) - lam * (R.rho * R.u - L.rho * L.u)))
    (1/2 * ((UR * R.v * R.rho + R.p * g.s.y) + (UL * L.v * L.rho + L.p * g.s.y) - lam * (R.rho * R.v - L.rho * L.v)))
    (1/2 * ((UR * R.w * R.rho + R.p * g.s.z) + (UL * L.w * L.rho + L.p * g.s.z) - lam * (R.rho * R.w - L.rho * L.w)))
    (1/2 * (UR * (R.rhoE + R.p) + UL * (L.rhoE + L.p) - lam * (R.rhoE - L.rhoE)))
    (fun n => 1/2 * (R.rhoY n * UR + L.rhoY n * UL - lam * (R.rhoY n - L.rhoY n)))

/-- muscl2rusanov (muscl2rusanov.cpp:33-178) -/
noncomputable def muscl2rusanov (LL L R RR : Cell) (g : FaceG) : FluxV :=
  rusanovOf (faceL false LL L R RR) (faceR false LL L R RR) g

/-- muscl2hllc (muscl2hllc.cpp:33-260): same formulas as hllc on the reconstructed states -/
noncomputable def muscl2hllc (LL L R RR : Cell) (g : FaceG) : FluxV :=
  hllc (faceL true LL L R RR) (faceR true LL L R RR) g

/-! #### scalarDissipation.cpp -/

/-- scalarDissipation (scalarDissipation.cpp:24-102). `X` is the cell `(i+1,j,k)`, which the kernel reads in all three
    directions for the fourth difference: it is `RR` only in the i direction. `phiL phiR` are the switch values. -/
noncomputable def scalarDiss (LL L R X : Cell) (phiL phiR : ℝ) (g : FaceG) : FluxV :=
  let eps2 := 1/2 * max phiR phiL
  let eps4 := max 0 (5/1000 - eps2)
  let U := g.n.x * avg L.u R.u + g.n.y * avg L.v R.v + g.n.z * avg L.w R.w
  let a := (|U| + 1/2 * (R.c + L.c)) * g.S
  let d := fun (f : Cell → ℝ) => a * (eps2 * (f R - f L) - eps4 * (f X - 3 * f R + 3 * f L - f LL))
  mk5 (d Cell.rho) (d Cell.rhou) (d Cell.rhov) (d Cell.rhow) (d Cell.rhoE) (fun n => d (fun b => b.rhoY n))

end PG.Flux
