import Verif.Thermo.Model
import Mathlib.Analysis.SpecialFunctions.Pow.Real
import Mathlib.Analysis.SpecialFunctions.Trigonometric.Inverse
import Mathlib.Analysis.SpecialFunctions.Log.Basic

/-!
Model of the real-gas (Peng-Robinson) equation of state, `src/compute/thermo/cubic.cpp`, for one cell. Not-a-number is
modelled by `none` where the compressibility solve divides zero by zero. The literal 3.14159265358979323846 is modelled as π.
-/
noncomputable section
namespace PG.Thermo
open Finset

/-- critical-point data, `thtrdat_.hpp` (Tcrit, pcrit, acentric) on top of the ideal-gas table -/
structure ThC extends Th where
  Tcrit : ℕ → ℝ
  pcrit : ℕ → ℝ
  acentric : ℕ → ℝ

variable (th : ThC)

/-- denom, cubic.cpp:111-119 and 397-406: Σ Y_n/MW_n with the fractions BEFORE rescaling -/
def denom (y : ℕ → ℝ) : ℝ :=
  (∑ n ∈ range (th.ns - 1), y n / th.MW n) + (1 - testSum th.ns y) / th.MW (th.ns - 1)

/-- mole fractions, cubic.cpp:132, 443; `y` the clipped fractions -/
def moleX (y : ℕ → ℝ) (n : ℕ) : ℝ := localY th.ns y n / th.MW n / denom th y

/-- MWmix, cubic.cpp:130-134 -/
def MWmix (X : ℕ → ℝ) : ℝ := ∑ n ∈ range th.ns, th.MW n * X n

/-- Peng-Robinson constants, cubic.cpp:141-143 -/
def biConst : ℝ := 0.077796
def aiConst : ℝ := 0.457240
def fOmega (n : ℕ) : ℝ := 0.37464 + 1.54226 * th.acentric n + (-0.26992) * th.acentric n ^ 2

/-- cubic.cpp:160-166 -/
def ai (T : ℝ) (n : ℕ) : ℝ :=
  aiConst * ((th.Ru * th.Tcrit n)^2 * (1 + fOmega th n * (1 - Real.sqrt (T / th.Tcrit n)))^2) / th.pcrit n
def bi (n : ℕ) : ℝ := biConst * (th.Ru * th.Tcrit n) / th.pcrit n

/-- cubic.cpp:168, 170-177 -/
def bm (X : ℕ → ℝ) : ℝ := ∑ n ∈ range th.ns, X n * bi th n
def am (X : ℕ → ℝ) (T : ℝ) : ℝ :=
  ∑ n ∈ range th.ns, ∑ m ∈ range th.ns, X n * X m * Real.sqrt (ai th T n * ai th T m)

/-- cubic.cpp:179-180 -/
def Astar (X : ℕ → ℝ) (p T : ℝ) : ℝ := am th X T * p / (th.Ru * T)^2
def Bstar (X : ℕ → ℝ) (p T : ℝ) : ℝ := bm th X * p / (th.Ru * T)

/-- coefficients of the cubic, cubic.cpp:185-188 (uRG = 2, wRG = -1) -/
def z0 (A B : ℝ) : ℝ := -(A * B + (-1) * B^2 + (-1) * B^2 * B)
def z1 (A B : ℝ) : ℝ := A + (-1) * B^2 - 2 * B - 2 * B^2
def z2 (B : ℝ) : ℝ := -(1 + B - 2 * B)

/-- cubic.cpp:190-193 -/
def cQ (A B : ℝ) : ℝ := ((z2 B)^2 - 3 * z1 A B) / 9
def cR (A B : ℝ) : ℝ := (2 * (z2 B)^3 - 9 * z2 B * z1 A B + 27 * z0 A B) / 54
def cM (A B : ℝ) : ℝ := (cR A B)^2 - (cQ A B)^3

/-- compressibility factor, cubic.cpp:195-212; `none` where the code computes 0/0 (`RR/abs(RR)`, or `RR/pow(Q,1.5)` at a
    triple root) -/
def solveZ (A B : ℝ) : Option ℝ :=
  if cM A B > 0 then
    if cR A B = 0 then none
    else
      let S := -(cR A B) / |cR A B| * (|cR A B| + Real.sqrt (cM A B)) ^ (1/3 : ℝ)
      some (S + cQ A B / S - z2 B / 3)
  else if cQ A B = 0 then none
  else
    let q1p5 := (cQ A B) ^ (1.5 : ℝ)
    let sq := Real.sqrt (cQ A B)
    let theta := Real.arccos (cR A B / q1p5)
    let x1 := -(2 * sq * Real.cos (theta / 3)) - z2 B / 3
    let x2 := -(2 * sq * Real.cos ((theta + 2 * Real.pi) / 3)) - z2 B / 3
    let x3 := -(2 * sq * Real.cos ((theta - 2 * Real.pi) / 3)) - z2 B / 3
    some (max x1 (max x2 x3))

/-- cubic.cpp:217-229 -/
def dam (X : ℕ → ℝ) (T : ℝ) : ℝ :=
  (∑ n ∈ range th.ns, ∑ m ∈ range th.ns, X m * X n * 1 *
    (fOmega th m * Real.sqrt (ai th T n * th.Tcrit m / th.pcrit m)
      + fOmega th n * Real.sqrt (ai th T m * th.Tcrit n / th.pcrit n)))
  * (-0.5 * th.Ru * Real.sqrt (aiConst / T))

/-- cubic.cpp:230-231 -/
def dAdT (X : ℕ → ℝ) (p T : ℝ) : ℝ := -2 * (Astar th X p T / T) * (1 - 0.5 * (T / am th X T) * dam th X T)
def dBdT (X : ℕ → ℝ) (p T : ℝ) : ℝ := -Bstar th X p T / T

/-- implicit derivative of the root, cubic.cpp:233-241 and 301-308, given the derivatives of A and B -/
def dZ (A B dA dB Z : ℝ) : ℝ :=
  let dz0 := -(B * dA + (A + (2 * B + 3 * B^2) * (-1)) * dB)
  let dz1 := dA + (2 * B * (-1 - 2) - 2) * dB
  let dz2 := -(1 - 2) * dB;
  -(dz2 * Z^2 + dz1 * Z + dz0) / (3 * Z^2 + 2 * Z * z2 B + z1 A B)

/-- cubic.cpp:243-247 -/
def Cuw (X : ℕ → ℝ) : ℝ := 1 / (bm th X * th.Ru * Real.sqrt (2^2 - 4 * (-1)))
def logZoB (x : ℝ) : ℝ := Real.log ((2 * x + (2 - Real.sqrt (2^2 - 4 * (-1)))) / (2 * x + (2 + Real.sqrt (2^2 - 4 * (-1)))))

/-- cubic.cpp:249-256 -/
def cpDep (X : ℕ → ℝ) (p T Z : ℝ) : ℝ :=
  let x := Z / Bstar th X p T
  Cuw th X * (am th X T / T - dam th X T) * logZoB x * 0.5 * T / am th X T * dam th X T
    + ((x^2 + 2 * x + (-1)) - (dam th X T / (bm th X * th.Ru)) * (x - 1))^2
      / ((x^2 + 2 * x + (-1))^2 - (am th X T / (bm th X * th.Ru * T)) * (2 * x + 2) * (x - 1)^2)
    - 1

/-- cubic.cpp:258 -/
def hDep (X : ℕ → ℝ) (p T Z : ℝ) : ℝ :=
  Cuw th X * (am th X T / T - dam th X T) * logZoB (Z / Bstar th X p T) + (Z - 1)

/-- mixture enthalpy and heat capacity, species enthalpies, cubic.cpp:260-292 -/
def hC (X Y : ℕ → ℝ) (p T Z : ℝ) : ℝ := th.Ru * T * hDep th X p T Z / MWmix th X + hT th.toTh Y T
def cpC (X Y : ℕ → ℝ) (p T Z : ℝ) : ℝ := th.Ru * cpDep th X p T Z / MWmix th X + cpT th.toTh Y T
def hiC (X : ℕ → ℝ) (p T Z : ℝ) (n : ℕ) : ℝ := his th.toTh T n + th.Ru * T * hDep th X p T Z / th.MW n

/-- gamma, cubic.cpp:297-312 -/
def drhodp (X : ℕ → ℝ) (p T Z rho : ℝ) : ℝ :=
  let A := Astar th X p T
  let B := Bstar th X p T
  (rho / p) * (1 - p * dZ A B (A / p) (B / p) Z / Z)
def drhodT (X : ℕ → ℝ) (p T Z rho : ℝ) : ℝ :=
  -(rho / T) * (1 + T * dZ (Astar th X p T) (Bstar th X p T) (dAdT th X p T) (dBdT th X p T) Z / Z)
def gammaOf (rp rt rho T cp : ℝ) : ℝ := rp / (rp - (T / cp) * (rt / rho)^2)

/-- cubic.cpp:76-354 -/
def cubicPrims (c : Cell) : Option Cell :=
  let y := clipY th.ns c.q.Y
  let Y := localY th.ns y
  let X := moleX th y
  let R := th.Ru / MWmix th X
  let p := c.q.p
  let T := c.q.T
  match solveZ (Astar th X p T) (Bstar th X p T) with
  | none => none
  | some Z =>
    let h := hC th X Y p T Z
    let cp := cpC th X Y p T Z
    let rho := p / (Z * R * T)
    let rp := drhodp th X p T Z rho
    let rt := drhodT th X p T Z rho
    let gamma := gammaOf rp rt rho T cp
    let tke := 0.5 * (c.q.u^2 + c.q.v^2 + c.q.w^2) * rho
    let e := h - p / rho
    some
      { q := { c.q with Y := y }
        Q := ⟨rho, rho * c.q.u, rho * c.q.v, rho * c.q.w, rho * e + tke,
              fun n => if n < th.ns - 1 then Y n * rho else c.Q.rhoY n⟩
        qh := ⟨gamma, cp, rho * h, Real.sqrt |gamma / rp|, rho * e,
              fun n => if n < th.ns then hiC th X p T Z n else c.qh.hi n⟩ }

/-- locals of the Newton loop that survive it, cubic.cpp:435-457 -/
structure CSt where
  T : ℝ
  p : ℝ
  Z : ℝ
  h : ℝ
  cp : ℝ
  hi : ℕ → ℝ
  dZdT : ℝ
  A : ℝ
  B : ℝ
  err : ℝ

/-- pressure from molar volume, cubic.cpp:488 -/
def pEOS (X : ℕ → ℝ) (Vm T : ℝ) : ℝ :=
  th.Ru * T / (Vm - bm th X) - am th X T / (Vm * (Vm + bm th X) + bm th X * (Vm - bm th X))

/-- loop body, cubic.cpp:458-606 -/
def cubicBody (X Y : ℕ → ℝ) (Vm e : ℝ) (s : CSt) : Option CSt :=
  let R := th.Ru / MWmix th X
  let p := pEOS th X Vm s.T
  let A := Astar th X p s.T
  let B := Bstar th X p s.T
  match solveZ A B with
  | none => none
  | some Z =>
    let h := hC th X Y p s.T Z
    let cp := cpC th X Y p s.T Z
    let d := dZ A B (dAdT th X p s.T) (dBdT th X p s.T) Z
    let err := e - (h - Z * R * s.T)
    some ⟨s.T - err / (-cp + R * (Z * d)), p, Z, h, cp, hiC th X p s.T Z, d, A, B, err⟩

/-- the while loop, cubic.cpp:457; a not-a-number error ends it -/
def cubicLoop (X Y : ℕ → ℝ) (Vm e : ℝ) : ℕ → CSt → Option CSt
  | 0, s => some s
  | k+1, s => if |s.err| > tol then (cubicBody th X Y Vm e s).bind (cubicLoop X Y Vm e k) else some s

/-- internal energy from conserved variables, cubic.cpp:391, 418 -/
def intEnergy (Q : Cons) : ℝ := (Q.rhoE - 0.5 * (Q.rhou^2 + Q.rhov^2 + Q.rhow^2) / Q.rho) / Q.rho

/-- what is stored after the loop, cubic.cpp:609-648 -/
def cubicFinish (c : Cell) (r : CSt) : Cell :=
  let rho := c.Q.rho
  let rp := (rho / r.p) * (1 - r.p * dZ r.A r.B (r.A / r.p) (r.B / r.p) r.Z / r.Z)
  let rt := -(rho / r.T) * (1 + r.T * r.dZdT / r.Z)
  let gamma := gammaOf rp rt rho r.T r.cp
  { q := ⟨r.p, c.Q.rhou / rho, c.Q.rhov / rho, c.Q.rhow / rho, r.T,
          fun n => if n < th.ns - 1 then localY th.ns (consY th.ns c.Q) n else c.q.Y n⟩
    Q := { c.Q with rhoY := consRhoY th.ns c.Q }
    qh := ⟨gamma, r.cp, rho * r.h, Real.sqrt |gamma / rp|, rho * intEnergy c.Q,
          fun n => if n < th.ns then r.hi n else c.qh.hi n⟩ }

/-- cubic.cpp:357-653 -/
def cubicCons (c : Cell) : Option Cell :=
  let y := consY th.ns c.Q
  let X := moleX th y
  (cubicLoop th X (localY th.ns y) (MWmix th X / c.Q.rho) (intEnergy c.Q) maxitr
    ⟨guess c.q.T, 0, 0, 0, 0, fun _ => 0, 0, 0, 0, 1e100⟩).map (cubicFinish th c)

end PG.Thermo
