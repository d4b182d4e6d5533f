import Mathlib.Data.Real.Sqrt
import Mathlib.Algebra.BigOperators.Group.Finset.Basic
import Mathlib.Algebra.BigOperators.Intervals

/-!
Model of the ideal-gas equations of state, `src/compute/thermo/cpg.cpp` (calorically perfect) and
`src/compute/thermo/tpg.cpp` (thermally perfect, NASA-7 polynomials). Both kernels are loops over independent cells
(`Kokkos::parallel_for` over getRange3); the model is the body for one cell. Doubles are reals; accumulation loops over
species are finite sums.
-/
noncomputable section
namespace PG.Thermo

open Finset

/-- species data, `src/compute/thtrdat_.hpp` (ns, Ru, MW, cp0, NASA7) -/
structure Th where
  ns : ℕ
  Ru : ℝ
  MW : ℕ → ℝ
  cp0 : ℕ → ℝ
  NASA7 : ℕ → ℕ → ℝ

/-- primitives `b.q(i,j,k,·)`: p,u,v,w,T and the first ns-1 mass fractions -/
structure Prim where
  p : ℝ
  u : ℝ
  v : ℝ
  w : ℝ
  T : ℝ
  Y : ℕ → ℝ

/-- conserved variables `b.Q(i,j,k,·)` -/
structure Cons where
  rho : ℝ
  rhou : ℝ
  rhov : ℝ
  rhow : ℝ
  rhoE : ℝ
  rhoY : ℕ → ℝ

/-- derived quantities `b.qh(i,j,k,·)`: gamma, cp, rho*h, c, rho*e, h_i -/
structure Qh where
  gamma : ℝ
  cp : ℝ
  rhoh : ℝ
  c : ℝ
  rhoe : ℝ
  hi : ℕ → ℝ

/-- everything stored for one cell -/
structure Cell where
  q : Prim
  Q : Cons
  qh : Qh

/-- cpg.cpp:64, tpg.cpp:70: `fmax(fmin(y, 1.0), 0.0)` for the stored species (`n < ns-1`) -/
def clipY (ns : ℕ) (y : ℕ → ℝ) (n : ℕ) : ℝ := if n < ns - 1 then max (min (y n) 1) 0 else y n

/-- cpg.cpp:170-171, tpg.cpp:210-211: `fmax(fmin(rhoY, rho), 0.0)` -/
def clipRhoY (ns : ℕ) (rho : ℝ) (ry : ℕ → ℝ) (n : ℕ) : ℝ := if n < ns - 1 then max (min (ry n) rho) 0 else ry n

/-- testSum, cpg.cpp:62-68 -/
def testSum (ns : ℕ) (y : ℕ → ℝ) : ℝ := ∑ n ∈ range (ns - 1), y n

/-- The local array `Y` after cpg.cpp:60-76 / 166-184 (tpg.cpp:66-82 / 206-224), from the clipped fractions `y`: the last
    species gets the remainder, and everything is rescaled when the sum exceeds one. -/
def localY (ns : ℕ) (y : ℕ → ℝ) (n : ℕ) : ℝ :=
  if testSum ns y > 1 then (if n = ns - 1 then 0 else y n / testSum ns y)
  else (if n = ns - 1 then 1 - testSum ns y else y n)

/-- cpg.cpp:79-85: `Rmix` -/
def Rmix (th : Th) (Y : ℕ → ℝ) : ℝ := (∑ n ∈ range th.ns, Y n / th.MW n) * th.Ru

/-- cpg.cpp:80-84: mixture `cp` -/
def cpmix (th : Th) (Y : ℕ → ℝ) : ℝ := ∑ n ∈ range th.ns, Y n * th.cp0 n

/-- cpg.cpp:32-134: given primitives, fills conserved variables and derived quantities; the stored species are clipped in
    place, but not rescaled -/
def cpgPrims (th : Th) (c : Cell) : Cell :=
  let y := clipY th.ns c.q.Y
  let Y := localY th.ns y
  let R := Rmix th Y
  let cp := cpmix th Y
  let h := cp * c.q.T
  let gamma := cp / (cp - R)
  let snd := Real.sqrt (gamma * R * c.q.T)
  let rho := c.q.p / (R * c.q.T)
  let tke := 0.5 * (c.q.u^2 + c.q.v^2 + c.q.w^2) * rho
  let e := h - c.q.p / rho
  { q := { c.q with Y := y }
    Q := ⟨rho, rho * c.q.u, rho * c.q.v, rho * c.q.w, rho * e + tke,
          fun n => if n < th.ns - 1 then Y n * rho else c.Q.rhoY n⟩
    qh := ⟨gamma, cp, rho * h, snd, rho * e, fun n => if n < th.ns then c.q.T * th.cp0 n else c.qh.hi n⟩ }

/-- the local array `Y` in the "cons" branch, before rescaling: cpg.cpp:169-175 -/
def consY (ns : ℕ) (Q : Cons) (n : ℕ) : ℝ := clipRhoY ns Q.rho Q.rhoY n / Q.rho

/-- the stored species densities after cpg.cpp:166-184 / tpg.cpp:206-224 -/
def consRhoY (ns : ℕ) (Q : Cons) (n : ℕ) : ℝ :=
  if n < ns - 1 ∧ testSum ns (consY ns Q) > 1 then localY ns (consY ns Q) n * Q.rho else clipRhoY ns Q.rho Q.rhoY n

/-- cpg.cpp:135-232: given conserved variables -/
def cpgCons (th : Th) (c : Cell) : Cell :=
  let rho := c.Q.rho
  let tke := 0.5 * (c.Q.rhou^2 + c.Q.rhov^2 + c.Q.rhow^2) / rho
  let Y := localY th.ns (consY th.ns c.Q)
  let e := (c.Q.rhoE - tke) / rho
  let R := Rmix th Y
  let cp := cpmix th Y
  let T := e / (cp - R)
  let p := rho * R * T
  let h := e + p / rho
  let gamma := cp / (cp - R)
  let snd := Real.sqrt (gamma * R * T)
  { q := ⟨p, c.Q.rhou / rho, c.Q.rhov / rho, c.Q.rhow / rho, T, fun n => if n < th.ns - 1 then Y n else c.q.Y n⟩
    Q := { c.Q with rhoY := consRhoY th.ns c.Q }
    qh := ⟨gamma, cp, rho * h, snd, rho * e, fun n => if n < th.ns then T * th.cp0 n else c.qh.hi n⟩ }

/-! ### thermally perfect gas -/

/-- offset of the NASA-7 coefficient set, tpg.cpp:105: `m = (T <= NASA7(n,0)) ? 8 : 1` -/
def nasaM (th : Th) (T : ℝ) (n : ℕ) : ℕ := if T ≤ th.NASA7 n 0 then 8 else 1

/-- species heat capacity, tpg.cpp:107-110 -/
def cps (th : Th) (T : ℝ) (n : ℕ) : ℝ :=
  let m := nasaM th T n
  (th.NASA7 n (m+0) + th.NASA7 n (m+1) * T + th.NASA7 n (m+2) * T^2 + th.NASA7 n (m+3) * T^3 + th.NASA7 n (m+4) * T^4)
    * th.Ru / th.MW n

/-- species enthalpy, tpg.cpp:112-115 -/
def his (th : Th) (T : ℝ) (n : ℕ) : ℝ :=
  let m := nasaM th T n
  (th.NASA7 n (m+0) + th.NASA7 n (m+1) * (T/2) + th.NASA7 n (m+2) * (T^2/3) + th.NASA7 n (m+3) * (T^3/4)
    + th.NASA7 n (m+4) * (T^4/5) + th.NASA7 n (m+5) * (1/T)) * T * th.Ru / th.MW n

/-- mixture cp and h at temperature `T`, tpg.cpp:92-121 and 244-275 -/
def cpT (th : Th) (Y : ℕ → ℝ) (T : ℝ) : ℝ := ∑ n ∈ range th.ns, cps th T n * Y n
def hT (th : Th) (Y : ℕ → ℝ) (T : ℝ) : ℝ := ∑ n ∈ range th.ns, his th T n * Y n

/-- tpg.cpp:35-170 -/
def tpgPrims (th : Th) (c : Cell) : Cell :=
  let y := clipY th.ns c.q.Y
  let Y := localY th.ns y
  let R := Rmix th Y
  let cp := cpT th Y c.q.T
  let h := hT th Y c.q.T
  let gamma := cp / (cp - R)
  let snd := Real.sqrt (gamma * R * c.q.T)
  let rho := c.q.p / (R * c.q.T)
  let tke := 0.5 * (c.q.u^2 + c.q.v^2 + c.q.w^2) * rho
  let e := h - c.q.p / rho
  { q := { c.q with Y := y }
    Q := ⟨rho, rho * c.q.u, rho * c.q.v, rho * c.q.w, rho * e + tke,
          fun n => if n < th.ns - 1 then Y n * rho else c.Q.rhoY n⟩
    qh := ⟨gamma, cp, rho * h, snd, rho * e, fun n => if n < th.ns then his th c.q.T n else c.qh.hi n⟩ }

/-- local variables of the Newton loop, tpg.cpp:236-280 -/
structure NSt where
  T : ℝ
  h : ℝ
  cp : ℝ
  hi : ℕ → ℝ
  err : ℝ
  nitr : ℕ

/-- loop body, tpg.cpp:244-279 -/
def newtonBody (th : Th) (Y : ℕ → ℝ) (e : ℝ) (s : NSt) : NSt :=
  let h := hT th Y s.T
  let cp := cpT th Y s.T
  let err := e - (h - Rmix th Y * s.T)
  { T := s.T - err / (-cp + Rmix th Y), h := h, cp := cp, hi := his th s.T, err := err, nitr := s.nitr + 1 }

/-- tpg.cpp:237-238 -/
def tol : ℝ := 1e-8
def maxitr : ℕ := 100

/-- `while ((abs(error) > tol) && (nitr < maxitr))`, tpg.cpp:243; `fuel` is `maxitr - nitr` -/
def newtonLoop (th : Th) (Y : ℕ → ℝ) (e : ℝ) : ℕ → NSt → NSt
  | 0, s => s
  | k+1, s => if |s.err| > tol then newtonLoop th Y e k (newtonBody th Y e s) else s

/-- initial guess, tpg.cpp:241-242 -/
def guess (T : ℝ) : ℝ := if T < 1 then 300 else T

/-- tpg.cpp:236-280; `h0 cp0 hi0` are the uninitialised locals -/
def newton (th : Th) (Y : ℕ → ℝ) (e Tg : ℝ) : NSt :=
  newtonLoop th Y e maxitr ⟨guess Tg, 0, 0, fun _ => 0, 1e100, 0⟩

/-- tpg.cpp:172-313 -/
def tpgCons (th : Th) (c : Cell) : Cell :=
  let rho := c.Q.rho
  let tke := 0.5 * (c.Q.rhou^2 + c.Q.rhov^2 + c.Q.rhow^2) / rho
  let Y := localY th.ns (consY th.ns c.Q)
  let e := (c.Q.rhoE - tke) / rho
  let R := Rmix th Y
  let r := newton th Y e c.q.T
  let p := rho * R * r.T
  let gamma := r.cp / (r.cp - R)
  let snd := Real.sqrt (gamma * R * r.T)
  { q := ⟨p, c.Q.rhou / rho, c.Q.rhov / rho, c.Q.rhow / rho, r.T, fun n => if n < th.ns - 1 then Y n else c.q.Y n⟩
    Q := { c.Q with rhoY := consRhoY th.ns c.Q }
    qh := ⟨gamma, r.cp, rho * r.h, snd, rho * e, fun n => if n < th.ns then r.hi n else c.qh.hi n⟩ }

end PG.Thermo
