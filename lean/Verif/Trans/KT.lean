import Verif.Trans.Mix
import Mathlib.Analysis.SpecialFunctions.Trigonometric.Basic

/-!
Model of `src/peregrinepy/thermoTransport/kineticTheoryPoly.py`: the species and pair data of kinetic theory, the tables of
viscosity, conductivity and binary diffusion over 50 temperatures, and the fits the transport kernels evaluate. Doubles are
reals; the spline interpolations of the collision integrals (lines 46-51) are parameters `o22`, `astar`; `np.polyfit` is a
parameter `polyfit`, of which the theorems assume only that it minimises the weighted sum of squares it is documented to.
-/
noncomputable section
namespace PG.Trans.KT

/-- lines 8-12, 53-74: constants of the library and arrays from completeSpecies -/
structure SpData where
  ns : ℕ
  kb : ℝ
  eps0 : ℝ
  avogadro : ℝ
  Ru : ℝ
  MW : ℕ → ℝ
  well : ℕ → ℝ
  diam : ℕ → ℝ
  dipole : ℕ → ℝ
  polarize : ℕ → ℝ
  zrot : ℕ → ℝ
  geometry : ℕ → String

/-- lines 14-23: heat-capacity data, constant or NASA7 -/
inductive Heat where
  | cpg (cp0 : ℕ → ℝ)
  | nasa (c : ℕ → ℕ → ℝ)

/-- `cp_R`, lines 18-19, 25-29 -/
def cpR (d : SpData) (h : Heat) (k : ℕ) (T : ℝ) : ℝ :=
  match h with
  | .cpg cp0 => cp0 k * T / (d.Ru * d.MW k)
  | .nasa c => if T ≤ c k 0 then ∑ i ∈ Finset.range 5, c k (i + 1 + 7) * T ^ i else ∑ i ∈ Finset.range 5, c k (i + 1) * T ^ i

/-- `mass`, line 55 -/
def mass (d : SpData) (k : ℕ) : ℝ := d.MW k / d.avogadro

/-- `rotDOF`, lines 75-82: nothing is appended for another word -/
def rotDOF (d : SpData) : List ℝ :=
  (List.range d.ns).flatMap fun k =>
    if d.geometry k = "atom" then [0] else if d.geometry k = "linear" then [1] else if d.geometry k = "nonlinear" then [3 / 2] else []

/-- the arrays `r_mass`, `r_well`, `r_diam`, `r_dipole`, `r_deltastar`, lines 87-92 -/
structure Red where
  mass : ℕ → ℕ → ℝ
  well : ℕ → ℕ → ℝ
  diam : ℕ → ℕ → ℝ
  dipole : ℕ → ℕ → ℝ
  delta : ℕ → ℕ → ℝ

/-- `np.zeros`, lines 87-92 -/
def Red.zero : Red := ⟨fun _ _ => 0, fun _ _ => 0, fun _ _ => 0, fun _ _ => 0, fun _ _ => 0⟩

/-- `a[i, j] = x` -/
def put (a : ℕ → ℕ → ℝ) (i j : ℕ) (x : ℝ) : ℕ → ℕ → ℝ := fun m n => if m = i ∧ n = j then x else a m n

/-- `polar`, line 65 -/
def polar (d : SpData) (k : ℕ) : Prop := 0 < d.dipole k

open Classical in
/-- the polarity correction `xi`, lines 112-128 (1 if both or neither polar), reading `r_dipole[kp, kp]` as it is then -/
def xiNow (d : SpData) (dip : ℕ → ℕ → ℝ) (i j : ℕ) : ℝ :=
  if (polar d i ↔ polar d j) then 1
  else
    let p := if polar d i then (i, j) else (j, i)
    let alphastar := d.polarize p.2 / d.diam p.2 ^ 3
    let dipolestar := dip p.1 p.1 / Real.sqrt (4 * Real.pi * d.eps0 * d.diam p.1 ^ 3 * d.well p.1)
    1 + 1 / 4 * alphastar * dipolestar ^ 2 * Real.sqrt (d.well p.1 / d.well p.2)

/-- body of the double loop, lines 96-138 -/
def pairStep (d : SpData) (r : Red) (ij : ℕ × ℕ) : Red :=
  let i := ij.1
  let j := ij.2
  let m := mass d i * mass d j / (mass d i + mass d j)
  let s := 1 / 2 * (d.diam i + d.diam j)
  let e := Real.sqrt (d.well i * d.well j)
  let u := Real.sqrt (d.dipole i * d.dipole j)
  let dl := 1 / 2 * u ^ 2 / (4 * Real.pi * d.eps0 * e * s ^ 3)
  let dip := put r.dipole i j u
  let xi := xiNow d dip i j
  let e' := e * xi ^ 2
  let s' := s * xi ^ (-(1 / 6) : ℝ)
  ⟨put (put r.mass i j m) j i m, put (put r.well i j e') j i e', put (put r.diam i j s') j i s', put dip j i u,
    put (put r.delta i j dl) j i dl⟩

/-- `for i in range(ns): for j in range(i, ns)`, lines 94-95, 210-211, 267-268 -/
def loopPairs (ns : ℕ) : List (ℕ × ℕ) := (List.range ns).flatMap fun i => (List.range (ns - i)).map fun t => (i, i + t)

/-- the double loop -/
def reduced (d : SpData) : Red := (loopPairs d.ns).foldl (pairStep d) Red.zero

section
variable (d : SpData) (h : Heat) (o22 astar : ℝ → ℝ → ℝ)

/-- `visc[i, k]` at temperature `T`, lines 144-151 -/
def visc (T : ℝ) (k : ℕ) : ℝ :=
  5 / 16 * Real.sqrt (Real.pi * mass d k * d.kb * T) / (Real.pi * d.diam k ^ 2 * o22 (T * d.kb / d.well k) ((reduced d).delta k k))

/-- `fz_298`, `fz_tstar`, lines 162-167, 187-191 -/
def fz (Tstar : ℝ) : ℝ :=
  1 + Real.pi ^ (3 / 2 : ℝ) / Real.sqrt Tstar * (1 / 2 + 1 / Tstar) + (1 / 4 * Real.pi ^ 2 + 2) / Tstar

/-- self diffusion, lines 169-182 -/
def selfDiff (T : ℝ) (k : ℕ) : ℝ :=
  let Tstar := T * d.kb / d.well k
  let omga11 := o22 Tstar ((reduced d).delta k k) / astar Tstar ((reduced d).delta k k)
  3 / 16 * Real.sqrt (2 * Real.pi / (reduced d).mass k k) * (d.kb * T) ^ (3 / 2 : ℝ) / (Real.pi * d.diam k ^ 2 * omga11)

/-- `f_int`, line 184 -/
def fInt (T : ℝ) (k : ℕ) : ℝ := d.MW k / (d.Ru * T) * selfDiff d o22 astar T k / visc d o22 T k

/-- `cond[i, k]` at temperature `T` with `cv_rot`, lines 184-204 -/
def condOf (T : ℝ) (k : ℕ) (cvRot : ℝ) : ℝ :=
  let f := fInt d o22 astar T k
  let A := 5 / 2 - f
  let B := d.zrot k * fz (d.kb * 298 / d.well k) / fz (T * d.kb / d.well k) + 2 / Real.pi * (5 / 3 * cvRot + f)
  let c1 := 2 / Real.pi * A / B
  let cvInt := cpR d h k T - 5 / 2 - cvRot
  let fRot := f * (1 + c1)
  let fTrans := 5 / 2 * (1 - c1 * cvRot / (3 / 2))
  visc d o22 T k / d.MW k * d.Ru * (fTrans * (3 / 2) + fRot * cvRot + f * cvInt)

/-- the same with `rotDOF[k]`: IndexError (`none`) beyond the list -/
def cond (T : ℝ) (k : ℕ) : Option ℝ := (rotDOF d)[k]?.map (condOf d h o22 astar T k)

/-- `diff[i, k, j]` for `k <= j`, lines 210-230; `diff[i, j, k]` is a copy -/
def diffLoop (T : ℝ) (k j : ℕ) : ℝ :=
  let r := reduced d
  let Tstar := T * d.kb / r.well j k
  let omga11 := o22 Tstar (r.delta j k) / astar Tstar (r.delta j k)
  3 / 16 * Real.sqrt (2 * Real.pi / r.mass k j) * (d.kb * T) ^ (3 / 2 : ℝ) / (Real.pi * r.diam j k ^ 2 * omga11)

/-- the array `diff` -/
def diff (T : ℝ) (a b : ℕ) : ℝ := if a ≤ b then diffLoop d o22 astar T a b else diffLoop d o22 astar T b a

/-- `Ts`, lines 39-43: `np.linspace(200, 5000, 50)` -/
def Ts (i : Fin 50) : ℝ := 200 + (i : ℝ) * ((5000 - 200) / 49)

/-- a polynomial fit: abscissae, ordinates, weights to the five coefficients, highest power first (`np.polyfit`) -/
abbrev Polyfit := (Fin 50 → ℝ) → (Fin 50 → ℝ) → (Fin 50 → ℝ) → Fin 5 → ℝ

variable (fit : Polyfit)

/-- `np.flip(.., -1)` of a fit with weights `1 / y**2`, lines 233-262, 269-273; the solver reads coefficient `i` -/
def row (y : Fin 50 → ℝ) (i : ℕ) : ℝ :=
  if hi : i < 5 then fit (fun s => Real.log (Ts s)) y (fun s => 1 / y s ^ 2) ⟨4 - i, by omega⟩ else 0

/-- `muPoly`, lines 236-248 -/
def muPoly (k : ℕ) : ℕ → ℝ := row fit fun s => Real.sqrt (visc d o22 (Ts s) k / Real.sqrt (Ts s))

/-- `kappaPoly`, lines 250-262 -/
def kappaPoly (k : ℕ) (cvRot : ℝ) : ℕ → ℝ := row fit fun s => condOf d h o22 astar (Ts s) k cvRot / Real.sqrt (Ts s)

/-- `DijPoly`, lines 264-273: row `r` belongs to the `r`-th pair of the loop -/
def DijPoly : List (ℕ → ℝ) := (loopPairs d.ns).map fun p => row fit fun s => diff d o22 astar (Ts s) p.1 p.2 / Ts s ^ (3 / 2 : ℝ)

/-- the function, lines 7-275: `none` if it raises; the arrays as the kernels index them -/
def tables (mu0 kappa0 : ℕ → ℝ) : Option Tab :=
  (((List.range d.ns).mapM fun k => (rotDOF d)[k]?) : Option (List ℝ)).map fun rot =>
    ⟨d.ns, d.MW, mu0, kappa0, muPoly d o22 fit, fun k => kappaPoly d h o22 astar fit k (rot.getD k 0),
      fun r => (DijPoly d o22 astar fit).getD r fun _ => 0⟩

end
end PG.Trans.KT
