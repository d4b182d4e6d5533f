import Verif.Base.Vec
import Mathlib.Algebra.BigOperators.Group.Finset.Basic
import Mathlib.Algebra.BigOperators.Intervals
import Mathlib.Analysis.SpecialFunctions.Log.Basic
import Mathlib.Analysis.SpecialFunctions.Pow.Real
/-!
Model of the transport-property kernels, `src/compute/transport/*.cpp`. Doubles are reals. In the default build (CMakeLists.txt:32,
NSCOMPILE off) the per-cell scratch arrays `Y X mu_sp kappa_sp Dij D` are rows, one per worker id, of views allocated (zeroed)
at the start of the call and shared by all cells the worker processes; with NSCOMPILE they are stack arrays, `mu_sp kappa_sp Dij
D` initialised with `= {}`, `Y X` uninitialised. Sums `+=` over loops are finite sums. The token is exclusive, so the body of one
cell is one step on its worker's scratch row. The three transport functions modelled here are constantProps,
kineticTheory, kineticTheoryUnityLewis; chungDenseGasUnityLewis is in `Chung`.
-/
noncomputable section
namespace PG.Trans
open Finset

/-- species data (th.ns, th.MW, th.mu0, th.kappa0, th.muPoly, th.kappaPoly, th.DijPoly; thtrdat_.hpp) -/
structure Tab where
  ns : ℕ
  MW : ℕ → ℝ
  mu0 : ℕ → ℝ
  kappa0 : ℕ → ℝ
  muPoly : ℕ → ℕ → ℝ
  kappaPoly : ℕ → ℕ → ℝ
  DijPoly : ℕ → ℕ → ℝ

/-- what the kernels read of a cell: `q(0)`, `q(4)`, `q(5+n)`, `Q(0)`, `qh(1)` -/
structure TrIn where
  p : ℝ
  T : ℝ
  Y : ℕ → ℝ
  rho : ℝ
  cp : ℝ

/-- what they write: `qt(0)`, `qt(1)`, `qt(2+n)` for `n < ns` -/
structure TrOut where
  mu : ℝ
  kappa : ℝ
  D : ℕ → ℝ

/-- one worker's scratch row -/
@[ext] structure Scr where
  Y : ℕ → ℝ
  X : ℕ → ℝ
  muSp : ℕ → ℝ
  kappaSp : ℕ → ℝ
  Dij : ℕ → ℕ → ℝ
  D : ℕ → ℝ

/-- freshly allocated Kokkos views are zero -/
def Scr.zero : Scr := ⟨fun _ => 0, fun _ => 0, fun _ => 0, fun _ => 0, fun _ _ => 0, fun _ => 0⟩

/-- constantProps.cpp:44-49, kineticTheory.cpp:68-72: write the mass fractions -/
def fillY (tb : Tab) (c : TrIn) (s : Scr) : Scr :=
  { s with Y := fun n => if n < tb.ns - 1 then c.Y n
                         else if n = tb.ns - 1 then 1 - ∑ m ∈ range (tb.ns - 1), c.Y m else s.Y n }

/-- `mass`, constantProps.cpp:54-57 -/
def mass (tb : Tab) (s : Scr) : ℝ := ∑ n ∈ range tb.ns, s.Y n / tb.MW n

/-- constantProps.cpp:58-60 -/
def fillX (tb : Tab) (s : Scr) : Scr :=
  { s with X := fun n => if n < tb.ns then s.Y n / tb.MW n / mass tb s else s.X n }

/-- `phi`, constantProps.cpp:68-71 -/
def phi (MW mu : ℕ → ℝ) (n n2 : ℕ) : ℝ :=
  (1 + Real.sqrt (mu n / mu n2 * Real.sqrt (MW n2 / MW n))) ^ 2 / (Real.sqrt 8 * Real.sqrt (1 + MW n / MW n2))

/-- viscosity mixture, constantProps.cpp:63-75, kineticTheory.cpp:131-144 -/
def wilke (ns : ℕ) (MW mu X : ℕ → ℝ) : ℝ :=
  ∑ n ∈ range ns, mu n * X n / ∑ n2 ∈ range ns, phi MW mu n n2 * X n2

/-- conductivity mixture, constantProps.cpp:77-87, kineticTheory.cpp:146-157 -/
def kMix (ns : ℕ) (k X : ℕ → ℝ) : ℝ :=
  0.5 * (∑ n ∈ range ns, X n * k n + 1 / ∑ n ∈ range ns, X n / k n)

/-- constantProps.cpp:39-102, one cell -/
def constStep (tb : Tab) (s : Scr) (c : TrIn) : Scr × TrOut :=
  let s2 := fillX tb (fillY tb c s)
  let kappa := kMix tb.ns tb.kappa0 s2.X
  (s2, ⟨wilke tb.ns tb.MW tb.mu0 s2.X, kappa, fun _ => kappa / (c.rho * c.cp)⟩)

/-- kineticTheory.cpp:83-90: index at which the mole-fraction loop breaks -/
def pureIdx (tb : Tab) (s : Scr) : Option ℕ :=
  open Classical in
  (List.range tb.ns).find? (fun n => decide (s.Y n / tb.MW n / mass tb s = 1))

/-- kineticTheory.cpp:77-92: mole fractions up to and including the first that equals one; the rest keeps its old content -/
def fillXBreak (tb : Tab) (s : Scr) : Scr :=
  match pureIdx tb s with
  | none => fillX tb s
  | some pz => { s with X := fun n => if n ≤ pz then s.Y n / tb.MW n / mass tb s else s.X n }

/-- MWmix, kineticTheory.cpp:75, 85 -/
def mwMix (tb : Tab) (s : Scr) : ℝ :=
  match pureIdx tb s with
  | none => ∑ n ∈ range tb.ns, s.Y n / tb.MW n / mass tb s * tb.MW n
  | some pz => ∑ n ∈ range (pz + 1), s.Y n / tb.MW n / mass tb s * tb.MW n

/-- `Σ_{ply=0}^{4} c(ply) logT^ply`, kineticTheory.cpp:95-108 -/
def poly (c : ℕ → ℝ) (T : ℝ) : ℝ := ∑ ply ∈ range 5, c ply * Real.log T ^ ply

/-- packed index of the pair `n ≤ n2`, kineticTheory.cpp:111 -/
def packIdx (ns n n2 : ℕ) : ℕ := ns * (ns - 1) / 2 - (ns - n) * (ns - n - 1) / 2 + n2

/-- kineticTheory.cpp:103-128: note that the polynomials are added to what the scratch already holds -/
def fillSpecies (tb : Tab) (T : ℝ) (s : Scr) : Scr :=
  { s with
    muSp := fun n => if n < tb.ns then ((s.muSp n + poly (tb.muPoly n) T) * Real.sqrt (Real.sqrt T)) ^ 2 else s.muSp n
    kappaSp := fun n => if n < tb.ns then (s.kappaSp n + poly (tb.kappaPoly n) T) * Real.sqrt T else s.kappaSp n
    Dij := fun n n2 => if n < tb.ns ∧ n2 < tb.ns then
        (s.Dij (min n n2) (max n n2) + poly (tb.DijPoly (packIdx tb.ns (min n n2) (max n n2))) T) * (T * Real.sqrt T)
      else s.Dij n n2 }

/-- mixture-averaged diffusion coefficient, kineticTheory.cpp:159-177 (pure = -1) -/
def dMix (tb : Tab) (p mw : ℝ) (s : Scr) (n : ℕ) : ℝ :=
  let sum1 := ∑ n2 ∈ (range tb.ns).erase n, s.X n2 / s.Dij n n2
  let sum2 := ∑ n2 ∈ (range tb.ns).erase n, s.X n2 * tb.MW n2 / s.Dij n n2
  1 / (sum1 * p + sum2 * (p * s.X n / (mw - tb.MW n * s.X n)))

/-- kineticTheory.cpp:159-177: written only when no pure species was found -/
def fillD (tb : Tab) (p : ℝ) (s0 s : Scr) : Scr :=
  match pureIdx tb s0 with
  | none => { s with D := fun n => if n < tb.ns then dMix tb p (mwMix tb s0) s n else s.D n }
  | some _ => s

/-- kineticTheory.cpp:46-192, one cell -/
def kinStep (tb : Tab) (s : Scr) (c : TrIn) : Scr × TrOut :=
  let s1 := fillY tb c s
  let s3 := fillSpecies tb c.T (fillXBreak tb s1)
  let s4 := fillD tb c.p s1 s3
  (s4, ⟨wilke tb.ns tb.MW s4.muSp s4.X, kMix tb.ns s4.kappaSp s4.X, s4.D⟩)

/-- kineticTheoryUnityLewis.cpp:82-91: one factor `sqrt_T`, no squaring -/
def fillSpeciesUL (tb : Tab) (T : ℝ) (s : Scr) : Scr :=
  { s with
    muSp := fun n => if n < tb.ns then (s.muSp n + poly (tb.muPoly n) T) * Real.exp (0.5 * Real.log T) else s.muSp n
    kappaSp := fun n => if n < tb.ns then (s.kappaSp n + poly (tb.kappaPoly n) T) * Real.exp (0.5 * Real.log T) else s.kappaSp n }

/-- kineticTheoryUnityLewis.cpp:40-137, one cell -/
def kinULStep (tb : Tab) (s : Scr) (c : TrIn) : Scr × TrOut :=
  let s3 := fillSpeciesUL tb c.T (fillX tb (fillY tb c s))
  let kappa := kMix tb.ns s3.kappaSp s3.X
  (s3, ⟨wilke tb.ns tb.MW s3.muSp s3.X, kappa, fun _ => kappa / (c.rho * c.cp)⟩)

/-- stack arrays of the NSCOMPILE build (kineticTheory.cpp:53-60): `mu_sp kappa_sp Dij D` zeroed, `Y X` whatever was there -/
def Scr.nscompile (junk : Scr) : Scr := { Scr.zero with Y := junk.Y, X := junk.X }

/-- state during a call: scratch row of every worker, results so far -/
structure RunSt (κ : Type) where
  scr : ℕ → Scr
  out : κ → Option TrOut

/-- a worker `w` processes cell `c` -/
def runStep {κ : Type} (step : Scr → TrIn → Scr × TrOut) (cells : κ → TrIn) (st : RunSt κ) (ev : ℕ × κ) : RunSt κ :=
  open Classical in
  let r := step (st.scr ev.1) (cells ev.2)
  ⟨Function.update st.scr ev.1 r.1, Function.update st.out ev.2 (some r.2)⟩

/-- one `parallel_for` in the default build: any distribution of cells over workers in any order; scratch zero at the start -/
def run {κ : Type} (step : Scr → TrIn → Scr × TrOut) (cells : κ → TrIn) (sched : List (ℕ × κ)) : RunSt κ :=
  sched.foldl (runStep step cells) ⟨fun _ => Scr.zero, fun _ => none⟩

end PG.Trans
