import Verif.Chem.Model

/-!
Model of the reduced mechanism `src/compute/chemistry/chem_C2H4_Air_Red22.cpp`: 206 reactions between 21 transported
species, N2 and ten quasi-steady radicals whose concentrations `XQ[]` come from an algebraic elimination written out
statement by statement. The tables are in `Red22.lean` (extracted by `tools/genred22.py`, which stops at any statement it
does not know); this file gives the meaning of the statements. Doubles are reals; the body is that of one cell and one
sub-step. The polynomials behind `EG[]` (lines 162-411) are not modelled: `EG` is any positive table. The replacement of
non-finite `dYdt` by zero (lines 3060-3064) does not exist in the reals: see `C102_fuel_only_violated`.
-/
namespace PG.Chem.Red22

/-- `exp(lnA + b * logT + e * Tinv)`, e.g. lines 421, 424 -/
structure LArr where
  lnA : Dec
  b : Dec
  e : Dec
deriving DecidableEq

/-- the right-hand sides of `RF[r] = ...`, lines 421-1037: an exponential, a number, or a multiple of an earlier `RF[r']` -/
inductive K where
  | arr (k : LArr)
  | const (c : Dec)
  | scaled (c : Dec) (r : ℕ)
deriving DecidableEq

/-- what `CTB` or `PCOR` is for a reaction: `CTB = CTOT + Σ c cs[n]` (e.g. lines 1052-1053), or the Lindemann or Troe
    correction with low-pressure constant `RKLOW` (e.g. lines 1090-1104; literals of `FCENT` in order of appearance) -/
inductive RMod where
  | none
  | three (l : List (ℕ × Dec))
  | lind (l : List (ℕ × Dec)) (k0 : LArr)
  | troe (l : List (ℕ × Dec)) (k0 : LArr) (a1 T3 a2 T1 T2 : Dec)
deriving DecidableEq

/-- everything the file says about one reaction: `RF`, numerator and denominator of `EQK` and the power of `prefRuT` in it,
    `CTB`/`PCOR` and whether `RF`, `RB` are multiplied by it, the `cs[]` factors of `RF` and `RB`, their `XQ[]` factors, and
    the multiples of `ROP` added to `dYdt[]` -/
structure Rx where
  k : K
  prods : List ℕ
  reacs : List ℕ
  pref : ℤ
  mod : RMod
  fm : Bool
  bm : Bool
  fwd : List ℕ
  bwd : List ℕ
  fx : List ℕ
  bx : List ℕ
  src : List (ℕ × ℤ)
deriving DecidableEq

/-- a direction of a reaction: `RF[r]` is `(true, r)`, `RB[r]` is `(false, r)` -/
abbrev Dir := Bool × ℕ

/-- one quasi-steady balance, e.g. lines 1798-1806: the terms of `DEN` and of the numerators of `A<i>_<k>` -/
structure Row where
  den : List Dir
  a : List (ℕ × List Dir)
deriving DecidableEq

/-- a statement of the elimination, lines 1913-2055: `A_t = A_t + A_a * A_b` (or `double A_t = A_a * A_b`),
    `DEN = 1.0 - A_a * A_b`, `A_t = A_t / DEN` -/
inductive Stmt where
  | acc (t : ℕ × ℕ) (new : Bool) (a b : ℕ × ℕ)
  | den (a b : ℕ × ℕ)
  | div (t : ℕ × ℕ)
deriving DecidableEq

/-- `XQ[t] = A<i>_0 + A<i>_<k> * XQ[q] + ...`, lines 2058-2069 -/
structure Back where
  t : ℕ
  i : ℕ
  ks : List (ℕ × ℕ)
deriving DecidableEq

noncomputable section
open Finset

/-- what the reaction part reads: `T`, `prefRuT`, `EG[]`, `cs[]` -/
structure Env where
  T : ℝ
  pref : ℝ
  EG : ℕ → ℝ
  cs : ℕ → ℝ

/-- value of an exponential -/
def LArr.val (k : LArr) (T : ℝ) : ℝ := Real.exp (k.lnA.val + k.b.val * Real.log T + k.e.val * (1 / T))

/-- `CTB`, e.g. lines 1052-1053; `CTOT` is the sum of all 22 concentrations (lines 126-129) -/
def ctb (l : List (ℕ × Dec)) (cs : ℕ → ℝ) : ℝ := ∑ n ∈ range 22, cs n + (l.map fun p => p.2.val * cs p.1).sum

/-- `FCENT`, e.g. lines 1094-1095 -/
def fcent (a1 T3 a2 T1 T2 T : ℝ) : ℝ := a1 * Real.exp (-T / T3) + a2 * Real.exp (-T / T1) + Real.exp (T2 / T)

/-- `FC`, e.g. lines 1093, 1096-1100 -/
def fc (PR FCENT : ℝ) : ℝ :=
  let PRLOG := log10 PR
  let FCLOG := log10 FCENT
  let XN := 75 / 100 - 127 / 100 * FCLOG
  let CPRLOG := PRLOG - (4 / 10 + 67 / 100 * FCLOG)
  let FLOG := FCLOG / (1 + (CPRLOG / (XN - 14 / 100 * CPRLOG)) ^ 2)
  Real.exp (Real.log 10 * FLOG)

/-- `CTB` or `PCOR`; `kf` is `RF[r]` before concentrations -/
def RMod.val (m : RMod) (v : Env) (kf : ℝ) : ℝ :=
  match m with
  | .none => 1
  | .three l => ctb l v.cs
  | .lind l k0 =>
    let PR := k0.val v.T * ctb l v.cs / kf
    PR / (1 + PR)
  | .troe l k0 a1 T3 a2 T1 T2 =>
    let PR := k0.val v.T * ctb l v.cs / kf
    fc PR (fcent a1.val T3.val a2.val T1.val T2.val v.T) * (PR / (1 + PR))

/-- a reaction that does not exist (never read in a checked table) -/
def noRx : Rx := ⟨.const ⟨0, 0⟩, [], [], 0, .none, false, false, [], [], [], [], []⟩

/-- `RF[r]` after lines 421-1037; multiples refer to an earlier entry -/
def kf (tab : List Rx) (T : ℝ) (r : ℕ) : ℝ :=
  match (tab.getD r noRx).k with
  | .arr k => k.val T
  | .const c => c.val
  | .scaled c r' => if _ : r' < r then c.val * kf tab T r' else 0
termination_by r

/-- `EQK`, e.g. lines 422, 434 -/
def eqk (x : Rx) (v : Env) : ℝ := (x.prods.map v.EG).prod / (x.reacs.map v.EG).prod * v.pref ^ x.pref

/-- product of concentrations -/
def prodOf (l : List ℕ) (c : ℕ → ℝ) : ℝ := (l.map c).prod

/-- `RF[r]`, `RB[r]` after line 1787 -/
def rate1 (tab : List Rx) (v : Env) : Dir → ℝ
  | (true, r) => let x := tab.getD r noRx
    kf tab v.T r * (if x.fm then x.mod.val v (kf tab v.T r) else 1) * prodOf x.fwd v.cs
  | (false, r) => let x := tab.getD r noRx
    kf tab v.T r / eqk x v * (if x.bm then x.mod.val v (kf tab v.T r) else 1) * prodOf x.bwd v.cs

/-- the same after the directions listed were set to zero, lines 1791-1796 -/
def rate2 (tab : List Rx) (zeroed : List Dir) (v : Env) (t : Dir) : ℝ := if t ∈ zeroed then 0 else rate1 tab v t

/-- sum of a list of directions, e.g. `RF[33] + RF[34] + ...` -/
def total (l : List Dir) (w : Dir → ℝ) : ℝ := (l.map w).sum

/-- a row that does not exist -/
def noRow : Row := ⟨[], []⟩

/-- `A<i>_<k>` before the elimination, lines 1797-1911; variables that are not declared hold 0 and are never read in a
    checked program -/
def coef0 (rows : List Row) (w : Dir → ℝ) (i k : ℕ) : ℝ :=
  let x := rows.getD (i - 1) noRow
  total ((x.a.lookup k).getD []) w / total x.den w

/-- one elimination statement on the variables `A<i>_<k>` and `DEN` -/
def Stmt.run (s : Stmt) (m : (ℕ → ℕ → ℝ) × ℝ) : (ℕ → ℕ → ℝ) × ℝ :=
  match s with
  | .acc t new a b =>
    (fun i k => if i = t.1 ∧ k = t.2 then (if new then 0 else m.1 i k) + m.1 a.1 a.2 * m.1 b.1 b.2 else m.1 i k, m.2)
  | .den a b => (m.1, 1 - m.1 a.1 a.2 * m.1 b.1 b.2)
  | .div t => (fun i k => if i = t.1 ∧ k = t.2 then m.1 i k / m.2 else m.1 i k, m.2)

/-- the elimination -/
def runAll (p : List Stmt) (m : (ℕ → ℕ → ℝ) × ℝ) : (ℕ → ℕ → ℝ) × ℝ := p.foldl (fun m s => s.run m) m

/-- one assignment to `XQ[]` -/
def Back.run (A : ℕ → ℕ → ℝ) (s : Back) (x : ℕ → ℝ) : ℕ → ℝ :=
  fun q => if q = s.t then A s.i 0 + (s.ks.map fun p => A s.i p.1 * x p.2).sum else x q

/-- `XQ[]`, lines 2057-2069; the array is uninitialised in the code, every entry is assigned before it is read in a checked
    program -/
def backAll (A : ℕ → ℕ → ℝ) (l : List Back) : ℕ → ℝ := l.foldl (fun x s => s.run A x) fun _ => 0

/-- the mechanism: all the tables -/
structure Mech where
  rxns : List Rx
  zeroed : List Dir
  rows : List Row
  prog : List Stmt
  back : List Back

/-- `XQ[]` from the rates after line 1796 -/
def Mech.xq (m : Mech) (v : Env) : ℕ → ℝ :=
  backAll (runAll m.prog (coef0 m.rows (rate2 m.rxns m.zeroed v), 0)).1 m.back

/-- `RF[r]`, `RB[r]` after the factors `XQ`, lines 2071-2235 -/
def Mech.rate (m : Mech) (v : Env) (t : Dir) : ℝ :=
  let x := m.rxns.getD t.2 noRx
  rate2 m.rxns m.zeroed v t * prodOf (if t.1 then x.fx else x.bx) (m.xq v)

/-- `ROP` -/
def Mech.rop (m : Mech) (v : Env) (r : ℕ) : ℝ := m.rate v (true, r) - m.rate v (false, r)

/-- multiple of `ROP` of reaction `x` added to `dYdt[n]`, lines 2240-3034 -/
def srcOf (x : Rx) (n : ℕ) : ℤ := (x.src.map fun p => if p.1 = n then p.2 else 0).sum

/-- `dYdt[n]` of the transported species, lines 2239-3058 -/
def Mech.dYdt (m : Mech) (MW : ℕ → ℝ) (v : Env) (n : ℕ) : ℝ :=
  (∑ r ∈ range m.rxns.length, (srcOf (m.rxns.getD r noRx) n : ℝ) * m.rop v r) * (MW n * 1000)

/-- `cs[n]`, lines 93-125: `wt` the literal molecular weights, `p` in Pa, gas constant 8.314510e7 -/
def conc (wt : List Dec) (p T : ℝ) (Y : ℕ → ℝ) (n : ℕ) : ℝ :=
  Y n / (wt.getD n ⟨1, 0⟩).val * (p * 10 / ((∑ k ∈ range 22, Y k / (wt.getD k ⟨1, 0⟩).val) * T * 83145100))

/-- what a cell at `p`, `T`, `Y` gives to the reaction part; `prefRuT` of line 419 -/
def envOf (wt : List Dec) (EG : ℝ → ℕ → ℝ) (p T : ℝ) (Y : ℕ → ℝ) : Env :=
  ⟨T, 1013250 / (83145100 * T), EG T, conc wt p T Y⟩

end
end PG.Chem.Red22
