import Verif.Base.Vec
import Mathlib.Analysis.Real.Sqrt
/-
Model of the run control: time-step selection (/repo/src/compute/utils/cfl.cpp, mpiComm/mpiUtils.py getDtMaxCFL), NaN
detection (utils/checkNan.cpp, mpiUtils.py checkForNan), the driver loop (/repo/runPeregrine.py), and the time and iteration
counters of the collections (multiBlock/restart.py, solver.py).
-/
noncomputable section
namespace PG.Run

/-! #### CFL -/

/-- geometry of one index direction of a cell: the two opposite face centres and unit normals (`ixc, inx, ...`) -/
structure Dir where
  c0 : V3
  c1 : V3
  n0 : V3
  n1 : V3

/-- data of one interior cell read by cfl.cpp -/
structure CellD where
  vel : V3
  c : ℝ
  dir : ℕ → Dir

/-- a block: node counts of the three directions and its interior cells, in the order the (parallel) reduction visits them -/
structure Blk where
  n : ℕ → ℕ
  cells : List CellD

/-- cell length `dI, dJ, dK` (cfl.cpp:38-46) -/
def len (a : Dir) : ℝ := Real.sqrt ((a.c1.x - a.c0.x)^2 + (a.c1.y - a.c0.y)^2 + (a.c1.z - a.c0.z)^2)

/-- `uI, uJ, uK` (cfl.cpp:53-64) -/
def speed (v : V3) (a : Dir) : ℝ :=
  Real.sqrt ((0.5 * (a.n0.x + a.n1.x) * v.x)^2 + (0.5 * (a.n0.y + a.n1.y) * v.y)^2 + (0.5 * (a.n0.z + a.n1.z) * v.z)^2)

/-- `iMult, jMult, kMult` (cfl.cpp:19-30) -/
def multOf (n : ℕ) : ℝ := if n = 2 then 0 else 1

/-- identity of `Kokkos::Max<double>`: the lowest double -/
def lowest : ℝ := -1.7976931348623157e308

/-- the three accumulators CFLA, CFLC, CFLR -/
structure Acc where
  a : ℝ
  c : ℝ
  r : ℝ

/-- one direction of one cell (cfl.cpp:69-71, 73-75, 77-79) -/
def accDir (m : ℝ) (v : V3) (c : ℝ) (d : Dir) (x : Acc) : Acc :=
  ⟨max x.a (m * c / len d), max x.c (m * speed v d / len d), max x.r (m * (speed v d + c) / len d)⟩

/-- the reduction body for one cell (cfl.cpp:35-80) -/
def accCell (b : Blk) (x : Acc) (k : CellD) : Acc :=
  accDir (multOf (b.n 2)) k.vel k.c (k.dir 2) (accDir (multOf (b.n 1)) k.vel k.c (k.dir 1)
    (accDir (multOf (b.n 0)) k.vel k.c (k.dir 0) x))

/-- the reduction over one block (cfl.cpp:33-82) -/
def blkMax (b : Blk) : Acc := b.cells.foldl (accCell b) ⟨lowest, lowest, lowest⟩

/-- CFLmax over the blocks of a rank (cfl.cpp:13-18, 83-88) -/
def cflMax (mb : List Blk) : Acc :=
  mb.foldl (fun x b => ⟨max (blkMax b).a x.a, max (max (blkMax b).c x.c) 1e-16, max (blkMax b).r x.r⟩) ⟨0, 0, 0⟩

/-- `comm.Allreduce(MPI.IN_PLACE, cfl, op=MPI.MAX)` (mpiUtils.py:52-53): every rank receives the elementwise maximum; `[]`
    (no rank) does not occur -/
def allreduceMax : List Acc → Acc
  | [] => ⟨0, 0, 0⟩
  | x :: xs => xs.foldl (fun x y => ⟨max x.a y.a, max x.c y.c, max x.r y.r⟩) x

/-- the time-integration section of the configuration (configFile.py; `varStep` is variableTimeStep; keys, maxCFL, maxDt, dt) -/
structure TConf where
  varStep : Bool
  maxCFL : ℝ
  maxDt : ℝ
  dt : ℝ

/-- getDtMaxCFL on any rank (mpiUtils.py:49-61); `none`: the division by a zero rate raises FloatingPointError
    (np.seterr(all="raise"), runPeregrine.py:10) -/
def getDt (cf : TConf) (ranks : List (List Blk)) : Option ℝ :=
  let cfl := allreduceMax (ranks.map cflMax)
  if cf.varStep then (if cfl.r = 0 then none else some (min (cf.maxCFL / cfl.r) cf.maxDt)) else some cf.dt

/-! #### NaN check -/

/-- a double as far as `isfinite` is concerned -/
inductive Dbl
  | fin (x : ℝ)
  | nan
  | inf (neg : Bool)

/-- C `isfinite` as an int -/
def isfinite : Dbl → ℕ
  | .fin _ => 1
  | _ => 0

/-- a block's interior conserved values, in the order the reduction visits them; 2147483647 is the identity of
    `Kokkos::Min<int>` (checkNan.cpp:16-24) -/
def allFinite (b : List Dbl) : ℕ := b.foldl (fun f x => min (isfinite x) f) 2147483647

/-- checkNan (checkNan.cpp:7-33), with its `break` -/
def checkNan : List (List Dbl) → ℕ
  | [] => 0
  | b :: mb => if allFinite b = 0 then 1 else checkNan mb

/-- checkForNan on any rank (mpiUtils.py:64-88): Allreduce SUM of the local flags; the log files it writes are left out -/
def checkForNan (ranks : List (List (List Dbl))) : ℕ := (ranks.map checkNan).sum

/-! #### driver loop -/

/-- what the driver does, in order; iteration numbers are the `nrt` stored in the file names -/
inductive Ev
  | step
  | restart (nrt : ℕ)
  | qnm1 (nrt : ℕ)
  | archive (nrt : ℕ)
  | nanCheck (nrt : ℕ)
  | emergency
  | coproc (nrt : ℕ)
  | finalize
deriving DecidableEq

/-- the configuration entries read before the loop (runPeregrine.py:47-51); `checkNan = 0` models `False`, 1 models `True` -/
structure LConf where
  niterRestart : ℕ
  niterArchive : ℕ
  checkNan : ℕ
  dualTime : Bool

/-- events of one pass of the loop body after the step (runPeregrine.py:66-118), `nrt` being the number after the step and
    `bad` the outcome of the NaN check; the second component tells whether the loop continues -/
def body (cf : LConf) (nrt : ℕ) (bad : Bool) : List Ev × Bool :=
  let e1 := if nrt % cf.niterRestart = 0 then .restart nrt :: (if cf.dualTime then [.qnm1 nrt] else []) else []
  let e2 := if nrt % cf.niterArchive = 0 then [.archive nrt] else []
  if cf.checkNan ≠ 0 ∧ nrt % cf.checkNan = 0 then
    if bad then (.step :: e1 ++ e2 ++ [.nanCheck nrt, .emergency], false)
    else (.step :: e1 ++ e2 ++ [.nanCheck nrt, .coproc nrt], true)
  else (.step :: e1 ++ e2 ++ [.coproc nrt], true)

/-- the loop `for niter in range(niter)` (runPeregrine.py:52-118) starting at iteration number `nrt`; each step raises `nrt`
    by one (C16); `bad n` tells whether the solution numbered `n` contains a non-finite value -/
def loop (cf : LConf) (bad : ℕ → Bool) : ℕ → ℕ → List Ev
  | 0, _ => []
  | n+1, nrt =>
    let r := body cf (nrt + 1) (bad (nrt + 1))
    r.1 ++ (if r.2 then loop cf bad n (nrt + 1) else [])

/-- simulate (runPeregrine.py:46-121) -/
def simulate (cf : LConf) (bad : ℕ → Bool) (niter nrt : ℕ) : List Ev := loop cf bad niter nrt ++ [.finalize]

/-! #### counters -/

/-- a block's own copies (restartBlock.py:15-16; `titme` on a block is absent until first set) -/
structure BCnt where
  nrt : ℕ
  tme : ℝ
  titme : Option ℝ

/-- a solver collection: its counters and its blocks -/
structure Coll where
  nrt : ℕ
  tme : ℝ
  titme : ℝ
  blks : List BCnt

/-- construction (restart.py:11-19, solver.py:29-36, restartBlock.py:15-16) -/
def Coll.new (n : ℕ) : Coll := ⟨0, 0, 0, List.replicate n ⟨0, 0, none⟩⟩

/-- assignments a user (or integrator, reader) makes on the collection -/
inductive Asg
  | nrt (v : ℕ)
  | tme (v : ℝ)
  | titme (v : ℝ)
  /-- readRestart: every block gets the values of its own file, then the collection is set from its first block
      (readRestart.py:60-61, 92-93) -/
  | readRestart (files : ℕ → ℕ × ℝ)
  /-- `mb.appendBlock()`, which raises TypeError on these collections before it changes anything (topology.py:36-38); the caller catches it -/
  | appendBlock

/-- `mb.nrt = v` (restart.py:32-36) -/
def setNrt (v : ℕ) (m : Coll) : Coll := { m with nrt := v, blks := m.blks.map fun b => { b with nrt := v } }
/-- `mb.tme = v` (restart.py:42-46) -/
def setTme (v : ℝ) (m : Coll) : Coll := { m with tme := v, blks := m.blks.map fun b => { b with tme := v } }
/-- `mb.titme = v` (solver.py:82-86) -/
def setTitme (v : ℝ) (m : Coll) : Coll := { m with titme := v, blks := m.blks.map fun b => { b with titme := some v } }

/-- readRestart's effect on the counters; `none`: `mb[0]` raises on an empty collection -/
def readCnt (files : ℕ → ℕ × ℝ) (m : Coll) : Option Coll :=
  let bs := m.blks.mapIdx fun i b => { b with nrt := (files i).1, tme := (files i).2 }
  match bs with
  | [] => none
  | b :: _ => some (setTme b.tme (setNrt b.nrt { m with blks := bs }))

/-- one assignment -/
def Asg.run : Asg → Coll → Option Coll
  | .nrt v, m => some (setNrt v m)
  | .tme v, m => some (setTme v m)
  | .titme v, m => some (setTitme v m)
  | .readRestart f, m => readCnt f m
  | .appendBlock, m => some m

/-- a history -/
def runAll : List Asg → Coll → Option Coll
  | [], m => some m
  | a :: as, m => (a.run m).bind (runAll as)

end PG.Run
