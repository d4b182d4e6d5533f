import Verif.Comm.Job
import Verif.Run.Model
import Verif.Time.Model
/-
The MPI calls of a whole run of runPeregrine.py, in order, for every rank: reading of the configuration, bootstrapCase, the main loop with
the time integrator, restart and archive files and NaN checks (`Run.simulate`), and the end. Simplification: coprocessing is off
(`trace` cannot be imported, see C89; Catalyst is outside the model), and no rank raises an exception.
-/
namespace PG.Comm.Job
open PG.Topo PG.Halo PG.Run PG.Time

/-- what the run is configured to do, as far as it matters for the sequence of MPI calls -/
structure Conf where
  /-- config["timeIntegration"]["integrator"] -/
  integ : Integrator
  /-- config["RHS"]["diffusion"] (RHS.py:25) -/
  diffusion : Bool
  /-- mb.phiComm (consistify.py:49) -/
  phi : Bool
  /-- config["io"]["niterPrint"] (dualTime.py:97) -/
  niterPrint : ℕ
  /-- restart, archive and NaN-check intervals (runPeregrine.py:47-51) -/
  loop : LConf
  niter : ℕ
  /-- config["io"]["lumpIO"] -/
  lump : Bool
  /-- mb.totalBlocks -/
  totalBlocks : ℕ
  /-- number of variables in a restart: rho, p, u, v, w, T and the species (parallelWriter.py:173) -/
  nvars : ℕ
  /-- number of components of each array of config["io"]["saveExtraVars"] (parallelWriter.py:283-286) -/
  extras : List ℕ
  /-- blocksForProcs.inp exists -/
  procsFile : Bool

/-- `communicate(mb, varis)` with `nv` variables (communicate.py:7-83): for each variable the exchange, then the barrier -/
def commSegs (world : List (List Block)) (nv : ℕ) : List Seg :=
  (List.replicate nv [exchSeg (fun r => recvsOf (world.getD r [])) (fun r => sendsOf (world.getD r [])), collSeg .barrier]).flatten

/-- the calls of the integrators that communicate -/
inductive SCall
  | rhs | consistify | consistifyP | resid
deriving DecidableEq

/-- the MPI calls behind them: RHS (RHS.py:33-34), consistify (consistify.py:20-23, 49-50), the residual (dualTime.py:98-100) -/
def scallSegs (c : Conf) (world : List (List Block)) : SCall → List Seg
  | .rhs => if c.diffusion then commSegs world 3 else []
  | .consistify => commSegs world 1 ++ (if c.phi then commSegs world 1 else [])
  | .consistifyP => commSegs world 1 ++ (if c.phi then commSegs world 1 else [])
  | .resid => [collSeg (.allreduce .resMax), collSeg (.allreduce .resSum)]

/-- the communicating calls of one `mb.step(dt)` in order (rk1.py:13-26, rk2.py:13-34, rk3.py:19-49, rk34.py:13-52, rk4.py:13-52,
    maccormack.py:14-38, strang.py:60-105, dualTime.py:39-116); `print` tells whether residuals are printed in this step (dualTime.py:97) -/
def stepCalls (print : Bool) : Integrator → List SCall
  | .rk1 => [.rhs, .consistify]
  | .rk2 => [.rhs, .consistify, .rhs, .consistify]
  | .rk3 => [.rhs, .consistify, .rhs, .consistify, .rhs, .consistify]
  | .rk34 => [.rhs, .consistify, .rhs, .consistify, .rhs, .consistify, .rhs, .consistify]
  | .rk4 => [.rhs, .consistify, .rhs, .consistify, .rhs, .consistify, .rhs, .consistify]
  | .maccormack => [.rhs, .consistify, .rhs, .consistify]
  | .strang => [.rhs, .consistify, .rhs, .consistify, .rhs, .consistify] ++ [.consistify] ++
      [.rhs, .consistify, .rhs, .consistify, .rhs, .consistify]
  | .dualTime => (List.replicate 20 ([.rhs, .consistifyP, .rhs, .consistifyP, .rhs, .consistifyP] ++
      (if print then [.resid] else []))).flatten

/-- a file written by all ranks together (parallelWriter.py:176-199, 246-247 and 290-313, 361-362): the file, the group "iter" with two data
    sets, for every block of the whole grid a group with `nv` data sets, and closing it. Nothing collective is done without `lump`. -/
def fileSegs (c : Conf) (f : Fil) (nv : ℕ) : List Seg :=
  if c.lump then
    ([Kind.openFile f, Kind.group f none, Kind.dset f none 0, Kind.dset f none 1] ++
      (List.range c.totalBlocks).flatMap (fun b => Kind.group f (some b) :: (List.range nv).map (fun v => Kind.dset f (some b) v)) ++
      [Kind.close f]).map collSeg
  else []

/-- registerParallelMetaData (parallelWriter.py:76-117): rank 0 receives the sizes of every other rank in turn (a blocking `Recv` is a
    receive posted and waited for), then broadcasts the table -/
def registerSegs (n : ℕ) : List Seg :=
  (List.range (n - 1)).map (fun i => exchSeg (fun r => if r = 0 then [(i + 1, i + 1)] else []) (fun r => if r = i + 1 then [(0, i + 1)] else [])) ++
    [collSeg .bcast]

/-- readConfigFile, bootstrapCase and the summary before the loop (readConfigFile.py:15-21, runPeregrine.py:23-33,
    readBlocksForProcs.py:19-26, bootstrapCase.py:19-205, unifySolverGrid.py:10-11, mpiUtils.py:14-46) -/
def bootSegs (c : Conf) (world : List (List Block)) : List Seg :=
  [collSeg (.openFile .config), collSeg (.close .config), collSeg .barrier] ++
  [collSeg (.openFile .procs)] ++ (if c.procsFile then [collSeg (.close .procs)] else []) ++
  [collSeg .barrier, collSeg .barrier, collSeg .barrier, collSeg .barrier, collSeg .barrier] ++
  (List.replicate 3 (commSegs world 3)).flatten ++
  [collSeg .barrier, collSeg .barrier] ++
  (List.replicate (2 + c.extras.length) (registerSegs world.length)).flatten ++
  scallSegs c world .consistify ++
  [collSeg .barrier, collSeg (.allreduce .cells), collSeg .gather]

/-- the calls of one event of the driver loop; `nrt` is the iteration number before it. A step begins with the reduction of the CFL factors
    (runPeregrine.py:53, mpiUtils.py:53). `writeDualTimeQnm1` writes one file per block and is not collective; coprocessing is off. -/
def evSegs (c : Conf) (world : List (List Block)) (nrt : ℕ) : Ev → List Seg
  | .step => collSeg (.allreduce .cfl) :: (stepCalls (nrt % c.niterPrint == 0) c.integ).flatMap (scallSegs c world)
  | .restart m => fileSegs c (.restart m) c.nvars
  | .qnm1 _ => []
  | .archive m => fileSegs c (.archive m) c.nvars ++ c.extras.zipIdx.flatMap fun e => fileSegs c (.extra e.2 m) e.1
  | .nanCheck _ => [collSeg (.allreduce .nan)]
  | .emergency => fileSegs c .emergency c.nvars ++ [collSeg .barrier]
  | .coproc _ => []
  | .finalize => []

/-- the calls of a sequence of events (each step raises the iteration number by one) -/
def evsSegs (c : Conf) (world : List (List Block)) : ℕ → List Ev → List Seg
  | _, [] => []
  | nrt, e :: es => evSegs c world nrt e ++ evsSegs c world (if e = .step then nrt + 1 else nrt) es

/-- the whole run from restart number `nrt`; `bad` are the outcomes of the NaN checks, which all ranks receive alike (C51) -/
def jobSegs (c : Conf) (world : List (List Block)) (bad : ℕ → Bool) (nrt : ℕ) : List Seg :=
  bootSegs c world ++ evsSegs c world nrt (simulate c.loop bad c.niter nrt)

/-- the calls rank `r` makes when it has read the restart number `nrt r` (readRestart.py:92 takes it from the first block of the rank) -/
def job (c : Conf) (world : List (List Block)) (bad : ℕ → Bool) (nrt : ℕ → ℕ) (r : ℕ) : List Call :=
  prog (jobSegs c world bad (nrt r)) r

/-! ### cross-check of `stepCalls` against the model of the integrators -/

/-- an environment that does nothing but record which of its functions are called, in order -/
def logEnv : Env ℕ (List SCall) where
  inner := fun _ => true
  rhs := fun _ k => (fun _ => 0, { k with aux := k.aux ++ [.rhs] })
  consistify := fun _ k => { k with aux := k.aux ++ [.consistify] }
  consistifyP := fun _ k => { k with aux := k.aux ++ [.consistifyP] }
  stiff := fun _ k => k
  dtau := fun _ _ => 0
  invert := fun _ _ _ _ => 0

/-- the sequence of calls that the model of the integrators makes is `stepCalls` (without the residual printout, which that model leaves
    out) -/
theorem stepCalls_logged (I : Integrator) (dt : ℝ) (s : St ℕ (List SCall)) :
    (step logEnv I dt s).core.aux = s.core.aux ++ stepCalls false I := by
  cases I
  case dualTime =>
    have h : ∀ s : St ℕ (List SCall), (pseudoIter logEnv dt s).core.aux =
        s.core.aux ++ [.rhs, .consistifyP, .rhs, .consistifyP, .rhs, .consistifyP] := by
      intro s
      simp [pseudoIter, doRHS, doConsistifyP, DTrk3s1, DTrk3s2, DTrk3s3, invertDQ, dQdt, doDtau, St.setq, logEnv]
    have hn : ∀ n, ((pseudoIter logEnv dt)^[n] s).core.aux = s.core.aux ++
        (List.replicate n [SCall.rhs, .consistifyP, .rhs, .consistifyP, .rhs, .consistifyP]).flatten := by
      intro n
      induction n with
      | zero => simp
      | succ n ih => rw [Function.iterate_succ_apply', h, ih, List.replicate_succ']; simp
    show ((pseudoIter logEnv dt)^[20] s).core.aux = _
    rw [hn]
    simp [stepCalls]
  all_goals
    simp [step, rk1, rk2, rk3, rk34, rk4, maccormack, strang, rk3stages, finish, doRHS, doConsistify, ApEQxB, corrector,
      rk2s1, rk2s2, rk3s1, rk3s2, rk3s3, rk34s1, rk34s2, rk34s3, rk34s4, rk4s1, rk4s2, rk4s3, rk4s4, St.setQ, logEnv, stepCalls]

end PG.Comm.Job
