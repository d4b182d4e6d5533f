import Mathlib.Data.Set.Basic
import Mathlib.Data.Set.Insert
import Mathlib.Data.List.Basic

/-!
# Host arrays and device views (model)

On a CPU build the Kokkos view `blk.q`, its host mirror `blk.mirror["q"]` and the numpy array `blk.array["q"]`
are the same memory; on a GPU build the view is another memory, and nothing moves between the two except by
`updateDeviceView`, `updateHostView` and the copies of `createViewMirrorArray`
(`src/compute/kokkosTypes.hpp:7-28`, `misc/createViewMirrorArray.py`, `multiBlock/solverBlock.py:246-256`,
`multiBlock/solverFace.py:383-393`).

A program is a tree of steps.  Python and MPI touch the host side, compiled kernels the device side; a step is
any function with the stated arrays as its inputs and outputs, so that what is proved holds whatever the
kernels compute.  The same program is given two meanings, with one memory and with two.
-/

namespace PG.Mem

/-- Who holds an array: the species data `mb.thtrdat`, a block, or a face of a block (faces numbered 1-6)
(`thermoTransport/thtrdat.py:12-55`, `multiBlock/solverBlock.py:22-63`, `multiBlock/solverFace.py:44-76`). -/
inductive Owner where
  | thtr
  | blk (b : ℕ)
  | face (b f : ℕ)
deriving DecidableEq

/-- Array names: `arr s` is the array called `s`; `send s`, `recv s`, `temp s` are a face's `sendBuffer_s`,
`recvBuffer_s`, `tempRecvBuffer_s` (`multiBlock/solverFace.py:55-76`). -/
inductive Name where
  | arr (s : String)
  | send (s : String)
  | recv (s : String)
  | temp (s : String)
deriving DecidableEq

/-- An array with a host side and a device side. -/
structure Var where
  owner : Owner
  name : Name
deriving DecidableEq

/-- Contents of one memory. -/
abbrev Memory (V : Type) := Var → V

/-- A computation on one side: it changes only `writes`, to values that depend only on `reads`. -/
structure Act (V : Type) where
  reads : Set Var
  writes : Set Var
  run : Memory V → Memory V
  frame : ∀ m v, v ∉ writes → run m v = m v
  det : ∀ m m', (∀ v ∈ reads, m v = m' v) → ∀ v ∈ writes, run m v = run m' v

/-- A value computed from `reads`. -/
structure Look (V O : Type) where
  reads : Set Var
  val : Memory V → O
  det : ∀ m m', (∀ v ∈ reads, m v = m' v) → val m = val m'

/-- Programs.  `host`: Python (or MPI) on the arrays; `dev`: a kernel on the views; `push`, `pull`:
`updateDeviceView`, `updateHostView` of one array (`multiBlock/solverBlock.py:246-256`); `emit`: a file, log
line or message made from the host arrays; `ask`: a number reduced on the device and returned to Python, on
which the rest may depend. -/
inductive Prog (V O : Type) where
  | skip
  | host (a : Act V)
  | dev (a : Act V)
  | push (v : Var)
  | pull (v : Var)
  | emit (l : Look V O)
  | ask (l : Look V V) (k : V → Prog V O)
  | seq (p q : Prog V O)

infixr:60 " ;; " => Prog.seq

/-- One array replaced (the effect of `deep_copy` on its destination,
`src/compute/pgkokkos/bindingsKokkos.cpp:132-183`). -/
def put {V : Type} (m : Memory V) (v : Var) (x : V) : Memory V := fun w => if w = v then x else m w

/-- Meaning with one memory (CPU builds): the copies copy an array onto itself. -/
def shared {V O : Type} : Prog V O → Memory V → Memory V × List O
  | .skip, m => (m, [])
  | .host a, m => (a.run m, [])
  | .dev a, m => (a.run m, [])
  | .push _, m => (m, [])
  | .pull _, m => (m, [])
  | .emit l, m => (m, [l.val m])
  | .ask l k, m => shared (k (l.val m)) m
  | .seq p q, m =>
    let r := shared p m
    let s := shared q r.1
    (s.1, r.2 ++ s.2)

/-- Meaning with two memories (GPU builds), host and device. -/
def split {V O : Type} : Prog V O → Memory V → Memory V → (Memory V × Memory V) × List O
  | .skip, h, d => ((h, d), [])
  | .host a, h, d => ((a.run h, d), [])
  | .dev a, h, d => ((h, a.run d), [])
  | .push v, h, d => ((h, put d v (h v)), [])
  | .pull v, h, d => ((put h v (d v), d), [])
  | .emit l, h, d => ((h, d), [l.val h])
  | .ask l k, h, d => split (k (l.val d)) h d
  | .seq p q, h, d =>
    let r := split p h d
    let s := split q r.1.1 r.1.2
    (s.1, r.2 ++ s.2)

/-- What each named step computes: any family of functions with the inputs and outputs named where the step is
used.  The list of values holds the scalars it is given (time, step size, iteration number). -/
structure Code (V O : Type) where
  act : (site : String) → (args : List V) → (R W : Set Var) → Act V
  act_reads : ∀ s a R W, (act s a R W).reads = R
  act_writes : ∀ s a R W, (act s a R W).writes = W
  red : (site : String) → (args : List V) → (R : Set Var) → Look V V
  red_reads : ∀ s a R, (red s a R).reads = R
  out : (site : String) → (args : List V) → (R : Set Var) → Look V O
  out_reads : ∀ s a R, (out s a R).reads = R
  /-- `tme + dt` -/
  plus : V → V → V
  /-- `abort > 0` -/
  isPos : V → Bool
  /-- an integer as a scalar argument -/
  ofNat : ℕ → V

/-- The case: blocks, faces with a neighbour, periodic faces, faces with values in `bcFams.yaml`, faces with a
time dependent inlet, blocks with a trace point (the multi-block object after `readConnectivity`,
`bootstrapCase.py:55-95`; all ranks together). -/
structure Grid where
  blocks : List ℕ
  conn : List (ℕ × ℕ)
  periodic : List (ℕ × ℕ)
  bcs : List (ℕ × ℕ)
  spline : List (ℕ × ℕ)
  traced : List ℕ

/-- The integrators (`integrators/__init__.py`). -/
inductive Integrator where
  | rk1 | rk2 | rk3 | rk34 | rk4 | maccormack | strang | dualTime
deriving DecidableEq

/-- The entries of the configuration that decide which steps are taken (`files/configFile.py`). -/
structure Config where
  diffusion : Bool
  phiComm : Bool
  integrator : Integrator
  niterRestart : ℕ
  niterArchive : ℕ
  niterPrint : ℕ
  checkNan : ℕ
  niterTrace : ℕ
  extraVars : List String
  /-- is there a `Qnm1` file for a block (`integrators/dualTime.py:128-138`) -/
  qnm1File : ℕ → Bool
  /-- does Catalyst ask for data at an iteration (`coproc/catalystCoprocessor.py:108-111`) -/
  catalystWants : ℕ → Bool

section Program

variable {V O : Type} (c : Code V O) (g : Grid) (cfg : Config)

/-- A `for` loop. -/
def each {α : Type} (l : List α) (f : α → Prog V O) : Prog V O := l.foldr (fun a p => f a ;; p) .skip

/-- A numpy (or MPI) step. -/
def py (site : String) (args : List V) (R W : Set Var) : Prog V O := .host (c.act site args R W)

/-- A kernel launch. -/
def kern (site : String) (args : List V) (R W : Set Var) : Prog V O := .dev (c.act site args R W)

/-- The array `n` of block `b`. -/
def bv (b : ℕ) (n : String) : Var := ⟨.blk b, .arr n⟩

/-- The array `n` of face `f` of block `b`. -/
def fv (b f : ℕ) (n : String) : Var := ⟨.face b f, .arr n⟩

/-- Several arrays of a block. -/
def bvs (b : ℕ) (ns : List String) : Set Var := {v | ∃ n ∈ ns, v = bv b n}

/-- `["x", "y", "z"]` -/
def coordNames : List String := ["x", "y", "z"]

/-- The groups of arrays `metrics` computes and pushes, in its order (`grid/metrics.py:31-73`, `80-137`,
`139-197`, `199-257`, `259-288`, `290-360`). -/
def metricGroups : List (List String) :=
  [["xc", "yc", "zc"],
   ["ixc", "iyc", "izc", "isx", "isy", "isz", "iS", "inx", "iny", "inz"],
   ["jxc", "jyc", "jzc", "jsx", "jsy", "jsz", "jS", "jnx", "jny", "jnz"],
   ["kxc", "kyc", "kzc", "ksx", "ksy", "ksz", "kS", "knx", "kny", "knz"],
   ["J"],
   ["dEdx", "dEdy", "dEdz", "dNdx", "dNdy", "dNdz", "dCdx", "dCdy", "dCdz"]]

/-- All geometry arrays of a block. -/
def geoNames : List String := coordNames ++ metricGroups.flatten

/-- Arrays the kernels write (`Par/Table.lean`; `KernelWrites` below checks this against that listing). -/
def flowNames : List String :=
  ["Q", "q", "dQ", "dqdx", "dqdy", "dqdz", "qh", "qt", "omega", "Q0", "Q1", "Q2", "Q3", "dtau", "iF", "jF", "kF",
    "phi"]

/-- The history of the dual time integrator, written only by `AEQB` (`integrators/dualTime.py:106-108`). -/
def histNames : List String := ["Qn", "Qnm1"]

/-- The tables of `thtrdat` (`thermoTransport/thtrdat.py:14-55`). -/
def thtrNames : List String :=
  ["MW", "cp0", "NASA7", "muPoly", "kappaPoly", "DijPoly", "mu0", "kappa0", "Tcrit", "pcrit", "Vcrit", "acentric",
    "chungA", "chungB", "redDipole"]

/-- The view arrays of the faces kernels read (`multiBlock/solverFace.py:66-76`). -/
def rotNames : List String := ["periodicRotMatrixUp", "periodicRotMatrixDown"]

/-- `["qBcVals", "QBcVals"]` (`readers/readBcs.py:112`) -/
def bcNames : List String := ["qBcVals", "QBcVals"]

/-- Everything a kernel on block `b` may read: the species tables, the arrays of the block, the boundary values,
rotation matrices and spline coefficients of its faces (`Par/Table.lean`). -/
def kReads : Set Var :=
  {v | (∃ n ∈ thtrNames, v = ⟨.thtr, .arr n⟩) ∨
    (∃ b ∈ g.blocks, ∃ n ∈ geoNames ++ flowNames ++ histNames, v = bv b n) ∨
    (∃ x ∈ g.periodic, ∃ n ∈ rotNames, v = fv x.1 x.2 n) ∨
    (∃ x ∈ g.bcs, ∃ n ∈ bcNames, v = fv x.1 x.2 n) ∨
    (∃ x ∈ g.spline, v = fv x.1 x.2 "intervalAlphas")}

/-- Everything a kernel on block `b` may write: its flow arrays, and (time dependent inlet) the boundary values
of its faces (`Par/Table.lean`; `src/compute/boundaryConditions/inlets.cpp:122-140`). -/
def kWrites (b : ℕ) : Set Var :=
  {v | (∃ n ∈ flowNames, v = bv b n) ∨ (∃ x ∈ g.bcs, ∃ n ∈ bcNames, v = fv x.1 x.2 n)}

/-- A kernel of block `b`. -/
def kernB (site : String) (args : List V) (b : ℕ) : Prog V O := kern c site args (kReads g) (kWrites g b)

/-- `obj.updateDeviceView(names)` / `obj.updateHostView(names)` of a block
(`multiBlock/solverBlock.py:246-256`). -/
def pushB (b : ℕ) (ns : List String) : Prog V O := each ns fun n => .push (bv b n)

/-- See `pushB`. -/
def pullB (b : ℕ) (ns : List String) : Prog V O := each ns fun n => .pull (bv b n)

/-- `createViewMirrorArray` of an array without contents: view and mirror are zero
(`misc/createViewMirrorArray.py:33-44`). -/
def create (v : Var) : Prog V O := py c "zeros" [] ∅ {v} ;; .push v

/-- `communicate` of one variable (`mpiComm/communicate.py:12-83`).  All ranks together; the receives posted
first are filled by the sends, which the model does in one step after the last send (nothing reads or writes a
receive buffer in between; order and delivery are C06 and C07). -/
def commVar (var : String) : Prog V O :=
  each g.conn (fun x =>
    kern c "extractSendBuffer" [] {bv x.1 var} {⟨.face x.1 x.2, .temp var⟩} ;;
    .pull ⟨.face x.1 x.2, .temp var⟩ ;;
    py c "orient" [] {⟨.face x.1 x.2, .temp var⟩} {⟨.face x.1 x.2, .send var⟩}) ;;
  py c "Send/Irecv" [] {v | ∃ x ∈ g.conn, v = ⟨.face x.1 x.2, .send var⟩}
    {v | ∃ x ∈ g.conn, v = ⟨.face x.1 x.2, .recv var⟩} ;;
  each g.conn (fun x =>
    .push ⟨.face x.1 x.2, .recv var⟩ ;;
    kern c "placeRecvBuffer" [] {bv x.1 var, ⟨.face x.1 x.2, .recv var⟩} {bv x.1 var})

/-- `communicate` (`mpiComm/communicate.py:7-12`). -/
def communicate (vars : List String) : Prog V O := each vars (commVar c g)

/-- A boundary condition of face `x` (`consistify.py:33-34`, `RHS.py:31-32`, `43-44`).  A time dependent inlet first
loads the coefficients of the current interval into its host copy and pushes them
(`src/compute/boundaryConditions/inlets.cpp:94-107`; the model reloads them at every call, the code only when the
interval changes, which leaves the same values). -/
def bcFunc (terms : String) (args : List V) (b : ℕ) : Prog V O :=
  (if terms = "euler" then
    each (g.spline.filter (fun x => x.1 = b)) (fun x =>
      py c "intervalAlphas" args {fv x.1 x.2 "cubicSplineAlphas"} {fv x.1 x.2 "intervalAlphas"} ;;
      .push (fv x.1 x.2 "intervalAlphas"))
    else .skip) ;;
  kernB c g ("bc " ++ terms) args b

/-- `consistify` (`consistify.py:12-50`). -/
def consistify (given : String) (args : List V) : Prog V O :=
  communicate c g [if given = "cons" then "Q" else "q"] ;;
  each g.blocks (fun b =>
    kernB c g ("eos " ++ given) args b ;;
    bcFunc c g "euler" args b ;;
    kernB c g "trans" args b ;;
    kernB c g "switch" args b ;;
    kernB c g "viscousSponge" args b) ;;
  (if cfg.phiComm then communicate c g ["phi"] else .skip)

/-- `RHS` (`RHS.py:11-54`). -/
def rhs (args : List V) : Prog V O :=
  each g.blocks (fun b =>
    kernB c g "dQzero" args b ;;
    kernB c g "primaryAdvFlux" args b ;;
    kernB c g "applyPrimaryAdvFlux" args b ;;
    kernB c g "secondaryAdvFlux" args b ;;
    kernB c g "applySecondaryAdvFlux" args b) ;;
  (if cfg.diffusion then
    each g.blocks (fun b => bcFunc c g "preDqDxyz" args b ;; kernB c g "dqdxyz" args b) ;;
    communicate c g ["dqdx", "dqdy", "dqdz"] ;;
    each g.blocks (fun b =>
      bcFunc c g "postDqDxyz" args b ;;
      kernB c g "sgs" args b ;;
      kernB c g "diffFlux" args b ;;
      kernB c g "applyDiffFlux" args b)
    else .skip) ;;
  each g.blocks (fun b => kernB c g "expChem" args b)

/-- A stage kernel applied to every block. -/
def stage (site : String) (args : List V) : Prog V O := each g.blocks fun b => kernB c g site args b

/-- A right-hand side, a stage kernel and `consistify`: the unit the explicit integrators repeat
(`integrators/rk3.py:27-40`). -/
def rkStage (site given : String) (args : List V) : Prog V O :=
  rhs c g cfg args ;; stage c g site args ;; consistify c g cfg given args

/-- `strang`'s chemistry (`integrators/strang.py:73-88`, `9-13`): in every block, for every cell, `evals` evaluations
by the ODE solver, each writing the host `q`, calling the kernel and reading the host `omega`; then the host `Q`. -/
def stiffChem (evals : ℕ) (args : List V) : Prog V O :=
  each g.blocks fun b =>
    each (List.range evals) (fun _ =>
      py c "stiff y" args (bvs b ["q", "omega"]) (bvs b ["q"]) ;;
      kernB c g "impChem" args b) ;;
    py c "stiff Q" args (bvs b ["q", "omega", "Q"]) (bvs b ["Q"])

/-- The pseudo time loop of `dualTime.step`, `n` sub-iterations left of 20
(`integrators/dualTime.py:47-100`). -/
def pseudo (nrt : ℕ) (args : List V) : ℕ → Prog V O
  | 0 => .skip
  | n + 1 =>
    stage c g "localDtau" args ;;
    rkStage c g cfg "dQdt invertDQ DTrk3s1" "prims" args ;;
    rkStage c g cfg "dQdt invertDQ DTrk3s2" "prims" args ;;
    rkStage c g cfg "dQdt invertDQ DTrk3s3" "prims" args ;;
    (if nrt % cfg.niterPrint = 0 then
      .ask (c.red "residual" args (kReads g)) fun r =>
        .emit (c.out "printResidual" (r :: args) ∅) ;; pseudo nrt args n
      else pseudo nrt args n)

/-- `mb.step(dt)` (`integrators/rk1.py`, `rk2.py`, `rk3.py`, `rk34.py`, `rk4.py`, `maccormack.py`, `strang.py`,
`dualTime.py:38-111`).  `args` holds the time and the step; the stage time is a function of them. -/
def step (evals nrt : ℕ) (args : List V) : Prog V O :=
  match cfg.integrator with
  | .rk1 => rkStage c g cfg "ApEQxB" "cons" args
  | .rk2 => rkStage c g cfg "rk2s1" "cons" args ;; rkStage c g cfg "rk2s2" "cons" args
  | .rk3 => rkStage c g cfg "rk3s1" "cons" args ;; rkStage c g cfg "rk3s2" "cons" args ;;
      rkStage c g cfg "rk3s3" "cons" args
  | .rk34 => rkStage c g cfg "rk34s1" "cons" args ;; rkStage c g cfg "rk34s2" "cons" args ;;
      rkStage c g cfg "rk34s3" "cons" args ;; rkStage c g cfg "rk34s4" "cons" args
  | .rk4 => rkStage c g cfg "rk4s1" "cons" args ;; rkStage c g cfg "rk4s2" "cons" args ;;
      rkStage c g cfg "rk4s3" "cons" args ;; rkStage c g cfg "rk4s4" "cons" args
  | .maccormack => stage c g "AEQB Q0 Q" args ;; rkStage c g cfg "ApEQxB" "cons" args ;;
      rkStage c g cfg "corrector" "cons" args
  | .strang =>
      rkStage c g cfg "rk3s1" "cons" args ;; rkStage c g cfg "rk3s2" "cons" args ;;
      rkStage c g cfg "rk3s3" "cons" args ;;
      stiffChem c g evals args ;; consistify c g cfg "cons" args ;;
      rkStage c g cfg "rk3s1" "cons" args ;; rkStage c g cfg "rk3s2" "cons" args ;;
      rkStage c g cfg "rk3s3" "cons" args
  | .dualTime =>
      pseudo c g cfg nrt args 20 ;;
      each g.blocks (fun b =>
        kern c "AEQB" [] {bv b "Qn"} {bv b "Qnm1"} ;; kern c "AEQB" [] {bv b "Q"} {bv b "Qn"})

/-- `parallelWriteRestart` (`writers/parallelWriter.py:199-264`). -/
def parallelWriteRestart (args : List V) : Prog V O :=
  each g.blocks fun b => pullB b ["q", "Q"] ;; .emit (c.out "restart" args (bvs b ["q", "Q"]))

/-- `writeDualTimeQnm1` (`writers/writeDualTimeQnm1.py:4-14`). -/
def writeQnm1 (args : List V) : Prog V O :=
  each g.blocks fun b => pullB b ["Qnm1"] ;; .emit (c.out "Qnm1" args (bvs b ["Qnm1"]))

/-- `parallelWriteArbitraryArray` (`writers/parallelWriter.py:313-352`). -/
def parallelWriteArray (args : List V) (n : String) : Prog V O :=
  each g.blocks fun b => pullB b [n] ;; .emit (c.out ("array " ++ n) args (bvs b [n]))

/-- The serial `writeRestart` given a solver: it reads the host arrays as they are
(`writers/writeRestart.py:54-124`). -/
def writeRestart (args : List V) : Prog V O :=
  each g.blocks fun b => .emit (c.out "restart" args (bvs b ["q", "Q"]))

/-- The serial `writeArbitraryArray` (`writers/writeArbitraryArray.py:56-110`). -/
def writeArray (args : List V) (n : String) : Prog V O :=
  each g.blocks fun b => .emit (c.out ("array " ++ n) args (bvs b [n]))

/-- The log of `checkForNan` (`mpiComm/mpiUtils.py:68-86`). -/
def nanLog (args : List V) : Prog V O :=
  each g.blocks fun b =>
    pullB b ["Q"] ;; .emit (c.out "nans" args (bvs b ["Q", "xc", "yc", "zc"]))

/-- The trace recorder and Catalyst (`coproc/pgCoprocessor.py:27-29`,
`coproc/tracePointCoprocessor.py:76-104`, `coproc/catalystCoprocessor.py:108-165`; the coordinates Catalyst holds
were set at start and not changed since). -/
def coproc (nrt : ℕ) (args : List V) : Prog V O :=
  (if nrt % cfg.niterTrace = 0 then
    each g.traced (fun b => pullB b ["q"]) ;;
    each g.traced (fun b => .emit (c.out "trace" args (bvs b ["q"])))
    else .skip) ;;
  (if cfg.catalystWants nrt then
    each g.blocks fun b => pullB b ["q", "Q"] ;; .emit (c.out "catalyst" args (bvs b (coordNames ++ ["q", "Q"])))
    else .skip)

/-- The outputs after a step (`runPeregrine.py:69-99`). -/
def outputs (nrt : ℕ) (args : List V) : Prog V O :=
  (if nrt % cfg.niterRestart = 0 then
    parallelWriteRestart c g args ;;
    (if cfg.integrator = .dualTime then writeQnm1 c g args else .skip)
    else .skip) ;;
  (if nrt % cfg.niterArchive = 0 then
    parallelWriteRestart c g args ;; each cfg.extraVars (parallelWriteArray c g args)
    else .skip)

/-- The time loop with `n` steps to go (`runPeregrine.py:50-118`). -/
def loop (evals : ℕ) : ℕ → ℕ → V → Prog V O
  | 0, _, _ => .skip
  | n + 1, nrt, tme =>
    .ask (c.red "getDtMaxCFL" [] (kReads g)) fun dt =>
      .emit (c.out "print" [c.ofNat nrt, tme, dt] ∅) ;;
      step c g cfg evals nrt [tme, dt] ;;
      (let nrt' := nrt + 1
       let tme' := c.plus tme dt
       outputs c g cfg nrt' [c.ofNat nrt', tme'] ;;
       (if cfg.checkNan ≠ 0 ∧ nrt' % cfg.checkNan = 0 then
          .ask (c.red "checkNan" [] (kReads g)) fun a =>
            if c.isPos a then
              nanLog c g [] ;; parallelWriteRestart c g [c.ofNat 99999999, tme']
            else coproc c g cfg nrt' [tme'] ;; loop evals n nrt' tme'
        else coproc c g cfg nrt' [tme'] ;; loop evals n nrt' tme'))

/-- The species tables (`thermoTransport/thtrdat.py:57-163`; only those the gas model needs exist, the model fills
all). -/
def setThtr : Prog V O :=
  each thtrNames fun n => py c ("thtrdat " ++ n) [] ∅ {⟨.thtr, .arr n⟩} ;; .push ⟨.thtr, .arr n⟩

/-- `readGrid` and `readRestart` into plain numpy arrays (`readers/readGrid.py:60-90`, `readers/readRestart.py:38-80`):
the metric arrays are zeroed, the coordinates and `q` read. -/
def readFiles : Prog V O :=
  each g.blocks fun b =>
    py c "initGridArrays" [] ∅ (bvs b geoNames) ;;
    py c "readGrid" [] (bvs b coordNames) (bvs b coordNames) ;;
    py c "readRestart" [] ∅ (bvs b ["q"])

/-- `setBlockCommunication` (`multiBlock/solverFace.py:244-310`): buffers made from `np.empty`. -/
def setComm : Prog V O :=
  each g.conn fun x =>
    each (coordNames ++ ["q", "Q", "dqdx", "dqdy", "dqdz", "phi"]) fun n =>
      create c ⟨.face x.1 x.2, .send n⟩ ;; create c ⟨.face x.1 x.2, .recv n⟩ ;; create c ⟨.face x.1 x.2, .temp n⟩

/-- `initSolverArrays` (`multiBlock/solverBlock.py:67-236`): arrays that have contents are copied to the new view,
others start as zero.  (Some arrays are made only if the configuration needs them; the model makes all.) -/
def initArrays : Prog V O :=
  each g.blocks fun b =>
    pushB b geoNames ;; .push (bv b "q") ;;
    each (flowNames.filter (· ≠ "q") ++ histNames) (fun n => create c (bv b n))

/-- Periodic faces: `readBcs(justPeriodic=True)` sets the rotation matrices (`readers/readBcs.py:79-83`,
`multiBlock/solverFace.py:99-104`). -/
def setPeriodic : Prog V O :=
  each g.periodic fun x => each rotNames fun n => py c ("rot " ++ n) [] ∅ {fv x.1 x.2 n} ;; .push (fv x.1 x.2 n)

/-- `unifySolverGrid` (`grid/unifySolverGrid.py:4-50`, `grid/generateHalo.py:6-355`). -/
def unifyGrid : Prog V O :=
  each g.blocks (fun b =>
    py c "generateHalo" [] (bvs b coordNames) (bvs b coordNames) ;; pushB b coordNames) ;;
  each [0, 1, 2] (fun (_ : ℕ) => communicate c g coordNames) ;;
  each g.blocks (fun b => pullB b coordNames) ;;
  each g.periodic (fun x =>
    py c "periodic shift" [] (bvs x.1 coordNames ∪ {fv x.1 x.2 "periodicRotMatrixUp", fv x.1 x.2 "periodicRotMatrixDown"})
      (bvs x.1 coordNames)) ;;
  each g.blocks (fun b => pushB b coordNames)

/-- `computeMetrics` (`grid/metrics.py:27-360`): each group is computed on the host from the coordinates and earlier
groups, and pushed. -/
def computeMetrics : Prog V O :=
  each g.blocks fun b =>
    each metricGroups fun ns => py c ("metrics " ++ String.join ns) [] (bvs b geoNames) (bvs b ns) ;; pushB b ns

/-- Boundary values: `readBcs` (`readers/readBcs.py:85-114`, `bcs/prepInlets.py`, `bcs/prepExits.py`, `bcs/prepWalls.py`):
computed on the host, perhaps from the face normals, then copied to new views; a time dependent inlet also makes
its coefficient arrays. -/
def setBcs : Prog V O :=
  each g.bcs (fun x =>
    py c "prep" [] (bvs x.1 geoNames) {fv x.1 x.2 "qBcVals", fv x.1 x.2 "QBcVals"} ;;
    .push (fv x.1 x.2 "qBcVals") ;; .push (fv x.1 x.2 "QBcVals")) ;;
  each g.spline (fun x =>
    py c "cubicSplineAlphas" [] ∅ {fv x.1 x.2 "cubicSplineAlphas"} ;;
    kern c "intervalAlphas" [] ∅ {fv x.1 x.2 "intervalAlphas"})

/-- `initializeDualTime` (`integrators/dualTime.py:116-142`). -/
def initDual (nrt : ℕ) : Prog V O :=
  each g.blocks fun b =>
    (if nrt ≠ 0 ∧ cfg.qnm1File b then
      py c "np.load Qnm1" [] {bv b "Qnm1"} {bv b "Qnm1"} ;; pushB b ["Qnm1"]
      else kern c "AEQB" [] {bv b "Q"} {bv b "Qnm1"}) ;;
    kern c "AEQB" [] {bv b "Q"} {bv b "Qn"}

/-- `bootstrapCase` (`bootstrapCase.py:14-200`). -/
def bootstrap (nrt : ℕ) (tme : V) : Prog V O :=
  setThtr c ;; readFiles c g ;; setComm c g ;; initArrays c g ;; setPeriodic c g ;; unifyGrid c g ;;
  computeMetrics c g ;; setPeriodic c g ;; setBcs c g ;;
  each g.blocks (fun b => kernB c g "eos prims" [tme] b) ;;
  consistify c g cfg "cons" [tme] ;;
  (if cfg.integrator = .dualTime then initDual c g cfg nrt else .skip)

/-- A run of `runPeregrine.py` from iteration `nrt` and time `tme` (those of the restart file)
(`runPeregrine.py:13-136`). -/
def simulate (evals niter nrt : ℕ) (tme : V) : Prog V O :=
  bootstrap c g cfg nrt tme ;; loop c g cfg evals niter nrt tme

end Program

end PG.Mem
