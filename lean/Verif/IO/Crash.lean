import Verif.IO.XmfProps
import Verif.IO.Names
import Verif.Run.Loop
import Mathlib.Logic.Relation
/-!
C108: a run that is killed at any moment (`runPeregrine.py:52-118`, `src/peregrinepy/writers/parallelWriter.py`,
`src/peregrinepy/writers/writeDualTimeQnm1.py`, `src/peregrinepy/mpiComm/mpiUtils.py:49-61`).

Every rank is a list of file operations; the ranks interleave freely except that collective calls (the Allreduce before a step and in the NaN
check, opening and closing a lumped file) happen on all ranks together. A crash point is any state reachable. A file is torn from the moment it is
opened for writing until it is closed: what a reader finds in a torn file (or whether it can be opened) is arbitrary. A closed file is on disk.

Simplifications. Inside the write of a file nothing is distinguished. The xmf files, trace files and NaN logs are left out (readRestart and
initializeDualTime do not open them). If the preparation of a file raised, the rank would stop; the model then only leaves the file torn (the proofs
show that it does not raise).
-/
namespace PG.IO
open PG.Text PG.Run

/-- what a file can hold: a restart file or the array of the dual time history -/
inductive Data
  | h5 (f : File)
  | npy (x : ℕ → ℕ → ℕ → ℕ → ℝ)

/-- a file being written, or complete -/
inductive Mark
  | torn
  | full (d : Data)

/-- a disk -/
abbrev Disk := Str → Option Mark

/-- operations of a rank -/
inductive Op
  /-- an Allreduce of iteration `n` (mpiUtils.py:53, 86) -/
  | sync (n : ℕ)
  /-- `h5py.File(fileName, "w", driver="mpio")` (parallelWriter.py:179) -/
  | openAll (p : Str)
  /-- `qf.close()` of such a file (parallelWriter.py:249) -/
  | closeAll (p : Str) (d : Data)
  /-- `h5py.File(fileName, "w")` (parallelWriter.py:212), `open(fileName, "wb")` (writeDualTimeQnm1.py:13) -/
  | opn (p : Str)
  /-- closing it (parallelWriter.py:246, writeDualTimeQnm1.py:13-14) -/
  | close (p : Str) (d : Data)

/-- do all ranks take part? -/
def Op.collective : Op → Bool
  | .sync _ => true
  | .openAll _ => true
  | .closeAll _ _ => true
  | _ => false

/-- effect on the disk -/
def Op.apply : Op → Disk → Disk
  | .sync _, d => d
  | .openAll p, d => Function.update d p (some .torn)
  | .opn p, d => Function.update d p (some .torn)
  | .closeAll p x, d => Function.update d p (some (.full x))
  | .close p x, d => Function.update d p (some (.full x))

/-- an operation and the output it belongs to -/
structure TOp where
  ev : Ev
  op : Op

/-- everything a run writes: the ranks' blocks, the time and the older level at each iteration, and the order in which the blocks of a
    lumped file happen to be written -/
structure Hist where
  c : OutCfg
  sp : List Str
  single : ℝ → ℝ
  run : ℕ → Run
  order : ℕ → List Blk
  tme : ℕ → ℝ
  qnm1 : ℕ → ℕ → ℕ → ℕ → ℕ → ℕ → ℝ
  extraFile : Str → ℕ → ℕ → File

/-- blocks of rank `r` at iteration `n` -/
def Hist.mine (K : Hist) (n r : ℕ) : List Blk := (K.run n).getD r []

/-- contents of the file of one block, parallelWriter.py:211-243 -/
noncomputable def oneFile (rnd : ℝ → ℝ) (sp : List Str) (b : Blk) : Option H5 :=
  (putAll (fun _ => none) (zeros (allNames sp) b)).bind fun h => (blkWrites rnd sp b).foldlM setData h

/-- parallelWriteRestart on rank `r` with the solution of iteration `n`, `nrt` being the number it carries (parallelWriter.py:158-249) -/
noncomputable def restartOps (K : Hist) (ev : Ev) (dir : Str) (animate : Bool) (rnd : ℝ → ℝ) (n nrt r : ℕ) : List TOp :=
  if K.c.lump then
    let p := dir ++ "/".toList ++ dataName "q".toList true animate nrt 0
    ⟨ev, .openAll p⟩ :: (match parallelWrite rnd (K.run n) K.sp (K.order n) with
      | some h => [⟨ev, .closeAll p (.h5 ⟨h, nrt, K.tme n⟩)⟩]
      | none => [])
  else
    (K.mine n r).flatMap fun b =>
      let p := dir ++ "/".toList ++ dataName "q".toList false animate nrt b.num
      ⟨ev, .opn p⟩ :: (match oneFile rnd K.sp b with
        | some h => [⟨ev, .close p (.h5 ⟨h, nrt, K.tme n⟩)⟩]
        | none => [])

/-- parallelWriteArbitraryArray on rank `r`; the contents are left open (parallelWriter.py:275-345) -/
def extraOps (K : Hist) (ev : Ev) (a : Str) (n r : ℕ) : List TOp :=
  if K.c.lump then
    let p := K.c.archiveDir ++ "/".toList ++ dataName a true K.c.animateArchive n 0
    [⟨ev, .openAll p⟩, ⟨ev, .closeAll p (.h5 (K.extraFile a n 0))⟩]
  else
    (K.mine n r).flatMap fun b =>
      let p := K.c.archiveDir ++ "/".toList ++ dataName a false K.c.animateArchive n b.num
      [⟨ev, .opn p⟩, ⟨ev, .close p (.h5 (K.extraFile a n b.num))⟩]

/-- writeDualTimeQnm1 on rank `r` (writeDualTimeQnm1.py:4-14) -/
def qnm1Ops (K : Hist) (ev : Ev) (n r : ℕ) : List TOp :=
  (K.mine n r).flatMap fun b =>
    let p := K.c.restartDir ++ "/".toList ++ qnm1Name K.c.animateRestart n b.num
    [⟨ev, .opn p⟩, ⟨ev, .close p (.npy (K.qnm1 n b.num))⟩]

/-- the number given to the emergency restart (runPeregrine.py:102) -/
def emergencyNrt : ℕ := 99999999

/-- operations of rank `r` for an event of iteration `n` (runPeregrine.py:53, 66-118) -/
noncomputable def evOps (K : Hist) (n r : ℕ) : Ev → List TOp
  | .step => [⟨.step, .sync n⟩]
  | .restart m => restartOps K (.restart m) K.c.restartDir K.c.animateRestart id n m r
  | .qnm1 m => qnm1Ops K (.qnm1 m) n r
  | .archive m => restartOps K (.archive m) K.c.archiveDir K.c.animateArchive K.single n m r ++ K.c.extra.flatMap fun a => extraOps K (.archive m) a n r
  | .nanCheck m => [⟨.nanCheck m, .sync n⟩]
  | .emergency => restartOps K .emergency K.c.restartDir true K.single n emergencyNrt r
  | _ => []

/-- the file operations of rank `r` in a run of `niter` iterations from iteration `nrt` (runPeregrine.py:52-118); the order of events is that of
    `Run.loop` -/
noncomputable def prog (K : Hist) (cf : LConf) (bad : ℕ → Bool) (r : ℕ) : ℕ → ℕ → List TOp
  | 0, _ => []
  | k + 1, nrt => ((body cf (nrt + 1) (bad (nrt + 1))).1.flatMap (evOps K (nrt + 1) r)) ++
      (if (body cf (nrt + 1) (bad (nrt + 1))).2 then prog K cf bad r k (nrt + 1) else [])

/-- a state of the whole run: the disk and what every rank still has to do -/
structure Conf (R : ℕ) where
  disk : Disk
  todo : Fin R → List TOp

/-- one step: a rank does its next operation, or all ranks do the same collective one -/
inductive Move {R : ℕ} : Conf R → Conf R → Prop
  | one (s : Conf R) (r : Fin R) (o : TOp) (rest : List TOp) : s.todo r = o :: rest → o.op.collective = false →
      Move s ⟨o.op.apply s.disk, Function.update s.todo r rest⟩
  | all (s : Conf R) (o : TOp) (rest : Fin R → List TOp) : (∀ r, s.todo r = o :: rest r) → o.op.collective = true →
      Move s ⟨o.op.apply s.disk, rest⟩

/-- a crash point: a state reachable from the start -/
def Reach {R : ℕ} : Conf R → Conf R → Prop := Relation.ReflTransGen Move

/-- the start: any disk -/
noncomputable def start (R : ℕ) (K : Hist) (cf : LConf) (bad : ℕ → Bool) (niter nrt : ℕ) (d : Disk) : Conf R :=
  ⟨d, fun r => prog K cf bad r niter nrt⟩

/-- what is found on a disk afterwards: complete restart files are what they are; torn files are arbitrary -/
def Disk.view (d : Disk) (junk : Fs) : Fs := fun p =>
  match d p with
  | none => none
  | some .torn => junk p
  | some (.full (.h5 f)) => some f
  | some (.full (.npy _)) => none

/-- the array found in a file of the dual time history (dualTime.py:127-137), `none` when it is not there -/
def Disk.npy (d : Disk) (junk : Str → Option (ℕ → ℕ → ℕ → ℕ → ℝ)) (p : Str) : Option (ℕ → ℕ → ℕ → ℕ → ℝ) :=
  match d p with
  | some .torn => junk p
  | some (.full (.npy x)) => some x
  | _ => none

end PG.IO
