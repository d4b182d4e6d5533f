import Verif.Halo.Model
/-
Model of the MPI call sequence of /repo/src/peregrinepy/mpiComm/communicate.py (communicate) as a per-rank program,
and of the blocking behaviour of the MPI calls it uses.
-/
namespace PG.Comm
open PG.Topo PG.Halo

/-- The MPI calls made by `communicate`. -/
inductive Op where
  /-- `comm.Irecv(..., source=src, tag=tag)` (communicate.py:23-25) -/
  | irecv (src tag : Nat)
  /-- `comm.Send(..., dest=dst, tag=tag)`, blocking (communicate.py:56) -/
  | send (dst tag : Nat)
  /-- `Request.Wait` on the request posted for `(src, tag)` (communicate.py:64) -/
  | wait (src tag : Nat)
  /-- `comm.Barrier()` (communicate.py:83) -/
  | barrier
deriving DecidableEq, Repr

/-- Body of the `for var in varis` loop (communicate.py:12-83) for a rank whose connected faces, in block/face order,
    have the given receive and send (rank, tag) pairs: post all receives, then all sends, then wait for the receives
    in posting order, then the barrier. -/
def roundProg (recvs sends : List (Nat × Nat)) : List Op :=
  recvs.map (fun p => Op.irecv p.1 p.2) ++ sends.map (fun p => Op.send p.1 p.2)
    ++ recvs.map (fun p => Op.wait p.1 p.2) ++ [Op.barrier]

/-- `communicate(mb, varis)` with `nv` variables (communicate.py:7-83). -/
def prog (nv : Nat) (recvs sends : List (Nat × Nat)) : List Op :=
  (List.replicate nv (roundProg recvs sends)).flatten

/-- Receive (source, tag) pairs of a rank in program order (communicate.py:15-26). -/
def recvsOf (mb : List Block) : List (Nat × Nat) :=
  mb.flatMap (fun blk => blk.faces.filterMap (fun f => f.neighbor.map (fun _ => (f.commRank, tagR blk.nblki f.nface))))

/-- Send (destination, tag) pairs of a rank in program order (communicate.py:29-56, solverFace.py:312). A connected
    face with illegal orientation cannot have been set up and contributes nothing. -/
def sendsOf (mb : List Block) : List (Nat × Nat) :=
  mb.flatMap (fun blk => blk.faces.filterMap (fun f =>
    f.neighbor.bind (fun nb => (neighborNface f.nface f.ori).map (fun nf2 => (f.commRank, tagS nb nf2)))))

/-- Execution state of one rank: calls completed (in order) and calls still to make. -/
structure RankState where
  done : List Op
  todo : List Op

/-- Global state: ranks `0 .. n-1`. -/
abbrev State := Nat → RankState

/-- Can rank `r` complete its next call?  MPI point-to-point semantics with non-overtaking matching: the k-th send from
    `r` to `d` with tag `t` matches the k-th receive posted on `d` for `(r, t)`.
    * `Irecv` completes at once;
    * `Send` completes if the matching receive is posted, or if the MPI library happens to buffer it (`buffers`, an
      arbitrary oracle that may always say no);
    * `Wait` completes if the matching send has been made;
    * `Barrier` completes if every rank has arrived at (or passed) the same barrier. -/
def enabled (n : Nat) (buffers : State → Nat → Bool) (s : State) (r : Nat) : Prop :=
  match (s r).todo with
  | [] => False
  | .irecv _ _ :: _ => True
  | .send d t :: _ =>
      buffers s r = true ∨ (d < n ∧ (s r).done.count (.send d t) < (s d).done.count (.irecv r t))
  | .wait src t :: _ => src < n ∧ (s r).done.count (.wait src t) < (s src).done.count (.send r t)
  | .barrier :: _ => ∀ r', r' < n →
      (s r).done.count .barrier < (s r').done.count .barrier ∨
      ((s r).done.count .barrier = (s r').done.count .barrier ∧ (s r').todo.head? = some .barrier)

/-- Rank `r` completes its next call. -/
def advance (s : State) (r : Nat) : State := fun r' =>
  if r' = r then
    match (s r).todo with
    | [] => s r
    | op :: rest => ⟨(s r).done ++ [op], rest⟩
  else s r'

/-- One step of the system: some rank whose next call can complete, completes it. -/
def Step (n : Nat) (buffers : State → Nat → Bool) (s s' : State) : Prop :=
  ∃ r, r < n ∧ enabled n buffers s r ∧ s' = advance s r

/-- States reachable from `s` by any schedule. -/
inductive Reach (n : Nat) (buffers : State → Nat → Bool) (s : State) : State → Nat → Prop
  | refl : Reach n buffers s s 0
  | step {s' s'' k} : Reach n buffers s s' k → Step n buffers s' s'' → Reach n buffers s s'' (k+1)

/-- All ranks have just entered `communicate(mb, varis)`. `world` lists the blocks of each rank. -/
def start (nv : Nat) (world : List (List Block)) : State := fun r =>
  ⟨[], prog nv (recvsOf (world.getD r [])) (sendsOf (world.getD r []))⟩

end PG.Comm
