import Verif.Base.Text
import Mathlib.Data.Rat.Defs
import Mathlib.Data.Rat.Floor
import Mathlib.Data.Real.Basic
/-
Model of block lists, block-to-rank assignment, the load balancer and the species-sum check.
-/
namespace PG.Setup
open PG.Text

/-! ### Block lists: src/peregrinepy/multiBlock/topology.py -/

/-- A block as seen by the list: its number and everything else. -/
structure Blk (α : Type) where
  nblki : ℕ
  data : α
deriving DecidableEq

/-- blockList (topology.py:24-26) -/
def blockList {α} (mb : List (Blk α)) : List ℕ := mb.map (·.nblki)

/-- exceptions raised by the modelled Python functions -/
inductive Exn | indexError | typeError | valueError | assertionError | abort
deriving DecidableEq

/-- getBlock (topology.py:28-35): Python indexing `self[nblki]` raises IndexError past the end; `none` is Python's None.
    (block numbers are non-negative) -/
def getBlock {α} (mb : List (Blk α)) (n : ℕ) : Except Exn (Option (Blk α)) :=
  match mb[n]? with
  | none => .error .indexError
  | some b => if b.nblki = n then .ok (some b) else .ok (mb.find? (fun b => b.nblki = n))

/-- kinds of multiBlock (`mbType`) -/
inductive MbType | topology | grid | restart | solver
deriving DecidableEq

/-- appendBlock (topology.py:36-44); `mk` is the block class constructor, `self[0]` raises on an empty list -/
def appendBlock {α} (t : MbType) (mk : ℕ → α) (mb : List (Blk α)) : Except Exn (List (Blk α)) :=
  if t = .restart ∨ t = .solver then .error .typeError
  else
    let maxNblki := mb.foldl (fun m b => if b.nblki > m then b.nblki else m) 0
    match mb with
    | [] => .error .indexError
    | _ => .ok (mb ++ [⟨maxNblki + 1, mk (maxNblki + 1)⟩])

/-- the constructor `topology(nblks)` (topology.py:11-18) -/
def construct {α} (mk : ℕ → α) (nblks : ℕ) : List (Blk α) := (List.range nblks).map (fun i => ⟨i, mk i⟩)

/-! ### Species sums: src/peregrinepy/multiBlock/restartBlock.py, restart.py -/

/-- the stored mass fractions of the cells of a block: `q[..., 5:]`, flattened over the cells -/
abbrev Cells := List (List ℝ)

/-- verifySpeciesSum (restartBlock.py:62-84). Result: the Python return value (`none` = None) and the new cells.
    `ns` is the number of species; an empty block makes np.max raise. -/
noncomputable def verifySpeciesSum (ns : ℕ) (normalize : Bool) (c : Cells) : Except Exn (Option Bool × Cells) :=
  if ¬ 1 < ns then .error .assertionError
  else match c.map List.sum with
    | [] => .error .valueError
    | s :: ss =>
      if 1 < ss.foldl max s then
        .ok (some false, if normalize then c.map (fun y => if 1 < y.sum then y.map (· / y.sum) else y) else c)
      else .ok (none, c)

/-- Python truth value of the returned object -/
def truthy : Option Bool → Bool
  | some b => b
  | none => false

/-- checkSpeciesSum (restart.py:48-66): `anyBad` and the new blocks -/
noncomputable def checkSpeciesSum (ns : ℕ) (normalize : Bool) : List Cells → Except Exn (Bool × List Cells)
  | [] => .ok (false, [])
  | c :: cs => do
      let (good, c') ← verifySpeciesSum ns normalize c
      let (bad, cs') ← checkSpeciesSum ns normalize cs
      pure (!truthy good || bad, c' :: cs')

/-! ### blocksForProcs.inp: src/peregrinepy/readers/readBlocksForProcs.py, utilities/loadBalancer.py -/

/-- the text the load balancer writes (loadBalancer.py:202-206) -/
def writeGroups (gs : List (List ℕ)) : List Char :=
  gs.flatMap (fun g => g.flatMap (fun n => decimal n ++ [',', ' ']) ++ ['\n'])

/-- is the line a comment (readBlocksForProcs.py:9, 32)? -/
def isComment (l : List Char) : Bool := (strip l).head? == some '#'

/-- one line of the file to its numbers (readBlocksForProcs.py:7/30 and 37-39); none: int() raised -/
def parseLine (l : List Char) : Option (List ℤ) :=
  let parts := splitComma (strip l)
  let parts := if parts.getLast? = some [] then parts.dropLast else parts
  parts.mapM pyInt

/-- the lines of an existing file, serial or parallel reader, to groups (readBlocksForProcs.py:6-10, 28-41) -/
def parseLines (ls : List (List Char)) : Option (List (List ℤ)) := (ls.filter (fun l => !isComment l)).mapM parseLine

/-- readBlocksForProcs on an existing file -/
def readGroups (parallel : Bool) (s : List Char) : Option (List (List ℤ)) :=
  parseLines (if parallel then splitlines s else readlines s)

/-! ### Ownership: src/peregrinepy/bootstrapCase.py -/

/-- the groups used: the file's, or one block per rank (bootstrapCase.py:27-28) -/
def groupsOr (size : ℕ) : Option (List (List ℤ)) → List (List ℤ)
  | some g => g
  | none => (List.range size).map (fun i : ℕ => [(i : ℤ)])

/-- Python's `max(group)` -/
def pyMax : List ℤ → Except Exn ℤ
  | [] => .error .valueError
  | x :: xs => .ok (xs.foldl max x)

/-- the loop over groups (bootstrapCase.py:44-48): number of entries and largest entry -/
def countLoop : ℤ → ℤ → List (List ℤ) → Except Exn (ℤ × ℤ)
  | summ, maxx, [] => .ok (summ, maxx)
  | summ, maxx, g :: gs => do
      let m ← pyMax g
      countLoop (summ + g.length) (max maxx m) gs

/-- the acceptance checks (bootstrapCase.py:36-54, 72-79); `total` is Total_Blocks of conn.yaml -/
def bootstrapCheck (size total : ℕ) (gs : List (List ℤ)) : Except Exn Unit :=
  if gs.length ≠ size then .error .abort
  else do
    let (summ, maxx) ← countLoop 0 0 gs
    if summ - 1 ≠ maxx then .error .abort
    else if (total : ℤ) ≠ (gs.map List.length).sum then .error .abort
    else .ok ()

/-- commRank of a face with the given neighbour (bootstrapCase.py:85-93): the last rank whose group contains it;
    `none` when no rank does (the attribute keeps its initial None) -/
def commRank (gs : List (List ℤ)) (neighbor : ℤ) : Option ℕ :=
  gs.zipIdx.foldl (fun acc p => if neighbor ∈ p.1 then some p.2 else acc) none

/-! ### Load balancer: utilities/loadBalancer.py -/

/-- allBlocksAssigned (loadBalancer.py:40-60). The caller guarantees at least one block (np.max of no sizes raises at
    line 131 before this is called). -/
def allBlocksAssigned (blocks : List ℕ) (groups : List (List ℕ)) : Bool :=
  let found := blocks.all (fun n => groups.any (fun g => g.contains n))
  if (groups.map List.length).sum ≠ blocks.length then false else found

/-- `len(currentProc) == blksPerProcLimit`; the limit is a float, `none` is the default infinity -/
def atLimit (limit : Option ℚ) (n : ℕ) : Bool := limit == some (n : ℚ)

/-- minProcs loop (loadBalancer.py:135-154): groups with their loads; the list is (size, block) from small to large -/
def minProcsGo (maxSize : ℕ) (limit : Option ℚ) : List ℕ → ℕ → List (ℕ × ℕ) → List (List ℕ × ℕ)
  | cur, sz, [] => [(cur, sz)]
  | cur, sz, (s, b) :: r =>
      if cur = [] then minProcsGo maxSize limit (cur ++ [b]) (sz + s) r
      else if maxSize ≤ sz + s ∨ atLimit limit cur.length then (cur, sz) :: minProcsGo maxSize limit [b] s r
      else minProcsGo maxSize limit (cur ++ [b]) (sz + s) r

/-- inner while loop of minBlksPerProc (loadBalancer.py:164-175): the remaining list is consumed from the front while
    more than one entry remains -/
def minBlksInner (maxSize : ℕ) (limit : Option ℚ) : List ℕ → ℕ → List (ℕ × ℕ) → List ℕ × ℕ × List (ℕ × ℕ)
  | cur, sz, (s, b) :: y :: r =>
      if sz ≤ maxSize then
        if maxSize < sz + s ∨ atLimit limit cur.length then (cur, sz, (s, b) :: y :: r)
        else minBlksInner maxSize limit (cur ++ [b]) (sz + s) (y :: r)
      else (cur, sz, (s, b) :: y :: r)
  | cur, sz, r => (cur, sz, r)

theorem minBlksInner_length (maxSize : ℕ) (limit : Option ℚ) (r : List (ℕ × ℕ)) :
    ∀ cur sz, (minBlksInner maxSize limit cur sz r).2.2.length ≤ r.length := by
  induction r with
  | nil => intro cur sz; simp [minBlksInner]
  | cons x r ih =>
    intro cur sz
    cases r with
    | nil => simp [minBlksInner]
    | cons y r =>
      rw [minBlksInner]
      split
      · split
        · simp
        · exact (ih _ _).trans (by simp)
      · simp

/-- outer while loop of minBlksPerProc (loadBalancer.py:156-178): start a group with the largest remaining block -/
def minBlksGo (maxSize : ℕ) (limit : Option ℚ) (rem : List (ℕ × ℕ)) : List (List ℕ × ℕ) :=
  match h : rem.getLast? with
  | none => []
  | some l =>
      let t := minBlksInner maxSize limit [l.2] l.1 rem.dropLast
      (t.1, t.2.1) :: minBlksGo maxSize limit t.2.2
termination_by rem.length
decreasing_by
  have := minBlksInner_length maxSize limit rem.dropLast [l.2] l.1
  have h0 : rem ≠ [] := by intro e; rw [e] at h; simp at h
  have : 0 < rem.length := List.length_pos_iff.2 h0
  simp at *
  omega

/-- np.argmin: index of the first smallest entry -/
def argmin : List ℚ → ℕ
  | [] => 0
  | [_] => 0
  | x :: y :: r => let j := argmin (y :: r); if x ≤ (y :: r).getD j 0 then 0 else j + 1

/-- one processor of the numProcs strategy: its blocks, its load (procLoad) and its count (procNblocks) -/
structure Proc where
  blocks : List ℕ
  load : ℕ
  nblocks : ℕ
deriving DecidableEq

/-- loadScore (loadBalancer.py:187-192): 0.9*load/max + 0.1*count/max; doubles are rationals, and an all-zero load
    (0/0) is taken as score 0 of the first term -/
def loadScore (ps : List Proc) : List ℚ :=
  let ml := (ps.map (·.load)).foldl max 0
  let mn := (ps.map (·.nblocks)).foldl max 0
  ps.map (fun p => 9/10 * ((p.load : ℚ) / ml) + 1/10 * ((p.nblocks : ℚ) / mn))

/-- one iteration of the numProcs loop (loadBalancer.py:186-197) -/
def assignOne (ps : List Proc) (x : ℕ × ℕ) : List Proc :=
  ps.modify (argmin (loadScore ps)) (fun p => ⟨p.blocks ++ [x.2], p.load + x.1, p.nblocks + 1⟩)

/-- numProcs strategy (loadBalancer.py:179-197); `ls` is (size, block) from large to small -/
def numProcsGo (np : ℕ) (ls : List (ℕ × ℕ)) : List Proc :=
  (ls.drop np).foldl assignOne ((ls.take np).map (fun x => ⟨[x.2], x.1, 1⟩))

/-- command line of the load balancer -/
structure Args where
  minProcs : Bool
  minBlksPerProc : Bool
  limit : Option ℚ
  numProcs : ℕ

/-- the groups chosen (loadBalancer.py:131-197); `sorted` is the (size, block) list from small to large -/
def chooseGroups (a : Args) (sorted : List (ℕ × ℕ)) : List (List ℕ) :=
  let maxSize := (sorted.map (·.1)).foldl max 0
  if a.minProcs then (minProcsGo maxSize a.limit [] 0 sorted).map (·.1)
  else if a.minBlksPerProc then (minBlksGo maxSize a.limit sorted).map (·.1)
  else if 0 < a.numProcs then (numProcsGo a.numProcs sorted.reverse).map (·.blocks)
  else []

/-- the whole program up to writing the file (loadBalancer.py:122-206): raises when there are no blocks (np.max) or when
    the self check fails; `blocks` is mb.blockList, `sorted` the sorted sizes -/
def balance (a : Args) (blocks : List ℕ) (sorted : List (ℕ × ℕ)) : Except Exn (List (List ℕ)) :=
  if sorted = [] then .error .valueError
  else if allBlocksAssigned blocks (chooseGroups a sorted) then .ok (chooseGroups a sorted)
  else .error .assertionError

end PG.Setup
