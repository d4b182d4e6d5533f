import Verif.Base.Text
import Mathlib.Data.Real.Basic
import Mathlib.Algebra.BigOperators.Group.List.Basic
/-!
Model of the HDF5 writers and readers: `src/peregrinepy/writers/{writeGrid,writeRestart,writeMetaData}.py` and
`src/peregrinepy/readers/{readGrid,readRestart}.py`.

Simplifications. An HDF5 file is a map from (group, dataset) to a flat list of numbers, plus the group `iter`; a file system is a map
from path to file. Creating a dataset that exists raises; groups are not modelled apart from their datasets. Doubles are reals and
`precision` is a rounding function applied to everything stored (the identity for double precision). `nrt` fits 32 bits. The xmf file
is not modelled here.
-/
namespace PG.IO
open PG.Text

/-- text -/
abbrev Str := List Char

/-- a three-dimensional array, zero-based indices -/
abbrev Arr := ℕ → ℕ → ℕ → ℝ

/-- `x.ravel(order="F")` of an array of shape `(a, b, c)` -/
noncomputable def ravelF (a b c : ℕ) (x : Arr) : List ℝ :=
  (List.range (a * b * c)).map fun t => x (t % a) (t / a % b) (t / (a * b))

/-- `np.array(l).reshape((a, b, c), order="F")`; `none` is the ValueError -/
def reshapeF (a b c : ℕ) (l : List ℝ) : Option Arr :=
  if l.length = a * b * c then some fun i j k => l.getD (i + a * (j + b * k)) 0 else none

/-- datasets of a file by group and name -/
abbrev H5 := Str × Str → Option (List ℝ)

/-- `create_dataset` followed by `dset[:] = data`; `none` when the name exists -/
def put (h : H5) (e : (Str × Str) × List ℝ) : Option H5 :=
  if h e.1 = none then some fun k => if k = e.1 then some e.2 else h k else none

/-- several datasets one after the other -/
def putAll (h : H5) (es : List ((Str × Str) × List ℝ)) : Option H5 := es.foldlM put h

/-- a restart file: datasets and the group `iter` -/
structure File where
  h : H5
  nrt : ℕ
  tme : ℝ

/-- file system -/
abbrev Fs := Str → Option File

/-- a block as the writers see it -/
structure Blk where
  num : ℕ
  ni : ℕ
  nj : ℕ
  nk : ℕ
  solver : Bool
  ng : ℕ
  species : List Str
  /-- the array `q` as stored, halo included: i, j, k, variable -/
  q : ℕ → ℕ → ℕ → ℕ → ℝ
  /-- the array `Q[..., 0]` -/
  rho : Arr

/-- a multi-block: the property setters keep the blocks' `nrt`, `tme` equal to the container's (multiBlock/restart.py:25-48) -/
structure Mb where
  nrt : ℕ
  tme : ℝ
  blks : List Blk

/-- arguments of writeRestart -/
structure Opts where
  path : Str
  animate : Bool
  lump : Bool
  withHalo : Bool
  /-- float32 or float64 -/
  rnd : ℝ → ℝ

/-- number of halo layers written (writeRestart.py:61-70) -/
def wng (o : Opts) (b : Blk) : ℕ := if b.solver then (if o.withHalo then b.ng else 0) else 0

/-- first index of the slice `writeS` (writeRestart.py:61-70) -/
def woff (o : Opts) (b : Blk) : ℕ := if b.solver then (if o.withHalo then 0 else b.ng) else 0

/-- shape of the array view written (writeRestart.py:72) -/
def wdim (o : Opts) (b : Blk) (n : ℕ) : ℕ := n + 2 * wng o b - 1

/-- `arr[writeS].ravel(order="F")`, rounded on storing -/
noncomputable def wdata (o : Opts) (b : Blk) (x : Arr) : List ℝ :=
  (ravelF (wdim o b b.ni) (wdim o b b.nj) (wdim o b b.nk)
    (fun i j k => x (i + woff o b) (j + woff o b) (k + woff o b))).map o.rnd

/-- `f"results_{nblki:06d}"` -/
def resS (n : ℕ) : Str := "results_".toList ++ padded 6 n

/-- `["p", "u", "v", "w", "T"] + speciesNames[0:-1]` (writeRestart.py:103, readRestart.py:46) -/
def primNames (sp : List Str) : List Str := ["p".toList, "u".toList, "v".toList, "w".toList, "T".toList] ++ sp.dropLast

/-- last species: one minus the sum of the others (writeRestart.py:108-118) -/
noncomputable def lastY (b : Blk) : Arr := fun i j k =>
  if 1 < b.species.length then 1 - ((List.range (b.species.length - 1)).map fun n => b.q i j k (5 + n)).sum else 1

/-- what writeRestart stores for one block (writeRestart.py:92-119) -/
noncomputable def blkEntries (o : Opts) (b : Blk) : List ((Str × Str) × List ℝ) :=
  (if b.solver then [((resS b.num, "rho".toList), wdata o b b.rho)] else []) ++
  ((List.range (primNames b.species).length).map fun n =>
    ((resS b.num, (primNames b.species).getD n []), wdata o b fun i j k => b.q i j k n)) ++
  [((resS b.num, b.species.getLastD []), wdata o b (lastY b))]

/-- getVarFileName, writeMetaData.py:145-155 -/
def varFileName (lump animate : Bool) (nrt num : ℕ) : Str :=
  if lump then
    if animate then "q.".toList ++ padded 8 nrt ++ ".h5".toList else "q.h5".toList
  else
    if animate then "q.".toList ++ padded 8 nrt ++ ".".toList ++ padded 6 num ++ ".h5".toList
    else "q.".toList ++ padded 6 num ++ ".h5".toList

/-- writeRestart, writeRestart.py:7-150. Lumped: one file holding all blocks, opened once; else a file per block. -/
noncomputable def writeRestart (o : Opts) (mb : Mb) (fs : Fs) : Option Fs :=
  if o.lump then
    (mb.blks.foldlM (fun h b => putAll h (blkEntries o b)) (fun _ => none)).map fun h =>
      Function.update fs (o.path ++ "/".toList ++ varFileName o.lump o.animate mb.nrt 0) (some ⟨h, mb.nrt, mb.tme⟩)
  else
    mb.blks.foldlM (fun fs b => (putAll (fun _ => none) (blkEntries o b)).map fun h =>
      Function.update fs (o.path ++ "/".toList ++ varFileName o.lump o.animate mb.nrt b.num) (some ⟨h, mb.nrt, mb.tme⟩)) fs

/-- a block to be filled by readRestart: its sizes are known from the grid -/
structure Target where
  num : ℕ
  ni : ℕ
  nj : ℕ
  nk : ℕ
  solver : Bool
  ng : ℕ
  species : List Str

/-- file name opened by readRestart.py:35-40, 55-61 -/
def readName (path : Str) (lump animate : Bool) (nrt num : ℕ) : Str :=
  if lump then
    if animate then path ++ "/q.".toList ++ padded 8 nrt ++ ".h5".toList else path ++ "/q.h5".toList
  else
    if animate then path ++ "/q.".toList ++ padded 8 nrt ++ ".".toList ++ padded 6 num ++ ".h5".toList
    else path ++ "/q.".toList ++ padded 6 num ++ ".h5".toList

/-- first index of the slice `readS` (readRestart.py:47-52) -/
def roff (t : Target) : ℕ := if t.solver then t.ng else 0

/-- the variable number `n` as read: zeros when it is absent from the file (readRestart.py:66-73); `none` is the error of `reshape` -/
def readVar (h : H5) (t : Target) (n : ℕ) : Option Arr :=
  match h (resS t.num, (primNames t.species).getD n []) with
  | none => some fun _ _ _ => 0
  | some l => reshapeF (t.ni - 1) (t.nj - 1) (t.nk - 1) l

/-- the six halo assignments of readRestart.py:83-89 in order; `s` is the size of the array, halo included -/
noncomputable def fillHalo (ng si sj sk : ℕ) (x : Arr) : Arr :=
  let x1 : Arr := fun i j k => if i < ng then x ng j k else x i j k
  let x2 : Arr := fun i j k => if si - ng ≤ i then x1 (si - ng - 1) j k else x1 i j k
  let x3 : Arr := fun i j k => if j < ng then x2 i ng k else x2 i j k
  let x4 : Arr := fun i j k => if sj - ng ≤ j then x3 i (sj - ng - 1) k else x3 i j k
  let x5 : Arr := fun i j k => if k < ng then x4 i j ng else x4 i j k
  fun i j k => if sk - ng ≤ k then x5 i j (sk - ng - 1) else x5 i j k

/-- assignment to `q[readS]` of a zeroed array (readRestart.py:44, 68) -/
noncomputable def place (t : Target) (x : Arr) : Arr := fun i j k =>
  if (roff t ≤ i ∧ i < roff t + (t.ni - 1)) ∧ (roff t ≤ j ∧ j < roff t + (t.nj - 1)) ∧ (roff t ≤ k ∧ k < roff t + (t.nk - 1)) then
    x (i - roff t) (j - roff t) (k - roff t) else 0

/-- one block, readRestart.py:42-89 -/
noncomputable def readBlk (f : File) (t : Target) : Option (ℕ → ℕ → ℕ → ℕ → ℝ) :=
  ((List.range (primNames t.species).length).mapM (readVar f.h t)).map fun xs => fun i j k n =>
    let x := place t (xs.getD n fun _ _ _ => 0)
    if t.solver then fillHalo t.ng (t.ni + 2 * t.ng - 1) (t.nj + 2 * t.ng - 1) (t.nk + 2 * t.ng - 1) x i j k else x i j k

/-- what readRestart returns: iteration and time of the first block (readRestart.py:95-97), arrays of all blocks -/
structure Loaded where
  nrt : ℕ
  tme : ℝ
  q : List (ℕ → ℕ → ℕ → ℕ → ℝ)

/-- readRestart, readRestart.py:6-97; `none` for a missing file, a size mismatch or no block at all -/
noncomputable def readRestart (path : Str) (lump animate : Bool) (nrt : ℕ) (ts : List Target) (fs : Fs) : Option Loaded := do
  let qs ← ts.mapM fun t => (fs (readName path lump animate nrt t.num)).bind fun f => readBlk f t
  let t0 ← ts.head?
  let f0 ← fs (readName path lump animate nrt t0.num)
  return ⟨f0.nrt, f0.tme, qs⟩

end PG.IO
