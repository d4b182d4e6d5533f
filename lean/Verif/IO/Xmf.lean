import Verif.IO.Names
import Verif.IO.Grid
import Verif.IO.Parallel
/-!
C106: the xmf files that describe the output to a viewer (`src/peregrinepy/writers/writeMetaData.py`), for the restart and grid writer, the
run-time writers (`parallelWriter.py`) and `writeArbitraryArray.py`; and the data of the last two.

Simplifications. The xml tree is reduced to what a viewer evaluates: per block its name, node counts, the places of its coordinates, the
time, and per attribute its name, counts and the places of its data. The array written by writeArbitraryArray is a parameter; all blocks have
the same number of components. Simplifications of `Verif.IO.Model`, `Verif.IO.Parallel` apply.
-/
namespace PG.IO
open PG.Text PG

/-- an `Attribute` element: scalar with one data item, or vector joined from three -/
structure Att where
  name : Str
  vector : Bool
  dims : ℕ × ℕ × ℕ
  items : List Str
deriving DecidableEq

/-- a block's `Grid` element -/
structure XBlk where
  name : Str
  topo : ℕ × ℕ × ℕ
  coords : List Str
  time : ℝ
  atts : List Att

/-- what a metadata object holds: stem of file names (`q` or the array's name), path of the grid, naming options -/
structure Meta where
  stem : Str
  gridPath : Str
  lump : Bool
  animate : Bool

/-- getGridFileH5Location, writeMetaData.py:66-75 -/
def gridLoc (gridPath : Str) (lump : Bool) (num : ℕ) (c : Str) : Str :=
  if lump then gridPath ++ "/g.h5:/coordinates_".toList ++ padded 6 num ++ "/".toList ++ c
  else gridPath ++ "/g.".toList ++ padded 6 num ++ ".h5:/coordinates_".toList ++ padded 6 num ++ "/".toList ++ c

/-- addScalarToBlockElem, writeMetaData.py:157-166 -/
def scalarAtt (m : Meta) (nrt num ni nj nk ng : ℕ) (v : Str) : Att :=
  ⟨v, false, (nk + 2 * ng - 1, nj + 2 * ng - 1, ni + 2 * ng - 1), [h5Location m.stem v m.lump m.animate nrt num]⟩

/-- addVectorToBlockElem, writeMetaData.py:168-184 -/
def vectorAtt (m : Meta) (nrt num ni nj nk ng : ℕ) (name : Str) (vs : List Str) : Att :=
  ⟨name, true, (nk + 2 * ng - 1, nj + 2 * ng - 1, ni + 2 * ng - 1), vs.map fun v => h5Location m.stem v m.lump m.animate nrt num⟩

/-- addBlockElem (writeMetaData.py:115-129) followed by the scalars `names` and, for restarts, the velocity -/
def entry (m : Meta) (time : ℝ) (names : List Str) (vel : Bool) (nrt num ni nj nk ng : ℕ) : XBlk :=
  ⟨"B".toList ++ padded 6 num, (nk + 2 * ng, nj + 2 * ng, ni + 2 * ng),
    ["x".toList, "y".toList, "z".toList].map (gridLoc m.gridPath m.lump num), time,
    names.map (scalarAtt m nrt num ni nj nk ng) ++
      if vel then [vectorAtt m nrt num ni nj nk ng "Velocity".toList ["u".toList, "v".toList, "w".toList]] else []⟩

/-- the tree saved by writeRestart, writeRestart.py:43-50, 121-136 -/
def restartTree (o : Opts) (gridPath : Str) (mb : Mb) : List XBlk :=
  mb.blks.map fun b => entry ⟨"q".toList, gridPath, o.lump, o.animate⟩ mb.tme
    ((if b.solver then ["rho".toList] else []) ++ ["p".toList, "T".toList] ++ b.species) true mb.nrt b.num b.ni b.nj b.nk (wng o b)

/-- names of the components of an array: `shape[-1]` of them, or the array itself when it has three axes
    (writeArbitraryArray.py:85-89, parallelWriter.py:57-61, 283-287) -/
def arrNames (a : Str) : Option ℕ → List Str
  | none => [a]
  | some c => (List.range c).map fun i => a ++ "_".toList ++ decimal i

/-- the tree saved by writeArbitraryArray, writeArbitraryArray.py:42-51, 102-108; arbitraryMetaData hands `nrt=0, tme=0.0` to its parent,
    writeMetaData.py:200-203 -/
def arrayTree (o : Opts) (a : Str) (comps : Option ℕ) (gridPath : Str) (mb : Mb) : List XBlk :=
  mb.blks.map fun b => entry ⟨a, gridPath, o.lump, o.animate⟩ 0 (arrNames a comps) false mb.nrt b.num b.ni b.nj b.nk (wng o b)

/-- what writeArbitraryArray stores for one block, writeArbitraryArray.py:80-100; `x n j` is component `j` of block `n` -/
noncomputable def arrEntries (o : Opts) (a : Str) (comps : Option ℕ) (x : ℕ → ℕ → Arr) (b : Blk) : List ((Str × Str) × List ℝ) :=
  (List.range (arrNames a comps).length).map fun j => ((resS b.num, (arrNames a comps).getD j []), wdata o b (x b.num j))

/-- writeArbitraryArray, writeArbitraryArray.py:6-119 -/
noncomputable def writeArray (o : Opts) (a : Str) (comps : Option ℕ) (x : ℕ → ℕ → Arr) (mb : Mb) (fs : Fs) : Option Fs :=
  if o.lump then
    (mb.blks.foldlM (fun h b => putAll h (arrEntries o a comps x b)) (fun _ => none)).map fun h =>
      Function.update fs (o.path ++ "/".toList ++ dataName a o.lump o.animate mb.nrt 0) (some ⟨h, mb.nrt, mb.tme⟩)
  else
    mb.blks.foldlM (fun fs b => (putAll (fun _ => none) (arrEntries o a comps x b)).map fun h =>
      Function.update fs (o.path ++ "/".toList ++ dataName a o.lump o.animate mb.nrt b.num) (some ⟨h, mb.nrt, mb.tme⟩)) fs

/-- registerParallelMetaData, parallelWriter.py:128-163: every block of the sorted table -/
def register (m : Meta) (time : ℝ) (names : List Str) (vel : Bool) (nrt : ℕ) (tab : List (ℕ × ℕ × ℕ)) : List XBlk :=
  tab.zipIdx.map fun p => entry m time names vel nrt p.2 p.1.1 p.1.2.1 p.1.2.2 0

/-- names registered for restarts, parallelWriter.py:55 -/
def restartNames (sp : List Str) : List Str := ["rho".toList, "p".toList, "T".toList] ++ sp

/-- `text.split("/")[-1]` -/
def lastPart (s : Str) : Str := (s.reverse.takeWhile (· ≠ '/')).reverse

/-- one attribute updated, by the restart writer (`vel`, parallelWriter.py:255-264) or the array writer, which has no vectors (361-364) -/
def updateAtt (m : Meta) (vel : Bool) (nrt num : ℕ) (t : Att) : Att :=
  if vel = true ∧ t.name = "Velocity".toList then
    (if t.vector then { t with items := t.items.map fun s => h5Location m.stem (lastPart s) m.lump m.animate nrt num } else t)
  else
    { t with items := match t.items with
      | [] => []
      | _ :: r => h5Location m.stem t.name m.lump m.animate nrt num :: r }

/-- the tree updated before it is saved, parallelWriter.py:251-264, 356-364; the block number is read from the element's name -/
def update (m : Meta) (vel : Bool) (nrt : ℕ) (tme : ℝ) (tree : List XBlk) : Option (List XBlk) :=
  tree.mapM fun e => (pyInt e.name.tail).map fun n =>
    { e with time := tme, atts := e.atts.map (updateAtt m vel nrt n.toNat) }

/-- zeros created for a block before its data are written, parallelWriter.py:211-221, 314-327 -/
noncomputable def zeros (names : List Str) (b : Blk) : List ((Str × Str) × List ℝ) :=
  names.map fun s => ((resS b.num, s), List.replicate ((b.ni - 1) * (b.nj - 1) * (b.nk - 1)) 0)

/-- zeros created for every block of the run, parallelWriter.py:186-198, 300-312 (as `created`, for any names) -/
noncomputable def createdFor (run : Run) (names : List Str) : List ((Str × Str) × List ℝ) :=
  (List.range run.flatten.length).flatMap fun n => names.map fun s => ((resS n, s), List.replicate (extentCC run n) 0)

/-- the run-time writers with data `ent` under names `names`, parallelWriter.py:158-249, 275-341; `order` is the order in which the blocks
    of all ranks happen to be written -/
noncomputable def writeRun (m : Meta) (path : Str) (names : List Str) (ent : Blk → List ((Str × Str) × List ℝ)) (run : Run) (order : List Blk)
    (nrt : ℕ) (tme : ℝ) (fs : Fs) : Option Fs :=
  if m.lump then
    ((putAll (fun _ => none) (createdFor run names)).bind fun h => (order.flatMap ent).foldlM setData h).map fun h =>
      Function.update fs (path ++ "/".toList ++ dataName m.stem m.lump m.animate nrt 0) (some ⟨h, nrt, tme⟩)
  else
    order.foldlM (fun fs b => ((putAll (fun _ => none) (zeros names b)).bind fun h => (ent b).foldlM setData h).map fun h =>
      Function.update fs (path ++ "/".toList ++ dataName m.stem m.lump m.animate nrt b.num) (some ⟨h, nrt, tme⟩)) fs

/-- the tree saved by writeGrid, as (name, node counts, places of the coordinates) per block; the grid's own xmf file lies beside it, so its
    path is `.` (writeGrid.py:35, 92-93, 104; writeMetaData.py:49-60, 62-65) -/
def gridTree (o : GOpts) (bs : List GBlk) : List (Str × (ℕ × ℕ × ℕ) × List Str) :=
  bs.map fun b => ("B".toList ++ padded 6 b.num, (b.nk + 2 * gng o b, b.nj + 2 * gng o b, b.ni + 2 * gng o b),
    ["x".toList, "y".toList, "z".toList].map (gridLoc ".".toList o.lump b.num))

/-! ### specification -/

/-- a field seen from a shifted origin -/
def shifted (s : ℕ) (x : Arr) : Arr := fun i j k => x (i + s) (j + s) (k + s)

/-- A viewer that knows `dir` as the name of the directory `gpath` in which the grid was written finds at the place `loc` a dataset with one
    number per node, that of node `(i, j, k)`, first index fastest, being `x i j k` as stored. -/
def ShowsNodes (fs : GFs) (dir gpath loc : Str) (dims : ℕ × ℕ × ℕ) (rnd : ℝ → ℝ) (x : Arr) : Prop :=
  ∃ file group var f l, loc = dir ++ file ++ ":/".toList ++ group ++ "/".toList ++ var ∧ ':' ∉ file ∧ '/' ∉ group ∧
    fs (gpath ++ file) = some f ∧ f.h (group, var) = some l ∧ l.length = dims.2.2 * dims.2.1 * dims.1 ∧
    ∀ i j k, i < dims.2.2 → j < dims.2.1 → k < dims.1 → l[i + dims.2.2 * (j + dims.2.1 * k)]? = some (rnd (x i j k))

/-- A viewer given the place `loc` in an xmf file lying in `path` finds there, in a file stamped with that step and time, a dataset with as
    many numbers as the counts say, whose number for cell `(i, j, k)`, first index fastest, is `x i j k` as stored. -/
def Shows (fs : Fs) (stamp : ℕ × ℝ) (path loc : Str) (dims : ℕ × ℕ × ℕ) (rnd : ℝ → ℝ) (x : Arr) : Prop :=
  ∃ file group var f l, loc = file ++ ":/".toList ++ group ++ "/".toList ++ var ∧ ':' ∉ file ∧ '/' ∉ group ∧
    fs (path ++ "/".toList ++ file) = some f ∧ (f.nrt, f.tme) = stamp ∧ f.h (group, var) = some l ∧ l.length = dims.2.2 * dims.2.1 * dims.1 ∧
    ∀ i j k, i < dims.2.2 → j < dims.2.1 → k < dims.1 → l[i + dims.2.2 * (j + dims.2.1 * k)]? = some (rnd (x i j k))

/-- the field a variable name means, on the arrays of a block -/
def FieldOf (b : Blk) (name : Str) (x : Arr) : Prop :=
  (name = "rho".toList ∧ x = b.rho) ∨
  (∃ n, (["p".toList, "u".toList, "v".toList, "w".toList, "T".toList] ++ b.species.dropLast)[n]? = some name ∧ x = fun i j k => b.q i j k n) ∨
  (b.species.getLast? = some name ∧
    x = fun i j k => 1 - ((List.range (b.species.length - 1)).map fun n => b.q i j k (5 + n)).sum)

/-- An xmf entry describes block `b`, stored with `g` halo layers, in the files of `path`: number, sizes, places of the coordinates, and the
    attributes: exactly `names` as scalars, each showing the field of that name, and `Velocity` (if `vel`) the three velocity components;
    `off` is the index of the first stored cell. `field` says what the names mean. -/
structure Describes (fs : Fs) (stamp : ℕ × ℝ) (path gridPath : Str) (lump : Bool) (rnd : ℝ → ℝ) (field : Str → Arr → Prop) (names : List Str) (vel : Bool)
    (b : Blk) (g off : ℕ) (e : XBlk) : Prop where
  name : e.name = "B".toList ++ padded 6 b.num
  topo : e.topo = (b.nk + 2 * g, b.nj + 2 * g, b.ni + 2 * g)
  coords : List.Forall₂ (fun c loc => loc = gName gridPath lump b.num ++ ":/".toList ++ coordS b.num ++ "/".toList ++ c)
    ["x".toList, "y".toList, "z".toList] e.coords
  attNames : e.atts.map Att.name = names ++ if vel then ["Velocity".toList] else []
  dims : ∀ a ∈ e.atts, a.dims = (b.nk + 2 * g - 1, b.nj + 2 * g - 1, b.ni + 2 * g - 1)
  scalars : ∀ a ∈ e.atts, a.vector = false → ∃ loc x, a.items = [loc] ∧ field a.name x ∧ Shows fs stamp path loc a.dims rnd (shifted off x)
  vectors : ∀ a ∈ e.atts, a.vector = true → a.name = "Velocity".toList ∧
    List.Forall₂ (fun n loc => Shows fs stamp path loc a.dims rnd (shifted off fun i j k => b.q i j k n)) [1, 2, 3] a.items

end PG.IO
