import Verif.Interp.Model
import Verif.IO.Grid
import Verif.Setup.Model
import Verif.Mesh.Model
/-!
Model of the interpolation utility `utilities/interpolate.py` from the files it reads to the restart it writes. It is put together from the
models of the readers and writers (`Verif.IO`), of the search and the interpolation (`Verif.Interp.Model`), of the cell centres
(`Verif.Mesh`) and of the species-sum check (`Verif.Setup`).

Simplifications. The command line is already parsed: the list of species names and the scipy interpolant are given. Of `g.xmf` only the
number of blocks listed in it matters. Errors other than the FileNotFoundError that the utility catches are not told apart.
-/
namespace PG.Interp
open PG PG.IO PG.Text

/-- array `q` of a block: i, j, k, variable -/
abbrev Q4 := ℕ → ℕ → ℕ → ℕ → ℝ

/-- `x.ravel()` of an array of shape `(a, b, c)`, last index fastest -/
def ravelC {α : Type} (a b c : ℕ) (x : ℕ → ℕ → ℕ → α) : List α :=
  (List.range (a * b * c)).map fun t => x (t / (b * c)) (t / c % b) (t % c)

/-- what the utility finds on disk -/
structure World where
  /-- number of blocks listed in a grid's xmf file, by path -/
  xmf : Str → Option ℕ
  gfs : GFs
  fs : Fs
  /-- `os.listdir`: the names in a directory, in the order of the operating system -/
  list : Str → List Str

/-- the arguments, interpolate.py:32-105 -/
structure Args where
  fromDir : Str
  toDir : Str
  species : List Str
  interp : Interpolant
  verbose : Bool

/-- the lumped grid file if there is one, else one file per block (interpolate.py:111-116, 132-137): `readGrid` raises FileNotFoundError for
    the lumped grid exactly when `g.h5` does not exist -/
noncomputable def readGridAny (dir : Str) (n : ℕ) (gfs : GFs) : Option (Bool × List GRead) :=
  let lump := (gfs (gName dir true 0)).isSome
  (readGrid dir lump ((List.range n).map fun i => ⟨i, false, 0⟩) gfs).map fun gs => (lump, gs)

/-- the blocks of `mbr(nblks, speciesNames)` once their grid is read: numbers 0, 1, ... (restart.py:11-18) -/
def targets (species : List Str) (gs : List GRead) : List Target :=
  gs.zipIdx.map fun e => ⟨e.2, e.1.ni, e.1.nj, e.1.nk, false, 0, species⟩

open Classical in
/-- does reading the plain restart end in FileNotFoundError? The blocks are read in turn; the first that cannot be read decides -/
noncomputable def notFound (dir : Str) (lump : Bool) (ts : List Target) (fs : Fs) : Bool :=
  match ts.find? fun t => decide (((fs (readName dir lump false 0 t.num)).bind fun f => readBlk f t) = none) with
  | some t => (fs (readName dir lump false 0 t.num)).isNone
  | none => false

/-- `s.split(".")` -/
def splitDot : Str → List Str
  | [] => [[]]
  | c :: cs => if c = '.' then [] :: splitDot cs
      else match splitDot cs with
        | [] => [[c]]
        | p :: ps => (c :: p) :: ps

/-- the restart: the plain one, else the animated one whose number is taken from the first name ending in "xmf" that the operating system
    lists (interpolate.py:118-126). A negative number is taken as an error (there is no such file). -/
noncomputable def readAny (dir : Str) (lump : Bool) (ts : List Target) (w : World) : Option (Bool × Loaded) :=
  match readRestart dir lump false 0 ts w.fs with
  | some r => some (false, r)
  | none =>
    if notFound dir lump ts w.fs then do
      let name ← ((w.list dir).filter fun s => "xmf".toList.isSuffixOf s).head?
      let part ← (splitDot (strip name))[1]?
      let nrt ← pyInt part
      if nrt < 0 then none
      else (readRestart dir lump true nrt.toNat ts w.fs).map fun r => (true, r)
    else none

/-- everything read before the search -/
structure Inputs where
  gF : List GRead
  animate : Bool
  src : Loaded
  lumpT : Bool
  gT : List GRead

/-- interpolate.py:107-137 -/
noncomputable def readAll (a : Args) (w : World) : Option Inputs :=
  if a.species = [] then none
  else do
    let nF ← w.xmf (a.fromDir ++ "/g.xmf".toList)
    let gF ← readGridAny a.fromDir nF w.gfs
    let src ← readAny a.fromDir gF.1 (targets a.species gF.2) w
    let nT ← w.xmf (a.toDir ++ "/g.xmf".toList)
    let gT ← readGridAny a.toDir nT w.gfs
    return ⟨gF.2, src.1, src.2, gT.1, gT.2⟩

/-- cell centres of a block, flattened (metrics.py:39-70) -/
noncomputable def centres (g : GRead) : List V3 := ravelC (g.ni - 1) (g.nj - 1) (g.nk - 1) (Mesh.cellCentre g.xyz)

/-- the source blocks of the search -/
def sblks (gs : List GRead) : List SBlk := gs.zipIdx.map fun e => ⟨e.2, e.1.ni, e.1.nj, e.1.nk, e.1.xyz⟩

/-- a source block with its data flattened (blocksToBlock.py:38-49) -/
noncomputable def fromBlk (g : GRead) (q : Q4) : FromBlk :=
  ⟨centres g, fun n => ravelC (g.ni - 1) (g.nj - 1) (g.nk - 1) fun i j k => q i j k n⟩

/-- the bounding blocks of a target block, `mbFrom.getBlock` of every number found (interpolate.py:146-148) -/
noncomputable def sources (inp : Inputs) (l : List ℕ) : Option (List FromBlk) :=
  l.mapM fun m => do
    let g ← inp.gF[m]?
    let q ← inp.src.q[m]?
    return fromBlk g q

/-- blocksToBlock on a target block for all its `nq` variables (blocksToBlock.py:42-77). `q0` is its array `q` beforehand: None if it was
    not allocated, and then the assignment raises TypeError. -/
noncomputable def fill (interp : Interpolant) (srcs : List FromBlk) (nq : ℕ) (g : GRead) (q0 : Option Q4) : Option Q4 := do
  let vs ← (List.range nq).mapM fun n => blocksToBlock interp srcs n (centres g)
  let _ ← q0
  return fun i j k n => (vs.getD n []).getD ((i * (g.nj - 1) + j) * (g.nk - 1) + k) 0

/-- `q[..., 5:]` of the cells of a block, flattened -/
def cellsOf (ns : ℕ) (g : GRead) (q : Q4) : Setup.Cells :=
  ravelC (g.ni - 1) (g.nj - 1) (g.nk - 1) fun i j k => (List.range (ns - 1)).map fun n => q i j k (5 + n)

/-- the array with `q[..., 5:]` replaced -/
def withCells (g : GRead) (q : Q4) (c : Setup.Cells) : Q4 := fun i j k n =>
  if 5 ≤ n then (c.getD ((i * (g.nj - 1) + j) * (g.nk - 1) + k) []).getD (n - 5) 0 else q i j k n

/-- `if len(speciesNames) > 1: mbTo.checkSpeciesSum(True)` (interpolate.py:155-156) -/
noncomputable def normalised (ns : ℕ) (gq : List (GRead × Q4)) : Option (List Q4) :=
  if 1 < ns then
    match Setup.checkSpeciesSum ns true (gq.map fun e => cellsOf ns e.1 e.2) with
    | .ok r => some (List.zipWith (fun e c => withCells e.1 e.2 c) gq r.2)
    | .error _ => none
  else some (gq.map Prod.snd)

/-- search, interpolation and normalisation (interpolate.py:140-156); `init` tells whether the arrays `q` of the target blocks have been
    allocated (`initRestartArrays`) -/
noncomputable def newQ (init : Bool) (a : Args) (inp : Inputs) : Option (List Q4) :=
  let bounds := findBounds a.verbose (inp.gT.map centres) (sblks inp.gF)
  if [] ∈ bounds then none
  else do
    let qs ← (inp.gT.zip bounds).mapM fun e => do
      let s ← sources inp e.2
      fill a.interp s (5 + (a.species.length - 1)) e.1 (if init then some fun _ _ _ _ => 0 else none)
    normalised a.species.length (inp.gT.zip qs)

/-- the target multi-block with its data (interpolate.py:158-159) -/
def mbTo (a : Args) (inp : Inputs) (qs : List Q4) : Mb :=
  ⟨inp.src.nrt, inp.src.tme, (inp.gT.zip qs).zipIdx.map fun e =>
    ⟨e.2, e.1.1.ni, e.1.1.nj, e.1.1.nk, false, 0, a.species, e.1.2, fun _ _ _ => 0⟩⟩

/-- read, interpolate and write (interpolate.py:107-161); the result is the file system afterwards, `none` if it ends in an error -/
noncomputable def transfer (init : Bool) (a : Args) (w : World) : Option Fs := do
  let inp ← readAll a w
  let qs ← newQ init a inp
  writeRestart ⟨a.toDir, inp.animate, inp.lumpT, false, id⟩ (mbTo a inp qs) w.fs

/-- the utility as it is: `mbTo` is constructed and its grid is read, but its arrays `q` are never allocated (interpolate.py:128-137;
    readGrid.py:63 allocates the grid arrays only, restartBlock.py:38-40 leaves `q` None) -/
noncomputable def utility (a : Args) (w : World) : Option Fs := transfer false a w

end PG.Interp
