import Verif.Base.Text
import Verif.Base.Vec
import Mathlib.Data.Real.Sqrt
/-!
Model of the trace point recorder, `coproc/tracePointCoprocessor.py`, of `coproc/pgCoprocessor.py`, and of
`utilities/generateTracePoints.py`. Texts are lists of characters; a file system maps names to contents. The number format
`%.8e` is a parameter `fmt`, and `loc` stands for the text `{xc:.6f}_{yc:.6f}_{zc:.6f}` of the cell centre.
-/
noncomputable section
namespace PG.Trace
open PG.Text

abbrev Str := List Char
/-- file contents by name; `none` if there is no such file -/
abbrev FS := Str → Option Str

/-- a row of tracePoints.npy with its tag (tracePointCoprocessor.py:32-34) -/
structure Point where
  nblki : ℤ
  i : ℤ
  j : ℤ
  k : ℤ
  tag : Str

/-- what the recorder uses of a block: number, halo depth, species names, cell centre texts -/
structure TBlk where
  nblki : ℤ
  ng : ℤ
  species : List Str
  loc : ℤ → ℤ → ℤ → Str

/-- class trace, tracePointCoprocessor.py:6-13; `header` is the line written if the file is new -/
structure Tr where
  file : Str
  nblki : ℤ
  i : ℤ
  j : ℤ
  k : ℤ
  header : Str

/-- tracePointCoprocessor.py:54-71: the header line -/
def header (species : List Str) : Str :=
  "Time (s), ".toList ++ "p [Pa], ".toList ++ "u [m/s], ".toList ++ "v [m/s], ".toList ++ "w [m/s], ".toList ++ "T [K]".toList ++
  (if 1 < species.length then
    ", ".toList ++ ((species.dropLast.dropLast).flatMap (fun s => s ++ ", ".toList) ++
      (species.dropLast.getLast?.getD []) ++ "\n".toList)
   else "\n".toList)

/-- tracePointCoprocessor.py:43-53: the trace of a point in its block -/
def traceOf (path : Str) (b : TBlk) (p : Point) : Tr :=
  let i := p.i + b.ng; let j := p.j + b.ng; let k := p.k + b.ng
  ⟨path ++ p.tag ++ "_".toList ++ b.loc i j k ++ ".csv".toList, b.nblki, i, j, k, header b.species⟩

/-- tracePointCoprocessor.py:36-53: the traces of one rank -/
def traces (path : Str) (mb : List TBlk) (points : List Point) : List Tr :=
  mb.flatMap fun b => (points.filter fun p => p.nblki == b.nblki).map (traceOf path b)

/-- tracePointCoprocessor.py:72-74: create the files that do not exist -/
def initFiles (ts : List Tr) (fs : FS) : FS :=
  ts.foldl (fun fs t => if fs t.file = none then Function.update fs t.file (some t.header) else fs) fs

/-- the state the recorder sees at a step: mb.nrt, mb.tme and the primitive variables of every block -/
structure Step where
  nrt : ℕ
  tme : ℝ
  q : ℤ → ℤ → ℤ → ℤ → List ℝ

/-- tracePointCoprocessor.py:91-99 (numpy.savetxt, delimiter ",", one row) -/
def rowText (fmt : ℝ → Str) (s : Step) (t : Tr) : Str :=
  ([','].intercalate ((s.tme :: s.q t.nblki t.i t.j t.k).map fmt)) ++ ['\n']

/-- tracePointCoprocessor.py:76-99: one call; opening with "a" creates a missing file -/
def record (fmt : ℝ → Str) (n : ℕ) (ts : List Tr) (fs : FS) (s : Step) : FS :=
  if s.nrt % n ≠ 0 then fs
  else ts.foldl (fun fs t => Function.update fs t.file (some ((fs t.file).getD [] ++ rowText fmt s t))) fs

/-- one run of the solver with tracing: construct the recorder, then one call per step (runPeregrine.py:118) -/
def session (fmt : ℝ → Str) (n : ℕ) (ts : List Tr) (fs : FS) (steps : List Step) : FS :=
  steps.foldl (record fmt n ts) (initFiles ts fs)

/-- pgCoprocessor.py:4-11: `from .tracePointCoprocesor import ...` fails unless the package has a module of that name -/
def coprocInit (modules : List String) (trace : Bool) : Option Unit :=
  if trace then (if "tracePointCoprocesor" ∈ modules then some () else none) else some ()

/-- the files in /repo/src/peregrinepy/coproc -/
def coprocModules : List String := ["__init__", "catalystCoprocessor", "pgCoprocessor", "tracePointCoprocessor"]

/-! ### generateTracePoints.py -/

/-- numpy.linspace(a, b, n)[i] -/
def linspace (a b : ℝ) (n i : ℕ) : ℝ := if n = 1 then a else a + i * ((b - a) / (n - 1))

/-- createLine, generateTracePoints.py:67-82 -/
def createLine (p0 p1 : V3) (n : ℕ) : List V3 :=
  (List.range n).map fun i => ⟨linspace p0.x p1.x n i, linspace p0.y p1.y n i, linspace p0.z p1.z n i⟩

/-- one point of createPlane, generateTracePoints.py:102-120 -/
def planePoint (p0 p1 p2 : V3) (n01 n02 i j : ℕ) : V3 :=
  let v01 := p1 - p0; let v02 := p2 - p0
  let l01 := Real.sqrt (V3.dot v01 v01); let l02 := Real.sqrt (V3.dot v02 v02)
  let d01 := linspace 0 1 n01 i; let d02 := linspace 0 1 n02 j
  ⟨p0.x + v01.x / l01 * d01 + v02.x / l02 * d02, p0.y + v01.y / l01 * d01 + v02.y / l02 * d02,
   p0.z + v01.z / l01 * d01 + v02.z / l02 * d02⟩

/-- createPlane, generateTracePoints.py:85-128: `xx.ravel()` puts the first index outermost -/
def createPlane (p0 p1 p2 : V3) (n01 n02 : ℕ) : List V3 :=
  (List.range n01).flatMap fun i => (List.range n02).map fun j => planePoint p0 p1 p2 n01 n02 i j

/-- a block of the grid: cell counts, cell centres, and the bounds test interpolation.bounds.ptsInBlkBounds -/
structure GBlk where
  nblki : ℤ
  ni : ℕ
  nj : ℕ
  nk : ℕ
  xc : ℕ → ℕ → ℕ → V3
  inside : V3 → Bool

/-- cells in array order -/
def cells (b : GBlk) : List (ℕ × ℕ × ℕ) :=
  (List.range b.ni).flatMap fun i => (List.range b.nj).flatMap fun j => (List.range b.nk).map fun k => (i, j, k)

/-- generateTracePoints.py:198-202 -/
def dist (b : GBlk) (p : V3) (c : ℕ × ℕ × ℕ) : ℝ :=
  let x := b.xc c.1 c.2.1 c.2.2
  Real.sqrt ((x.x - p.x)^2 + (x.y - p.y)^2 + (x.z - p.z)^2)

open Classical in
/-- generateTracePoints.py:203-214: the first cell whose distance is the minimum -/
def nearest (b : GBlk) (p : V3) : ℕ × ℕ × ℕ :=
  let ds := (cells b).map (dist b p)
  ((cells b).find? fun c => dist b p c = ds.foldl min (ds.headD 0)).getD (0, 0, 0)

/-- generateTracePoints.py:181-214: one block of the search; `st` holds what was found so far per point -/
def search (points : List V3) (st : List (Option (ℤ × ℕ × ℕ × ℕ))) (b : GBlk) : List (Option (ℤ × ℕ × ℕ × ℕ)) :=
  List.zipWith (fun p s => if b.inside p then (match s with | some r => some r | none => some (b.nblki, nearest b p)) else s) points st

/-- generateTracePoints, generateTracePoints.py:175-236: the rows and tags written -/
def generate (mb : List GBlk) (points : List V3) (tags : List Str) : List Point :=
  let st := mb.foldl (search points) (points.map fun _ => none)
  (st.zip tags).filterMap fun e => e.1.map fun r => ⟨r.1, r.2.1, r.2.2.1, r.2.2.2, e.2⟩

end PG.Trace
