import Verif.BC.Walls
import Verif.BC.Inlets
import Verif.BC.Spline
import Mathlib.Data.List.Forall2
/-!
Model of `readers/readBcs.py` and of the value preparation in `bcs/prepInlets.py`, `bcs/prepExits.py`, `bcs/prepWalls.py`.
An exception is `none`; it ends the run, so the partly updated state is not modelled. The warning printed for a family
without values is not modelled (it has no other effect).
-/
noncomputable section
namespace PG.BC
open PG.Thermo V3

/-- the boundary types a face accepts, topologyFace.py:49-72 -/
inductive FType
  | b0 | periodicTransLow | periodicTransHigh | periodicRotLow | periodicRotHigh
  | constantVelocitySubsonicInlet | supersonicInlet | constantMassFluxSubsonicInlet | cubicSplineSubsonicInlet
  | stagnationSubsonicInlet
  | constantPressureSubsonicExit | supersonicExit
  | adiabaticNoSlipWall | adiabaticSlipWall | adiabaticMovingWall | isoTNoSlipWall | isoTSlipWall | isoTMovingWall
  deriving DecidableEq

/-- the strings, topologyFace.py:49-72 -/
def FType.name : FType → List Char
  | .b0 => "b0".toList
  | .periodicTransLow => "periodicTransLow".toList
  | .periodicTransHigh => "periodicTransHigh".toList
  | .periodicRotLow => "periodicRotLow".toList
  | .periodicRotHigh => "periodicRotHigh".toList
  | .constantVelocitySubsonicInlet => "constantVelocitySubsonicInlet".toList
  | .supersonicInlet => "supersonicInlet".toList
  | .constantMassFluxSubsonicInlet => "constantMassFluxSubsonicInlet".toList
  | .cubicSplineSubsonicInlet => "cubicSplineSubsonicInlet".toList
  | .stagnationSubsonicInlet => "stagnationSubsonicInlet".toList
  | .constantPressureSubsonicExit => "constantPressureSubsonicExit".toList
  | .supersonicExit => "supersonicExit".toList
  | .adiabaticNoSlipWall => "adiabaticNoSlipWall".toList
  | .adiabaticSlipWall => "adiabaticSlipWall".toList
  | .adiabaticMovingWall => "adiabaticMovingWall".toList
  | .isoTNoSlipWall => "isoTNoSlipWall".toList
  | .isoTSlipWall => "isoTSlipWall".toList
  | .isoTMovingWall => "isoTMovingWall".toList

/-- a `bcVals` dictionary of bcFams.yaml: numbers by key, the periodic axis (a list of three numbers), and whether
    `profile` is present and true -/
structure Vals where
  num : String → Option ℝ
  axis : Option V3
  profile : Bool

/-- one entry of bcFams.yaml; `vals = none` when it has no `bcVals` -/
structure Fam where
  bcType : List Char
  vals : Option Vals

/-- the other input files: `profile fam nblki nface` is the content of Input/profiles/<fam>_<nblki>_<nface>.npy (both arrays,
    interior cells counted from 0), `alphas` of Input/<fam>Alphas/alphas_<nblki>_<nface>.npy; `none` when missing -/
structure Files where
  profile : String → ℕ → Face → Option (ℤ → ℤ → BcVal)
  alphas : String → ℕ → Face → Option (Fin 4 → ℤ → FPos → V3)

/-- what readBcs reads and writes of a face; `bc = none` while qBcVals and QBcVals are not allocated (solverFace.py:70-71) -/
structure SFace where
  face : Face
  bcFam : Option String
  bcType : FType
  span : Option ℝ
  axis : Option V3
  rotUp : Option (Fin 3 → V3)
  rotDown : Option (Fin 3 → V3)
  bc : Option (Ix → BcVal)
  intervalDt : Option ℝ
  alphas : Option (Fin 4 → ℤ → FPos → V3)

/-- what readBcs reads of a block; `nrm` the unit normals of the three face families -/
structure SBlock where
  nblki : ℕ
  dm : Dims
  nrm : Fin 3 → Ix → V3
  species : List String
  faces : List SFace

def zeroBc : BcVal := ⟨⟨0, 0, 0, 0, 0, fun _ => 0⟩, ⟨0, 0, 0, 0, 0, fun _ => 0⟩⟩

/-- the two indices of a face array, in order -/
def planeIx (d : Fin 3) (c : Ix) : FPos := if d = 0 then (c 1, c 2) else if d = 1 then (c 0, c 2) else (c 0, c 1)
/-- number of interior cells along the two directions of the face -/
def planeExt (dm : Dims) (d : Fin 3) : FPos := planeIx d (fun t => dm.n t - 1)

/-- prepInlets.py:11-23 and the same lines in the other prep functions: load into the interior, replicate -/
def profileVals (dm : Dims) (f : Face) (P : ℤ → ℤ → BcVal) : Ix → BcVal := fun c =>
  let e := planeExt dm f.dir
  let A := fun i j : ℤ => if (dm.ng : ℤ) ≤ i ∧ i < dm.ng + e.1 ∧ (dm.ng : ℤ) ≤ j ∧ j < dm.ng + e.2 then P (i - dm.ng) (j - dm.ng)
    else zeroBc
  fillProfile dm.ng e.1 e.2 A (planeIx f.dir c).1 (planeIx f.dir c).2

/-- the species loop, prepInlets.py:30-34: `speciesNames[0:-1]`, a missing species keeps the zero of the allocation -/
def speciesVals (sp : List String) (num : String → Option ℝ) (n : ℕ) : ℝ :=
  match sp.dropLast[n]? with
  | some s => (num s).getD 0
  | none => 0

/-- prepInlets.py:73-81: interior coefficients from the file, replicated layer by layer -/
def splineAlphas (dm : Dims) (f : Face) (P : Fin 4 → ℤ → FPos → V3) : Fin 4 → ℤ → FPos → V3 := fun k iv p =>
  let e := planeExt dm f.dir
  let A := fun i j : ℤ => if (dm.ng : ℤ) ≤ i ∧ i < dm.ng + e.1 ∧ (dm.ng : ℤ) ≤ j ∧ j < dm.ng + e.2 then
    P k iv (i - dm.ng, j - dm.ng) else ⟨0, 0, 0⟩
  fillLoop dm.ng e.1 e.2 A p.1 p.2

/-- the prep_ functions: `bcVals` and file contents to qBcVals, QBcVals (and spline data); `none` for a missing key or file
    or for a type without prep_ function -/
def prep (B : SBlock) (fs : Files) (fam : String) (f : SFace) (V : Vals) : Option SFace :=
  let const (v : Ix → BcVal) : SFace := { f with bc := some v }
  let prof : Option SFace := do
    let P ← fs.profile fam B.nblki f.face
    some (const (profileVals B.dm f.face P))
  let Y := speciesVals B.species V.num
  match f.bcType with
  -- prepExits.py:4-21
  | .constantPressureSubsonicExit => if V.profile then prof else do
      let p ← V.num "p"
      some (const fun _ => { zeroBc with q := ⟨p, 0, 0, 0, 0, fun _ => 0⟩ })
  -- prepExits.py:24-25, prepWalls.py:4-9
  | .supersonicExit | .adiabaticNoSlipWall | .adiabaticSlipWall => some (const fun _ => zeroBc)
  -- prepInlets.py:4-34
  | .constantVelocitySubsonicInlet => if V.profile then prof else do
      let u ← V.num "u"; let v ← V.num "v"; let w ← V.num "w"; let T ← V.num "T"
      some (const fun _ => { zeroBc with q := ⟨0, u, v, w, T, Y⟩ })
  -- prepInlets.py:37-86
  | .cubicSplineSubsonicInlet => do
      let T ← V.num "T"; let dt ← V.num "intervalDt"; let P ← fs.alphas fam B.nblki f.face
      some { const (fun _ => { zeroBc with q := ⟨0, 0, 0, 0, T, Y⟩ }) with
        intervalDt := some dt, alphas := some (splineAlphas B.dm f.face P) }
  -- prepInlets.py:89-121
  | .supersonicInlet => if V.profile then prof else do
      let p ← V.num "p"; let u ← V.num "u"; let v ← V.num "v"; let w ← V.num "w"; let T ← V.num "T"
      some (const fun _ => { zeroBc with q := ⟨p, u, v, w, T, Y⟩ })
  -- prepInlets.py:124-186
  | .constantMassFluxSubsonicInlet => if V.profile then prof else do
      let m ← V.num "mDotPerUnitArea"; let T ← V.num "T"
      some (const fun c =>
        let g := massFluxTarget f.face ⟨B.nrm, fun _ => zeroBc, fun _ => 0, fun _ => 0⟩ c (B.dm.n f.face.dir) B.dm.ng m
        ⟨⟨0, 0, 0, 0, T, Y⟩, ⟨0, g.x, g.y, g.z, 0, fun _ => 0⟩⟩)
  -- prepInlets.py:189-211
  | .stagnationSubsonicInlet => if V.profile then prof else do
      let p ← V.num "pt"; let T ← V.num "Tt"
      some (const fun _ => { zeroBc with q := ⟨p, 0, 0, 0, T, Y⟩ })
  -- prepWalls.py:12-36
  | .adiabaticMovingWall => if V.profile then prof else do
      let u ← V.num "u"; let v ← V.num "v"; let w ← V.num "w"
      some (const fun _ => { zeroBc with q := ⟨0, u, v, w, 0, fun _ => 0⟩ })
  -- prepWalls.py:39-85
  | .isoTNoSlipWall | .isoTSlipWall => if V.profile then prof else do
      let T ← V.num "T"
      some (const fun _ => { zeroBc with q := ⟨0, 0, 0, 0, T, fun _ => 0⟩ })
  -- prepWalls.py:88-114
  | .isoTMovingWall => if V.profile then prof else do
      let u ← V.num "u"; let v ← V.num "v"; let w ← V.num "w"; let T ← V.num "T"
      some (const fun _ => { zeroBc with q := ⟨0, u, v, w, T, fun _ => 0⟩ })
  -- readBcs.py:108-109
  | _ => none

/-- `bcType.startswith("periodic")` -/
def periodicType (s : List Char) : Bool := "periodic".toList.isPrefixOf s

/-- readBcs.py:82-86, with the setters topologyFace.py:105-108, gridFace.py:23-71 (the rotation matrices use the raw axis) -/
def setPeriodic (f : SFace) (V : Vals) : Option SFace := do
  let s ← V.num "periodicSpan"
  let a ← V.axis
  some (if f.bcType = .periodicRotLow ∨ f.bcType = .periodicRotHigh then
      { f with span := some s, axis := some (storedAxis a), rotUp := some (PG.BC.rotUp a s), rotDown := some (PG.BC.rotDown a s) }
    else { f with span := some s, axis := some (storedAxis a) })

/-- the body of the loop, readBcs.py:43-114; `solver` is `face.faceType == "solver"` -/
def readFace (bcsIn : String → Option Fam) (fs : Files) (just solver : Bool) (B : SBlock) (f : SFace) : Option SFace :=
  match f.bcFam with
  | none =>
    if f.bcType = .b0 ∨ f.bcType = .supersonicExit ∨ f.bcType = .adiabaticNoSlipWall ∨ f.bcType = .adiabaticSlipWall then some f
    else none
  | some fam => do
    let e ← bcsIn fam
    if e.bcType ≠ f.bcType.name ∧ ¬ (periodicType e.bcType ∧ e.bcType.isPrefixOf f.bcType.name) then none else
    match e.vals with
    | none => some f
    | some V =>
      if periodicType f.bcType.name then setPeriodic f V
      else if just || !solver then some f
      else prep B fs fam f V

/-- readBcs, readBcs.py:6-114; `bcsIn = none` when bcFams.yaml is missing or empty -/
def readBcs (bcsIn : Option (String → Option Fam)) (fs : Files) (just solver : Bool) (mb : List SBlock) : Option (List SBlock) :=
  match bcsIn with
  | none => some mb
  | some F => mb.mapM fun B => do
      let l ← B.faces.mapM (readFace F fs just solver B)
      some { B with faces := l }

/-! ### specification -/

/-- boundary types that need nothing from the file -/
def NeedsNothing (t : FType) : Prop := t = .b0 ∨ t = .supersonicExit ∨ t = .adiabaticNoSlipWall ∨ t = .adiabaticSlipWall

/-- a family type fits a face type when equal, or when it is a beginning of it that starts with `periodic` -/
def Fits (s : List Char) (t : FType) : Prop := s = t.name ∨ ∃ r r', s = "periodic".toList ++ r ∧ t.name = s ++ r'

def IsPeriodic (t : FType) : Prop :=
  t = .periodicTransLow ∨ t = .periodicTransHigh ∨ t = .periodicRotLow ∨ t = .periodicRotHigh

/-- components of the target values -/
inductive Comp | p | u | v | w | T
/-- the input key that gives a component of the primitive target values -/
def key (t : FType) (c : Comp) : Option String :=
  match t, c with
  | .constantPressureSubsonicExit, .p | .supersonicInlet, .p => some "p"
  | .stagnationSubsonicInlet, .p => some "pt"
  | .stagnationSubsonicInlet, .T => some "Tt"
  | .constantVelocitySubsonicInlet, .u | .supersonicInlet, .u | .adiabaticMovingWall, .u | .isoTMovingWall, .u => some "u"
  | .constantVelocitySubsonicInlet, .v | .supersonicInlet, .v | .adiabaticMovingWall, .v | .isoTMovingWall, .v => some "v"
  | .constantVelocitySubsonicInlet, .w | .supersonicInlet, .w | .adiabaticMovingWall, .w | .isoTMovingWall, .w => some "w"
  | .constantVelocitySubsonicInlet, .T | .supersonicInlet, .T | .constantMassFluxSubsonicInlet, .T
  | .cubicSplineSubsonicInlet, .T | .isoTNoSlipWall, .T | .isoTSlipWall, .T | .isoTMovingWall, .T => some "T"
  | _, _ => none
/-- further keys -/
def extraKeys : FType → List String
  | .constantMassFluxSubsonicInlet => ["mDotPerUnitArea"]
  | .cubicSplineSubsonicInlet => ["intervalDt"]
  | _ => []
def IsInlet (t : FType) : Prop :=
  t = .constantVelocitySubsonicInlet ∨ t = .supersonicInlet ∨ t = .constantMassFluxSubsonicInlet ∨ t = .cubicSplineSubsonicInlet
    ∨ t = .stagnationSubsonicInlet
/-- types for which `profile: True` is honoured -/
def TakesProfile (t : FType) : Prop := ¬ NeedsNothing t ∧ ¬ IsPeriodic t ∧ t ≠ .cubicSplineSubsonicInlet
/-- every key that must be present when no profile is used -/
def Required (t : FType) (k : String) : Prop := (∃ c, key t c = some k) ∨ k ∈ extraKeys t

/-- the target value of a component -/
def comp (q : Prim) : Comp → ℝ | .p => q.p | .u => q.u | .v => q.v | .w => q.w | .T => q.T

end PG.BC
