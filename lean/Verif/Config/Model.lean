import Mathlib.Data.List.Infix
import Mathlib.Data.Rat.Defs
import Mathlib.Algebra.Order.Ring.Unbundled.Rat
import Mathlib.Algebra.Order.Ring.Rat
/-!
Model of the configuration object and of the solver set-up driven by it: `src/peregrinepy/misc/frozenDict.py`,
`files/configFile.py`, `readers/readConfigFile.py`, `multiBlock/__init__.py`, the checks of `thermoTransport/thtrdat.py`.

Simplifications. Numbers are rationals (a YAML document holds finite decimals). `getattr(module, name)` finds exactly the
functions bound in the `bindings*.cpp` files: names of Python's own module attributes (`__doc__`, ...) are not considered.
What the species files contain is a parameter (`Env`).
-/
namespace PG.Config

/-- values of configuration entries (YAML scalars and lists of names) -/
inductive Val
  | none
  | bool (b : Bool)
  | num (r : ℚ)
  | str (s : String)
  | list (l : List String)
deriving DecidableEq

/-- kinds of exceptions raised: pgConfigError, KeyError, TypeError, ValueError, AssertionError, AttributeError -/
inductive Err
  | config
  | key
  | type
  | value
  | assertion
  | attribute
deriving DecidableEq

/-! ### the dictionary object -/

/-- an object stored under a section name: a dictionary (guarded when it is a frozen `frozenDict`) or another value -/
inductive Obj
  | dict (guarded : Bool) (items : String → Option Val)
  | val (v : Val)

/-- a `configFile` object; `frozen` after `__init__` (configFile.py:92-96) -/
structure Cfg where
  frozen : Bool
  items : String → Option Obj

/-- Python statements acting on the object `config` -/
inductive Stmt
  /-- `config[s][k] = v` -/
  | setItem (s k : String) (v : Val)
  /-- `config[s] = o` -/
  | setSection (s : String) (o : Obj)
  /-- `config[s].update({k: v})`; `config[s].setdefault(k, v)` acts the same when `k` is new -/
  | updateItem (s k : String) (v : Val)
  /-- `config.update({s: o})` -/
  | updateSection (s : String) (o : Obj)
  /-- `del config[s][k]` -/
  | delItem (s k : String)
  /-- `del config[s]` -/
  | delSection (s : String)

/-- `dict.__setitem__` -/
def put {α : Type} (m : String → Option α) (k : String) (v : α) : String → Option α :=
  fun k' => if k' = k then some v else m k'

/-- removal of a key -/
def drop {α : Type} (m : String → Option α) (k : String) : String → Option α := fun k' => if k' = k then none else m k'

/-- frozenDict.__setitem__ (frozenDict.py:11-16): refuses new keys once frozen -/
def guardedPut {α : Type} (guarded : Bool) (m : String → Option α) (k : String) (v : α) : Except Err (String → Option α) :=
  if guarded = true ∧ m k = none then .error .key else .ok (put m k v)

/-- effect of one statement. Only `__setitem__` is overridden in frozenDict.py; `update`, `setdefault`, `del` are those of
    `dict`, which do not call the overridden `__setitem__`. -/
def exec (c : Cfg) : Stmt → Except Err Cfg
  | .setItem s k v =>
    match c.items s with
    | none => .error .key
    | some (.val _) => .error .type
    | some (.dict g m) =>
      match guardedPut g m k v with
      | .error e => .error e
      | .ok m' => .ok { c with items := put c.items s (.dict g m') }
  | .setSection s o =>
    match guardedPut c.frozen c.items s o with
    | .error e => .error e
    | .ok i => .ok { c with items := i }
  | .updateItem s k v =>
    match c.items s with
    | none => .error .key
    | some (.val _) => .error .attribute
    | some (.dict g m) => .ok { c with items := put c.items s (.dict g (put m k v)) }
  | .updateSection s o => .ok { c with items := put c.items s o }
  | .delItem s k =>
    match c.items s with
    | none => .error .key
    | some (.val _) => .error .type
    | some (.dict g m) => if m k = none then .error .key else .ok { c with items := put c.items s (.dict g (drop m k)) }
  | .delSection s => if c.items s = none then .error .key else .ok { c with items := drop c.items s }

/-- a program that survives failing statements (`try: ... except: pass`): a failed statement leaves the object as it was -/
def execAll (c : Cfg) : List Stmt → Cfg
  | [] => c
  | s :: r => execAll (match exec c s with | .ok c' => c' | .error _ => c) r

/-- the sections and their defaults, configFile.py:20-90 -/
def defaults : List (String × List (String × Val)) :=
  [("io", [("gridDir", .str "./Grid"), ("inputDir", .str "./Input"), ("restartDir", .str "./Restart"),
      ("archiveDir", .str "./Archive"), ("animateArchive", .bool true), ("animateRestart", .bool false),
      ("lumpIO", .bool true), ("niterArchive", .num 1000000000), ("niterRestart", .num 10), ("niterPrint", .num 1),
      ("saveExtraVars", .list [])]),
   ("simulation", [("niter", .num 1), ("restartFrom", .num 0), ("checkNan", .bool false)]),
   ("timeIntegration", [("integrator", .str "rk3"), ("dt", .num (1/1000)), ("variableTimeStep", .bool false),
      ("maxDt", .num (1/1000)), ("maxCFL", .num (1/10))]),
   ("RHS", [("shockHandling", .none), ("primaryAdvFlux", .str "KEPaEC"), ("secondaryAdvFlux", .none),
      ("switchAdvFlux", .none), ("diffusion", .bool false), ("subgrid", .none)]),
   ("thermochem", [("spdata", .list ["Air"]), ("eos", .str "cpg"), ("trans", .str "constantProps"),
      ("chemistry", .bool false), ("mechanism", .none), ("nChemSubSteps", .num 1)]),
   ("coprocess", [("catalyst", .bool false), ("catalystFile", .str "./Input/coproc.py"), ("trace", .bool false),
      ("niterTrace", .num 1)]),
   ("viscousSponge", [("spongeON", .bool false), ("origin", .list ["0.0", "0.0", "0.0"]),
      ("ending", .list ["1.0", "0.0", "0.0"]), ("multiplier", .num 5)])]

/-- lookup in an association list -/
def assoc {α : Type} : List (String × α) → String → Option α
  | [], _ => none
  | (k, v) :: r, k' => if k' = k then some v else assoc r k'

/-- `configFile()`, configFile.py:19-96: sections frozen, then the object -/
def fresh : Cfg :=
  { frozen := true
    items := fun s => (assoc defaults s).map (fun kv => Obj.dict true (assoc kv)) }

/-- `config[s][k]` -/
def get (c : Cfg) (s k : String) : Except Err Val :=
  match c.items s with
  | none => .error .key
  | some (.val _) => .error .type
  | some (.dict _ m) => match m k with
    | none => .error .key
    | some v => .ok v

/-- the loop of readConfigFile.py:26-28 over the entries of the document in order: stops at the first exception -/
def fill (c : Cfg) : List (String × String × Val) → Except Err Cfg
  | [] => .ok c
  | (s, k, v) :: r => match exec c (.setItem s k v) with
    | .ok c' => fill c' r
    | .error e => .error e

/-! ### entries used by the set-up -/

/-- the entries read by `validateConfig`, `howManyNG`, `thtrdat`, `setConsistify`, `setRHS` -/
structure Sel where
  saveExtraVars : Val
  integrator : Val
  dt : Val
  variableTimeStep : Val
  shock : Val
  primary : Val
  secondary : Val
  switch : Val
  diffusion : Val
  subgrid : Val
  eos : Val
  trans : Val
  chemistry : Val
  mechanism : Val
  nChem : Val
  sponge : Val

/-- reading the entries from the configuration object -/
def Sel.read (c : Cfg) : Except Err Sel := do
  return { saveExtraVars := ← get c "io" "saveExtraVars"
           integrator := ← get c "timeIntegration" "integrator"
           dt := ← get c "timeIntegration" "dt"
           variableTimeStep := ← get c "timeIntegration" "variableTimeStep"
           shock := ← get c "RHS" "shockHandling"
           primary := ← get c "RHS" "primaryAdvFlux"
           secondary := ← get c "RHS" "secondaryAdvFlux"
           switch := ← get c "RHS" "switchAdvFlux"
           diffusion := ← get c "RHS" "diffusion"
           subgrid := ← get c "RHS" "subgrid"
           eos := ← get c "thermochem" "eos"
           trans := ← get c "thermochem" "trans"
           chemistry := ← get c "thermochem" "chemistry"
           mechanism := ← get c "thermochem" "mechanism"
           nChem := ← get c "thermochem" "nChemSubSteps"
           sponge := ← get c "viscousSponge" "spongeON" }

/-- what the set-up depends on besides the configuration: conversion of texts by `float`, number of species listed, and which
    properties are known for all of them (user file or species library; completeSpecies.py) -/
structure Env where
  parseFloat : String → Option ℚ
  ns : ℕ
  known : String → Bool

/-- Python truth value -/
def truthy : Val → Bool
  | .none => false
  | .bool b => b
  | .num r => r != 0
  | .str s => s != ""
  | .list l => !l.isEmpty

/-- `float(x)` -/
def pyFloat (env : Env) : Val → Except Err ℚ
  | .none => .error .type
  | .bool b => .ok (if b then 1 else 0)
  | .num r => .ok r
  | .str s => match env.parseFloat s with
    | some r => .ok r
    | none => .error .value
  | .list _ => .error .type

/-- `max(1, x)` -/
def maxOne : Val → Except Err Val
  | .num r => .ok (.num (max 1 r))
  | .bool _ => .ok (.num 1)
  | _ => .error .type

/-- `if cond: raise e` -/
def raiseIf (cond : Prop) [Decidable cond] (e : Err) : Except Err Unit := if cond then .error e else .ok ()

/-- validateConfig, configFile.py:98-186; returns the entries after normalisation -/
def validate (env : Env) (s : Sel) : Except Err Sel := do
  let saveExtraVars := if s.saveExtraVars = .none then Val.list [] else s.saveExtraVars
  let dt ← pyFloat env s.dt
  raiseIf (s.integrator = .str "dualTime" ∧ s.eos ∉ [Val.str "cpg", Val.str "tpg"]) .config
  raiseIf (s.integrator = .str "dualTime" ∧ truthy s.variableTimeStep = true) .config
  raiseIf (s.primary = .none) .config
  raiseIf (s.shock = .str "artificialDissipation" ∧ s.secondary ∉ [Val.str "scalarDissipation"]) .config
  raiseIf (s.shock = .str "hybrid" ∧ s.secondary ∈ [Val.str "scalarDissipation"]) .config
  raiseIf (s.shock ≠ .none ∧ s.secondary = .none) .config
  raiseIf (s.switch = .none ∧ s.secondary ≠ .none) .config
  raiseIf (s.switch ≠ .none ∧ s.secondary = .none) .config
  raiseIf (truthy s.sponge = true ∧ truthy s.diffusion = false) .config
  let nChem ← maxOne s.nChem
  return { s with saveExtraVars := saveExtraVars, dt := .num dt, nChem := nChem }

/-! ### solver set-up -/

/-- functions bound in bindingsAdvFlux.cpp -/
def boundAdv : List String := ["KEEP", "KEEPpe", "KEPaEC", "centralDifference", "scalarDissipation", "fourthOrderKEEP",
  "rusanov", "ausmPlusUp", "hllc", "muscl2hllc", "muscl2rusanov"]
/-- bindingsThermo.cpp (the class `thtrdat_` lives in the same module) -/
def boundThermo : List String := ["cpg", "tpg", "cubic", "thtrdat_"]
/-- bindingsTransport.cpp -/
def boundTransport : List String := ["kineticTheory", "constantProps", "kineticTheoryUnityLewis", "chungDenseGasUnityLewis"]
/-- bindingsSwitches.cpp -/
def boundSwitch : List String := ["jamesonPressure", "vanAlbadaPressure", "vanLeer"]
/-- bindingsSubgrid.cpp -/
def boundSubgrid : List String := ["mixedScaleModel", "smagorinsky"]
/-- bindingsChemistry.cpp -/
def boundChem : List String := ["chem_C2H4_Air_Red22", "chem_C2H4_Air_Skeletal", "chem_CH4_O2_FFCMY", "chem_GRI30"]

/-- `getattr(module, name)` with `except AttributeError: raise pgConfigError`; a name that is not a string raises TypeError -/
def getattr (bound : List String) : Val → Except Err String
  | .str n => if n ∈ bound then .ok n else .error .config
  | _ => .error .type

/-- getIntegrator, integrators/__init__.py:11-29, with the `stepType` of each integrator module -/
def integratorStep : Val → Except Err String
  | .str "rk1" => .ok "explicit"
  | .str "rk2" => .ok "explicit"
  | .str "maccormack" => .ok "explicit"
  | .str "rk3" => .ok "explicit"
  | .str "rk34" => .ok "explicit"
  | .str "rk4" => .ok "explicit"
  | .str "strang" => .ok "split"
  | .str "dualTime" => .ok "dualTime"
  | _ => .error .value

/-- advFluxNG, multiBlock/__init__.py:171-183 -/
def advNG : Val → Except Err ℕ
  | .str "KEEP" => .ok 1
  | .str "KEEPpe" => .ok 1
  | .str "KEPaEC" => .ok 1
  | .str "centralDifference" => .ok 1
  | .str "fourthOrderKEEP" => .ok 2
  | .str "hllc" => .ok 1
  | .str "rusanov" => .ok 1
  | .str "muscl2hllc" => .ok 2
  | .str "muscl2rusanov" => .ok 2
  | .str "scalarDissipation" => .ok 2
  | .none => .ok 1
  | .list _ => .error .type
  | _ => .error .key

/-- subgridNG, multiBlock/__init__.py:185-189 -/
def subNG : Val → Except Err ℕ
  | .str "mixedScaleModel" => .ok 2
  | .str "smagorinsky" => .ok 1
  | .none => .ok 1
  | .list _ => .error .type
  | _ => .error .key

/-- howManyNG, multiBlock/__init__.py:167-204 -/
def howManyNG (s : Sel) : Except Err ℕ := do
  let a ← advNG s.primary
  let b ← advNG s.secondary
  let c ← subNG s.subgrid
  return max (max (max 1 a) b) c

/-- `pattern in text` -/
def hasSub (p t : String) : Prop := p.toList <:+: t.toList

instance (p t : String) : Decidable (hasSub p t) := inferInstanceAs (Decidable (p.toList <:+: t.toList))

/-- completeSpecies for a list of properties (completeSpecies.py) -/
def need (env : Env) (ps : List String) : Except Err Unit := if ∀ p ∈ ps, env.known p = true then .ok () else .error .key

/-- properties the kinetic-theory fit asks for, kineticTheoryPoly.py:15-74 -/
def kineticProps (eos : Val) : List String :=
  (if eos = .str "cpg" then ["cp0"] else ["NASA7"]) ++ ["MW", "well", "diam", "dipole", "polarize", "zrot", "geometry"]
/-- properties of the dense-gas model, chungDenseGas.py:9-17 -/
def chungProps : List String := ["MW", "dipole", "acentric", "Tcrit", "Vcrit"]

/-- tables allocated for the equation of state, thtrdat.py:75-101 -/
def eosTables (env : Env) (s : Sel) : Except Err (List String) := do
  need env ["MW"]
  if s.eos = .str "cpg" then
    need env ["cp0"]; return ["MW", "cp0"]
  else if s.eos = .str "tpg" then
    need env ["NASA7"]; return ["MW", "NASA7"]
  else if s.eos = .str "cubic" then
    need env ["NASA7"]; need env ["Tcrit", "pcrit", "Vcrit", "acentric"]
    return ["MW", "NASA7", "Tcrit", "pcrit", "Vcrit", "acentric"]
  else .error .key

/-- tables allocated for transport, thtrdat.py:107-156. `"x" in trans` is a substring test on strings and a membership test on
    lists. -/
def transTables (env : Env) (s : Sel) : Except Err (List String) :=
  if truthy s.diffusion = true then
    match s.trans with
    | .str t =>
      if hasSub "kineticTheory" t then do need env (kineticProps s.eos); return ["muPoly", "kappaPoly", "DijPoly"]
      else if t = "constantProps" then do need env ["mu0", "kappa0"]; return ["mu0", "kappa0"]
      else if hasSub "chungDenseGas" t then do need env chungProps; return ["chungA", "chungB", "redDipole"]
      else .error .key
    | .list l =>
      if "kineticTheory" ∈ l then do need env (kineticProps s.eos); return ["muPoly", "kappaPoly", "DijPoly"]
      else if "chungDenseGas" ∈ l then do need env chungProps; return ["chungA", "chungB", "redDipole"]
      else .error .key
    | _ => .error .type
  else .ok []

/-- how a flux enters the residual: applyFlux, applyHybridFlux, applyDissipationFlux -/
inductive Apply
  | plain
  | hybrid
  | dissipation
deriving DecidableEq

/-- the functions set on the solver object; `none` is the function `null` -/
structure Solver where
  stepType : String
  ng : ℕ
  tables : List String
  eos : String
  trans : Option String
  switch : Option String
  phiComm : Bool
  primary : String
  applyPrimary : Apply
  secondary : Option String
  applySecondary : Option Apply
  diffusion : Bool
  sgs : Option String
  sponge : Bool
  expChem : Option String
  impChem : Option String
  nChem : Val

/-- `getattr` unless the entry is None -/
def getattrOpt (bound : List String) (v : Val) : Except Err (Option String) :=
  if v = .none then .ok none else do return some (← getattr bound v)

/-- how the primary flux is applied, multiBlock/__init__.py:80-86 -/
def primaryApply (shock : Val) : Except Err Apply :=
  if shock = .none ∨ shock = .str "artificialDissipation" then .ok .plain
  else if shock = .str "hybrid" then .ok .hybrid else .error .config

/-- secondary flux, multiBlock/__init__.py:89-99 -/
def secondaryFlux (shock secondary : Val) : Except Err (Option String) :=
  if secondary = .none then .ok none
  else if shock = .none then .error .assertion
  else do return some (← getattr boundAdv secondary)

/-- multiBlock/__init__.py:101-106 -/
def secondaryApply (shock : Val) : Option Apply :=
  if shock = .none then none else if shock = .str "artificialDissipation" then some .dissipation else some .hybrid

/-- chemistry, multiBlock/__init__.py:136-164: (explicit, implicit) source and number of sub-steps -/
def chem (step : String) (s : Sel) : Except Err (Option String × Option String × Val) :=
  if truthy s.chemistry = true then do
    let m ← getattr boundChem s.mechanism
    if step = "split" then return (none, some m, match s.nChem with | .num r => if 1 < r then .num 1 else s.nChem | v => v)
    else return (some m, none, s.nChem)
  else .ok (none, none, s.nChem)

/-- the transport function, looked up only when diffusion is solved, multiBlock/__init__.py:36-48 -/
def transFlux (s : Sel) : Except Err (Option String) :=
  if truthy s.diffusion = true then (do return some (← getattr boundTransport s.trans)) else .ok none

/-- the subgrid model, looked up only when diffusion is solved, multiBlock/__init__.py:110-131 -/
def sgsModel (s : Sel) : Except Err (Option String) :=
  if truthy s.diffusion = true then getattrOpt boundSubgrid s.subgrid else .ok none

/-- generateMultiBlockSolver, multiBlock/__init__.py:207-251: integrator, halo depth, species tables, setConsistify
    (lines 26-62), setRHS (lines 67-164), in this order -/
def setup (env : Env) (s : Sel) : Except Err Solver := do
  let step ← integratorStep s.integrator
  let ng ← howManyNG s
  let t1 ← eosTables env s
  let t2 ← transTables env s
  let eos ← getattr boundThermo s.eos
  let trans ← transFlux s
  let switch ← getattrOpt boundSwitch s.switch
  let primary ← getattr boundAdv s.primary
  let applyPrimary ← primaryApply s.shock
  let secondary ← secondaryFlux s.shock s.secondary
  let sgs ← sgsModel s
  let (e, i, n) ← chem step s
  return { stepType := step, ng := ng, tables := t1 ++ t2, eos := eos, trans := trans, switch := switch,
           phiComm := decide (s.switch ≠ .none), primary := primary, applyPrimary := applyPrimary, secondary := secondary,
           applySecondary := secondaryApply s.shock, diffusion := truthy s.diffusion, sgs := sgs,
           sponge := truthy s.sponge, expChem := e, impChem := i, nChem := n }

/-- starting a case: validation on reading (readConfigFile.py:30), then set-up (bootstrapCase.py:58) -/
def start (env : Env) (s : Sel) : Except Err Solver := do
  let s' ← validate env s
  setup env s'

/-! ### what the kernels read of the species tables -/

/-- cpg.cpp, tpg.cpp, cubic.cpp -/
def eosReads : String → List String
  | "cpg" => ["MW", "cp0"]
  | "tpg" => ["MW", "NASA7"]
  | "cubic" => ["MW", "NASA7", "Tcrit", "pcrit", "acentric"]
  | _ => []

/-- constantProps.cpp, kineticTheory.cpp, kineticTheoryUnityLewis.cpp, chungDenseGasUnityLewis.cpp -/
def transReads : Option String → List String
  | some "constantProps" => ["MW", "mu0", "kappa0"]
  | some "kineticTheory" => ["MW", "muPoly", "kappaPoly", "DijPoly"]
  | some "kineticTheoryUnityLewis" => ["MW", "muPoly", "kappaPoly"]
  | some "chungDenseGasUnityLewis" => ["MW", "Tcrit", "Vcrit", "acentric", "chungA", "chungB", "redDipole"]
  | _ => []

/-- the mechanism kernels read molecular weights and NASA polynomials (e.g. chem_GRI30.cpp:100-165) -/
def chemReads : Option String → List String
  | some _ => ["MW", "NASA7"]
  | none => []

/-- dimensions of the species arrays in the mechanism kernels (chem_C2H4_Air_Red22.cpp:63, chem_C2H4_Air_Skeletal.cpp:72,
    chem_CH4_O2_FFCMY.cpp:52, chem_GRI30.cpp:89) -/
def mechNs : String → ℕ
  | "chem_C2H4_Air_Red22" => 22
  | "chem_C2H4_Air_Skeletal" => 32
  | "chem_CH4_O2_FFCMY" => 12
  | "chem_GRI30" => 53
  | _ => 0

/-- tables read during the run by the functions set on the solver -/
def runReads (r : Solver) : List String := eosReads r.eos ++ transReads r.trans ++ chemReads r.expChem ++ chemReads r.impChem

end PG.Config
