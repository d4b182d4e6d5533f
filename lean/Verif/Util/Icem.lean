import Verif.Topo.Props
import Verif.Util.GridProGrid
/-!
C99: conversion of ICEM files, `utilities/icem2pg.py`.

The topology file is the list of its lines. A line is one of the three kinds of section headings (the number at its end, less one)
or any other line as the list of its tokens, with `replace("-", " -")` done (lines 260, 264, 356, 357); the empty line is `[]`.
`None` results and all exceptions are `none`.
-/
namespace PG.Util.Icem
open PG PG.IO.Conn

abbrev Tok := List Char

inductive Row
  | bcHead (b : ℤ)
  | perHead (b : ℤ)
  | connHead (b : ℤ)
  | line (ts : List Tok)

/-- a face of the new grid -/
structure IFace where
  bcType : Tok
  bcFam : Option Tok
  neighbor : Option ℤ
  ori : Option (List ℕ)

/-- blocks 0 to n-1 with faces 1 to 6 -/
abbrev Grid := ℤ → ℕ → IFace

def setFace (g : Grid) (b : ℤ) (f : ℕ) (v : IFace) : Grid := fun b' f' => if b' = b ∧ f' = f then v else g b' f'

/-- the assignment of a boundary type, topologyFace.py:43-75 -/
def checked (t : Tok) : Option Tok := if t ∈ validBcTypes then some t else none

/-- lines 134-137 -/
def grid0 : Grid := fun _ _ => ⟨"b0".toList, none, none, none⟩

/-- `mb.getBlock(b)`: topology.py:32-38; a missing block is None and fails at its first use -/
def block (n : ℕ) (b : ℤ) : Option ℤ := if 0 ≤ b ∧ b < n then some b else none

/-- `faceMapping[f"small_{direc}"]` (large = false) and `faceMapping[f"large_{direc}"]`, lines 139-146 -/
def faceMapping (large : Bool) (direc : Tok) : Option ℕ :=
  if direc = ['i'] then some (if large then 2 else 1)
  else if direc = ['j'] then some (if large then 4 else 3)
  else if direc = ['k'] then some (if large then 6 else 5) else none

/-- `orientationMapping`, line 147 -/
def orientationMapping (t : Tok) : Option ℕ :=
  if t = ['i'] then some 1 else if t = ['j'] then some 2 else if t = ['k'] then some 3
  else if t = ['-', 'i'] then some 4 else if t = ['-', 'j'] then some 5 else if t = ['-', 'k'] then some 6 else none

/-- lines 153-163: the types that this tool lets through -/
def icemBcTypes : List Tok := ["constantVelocitySubsonicInlet", "constantPressureSubsonicExit", "adiabaticNoSlipWall",
  "adiabaticSlipWall", "adiabaticMovingWall", "isoTMovingWall"].map String.toList

/-- lines 203-211: the face of an external patch -/
def patchFace : List (Tok × Tok × Tok) → Option ℕ
  | [] => none
  | (mn, mx, d) :: r => if mn = mx ∧ mn = ['1'] then faceMapping false d
    else if mn = mx ∧ mn ≠ ['1'] then faceMapping true d else patchFace r

/-- lines 187-218, one line of a section: `fams` is bcFam.yaml, label to type -/
def bcLine (fams : Tok → Option Tok) (b : ℤ) (g : Grid) (ts : List Tok) : Option Grid := do
  let tag ← ts[0]?
  let kind ← ts[1]?
  if kind = ['f'] then
    if tag = "DEFAULT_SUBFACE".toList then some g else do
      let t ← fams tag
      let f ← patchFace [(← ts[2]?, ← ts[5]?, ['i']), (← ts[3]?, ← ts[6]?, ['j']), (← ts[4]?, ← ts[7]?, ['k'])]
      if t ∈ icemBcTypes then do
        let t ← checked t
        some (setFace g b f { g b f with bcFam := some tag, bcType := t })
      else none
  else some g

/-- lines 170-218: the state is the block whose section is being read and the grid; the headings of other sections do not have `f`
    as second token -/
def bcStep (n : ℕ) (fams : Tok → Option Tok) (s : Option ℤ × Grid) : Row → Option (Option ℤ × Grid)
  | .bcHead b => do some (some (← block n b), s.2)
  | .line [] => some (none, s.2)
  | .line ts => match s.1 with
    | some b => do some (some b, ← bcLine fams b s.2 ts)
    | none => some s
  | _ => some s

/-- lines 166-218 -/
def bcStage (n : ℕ) (fams : Tok → Option Tok) (rows : List Row) (g : Grid) : Option Grid := do
  let s ← rows.foldlM (bcStep n fams) (none, g)
  some s.2

/-- where the periodic stage stands: between sections, after a heading, after the first record -/
inductive Per
  | out
  | head (b : ℤ)
  | first (b : ℤ) (r : List Tok)

/-- lines 249-340: the second record ends in `bcType = "b1"` (line 324); what precedes it can only fail too -/
def perStep (n : ℕ) (s : Per × Grid) : Row → Option (Per × Grid) := fun row =>
  match s.1, row with
  | .out, .perHead b => do some (.head (← block n b), s.2)
  | .out, _ => some s
  | .head _, .line [] => some (.out, s.2)
  | .head b, .line r => some (.first b r, s.2)
  | .first _ _, .line _ => do
    let _ ← checked "b1".toList
    some (.out, s.2)
  | _, _ => none

def perStage (n : ℕ) (rows : List Row) (g : Grid) : Option Grid := do
  let s ← rows.foldlM (perStep n) (.out, g)
  match s.1 with
  | .out => some s.2
  | _ => none

/-- `startswith("-")` -/
def neg (t : Tok) : Bool := t.head? == some '-'

/-- `replace("-", "")` -/
def unsigned (t : Tok) : Tok := t.filter (· ≠ '-')

/-- the other sign -/
def flip (t : Tok) : Tok := if neg t then unsigned t else '-' :: t

/-- lines 386-416: a pair of directions, the first made positive -/
def orientPair (face : ℕ) (curr adjc : Tok) : Option (Tok × Tok) := do
  let c ← curr.getLast?
  let fn ← faceMapping (!neg curr) [c]
  let a := if fn = face then (if neg curr then adjc else flip adjc) else if neg curr then flip adjc else adjc
  some (if neg curr then unsigned curr else curr, a)

/-- lines 361-377: the check of the face number -/
def checkFace (face : ℕ) : List (Tok × Tok × Tok) → Option Unit
  | [] => some ()
  | (mn, mx, d) :: r =>
    if mn = mx then do
      let f ← faceMapping (decide (mn ≠ ['1'])) d
      if f ≠ face then none else checkFace face r
    else checkFace face r

/-- a dictionary of directions -/
abbrev Dict := Tok → Option Tok

/-- lines 356-428: one internal face from its two records; `domain` is `int(token.split(".")[-1])` -/
def connect (domain : Tok → Option ℤ) (b : ℤ) (face : ℕ) (g : Grid) (cur adj : List Tok) : Option Grid := do
  checkFace face [(← cur[6]?, ← cur[9]?, unsigned (← cur[2]?)), (← cur[7]?, ← cur[10]?, unsigned (← cur[3]?)),
    (← cur[8]?, ← cur[11]?, unsigned (← cur[4]?))]
  if (← cur[5]?) ≠ ['f'] then none else do
  let nb ← domain (← adj[1]?)
  let d ← [0, 1, 2].foldlM (fun (d : Dict) i => do
    let (k, v) ← orientPair face (← cur[2 + i]?) (← adj[2 + i]?)
    some fun t => if t = k then some v else d t) (fun _ => none)
  let oi ← orientationMapping (← d ['i'])
  let oj ← orientationMapping (← d ['j'])
  let ok ← orientationMapping (← d ['k'])
  some (setFace g b face { g b face with neighbor := some (nb - 1), ori := some [oi, oj, ok] })

/-- the state of the last stage: the faces still to be read of the present block, the first record of a pair, the grid -/
structure Conn where
  todo : List ℕ
  blk : ℤ
  first : Option (List Tok)
  g : Grid

/-- lines 346-428: `next(iterLines)` twice for each face still b0, in the order of the faces; otherwise lines are passed over until
    the next heading -/
def connStep (n : ℕ) (domain : Tok → Option ℤ) (s : Conn) (row : Row) : Option Conn :=
  match s.todo, row with
  | [], .connHead b => do
    let b ← block n b
    some ⟨[1, 2, 3, 4, 5, 6].filter fun f => (s.g b f).bcType = "b0".toList, b, none, s.g⟩
  | [], _ => some s
  | f :: fs, .line ts => match s.first with
    | none => some { s with first := some ts }
    | some cur => do some ⟨fs, s.blk, none, ← connect domain s.blk f s.g cur ts⟩
  | _ :: _, _ => none

def connStage (n : ℕ) (domain : Tok → Option ℤ) (rows : List Row) (g : Grid) : Option Grid := do
  let s ← rows.foldlM (connStep n domain) ⟨[], 0, none, g⟩
  if s.todo = [] then some s.g else none

/-- the whole topology -/
def convert (n : ℕ) (fams : Tok → Option Tok) (domain : Tok → Option ℤ) (rows : List Row) : Option Grid := do
  connStage n domain rows (← perStage n rows (← bcStage n fams rows grid0))

/-! ### specification -/

/-- a direction of a block: reversed or not, and the axis -/
abbrev Ax := Bool × Fin 3

def axChar : Fin 3 → Char
  | 0 => 'i'
  | 1 => 'j'
  | 2 => 'k'

def axTok (a : Ax) : Tok := if a.1 then ['-', axChar a.2] else [axChar a.2]

/-- axis `a` of the face number and whether the face lies at its upper end: faces 1 to 6 are small i, large i, small j, ... -/
def normalOf (f : ℕ) : Fin 3 := if f ≤ 2 then 0 else if f ≤ 4 then 1 else 2
def upper (f : ℕ) : Bool := f % 2 == 0

/-- the direction of the neighbour that continues direction `a`, for an orientation (digits as in the documentation: 1-3 along
    i, j, k of the neighbour, 4-6 against) -/
def image (o : Topo.Ori) (a : Ax) : Ax := (xor a.1 (Topo.reversed (o.get a.2)), ⟨Topo.axisOf (o.get a.2), Nat.mod_lt _ (by omega)⟩)

def opposite (a : Ax) : Ax := (!a.1, a.2)

/-- the outward normal of a face -/
def outward (f : ℕ) : Ax := (!upper f, normalOf f)

/-- what a face of the mesh is: an external patch with its label, or a connection -/
inductive Kind
  | ext (tag : Tok)
  | conn (nb : ℤ) (o : Topo.Ori)

/-- an ICEM mesh -/
structure Mesh where
  n : ℕ
  face : ℤ → ℕ → Kind

/-- the ranges of a face: only the normal direction has equal ends, 1 at the lower end -/
def Ranges (f : ℕ) (mn mx : Fin 3 → Tok) : Prop :=
  ∀ a, if a = normalOf f then mn a = mx a ∧ (mn a = ['1'] ↔ upper f = false) else mn a ≠ mx a

/-- a line of an external patch -/
def PatchLine (tag : Tok) (f : ℕ) (ts : List Tok) : Prop :=
  tag ≠ "DEFAULT_SUBFACE".toList ∧ ∃ mn mx, Ranges f mn mx ∧ ts = [tag, ['f'], mn 0, mn 1, mn 2, mx 0, mx 1, mx 2]

/-- the two records of a connection. Each lists the directions of its own block in corresponding order, and so the ranges; along
    the faces corresponding directions are the same directions in space; of the normals each record gives its own, pointing outwards -/
def Records (domain : Tok → Option ℤ) (f : ℕ) (nb : ℤ) (o : Topo.Ori) (cur adj : List Tok) : Prop :=
  ∃ (c : Fin 3 → Ax) (mn mx : Fin 3 → Tok) (dom : Tok) (h1 h2 d1 : Tok) (rest : List Tok),
    (∀ m m', (c m).2 = (c m').2 → m = m') ∧ (∀ m, (c m).2 = normalOf f → c m = outward f) ∧ Ranges f mn mx ∧
    domain dom = some (nb + 1) ∧
    cur = [h1, d1, axTok (c 0), axTok (c 1), axTok (c 2), ['f'], mn (c 0).2, mn (c 1).2, mn (c 2).2, mx (c 0).2, mx (c 1).2, mx (c 2).2] ∧
    adj = h2 :: dom :: (axTok (if (c 0).2 = normalOf f then opposite (image o (c 0)) else image o (c 0))) ::
      (axTok (if (c 1).2 = normalOf f then opposite (image o (c 1)) else image o (c 1))) ::
      (axTok (if (c 2).2 = normalOf f then opposite (image o (c 2)) else image o (c 2))) :: rest

/-- the records of the connections among the faces `fs` of a block, in order -/
inductive ConnBody (domain : Tok → Option ℤ) (m : Mesh) (b : ℤ) : List ℕ → List Row → Prop
  | nil : ConnBody domain m b [] []
  | ext {f fs rows tag} : m.face b f = .ext tag → ConnBody domain m b fs rows → ConnBody domain m b (f :: fs) rows
  | conn {f fs rows nb o cur adj} : m.face b f = .conn nb o → Records domain f nb o cur adj → ConnBody domain m b fs rows →
      ConnBody domain m b (f :: fs) (.line cur :: .line adj :: rows)

/-- a piece of the file: a line without meaning, the external patches of a block up to an empty line, the connections of a block -/
inductive Piece (domain : Tok → Option ℤ) (m : Mesh) : List Row → Prop
  | skip {ts} : Piece domain m [.line ts]
  | patches {b : ℤ} {body} : 0 ≤ b → b < m.n →
      (∀ r ∈ body, ∃ ts, r = .line ts ∧ ((∃ tag kind rest, ts = tag :: kind :: rest ∧ (kind ≠ ['f'] ∨ tag = "DEFAULT_SUBFACE".toList)) ∨
        ∃ f tag, 1 ≤ f ∧ f ≤ 6 ∧ m.face b f = .ext tag ∧ PatchLine tag f ts)) →
      (∀ f tag, 1 ≤ f → f ≤ 6 → m.face b f = .ext tag → ∃ ts, .line ts ∈ body ∧ PatchLine tag f ts) →
      Piece domain m (.bcHead b :: body ++ [.line []])
  | conns {b : ℤ} {body} : 0 ≤ b → b < m.n → ConnBody domain m b [1, 2, 3, 4, 5, 6] body → Piece domain m (.connHead b :: body)

/-- the file: pieces, among them the patches and the connections of every block -/
def File (domain : Tok → Option ℤ) (m : Mesh) (rows : List Row) : Prop :=
  ∃ pieces : List (List Row), rows = pieces.flatten ∧ (∀ p ∈ pieces, Piece domain m p) ∧
    ∀ b : ℤ, 0 ≤ b → b < m.n → (∃ body, .bcHead b :: body ∈ pieces) ∧ ∃ body, .connHead b :: body ∈ pieces

/-- what the user expects of a face -/
def wanted (fams : Tok → Option Tok) : Kind → Option IFace
  | .ext tag => (fams tag).map fun t => ⟨t, some tag, none, none⟩
  | .conn nb o => some ⟨"b0".toList, none, some nb, some [o.d0, o.d1, o.d2]⟩

/-! ### proofs -/

theorem faceMapping_normal {f : ℕ} (h1 : 1 ≤ f) (h6 : f ≤ 6) : faceMapping (upper f) [axChar (normalOf f)] = some f := by
  have : f = 1 ∨ f = 2 ∨ f = 3 ∨ f = 4 ∨ f = 5 ∨ f = 6 := by omega
  rcases this with rfl | rfl | rfl | rfl | rfl | rfl <;> decide

theorem ranges_upper {f : ℕ} {mn mx : Fin 3 → Tok} (h : Ranges f mn mx) :
    mn (normalOf f) = mx (normalOf f) ∧ decide (mn (normalOf f) ≠ ['1']) = upper f := by
  have := h (normalOf f)
  rw [if_pos rfl] at this
  refine ⟨this.1, ?_⟩
  cases hu : upper f with
  | false => rw [hu] at this; simp [this.2]
  | true => rw [hu] at this; simp [this.2]

theorem patchFace_eq {f : ℕ} (h1 : 1 ≤ f) (h6 : f ≤ 6) {mn mx : Fin 3 → Tok} (h : Ranges f mn mx) :
    patchFace [(mn 0, mx 0, ['i']), (mn 1, mx 1, ['j']), (mn 2, mx 2, ['k'])] = some f := by
  have key : ∀ (l : List (Fin 3)), normalOf f ∈ l → patchFace (l.map fun a => (mn a, mx a, [axChar a])) = some f := by
    intro l
    induction l with
    | nil => intro h; cases h
    | cons a l ih =>
      intro hm
      have ha := h a
      by_cases he : a = normalOf f
      · subst he
        obtain ⟨e, hu⟩ := ranges_upper h
        have := faceMapping_normal h1 h6
        rw [← hu] at this
        by_cases ho : mn (normalOf f) = ['1']
        · simp only [List.map_cons, patchFace]
          rw [if_pos ⟨e, ho⟩]; simpa [ho] using this
        · simp only [List.map_cons, patchFace]
          rw [if_neg (fun h => ho h.2), if_pos ⟨e, ho⟩]; simpa [ho] using this
      · rw [if_neg he] at ha
        simp only [List.map_cons, patchFace]
        rw [if_neg (fun h => ha h.1), if_neg (fun h => ha h.1)]
        exact ih ((List.mem_cons.mp hm).resolve_left fun h => he h.symm)
  exact key [0, 1, 2] (by generalize normalOf f = a; revert a; decide)

theorem checkFace_eq {f : ℕ} (h1 : 1 ≤ f) (h6 : f ≤ 6) {mn mx : Fin 3 → Tok} (h : Ranges f mn mx) (l : List Ax) :
    checkFace f (l.map fun c => (mn c.2, mx c.2, unsigned (axTok c))) = some () := by
  induction l with
  | nil => rfl
  | cons c l ih =>
    have hu : unsigned (axTok c) = [axChar c.2] := by revert c; decide
    simp only [List.map_cons, checkFace]
    by_cases he : c.2 = normalOf f
    · obtain ⟨e, hq⟩ := ranges_upper h
      rw [hu, he, if_pos e, hq, faceMapping_normal h1 h6]
      simpa using ih
    · have := h c.2
      rw [if_neg he] at this
      rw [if_neg this]
      exact ih

theorem orientPair_eq {f : ℕ} (h1 : 1 ≤ f) (h6 : f ≤ 6) (o : Topo.Ori) (c : Ax) (hc : c.2 = normalOf f → c = outward f) :
    orientPair f (axTok c) (axTok (if c.2 = normalOf f then opposite (image o c) else image o c)) =
      some ([axChar c.2], axTok (image o (false, c.2))) := by
  have hi : image o c = (xor c.1 (image o (false, c.2)).1, (image o (false, c.2)).2) := by
    simp [image]
  rw [hi]
  clear hi
  generalize image o (false, c.2) = x
  have : f = 1 ∨ f = 2 ∨ f = 3 ∨ f = 4 ∨ f = 5 ∨ f = 6 := by omega
  rcases this with rfl | rfl | rfl | rfl | rfl | rfl <;> revert c x <;> decide

theorem orientationMapping_eq (o : Topo.Ori) (a : Fin 3) (h1 : 1 ≤ o.get a) (h6 : o.get a ≤ 6) :
    orientationMapping (axTok (image o (false, a))) = some (o.get a) := by
  have key : ∀ d, 1 ≤ d → d ≤ 6 → ∀ h, orientationMapping (axTok (xor false (Topo.reversed d), ⟨Topo.axisOf d, h⟩)) = some d := by
    intro d h1 h6
    have : d = 1 ∨ d = 2 ∨ d = 3 ∨ d = 4 ∨ d = 5 ∨ d = 6 := by omega
    rcases this with rfl | rfl | rfl | rfl | rfl | rfl <;> decide
  exact key _ h1 h6 _

theorem connect_eq {domain : Tok → Option ℤ} {f : ℕ} (h1 : 1 ≤ f) (h6 : f ≤ 6) {nb : ℤ} {o : Topo.Ori} (ho : o.Legal)
    {cur adj : List Tok} (h : Records domain f nb o cur adj) (b : ℤ) (g : Grid) :
    connect domain b f g cur adj =
      some (setFace g b f { g b f with neighbor := some nb, ori := some [o.d0, o.d1, o.d2] }) := by
  obtain ⟨c, mn, mx, dom, t1, t2, t3, rest, hinj, hout, hr, hdom, rfl, rfl⟩ := h
  have hchk := checkFace_eq h1 h6 hr [c 0, c 1, c 2]
  simp only [List.map_cons, List.map_nil] at hchk
  have hsurj : ∀ a, ∃ m, (c m).2 = a :=
    (Finite.injective_iff_surjective (f := fun m => (c m).2)).mp (fun m m' h => hinj m m' h)
  have hpair := fun m => orientPair_eq h1 h6 o (c m) (hout m)
  have hchar : ∀ a a' : Fin 3, [axChar a] = [axChar a'] ↔ a' = a := by decide
  have hlook : ∀ a, (if ([axChar a] : Tok) = [axChar (c 2).2] then some (axTok (image o (false, (c 2).2))) else
      if ([axChar a] : Tok) = [axChar (c 1).2] then some (axTok (image o (false, (c 1).2))) else
      if ([axChar a] : Tok) = [axChar (c 0).2] then some (axTok (image o (false, (c 0).2))) else none) =
      some (axTok (image o (false, a))) := by
    intro a
    simp only [hchar]
    split
    · rename_i h; rw [h]
    split
    · rename_i h; rw [h]
    split
    · rename_i h; rw [h]
    rename_i n2 n1 n0
    obtain ⟨m, hm⟩ := hsurj a
    have : m = 0 ∨ m = 1 ∨ m = 2 := (by decide : ∀ m : Fin 3, m = 0 ∨ m = 1 ∨ m = 2) m
    rcases this with rfl | rfl | rfl
    · exact absurd hm n0
    · exact absurd hm n1
    · exact absurd hm n2
  have hi := hlook 0
  have hj := hlook 1
  have hk := hlook 2
  have oi := orientationMapping_eq o 0 ho.1.1 ho.1.2
  have oj := orientationMapping_eq o 1 ho.2.1.1 ho.2.1.2
  have ok := orientationMapping_eq o 2 ho.2.2.1.1 ho.2.2.1.2
  have p0 := hpair 0
  have p1 := hpair 1
  have p2 := hpair 2
  unfold connect
  simp only [List.getElem?_cons_zero, List.getElem?_cons_succ, bind, Option.bind, hchk, hdom, List.foldlM_cons, List.foldlM_nil,
    ne_eq, not_true_eq_false, if_false]
  rw [p0]; dsimp only
  rw [p1]; dsimp only
  rw [p2]; dsimp only [pure]
  rw [show axChar 0 = 'i' from rfl] at hi
  rw [show axChar 1 = 'j' from rfl] at hj
  rw [show axChar 2 = 'k' from rfl] at hk
  rw [hi]; dsimp only
  rw [oi]; dsimp only
  rw [hj]; dsimp only
  rw [oj]; dsimp only
  rw [hk]; dsimp only
  rw [ok]; dsimp only
  rw [Int.add_sub_cancel]
  rfl

theorem block_eq {n : ℕ} {b : ℤ} (h0 : 0 ≤ b) (h1 : b < n) : block n b = some b := by
  unfold block; rw [if_pos ⟨h0, h1⟩]

/-- every label of an external face has a type that the tool lets through -/
def Known (fams : Tok → Option Tok) (m : Mesh) : Prop :=
  ∀ (b : ℤ) (f : ℕ) tag, 0 ≤ b → b < m.n → 1 ≤ f → f ≤ 6 → m.face b f = .ext tag → ∃ t ∈ icemBcTypes, fams tag = some t

theorem icem_valid : ∀ t ∈ icemBcTypes, t ∈ validBcTypes := by decide

theorem icem_ne : ∀ t ∈ icemBcTypes, t ≠ "b0".toList := by decide

theorem bcLine_patch {fams : Tok → Option Tok} {tag t : Tok} (ht : fams tag = some t) (hi : t ∈ icemBcTypes) {f : ℕ} (h1 : 1 ≤ f)
    (h6 : f ≤ 6) {ts : List Tok} (h : PatchLine tag f ts) (b : ℤ) (g : Grid) :
    bcLine fams b g ts = some (setFace g b f { g b f with bcFam := some tag, bcType := t }) := by
  obtain ⟨hd, mn, mx, hr, rfl⟩ := h
  have := patchFace_eq h1 h6 hr
  unfold bcLine
  simp only [List.getElem?_cons_zero, List.getElem?_cons_succ, bind, Option.bind, if_true, hd, if_false, ht, this, hi]
  unfold checked
  rw [if_pos (icem_valid t hi)]

theorem bcLine_skip {fams : Tok → Option Tok} {tag kind : Tok} {rest : List Tok} (h : kind ≠ ['f'] ∨ tag = "DEFAULT_SUBFACE".toList)
    (b : ℤ) (g : Grid) : bcLine fams b g (tag :: kind :: rest) = some g := by
  unfold bcLine
  simp only [List.getElem?_cons_zero, List.getElem?_cons_succ, bind, Option.bind]
  split
  · rw [if_pos (h.resolve_left fun h' => h' ‹_›)]
  · rfl

/-- what a face may be while the patches are being read -/
def Inv1 (fams : Tok → Option Tok) (m : Mesh) (g : Grid) : Prop :=
  ∀ (b : ℤ) (f : ℕ), 0 ≤ b → b < m.n → 1 ≤ f → f ≤ 6 → match m.face b f with
    | .ext tag => g b f = grid0 b f ∨ ∃ t, fams tag = some t ∧ g b f = ⟨t, some tag, none, none⟩
    | .conn _ _ => g b f = grid0 b f

/-- a face with its final patch -/
def Set1 (fams : Tok → Option Tok) (m : Mesh) (g : Grid) (b : ℤ) (f : ℕ) : Prop :=
  ∀ tag, m.face b f = .ext tag → ∃ t, fams tag = some t ∧ g b f = ⟨t, some tag, none, none⟩

/-- one line of a section -/
theorem bcBody_eq {fams : Tok → Option Tok} {m : Mesh} (hk : Known fams m) {b : ℤ} (hb0 : 0 ≤ b) (hb : b < m.n) (body : List Row)
    (h : ∀ r ∈ body, ∃ ts, r = Row.line ts ∧ ((∃ tag kind rest, ts = tag :: kind :: rest ∧ (kind ≠ ['f'] ∨ tag = "DEFAULT_SUBFACE".toList)) ∨
        ∃ f tag, 1 ≤ f ∧ f ≤ 6 ∧ m.face b f = .ext tag ∧ PatchLine tag f ts)) (g : Grid) (hg : Inv1 fams m g) :
    ∃ g', body.foldlM (bcStep m.n fams) (some b, g) = some (some b, g') ∧ Inv1 fams m g' ∧
      (∀ b' f, Set1 fams m g b' f → Set1 fams m g' b' f) ∧
      ∀ f tag ts, 1 ≤ f → f ≤ 6 → m.face b f = .ext tag → .line ts ∈ body → PatchLine tag f ts → Set1 fams m g' b f := by
  induction body generalizing g with
  | nil => exact ⟨g, rfl, hg, fun _ _ h => h, fun _ _ _ _ _ _ h => by cases h⟩
  | cons r body ih =>
    obtain ⟨ts, rfl, hts⟩ := h r List.mem_cons_self
    have step : ∃ g1, bcStep m.n fams (some b, g) (.line ts) = some (some b, g1) ∧ Inv1 fams m g1 ∧
        (∀ b' f, Set1 fams m g b' f → Set1 fams m g1 b' f) ∧
        ∀ f tag, 1 ≤ f → f ≤ 6 → m.face b f = .ext tag → PatchLine tag f ts → Set1 fams m g1 b f := by
      have ex : ∀ f tag, 1 ≤ f → f ≤ 6 → m.face b f = .ext tag → PatchLine tag f ts → ∃ t, fams tag = some t ∧
          bcStep m.n fams (some b, g) (.line ts) = some (some b, setFace g b f ⟨t, some tag, none, none⟩) := by
        intro f tag h1 h6 hf hp
        obtain ⟨t, hi, ht⟩ := hk b f tag hb0 hb h1 h6 hf
        refine ⟨t, ht, ?_⟩
        have hl := bcLine_patch ht hi h1 h6 hp b g
        have hgf : (g b f).neighbor = none ∧ (g b f).ori = none := by
          have := hg b f hb0 hb h1 h6
          rw [hf] at this
          rcases this with h | ⟨t, _, h⟩ <;> rw [h] <;> exact ⟨rfl, rfl⟩
        dsimp only at hl
        rw [hgf.1, hgf.2] at hl
        obtain ⟨_, mn, mx, _, rfl⟩ := hp
        simp only [bcStep, hl, bind, Option.bind]
      rcases hts with ⟨tag, kind, rest, rfl, hsk⟩ | ⟨f, tag, h1, h6, hf, hp⟩
      · refine ⟨g, ?_, hg, fun _ _ h => h, ?_⟩
        · simp only [bcStep, bcLine_skip hsk, bind, Option.bind]
        · intro f tag' h1 h6 hf hp
          obtain ⟨hd, mn, mx, _, e⟩ := hp
          injection e with e1 e
          injection e with e2 e
          rcases hsk with h | h
          · exact absurd e2 h
          · exact absurd (e1 ▸ h) hd
      · obtain ⟨t, ht, e⟩ := ex f tag h1 h6 hf hp
        refine ⟨_, e, ?_, ?_, ?_⟩
        · intro b' f' hb0' hb' h1' h6'
          have := hg b' f' hb0' hb' h1' h6'
          unfold setFace
          by_cases hc : b' = b ∧ f' = f
          · obtain ⟨rfl, rfl⟩ := hc
            rw [hf]; right
            exact ⟨t, ht, by simp⟩
          · simp only [hc, if_false]
            exact this
        · intro b' f' hs tag' hf'
          unfold setFace
          by_cases hc : b' = b ∧ f' = f
          · obtain ⟨rfl, rfl⟩ := hc
            rw [hf] at hf'
            cases hf'
            exact ⟨t, ht, by simp⟩
          · simp only [hc, if_false]
            exact hs tag' hf'
        · intro f' tag' h1' h6' hf' hp' tag'' hf''
          obtain ⟨t', ht', e'⟩ := ex f' tag' h1' h6' hf' hp'
          rw [hf'] at hf''
          cases hf''
          rw [e] at e'
          injection e' with e'
          injection e' with _ e'
          rw [e']
          exact ⟨t', ht', by simp [setFace]⟩
    obtain ⟨g1, e1, i1, k1, s1⟩ := step
    obtain ⟨g2, e2, i2, k2, s2⟩ := ih (fun r hr => h r (List.mem_cons_of_mem _ hr)) g1 i1
    refine ⟨g2, ?_, i2, fun b' f hs => k2 b' f (k1 b' f hs), ?_⟩
    · rw [List.foldlM_cons, e1]; exact e2
    · intro f tag ts' h1 h6 hf hm hp
      rcases List.mem_cons.mp hm with he | hm
      · cases he; exact k2 b f (s1 f tag h1 h6 hf hp)
      · exact s2 f tag ts' h1 h6 hf hm hp

/-- connection records do nothing in the first stage -/
theorem connBody_lines {domain : Tok → Option ℤ} {m : Mesh} {b : ℤ} {fs : List ℕ} {rows : List Row} (h : ConnBody domain m b fs rows) :
    ∀ r ∈ rows, ∃ ts, r = .line ts := by
  induction h with
  | nil => intro r hr; cases hr
  | ext _ _ ih => exact ih
  | conn _ _ _ ih =>
    intro r hr
    rcases List.mem_cons.mp hr with rfl | hr
    · exact ⟨_, rfl⟩
    rcases List.mem_cons.mp hr with rfl | hr
    · exact ⟨_, rfl⟩
    exact ih r hr

theorem bc_passes {n : ℕ} {fams : Tok → Option Tok} (rows : List Row) (h : ∀ r ∈ rows, ∃ ts, r = .line ts) (g : Grid) :
    rows.foldlM (bcStep n fams) (none, g) = some (none, g) := by
  induction rows with
  | nil => rfl
  | cons r rows ih =>
    obtain ⟨ts, rfl⟩ := h r List.mem_cons_self
    have : bcStep n fams (none, g) (.line ts) = some (none, g) := by cases ts <;> rfl
    rw [List.foldlM_cons, this]
    exact ih fun r hr => h r (List.mem_cons_of_mem _ hr)

theorem foldlM_flatten {α β : Type} (f : β → α → Option β) (b : β) (ls : List (List α)) :
    ls.flatten.foldlM f b = ls.foldlM (fun b l => l.foldlM f b) b := by
  induction ls generalizing b with
  | nil => rfl
  | cons l ls ih =>
    rw [List.flatten_cons, List.foldlM_append, List.foldlM_cons]
    congr 1
    funext b'
    exact ih b'

theorem bcStage_eq {fams : Tok → Option Tok} {domain : Tok → Option ℤ} {m : Mesh} (hk : Known fams m) (pieces : List (List Row))
    (hp : ∀ p ∈ pieces, Piece domain m p) (g : Grid) (hg : Inv1 fams m g) :
    ∃ g', pieces.foldlM (fun s l => l.foldlM (bcStep m.n fams) s) (none, g) = some (none, g') ∧ Inv1 fams m g' ∧
      (∀ b f, Set1 fams m g b f → Set1 fams m g' b f) ∧
      ∀ b body f, .bcHead b :: body ∈ pieces → 1 ≤ f → f ≤ 6 → Set1 fams m g' b f := by
  induction pieces generalizing g with
  | nil => exact ⟨g, rfl, hg, fun _ _ h => h, fun _ _ _ h => by cases h⟩
  | cons p pieces ih =>
    have step : ∃ g1, p.foldlM (bcStep m.n fams) (none, g) = some (none, g1) ∧ Inv1 fams m g1 ∧
        (∀ b f, Set1 fams m g b f → Set1 fams m g1 b f) ∧
        ∀ b body f, p = .bcHead b :: body → 1 ≤ f → f ≤ 6 → Set1 fams m g1 b f := by
      cases hp p List.mem_cons_self with
      | @skip ts =>
        refine ⟨g, bc_passes _ (fun r hr => ?_) g, hg, fun _ _ h => h, ?_⟩
        · exact ⟨ts, List.mem_singleton.mp hr⟩
        · intro b body f h; cases h
      | @patches b body hb0 hb hl hall =>
        obtain ⟨g1, e, i1, k1, s1⟩ := bcBody_eq hk hb0 hb body hl g hg
        refine ⟨g1, ?_, i1, k1, ?_⟩
        · rw [List.cons_append, List.foldlM_cons]
          simp only [bcStep, block_eq hb0 hb, bind, Option.bind]
          rw [List.foldlM_append]
          rw [e]; rfl
        · intro b' body' f h h1 h6 tag hf
          rw [List.cons_append] at h
          injection h with h _
          injection h with h
          subst h
          obtain ⟨ts, hm, hpl⟩ := hall f tag h1 h6 hf
          exact s1 f tag ts h1 h6 hf hm hpl tag hf
      | @conns b body hb0 hb hc =>
        refine ⟨g, ?_, hg, fun _ _ h => h, ?_⟩
        · rw [List.foldlM_cons]
          exact bc_passes _ (connBody_lines hc) g
        · intro b' body' f h; cases h
    obtain ⟨g1, e1, i1, k1, s1⟩ := step
    obtain ⟨g2, e2, i2, k2, s2⟩ := ih (fun p hp' => hp p (List.mem_cons_of_mem _ hp')) g1 i1
    refine ⟨g2, ?_, i2, fun b f h => k2 b f (k1 b f h), ?_⟩
    · rw [List.foldlM_cons, e1]; exact e2
    · intro b body f hm h1 h6
      rcases List.mem_cons.mp hm with he | hm
      · exact k2 b f (s1 b body f he.symm h1 h6)
      · exact s2 b body f hm h1 h6

/-- without periodic sections the second stage does nothing -/
theorem perStage_eq {n : ℕ} (rows : List Row) (h : ∀ r ∈ rows, ∀ b, r ≠ .perHead b) (g : Grid) : perStage n rows g = some g := by
  have : rows.foldlM (perStep n) (.out, g) = some (.out, g) := by
    induction rows with
    | nil => rfl
    | cons r rows ih =>
      have hr : perStep n (.out, g) r = some (.out, g) := by
        cases r with
        | perHead b => exact absurd rfl (h _ List.mem_cons_self b)
        | bcHead b => rfl
        | connHead b => rfl
        | line ts => rfl
      rw [List.foldlM_cons, hr]
      exact ih fun r hr => h r (List.mem_cons_of_mem _ hr)
  unfold perStage
  rw [this]; rfl

def isConn : Kind → Bool
  | .conn _ _ => true
  | .ext _ => false

/-- the connection put into a face -/
def withConn (k : Kind) (v : IFace) : IFace :=
  match k with
  | .conn nb o => { v with neighbor := some nb, ori := some [o.d0, o.d1, o.d2] }
  | .ext _ => v

theorem connBody_eq {domain : Tok → Option ℤ} {m : Mesh} {n : ℕ} {b : ℤ} {fs : List ℕ} {rows : List Row}
    (h : ConnBody domain m b fs rows) (hfs : ∀ f ∈ fs, 1 ≤ f ∧ f ≤ 6)
    (hl : ∀ f ∈ fs, ∀ nb o, m.face b f = .conn nb o → o.Legal) (g : Grid) :
    ∃ g', rows.foldlM (connStep n domain) ⟨fs.filter fun f => isConn (m.face b f), b, none, g⟩ = some ⟨[], b, none, g'⟩ ∧
      ∀ b' f', g' b' f' = if b' = b ∧ f' ∈ fs then withConn (m.face b' f') (g b' f') else g b' f' := by
  induction h generalizing g with
  | nil => exact ⟨g, rfl, fun b' f' => by simp⟩
  | @ext f fs rows tag hf _ ih =>
    obtain ⟨g', e, hg'⟩ := ih (fun f hf => hfs f (List.mem_cons_of_mem _ hf)) (fun f hf => hl f (List.mem_cons_of_mem _ hf)) g
    refine ⟨g', ?_, ?_⟩
    · rw [List.filter_cons_of_neg (by rw [hf]; simp [isConn])]; exact e
    · intro b' f'
      rw [hg' b' f']
      by_cases hb : b' = b
      · by_cases hff : f' = f
        · subst hb hff
          simp [hf, withConn]
        · simp [hb, hff]
      · simp [hb]
  | @conn f fs rows nb o cur adj hf hr _ ih =>
    have hf16 := hfs f List.mem_cons_self
    have hc := connect_eq hf16.1 hf16.2 (hl f List.mem_cons_self nb o hf) hr b g
    obtain ⟨g', e, hg'⟩ := ih (fun f hf => hfs f (List.mem_cons_of_mem _ hf)) (fun f hf => hl f (List.mem_cons_of_mem _ hf))
      (setFace g b f { g b f with neighbor := some nb, ori := some [o.d0, o.d1, o.d2] })
    refine ⟨g', ?_, ?_⟩
    · rw [List.filter_cons_of_pos (by rw [hf]; rfl), List.foldlM_cons]
      simp only [connStep, bind, Option.bind]
      rw [List.foldlM_cons]
      simp only [connStep, bind, Option.bind, hc]
      exact e
    · intro b' f'
      rw [hg' b' f']
      unfold setFace
      by_cases hb : b' = b
      · by_cases hff : f' = f
        · subst hb hff
          by_cases hm : f' ∈ fs
          · simp [hm, hf, withConn]
          · simp [hm, hf, withConn]
        · simp [hb, hff]
      · simp [hb]

/-- the last stage, piece by piece; the boundary types are those of the first stage -/
theorem connStage_eq {domain : Tok → Option ℤ} {m : Mesh}
    (hl : ∀ (b : ℤ) (f : ℕ) nb o, 0 ≤ b → b < m.n → 1 ≤ f → f ≤ 6 → m.face b f = .conn nb o → o.Legal) (pieces : List (List Row))
    (hp : ∀ p ∈ pieces, Piece domain m p) (g : Grid) (bk : ℤ)
    (hg : ∀ (b : ℤ) (f : ℕ), 0 ≤ b → b < m.n → 1 ≤ f → f ≤ 6 → ((g b f).bcType = "b0".toList ↔ isConn (m.face b f) = true)) :
    ∃ g' bk', pieces.foldlM (fun s l => l.foldlM (connStep m.n domain) s) ⟨[], bk, none, g⟩ = some ⟨[], bk', none, g'⟩ ∧
      ∀ (b : ℤ) (f : ℕ), 0 ≤ b → b < m.n → 1 ≤ f → f ≤ 6 → (g' b f = g b f ∨ g' b f = withConn (m.face b f) (g b f)) ∧
        ((∃ body, .connHead b :: body ∈ pieces) → g' b f = withConn (m.face b f) (g b f)) := by
  induction pieces generalizing g bk with
  | nil => exact ⟨g, bk, rfl, fun b f _ _ _ _ => ⟨Or.inl rfl, fun ⟨_, h⟩ => by cases h⟩⟩
  | cons p pieces ih =>
    have idem : ∀ k v, withConn k (withConn k v) = withConn k v := by intro k v; cases k <;> rfl
    have step : ∃ g1 bk1, p.foldlM (connStep m.n domain) ⟨[], bk, none, g⟩ = some ⟨[], bk1, none, g1⟩ ∧
        ∀ (b : ℤ) (f : ℕ), 0 ≤ b → b < m.n → 1 ≤ f → f ≤ 6 → (g1 b f = g b f ∨ g1 b f = withConn (m.face b f) (g b f)) ∧
          ((∃ body, p = .connHead b :: body) → g1 b f = withConn (m.face b f) (g b f)) := by
      have pass : ∀ rows : List Row, (∀ r ∈ rows, ∀ b, r ≠ .connHead b) →
          rows.foldlM (connStep m.n domain) ⟨[], bk, none, g⟩ = some ⟨[], bk, none, g⟩ := by
        intro rows h
        induction rows with
        | nil => rfl
        | cons r rows ih =>
          have hr : connStep m.n domain ⟨[], bk, none, g⟩ r = some ⟨[], bk, none, g⟩ := by
            cases r with
            | connHead b => exact absurd rfl (h _ List.mem_cons_self b)
            | bcHead b => rfl
            | perHead b => rfl
            | line ts => rfl
          rw [List.foldlM_cons, hr]
          exact ih fun r hr => h r (List.mem_cons_of_mem _ hr)
      cases hp p List.mem_cons_self with
      | @skip ts =>
        refine ⟨g, bk, pass _ (fun r hr b => ?_), fun b f _ _ _ _ => ⟨Or.inl rfl, fun ⟨_, h⟩ => by cases h⟩⟩
        rw [List.mem_singleton.mp hr]; intro h; cases h
      | @patches b body hb0 hb hlines hall =>
        refine ⟨g, bk, pass _ (fun r hr b' => ?_), fun b f _ _ _ _ => ⟨Or.inl rfl, fun ⟨_, h⟩ => by cases h⟩⟩
        rw [List.cons_append] at hr
        rcases List.mem_cons.mp hr with rfl | hr
        · intro h; cases h
        rcases List.mem_append.mp hr with hr | hr
        · obtain ⟨ts, rfl, _⟩ := hlines r hr; intro h; cases h
        · rw [List.mem_singleton.mp hr]; intro h; cases h
      | @conns b body hb0 hb hc =>
        have six : ∀ f ∈ [1, 2, 3, 4, 5, 6], 1 ≤ f ∧ f ≤ 6 := by decide
        obtain ⟨g1, e, hg1⟩ := connBody_eq (n := m.n) hc six (fun f hf nb o h => hl b f nb o hb0 hb (six f hf).1 (six f hf).2 h) g
        refine ⟨g1, b, ?_, ?_⟩
        · rw [List.foldlM_cons]
          simp only [connStep, block_eq hb0 hb, bind, Option.bind]
          rw [← e]
          congr 2
          apply List.filter_congr
          intro f hf
          have := hg b f hb0 hb (six f hf).1 (six f hf).2
          cases hh : isConn (m.face b f) with
          | true => simpa using this.mpr hh
          | false =>
            rw [hh] at this
            simpa using this
        · intro b' f hb0' hb' h1 h6
          have hm : f ∈ [1, 2, 3, 4, 5, 6] := by
            have : f = 1 ∨ f = 2 ∨ f = 3 ∨ f = 4 ∨ f = 5 ∨ f = 6 := by omega
            simpa using this
          rw [hg1 b' f]
          by_cases hbb : b' = b
          · rw [if_pos ⟨hbb, hm⟩]; exact ⟨Or.inr rfl, fun _ => rfl⟩
          · rw [if_neg (fun h => hbb h.1)]
            refine ⟨Or.inl rfl, fun ⟨_, h⟩ => ?_⟩
            injection h with h _
            injection h with h
            exact absurd h.symm hbb
    obtain ⟨g1, bk1, e1, h1⟩ := step
    have hg1 : ∀ (b : ℤ) (f : ℕ), 0 ≤ b → b < m.n → 1 ≤ f → f ≤ 6 → ((g1 b f).bcType = "b0".toList ↔ isConn (m.face b f) = true) := by
      intro b f a1 a2 a3 a4
      rw [← hg b f a1 a2 a3 a4]
      rcases (h1 b f a1 a2 a3 a4).1 with h | h
      · rw [h]
      · rw [h]; cases m.face b f <;> rfl
    obtain ⟨g2, bk2, e2, h2⟩ := ih (fun p hp' => hp p (List.mem_cons_of_mem _ hp')) g1 bk1 hg1
    refine ⟨g2, bk2, ?_, ?_⟩
    · rw [List.foldlM_cons, e1]; exact e2
    · intro b f a1 a2 a3 a4
      obtain ⟨u1, u2⟩ := h1 b f a1 a2 a3 a4
      obtain ⟨w1, w2⟩ := h2 b f a1 a2 a3 a4
      constructor
      · rcases u1 with u | u <;> rcases w1 with w | w <;> rw [u] at w
        · exact Or.inl w
        · exact Or.inr w
        · exact Or.inr w
        · rw [idem] at w; exact Or.inr w
      · rintro ⟨body, hm⟩
        rcases List.mem_cons.mp hm with he | hm
        · have u := u2 ⟨body, he.symm⟩
          rcases w1 with w | w <;> rw [u] at w
          · exact w
          · rw [idem] at w; exact w
        · have w := w2 ⟨body, hm⟩
          rcases u1 with u | u <;> rw [u] at w
          · exact w
          · rw [idem] at w; exact w

/-- **C99** (topology): from the file of any mesh without periodic faces, whose labels have types among the six that the tool knows,
    every face gets its label and type, or its neighbour and orientation -/
theorem C99_topology_partial {fams : Tok → Option Tok} {domain : Tok → Option ℤ} {m : Mesh} {rows : List Row} (hf : File domain m rows)
    (hk : Known fams m) (hl : ∀ (b : ℤ) (f : ℕ) nb o, 0 ≤ b → b < m.n → 1 ≤ f → f ≤ 6 → m.face b f = .conn nb o → o.Legal) :
    ∃ g, convert m.n fams domain rows = some g ∧
      ∀ (b : ℤ) (f : ℕ), 0 ≤ b → b < m.n → 1 ≤ f → f ≤ 6 → wanted fams (m.face b f) = some (g b f) := by
  obtain ⟨pieces, rfl, hp, hcov⟩ := hf
  obtain ⟨g1, e1, i1, -, s1⟩ := bcStage_eq hk pieces hp grid0 (by
    intro b f _ _ _ _
    cases m.face b f with
    | ext tag => exact Or.inl rfl
    | conn nb o => rfl)
  have hset : ∀ (b : ℤ) (f : ℕ) tag, 0 ≤ b → b < m.n → 1 ≤ f → f ≤ 6 → m.face b f = .ext tag →
      ∃ t, fams tag = some t ∧ g1 b f = ⟨t, some tag, none, none⟩ := by
    intro b f tag a1 a2 a3 a4 h
    obtain ⟨body, hm⟩ := (hcov b a1 a2).1
    exact s1 b body f hm a3 a4 tag h
  obtain ⟨g2, bk, e2, h2⟩ := connStage_eq hl pieces hp g1 0 (by
    intro b f a1 a2 a3 a4
    cases h : m.face b f with
    | ext tag =>
      obtain ⟨t, ht, e⟩ := hset b f tag a1 a2 a3 a4 h
      obtain ⟨t', hi, ht'⟩ := hk b f tag a1 a2 a3 a4 h
      rw [ht] at ht'; cases ht'
      rw [e]
      simp only [isConn, Bool.false_eq_true, iff_false]
      exact icem_ne t hi
    | conn nb o =>
      have := i1 b f a1 a2 a3 a4
      rw [h] at this
      dsimp only at this
      rw [this]
      simp [isConn, grid0])
  refine ⟨g2, ?_, ?_⟩
  · unfold convert bcStage
    rw [foldlM_flatten, e1]
    simp only [bind, Option.bind]
    rw [perStage_eq]
    · dsimp only
      unfold connStage
      rw [foldlM_flatten, e2]
      rfl
    · intro r hr b
      obtain ⟨p, hpm, hrp⟩ := List.mem_flatten.mp hr
      cases hp p hpm with
      | skip => rw [List.mem_singleton.mp hrp]; intro h; cases h
      | @patches b' body _ _ hlines _ =>
        rw [List.cons_append] at hrp
        rcases List.mem_cons.mp hrp with rfl | hrp
        · intro h; cases h
        rcases List.mem_append.mp hrp with hrp | hrp
        · obtain ⟨ts, rfl, _⟩ := hlines r hrp; intro h; cases h
        · rw [List.mem_singleton.mp hrp]; intro h; cases h
      | @conns b' body _ _ hc =>
        rcases List.mem_cons.mp hrp with rfl | hrp
        · intro h; cases h
        obtain ⟨ts, rfl⟩ := connBody_lines hc r hrp
        intro h; cases h
  · intro b f a1 a2 a3 a4
    have := (h2 b f a1 a2 a3 a4).2 (hcov b a1 a2).2
    rw [this]
    cases h : m.face b f with
    | ext tag =>
      obtain ⟨t, ht, e⟩ := hset b f tag a1 a2 a3 a4 h
      simp [wanted, withConn, ht, e]
    | conn nb o =>
      have := i1 b f a1 a2 a3 a4
      rw [h] at this
      dsimp only at this
      simp [wanted, withConn, this, grid0]

/-- **C99** (both sides): if in the mesh the two sides of a connection agree, they agree in the grid: the face of the neighbour that
    PEREGRINE attaches has the orientation PEREGRINE expects, and leads back -/
theorem C99_both_sides {fams : Tok → Option Tok} {domain : Tok → Option ℤ} {m : Mesh} {rows : List Row} (hf : File domain m rows)
    (hk : Known fams m) (hl : ∀ (b : ℤ) (f : ℕ) nb o, 0 ≤ b → b < m.n → 1 ≤ f → f ≤ 6 → m.face b f = .conn nb o → o.Legal)
    {g : Grid} (hg : convert m.n fams domain rows = some g) {b nb : ℤ} {f f2 : ℕ} {o o2 : Topo.Ori} (hb0 : 0 ≤ b) (hb : b < m.n)
    (h1 : 1 ≤ f) (h6 : f ≤ 6) (hn0 : 0 ≤ nb) (hn : nb < m.n) (h21 : 1 ≤ f2) (h26 : f2 ≤ 6)
    (hface : m.face b f = .conn nb o) (hback : m.face nb f2 = .conn b o2)
    -- the face of the neighbour is the one the normal leads to, and its directions lead back
    (hf2 : outward f2 = opposite (image o (outward f))) (hinv : ∀ a, image o2 (image o a) = a) :
    Topo.neighborNface f o = some f2 ∧ Topo.neighborOrientation o = some o2 ∧
      (g b f).neighbor = some nb ∧ (g b f).ori = some [o.d0, o.d1, o.d2] ∧
      (g nb f2).neighbor = some b ∧ (g nb f2).ori = some [o2.d0, o2.d1, o2.d2] := by
  obtain ⟨g', e, hw⟩ := C99_topology_partial hf hk hl
  rw [hg] at e
  cases e
  have w1 := hw b f hb0 hb h1 h6
  have w2 := hw nb f2 hn0 hn h21 h26
  rw [hface] at w1
  rw [hback] at w2
  injection w1 with w1
  injection w2 with w2
  have lo := hl b f nb o hb0 hb h1 h6 hface
  have lo2 := hl nb f2 b o2 hn0 hn h21 h26 hback
  refine ⟨?_, ?_, by rw [← w1], by rw [← w1], by rw [← w2], by rw [← w2]⟩
  · have key : ∀ a : Fin 6, ∀ b : Fin 6, ∀ c : Fin 6, (⟨a.val+1, b.val+1, c.val+1⟩ : Topo.Ori).Legal → ∀ n n2 : Fin 6,
        outward (n2.val+1) = opposite (image ⟨a.val+1, b.val+1, c.val+1⟩ (outward (n.val+1))) →
        Topo.neighborNface (n.val+1) ⟨a.val+1, b.val+1, c.val+1⟩ = some (n2.val+1) := by
      decide +kernel
    obtain ⟨n, rfl⟩ : ∃ n, f = n + 1 := ⟨f - 1, by omega⟩
    obtain ⟨n2, rfl⟩ : ∃ n, f2 = n + 1 := ⟨f2 - 1, by omega⟩
    exact Topo.legal_cases (fun o => outward (n2+1) = opposite (image o (outward (n+1))) → Topo.neighborNface (n+1) o = some (n2+1))
      (fun a b c h => key a b c h ⟨n, by omega⟩ ⟨n2, by omega⟩) o lo hf2
  · have key : ∀ a : Fin 6, ∀ b : Fin 6, ∀ c : Fin 6, (⟨a.val+1, b.val+1, c.val+1⟩ : Topo.Ori).Legal → ∀ a' b' c' : Fin 6,
        (∀ x, image ⟨a'.val+1, b'.val+1, c'.val+1⟩ (image ⟨a.val+1, b.val+1, c.val+1⟩ x) = x) →
        Topo.neighborOrientation ⟨a.val+1, b.val+1, c.val+1⟩ = some ⟨a'.val+1, b'.val+1, c'.val+1⟩ := by
      decide +kernel
    exact Topo.legal_cases (fun o2 => (∀ x, image o2 (image o x) = x) → Topo.neighborOrientation o = some o2)
      (fun a' b' c' _ => Topo.legal_cases (fun o => (∀ x, image ⟨a'.val+1, b'.val+1, c'.val+1⟩ (image o x) = x) →
        Topo.neighborOrientation o = some ⟨a'.val+1, b'.val+1, c'.val+1⟩) (fun a b c h => key a b c h a' b' c') o lo) o2 lo2 hinv

end PG.Util.Icem
