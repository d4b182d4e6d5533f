import Verif.IO.Conn
import Verif.Util.Verify
import Mathlib.Tactic.NormNum
import Mathlib.Tactic.Linarith
import Mathlib.Tactic.ByContra
/-!
C98: conversion of GridPro files, `utilities/gridPro2pg.py`.

A text file is the list of its lines, a line the list of its tokens (`line.split()`); in the lines of the 2D property table the
parentheses are taken as removed (line 144). `int` is a parameter `parse`. `none` stands for every exception and for the endless
loop at the end of a property file without a 2D table (lines 135-140). Doubles are reals.
-/
namespace PG.Util.GridPro
open PG PG.IO.Conn

abbrev Tok := List Char
abbrev Line := List Tok

/-- comment lines are skipped, an empty line or the end of the file is an IndexError (lines 110-120, 124-131, 159-168) -/
def skip : List Line → Option (Line × List Line)
  | [] => none
  | [] :: _ => none
  | (t :: ts) :: ls => if t.head? = some '#' then skip ls else some (t :: ts, ls)

/-- the number of blocks, lines 110-120 and 159-168 -/
def count (parse : Tok → Option ℤ) (f : List Line) : Option (ℕ × List Line) := do
  let (l, ls) ← skip f
  let n ← parse (← l.head?)
  some (n.toNat, ls)

/-- the surface numbers of a block in the order of its faces, line 133 -/
def surfaces (l : Line) : Option (List Tok) := [4, 6, 8, 10, 12, 14].mapM fun i => l[i]?

/-- lines 122-133 -/
def blkPtys : ℕ → List Line → Option (List (List Tok) × List Line)
  | 0, f => some ([], f)
  | n+1, f => do
    let (l, ls) ← skip f
    let s ← surfaces l
    let (r, ls') ← blkPtys n ls
    some (s :: r, ls')

/-- lines 135-138: those of the surfaces that count -/
def present (parse : Tok → Option ℤ) (p : List (List Tok)) : Option (List Tok) := do
  let ss := p.flatten
  let flags ← ss.mapM fun s => (parse s).map fun n => decide (n > 0)
  some ((ss.zip flags).filter (·.2) |>.map (·.1))

/-- lines 140-145: the head of the table of 2D properties -/
def table2D (parse : Tok → Option ℤ) : List Line → Option (ℕ × List Line)
  | [] => none
  | l :: ls => if "2D".toList ∈ l ∧ "properties".toList ∈ l then do
      let n ← parse (← l.head?)
      some (n.toNat, ls)
    else table2D parse ls

/-- `s.strip("pdc:")`: all those characters at both ends -/
def strip (s : Tok) : Tok :=
  let p : Char → Bool := fun c => decide (c ∈ "pdc:".toList)
  ((s.dropWhile p).reverse.dropWhile p).reverse

/-- lines 103-107 and 148-151 -/
def toBc (label : Tok) : Tok :=
  if label = "pdc:INTERBLK".toList then "b0".toList
  else if label = "pdc:WALL".toList then "adiabaticNoSlipWall".toList
  else if label = "pdc:user8".toList then "adiabaticSlipWall".toList
  else strip label

/-- lines 143-151: the dictionary, as a function -/
def surfaceToBc (pres : List Tok) : ℕ → List Line → (Tok → Option Tok) → Option (Tok → Option Tok)
  | 0, _, d => some d
  | _+1, [], _ => none
  | n+1, l :: ls, d => do
    let s ← l[0]?
    if s ∈ pres then do
      let label ← l[2]?
      surfaceToBc pres n ls fun t => if t = s then some (toBc label) else d t
    else surfaceToBc pres n ls d

/-- lines 153-157 -/
def pgBlkPtys (d : Tok → Option Tok) (p : List (List Tok)) : Option (List (List Tok)) := p.mapM fun b => b.mapM d

/-- `list[i] = v` -/
def setAt (l : Line) (i : ℕ) (v : Tok) : Option Line := if i < l.length then some (l.set i v) else none

/-- lines 172-177, one block: the label of face j+1 replaces token 2+4j; the first two and the last token are dropped -/
def connLine (labels : List Tok) (l : Line) : Option Line := do
  let r ← [0, 1, 2, 3, 4, 5].foldlM (fun l j => do
    let s ← labels[j]?
    if s = [] then none else setAt l (2 + j * 4) s) l
  some ((r.drop 2).dropLast)

/-- lines 171-177 -/
def connLines : ℕ → List (List Tok) → List Line → Option (List Line)
  | 0, _, _ => some []
  | _+1, [], _ => none
  | _+1, _, [] => none
  | n+1, p :: ps, l :: ls => do
    let c ← connLine p l
    let r ← connLines n ps ls
    some (c :: r)

/-- an entry of bcFams.yaml: the type and, for periodic families, span and axis -/
structure Fam where
  bcType : Tok
  periodic : Option (ℝ × V3)

/-- bcFams.yaml in file order -/
abbrev Fams := List (Tok × Fam)

def Fams.get (fs : Fams) (k : Tok) : Option Fam := (fs.find? fun e => e.1 = k).map (·.2)

/-- a face of the new grid -/
structure GFace where
  bcFam : Option Tok
  bcType : Tok
  neighbor : Option ℤ
  ori : Option Tok
  periodic : Option (ℝ × V3)

/-- topologyFace.py:43-75: the assignment of a boundary type -/
def checked (t : Tok) : Option Tok := if t ∈ validBcTypes then some t else none

/-- lines 183-200: family, type and periodic data from the label -/
def faceBc (fs : Fams) (label : Tok) : Option (Option Tok × Tok × Option (ℝ × V3)) :=
  match fs.get label with
  | some f => do some (some label, ← checked f.bcType, none)
  | none =>
    if label = "PERIODIC".toList then do
      let (key, f) ← fs.find? fun e => "periodic".toList.isPrefixOf e.1
      let t ← checked (f.bcType ++ "Low".toList)
      let p ← f.periodic
      some (some key, t, some p)
    else do some (none, ← checked label, none)

/-- lines 181-204, one face (number `nf`, from 1) -/
def face (parse : Tok → Option ℤ) (fs : Fams) (line : Line) (nf : ℕ) : Option GFace := do
  let d := (line.drop ((nf - 1) * 4)).take 4
  let (fam, t, p) ← faceBc fs (← d[0]?)
  let n ← parse (← d[2]?)
  let o ← d[3]?
  some ⟨fam, t, if n = 0 then none else some (n - 1), if '0' ∈ o then none else some o, p⟩

/-- the faces of all blocks, lines 110-204; `nf` runs over 1 to 6 -/
def convert (parse : Tok → Option ℤ) (pty conn : List Line) (fs : Fams) : Option (List (List GFace)) := do
  let (nb, f1) ← count parse pty
  let (p, f2) ← blkPtys nb f1
  let pres ← present parse p
  let (np, f3) ← table2D parse f2
  let d ← surfaceToBc pres np f3 fun _ => none
  let labels ← pgBlkPtys d p
  let (nb', g1) ← count parse conn
  let lines ← connLines nb' labels g1
  lines.mapM fun l => [1, 2, 3, 4, 5, 6].mapM (face parse fs l)

/-! ### specification: the files of a GridPro mesh -/

/-- a block of the mesh: for each of its six faces (0 to 5) the number of its surface, the neighbour (0 for none, counted from 1)
    and the orientation -/
structure BlkD where
  surf : ℕ → Tok
  nb : ℕ → Tok
  ori : ℕ → Tok

/-- the mesh: blocks, and the table of surface numbers and labels -/
structure Mesh where
  blocks : List BlkD
  props : List (Tok × Tok)

/-- the label of a surface: the last entry counts -/
def Mesh.label (m : Mesh) (s : Tok) : Option Tok := (m.props.reverse.find? fun e => e.1 = s).map (·.2)

def Comment (l : Line) : Prop := ∃ t ts, l = t :: ts ∧ t.head? = some '#'

/-- a line that is read: it has a first token, which does not start a comment -/
def Data (l : Line) : Prop := ∃ t ts, l = t :: ts ∧ t.head? ≠ some '#'

/-- the lines of the blocks in the property file, comments allowed before each -/
inductive PtyBody : List BlkD → List Line → Prop
  | nil : PtyBody [] []
  | comment {b bs l ls} : Comment l → PtyBody (b :: bs) ls → PtyBody (b :: bs) (l :: ls)
  | block {b bs l ls} : Data l → (∀ j < 6, l[4 + 2 * j]? = some (b.surf j)) → PtyBody bs ls → PtyBody (b :: bs) (l :: ls)

/-- the property file -/
def PtyFile (parse : Tok → Option ℤ) (m : Mesh) (f : List Line) : Prop :=
  ∃ c hd body fill th table rest, f = c ++ hd :: (body ++ (fill ++ th :: (table ++ rest))) ∧
    (∀ l ∈ c, Comment l) ∧ Data hd ∧ (hd.head?.bind parse) = some (m.blocks.length : ℤ) ∧ PtyBody m.blocks body ∧
    (∀ l ∈ fill, ¬ ("2D".toList ∈ l ∧ "properties".toList ∈ l)) ∧ "2D".toList ∈ th ∧ "properties".toList ∈ th ∧
    (th.head?.bind parse) = some (m.props.length : ℤ) ∧
    List.Forall₂ (fun l (e : Tok × Tok) => l[0]? = some e.1 ∧ l[2]? = some e.2) table m.props

/-- the connectivity file -/
def ConnFile (parse : Tok → Option ℤ) (m : Mesh) (f : List Line) : Prop :=
  ∃ c hd lines rest, f = c ++ hd :: (lines ++ rest) ∧ (∀ l ∈ c, Comment l) ∧ Data hd ∧
    (hd.head?.bind parse) = some (m.blocks.length : ℤ) ∧
    List.Forall₂ (fun (l : Line) (b : BlkD) => 27 ≤ l.length ∧ ∀ j < 6, l[4 + 4 * j]? = some (b.nb j) ∧ l[5 + 4 * j]? = some (b.ori j))
      lines m.blocks

/-- the name a label stands for: GridPro puts `pdc:` before the user's names -/
def nameOf (label : Tok) : Tok :=
  if label = "pdc:INTERBLK".toList then "b0".toList
  else if label = "pdc:WALL".toList then "adiabaticNoSlipWall".toList
  else if label = "pdc:user8".toList then "adiabaticSlipWall".toList
  else if "pdc:".toList.isPrefixOf label then label.drop 4 else label

/-- what the user expects of a face -/
def wanted (parse : Tok → Option ℤ) (fs : Fams) (m : Mesh) (b : BlkD) (j : ℕ) : Option GFace := do
  let label ← m.label (b.surf j)
  if nameOf label = [] then none else do
  let (fam, t, p) ← faceBc fs (nameOf label)
  let n ← parse (b.nb j)
  some ⟨fam, t, if n = 0 then none else some (n - 1), if '0' ∈ b.ori j then none else some (b.ori j), p⟩

/-! ### proofs -/

theorem skip_comments {c : List Line} (hc : ∀ l ∈ c, Comment l) {l : Line} (hl : Data l) (ls : List Line) :
    skip (c ++ l :: ls) = some (l, ls) := by
  induction c with
  | nil =>
    obtain ⟨t, ts, rfl, h⟩ := hl
    simp [skip, h]
  | cons a c ih =>
    obtain ⟨t, ts, rfl, h⟩ := hc _ List.mem_cons_self
    simp only [List.cons_append, skip, h, if_true]
    exact ih fun l hl => hc l (List.mem_cons_of_mem _ hl)

theorem count_eq {parse : Tok → Option ℤ} {c : List Line} (hc : ∀ l ∈ c, Comment l) {hd : Line} (hd1 : Data hd) {n : ℕ}
    (hn : (hd.head?.bind parse) = some (n : ℤ)) (ls : List Line) : count parse (c ++ hd :: ls) = some (n, ls) := by
  unfold count
  rw [skip_comments hc hd1]
  obtain ⟨t, ts, rfl, h⟩ := hd1
  have hn : parse t = some (n : ℤ) := by simpa using hn
  simp [hn]

/-- the six surfaces as a list -/
def six (f : ℕ → Tok) : List Tok := [f 0, f 1, f 2, f 3, f 4, f 5]

theorem surfaces_eq {l : Line} {f : ℕ → Tok} (h : ∀ j < 6, l[4 + 2 * j]? = some (f j)) : surfaces l = some (six f) := by
  have h0 := h 0 (by omega)
  have h1 := h 1 (by omega)
  have h2 := h 2 (by omega)
  have h3 := h 3 (by omega)
  have h4 := h 4 (by omega)
  have h5 := h 5 (by omega)
  norm_num at h0 h1 h2 h3 h4 h5
  simp [surfaces, six, h0, h1, h2, h3, h4, h5]

theorem blkPtys_eq {bs : List BlkD} {body : List Line} (h : PtyBody bs body) (rest : List Line) :
    blkPtys bs.length (body ++ rest) = some (bs.map fun b => six b.surf, rest) := by
  induction h with
  | nil => rfl
  | @comment b bs l ls hc _ ih =>
    obtain ⟨t, ts, rfl, hh⟩ := hc
    rw [List.length_cons] at ih ⊢
    have e : blkPtys (bs.length + 1) ((t :: ts) :: ls ++ rest) = blkPtys (bs.length + 1) (ls ++ rest) := by
      simp only [blkPtys, List.cons_append, skip, hh, if_true]
    rw [e, ih]
  | @block b bs l ls hd hs _ ih =>
    obtain ⟨t, ts, rfl, hh⟩ := hd
    simp only [List.length_cons, List.cons_append, blkPtys, skip, hh, if_false, bind, Option.bind, surfaces_eq hs, ih,
      List.map_cons]

theorem table2D_eq {parse : Tok → Option ℤ} {fill : List Line} (hf : ∀ l ∈ fill, ¬ ("2D".toList ∈ l ∧ "properties".toList ∈ l))
    {th : Line} (h1 : "2D".toList ∈ th) (h2 : "properties".toList ∈ th) {n : ℕ} (hn : (th.head?.bind parse) = some (n : ℤ))
    (rest : List Line) : table2D parse (fill ++ th :: rest) = some (n, rest) := by
  induction fill with
  | nil =>
    simp only [List.nil_append, table2D]
    rw [if_pos ⟨h1, h2⟩]
    cases th with
    | nil => cases h1
    | cons t ts =>
      have hn : parse t = some (n : ℤ) := by simpa using hn
      simp [hn]
  | cons a f ih =>
    simp only [List.cons_append, table2D]
    rw [if_neg (hf a List.mem_cons_self)]
    exact ih fun l hl => hf l (List.mem_cons_of_mem _ hl)

theorem surfaceToBc_eq {pres : List Tok} {table : List Line} {props : List (Tok × Tok)} (rest : List Line)
    (h : List.Forall₂ (fun l (e : Tok × Tok) => l[0]? = some e.1 ∧ l[2]? = some e.2) table props) (d : Tok → Option Tok) :
    ∃ d', surfaceToBc pres props.length (table ++ rest) d = some d' ∧
      ∀ t ∈ pres, d' t = match props.reverse.find? fun e => e.1 = t with | some e => some (toBc e.2) | none => d t := by
  induction h generalizing d with
  | nil => exact ⟨d, rfl, fun t _ => rfl⟩
  | @cons l e table props hle _ ih =>
    obtain ⟨h0, h2⟩ := hle
    have key : ∀ (d1 : Tok → Option Tok), (∀ t ∈ pres, d1 t = if t = e.1 then some (toBc e.2) else d t) → ∀ d' : Tok → Option Tok,
        (∀ t ∈ pres, d' t = match props.reverse.find? fun e => e.1 = t with | some e => some (toBc e.2) | none => d1 t) →
        ∀ t ∈ pres, d' t = match (e :: props).reverse.find? fun e => e.1 = t with | some e => some (toBc e.2) | none => d t := by
      intro d1 hd1 d' hd' t ht
      rw [hd' t ht, List.reverse_cons, List.find?_append]
      cases hf : props.reverse.find? fun e => decide (e.1 = t) with
      | some x => simp
      | none =>
        simp only [Option.none_or]
        rw [hd1 t ht]
        by_cases he : t = e.1
        · simp [he]
        · rw [List.find?_cons_of_neg (by simpa using fun h => he h.symm)]
          simp [he]
    by_cases hp : e.1 ∈ pres
    · obtain ⟨d', hd', hspec⟩ := ih fun t => if t = e.1 then some (toBc e.2) else d t
      refine ⟨d', ?_, key _ (fun t _ => rfl) d' hspec⟩
      simp only [List.length_cons, List.cons_append, surfaceToBc, bind, Option.bind, h0, h2, hp, if_true]
      exact hd'
    · obtain ⟨d', hd', hspec⟩ := ih d
      refine ⟨d', ?_, key d (fun t ht => ?_) d' hspec⟩
      · simp only [List.length_cons, List.cons_append, surfaceToBc, bind, Option.bind, h0, hp, if_false]
        exact hd'
      · rw [if_neg]; rintro rfl; exact hp ht

theorem mapM_eq_some {α β : Type} {f : α → Option β} {g : α → β} {l : List α} (h : ∀ a ∈ l, f a = some (g a)) :
    l.mapM f = some (l.map g) := by
  induction l with
  | nil => rfl
  | cons a l ih =>
    rw [List.mapM_cons, h a List.mem_cons_self, ih fun b hb => h b (List.mem_cons_of_mem _ hb)]
    rfl

theorem mapM_none {α β : Type} {f : α → Option β} {l : List α} {a : α} (ha : a ∈ l) (h : f a = none) : l.mapM f = none := by
  induction l with
  | nil => cases ha
  | cons b l ih =>
    rw [List.mapM_cons]
    rcases List.mem_cons.mp ha with rfl | ha
    · rw [h]; rfl
    · rw [ih ha]
      cases f b <;> rfl

theorem mapM_congr {α β : Type} {f g : α → Option β} {l : List α} (h : ∀ a ∈ l, f a = g a) : l.mapM f = l.mapM g := by
  induction l with
  | nil => rfl
  | cons a l ih =>
    rw [List.mapM_cons, List.mapM_cons, h a List.mem_cons_self, ih fun b hb => h b (List.mem_cons_of_mem _ hb)]

theorem mapM_cons_congr {α β γ : Type} {f : α → Option γ} {g : β → Option γ} {a : α} {b : β} {l : List α} {m : List β}
    (h1 : f a = g b) (h2 : l.mapM f = m.mapM g) : (a :: l).mapM f = (b :: m).mapM g := by
  rw [List.mapM_cons, List.mapM_cons, h1, h2]

theorem present_mem {parse : Tok → Option ℤ} {p : List (List Tok)} (h : ∀ s ∈ p.flatten, ∃ n, 0 < n ∧ parse s = some n) :
    present parse p = some p.flatten := by
  unfold present
  dsimp only
  rw [mapM_eq_some (g := fun _ => true) (l := p.flatten) (f := fun s => (parse s).map fun n => decide (n > 0)) (fun s hs => by
    obtain ⟨n, hn, h⟩ := h s hs
    simp [h, hn])]
  simp only [bind, Option.bind]
  congr 1
  generalize p.flatten = l
  induction l with
  | nil => rfl
  | cons a l ih => simpa using ih

/-- one line of the connectivity file with the labels put in -/
theorem connLine_eq {l : Line} {f : ℕ → Tok} (hlen : 27 ≤ l.length) (hne : ∀ j < 6, f j ≠ []) :
    ∃ r, connLine (six f) l = some r ∧ (∀ j < 6, r[4 * j]? = some (f j)) ∧
      ∀ i < 24, i % 4 ≠ 0 → r[i]? = l[i + 2]? := by
  have set_ok : ∀ (l : Line) (i : ℕ) (v : Tok), i < l.length → setAt l i v = some (l.set i v) := fun l i v h => by
    unfold setAt; rw [if_pos h]
  refine ⟨(((((((l.set 2 (f 0)).set 6 (f 1)).set 10 (f 2)).set 14 (f 3)).set 18 (f 4)).set 22 (f 5)).drop 2).dropLast, ?_, ?_, ?_⟩
  · unfold connLine six
    simp only [List.foldlM_cons, List.foldlM_nil, bind, Option.bind]
    simp only [List.getElem?_cons_zero, List.getElem?_cons_succ, hne 0 (by omega), hne 1 (by omega), hne 2 (by omega),
      hne 3 (by omega), hne 4 (by omega), hne 5 (by omega), if_false]
    norm_num
    rw [set_ok _ _ _ (by omega)]; dsimp only
    rw [set_ok _ _ _ (by simp; omega)]; dsimp only
    rw [set_ok _ _ _ (by simp; omega)]; dsimp only
    rw [set_ok _ _ _ (by simp; omega)]; dsimp only
    rw [set_ok _ _ _ (by simp; omega)]; dsimp only
    rw [set_ok _ _ _ (by simp; omega)]
  · intro j hj
    rw [List.getElem?_dropLast, if_pos (by simp; omega), List.getElem?_drop]
    simp only [List.getElem?_set, List.length_set]
    have : j = 0 ∨ j = 1 ∨ j = 2 ∨ j = 3 ∨ j = 4 ∨ j = 5 := by omega
    rcases this with rfl | rfl | rfl | rfl | rfl | rfl <;> simp <;> omega
  · intro i hi hm
    rw [List.getElem?_dropLast, if_pos (by simp; omega), List.getElem?_drop]
    simp only [List.getElem?_set, List.length_set]
    rw [if_neg (by omega), if_neg (by omega), if_neg (by omega), if_neg (by omega), if_neg (by omega), if_neg (by omega)]
    congr 1; omega

theorem face_eq {parse : Tok → Option ℤ} {fs : Fams} {r : Line} {j : ℕ} (hj : j < 6) {lab nb ori : Tok}
    (h0 : r[4 * j]? = some lab) (h2 : r[4 * j + 2]? = some nb) (h3 : r[4 * j + 3]? = some ori) :
    face parse fs r (j + 1) = (do
      let (fam, t, p) ← faceBc fs lab
      let n ← parse nb
      some ⟨fam, t, if n = 0 then none else some (n - 1), if '0' ∈ ori then none else some ori, p⟩) := by
  unfold face
  have e0 : ((r.drop ((j + 1 - 1) * 4)).take 4)[0]? = some lab := by
    rw [List.getElem?_take_of_lt (by omega), List.getElem?_drop, ← h0]; congr 1; omega
  have e2 : ((r.drop ((j + 1 - 1) * 4)).take 4)[2]? = some nb := by
    rw [List.getElem?_take_of_lt (by omega), List.getElem?_drop, ← h2]; congr 1; omega
  have e3 : ((r.drop ((j + 1 - 1) * 4)).take 4)[3]? = some ori := by
    rw [List.getElem?_take_of_lt (by omega), List.getElem?_drop, ← h3]; congr 1; omega
  simp only [e0, e2, e3, bind, Option.bind]

/-- the lines of the connectivity file, block by block -/
theorem connLines_eq {parse : Tok → Option ℤ} {fs : Fams} {lab : BlkD → ℕ → Tok} {lines : List Line} {bs : List BlkD} (rest : List Line)
    (h : List.Forall₂ (fun (l : Line) (b : BlkD) => 27 ≤ l.length ∧ ∀ j < 6, l[4 + 4 * j]? = some (b.nb j) ∧ l[5 + 4 * j]? = some (b.ori j))
      lines bs) (hne : ∀ b ∈ bs, ∀ j < 6, lab b j ≠ []) :
    ∃ rs, connLines bs.length (bs.map fun b => six (lab b)) (lines ++ rest) = some rs ∧
      rs.mapM (fun l => [1, 2, 3, 4, 5, 6].mapM (face parse fs l)) = bs.mapM fun b => [0, 1, 2, 3, 4, 5].mapM fun j => (do
        let (fam, t, p) ← faceBc fs (lab b j)
        let n ← parse (b.nb j)
        some ⟨fam, t, if n = 0 then none else some (n - 1), if '0' ∈ b.ori j then none else some (b.ori j), p⟩) := by
  induction h with
  | nil => exact ⟨[], rfl, rfl⟩
  | @cons l b lines bs hl _ ih =>
    obtain ⟨rs, h1, h2⟩ := ih fun b hb => hne b (List.mem_cons_of_mem _ hb)
    obtain ⟨r, hr, r0, r1⟩ := connLine_eq hl.1 (hne b List.mem_cons_self)
    refine ⟨r :: rs, ?_, ?_⟩
    · simp only [List.length_cons, List.map_cons, List.cons_append, connLines, bind, Option.bind, hr, h1]
    · have h2' := h2
      have : [1, 2, 3, 4, 5, 6].mapM (face parse fs r) = [0, 1, 2, 3, 4, 5].mapM fun j => (do
          let (fam, t, p) ← faceBc fs (lab b j)
          let n ← parse (b.nb j)
          some ⟨fam, t, if n = 0 then none else some (n - 1), if '0' ∈ b.ori j then none else some (b.ori j), p⟩) := by
        have hf : ∀ j < 6, face parse fs r (j + 1) = (do
            let (fam, t, p) ← faceBc fs (lab b j)
            let n ← parse (b.nb j)
            some ⟨fam, t, if n = 0 then none else some (n - 1), if '0' ∈ b.ori j then none else some (b.ori j), p⟩) := by
          intro j hj
          refine face_eq hj (r0 j hj) ?_ ?_
          · rw [r1 (4 * j + 2) (by omega) (by omega), ← (hl.2 j hj).1]; congr 1; omega
          · rw [r1 (4 * j + 3) (by omega) (by omega), ← (hl.2 j hj).2]; congr 1; omega
        rw [show [1, 2, 3, 4, 5, 6] = [0, 1, 2, 3, 4, 5].map (· + 1) from rfl, List.mapM_map]
        exact mapM_congr fun j hj => hf j (by simp at hj; omega)
      exact mapM_cons_congr this h2'

/-- a user's name that `strip` leaves alone -/
def Clean (name : Tok) : Prop := ∀ c ∈ "pdc:".toList, name.head? ≠ some c ∧ name.getLast? ≠ some c

theorem strip_clean {name : Tok} (h : Clean name) : strip name = name := by
  unfold strip
  have aux : ∀ l : Tok, (∀ c ∈ "pdc:".toList, l.head? ≠ some c) → l.dropWhile (fun c => decide (c ∈ "pdc:".toList)) = l := by
    intro l hl
    cases l with
    | nil => rfl
    | cons a l =>
      rw [List.dropWhile_cons_of_neg]
      intro ha
      exact hl a (by simpa using ha) rfl
  dsimp only
  rw [aux name fun c hc => (h c hc).1, aux name.reverse fun c hc => by rw [List.head?_reverse]; exact (h c hc).2, List.reverse_reverse]

theorem strip_prefix (l : Tok) : strip ("pdc:".toList ++ l) = strip l := by
  unfold strip
  dsimp only
  rw [List.dropWhile_append_of_pos (by simp)]

/-- labels whose name survives `strip` -/
def CleanLabel (label : Tok) : Prop :=
  label = "pdc:INTERBLK".toList ∨ label = "pdc:WALL".toList ∨ label = "pdc:user8".toList ∨
  ∃ name, Clean name ∧ label = "pdc:".toList ++ name

theorem toBc_clean {label : Tok} (h : CleanLabel label) : toBc label = nameOf label := by
  unfold toBc nameOf
  split
  · rfl
  split
  · rfl
  split
  · rfl
  rcases h with h | h | h | ⟨name, hc, rfl⟩
  · contradiction
  · contradiction
  · contradiction
  · rw [strip_prefix, strip_clean hc, if_pos]
    · rfl
    · simp

/-- **C98** (connectivity): from the files of any mesh whose surface numbers are positive and whose labels are free of the defect
    below, every face of the grid gets the neighbour and orientation of the connectivity file and the family and type its label
    names; and the conversion fails exactly if one of them is unknown -/
theorem C98_faces_partial (parse : Tok → Option ℤ) (m : Mesh) (fs : Fams) {pty conn : List Line} (hp : PtyFile parse m pty)
    (hc : ConnFile parse m conn) (hpos : ∀ b ∈ m.blocks, ∀ j < 6, ∃ n, 0 < n ∧ parse (b.surf j) = some n)
    (hclean : ∀ e ∈ m.props, CleanLabel e.2) :
    convert parse pty conn fs = m.blocks.mapM fun b => [0, 1, 2, 3, 4, 5].mapM (wanted parse fs m b) := by
  obtain ⟨c, hd, body, fill, th, table, rest, rfl, hc1, hd1, hn1, hbody, hfill, ht1, ht2, hn2, htab⟩ := hp
  obtain ⟨c', hd', lines, rest', rfl, hc1', hd1', hn1', hlines⟩ := hc
  unfold convert
  rw [count_eq hc1 hd1 hn1]
  simp only [bind, Option.bind]
  rw [blkPtys_eq hbody]
  dsimp only
  have hmem : ∀ s ∈ (m.blocks.map fun b => six b.surf).flatten, ∃ b ∈ m.blocks, ∃ j < 6, s = b.surf j := by
    intro s hs
    rw [List.mem_flatten] at hs
    obtain ⟨l, hl, hs⟩ := hs
    rw [List.mem_map] at hl
    obtain ⟨b, hb, rfl⟩ := hl
    simp only [six, List.mem_cons, List.not_mem_nil, or_false] at hs
    rcases hs with h | h | h | h | h | h
    · exact ⟨b, hb, 0, by omega, h⟩
    · exact ⟨b, hb, 1, by omega, h⟩
    · exact ⟨b, hb, 2, by omega, h⟩
    · exact ⟨b, hb, 3, by omega, h⟩
    · exact ⟨b, hb, 4, by omega, h⟩
    · exact ⟨b, hb, 5, by omega, h⟩
  have hmem' : ∀ b ∈ m.blocks, ∀ j < 6, b.surf j ∈ (m.blocks.map fun b => six b.surf).flatten := by
    intro b hb j hj
    rw [List.mem_flatten]
    refine ⟨_, List.mem_map_of_mem hb, ?_⟩
    have : j = 0 ∨ j = 1 ∨ j = 2 ∨ j = 3 ∨ j = 4 ∨ j = 5 := by omega
    rcases this with rfl | rfl | rfl | rfl | rfl | rfl <;> simp [six]
  rw [present_mem (fun s hs => by
    obtain ⟨b, hb, j, hj, rfl⟩ := hmem s hs
    exact hpos b hb j hj)]
  dsimp only
  rw [table2D_eq hfill ht1 ht2 hn2]
  dsimp only
  obtain ⟨d, hd2, hspec⟩ := surfaceToBc_eq (pres := (m.blocks.map fun b => six b.surf).flatten) rest htab fun _ => none
  rw [hd2]
  dsimp only
  have hdl : ∀ b ∈ m.blocks, ∀ j < 6, d (b.surf j) = (m.label (b.surf j)).map nameOf := by
    intro b hb j hj
    rw [hspec _ (hmem' b hb j hj)]
    unfold Mesh.label
    cases hf : m.props.reverse.find? fun e => decide (e.1 = b.surf j) with
    | none => rfl
    | some e =>
      have : e ∈ m.props := by simpa using List.mem_of_find?_eq_some hf
      simp [toBc_clean (hclean e this)]
  rw [count_eq hc1' hd1' hn1']
  dsimp only
  by_cases hall : ∀ b ∈ m.blocks, ∀ j < 6, ∃ lab, m.label (b.surf j) = some lab ∧ nameOf lab ≠ []
  · -- every label is known
    have hlab : pgBlkPtys d (m.blocks.map fun b => six b.surf) =
        some (m.blocks.map fun b => six fun j => (d (b.surf j)).getD []) := by
      unfold pgBlkPtys
      rw [List.mapM_map]
      refine (mapM_eq_some (g := fun b : BlkD => six fun j => (d (b.surf j)).getD []) fun b hb => ?_)
      have g : ∀ j < 6, d (b.surf j) = some ((d (b.surf j)).getD []) := by
        intro j hj
        obtain ⟨lab, h1, _⟩ := hall b hb j hj
        rw [hdl b hb j hj, h1]; rfl
      have g0 := g 0 (by omega)
      have g1 := g 1 (by omega)
      have g2 := g 2 (by omega)
      have g3 := g 3 (by omega)
      have g4 := g 4 (by omega)
      have g5 := g 5 (by omega)
      simp only [Function.comp, six, List.mapM_cons, List.mapM_nil]
      rw [g0, g1, g2, g3, g4, g5]
      rfl
    rw [hlab]
    dsimp only
    obtain ⟨rs, h1, h2⟩ := connLines_eq (parse := parse) (fs := fs) (lab := fun b j => (d (b.surf j)).getD []) rest' hlines (by
      intro b hb j hj
      obtain ⟨lab, h1, h2⟩ := hall b hb j hj
      rw [hdl b hb j hj, h1]
      exact h2)
    rw [h1]
    dsimp only
    refine h2.trans (mapM_congr fun b hb => mapM_congr fun j hj => ?_)
    have hj6 : j < 6 := by simp at hj; omega
    obtain ⟨lab, h1, h2⟩ := hall b hb j hj6
    unfold wanted
    rw [hdl b hb j hj6, h1]
    simp only [Option.map_some, Option.getD_some, bind, Option.bind, if_neg h2]
  · -- some label is not
    have hbad : ∃ b ∈ m.blocks, ∃ j < 6, m.label (b.surf j) = none ∨ ∃ lab, m.label (b.surf j) = some lab ∧ nameOf lab = [] := by
      by_contra hcon
      apply hall
      intro b hb j hj
      cases hl : m.label (b.surf j) with
      | none => exact absurd ⟨b, hb, j, hj, Or.inl hl⟩ hcon
      | some lab =>
        refine ⟨lab, rfl, fun h => hcon ⟨b, hb, j, hj, Or.inr ⟨lab, hl, h⟩⟩⟩
    obtain ⟨b, hb, j, hj, hbj⟩ := hbad
    have hr : (m.blocks.mapM fun b => [0, 1, 2, 3, 4, 5].mapM (wanted parse fs m b)) = none := by
      refine mapM_none hb (mapM_none (a := j) (by simp; omega) ?_)
      unfold wanted
      rcases hbj with h | ⟨lab, h, h'⟩
      · rw [h]; rfl
      · rw [h]; simp [h']
    rw [hr]
    cases hl : pgBlkPtys d (m.blocks.map fun b => six b.surf) with
    | none => rfl
    | some labels =>
      dsimp only
      have hlabels : labels = m.blocks.map fun b => six fun j => (d (b.surf j)).getD [] := by
        unfold pgBlkPtys at hl
        rw [List.mapM_map] at hl
        have hsome : ∀ b ∈ m.blocks, ∀ j < 6, ∃ x, d (b.surf j) = some x := by
          intro b hb j hj
          cases hx : d (b.surf j) with
          | some x => exact ⟨x, rfl⟩
          | none =>
            have : m.blocks.mapM ((fun b => List.mapM d b) ∘ fun b => six b.surf) = none := by
              refine mapM_none hb (mapM_none (a := b.surf j) ?_ hx)
              have : j = 0 ∨ j = 1 ∨ j = 2 ∨ j = 3 ∨ j = 4 ∨ j = 5 := by omega
              rcases this with rfl | rfl | rfl | rfl | rfl | rfl <;> simp [six]
            rw [this] at hl; cases hl
        rw [mapM_eq_some (g := fun b : BlkD => six fun j => (d (b.surf j)).getD []) (fun b hb => by
          have g : ∀ j < 6, d (b.surf j) = some ((d (b.surf j)).getD []) := by
            intro j hj
            obtain ⟨x, h1⟩ := hsome b hb j hj
            rw [h1]; rfl
          have g0 := g 0 (by omega)
          have g1 := g 1 (by omega)
          have g2 := g 2 (by omega)
          have g3 := g 3 (by omega)
          have g4 := g 4 (by omega)
          have g5 := g 5 (by omega)
          simp only [Function.comp, six, List.mapM_cons, List.mapM_nil]
          rw [g0, g1, g2, g3, g4, g5]
          rfl)] at hl
        exact (Option.some.inj hl).symm
      -- an empty label stops the second reading
      have hempty : (d (b.surf j)).getD [] = [] := by
        rw [hdl b hb j hj]
        rcases hbj with h | ⟨lab, h, h'⟩
        · rw [h]; rfl
        · rw [h]; exact h'
      have : connLines m.blocks.length labels (lines ++ rest') = none := by
        rw [hlabels]
        have general : ∀ bs : List BlkD, b ∈ bs → List.Forall₂ (fun (l : Line) (b : BlkD) => 27 ≤ l.length ∧ ∀ j < 6,
            l[4 + 4 * j]? = some (b.nb j) ∧ l[5 + 4 * j]? = some (b.ori j)) lines bs →
            connLines bs.length (bs.map fun b => six fun j => (d (b.surf j)).getD []) (lines ++ rest') = none := ?_
        · exact general _ hb hlines
        clear hlines hb
        intro bs hb hlines
        induction hlines with
        | nil => cases hb
        | @cons l b' lines bs hl _ ih =>
          simp only [List.length_cons, List.map_cons, List.cons_append, connLines, bind, Option.bind]
          rcases List.mem_cons.mp hb with rfl | hb
          · have : connLine (six fun j => (d (b.surf j)).getD []) l = none := by
              unfold connLine six
              have : ∀ k : ℕ, k < 6 → ∀ (g : ℕ → Tok), g k = [] → ∀ l, ([0, 1, 2, 3, 4, 5].foldlM (fun l j => (do
                  let s ← [g 0, g 1, g 2, g 3, g 4, g 5][j]?
                  if s = [] then none else setAt l (2 + j * 4) s : Option Line)) l) = none := by
                intro k hk g hg l
                have set_cases : ∀ (s : Tok) (l : Line) (i : ℕ) , (if s = [] then none else setAt l i s) = none ∨
                    ∃ l', (if s = [] then none else setAt l i s) = some l' := by
                  intro s l i
                  cases h : (if s = [] then none else setAt l i s) with
                  | none => exact Or.inl rfl
                  | some x => exact Or.inr ⟨x, rfl⟩
                simp only [List.foldlM_cons, List.foldlM_nil, bind, Option.bind, List.getElem?_cons_zero, List.getElem?_cons_succ]
                have : k = 0 ∨ k = 1 ∨ k = 2 ∨ k = 3 ∨ k = 4 ∨ k = 5 := by omega
                rcases this with rfl | rfl | rfl | rfl | rfl | rfl
                · simp [hg]
                · rcases set_cases (g 0) l (2 + 0 * 4) with h | ⟨l1, h⟩ <;> rw [h] <;> simp [hg]
                · rcases set_cases (g 0) l (2 + 0 * 4) with h | ⟨l1, h⟩ <;> rw [h] <;> dsimp only
                  rcases set_cases (g 1) l1 (2 + 1 * 4) with h | ⟨l2, h⟩ <;> rw [h] <;> simp [hg]
                · rcases set_cases (g 0) l (2 + 0 * 4) with h | ⟨l1, h⟩ <;> rw [h] <;> dsimp only
                  rcases set_cases (g 1) l1 (2 + 1 * 4) with h | ⟨l2, h⟩ <;> rw [h] <;> dsimp only
                  rcases set_cases (g 2) l2 (2 + 2 * 4) with h | ⟨l3, h⟩ <;> rw [h] <;> simp [hg]
                · rcases set_cases (g 0) l (2 + 0 * 4) with h | ⟨l1, h⟩ <;> rw [h] <;> dsimp only
                  rcases set_cases (g 1) l1 (2 + 1 * 4) with h | ⟨l2, h⟩ <;> rw [h] <;> dsimp only
                  rcases set_cases (g 2) l2 (2 + 2 * 4) with h | ⟨l3, h⟩ <;> rw [h] <;> dsimp only
                  rcases set_cases (g 3) l3 (2 + 3 * 4) with h | ⟨l4, h⟩ <;> rw [h] <;> simp [hg]
                · rcases set_cases (g 0) l (2 + 0 * 4) with h | ⟨l1, h⟩ <;> rw [h] <;> dsimp only
                  rcases set_cases (g 1) l1 (2 + 1 * 4) with h | ⟨l2, h⟩ <;> rw [h] <;> dsimp only
                  rcases set_cases (g 2) l2 (2 + 2 * 4) with h | ⟨l3, h⟩ <;> rw [h] <;> dsimp only
                  rcases set_cases (g 3) l3 (2 + 3 * 4) with h | ⟨l4, h⟩ <;> rw [h] <;> dsimp only
                  rcases set_cases (g 4) l4 (2 + 4 * 4) with h | ⟨l5, h⟩ <;> rw [h] <;> simp [hg]
              simp only [bind, Option.bind] at this ⊢
              rw [this j hj (fun j => (d (b.surf j)).getD []) hempty l]
            rw [this]
          · rw [ih hb]
            cases connLine (six fun j => (d (b'.surf j)).getD []) l <;> rfl
      rw [this]

end PG.Util.GridPro
