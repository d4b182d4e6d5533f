import Verif.Util.GridPro
import Verif.Util.VerifyRecip
import Mathlib.Algebra.BigOperators.Intervals
import Mathlib.Data.Real.Basic
/-!
C98, continued: node coordinates, Low/High of periodic faces and the final check of `utilities/gridPro2pg.py`.
-/
namespace PG.Util.GridPro
open PG PG.IO.Conn

/-! ### coordinates -/

/-- a line of the ASCII block file: anything that is not three integers, the dimensions of a block, or a point -/
inductive Row
  | text
  | dims (ni nj nk : ℕ)
  | pt (p : V3)

/-- a block as read: dimensions and nodes -/
structure Nodes where
  ni : ℕ
  nj : ℕ
  nk : ℕ
  x : List (List (List V3))

/-- lines 206-214: the first line of integers -/
def start : List Row → Option (List Row)
  | [] => none
  | .dims a b c :: r => some (.dims a b c :: r)
  | _ :: r => start r

/-- a loop that reads `n` things one after the other -/
def times {α : Type} (read : List Row → Option (α × List Row)) : ℕ → List Row → Option (List α × List Row)
  | 0, f => some ([], f)
  | n+1, f => do
    let (a, f1) ← read f
    let (as, f2) ← times read n f1
    some (a :: as, f2)

/-- lines 247-250: one point, times the unit -/
def readPt (factor : ℝ) : List Row → Option (V3 × List Row)
  | .pt p :: r => some (⟨p.x * factor, p.y * factor, p.z * factor⟩, r)
  | _ => none

/-- lines 218-226, 240-252: one block of the ASCII file; `i` is the outermost loop -/
def asciiBlk (factor : ℝ) : List Row → Option (Nodes × List Row)
  | .dims ni nj nk :: r => do
    let (x, r') ← times (times (times (readPt factor) nk) nj) ni r
    some (⟨ni, nj, nk, x⟩, r')
  | _ => none

/-- lines 206-254, `nblks` blocks -/
def asciiFile (factor : ℝ) (nblks : ℕ) (f : List Row) : Option (List Nodes) := do
  let f ← start f
  let (bs, _) ← times (asciiBlk factor) nblks f
  some bs

/-- lines 228-236: one block of the binary file, from its doubles: `frombuffer(...).reshape((ni*nj*nk, 3))`, then each column
    reshaped to the shape of the block (last index fastest) -/
def binaryAt (factor : ℝ) (nj nk : ℕ) (flat : List ℝ) (i j k : ℕ) : Option V3 := do
  let n := (i * nj + j) * nk + k
  some ⟨(← flat[3 * n + 0]?) * factor, (← flat[3 * n + 1]?) * factor, (← flat[3 * n + 2]?) * factor⟩

/-! specification: the file of a list of blocks -/

/-- a block of the mesh -/
structure Blk where
  ni : ℕ
  nj : ℕ
  nk : ℕ
  x : ℕ → ℕ → ℕ → V3

/-- GridPro's order: the last index runs fastest -/
def Blk.points (b : Blk) : List V3 :=
  (List.range b.ni).flatMap fun i => (List.range b.nj).flatMap fun j => (List.range b.nk).map fun k => b.x i j k

def Blk.rows (b : Blk) : List Row := .dims b.ni b.nj b.nk :: b.points.map .pt

def Blk.doubles (b : Blk) : List ℝ := b.points.flatMap fun p => [p.x, p.y, p.z]

/-- the node (i, j, k) read -/
def Nodes.at (g : Nodes) (i j k : ℕ) : Option V3 := do (← (← g.x[i]?)[j]?)[k]?

theorem times_eq {α β : Type} {read : List Row → Option (α × List Row)} {render : β → List Row} {val : β → α}
    (h : ∀ b rest, read (render b ++ rest) = some (val b, rest)) (l : List β) (rest : List Row) :
    times read l.length (l.flatMap render ++ rest) = some (l.map val, rest) := by
  induction l with
  | nil => rfl
  | cons b l ih =>
    rw [List.flatMap_cons, List.append_assoc, List.length_cons]
    unfold times
    rw [h]
    simp only [bind, Option.bind]
    rw [ih]
    rfl

/-- times the unit -/
def scaled (factor : ℝ) (p : V3) : V3 := ⟨p.x * factor, p.y * factor, p.z * factor⟩

theorem asciiBlk_eq (factor : ℝ) (b : Blk) (rest : List Row) :
    asciiBlk factor (b.rows ++ rest) = some (⟨b.ni, b.nj, b.nk, (List.range b.ni).map fun i => (List.range b.nj).map fun j =>
      (List.range b.nk).map fun k => scaled factor (b.x i j k)⟩, rest) := by
  have e : b.rows = .dims b.ni b.nj b.nk :: (List.range b.ni).flatMap fun i => (List.range b.nj).flatMap fun j =>
      (List.range b.nk).flatMap fun k => [Row.pt (b.x i j k)] := by
    unfold Blk.rows Blk.points
    rw [List.map_flatMap]
    congr 1
    congr 1
    funext i
    rw [List.map_flatMap]
    congr 1
    funext j
    rw [List.map_map]
    exact (List.flatMap_singleton' _ |>.symm.trans (by rw [List.flatMap_map]; rfl))
  rw [e]
  simp only [asciiBlk, List.cons_append, bind, Option.bind]
  have h1 : ∀ i j, ∀ rest, times (readPt factor) b.nk (((List.range b.nk).flatMap fun k => [Row.pt (b.x i j k)]) ++ rest) =
      some ((List.range b.nk).map fun k => scaled factor (b.x i j k), rest) := by
    intro i j rest
    have := times_eq (read := readPt factor) (render := fun k => [Row.pt (b.x i j k)]) (val := fun k => scaled factor (b.x i j k))
      (fun k rest => rfl) (List.range b.nk) rest
    rwa [List.length_range] at this
  have h2 : ∀ i, ∀ rest, times (times (readPt factor) b.nk) b.nj (((List.range b.nj).flatMap fun j => (List.range b.nk).flatMap fun k =>
      [Row.pt (b.x i j k)]) ++ rest) = some ((List.range b.nj).map fun j => (List.range b.nk).map fun k => scaled factor (b.x i j k), rest) := by
    intro i rest
    have := times_eq (read := times (readPt factor) b.nk) (val := fun j => (List.range b.nk).map fun k => scaled factor (b.x i j k))
      (fun j rest => h1 i j rest) (List.range b.nj) rest
    rwa [List.length_range] at this
  have := times_eq (read := times (times (readPt factor) b.nk) b.nj)
    (val := fun i => (List.range b.nj).map fun j => (List.range b.nk).map fun k => scaled factor (b.x i j k))
    (fun i rest => h2 i rest) (List.range b.ni) rest
  rw [List.length_range] at this
  rw [this]

/-- **C98** (coordinates): reading the ASCII file of any list of blocks, behind any heading, gives for each block its dimensions and
    every node in its place, times the unit -/
theorem C98_coordinates (factor : ℝ) (head : List Row) (hh : ∀ r ∈ head, ∀ a b c, r ≠ .dims a b c) (bs : List GridPro.Blk) (hne : bs ≠ []) :
    ∃ gs : List Nodes, asciiFile factor bs.length (head ++ bs.flatMap Blk.rows) = some gs ∧ gs.length = bs.length ∧
      ∀ (n : ℕ) (b : GridPro.Blk), bs[n]? = some b → ∃ g : Nodes, gs[n]? = some g ∧ g.ni = b.ni ∧ g.nj = b.nj ∧ g.nk = b.nk ∧
        ∀ i j k, i < b.ni → j < b.nj → k < b.nk → g.at i j k = some (scaled factor (b.x i j k)) := by
  have hs : start (head ++ bs.flatMap Blk.rows) = some (bs.flatMap Blk.rows) := by
    induction head with
    | nil =>
      cases bs with
      | nil => exact absurd rfl hne
      | cons b bs => rfl
    | cons r head ih =>
      have : start (r :: (head ++ bs.flatMap Blk.rows)) = start (head ++ bs.flatMap Blk.rows) := by
        cases r with
        | dims a b c => exact absurd rfl (hh _ List.mem_cons_self a b c)
        | text => rfl
        | pt p => rfl
      rw [List.cons_append, this]
      exact ih fun r hr => hh r (List.mem_cons_of_mem _ hr)
  have := times_eq (read := asciiBlk factor) (render := Blk.rows) (fun b rest => asciiBlk_eq factor b rest) bs []
  rw [List.append_nil] at this
  let val : GridPro.Blk → Nodes := fun b => ⟨b.ni, b.nj, b.nk, (List.range b.ni).map fun i => (List.range b.nj).map fun j =>
      (List.range b.nk).map fun k => scaled factor (b.x i j k)⟩
  refine ⟨bs.map val, ?_, ?_, fun n b hb => ⟨val b, ?_, ?_, ?_, ?_, ?_⟩⟩
  · unfold asciiFile
    rw [hs]
    simp only [bind, Option.bind]
    rw [this]
  · simp
  · rw [List.getElem?_map, hb]; rfl
  · rfl
  · rfl
  · rfl
  · intro i j k hi hj hk
    simp [Nodes.at, val, hi, hj, hk]

theorem getElem?_flatMap {α β : Type} {f : α → List β} {m : ℕ} (l : List α) (hf : ∀ a ∈ l, (f a).length = m) {r : ℕ} (hr : r < m) (i : ℕ) :
    (l.flatMap f)[i * m + r]? = (l[i]?).bind fun a => (f a)[r]? := by
  induction l generalizing i with
  | nil => simp
  | cons a l ih =>
    rw [List.flatMap_cons]
    have ha := hf a List.mem_cons_self
    cases i with
    | zero =>
      rw [List.getElem?_append_left (by rw [ha]; omega)]
      simp
    | succ i =>
      rw [List.getElem?_append_right (by rw [ha, Nat.add_mul]; omega), ha]
      have : (i + 1) * m + r - m = i * m + r := by rw [Nat.add_mul]; omega
      rw [this, ih (fun b hb => hf b (List.mem_cons_of_mem _ hb))]
      simp

/-- **C98** (binary files): the binary file of a block gives the same nodes -/
theorem C98_binary (factor : ℝ) (b : Blk) (i j k : ℕ) (hi : i < b.ni) (hj : j < b.nj) (hk : k < b.nk) :
    binaryAt factor b.nj b.nk b.doubles i j k = some (scaled factor (b.x i j k)) := by
  have len : ∀ i, ((List.range b.nj).flatMap fun j => (List.range b.nk).map fun k => b.x i j k).length = b.nj * b.nk := by
    intro i; rw [List.length_flatMap]; simp
  have hp : b.points[(i * b.nj + j) * b.nk + k]? = some (b.x i j k) := by
    have e : (i * b.nj + j) * b.nk + k = i * (b.nj * b.nk) + (j * b.nk + k) := by ring
    have hlt : j * b.nk + k < b.nj * b.nk := by
      calc j * b.nk + k < j * b.nk + b.nk := by omega
        _ = (j + 1) * b.nk := by ring
        _ ≤ b.nj * b.nk := Nat.mul_le_mul_right _ hj
    unfold Blk.points
    rw [e, getElem?_flatMap _ (fun i _ => len i) hlt, List.getElem?_range hi]
    simp only [Option.bind_some]
    rw [getElem?_flatMap (m := b.nk) _ (fun j _ => by simp) hk, List.getElem?_range hj]
    simp [hk]
  have hd : ∀ c < 3, b.doubles[3 * ((i * b.nj + j) * b.nk + k) + c]? = [(b.x i j k).x, (b.x i j k).y, (b.x i j k).z][c]? := by
    intro c hc
    unfold Blk.doubles
    rw [Nat.mul_comm, getElem?_flatMap (m := 3) _ (fun p _ => rfl) hc, hp]
    rfl
  unfold binaryAt
  dsimp only
  rw [hd 0 (by omega), hd 1 (by omega), hd 2 (by omega)]
  rfl

/-- two blocks are read -/
example : ∃ gs, asciiFile 1 2 ([.text] ++ [(⟨2, 2, 2, fun i j k => ⟨i, j, k⟩⟩ : Blk), ⟨2, 3, 2, fun i j k => ⟨i, j, k⟩⟩].flatMap Blk.rows) = some gs := by
  obtain ⟨gs, h, _⟩ := C98_coordinates 1 [.text] (by intro r hr a b c h; simp at hr; rw [hr] at h; cases h)
    [⟨2, 2, 2, fun i j k => ⟨i, j, k⟩⟩, ⟨2, 3, 2, fun i j k => ⟨i, j, k⟩⟩] (by simp)
  exact ⟨gs, h⟩

/-! ### periodic faces -/

/-- the mean of the nodes of a face, lines 265-266 -/
noncomputable def centre (f : A2) : V3 :=
  let s (c : V3 → ℝ) : ℝ := (∑ p ∈ Finset.range f.m, ∑ q ∈ Finset.range f.n, c (f.a p q)) / (f.m * f.n)
  ⟨s V3.x, s V3.y, s V3.z⟩

/-- `np.allclose(a, b)` with the default tolerances -/
def allclose (a b : V3) : Prop :=
  |a.x - b.x| ≤ 1/10^8 + 1/10^5 * |b.x| ∧ |a.y - b.y| ≤ 1/10^8 + 1/10^5 * |b.y| ∧ |a.z - b.z| ≤ 1/10^8 + 1/10^5 * |b.z|

open Classical in
/-- lines 258-289, one periodic face (type still Low): the final type; `none` is the ValueError -/
noncomputable def settle (f : VFace) (mine other : V3) : Option String :=
  if f.bcType = "periodicTransLow" then
    if allclose (mine + V3.smul f.span f.axis) other then some "periodicTransLow"
    else if allclose (mine - V3.smul f.span f.axis) other then some "periodicTransHigh" else none
  else if f.bcType = "periodicRotLow" then
    if allclose (f.rotUp mine) other then some "periodicRotLow"
    else if allclose (f.rotDown mine) other then some "periodicRotHigh" else none
  else none

/-- the same with the grid: neighbour block and face from the connectivity -/
noncomputable def settleFace (mb : List VBlk) (b : VBlk) (nf : ℕ) : Option String := do
  let f := b.face nf
  let b2 ← getBlock mb (← f.neighbor)
  let nf2 ← Topo.neighborNface nf (← f.ori)
  settle f (centre (extract b nf)) (centre (extract b2 nf2))

/-- **C98** (periodic faces): whatever type is chosen, the shift that belongs to it moves the centre of the face onto the centre of
    the face it is attached to, to the tolerance -/
theorem C98_periodic {mb : List VBlk} {b : VBlk} {nf : ℕ} {t : String} (h : settleFace mb b nf = some t) :
    ∃ n b2 o nf2, (b.face nf).neighbor = some n ∧ getBlock mb n = some b2 ∧ (b.face nf).ori = some o ∧
      Topo.neighborNface nf o = some nf2 ∧
      t ∈ ["periodicTransLow", "periodicTransHigh", "periodicRotLow", "periodicRotHigh"] ∧
      allclose (Util.shift { b.face nf with bcType := t } (centre (extract b nf))) (centre (extract b2 nf2)) := by
  unfold settleFace at h
  simp only [bind, Option.bind] at h
  cases hn : (b.face nf).neighbor with
  | none => rw [hn] at h; cases h
  | some n =>
  rw [hn] at h
  dsimp only at h
  cases hb : getBlock mb n with
  | none => rw [hb] at h; cases h
  | some b2 =>
  rw [hb] at h
  dsimp only at h
  cases ho : (b.face nf).ori with
  | none => rw [ho] at h; cases h
  | some o =>
  rw [ho] at h
  dsimp only at h
  cases hf : Topo.neighborNface nf o with
  | none => rw [hf] at h; cases h
  | some nf2 =>
  rw [hf] at h
  dsimp only at h
  refine ⟨n, b2, o, nf2, rfl, hb, rfl, hf, ?_⟩
  unfold settle at h
  split at h
  · split at h
    · cases h; rename_i hc; exact ⟨by simp, by simpa [Util.shift] using hc⟩
    · split at h
      · cases h; rename_i hc; exact ⟨by simp, by simpa [Util.shift] using hc⟩
      · cases h
  · split at h
    · split at h
      · cases h; rename_i hc; exact ⟨by simp, by simpa [Util.shift] using hc⟩
      · split at h
        · cases h; rename_i hc; exact ⟨by simp, by simpa [Util.shift] using hc⟩
        · cases h
    · cases h

theorem allclose_refl (a : V3) : allclose a a := by
  refine ⟨?_, ?_, ?_⟩ <;> rw [sub_self, abs_zero] <;> positivity

/-- **C98** (pairs): of two translationally periodic faces that lie exactly one span apart, the lower becomes Low and the upper High,
    unless twice the span is within the tolerance -/
theorem C98_pair {f g : VFace} (hf : f.bcType = "periodicTransLow") (hg : g.bcType = "periodicTransLow") (haxis : g.axis = f.axis)
    (hspan : g.span = f.span) {lo hi : V3} (he : hi = lo + V3.smul f.span f.axis)
    (hfar : ¬ allclose (lo + V3.smul (2 * f.span) f.axis) lo) :
    settle f lo hi = some "periodicTransLow" ∧ settle g hi lo = some "periodicTransHigh" := by
  constructor
  · unfold settle
    rw [if_pos hf, if_pos (by rw [← he]; exact allclose_refl _)]
  · unfold settle
    have e1 : hi + V3.smul g.span g.axis = lo + V3.smul (2 * f.span) f.axis := by
      rw [he, haxis, hspan]; ext <;> simp <;> ring
    have e2 : hi - V3.smul g.span g.axis = lo := by
      rw [he, haxis, hspan]; ext <;> simp
    rw [if_pos hg, e1, if_neg hfar, e2, if_pos (allclose_refl _)]

/-- the hypotheses are met by the faces of a unit cube -/
example : ¬ allclose ((⟨0, 0, 0⟩ : V3) + V3.smul (2 * 1) ⟨1, 0, 0⟩) ⟨0, 0, 0⟩ := by
  intro h
  have := h.1
  norm_num at this

/-! ### the end of the program -/

/-- lines 291-298: the result of the check is not looked at; only an exception prevents writing -/
def finish (check : Option Bool) (mb : List VBlk) : Option (List VBlk) :=
  match check with
  | some _ => some mb
  | none => none

/-- **C98** is violated: a grid with a left-handed block, which the checker rejects, is written all the same -/
theorem C98_unverified_violated : ∃ mb : List VBlk, Sized mb ∧ verify mb = some false ∧ finish (verify mb) mb = some mb := by
  refine ⟨[⟨0, 2, 2, 2, fun i j k => ⟨i, k, j⟩, fun _ => wallFace⟩], ?_, ?_⟩
  · intro b hb
    simp only [List.mem_cons, List.not_mem_nil, or_false] at hb
    subst hb
    exact ⟨le_refl _, le_refl _, le_refl _⟩
  have hc : ∀ nf, checkFace [⟨0, 2, 2, 2, fun i j k => ⟨i, k, j⟩, fun _ => wallFace⟩]
      ⟨0, 2, 2, 2, fun i j k => ⟨i, k, j⟩, fun _ => wallFace⟩ nf = some false := by
    intro nf
    unfold checkFace
    simp [wallFace, acceptedBcs, familyFree]
  have hl : leftHanded ⟨0, 2, 2, 2, fun i j k => ⟨i, k, j⟩, fun _ => wallFace⟩ = true := by
    unfold leftHanded
    simp [V3.dot]
  have : verify [⟨0, 2, 2, 2, fun i j k => ⟨i, k, j⟩, fun _ => wallFace⟩] = some false := by
    simp [verify, checkBlk, hc, hl]
  rw [this]
  exact ⟨rfl, rfl⟩

/-! ### the defects of the labels -/

/-- decimal digits, enough for the examples -/
def parseNat (t : Tok) : Option ℤ := if t ≠ [] ∧ t.all (·.isDigit) then some (t.foldl (fun a c => 10 * a + (c.toNat - 48)) 0) else none

def tok (s : String) : Tok := s.toList

/-- one block, all faces on surface 2 -/
def one : Mesh := ⟨[⟨fun _ => tok "2", fun _ => tok "0", fun _ => tok "000"⟩], [(tok "2", tok "pdc:dinlet")]⟩

def onePty : List Line :=
  [["#", "heading"].map tok, ["1", "blocks"].map tok,
   ["1", "a", "b", "c", "2", "d", "2", "d", "2", "d", "2", "d", "2", "d", "2"].map tok,
   ["1", "2D", "properties"].map tok, ["2", "x", "pdc:dinlet"].map tok]

def oneConn : List Line :=
  [["1", "blocks"].map tok,
   (["1", "B"] ++ ["L", "s", "0", "000"] ++ ["L", "s", "0", "000"] ++ ["L", "s", "0", "000"] ++ ["L", "s", "0", "000"] ++
     ["L", "s", "0", "000"] ++ ["L", "s", "0", "000"] ++ ["end"]).map tok]

/-- two families whose names differ by a letter of `pdc:` -/
def twoFams : Fams := [(tok "inlet", ⟨tok "supersonicInlet", none⟩), (tok "dinlet", ⟨tok "constantVelocitySubsonicInlet", none⟩)]

/-- the files are files of the mesh -/
theorem one_files : PtyFile parseNat one onePty ∧ ConnFile parseNat one oneConn := by
  constructor
  · refine ⟨[["#", "heading"].map tok], ["1", "blocks"].map tok,
      [["1", "a", "b", "c", "2", "d", "2", "d", "2", "d", "2", "d", "2", "d", "2"].map tok], [], ["1", "2D", "properties"].map tok,
      [["2", "x", "pdc:dinlet"].map tok], [], rfl, ?_, ⟨_, _, rfl, by decide⟩, by decide, ?_, by simp, by decide, by decide, by decide, ?_⟩
    · intro l hl; simp only [List.mem_cons, List.not_mem_nil, or_false] at hl; subst hl; exact ⟨_, _, rfl, by decide⟩
    · refine .block ⟨_, _, rfl, by decide⟩ ?_ .nil
      intro j hj
      have : j = 0 ∨ j = 1 ∨ j = 2 ∨ j = 3 ∨ j = 4 ∨ j = 5 := by omega
      rcases this with rfl | rfl | rfl | rfl | rfl | rfl <;> rfl
    · exact .cons ⟨rfl, rfl⟩ .nil
  · refine ⟨[], ["1", "blocks"].map tok, [_], [], rfl, by simp, ⟨_, _, rfl, by decide⟩, by decide, .cons ⟨by decide, ?_⟩ .nil⟩
    intro j hj
    have : j = 0 ∨ j = 1 ∨ j = 2 ∨ j = 3 ∨ j = 4 ∨ j = 5 := by omega
    rcases this with rfl | rfl | rfl | rfl | rfl | rfl <;> exact ⟨rfl, rfl⟩

/-- **C98** is violated by names beginning or ending with one of the letters p, d, c: `strip("pdc:")` removes these letters too, so
    the faces of the family `dinlet` silently become faces of the family `inlet` -/
theorem C98_strip_violated : ∃ fam fam' : Tok, fam = "dinlet".toList ∧ fam' = "inlet".toList ∧
    (∃ g, wanted parseNat twoFams one ⟨fun _ => tok "2", fun _ => tok "0", fun _ => tok "000"⟩ 0 = some g ∧ g.bcFam = some fam ∧
      g.bcType = "constantVelocitySubsonicInlet".toList) ∧
    ∃ gs, convert parseNat onePty oneConn twoFams = some [gs] ∧ gs.length = 6 ∧
      ∀ g ∈ gs, g.bcFam = some fam' ∧ g.bcType = "supersonicInlet".toList := by
  refine ⟨_, _, rfl, rfl, ⟨_, rfl, rfl, rfl⟩,
    List.replicate 6 ⟨some "inlet".toList, "supersonicInlet".toList, none, none, none⟩, rfl, rfl, ?_⟩
  intro g hg
  rw [List.eq_of_mem_replicate hg]
  exact ⟨rfl, rfl⟩

/-- clean labels exist: a mesh with walls, inlets, interior faces and periodic faces -/
example : CleanLabel "pdc:INTERBLK".toList ∧ CleanLabel "pdc:inlet".toList ∧ CleanLabel "pdc:PERIODIC".toList ∧ nameOf "pdc:inlet".toList = "inlet".toList := by
  refine ⟨Or.inl rfl, Or.inr (Or.inr (Or.inr ⟨"inlet".toList, ?_, rfl⟩)), Or.inr (Or.inr (Or.inr ⟨"PERIODIC".toList, ?_, rfl⟩)), rfl⟩ <;>
  · unfold Clean; decide

/-- **C98** is violated by several periodic families: whatever the label says, all periodic faces get the first one of the file -/
theorem C98_periodic_family_violated (fs : Fams) {k : Tok} {f : Fam} (h : fs.find? (fun e => "periodic".toList.isPrefixOf e.1) = some (k, f))
    (hp : fs.get "PERIODIC".toList = none) {r : Option Tok × Tok × Option (ℝ × V3)} (hr : faceBc fs "PERIODIC".toList = some r) :
    r.1 = some k := by
  unfold faceBc at hr
  rw [hp] at hr
  simp only [if_true, h, bind, Option.bind] at hr
  split at hr
  · cases hr
  · dsimp only at hr
    split at hr
    · cases hr
    · cases hr; rfl

/-- specification: what a face gets from its label. A label that is a family of the case gets that family and its type; the label
    PERIODIC gets the first family whose name starts with "periodic", that family's type followed by "Low", and its periodic data;
    any other label is itself the type. The type must be one of the solver's. -/
inductive FaceData (fs : Fams) (label : Tok) : Option Tok × Tok × Option (ℝ × V3) → Prop where
  | family (f : Fam) (h : fs.get label = some f) (hv : f.bcType ∈ validBcTypes) : FaceData fs label (some label, f.bcType, none)
  | periodic (key : Tok) (f : Fam) (p : ℝ × V3) (hl : label = "PERIODIC".toList) (hn : fs.get label = none)
      (h : fs.find? (fun e => "periodic".toList.isPrefixOf e.1) = some (key, f)) (hp : f.periodic = some p)
      (hv : f.bcType ++ "Low".toList ∈ validBcTypes) : FaceData fs label (some key, f.bcType ++ "Low".toList, some p)
  | plain (hl : label ≠ "PERIODIC".toList) (hn : fs.get label = none) (hv : label ∈ validBcTypes) : FaceData fs label (none, label, none)

/-- **C98 (face data).** Exactly these families, types and periodic data are given to the faces. -/
theorem C98_face_data (fs : Fams) (label : Tok) (r : Option Tok × Tok × Option (ℝ × V3)) :
    faceBc fs label = some r ↔ FaceData fs label r := by
  constructor
  · intro h
    unfold faceBc checked at h
    cases hg : fs.get label with
    | some f =>
      rw [hg] at h
      simp only at h
      by_cases hv : f.bcType ∈ validBcTypes
      · rw [if_pos hv] at h
        cases h; exact .family f hg hv
      · rw [if_neg hv] at h; cases h
    | none =>
      rw [hg] at h
      simp only at h
      by_cases hl : label = "PERIODIC".toList
      · rw [if_pos hl] at h
        cases hf : fs.find? (fun e => "periodic".toList.isPrefixOf e.1) with
        | none => rw [hf] at h; cases h
        | some e =>
          obtain ⟨key, f⟩ := e
          rw [hf] at h
          by_cases hv : f.bcType ++ "Low".toList ∈ validBcTypes
          · simp only [bind, Option.bind, if_pos hv] at h
            cases hp : f.periodic with
            | none => rw [hp] at h; cases h
            | some p => rw [hp] at h; cases h; exact .periodic key f p hl hg hf hp hv
          · simp only [bind, Option.bind, if_neg hv] at h; cases h
      · rw [if_neg hl] at h
        by_cases hv : label ∈ validBcTypes
        · rw [if_pos hv] at h; cases h; exact .plain hl hg hv
        · rw [if_neg hv] at h; cases h
  · intro h
    unfold faceBc checked
    cases h with
    | family f h hv => rw [h]; simp only; rw [if_pos hv]; rfl
    | periodic key f p hl hn h hp hv =>
      rw [hn]; simp only [if_pos hl, h, bind, Option.bind, if_pos hv, hp]
    | plain hl hn hv => rw [hn]; simp only; rw [if_neg hl, if_pos hv]; rfl

/-- the periodic case occurs -/
example : FaceData [("periodic_a".toList, ⟨"periodicTrans".toList, some (0, ⟨1, 0, 0⟩)⟩)] "PERIODIC".toList
    (some "periodic_a".toList, "periodicTransLow".toList, some (0, ⟨1, 0, 0⟩)) :=
  .periodic "periodic_a".toList ⟨"periodicTrans".toList, some (0, ⟨1, 0, 0⟩)⟩ (0, ⟨1, 0, 0⟩) rfl rfl rfl rfl
    (by simp only; decide)

end PG.Util.GridPro
