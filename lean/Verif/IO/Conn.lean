import Verif.IO.Model
import Mathlib.Data.List.Nodup
/-!
C47: connectivity files (`src/peregrinepy/writers/writeConnectivity.py`, `src/peregrinepy/readers/readConnectivity.py`, the property
setters of `src/peregrinepy/multiBlock/topologyFace.py`).

Simplifications. The content of `conn.yaml` is the document dumped: PyYAML's `load(dump(d)) = d` for nested dictionaries of None, int
and str is trusted. In a parallel run rank 0 loads and broadcasts, so every rank works on the same document. Exceptions are `none`.
-/
namespace PG.IO.Conn
open PG.Text PG.IO

/-- values of a YAML document; `other` stands for the scalars of other types (float, bool, date, list) -/
inductive Y
  | null
  | int (z : ℤ)
  | str (s : Str)
  | other
  | map (l : List (Str × Y))

/-- `d[k]`: KeyError when absent, TypeError when not a dictionary -/
def Y.get : Y → Str → Option Y
  | .map l, k => (l.find? fun e => e.1 = k).map Prod.snd
  | _, _ => none

/-- `d[k] = v` on the items of a dictionary: a present key keeps its position -/
def setItem : List (Str × Y) → Str → Y → List (Str × Y)
  | [], k, v => [(k, v)]
  | e :: l, k, v => if e.1 = k then (k, v) :: l else e :: setItem l k v

/-- topologyFace.py:9-15 -/
structure Fc where
  nface : ℕ
  bcType : Str
  bcFam : Option Str
  neighbor : Option ℤ
  orientation : Option Str
deriving DecidableEq

/-- a block of a topology: number and faces -/
structure TBlk where
  num : ℕ
  faces : List Fc
deriving DecidableEq

/-- None or a string -/
def yStr : Option Str → Y
  | none => .null
  | some s => .str s

/-- None or an int -/
def yInt : Option ℤ → Y
  | none => .null
  | some z => .int z

/-- keys (writeConnectivity.py:25, 26, 29; readConnectivity.py:40-43) -/
def blockKey (n : ℕ) : Str := "Block".toList ++ decimal n
def faceKey (n : ℕ) : Str := "Face".toList ++ decimal n

/-- one face, writeConnectivity.py:28-34 -/
def faceDict (f : Fc) : Y :=
  .map (setItem (setItem (setItem (setItem [] "bcType".toList (.str f.bcType)) "bcFam".toList (yStr f.bcFam))
    "neighbor".toList (yInt f.neighbor)) "orientation".toList (yStr f.orientation))

/-- one block, writeConnectivity.py:25-34 -/
def blockDict (b : TBlk) : Y := .map (b.faces.foldl (fun d f => setItem d (faceKey f.nface) (faceDict f)) [])

/-- writeConnectivity, writeConnectivity.py:4-37 -/
def writeConn (mb : List TBlk) : Y :=
  .map (mb.foldl (fun d b => setItem d (blockKey b.num) (blockDict b)) (setItem [] "Total_Blocks".toList (.int mb.length)))

/-- topologyFace.py:49-72 -/
def validBcTypes : List Str :=
  ["b0", "periodicTransLow", "periodicTransHigh", "periodicRotLow", "periodicRotHigh", "constantVelocitySubsonicInlet",
   "supersonicInlet", "constantMassFluxSubsonicInlet", "cubicSplineSubsonicInlet", "stagnationSubsonicInlet",
   "constantPressureSubsonicExit", "supersonicExit", "adiabaticNoSlipWall", "adiabaticSlipWall", "adiabaticMovingWall",
   "isoTNoSlipWall", "isoTSlipWall", "isoTMovingWall"].map String.toList

/-- bcType setter, topologyFace.py:45-76: None passes the type test but is no valid type -/
def asBcType : Y → Option Str
  | .str s => if s ∈ validBcTypes then some s else none
  | _ => none

/-- bcFam and orientation setters, topologyFace.py:34-39, 93-98 -/
def asStr : Y → Option (Option Str)
  | .null => some none
  | .str s => some (some s)
  | _ => none

/-- neighbor setter, topologyFace.py:82-87 -/
def asInt : Y → Option (Option ℤ)
  | .null => some none
  | .int z => some (some z)
  | _ => none

/-- one face, readConnectivity.py:43-47 -/
def readFace (d : Y) (nface : ℕ) : Option Fc := do
  let f ← d.get (faceKey nface)
  let t ← (← f.get "bcType".toList) |> asBcType
  let m ← (← f.get "bcFam".toList) |> asStr
  let n ← (← f.get "neighbor".toList) |> asInt
  let o ← (← f.get "orientation".toList) |> asStr
  return ⟨nface, t, m, n, o⟩

/-- one block, readConnectivity.py:40-47; the six faces of a block are numbered 1 to 6 (topologyBlock.py) -/
def readTBlk (d : Y) (num : ℕ) : Option TBlk := do
  let b ← d.get (blockKey num)
  return ⟨num, ← [1, 2, 3, 4, 5, 6].mapM (readFace b)⟩

/-- readConnectivity into a multi-block holding the blocks `nums`, readConnectivity.py:39-49: blocks and `totalBlocks` -/
def readConn (d : Y) (nums : List ℕ) : Option (List TBlk × Y) := do
  let bs ← nums.mapM (readTBlk d)
  return (bs, ← d.get "Total_Blocks".toList)

/-! ### specification -/

/-- a topology the property setters admit: blocks with different numbers, each with the faces 1 to 6 of valid types -/
structure Topology (mb : List TBlk) : Prop where
  distinct : (mb.map TBlk.num).Nodup
  faces : ∀ b ∈ mb, b.faces.map Fc.nface = [1, 2, 3, 4, 5, 6] ∧ ∀ f ∈ b.faces, f.bcType ∈ validBcTypes

/-! ### proof -/

theorem decimal_injective {m n : ℕ} (h : decimal m = decimal n) : m = n := by
  have h1 := digitsVal_decimal m false
  rw [h, digitsVal_decimal n false] at h1
  exact (Option.some.inj h1).symm

theorem get_setItem (l : List (Str × Y)) (k k' : Str) (v : Y) :
    (Y.map (setItem l k v)).get k' = if k' = k then some v else (Y.map l).get k' := by
  induction l with
  | nil =>
    by_cases h : k' = k
    · simp [setItem, Y.get, h]
    · have : ¬ k = k' := fun e => h e.symm
      simp [setItem, Y.get, h, this]
  | cons e l ih =>
    unfold setItem
    by_cases he : e.1 = k
    · rw [if_pos he]
      by_cases h : k' = k
      · simp [Y.get, h]
      · have : ¬ k = k' := fun e => h e.symm
        have h2 : ¬ e.1 = k' := by rw [he]; exact this
        simp [Y.get, h, this, List.find?, h2]
    · rw [if_neg he]
      by_cases h : e.1 = k'
      · have h2 : ¬ k' = k := fun e2 => he (h.trans e2)
        simp [Y.get, List.find?, h, h2]
      · have := ih
        simp only [Y.get] at this ⊢
        simp only [List.find?, decide_eq_true_eq, h, decide_false]
        exact this

/-- a loop of assignments under different keys: each key holds its value, other keys are unchanged -/
theorem get_foldl {α : Type} (key : α → Str) (val : α → Y) (as : List α) : ∀ (l : List (Str × Y)), (as.map key).Nodup →
    (∀ a ∈ as, (Y.map (as.foldl (fun d a => setItem d (key a) (val a)) l)).get (key a) = some (val a)) ∧
    ∀ k, (∀ a ∈ as, key a ≠ k) → (Y.map (as.foldl (fun d a => setItem d (key a) (val a)) l)).get k = (Y.map l).get k := by
  induction as with
  | nil => intro l _; exact ⟨fun a ha => absurd ha List.not_mem_nil, fun _ _ => rfl⟩
  | cons a as ih =>
    intro l hnd
    rw [List.map_cons, List.nodup_cons] at hnd
    obtain ⟨h1, h2⟩ := ih (setItem l (key a) (val a)) hnd.2
    refine ⟨fun b hb => ?_, fun k hk => ?_⟩
    · rcases List.mem_cons.1 hb with rfl | hb
      · rw [List.foldl_cons, h2 (key b) fun c hc e => hnd.1 (List.mem_map.2 ⟨c, hc, e⟩), get_setItem, if_pos rfl]
      · exact h1 b hb
    · rw [List.foldl_cons, h2 k fun c hc => hk c (List.mem_cons_of_mem _ hc), get_setItem,
        if_neg fun e => hk a List.mem_cons_self e.symm]

theorem readFace_faceDict (d : Y) (f : Fc) (h : d.get (faceKey f.nface) = some (faceDict f)) (hv : f.bcType ∈ validBcTypes) :
    readFace d f.nface = some f := by
  have n1 : ("bcType".toList : Str) ≠ "bcFam".toList := by decide
  have n2 : ("bcType".toList : Str) ≠ "neighbor".toList := by decide
  have n3 : ("bcType".toList : Str) ≠ "orientation".toList := by decide
  have n4 : ("bcFam".toList : Str) ≠ "neighbor".toList := by decide
  have n5 : ("bcFam".toList : Str) ≠ "orientation".toList := by decide
  have n6 : ("neighbor".toList : Str) ≠ "orientation".toList := by decide
  have g1 : (faceDict f).get "bcType".toList = some (.str f.bcType) := by
    unfold faceDict; rw [get_setItem, if_neg n3, get_setItem, if_neg n2, get_setItem, if_neg n1, get_setItem, if_pos rfl]
  have g2 : (faceDict f).get "bcFam".toList = some (yStr f.bcFam) := by
    unfold faceDict; rw [get_setItem, if_neg n5, get_setItem, if_neg n4, get_setItem, if_pos rfl]
  have g3 : (faceDict f).get "neighbor".toList = some (yInt f.neighbor) := by
    unfold faceDict; rw [get_setItem, if_neg n6, get_setItem, if_pos rfl]
  have g4 : (faceDict f).get "orientation".toList = some (yStr f.orientation) := by
    unfold faceDict; rw [get_setItem, if_pos rfl]
  have s1 : ∀ o : Option Str, asStr (yStr o) = some o := by intro o; cases o <;> rfl
  have s2 : ∀ o : Option ℤ, asInt (yInt o) = some o := by intro o; cases o <;> rfl
  have s3 : asBcType (.str f.bcType) = some f.bcType := if_pos hv
  unfold readFace
  simp only [h, g1, g2, g3, g4, s1, s2, s3, Option.bind_eq_bind, Option.bind_some, Option.pure_def]

theorem mapM_faces (d : Y) : ∀ (fs : List Fc), (∀ f ∈ fs, readFace d f.nface = some f) →
    (fs.map Fc.nface).mapM (readFace d) = some fs := by
  intro fs
  induction fs with
  | nil => intro _; rfl
  | cons f fs ih =>
    intro h
    rw [List.map_cons, List.mapM_cons, h f List.mem_cons_self, ih fun g hg => h g (List.mem_cons_of_mem _ hg)]
    rfl

theorem readTBlk_of (d : Y) (b : TBlk) (h : d.get (blockKey b.num) = some (blockDict b))
    (hf : b.faces.map Fc.nface = [1, 2, 3, 4, 5, 6] ∧ ∀ f ∈ b.faces, f.bcType ∈ validBcTypes) :
    readTBlk d b.num = some b := by
  have hnd : (b.faces.map fun f => faceKey f.nface).Nodup := by
    have : (b.faces.map fun f => faceKey f.nface) = (b.faces.map Fc.nface).map faceKey := by rw [List.map_map]; rfl
    rw [this, hf.1]
    exact List.Nodup.map (fun a c e => decimal_injective (List.append_cancel_left e)) (by decide)
  obtain ⟨h1, _⟩ := get_foldl (fun f : Fc => faceKey f.nface) faceDict b.faces [] hnd
  have h2 := mapM_faces (blockDict b) b.faces fun f hfm => readFace_faceDict _ f (h1 f hfm) (hf.2 f hfm)
  rw [hf.1] at h2
  unfold readTBlk
  rw [h]
  simp only [h2, Option.bind_eq_bind, Option.bind_some, Option.pure_def]

theorem blockKey_ne_total (n : ℕ) : blockKey n ≠ "Total_Blocks".toList := by
  have h1 : ("Block".toList : Str) = 'B' :: "lock".toList := by decide
  have h2 : ("Total_Blocks".toList : Str) = 'T' :: "otal_Blocks".toList := by decide
  unfold blockKey
  rw [h1, h2, List.cons_append]
  intro h
  exact absurd (List.cons.inj h).1 (by decide)

theorem written (mb : List TBlk) (ht : Topology mb) :
    (∀ b ∈ mb, (writeConn mb).get (blockKey b.num) = some (blockDict b)) ∧
    (writeConn mb).get "Total_Blocks".toList = some (.int mb.length) := by
  have hnd : (mb.map fun b => blockKey b.num).Nodup := by
    have : (mb.map fun b => blockKey b.num) = (mb.map TBlk.num).map blockKey := by rw [List.map_map]; rfl
    rw [this]
    exact List.Nodup.map (fun a c e => decimal_injective (List.append_cancel_left e)) ht.distinct
  obtain ⟨h1, h2⟩ := get_foldl (fun b : TBlk => blockKey b.num) blockDict mb (setItem [] "Total_Blocks".toList (.int mb.length)) hnd
  refine ⟨h1, ?_⟩
  have := h2 "Total_Blocks".toList fun b _ => blockKey_ne_total b.num
  rw [get_setItem, if_pos rfl] at this
  exact this

/-- C47: the connectivity written for a topology of any number of blocks can be read into a multi-block holding any of the blocks in
    any order (all of them, or those of one rank): every block read is the block written - type, family, neighbour and orientation of
    all its faces, None included - and `totalBlocks` is the number of blocks written. -/
theorem C47_roundtrip (mb : List TBlk) (ht : Topology mb) (nums : List ℕ) (hn : ∀ n ∈ nums, n ∈ mb.map TBlk.num) :
    ∃ bs, readConn (writeConn mb) nums = some (bs, .int mb.length) ∧ bs.map TBlk.num = nums ∧ ∀ b ∈ bs, b ∈ mb := by
  obtain ⟨w1, w2⟩ := written mb ht
  have key : ∀ ns : List ℕ, (∀ n ∈ ns, n ∈ mb.map TBlk.num) →
      ∃ bs, ns.mapM (readTBlk (writeConn mb)) = some bs ∧ bs.map TBlk.num = ns ∧ ∀ b ∈ bs, b ∈ mb := by
    intro ns
    induction ns with
    | nil => intro _; exact ⟨[], rfl, rfl, fun b hb => absurd hb List.not_mem_nil⟩
    | cons n ns ih =>
      intro h
      obtain ⟨b, hb, rfl⟩ := List.mem_map.1 (h n List.mem_cons_self)
      obtain ⟨bs, e1, e2, e3⟩ := ih fun m hm => h m (List.mem_cons_of_mem _ hm)
      refine ⟨b :: bs, ?_, by rw [List.map_cons, e2], ?_⟩
      · rw [List.mapM_cons, readTBlk_of _ b (w1 b hb) (ht.faces b hb), e1]; rfl
      · intro c hc
        rcases List.mem_cons.1 hc with rfl | hc
        · exact hb
        · exact e3 c hc
  obtain ⟨bs, e1, e2, e3⟩ := key nums hn
  refine ⟨bs, ?_, e2, e3⟩
  unfold readConn
  rw [e1, w2]
  rfl

theorem readFace_spec {d : Y} {n : ℕ} {f : Fc} (h : readFace d n = some f) : f.nface = n ∧ f.bcType ∈ validBcTypes := by
  unfold readFace at h
  simp only [Option.bind_eq_bind, Option.bind_eq_some_iff, Option.pure_def, Option.some.injEq] at h
  obtain ⟨_, _, y, _, t, ht, _, _, _, _, _, _, _, _, _, _, _, _, rfl⟩ := h
  refine ⟨rfl, ?_⟩
  cases y <;> simp only [asBcType, reduceCtorEq] at ht
  split at ht
  · rename_i hm; exact (Option.some.inj ht) ▸ hm
  · simp at ht

theorem mapM_forall2 {α β : Type} {f : α → Option β} : ∀ {l : List α} {r : List β}, l.mapM f = some r → List.Forall₂ (fun a b => f a = some b) l r := by
  intro l
  induction l with
  | nil => intro r h; simp only [List.mapM_nil, Option.pure_def, Option.some.injEq] at h; subst h; exact List.Forall₂.nil
  | cons a l ih =>
    intro r h
    rw [List.mapM_cons] at h
    simp only [Option.bind_eq_bind, Option.bind_eq_some_iff, Option.pure_def, Option.some.injEq] at h
    obtain ⟨b, hb, bs, hbs, rfl⟩ := h
    exact List.Forall₂.cons hb (ih hbs)

theorem forall₂_mem_right {α β : Type} {R : α → β → Prop} {l : List α} {r : List β} (h : List.Forall₂ R l r) :
    ∀ b ∈ r, ∃ a ∈ l, R a b := by
  induction h with
  | nil => intro b hb; exact absurd hb List.not_mem_nil
  | cons h1 _ ih =>
    intro b hb
    rcases List.mem_cons.1 hb with rfl | hb
    · exact ⟨_, List.mem_cons_self, h1⟩
    · obtain ⟨a, ha, hr⟩ := ih b hb
      exact ⟨a, List.mem_cons_of_mem _ ha, hr⟩

/-- C47 (any file): whatever document is read - hand-written ones included - the faces of every block read have one of the eighteen
    boundary types; a document with a missing block or an unknown type is refused. -/
theorem C47_valid (d : Y) (nums : List ℕ) (bs : List TBlk) (t : Y) (h : readConn d nums = some (bs, t)) :
    bs.map TBlk.num = nums ∧ ∀ b ∈ bs, b.faces.map Fc.nface = [1, 2, 3, 4, 5, 6] ∧ ∀ f ∈ b.faces, f.bcType ∈ validBcTypes := by
  unfold readConn at h
  simp only [Option.bind_eq_bind, Option.bind_eq_some_iff, Option.pure_def, Option.some.injEq, Prod.mk.injEq] at h
  obtain ⟨bs', h1, _, _, rfl, _⟩ := h
  have hf := mapM_forall2 h1
  have key : ∀ {n : ℕ} {b : TBlk}, readTBlk d n = some b → b.num = n ∧ b.faces.map Fc.nface = [1, 2, 3, 4, 5, 6] ∧
      ∀ f ∈ b.faces, f.bcType ∈ validBcTypes := by
    intro n b hb
    unfold readTBlk at hb
    simp only [Option.bind_eq_bind, Option.bind_eq_some_iff, Option.pure_def, Option.some.injEq] at hb
    obtain ⟨y, _, fs, hfs, rfl⟩ := hb
    have h2 := mapM_forall2 hfs
    refine ⟨rfl, ?_, fun f hfm => ?_⟩
    · have gen : ∀ {l : List ℕ} {r : List Fc}, List.Forall₂ (fun a b => readFace y a = some b) l r → r.map Fc.nface = l := by
        intro l r h
        induction h with
        | nil => rfl
        | cons h1 _ ih => rw [List.map_cons, ih, (readFace_spec h1).1]
      exact gen h2
    · obtain ⟨a, _, ha⟩ := forall₂_mem_right h2 f hfm
      exact (readFace_spec ha).2
  refine ⟨?_, fun b hb => ?_⟩
  · clear h1
    induction hf with
    | nil => rfl
    | cons h1 _ ih => rw [List.map_cons, ih, (key h1).1]
  · obtain ⟨n, _, hn⟩ := forall₂_mem_right hf b hb
    exact (key hn).2

/-- C47 (any file): an orientation written without quotes is an integer in YAML and is refused -/
theorem C47_unquoted_refused (d f : Y) (z : ℤ) (nface : ℕ) (h1 : d.get (faceKey nface) = some f)
    (h2 : f.get "orientation".toList = some (.int z)) : readFace d nface = none := by
  cases h : readFace d nface with
  | none => rfl
  | some g =>
    exfalso
    unfold readFace at h
    simp only [Option.bind_eq_bind, Option.bind_eq_some_iff, Option.pure_def, Option.some.injEq] at h
    obtain ⟨f', hf', _, _, _, _, _, _, _, _, _, _, _, _, y, hy, o, ho, _⟩ := h
    rw [h1] at hf'
    obtain rfl := Option.some.inj hf'
    rw [h2] at hy
    obtain rfl := Option.some.inj hy
    simp [asStr] at ho

/-- a topology of two blocks, read back by the rank that holds the second one -/
example : Topology [⟨0, (List.range 6).map fun n => ⟨n + 1, "b0".toList, none, some 3, some "123".toList⟩⟩,
    ⟨3, (List.range 6).map fun n => ⟨n + 1, "isoTMovingWall".toList, some "lid".toList, none, none⟩⟩] := by
  refine ⟨by decide, ?_⟩
  intro b hb
  simp only [List.mem_cons, List.not_mem_nil, or_false] at hb
  rcases hb with rfl | rfl
  · exact ⟨by decide, by decide⟩
  · exact ⟨by decide, by decide⟩

end PG.IO.Conn
