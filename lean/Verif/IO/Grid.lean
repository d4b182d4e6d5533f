import Verif.IO.Props
import Verif.Base.Vec
/-!
C46: grid files round-trip (`src/peregrinepy/writers/writeGrid.py`, `src/peregrinepy/readers/readGrid.py`). The simplifications of
`Verif.IO.Model` apply; the dataset group `dimensions_...` is a separate map.
-/
namespace PG.IO
open PG.Text PG

/-- a block with node coordinates, arrays as stored, halo included -/
structure GBlk where
  num : ℕ
  ni : ℕ
  nj : ℕ
  nk : ℕ
  solver : Bool
  ng : ℕ
  xyz : ℕ → ℕ → ℕ → V3

/-- a grid file -/
structure GFile where
  dims : Str → Option (ℕ × ℕ × ℕ)
  h : H5

abbrev GFs := Str → Option GFile

/-- arguments of writeGrid -/
structure GOpts where
  path : Str
  lump : Bool
  withHalo : Bool
  rnd : ℝ → ℝ

/-- halo layers written and first index (writeGrid.py:44-53) -/
def gng (o : GOpts) (b : GBlk) : ℕ := if b.solver then (if o.withHalo then b.ng else 0) else 0
def goff (o : GOpts) (b : GBlk) : ℕ := if b.solver then (if o.withHalo then 0 else b.ng) else 0

/-- `"coordinates_" + f"{nblki:06d}"`, `"dimensions_" + ...` -/
def coordS (n : ℕ) : Str := "coordinates_".toList ++ padded 6 n
def dimS (n : ℕ) : Str := "dimensions_".toList ++ padded 6 n

/-- the three coordinate datasets (writeGrid.py:80-90) -/
noncomputable def gEntries (o : GOpts) (b : GBlk) : List ((Str × Str) × List ℝ) :=
  let d := fun (f : V3 → ℝ) => (ravelF (b.ni + 2 * gng o b) (b.nj + 2 * gng o b) (b.nk + 2 * gng o b)
    (fun i j k => f (b.xyz (i + goff o b) (j + goff o b) (k + goff o b)))).map o.rnd
  [((coordS b.num, "x".toList), d V3.x), ((coordS b.num, "y".toList), d V3.y), ((coordS b.num, "z".toList), d V3.z)]

/-- file name (writeGrid.py:39-40, 60-61; readGrid.py:36-37, 48-49) -/
def gName (path : Str) (lump : Bool) (n : ℕ) : Str :=
  if lump then path ++ "/g.h5".toList else path ++ "/g.".toList ++ padded 6 n ++ ".h5".toList

/-- one block into an open file: `none` when its groups exist (writeGrid.py:63-90) -/
noncomputable def gPut (o : GOpts) (f : GFile) (b : GBlk) : Option GFile :=
  if f.dims (dimS b.num) = none then
    (putAll f.h (gEntries o b)).map fun h =>
      ⟨fun s => if s = dimS b.num then some (b.ni + 2 * gng o b, b.nj + 2 * gng o b, b.nk + 2 * gng o b) else f.dims s, h⟩
  else none

/-- writeGrid, writeGrid.py:7-104 -/
noncomputable def writeGrid (o : GOpts) (bs : List GBlk) (fs : GFs) : Option GFs :=
  if o.lump then
    (bs.foldlM (gPut o) ⟨fun _ => none, fun _ => none⟩).map fun f => Function.update fs (gName o.path o.lump 0) (some f)
  else
    bs.foldlM (fun fs b => (gPut o ⟨fun _ => none, fun _ => none⟩ b).map fun f =>
      Function.update fs (gName o.path o.lump b.num) (some f)) fs

/-- a block to be read: its number, kind and halo depth -/
structure GTarget where
  num : ℕ
  solver : Bool
  ng : ℕ

/-- what readGrid sets on a block: sizes and coordinates; the halo is zero (initGridArrays) -/
structure GRead where
  ni : ℕ
  nj : ℕ
  nk : ℕ
  xyz : ℕ → ℕ → ℕ → V3

/-- first index of `readS` (readGrid.py:40-45) -/
def groff (t : GTarget) : ℕ := if t.solver then t.ng else 0

/-- one block, readGrid.py:51-71; a missing dataset is a KeyError -/
noncomputable def readGBlk (f : GFile) (t : GTarget) : Option GRead := do
  let d ← f.dims (dimS t.num)
  let x ← (f.h (coordS t.num, "x".toList)).bind (reshapeF d.1 d.2.1 d.2.2)
  let y ← (f.h (coordS t.num, "y".toList)).bind (reshapeF d.1 d.2.1 d.2.2)
  let z ← (f.h (coordS t.num, "z".toList)).bind (reshapeF d.1 d.2.1 d.2.2)
  return ⟨d.1, d.2.1, d.2.2, fun i j k =>
    if (groff t ≤ i ∧ i < groff t + d.1) ∧ (groff t ≤ j ∧ j < groff t + d.2.1) ∧ (groff t ≤ k ∧ k < groff t + d.2.2) then
      ⟨x (i - groff t) (j - groff t) (k - groff t), y (i - groff t) (j - groff t) (k - groff t), z (i - groff t) (j - groff t) (k - groff t)⟩
    else 0⟩

/-- readGrid, readGrid.py:6-79 -/
noncomputable def readGrid (path : Str) (lump : Bool) (ts : List GTarget) (fs : GFs) : Option (List GRead) :=
  ts.mapM fun t => (fs (gName path lump t.num)).bind fun f => readGBlk f t

/-! ### proof -/

theorem gng_eq (o : GOpts) (b : GBlk) : gng o b = kept o.withHalo b.solver b.ng := by
  unfold gng kept layers
  cases b.solver <;> cases o.withHalo <;> simp

theorem goff_eq (o : GOpts) (b : GBlk) : goff o b = layers b.solver b.ng - kept o.withHalo b.solver b.ng := by
  unfold goff kept layers
  cases b.solver <;> cases o.withHalo <;> simp

theorem coordS_injective {m n : ℕ} (h : coordS m = coordS n) : m = n := padded_injective (List.append_cancel_left h)
theorem dimS_injective {m n : ℕ} (h : dimS m = dimS n) : m = n := padded_injective (List.append_cancel_left h)

theorem gEntries_keys (o : GOpts) (b : GBlk) : (gEntries o b).map Prod.fst =
    [(coordS b.num, "x".toList), (coordS b.num, "y".toList), (coordS b.num, "z".toList)] := rfl

theorem gEntries_nodup (o : GOpts) (b : GBlk) : ((gEntries o b).map Prod.fst).Nodup := by
  rw [gEntries_keys]
  have h1 : "x".toList ≠ "y".toList := by decide
  have h2 : "x".toList ≠ "z".toList := by decide
  have h3 : "y".toList ≠ "z".toList := by decide
  simp only [List.nodup_cons, List.mem_cons, Prod.mk.injEq, true_and, List.not_mem_nil, or_false, not_or, not_false_eq_true,
    List.nodup_nil, and_true]
  exact ⟨⟨h1, h2⟩, h3⟩

/-- what a file holds about a block -/
def Holds (o : GOpts) (f : GFile) (b : GBlk) : Prop :=
  f.dims (dimS b.num) = some (b.ni + 2 * gng o b, b.nj + 2 * gng o b, b.nk + 2 * gng o b) ∧ ∀ e ∈ gEntries o b, f.h e.1 = some e.2

theorem gPut_spec (o : GOpts) (f : GFile) (b : GBlk) (h1 : f.dims (dimS b.num) = none) (h2 : ∀ s, f.h (coordS b.num, s) = none) :
    ∃ f', gPut o f b = some f' ∧ Holds o f' b ∧ ∀ n, n ≠ b.num → f'.dims (dimS n) = f.dims (dimS n) ∧
      ∀ s, f'.h (coordS n, s) = f.h (coordS n, s) := by
  obtain ⟨h', e1, e2, e3⟩ := putAll_spec (gEntries o b) f.h (by
    intro e he
    have : e.1 ∈ (gEntries o b).map Prod.fst := List.mem_map.2 ⟨e, he, rfl⟩
    rw [gEntries_keys] at this
    simp only [List.mem_cons, List.not_mem_nil, or_false] at this
    rcases this with h | h | h <;> rw [h] <;> exact h2 _) (gEntries_nodup o b)
  refine ⟨_, by unfold gPut; rw [if_pos h1, e1]; rfl, ⟨by simp, e2⟩, ?_⟩
  intro n hn
  refine ⟨by simp only; rw [if_neg fun h => hn (dimS_injective h)], fun s => e3 _ ?_⟩
  rw [gEntries_keys]
  intro hc
  simp only [List.mem_cons, List.not_mem_nil, or_false, Prod.mk.injEq] at hc
  rcases hc with ⟨h, _⟩ | ⟨h, _⟩ | ⟨h, _⟩ <;> exact hn (coordS_injective h)

theorem gFold (o : GOpts) (bs : List GBlk) : ∀ f : GFile, (bs.map GBlk.num).Nodup →
    (∀ b ∈ bs, f.dims (dimS b.num) = none ∧ ∀ s, f.h (coordS b.num, s) = none) →
    ∃ f', bs.foldlM (gPut o) f = some f' ∧ (∀ b ∈ bs, Holds o f' b) ∧ ∀ n, n ∉ bs.map GBlk.num → f'.dims (dimS n) = f.dims (dimS n) ∧
      ∀ s, f'.h (coordS n, s) = f.h (coordS n, s) := by
  induction bs with
  | nil => intro f _ _; exact ⟨f, rfl, by simp, fun _ _ => ⟨rfl, fun _ => rfl⟩⟩
  | cons b bs ih =>
    intro f hn hf
    rw [List.map_cons, List.nodup_cons] at hn
    obtain ⟨f1, p1, p2, p3⟩ := gPut_spec o f b (hf b List.mem_cons_self).1 (hf b List.mem_cons_self).2
    obtain ⟨f2, q1, q2, q3⟩ := ih f1 hn.2 (by
      intro b' hb'
      have hne : b'.num ≠ b.num := fun h => hn.1 (List.mem_map.2 ⟨b', hb', h⟩)
      obtain ⟨a1, a2⟩ := p3 _ hne
      obtain ⟨c1, c2⟩ := hf b' (List.mem_cons_of_mem _ hb')
      exact ⟨a1.trans c1, fun s => (a2 s).trans (c2 s)⟩)
    refine ⟨f2, by rw [List.foldlM_cons, p1]; exact q1, ?_, ?_⟩
    · intro b' hb'
      rcases List.mem_cons.1 hb' with rfl | hb'
      · obtain ⟨a1, a2⟩ := q3 _ hn.1
        refine ⟨a1.trans p2.1, fun e he => ?_⟩
        have : e.1 ∈ (gEntries o b').map Prod.fst := List.mem_map.2 ⟨e, he, rfl⟩
        rw [gEntries_keys] at this
        rw [← p2.2 e he]
        simp only [List.mem_cons, List.not_mem_nil, or_false] at this
        rcases this with h | h | h <;> rw [h] <;> exact a2 _
      · exact q2 b' hb'
    · intro n hnn
      rw [List.map_cons, List.mem_cons, not_or] at hnn
      obtain ⟨a1, a2⟩ := q3 n hnn.2
      obtain ⟨c1, c2⟩ := p3 n hnn.1
      exact ⟨a1.trans c1, fun s => (a2 s).trans (c2 s)⟩

theorem gName_num {path : Str} {m n : ℕ} (h : gName path false m = gName path false n) : m = n := by
  unfold gName at h
  simp only [Bool.false_eq_true, if_false] at h
  exact padded_injective (List.append_cancel_left (List.append_cancel_right h))

theorem gWritten (o : GOpts) (bs : List GBlk) (fs : GFs) (hnum : (bs.map GBlk.num).Nodup) :
    ∃ fs', writeGrid o bs fs = some fs' ∧ ∀ b ∈ bs, ∃ f, fs' (gName o.path o.lump b.num) = some f ∧ Holds o f b := by
  unfold writeGrid
  cases hl : o.lump with
  | true =>
    obtain ⟨f, e1, e2, _⟩ := gFold o bs ⟨fun _ => none, fun _ => none⟩ hnum (fun _ _ => ⟨rfl, fun _ => rfl⟩)
    rw [if_pos rfl, e1]
    refine ⟨_, rfl, fun b hb => ⟨f, ?_, e2 b hb⟩⟩
    have : gName o.path true b.num = gName o.path true 0 := rfl
    rw [this]
    dsimp only
    rw [Function.update_self]
  | false =>
    rw [if_neg (by simp)]
    have keep : ∀ (bs : List GBlk) (fs fs' : GFs) (n : ℕ), n ∉ bs.map GBlk.num →
        bs.foldlM (fun fs b => (gPut o ⟨fun _ => none, fun _ => none⟩ b).map fun f =>
          Function.update fs (gName o.path false b.num) (some f)) fs = some fs' →
        fs' (gName o.path false n) = fs (gName o.path false n) := by
      intro bs
      induction bs with
      | nil => intro fs fs' n _ h; cases h; rfl
      | cons c cs ihc =>
        intro fs fs' n hn h
        rw [List.map_cons, List.mem_cons, not_or] at hn
        rw [List.foldlM_cons] at h
        cases hp : gPut o ⟨fun _ => none, fun _ => none⟩ c with
        | none => rw [hp] at h; exact absurd h (by simp)
        | some hh =>
          rw [hp] at h
          rw [ihc _ fs' n hn.2 h]
          dsimp only
          rw [Function.update_of_ne fun hc => hn.1 (gName_num hc)]
    induction bs generalizing fs with
    | nil => exact ⟨fs, rfl, by simp⟩
    | cons b bs ih =>
      rw [List.map_cons, List.nodup_cons] at hnum
      obtain ⟨f, p1, p2, _⟩ := gPut_spec o ⟨fun _ => none, fun _ => none⟩ b rfl (fun _ => rfl)
      obtain ⟨fs', g1, g2⟩ := ih (Function.update fs (gName o.path false b.num) (some f)) hnum.2
      refine ⟨fs', by rw [List.foldlM_cons, p1]; exact g1, ?_⟩
      intro b' hb'
      rcases List.mem_cons.1 hb' with rfl | hb'
      · exact ⟨f, by rw [keep bs _ fs' b'.num hnum.1 g1, Function.update_self], p2⟩
      · exact g2 b' hb'

theorem groundtrip_aux (o : GOpts) (bs : List GBlk) (fs : GFs) (hnum : (bs.map GBlk.num).Nodup) (ts : List GTarget)
    (hts : ∀ t ∈ ts, t.num ∈ bs.map GBlk.num) :
    ∃ fs' rs, writeGrid o bs fs = some fs' ∧ readGrid o.path o.lump ts fs' = some rs ∧
      List.Forall₂ (fun t r => ∀ b ∈ bs, b.num = t.num →
        (r.ni = b.ni + 2 * gng o b ∧ r.nj = b.nj + 2 * gng o b ∧ r.nk = b.nk + 2 * gng o b) ∧
        ∀ i j k, i < r.ni → j < r.nj → k < r.nk →
          r.xyz (i + groff t) (j + groff t) (k + groff t) =
            ⟨o.rnd (b.xyz (i + goff o b) (j + goff o b) (k + goff o b)).x, o.rnd (b.xyz (i + goff o b) (j + goff o b) (k + goff o b)).y,
              o.rnd (b.xyz (i + goff o b) (j + goff o b) (k + goff o b)).z⟩) ts rs := by
  obtain ⟨fs', w1, w2⟩ := gWritten o bs fs hnum
  obtain ⟨rs, r1, r2⟩ := mapM_some (fun t => (fs' (gName o.path o.lump t.num)).bind fun f => readGBlk f t)
    (fun t r => ∀ b ∈ bs, b.num = t.num →
        (r.ni = b.ni + 2 * gng o b ∧ r.nj = b.nj + 2 * gng o b ∧ r.nk = b.nk + 2 * gng o b) ∧
        ∀ i j k, i < r.ni → j < r.nj → k < r.nk →
          r.xyz (i + groff t) (j + groff t) (k + groff t) =
            ⟨o.rnd (b.xyz (i + goff o b) (j + goff o b) (k + goff o b)).x, o.rnd (b.xyz (i + goff o b) (j + goff o b) (k + goff o b)).y,
              o.rnd (b.xyz (i + goff o b) (j + goff o b) (k + goff o b)).z⟩) ts (by
      intro t ht
      obtain ⟨b, hb, hbn⟩ := List.mem_map.1 (hts t ht)
      obtain ⟨f, f1, f2, f3⟩ := w2 b hb
      rw [← hbn, f1]
      obtain ⟨x, x1, x2⟩ := reshape_ravel (b.ni + 2 * gng o b) (b.nj + 2 * gng o b) (b.nk + 2 * gng o b)
        (fun i j k => (b.xyz (i + goff o b) (j + goff o b) (k + goff o b)).x) o.rnd
      obtain ⟨y, y1, y2⟩ := reshape_ravel (b.ni + 2 * gng o b) (b.nj + 2 * gng o b) (b.nk + 2 * gng o b)
        (fun i j k => (b.xyz (i + goff o b) (j + goff o b) (k + goff o b)).y) o.rnd
      obtain ⟨z, z1, z2⟩ := reshape_ravel (b.ni + 2 * gng o b) (b.nj + 2 * gng o b) (b.nk + 2 * gng o b)
        (fun i j k => (b.xyz (i + goff o b) (j + goff o b) (k + goff o b)).z) o.rnd
      have fx := f3 _ (List.mem_cons_self)
      have fy := f3 _ (List.mem_cons_of_mem _ (List.mem_cons_self))
      have fz := f3 _ (List.mem_cons_of_mem _ (List.mem_cons_of_mem _ List.mem_cons_self))
      dsimp only at fx fy fz
      refine ⟨_, by
        simp only [Option.bind_some, readGBlk, Option.bind_eq_bind]
        rw [← hbn, f2]
        simp only [Option.bind_some]
        rw [fx, fy, fz]
        simp only [Option.bind_some]
        rw [x1, y1, z1]
        rfl, ?_⟩
      intro b' hb' hb'n
      have : b' = b := List.inj_on_of_nodup_map hnum hb' hb hb'n
      subst this
      refine ⟨⟨rfl, rfl, rfl⟩, ?_⟩
      intro i j k hi hj hk
      dsimp only at hi hj hk ⊢
      rw [if_pos (by omega)]
      simp only [Nat.add_sub_cancel]
      rw [x2 i j k hi hj hk, y2 i j k hi hj hk, z2 i j k hi hj hk])
  exact ⟨fs', rs, w1, r1, r2⟩

/-- C46: writing a grid and reading any selection of its blocks back returns, for every block, the stored size and the coordinates of
    every node at the same index - any number of blocks of any size, lumped or not, whatever the halo depth of the block written and
    of the block read. Without stored halos the stored size is the block's own size and the nodes are its own nodes; with stored
    halos both include the halo. -/
theorem C46_roundtrip (o : GOpts) (bs : List GBlk) (fs : GFs) (hnum : (bs.map GBlk.num).Nodup) (ts : List GTarget)
    (hts : ∀ t ∈ ts, t.num ∈ bs.map GBlk.num) :
    ∃ fs' rs, writeGrid o bs fs = some fs' ∧ readGrid o.path o.lump ts fs' = some rs ∧
      List.Forall₂ (fun t r => ∀ b ∈ bs, b.num = t.num →
        (r.ni = b.ni + 2 * kept o.withHalo b.solver b.ng ∧ r.nj = b.nj + 2 * kept o.withHalo b.solver b.ng ∧ r.nk = b.nk + 2 * kept o.withHalo b.solver b.ng) ∧
        ∀ m, m + kept o.withHalo b.solver b.ng = layers b.solver b.ng → ∀ i j k, i < r.ni → j < r.nj → k < r.nk →
          r.xyz (i + layers t.solver t.ng) (j + layers t.solver t.ng) (k + layers t.solver t.ng) =
            ⟨o.rnd (b.xyz (i + m) (j + m) (k + m)).x, o.rnd (b.xyz (i + m) (j + m) (k + m)).y,
              o.rnd (b.xyz (i + m) (j + m) (k + m)).z⟩) ts rs := by
  have h := groundtrip_aux o bs fs hnum ts hts
  obtain ⟨fs', rs, h1, h2, h3⟩ := h
  refine ⟨fs', rs, h1, h2, h3.imp fun t r h b hb hn => ?_⟩
  obtain ⟨g1, g2⟩ := h b hb hn
  rw [gng_eq] at g1
  refine ⟨g1, fun m hm i j k hi hj hk => ?_⟩
  have : m = goff o b := by rw [goff_eq]; omega
  rw [this]
  exact g2 i j k hi hj hk

/-- the hypotheses of C46_roundtrip are met by two blocks, read by a solver with one halo layer in the other order -/
example (fs : GFs) : ∃ fs' rs, writeGrid ⟨"g".toList, true, false, id⟩
    [⟨0, 3, 4, 5, true, 2, fun i j k => ⟨i, j, k⟩⟩, ⟨1, 2, 2, 2, false, 0, fun _ _ _ => 0⟩] fs = some fs' ∧
    readGrid "g".toList true [⟨1, true, 1⟩, ⟨0, true, 1⟩] fs' = some rs := by
  obtain ⟨fs', rs, a, b, _⟩ := C46_roundtrip ⟨"g".toList, true, false, id⟩
    [⟨0, 3, 4, 5, true, 2, fun i j k => ⟨i, j, k⟩⟩, ⟨1, 2, 2, 2, false, 0, fun _ _ _ => 0⟩] fs (by simp)
    [⟨1, true, 1⟩, ⟨0, true, 1⟩] (by simp)
  exact ⟨fs', rs, a, b⟩

end PG.IO
