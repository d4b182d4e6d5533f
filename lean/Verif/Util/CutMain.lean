import Verif.Util.CutCells
/-!
C44: whole runs of the cutting utility keep the cells and the boundary patches, and write a valid grid.
-/
namespace PG.Util
open PG PG.Topo

/-! ### the search for neighbours changes only neighbours -/

/-- a block without its neighbours -/
def strip (b : VBlk) : VBlk := { b with face := fun nf => { b.face nf with neighbor := none } }

theorem cells_strip (b : VBlk) : cells (strip b) = cells b := rfl

theorem patches_strip (b : VBlk) : patches (strip b) = patches b := rfl

/-- the same grid but for neighbours -/
def SameShape (mb mb' : List VBlk) : Prop := mb.map strip = mb'.map strip

theorem SameShape.cells {mb mb' : List VBlk} (h : SameShape mb mb') : gridCells mb = gridCells mb' := by
  have : ∀ l : List VBlk, gridCells l = (l.map strip).flatMap Util.cells := by
    intro l; rw [List.flatMap_map]; rfl
  rw [this, this, h]

theorem SameShape.patches {mb mb' : List VBlk} (h : SameShape mb mb') : gridPatches mb = gridPatches mb' := by
  have : ∀ l : List VBlk, gridPatches l = (l.map strip).flatMap Util.patches := by
    intro l; rw [List.flatMap_map]; rfl
  rw [this, this, h]

theorem SameShape.nums {mb mb' : List VBlk} (h : SameShape mb mb') : mb.map VBlk.num = mb'.map VBlk.num := by
  have : ∀ l : List VBlk, l.map VBlk.num = (l.map strip).map VBlk.num := by
    intro l; rw [List.map_map]; rfl
  rw [this mb, this mb', h]

theorem SameShape.sized {mb mb' : List VBlk} (h : SameShape mb mb') (hs : Sized mb) : Sized mb' := by
  intro b hb
  have h1 : strip b ∈ mb'.map strip := List.mem_map_of_mem hb
  rw [← h] at h1
  obtain ⟨c, hc, e⟩ := List.mem_map.1 h1
  have h2 := hs c hc
  have e1 : (strip c).ni = (strip b).ni := congrArg VBlk.ni e
  have e2 : (strip c).nj = (strip b).nj := congrArg VBlk.nj e
  have e3 : (strip c).nk = (strip b).nk := congrArg VBlk.nk e
  change c.ni = b.ni at e1
  change c.nj = b.nj at e2
  change c.nk = b.nk at e3
  rw [e1, e2, e3] at h2
  exact h2

theorem SameShape.get {mb mb' : List VBlk} (h : SameShape mb mb') {n : ℕ} {b : VBlk} (hb : getBlock mb n = some b) :
    ∃ b', getBlock mb' n = some b' ∧ strip b' = strip b := by
  have key : ∀ l : List VBlk, (getBlock l n).map strip = (l.map strip).find? fun b => b.num = n := by
    intro l
    unfold getBlock
    rw [List.find?_map]
    rfl
  have h1 := key mb'
  rw [← h, ← key mb, hb] at h1
  cases hg : getBlock mb' n with
  | none => rw [hg] at h1; cases h1
  | some b' =>
    rw [hg] at h1
    exact ⟨b', rfl, Option.some.inj h1⟩

theorem shape_mod (mb : List VBlk) (num nf : ℕ) (v : Option ℕ) :
    SameShape (modBlk mb num fun b => modFace b nf fun f => { f with neighbor := v }) mb := by
  unfold SameShape modBlk
  rw [List.map_map]
  refine List.map_congr_left fun b _ => ?_
  dsimp only [Function.comp]
  split_ifs
  · unfold strip modFace
    congr 1
    funext m
    dsimp only
    split_ifs <;> rfl
  · rfl

theorem shape_try (num nf : ℕ) (st : List VBlk × Inc) (t : ℕ × ℕ) : SameShape (tryMatch num nf st t).1 st.1 := by
  classical
  unfold tryMatch
  split_ifs
  · rfl
  · rfl
  · split
    · split_ifs
      · exact (shape_mod _ _ _ _).trans (shape_mod _ _ _ _)
      · rfl
    · rfl

theorem shape_fold {α : Type} (f : List VBlk × Inc → α → List VBlk × Inc) (hf : ∀ st t, SameShape (f st t).1 st.1) (l : List α)
    (st : List VBlk × Inc) : SameShape (l.foldl f st).1 st.1 := by
  induction l generalizing st with
  | nil => rfl
  | cons t l ih => exact (ih _).trans (hf st t)

theorem shape_find {mb out : List VBlk} {inc : Inc} (h : findInteriorNeighbor mb inc = some out) : SameShape out mb := by
  unfold findInteriorNeighbor at h
  dsimp only at h
  split_ifs at h
  obtain rfl := Option.some.inj h
  refine shape_fold _ (fun st t => ?_) _ _
  unfold findFace
  split
  · rfl
  · split_ifs
    · rfl
    · rfl
    · exact shape_fold _ (fun st t' => shape_try _ _ st t') _ _

/-! ### one cut -/

/-- what every step preserves -/
structure Kept (mb out : List VBlk) : Prop where
  distinct : Distinct out
  nums : (mb.map VBlk.num) <+: (out.map VBlk.num)
  cells : (gridCells out).Perm (gridCells mb)
  patches : (gridPatches out).Perm (gridPatches mb)

theorem Kept.refl {mb : List VBlk} (h : Distinct mb) : Kept mb mb := ⟨h, List.prefix_refl _, List.Perm.refl _, List.Perm.refl _⟩

theorem Kept.trans {a b c : List VBlk} (h : Kept a b) (h' : Kept b c) : Kept a c :=
  ⟨h'.distinct, h.nums.trans h'.nums, h'.cells.trans h.cells, h'.patches.trans h.patches⟩

theorem Kept.shape {a b c : List VBlk} (h : Kept a b) (h' : SameShape c b) : Kept a c :=
  ⟨by unfold Distinct; rw [h'.nums]; exact h.distinct, by rw [h'.nums]; exact h.nums, by rw [h'.cells]; exact h.cells,
    by rw [h'.patches]; exact h.patches⟩

theorem reach_lt {mb : List VBlk} {num a m ax : ℕ} {sw : Bool} (ha : a < 3) (h : Reach mb num a m ax sw) : ax < 3 := by
  induction h with
  | start => exact ha
  | step => exact Nat.mod_lt _ (by omega)

/-- the loop over the blocks of the path -/
def cutStep (cutNx cutIndex : ℕ) (st : List VBlk × Inc) (e : Entry) : Option (List VBlk × Inc) := do
  let b ← getBlock st.1 e.1
  if dim b e.2.1 ≠ cutNx then none
  else cutBlock st.1 e.1 e.2.1 (if e.2.2 then cutNx - cutIndex - 1 else cutIndex) st.2

theorem cutStep_spec {cutNx cutIndex : ℕ} {st st' : List VBlk × Inc} {e : Entry} (ha : e.2.1 < 3) (hd : Distinct st.1)
    (h : cutStep cutNx cutIndex st e = some st') :
    Kept st.1 st'.1 ∧ (if e.2.2 then cutNx - cutIndex - 1 else cutIndex) + 1 < cutNx ∧
    (Sized st.1 → 1 ≤ (if e.2.2 then cutNx - cutIndex - 1 else cutIndex) → Sized st'.1) ∧
    ∀ n b, getBlock st.1 n = some b → ∃ b', getBlock st'.1 n = some b' ∧
      ∀ ax < 3, dim b' ax = if n = e.1 ∧ ax = e.2.1 then (if e.2.2 then cutNx - cutIndex - 1 else cutIndex) + 1 else dim b ax := by
  unfold cutStep at h
  simp only [Option.bind_eq_bind, Option.bind_eq_some_iff] at h
  obtain ⟨b, hb, h⟩ := h
  have hdim : dim b e.2.1 = cutNx := by
    by_contra hc
    rw [if_pos hc] at h
    cases h
  rw [if_neg (not_not.2 hdim)] at h
  obtain ⟨mb', inc'⟩ := st'
  obtain ⟨old, ho, q1, q2, q3, q4, q5, q6, q7⟩ := cutBlock_spec ha hd h
  rw [ho] at hb
  obtain rfl := Option.some.inj hb
  rw [hdim] at q1
  exact ⟨⟨q2, ⟨_, q3.symm⟩, q4, q5⟩, q1, q6, fun n b hb => by obtain ⟨b', r1, _, r2⟩ := q7 n b hb; exact ⟨b', r1, r2⟩⟩

theorem cutLoop_spec {cutNx cutIndex : ℕ} (l : List Entry) : ∀ {st st' : List VBlk × Inc}, (∀ e ∈ l, e.2.1 < 3) → Distinct st.1 →
    l.foldlM (cutStep cutNx cutIndex) st = some st' →
    Kept st.1 st'.1 ∧ (Sized st.1 → 1 ≤ cutIndex → cutIndex + 1 < cutNx → Sized st'.1) ∧
    ∀ n b, getBlock st.1 n = some b → (∀ e ∈ l, e.1 ≠ n) → ∃ b', getBlock st'.1 n = some b' ∧ ∀ ax < 3, dim b' ax = dim b ax := by
  induction l with
  | nil =>
    intro st st' _ hd h
    obtain rfl := Option.some.inj h
    exact ⟨Kept.refl hd, fun h _ _ => h, fun n b hb _ => ⟨b, hb, fun _ _ => rfl⟩⟩
  | cons e l ih =>
    intro st st' ha hd h
    rw [List.foldlM_cons, Option.bind_eq_bind, Option.bind_eq_some_iff] at h
    obtain ⟨s1, h1, h2⟩ := h
    obtain ⟨k1, k2, k3, k4⟩ := cutStep_spec (ha e List.mem_cons_self) hd h1
    obtain ⟨r1, r2, r3⟩ := ih (fun e he => ha e (List.mem_cons_of_mem _ he)) k1.distinct h2
    refine ⟨k1.trans r1, fun hs hi hlt => r2 (k3 hs ?_) hi hlt, fun n b hb hne => ?_⟩
    · split_ifs <;> omega
    · obtain ⟨b1, hb1, d1⟩ := k4 n b hb
      obtain ⟨b2, hb2, d2⟩ := r3 n b1 hb1 fun e he => hne e (List.mem_cons_of_mem _ he)
      refine ⟨b2, hb2, fun ax hax => ?_⟩
      rw [d2 ax hax, d1 ax hax, if_neg]
      rintro ⟨rfl, _⟩
      exact hne e List.mem_cons_self rfl

theorem oneCut_spec {num a nCuts og cut : ℕ} {mb out : List VBlk} (ha : a < 3) (hd : Distinct mb)
    (h : oneCut num a nCuts og cut mb = some out) :
    ∃ b, getBlock mb num = some b ∧ og * (nCuts - cut) / (nCuts + 1) + 1 < dim b a ∧ Kept mb out ∧
      (Sized mb → 1 ≤ og * (nCuts - cut) / (nCuts + 1) → Sized out) ∧
      ∃ b', getBlock out num = some b' ∧ dim b' a = og * (nCuts - cut) / (nCuts + 1) + 1 := by
  unfold oneCut at h
  simp only [Option.bind_eq_bind, Option.bind_eq_some_iff] at h
  obtain ⟨L, hL, b, hb, st, hst, hf⟩ := h
  obtain ⟨⟨r, rfl⟩, hnd, hre, _⟩ := C44_path mb num a ha L hL
  change (List.foldlM (cutStep (dim b a) (og * (nCuts - cut) / (nCuts + 1))) (mb, []) ((num, a, false) :: r)) = some st at hst
  generalize og * (nCuts - cut) / (nCuts + 1) = idx at hst ⊢
  rw [List.foldlM_cons, Option.bind_eq_bind, Option.bind_eq_some_iff] at hst
  obtain ⟨s1, h1, h2⟩ := hst
  obtain ⟨k1, k2, k3, k4⟩ := cutStep_spec (e := (num, a, false)) ha hd h1
  have hlt : idx + 1 < dim b a := k2
  obtain ⟨r1, r2, r3⟩ := cutLoop_spec r (fun e he => reach_lt ha (hre e (List.mem_cons_of_mem _ he))) k1.distinct h2
  have hsh := shape_find hf
  refine ⟨b, hb, hlt, (k1.trans r1).shape hsh, fun hs hi => SameShape.sized hsh.symm (r2 (k3 hs hi) hi hlt), ?_⟩
  obtain ⟨b1, hb1, d1⟩ := k4 num b hb
  rw [List.map_cons, List.nodup_cons] at hnd
  obtain ⟨b2, hb2, d2⟩ := r3 num b1 hb1 fun e he hc => hnd.1 (List.mem_map.2 ⟨e, he, hc⟩)
  obtain ⟨b3, hb3, e3⟩ := SameShape.get hsh.symm hb2
  refine ⟨b3, hb3, ?_⟩
  have e4 : dim b3 a = dim b2 a := by
    have q1 : (strip b3).ni = (strip b2).ni := congrArg VBlk.ni e3
    have q2 : (strip b3).nj = (strip b2).nj := congrArg VBlk.nj e3
    have q3 : (strip b3).nk = (strip b2).nk := congrArg VBlk.nk e3
    interval_cases a
    · exact q1
    · exact q2
    · exact q3
  rw [e4, d2 a ha, d1 a ha, if_pos ⟨rfl, rfl⟩]
  rfl

/-! ### operations -/

theorem cutLoop_op {num a nCuts og : ℕ} (ha : a < 3) : ∀ (l : List ℕ) {mb out : List VBlk}, Distinct mb →
    l.foldlM (fun mb cut => oneCut num a nCuts og cut mb) mb = some out →
    Kept mb out ∧ ((∀ cut ∈ l, 1 ≤ og * (nCuts - cut) / (nCuts + 1)) → Sized mb → Sized out) := by
  intro l
  induction l with
  | nil =>
    intro mb out hd h
    obtain rfl := Option.some.inj h
    exact ⟨Kept.refl hd, fun _ h => h⟩
  | cons c l ih =>
    intro mb out hd h
    rw [List.foldlM_cons, Option.bind_eq_bind, Option.bind_eq_some_iff] at h
    obtain ⟨m1, h1, h2⟩ := h
    obtain ⟨b, _, _, k1, k2, _⟩ := oneCut_spec ha hd h1
    obtain ⟨r1, r2⟩ := ih k1.distinct h2
    exact ⟨k1.trans r1, fun hi hs => r2 (fun c hc => hi c (List.mem_cons_of_mem _ hc)) (k2 hs (hi c List.mem_cons_self))⟩

theorem cutOp_spec {mb out : List VBlk} {op : ℕ × ℕ × ℕ} (ha : op.2.1 < 3) (hd : Distinct mb) (h : cutOp mb op = some out) :
    Kept mb out ∧ (Sized mb → Sized out) := by
  obtain ⟨num, a, nCuts⟩ := op
  unfold cutOp at h
  simp only [Option.bind_eq_bind, Option.bind_eq_some_iff] at h
  obtain ⟨b, hb, h⟩ := h
  obtain ⟨k1, k2⟩ := cutLoop_op ha _ hd h
  refine ⟨k1, k2 fun cut hcut => ?_⟩
  have hc : cut < nCuts := List.mem_range.1 hcut
  -- the first cut tells that there are fewer cuts than cells
  have hfirst : dim b a * nCuts / (nCuts + 1) + 1 < dim b a := by
    obtain ⟨n, rfl⟩ : ∃ n, nCuts = n + 1 := ⟨nCuts - 1, by omega⟩
    rw [List.range_succ_eq_map, List.foldlM_cons, Option.bind_eq_bind, Option.bind_eq_some_iff] at h
    obtain ⟨m1, h1, _⟩ := h
    obtain ⟨b', hb', hlt, _⟩ := oneCut_spec ha hd h1
    rw [hb] at hb'
    obtain rfl := Option.some.inj hb'
    exact hlt
  have hmany : nCuts + 1 < dim b a := by
    generalize dim b a = og at hfirst
    have h1 : og * nCuts / (nCuts + 1) < og - 1 := by omega
    rw [Nat.div_lt_iff_lt_mul (by omega)] at h1
    rcases og with _ | og
    · omega
    · simp only [Nat.add_sub_cancel] at h1
      have : (og + 1) * nCuts = og * nCuts + nCuts := by ring
      have : og * (nCuts + 1) = og * nCuts + og := by ring
      omega
  exact ((C44_indices (dim b a) nCuts (by omega)).2 hmany).1 cut hc

theorem perform_spec : ∀ (ops : List (ℕ × ℕ × ℕ)) {mb out : List VBlk}, (∀ op ∈ ops, op.2.1 < 3) → Distinct mb →
    performCutOperations mb ops = some out → Kept mb out ∧ (Sized mb → Sized out) := by
  intro ops
  induction ops with
  | nil =>
    intro mb out _ hd h
    obtain rfl := Option.some.inj h
    exact ⟨Kept.refl hd, fun h => h⟩
  | cons op ops ih =>
    intro mb out ha hd h
    unfold performCutOperations at h
    rw [List.foldlM_cons, Option.bind_eq_bind, Option.bind_eq_some_iff] at h
    obtain ⟨m1, h1, h2⟩ := h
    obtain ⟨k1, k2⟩ := cutOp_spec (ha op List.mem_cons_self) hd h1
    obtain ⟨r1, r2⟩ := ih (fun op h => ha op (List.mem_cons_of_mem _ h)) k1.distinct h2
    exact ⟨k1.trans r1, fun hs => r2 (k2 hs)⟩

/-- C44: whenever the utility writes a grid after any sequence of cut operations, that grid has exactly the cells of the original one (the
    same eight nodes each, none lost, doubled or distorted) and exactly its boundary and periodic patches (the same type, family and nodes),
    every block has at least one cell each way, block numbers stay distinct and the old ones keep their places, and every face is a
    boundary or is attached to a block whose nodes coincide with its own and which points back. -/
theorem C44_cells_patches_valid (mb : List VBlk) (hd : Distinct mb) (hs : Sized mb) (ops : List (ℕ × ℕ × ℕ)) (ha : ∀ op ∈ ops, op.2.1 < 3)
    (out : List VBlk) (h : cutGrid mb ops = some out) :
    (gridCells out).Perm (gridCells mb) ∧ (gridPatches out).Perm (gridPatches mb) ∧ Sized out ∧ Distinct out ∧
    (mb.map VBlk.num) <+: (out.map VBlk.num) ∧ Valid out := by
  classical
  unfold cutGrid at h
  simp only [Option.bind_eq_bind, Option.bind_eq_some_iff] at h
  obtain ⟨o, ho, h⟩ := h
  split_ifs at h with hv
  obtain rfl := Option.some.inj h
  obtain ⟨k1, k2⟩ := perform_spec ops ha hd ho
  exact ⟨k1.cells, k1.patches, k2 hs, k1.distinct, k1.nums, (C59_verify_iff_partial _ (k2 hs)).1 hv⟩

end PG.Util
