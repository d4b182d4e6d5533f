import Verif.Util.CutBox
/-!
C44: the mode of `utilities/cutGrid.py` that cuts until no block is larger than a given number of cells.

Simplifications. Doubles are reals: `np.prod(nis / trialNsplits)` is the number of nodes divided by the number of pieces. Loops have a
fuel; see `C44_size_terminates` for the outer one. Block numbers are positions, so numpy's `argmax` gives the first largest block of the list.
-/
namespace PG.Util
open PG PG.Topo

/-- number of cells of a block, analyzeGrid.py:20 -/
def nCells (b : VBlk) : ℕ := (b.ni - 1) * (b.nj - 1) * (b.nk - 1)

/-- np.max(size), analyzeGrid.py:31 -/
def maxCells (mb : List VBlk) : ℕ := (mb.map nCells).foldr max 0

/-- the block np.argmax(size) finds, analyzeGrid.py:24 -/
def maxBlock (mb : List VBlk) : Option VBlk := mb.find? fun b => nCells b = maxCells mb

/-- the inner loop, cutGrid.py:428-436: from `s` pieces on, try one more piece until the pieces are small enough; `none` is the error
    raised when there are as many pieces as nodes along the axis -/
def splits (nodes maxSize n : ℕ) : ℕ → ℕ → Option ℕ
  | 0, _ => none
  | fuel + 1, s => if s + 1 ≥ n then none else if maxSize * (s + 1) < nodes then splits nodes maxSize n fuel (s + 1) else some s

/-- the operation chosen, cutGrid.py:422-452: the number of cuts of each axis, the number of blocks each would create, and the first
    axis with the fewest; the number of cuts is that of axis `a` = 2, the last of the loop -/
def chooseOp (mb : List VBlk) (maxSize : ℕ) : Option (ℕ × ℕ × ℕ) := do
  let b ← maxBlock mb
  let nodes := b.ni * b.nj * b.nk
  let c0 ← splits nodes maxSize b.ni b.ni 1
  let c1 ← splits nodes maxSize b.nj b.nj 1
  let c2 ← splits nodes maxSize b.nk b.nk 1
  let p0 ← cutPath mb b.num 0
  let p1 ← cutPath mb b.num 1
  let p2 ← cutPath mb b.num 2
  let n0 := p0.length * (c0 - 1)
  let n1 := p1.length * (c1 - 1)
  let n2 := p2.length * (c2 - 1)
  some (b.num, if n0 ≤ min n1 n2 then 0 else if n1 ≤ n2 then 1 else 2, c2)

/-- the outer loop, cutGrid.py:416-460: `none` is an error, `(false, _)` out of fuel -/
noncomputable def sizeLoop (maxSize : ℕ) : ℕ → List VBlk → Option (Bool × List VBlk)
  | 0, mb => if maxCells mb ≤ maxSize then some (true, mb) else some (false, mb)
  | fuel + 1, mb =>
    if maxCells mb ≤ maxSize then some (true, mb)
    else do
      let op ← chooseOp mb maxSize
      let mb ← performCutOperations mb [op]
      sizeLoop maxSize fuel mb

open Classical in
/-- the utility with a maximal size, cutGrid.py:389-397, 415-481 -/
noncomputable def cutGridSize (mb : List VBlk) (maxSize fuel : ℕ) : Option (Bool × List VBlk) := do
  let r ← sizeLoop maxSize fuel mb
  if verify r.2 = some true then some r else none

/-! ### proof -/

theorem splits_pos {nodes maxSize n : ℕ} : ∀ fuel s c, 1 ≤ s → splits nodes maxSize n fuel s = some c → s ≤ c ∧ c + 1 < n ∧ nodes ≤ maxSize * (c + 1) := by
  intro fuel
  induction fuel with
  | zero => intro s c _ h; cases h
  | succ fuel ih =>
    intro s c hs h
    rw [splits] at h
    by_cases h1 : s + 1 ≥ n
    · rw [if_pos h1] at h; cases h
    rw [if_neg h1] at h
    by_cases h2 : maxSize * (s + 1) < nodes
    · rw [if_pos h2] at h
      obtain ⟨q1, q2, q3⟩ := ih (s + 1) c (by omega) h
      exact ⟨by omega, q2, q3⟩
    · rw [if_neg h2] at h
      obtain rfl := Option.some.inj h
      exact ⟨le_refl _, by omega, by omega⟩

/-- all axes ask for the same number of cuts, so it does not matter that the number for the last axis is used -/
theorem splits_same {nodes maxSize n n' : ℕ} : ∀ fuel fuel' s c c', splits nodes maxSize n fuel s = some c →
    splits nodes maxSize n' fuel' s = some c' → c = c' := by
  intro fuel
  induction fuel with
  | zero => intro _ s c c' h; cases h
  | succ fuel ih =>
    intro fuel' s c c' h h'
    cases fuel' with
    | zero => cases h'
    | succ fuel' =>
      rw [splits] at h h'
      by_cases h1 : s + 1 ≥ n
      · rw [if_pos h1] at h; cases h
      by_cases h1' : s + 1 ≥ n'
      · rw [if_pos h1'] at h'; cases h'
      rw [if_neg h1] at h
      rw [if_neg h1'] at h'
      by_cases h2 : maxSize * (s + 1) < nodes
      · rw [if_pos h2] at h h'
        exact ih fuel' (s + 1) c c' h h'
      · rw [if_neg h2] at h h'
        exact Option.some.inj (h.symm.trans h')

theorem chooseOp_spec {mb : List VBlk} {maxSize : ℕ} {op : ℕ × ℕ × ℕ} (h : chooseOp mb maxSize = some op) :
    op.2.1 < 3 ∧ 1 ≤ op.2.2 ∧ ∃ b, maxBlock mb = some b ∧ op.1 = b.num ∧ b.ni * b.nj * b.nk ≤ maxSize * (op.2.2 + 1) ∧
      op.2.2 + 1 < dim b op.2.1 := by
  unfold chooseOp at h
  simp only [Option.bind_eq_bind, Option.bind_eq_some_iff] at h
  obtain ⟨b, hb, c0, h0, c1, h1, c2, h2, p0, _, p1, _, p2, _, h⟩ := h
  obtain rfl := Option.some.inj h
  obtain ⟨a1, a2, a3⟩ := splits_pos _ _ _ (le_refl _) h0
  obtain ⟨b1, b2, b3⟩ := splits_pos _ _ _ (le_refl _) h1
  obtain ⟨d1, d2, d3⟩ := splits_pos _ _ _ (le_refl _) h2
  have e1 := splits_same _ _ _ _ _ h0 h2
  have e2 := splits_same _ _ _ _ _ h1 h2
  subst e1 e2
  refine ⟨?_, d1, b, hb, rfl, d3, ?_⟩
  · dsimp only
    split_ifs <;> omega
  · dsimp only
    split_ifs
    · exact a2
    · exact b2
    · exact d2

/-! every operation with a cut adds a block -/

theorem cutStep_length {cutNx cutIndex : ℕ} {st st' : List VBlk × Inc} {e : Entry} (h : cutStep cutNx cutIndex st e = some st') :
    st'.1.length = st.1.length + 1 := by
  unfold cutStep at h
  simp only [Option.bind_eq_bind, Option.bind_eq_some_iff] at h
  obtain ⟨b, hb, h⟩ := h
  split_ifs at h <;>
  · unfold cutBlock at h
    simp only [Option.bind_eq_bind, Option.bind_eq_some_iff] at h
    obtain ⟨old, ho, h⟩ := h
    split_ifs at h
    obtain ⟨mb1, hm1, h⟩ := Option.bind_eq_some_iff.1 h
    obtain rfl := Option.some.inj h
    have : mb1.length = st.1.length := by
      unfold relink at hm1
      split at hm1
      · rw [Option.some.inj hm1]
      · simp only [Option.bind_eq_bind, Option.bind_eq_some_iff] at hm1
        obtain ⟨_, _, o, _, nf, _, e⟩ := hm1
        rw [← Option.some.inj e]
        unfold modBlk
        rw [List.length_map]
    unfold modBlk
    rw [List.length_append, List.length_map, this]
    rfl

theorem cutLoop_length {cutNx cutIndex : ℕ} (l : List Entry) : ∀ {st st' : List VBlk × Inc},
    l.foldlM (cutStep cutNx cutIndex) st = some st' → st'.1.length = st.1.length + l.length := by
  induction l with
  | nil => intro st st' h; obtain rfl := Option.some.inj h; rfl
  | cons e l ih =>
    intro st st' h
    rw [List.foldlM_cons, Option.bind_eq_bind, Option.bind_eq_some_iff] at h
    obtain ⟨s1, h1, h2⟩ := h
    rw [ih h2, cutStep_length h1, List.length_cons]
    omega

theorem oneCut_length {num a nCuts og cut : ℕ} {mb out : List VBlk} (ha : a < 3) (h : oneCut num a nCuts og cut mb = some out) :
    mb.length < out.length := by
  unfold oneCut at h
  simp only [Option.bind_eq_bind, Option.bind_eq_some_iff] at h
  obtain ⟨L, hL, b, hb, st, hst, hf⟩ := h
  obtain ⟨⟨r, rfl⟩, _⟩ := C44_path mb num a ha L hL
  change (List.foldlM (cutStep (dim b a) (og * (nCuts - cut) / (nCuts + 1))) (mb, []) ((num, a, false) :: r)) = some st at hst
  have h1 := cutLoop_length _ hst
  have h2 := congrArg List.length (shape_find hf)
  rw [List.length_map, List.length_map] at h2
  rw [List.length_cons] at h1
  dsimp only at h1
  omega

theorem perform_length {mb out : List VBlk} {op : ℕ × ℕ × ℕ} (ha : op.2.1 < 3) (h1 : 1 ≤ op.2.2) (h : performCutOperations mb [op] = some out) :
    mb.length < out.length := by
  unfold performCutOperations at h
  rw [List.foldlM_cons, Option.bind_eq_bind, Option.bind_eq_some_iff] at h
  obtain ⟨m1, h, h'⟩ := h
  obtain rfl := Option.some.inj h'
  unfold cutOp at h
  simp only [Option.bind_eq_bind, Option.bind_eq_some_iff] at h
  obtain ⟨b, hb, h⟩ := h
  have mono : ∀ (l : List ℕ) (mb out : List VBlk), l.foldlM (fun mb cut => oneCut op.1 op.2.1 op.2.2 (dim b op.2.1) cut mb) mb = some out →
      mb.length + l.length ≤ out.length := by
    intro l
    induction l with
    | nil => intro mb out h; obtain rfl := Option.some.inj h; exact le_refl _
    | cons c l ih =>
      intro mb out h
      rw [List.foldlM_cons, Option.bind_eq_bind, Option.bind_eq_some_iff] at h
      obtain ⟨s1, h1, h2⟩ := h
      have := ih _ _ h2
      have := oneCut_length ha h1
      rw [List.length_cons]
      omega
  have := mono _ _ _ h
  rw [List.length_range] at this
  omega

theorem length_cells (b : VBlk) : (cells b).length = nCells b := by
  unfold cells nCells
  simp only [List.length_flatMap, List.length_map, List.length_range, List.map_const', List.sum_replicate, smul_eq_mul, mul_assoc]

theorem length_le_cells {mb : List VBlk} (hs : Sized mb) : mb.length ≤ (gridCells mb).length := by
  induction mb with
  | nil => exact Nat.zero_le _
  | cons b t ih =>
    have h1 := hs b List.mem_cons_self
    have h2 := ih fun c hc => hs c (List.mem_cons_of_mem _ hc)
    have h3 : 1 ≤ nCells b := by
      unfold nCells
      have e1 : 1 ≤ b.ni - 1 := by omega
      have e2 : 1 ≤ b.nj - 1 := by omega
      have e3 : 1 ≤ b.nk - 1 := by omega
      exact Nat.mul_pos (Nat.mul_pos e1 e2) e3
    unfold gridCells at *
    rw [List.flatMap_cons, List.length_append, List.length_cons, length_cells]
    omega

theorem le_maxCells {mb : List VBlk} : ∀ b ∈ mb, nCells b ≤ maxCells mb := by
  induction mb with
  | nil => intro b hb; exact absurd hb List.not_mem_nil
  | cons c t ih =>
    intro b hb
    rcases List.mem_cons.1 hb with rfl | hb
    · exact le_max_left _ _
    · exact (ih b hb).trans (le_max_right _ _)

theorem sizeLoop_spec (maxSize : ℕ) : ∀ (fuel : ℕ) {mb : List VBlk} {r : Bool × List VBlk}, Distinct mb →
    sizeLoop maxSize fuel mb = some r → Kept mb r.2 ∧ (Sized mb → Sized r.2) ∧ (r.1 = true → maxCells r.2 ≤ maxSize) ∧
      (r.1 = false → mb.length + fuel ≤ r.2.length ∧ maxSize < maxCells r.2) := by
  intro fuel
  induction fuel with
  | zero =>
    intro mb r hd h
    rw [sizeLoop] at h
    by_cases hm : maxCells mb ≤ maxSize
    · rw [if_pos hm] at h
      obtain rfl := Option.some.inj h
      exact ⟨Kept.refl hd, id, fun _ => hm, fun h => by cases h⟩
    · rw [if_neg hm] at h
      obtain rfl := Option.some.inj h
      exact ⟨Kept.refl hd, id, (fun h => by cases h), fun _ => ⟨le_refl _, by show maxSize < maxCells mb; omega⟩⟩
  | succ fuel ih =>
    intro mb r hd h
    rw [sizeLoop] at h
    by_cases hm : maxCells mb ≤ maxSize
    · rw [if_pos hm] at h
      obtain rfl := Option.some.inj h
      exact ⟨Kept.refl hd, id, fun _ => hm, fun h => by cases h⟩
    · rw [if_neg hm] at h
      simp only [Option.bind_eq_bind, Option.bind_eq_some_iff] at h
      obtain ⟨op, hop, m1, h1, h2⟩ := h
      obtain ⟨o1, o2, _⟩ := chooseOp_spec hop
      obtain ⟨k1, k2⟩ := perform_spec [op] (by simpa using o1) hd h1
      obtain ⟨r1, r2, r3, r4⟩ := ih k1.distinct h2
      refine ⟨k1.trans r1, fun hs => r2 (k2 hs), r3, fun hf => ⟨?_, (r4 hf).2⟩⟩
      have := (r4 hf).1
      have := perform_length o1 o2 h1
      omega

/-- C44 (maximal size): whenever the utility writes a grid in this mode, no block has more than the requested number of cells, and the
    grid has the cells and patches of the original, distinct numbers, sizes of at least one cell, and valid connections. -/
theorem C44_size (mb : List VBlk) (hd : Distinct mb) (hs : Sized mb) (maxSize fuel : ℕ) (out : List VBlk)
    (h : cutGridSize mb maxSize fuel = some (true, out)) :
    (∀ b ∈ out, (b.ni - 1) * (b.nj - 1) * (b.nk - 1) ≤ maxSize) ∧
    (gridCells out).Perm (gridCells mb) ∧ (gridPatches out).Perm (gridPatches mb) ∧ Sized out ∧ Distinct out ∧ Valid out := by
  classical
  unfold cutGridSize at h
  simp only [Option.bind_eq_bind, Option.bind_eq_some_iff] at h
  obtain ⟨r, hr, h⟩ := h
  split_ifs at h with hv
  obtain rfl := Option.some.inj h
  obtain ⟨k1, k2, k3, _⟩ := sizeLoop_spec maxSize fuel hd hr
  exact ⟨fun b hb => (le_maxCells b hb).trans (k3 rfl), k1.cells, k1.patches, k2 hs, k1.distinct, (C59_verify_iff_partial _ (k2 hs)).1 hv⟩

/-- C44 (termination): the loop over the largest blocks ends, by success or by an error, after at most as many rounds as the grid has
    cells. -/
theorem C44_size_terminates (mb : List VBlk) (hd : Distinct mb) (hs : Sized mb) (maxSize fuel : ℕ)
    (hf : (gridCells mb).length ≤ fuel) (hne : mb ≠ []) (r : Bool × List VBlk)
    (h : sizeLoop maxSize fuel mb = some r) : r.1 = true := by
  obtain ⟨k1, k2, _, k4⟩ := sizeLoop_spec maxSize fuel hd h
  cases hr : r.1 with
  | true => rfl
  | false =>
    obtain ⟨h1, _⟩ := k4 hr
    have h2 := length_le_cells (k2 hs)
    rw [k1.cells.length_eq] at h2
    have h3 : 0 < mb.length := List.length_pos_iff.2 hne
    omega

/-- a cube of 64 cells with walls is cut in two halves of 32 cells when at most 63 are allowed -/
example : ∃ out, cutGridSize [⟨0, 5, 5, 5, fun i j k => ⟨i, j, k⟩, fun _ => wallFace⟩] 63 64 = some (true, out) ∧ out.length = 2 := by
  classical
  generalize hb : (⟨0, 5, 5, 5, fun i j k => ⟨i, j, k⟩, fun _ => wallFace⟩ : VBlk) = b
  have d0 : b.num = 0 := by rw [← hb]
  have d1 : b.ni = 5 := by rw [← hb]
  have d2 : b.nj = 5 := by rw [← hb]
  have d3 : b.nk = 5 := by rw [← hb]
  have hn : ∀ nf, 1 ≤ nf → nf ≤ 6 → (b.face nf).neighbor = none ∧ GoodBoundary (b.face nf) := by
    intro nf _ _
    rw [← hb]
    exact ⟨rfl, wall_good⟩
  have hn' : ∀ nf, 1 ≤ nf → nf ≤ 6 → (b.face nf).neighbor = none := fun nf h1 h2 => (hn nf h1 h2).1
  have hdim : dim b 0 = 5 := d1
  have hidx : dim b 0 / 2 + 1 < dim b 0 := by omega
  have hval := box_valid b (a := 0) (idx := dim b 0 / 2) (by omega) hidx (by omega) hn
    (by rw [← hb]; simp [NotLeftHanded, V3.det, V3.dot, V3.cross])
    (by rw [← hb]; simp [NotLeftHanded, keepHigh, dim, V3.det, V3.dot, V3.cross])
  have hop := box_perform b (a := 0) (by omega) hidx hn'
  have hsz := (perform_spec [(b.num, 0, 1)] (by simp) (by simp [Distinct]) hop).2 (by simp [Sized, d1, d2, d3])
  have hmax : maxCells [leftBlk 0 (dim b 0 / 2) (b.num + 1) b, rightBlk 0 (dim b 0 / 2) (b.num + 1) b] ≤ 63 := by
    rw [hdim]
    simp [maxCells, nCells, leftBlk, rightBlk, keepLow, keepHigh, modFace, d1, d2, d3]
  have hmc : maxCells [b] = 64 := by simp [maxCells, nCells, d1, d2, d3]
  have hch : chooseOp [b] 63 = some (b.num, 0, 1) := by
    unfold chooseOp
    have : maxBlock [b] = some b := by
      unfold maxBlock
      rw [List.find?_cons, hmc, show decide (nCells b = 64) = true from decide_eq_true (by simp [nCells, d1, d2, d3])]
    have s5 : splits (5 * 5 * 5) 63 5 5 1 = some 1 := by decide
    simp only [this, Option.bind_eq_bind, Option.bind_some, d1, d2, d3, s5, box_path b (show 0 < 3 by omega) hn',
      box_path b (show 1 < 3 by omega) hn', box_path b (show 2 < 3 by omega) hn']
    rfl
  refine ⟨[leftBlk 0 (dim b 0 / 2) (b.num + 1) b, rightBlk 0 (dim b 0 / 2) (b.num + 1) b], ?_, rfl⟩
  generalize [leftBlk 0 (dim b 0 / 2) (b.num + 1) b, rightBlk 0 (dim b 0 / 2) (b.num + 1) b] = out at hval hop hsz hmax
  unfold cutGridSize
  have : sizeLoop 63 64 [b] = some (true, out) := by
    rw [sizeLoop, if_neg (by omega), hch]
    show (performCutOperations [b] [(b.num, 0, 1)]).bind _ = _
    rw [hop]
    show sizeLoop 63 63 out = _
    rw [sizeLoop, if_pos hmax]
  rw [this]
  exact if_pos ((C59_verify_iff_partial _ hsz).2 hval)

end PG.Util
