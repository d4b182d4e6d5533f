import Verif.Util.CutMain
/-!
C44: cutting a block without neighbours always works.
-/
namespace PG.Util
open PG PG.Topo

theorem getBlock_one (b : VBlk) : getBlock [b] b.num = some b := by
  unfold getBlock
  rw [List.find?_cons, show decide (b.num = b.num) = true from decide_eq_true rfl]

theorem box_path (b : VBlk) {a : ℕ} (ha : a < 3) (hn : ∀ nf, 1 ≤ nf → nf ≤ 6 → (b.face nf).neighbor = none) :
    cutPath [b] b.num a = some [(b.num, a, false)] := by
  have hf : ∀ st : List Entry × List Entry, (splitFaces a).foldlM (pathFace b a false) st = some st := by
    intro st
    have : ∀ l : List ℕ, (∀ nf ∈ l, 1 ≤ nf ∧ nf ≤ 6) → l.foldlM (pathFace b a false) st = some st := by
      intro l
      induction l with
      | nil => intro _; rfl
      | cons nf l ih =>
        intro h
        rw [List.foldlM_cons]
        have h1 := h nf List.mem_cons_self
        have : pathFace b a false st nf = some st := by
          unfold pathFace
          rw [hn nf h1.1 h1.2]
        rw [this]
        exact ih fun nf h' => h nf (List.mem_cons_of_mem _ h')
    refine this _ fun nf h => ?_
    have := (mem_splitFaces ha).1 h
    exact ⟨this.1, this.2.1⟩
  unfold cutPath
  show pathLoop [b] 1 ([(b.num, a, false)], [(b.num, a, false)]) = _
  rw [pathLoop, getBlock_one]
  show ((splitFaces a).foldlM (pathFace b a false) ([(b.num, a, false)], [])).bind _ = _
  rw [hf]
  rfl

theorem find_done {mb : List VBlk} {inc : Inc} (h : ∀ t ∈ allFaces inc, isFound inc t.1 t.2 = true) : findInteriorNeighbor mb inc = some mb := by
  have key : ∀ l : List (ℕ × ℕ), (∀ t ∈ l, isFound inc t.1 t.2 = true) → l.foldl findFace (mb, inc) = (mb, inc) := by
    intro l
    induction l with
    | nil => intro _; rfl
    | cons t l ih =>
      intro h
      rw [List.foldl_cons]
      have : findFace (mb, inc) t = (mb, inc) := by
        unfold findFace
        have ht := h t List.mem_cons_self
        dsimp only
        split
        · rfl
        · rw [if_pos ht]
          split_ifs <;> rfl
      rw [this]
      exact ih fun t ht => h t (List.mem_cons_of_mem _ ht)
  unfold findInteriorNeighbor
  dsimp only
  rw [key _ h, if_pos]
  exact List.all_eq_true.2 h

theorem nextNum_one (b : VBlk) : nextNum [b] = b.num + 1 := by
  simp [nextNum]

theorem keep_face (c : VBlk) (a idx : ℕ) : (keepLow c a idx).face = c.face := by
  unfold keepLow; split <;> rfl

theorem left_num (b : VBlk) (a idx : ℕ) : (leftBlk a idx (b.num + 1) b).num = b.num := by
  unfold leftBlk
  rw [keep_num]
  rfl

theorem box_cutBlock (b : VBlk) {a idx : ℕ} (ha : a < 3) (hidx : idx + 1 < dim b a)
    (hn : ∀ nf, 1 ≤ nf → nf ≤ 6 → (b.face nf).neighbor = none) :
    cutBlock [b] b.num a idx [] = some ([leftBlk a idx (b.num + 1) b, rightBlk a idx (b.num + 1) b],
      [(b.num, cutFlags b a), (b.num + 1, cutFlags b a)]) := by
  unfold cutBlock
  rw [getBlock_one]
  show (if idx + 1 < dim b a then _ else none) = _
  rw [if_pos hidx]
  have hre : relink [b] b a = some [b] := by
    unfold relink
    rw [hn (hiFace a) (by unfold hiFace; omega) (by unfold hiFace; omega)]
  rw [hre, nextNum_one]
  show some (modBlk [b] b.num _ ++ _, _) = _
  unfold modBlk
  rw [List.map_cons, if_pos rfl]
  rfl

theorem box_found (b : VBlk) (a : ℕ) (hn : ∀ nf, 1 ≤ nf → nf ≤ 6 → (b.face nf).neighbor = none) :
    ∀ t ∈ allFaces [(b.num, cutFlags b a), (b.num + 1, cutFlags b a)], isFound [(b.num, cutFlags b a), (b.num + 1, cutFlags b a)] t.1 t.2 = true := by
  intro t ht
  have hfl : ∀ nf ∈ [1, 2, 3, 4, 5, 6], cutFlags b a nf = true := by
    intro nf hnf
    simp only [List.mem_cons, List.not_mem_nil, or_false] at hnf
    unfold cutFlags
    rw [hn nf (by omega) (by omega)]
    simp
  have hne : ¬ b.num = b.num + 1 := by omega
  unfold allFaces at ht
  simp only [List.flatMap_cons, List.flatMap_nil, List.append_nil, List.mem_append, List.mem_map] at ht
  unfold isFound
  rcases ht with ⟨nf, hnf, rfl⟩ | ⟨nf, hnf, rfl⟩
  · rw [List.find?_cons, decide_eq_true rfl]
    exact hfl nf hnf
  · rw [List.find?_cons, decide_eq_false hne, List.find?_cons, decide_eq_true rfl]
    exact hfl nf hnf

theorem box_oneCut (b : VBlk) {a : ℕ} (ha : a < 3) (hidx : dim b a / 2 + 1 < dim b a)
    (hn : ∀ nf, 1 ≤ nf → nf ≤ 6 → (b.face nf).neighbor = none) :
    oneCut b.num a 1 (dim b a) 0 [b] = some [leftBlk a (dim b a / 2) (b.num + 1) b, rightBlk a (dim b a / 2) (b.num + 1) b] := by
  unfold oneCut
  rw [box_path b ha hn, getBlock_one]
  show (List.foldlM (cutStep (dim b a) (dim b a * (1 - 0) / (1 + 1))) ([b], []) [(b.num, a, false)]).bind
    (fun st => findInteriorNeighbor st.1 st.2) = _
  rw [Nat.sub_zero, mul_one, List.foldlM_cons]
  have hstep : cutStep (dim b a) (dim b a / 2) ([b], []) (b.num, a, false) =
      some ([leftBlk a (dim b a / 2) (b.num + 1) b, rightBlk a (dim b a / 2) (b.num + 1) b],
      [(b.num, cutFlags b a), (b.num + 1, cutFlags b a)]) := by
    unfold cutStep
    dsimp only
    rw [getBlock_one]
    show (if dim b a ≠ dim b a then none else cutBlock [b] b.num a (dim b a / 2) []) = _
    rw [if_neg (fun h => h rfl)]
    exact box_cutBlock b ha hidx hn
  rw [hstep]
  have := find_done (mb := [leftBlk a (dim b a / 2) (b.num + 1) b, rightBlk a (dim b a / 2) (b.num + 1) b]) (box_found b a hn)
  generalize [leftBlk a (dim b a / 2) (b.num + 1) b, rightBlk a (dim b a / 2) (b.num + 1) b] = out at this
  generalize [(b.num, cutFlags b a), (b.num + 1, cutFlags b a)] = inc at this
  exact this

theorem box_perform (b : VBlk) {a : ℕ} (ha : a < 3) (hidx : dim b a / 2 + 1 < dim b a)
    (hn : ∀ nf, 1 ≤ nf → nf ≤ 6 → (b.face nf).neighbor = none) : performCutOperations [b] [(b.num, a, 1)] =
      some [leftBlk a (dim b a / 2) (b.num + 1) b, rightBlk a (dim b a / 2) (b.num + 1) b] := by
  unfold performCutOperations
  rw [List.foldlM_cons]
  unfold cutOp
  rw [getBlock_one]
  show ((List.range 1).foldlM (fun mb cut => oneCut b.num a 1 (dim b a) cut mb) [b]).bind _ = _
  rw [List.range_one, List.foldlM_cons, box_oneCut b ha hidx hn]
  rfl

theorem box_valid (b : VBlk) {a idx : ℕ} (ha : a < 3) (hidx : idx + 1 < dim b a) (h1 : 1 ≤ idx)
    (hn : ∀ nf, 1 ≤ nf → nf ≤ 6 → (b.face nf).neighbor = none ∧ GoodBoundary (b.face nf)) (hr : NotLeftHanded b)
    (hr2 : NotLeftHanded (keepHigh b a idx)) : Valid [leftBlk a idx (b.num + 1) b, rightBlk a idx (b.num + 1) b] := by
  have gL : getBlock [leftBlk a idx (b.num + 1) b, rightBlk a idx (b.num + 1) b] b.num = some (leftBlk a idx (b.num + 1) b) := by
    unfold getBlock
    rw [List.find?_cons, show decide ((leftBlk a idx (b.num + 1) b).num = b.num) = true from decide_eq_true (keep_num _ _ _)]
  have gR : getBlock [leftBlk a idx (b.num + 1) b, rightBlk a idx (b.num + 1) b] (b.num + 1) = some (rightBlk a idx (b.num + 1) b) := by
    unfold getBlock
    rw [List.find?_cons, show decide ((leftBlk a idx (b.num + 1) b).num = b.num + 1) = false from decide_eq_false (by
      rw [show (leftBlk a idx (b.num + 1) b).num = b.num from keep_num _ _ _]; omega), List.find?_cons,
      show decide ((rightBlk a idx (b.num + 1) b).num = b.num + 1) = true from decide_eq_true rfl]
  have fL : ∀ nf, (leftBlk a idx (b.num + 1) b).face nf = if nf = hiFace a then ⟨"b0", none, some (b.num + 1), some ⟨1, 2, 3⟩,
      (b.face nf).axis, (b.face nf).span, (b.face nf).rotUp, (b.face nf).rotDown⟩ else b.face nf := by
    intro nf
    unfold leftBlk
    rw [keep_face]
    rfl
  have fR : ∀ nf, (rightBlk a idx (b.num + 1) b).face nf = newFaces b a nf := fun _ => rfl
  have hb0 : shift (⟨"b0", none, some (b.num + 1), some ⟨1, 2, 3⟩, (b.face (hiFace a)).axis, (b.face (hiFace a)).span,
      (b.face (hiFace a)).rotUp, (b.face (hiFace a)).rotDown⟩ : VFace) = id := by
    funext p
    simp [shift]
  have hb1 : shift (⟨"b0", none, some b.num, some ⟨1, 2, 3⟩, 0, 0, id, id⟩ : VFace) = id := by
    funext p
    simp [shift]
  have hlh : loFace a ≠ hiFace a := by unfold loFace hiFace; omega
  intro c hc
  simp only [List.mem_cons, List.not_mem_nil, or_false] at hc
  rcases hc with rfl | rfl
  · refine ⟨?_, fun nf n1 n2 => ?_⟩
    · unfold NotLeftHanded leftBlk keepLow
      interval_cases a <;> exact hr
    · by_cases hh : nf = hiFace a
      · rw [fL, if_pos hh]
        show GoodConnection _ _ nf (b.num + 1)
        refine ⟨⟨1, 2, 3⟩, _, loFace a, by rw [fL, if_pos hh], by decide, gR, by subst hh; interval_cases a <;> rfl, ?_, ?_, ?_⟩
        · rw [fR, newFaces, if_neg hlh, if_pos rfl]
          exact congrArg some (left_num b a idx).symm
        · intro i hi hne
          subst hh
          interval_cases a <;> interval_cases i <;> first | rfl | exact absurd rfl hne
        · intro d d' hd hdd
          have e0 := hdd 0 (by omega)
          have e1 := hdd 1 (by omega)
          have e2 := hdd 2 (by omega)
          have hq := hd.2
          rw [fL, if_pos hh]
          subst hh
          rw [hb0]
          refine near_of_eq ?_
          interval_cases a
          · change d 0 = idx + 1 - 1 at hq
            change d' 0 = 0 at e0
            change d' 1 = d 1 at e1
            change d' 2 = d 2 at e2
            show b.x (d 0) (d 1) (d 2) = b.x (d' 0 + idx) (d' 1) (d' 2)
            rw [e0, e1, e2, hq, Nat.add_sub_cancel, Nat.zero_add]
          · change d 1 = idx + 1 - 1 at hq
            change d' 0 = d 0 at e0
            change d' 1 = 0 at e1
            change d' 2 = d 2 at e2
            show b.x (d 0) (d 1) (d 2) = b.x (d' 0) (d' 1 + idx) (d' 2)
            rw [e0, e1, e2, hq, Nat.add_sub_cancel, Nat.zero_add]
          · change d 2 = idx + 1 - 1 at hq
            change d' 0 = d 0 at e0
            change d' 1 = d 1 at e1
            change d' 2 = 0 at e2
            show b.x (d 0) (d 1) (d 2) = b.x (d' 0) (d' 1) (d' 2 + idx)
            rw [e0, e1, e2, hq, Nat.add_sub_cancel, Nat.zero_add]
      · rw [fL, if_neg hh, (hn nf n1 n2).1]
        exact (hn nf n1 n2).2
  · refine ⟨hr2, fun nf n1 n2 => ?_⟩
    have good : ∀ nb, GoodBoundary (copyInfo (b.face nf) nb) := by
      intro nb
      have := (hn nf n1 n2).2
      obtain ⟨q1, q2, q3, q4⟩ := copyInfo_eq (b.face nf) nb
      unfold GoodBoundary
      rw [q1, q2, q3]
      exact this
    by_cases hh : nf = hiFace a
    · rw [fR, newFaces, if_pos hh, (copyInfo_eq _ _).2.2.2, (hn nf n1 n2).1]
      exact good _
    · by_cases hl : nf = loFace a
      · rw [fR, newFaces, if_neg hh, if_pos hl]
        show GoodConnection _ _ nf b.num
        refine ⟨⟨1, 2, 3⟩, _, hiFace a, by rw [fR, newFaces, if_neg hh, if_pos hl], by decide, gL, by subst hl; interval_cases a <;> rfl, ?_, ?_, ?_⟩
        · rw [fL, if_pos rfl]; rfl
        · intro i hi hne
          subst hl
          interval_cases a <;> interval_cases i <;> first | rfl | exact absurd rfl hne
        · intro d d' hd hdd
          have e0 := hdd 0 (by omega)
          have e1 := hdd 1 (by omega)
          have e2 := hdd 2 (by omega)
          have hq := hd.2
          rw [fR, newFaces, if_neg hh, if_pos hl]
          subst hl
          rw [hb1]
          refine near_of_eq ?_
          interval_cases a
          · change d 0 = 0 at hq
            change d' 0 = idx + 1 - 1 at e0
            change d' 1 = d 1 at e1
            change d' 2 = d 2 at e2
            show b.x (d 0 + idx) (d 1) (d 2) = b.x (d' 0) (d' 1) (d' 2)
            rw [e0, e1, e2, hq, Nat.add_sub_cancel, Nat.zero_add]
          · change d 1 = 0 at hq
            change d' 0 = d 0 at e0
            change d' 1 = idx + 1 - 1 at e1
            change d' 2 = d 2 at e2
            show b.x (d 0) (d 1 + idx) (d 2) = b.x (d' 0) (d' 1) (d' 2)
            rw [e0, e1, e2, hq, Nat.add_sub_cancel, Nat.zero_add]
          · change d 2 = 0 at hq
            change d' 0 = d 0 at e0
            change d' 1 = d 1 at e1
            change d' 2 = idx + 1 - 1 at e2
            show b.x (d 0) (d 1) (d 2 + idx) = b.x (d' 0) (d' 1) (d' 2)
            rw [e0, e1, e2, hq, Nat.add_sub_cancel, Nat.zero_add]
      · rw [fR, newFaces, if_neg hh, if_neg hl, (copyInfo_eq _ _).2.2.2]
        exact good _

/-- C44 (it works): halving a block without neighbours along any axis, at least two cells long, succeeds, whatever its size, nodes and
    boundary conditions, as long as the first corners of the two halves are not left-handed. The result is the low half, under the old
    number, and the high half, under the next one; both hold the plane of nodes between them. -/
theorem C44_box (b : VBlk) (a : ℕ) (ha : a < 3) (hs : 2 ≤ b.ni ∧ 2 ≤ b.nj ∧ 2 ≤ b.nk) (h3 : 3 ≤ dim b a)
    (hn : ∀ nf, 1 ≤ nf → nf ≤ 6 → (b.face nf).neighbor = none ∧ GoodBoundary (b.face nf)) (hr : NotLeftHanded b)
    (hr2 : NotLeftHanded (keepHigh b a (dim b a / 2))) :
    ∃ l r, cutGrid [b] [(b.num, a, 1)] = some [l, r] ∧ l.num = b.num ∧ r.num = b.num + 1 ∧
      dim l a = dim b a / 2 + 1 ∧ dim r a = dim b a - dim b a / 2 ∧ (∀ ax < 3, ax ≠ a → dim l ax = dim b ax ∧ dim r ax = dim b ax) ∧
      (∀ c : ℕ → ℕ, l.at c = b.at c) ∧ (∀ c : ℕ → ℕ, r.at c = b.at (fun ax => if ax = a then c ax + dim b a / 2 else c ax)) := by
  classical
  have hidx : dim b a / 2 + 1 < dim b a := by omega
  have h1 : 1 ≤ dim b a / 2 := by omega
  refine ⟨leftBlk a (dim b a / 2) (b.num + 1) b, rightBlk a (dim b a / 2) (b.num + 1) b, ?_, left_num _ _ _, rfl, ?_, ?_, ?_, ?_, ?_⟩
  · have hop := box_perform b ha hidx fun nf n1 n2 => (hn nf n1 n2).1
    have hval := box_valid b ha hidx h1 hn hr hr2
    have hsz : Sized [leftBlk a (dim b a / 2) (b.num + 1) b, rightBlk a (dim b a / 2) (b.num + 1) b] :=
      (perform_spec [(b.num, a, 1)] (by simpa using ha) (by simp [Distinct]) hop).2 (by simpa [Sized] using hs)
    generalize [leftBlk a (dim b a / 2) (b.num + 1) b, rightBlk a (dim b a / 2) (b.num + 1) b] = out at hop hval hsz
    unfold cutGrid
    rw [hop]
    exact if_pos ((C59_verify_iff_partial _ hsz).2 hval)
  · unfold leftBlk
    interval_cases a <;> rfl
  · unfold rightBlk
    interval_cases a <;> rfl
  · intro ax hax hne
    unfold leftBlk rightBlk
    interval_cases a <;> interval_cases ax <;> first | exact absurd rfl hne | exact ⟨rfl, rfl⟩
  · intro c
    unfold leftBlk
    interval_cases a <;> rfl
  · intro c
    unfold rightBlk
    interval_cases a <;> rfl

/-- a block of 3 x 4 x 2 nodes with walls meets the hypotheses, for the first two axes -/
example : ∃ b : VBlk, dim b 0 = 3 ∧ dim b 1 = 4 ∧ (2 ≤ b.ni ∧ 2 ≤ b.nj ∧ 2 ≤ b.nk) ∧
    (∀ nf, 1 ≤ nf → nf ≤ 6 → (b.face nf).neighbor = none ∧ GoodBoundary (b.face nf)) ∧ NotLeftHanded b ∧
    NotLeftHanded (keepHigh b 0 1) ∧ NotLeftHanded (keepHigh b 1 2) := by
  refine ⟨⟨0, 3, 4, 2, fun i j k => ⟨i, j, k⟩, fun _ => wallFace⟩, rfl, rfl, by decide, fun nf _ _ => ⟨rfl, wall_good⟩, ?_, ?_, ?_⟩ <;>
  · simp [NotLeftHanded, keepHigh, V3.det, V3.dot, V3.cross]

end PG.Util
