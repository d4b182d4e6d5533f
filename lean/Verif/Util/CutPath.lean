import Verif.Util.Cut
import Mathlib.Data.List.Nodup
import Mathlib.Data.Finset.Card
import Mathlib.Tactic.IntervalCases
import Mathlib.Tactic.Ring
import Mathlib.Tactic.Linarith
/-!
C44: the blocks a cut propagates to, and where they are cut.
-/
namespace PG.Util
open PG PG.Topo

/-! ### specification -/

/-- a cut of block `num` across axis `a` has to be continued in block `m`, across its axis `ax`; `sw` tells whether the axes run in
    opposite directions: follow the faces that the cut plane meets -/
inductive Reach (mb : List VBlk) (num a : ℕ) : ℕ → ℕ → Bool → Prop
  | start : Reach mb num a num a false
  | step {m ax : ℕ} {sw : Bool} {b : VBlk} {nf n : ℕ} {o : Ori} : Reach mb num a m ax sw → getBlock mb m = some b →
      1 ≤ nf → nf ≤ 6 → normalAxis nf ≠ ax → (b.face nf).neighbor = some n → (b.face nf).ori = some o → 1 ≤ o.get ax → o.get ax ≤ 6 →
      Reach mb num a n (axisOf (o.get ax)) (xor sw (reversed (o.get ax)))

/-- every neighbour exists and every orientation is legal -/
def Connected (mb : List VBlk) : Prop :=
  ∀ b ∈ mb, ∀ nf, 1 ≤ nf → nf ≤ 6 → ∀ n, (b.face nf).neighbor = some n →
    (∃ b' ∈ mb, b'.num = n) ∧ ∃ o, (b.face nf).ori = some o ∧ o.Legal

/-! ### proof -/

theorem getBlock_some {mb : List VBlk} {n : ℕ} {b : VBlk} (h : getBlock mb n = some b) : b ∈ mb ∧ b.num = n := by
  unfold getBlock at h
  exact ⟨List.mem_of_find?_eq_some h, by simpa using List.find?_some h⟩

theorem getBlock_exists {mb : List VBlk} {n : ℕ} (h : ∃ b ∈ mb, b.num = n) : ∃ b, getBlock mb n = some b := by
  obtain ⟨b, hb, hn⟩ := h
  unfold getBlock
  cases hf : mb.find? (fun b => b.num = n) with
  | none =>
    rw [List.find?_eq_none] at hf
    exact absurd (hf b hb) (by simp [hn])
  | some b' => exact ⟨b', rfl⟩

theorem dir_axis {d a : ℕ} (h : dirToOrientIndex d = some a) : a = axisOf d ∧ (d ∈ [4, 5, 6] ↔ reversed d = true) ∧ 1 ≤ d ∧ d ≤ 6 := by
  unfold dirToOrientIndex at h
  split at h <;> first
    | (obtain rfl := Option.some.inj h; exact ⟨by decide, by decide, by decide, by decide⟩)
    | cases h

theorem dir_some {d : ℕ} (h1 : 1 ≤ d) (h2 : d ≤ 6) : dirToOrientIndex d = some (axisOf d) := by
  interval_cases d <;> rfl

theorem mem_splitFaces {a nf : ℕ} (ha : a < 3) : nf ∈ splitFaces a ↔ 1 ≤ nf ∧ nf ≤ 6 ∧ normalAxis nf ≠ a := by
  unfold normalAxis
  interval_cases a <;> simp only [splitFaces, List.mem_cons, List.not_mem_nil, or_false] <;> omega

/-- what one face adds -/
theorem pathFace_spec {b : VBlk} {a : ℕ} {sw : Bool} {st st' : List Entry × List Entry} {nf : ℕ} (h : pathFace b a sw st nf = some st') :
    (st' = st ∧ ∀ m, (b.face nf).neighbor = some m → m ∈ st.1.map Prod.fst) ∨
    ∃ m o, (b.face nf).neighbor = some m ∧ m ∉ st.1.map Prod.fst ∧ (b.face nf).ori = some o ∧ 1 ≤ o.get a ∧ o.get a ≤ 6 ∧
      st'.1 = st.1 ++ [(m, axisOf (o.get a), xor sw (reversed (o.get a)))] ∧
      st'.2 = st.2 ++ [(m, axisOf (o.get a), xor sw (reversed (o.get a)))] := by
  unfold pathFace at h
  cases hn : (b.face nf).neighbor with
  | none => rw [hn] at h; obtain rfl := Option.some.inj h; exact Or.inl ⟨rfl, fun m hm => by cases hm⟩
  | some m =>
    rw [hn] at h
    dsimp only at h
    by_cases hm : m ∈ st.1.map Prod.fst
    · rw [if_pos hm] at h
      obtain rfl := Option.some.inj h
      exact Or.inl ⟨rfl, fun m' hm' => by obtain rfl := Option.some.inj hm'; exact hm⟩
    · rw [if_neg hm] at h
      simp only [Option.bind_eq_bind, Option.bind_eq_some_iff] at h
      obtain ⟨o, ho, a', ha', h⟩ := h
      obtain ⟨e1, e2, e3, e4⟩ := dir_axis ha'
      have e5 : (if o.get a ∈ [4, 5, 6] then !sw else sw) = xor sw (reversed (o.get a)) := by
        by_cases hr : o.get a ∈ [4, 5, 6]
        · rw [if_pos hr, e2.1 hr, Bool.xor_true]
        · rw [if_neg hr, Bool.eq_false_iff.2 (fun h => hr (e2.2 h)), Bool.xor_false]
      rw [e5, e1] at h
      obtain rfl := Option.some.inj h
      exact Or.inr ⟨m, o, rfl, hm, ho, e3, e4, rfl, rfl⟩

/-- what the loop keeps: the visited list has no block twice, holds only reachable blocks, contains what is still to check, and is
    closed under the faces of those checked -/
structure PathInv (mb : List VBlk) (num a : ℕ) (st : List Entry × List Entry) : Prop where
  nodup : (st.1.map Prod.fst).Nodup
  sub : ∃ p, st.1 = p ++ st.2 ∧
    ∀ e ∈ p, ∃ b, getBlock mb e.1 = some b ∧ ∀ nf ∈ splitFaces e.2.1, ∀ m, (b.face nf).neighbor = some m → m ∈ st.1.map Prod.fst
  reach : ∀ e ∈ st.1, e.2.1 < 3 ∧ Reach mb num a e.1 e.2.1 e.2.2
  head : (num, a, false) ∈ st.1

theorem fold_faces {mb : List VBlk} {num a m ax : ℕ} {sw : Bool} {b : VBlk} (hb : getBlock mb m = some b) (hax : ax < 3)
    (hr : Reach mb num a m ax sw) :
    ∀ (l : List ℕ) (st st' : List Entry × List Entry), (∀ nf ∈ l, nf ∈ splitFaces ax) →
      l.foldlM (pathFace b ax sw) st = some st' → (st.1.map Prod.fst).Nodup → (∀ e ∈ st.1, e.2.1 < 3 ∧ Reach mb num a e.1 e.2.1 e.2.2) →
      ∃ q, st'.1 = st.1 ++ q ∧ st'.2 = st.2 ++ q ∧ (st'.1.map Prod.fst).Nodup ∧
        (∀ e ∈ st'.1, e.2.1 < 3 ∧ Reach mb num a e.1 e.2.1 e.2.2) ∧
        ∀ nf ∈ l, ∀ k, (b.face nf).neighbor = some k → k ∈ st'.1.map Prod.fst := by
  intro l
  induction l with
  | nil =>
    intro st st' _ h hnd hre
    obtain rfl := Option.some.inj h
    exact ⟨[], by simp, by simp, hnd, hre, fun nf hnf => absurd hnf List.not_mem_nil⟩
  | cons nf l ih =>
    intro st st' hl h hnd hre
    rw [List.foldlM_cons] at h
    simp only [Option.bind_eq_bind, Option.bind_eq_some_iff] at h
    obtain ⟨st1, h1, h2⟩ := h
    have hnf := (mem_splitFaces hax).1 (hl nf List.mem_cons_self)
    rcases pathFace_spec h1 with ⟨rfl, hk⟩ | ⟨k, o, hk, hnot, ho, o1, o2, e1, e2⟩
    · obtain ⟨q, q1, q2, q3, q4, q5⟩ := ih st1 st' (fun x hx => hl x (List.mem_cons_of_mem _ hx)) h2 hnd hre
      refine ⟨q, q1, q2, q3, q4, fun x hx k hk' => ?_⟩
      rcases List.mem_cons.1 hx with rfl | hx
      · rw [q1, List.map_append]
        exact List.mem_append_left _ (hk k hk')
      · exact q5 x hx k hk'
    · have hre' : Reach mb num a k (axisOf (o.get ax)) (xor sw (reversed (o.get ax))) :=
        Reach.step hr hb hnf.1 hnf.2.1 hnf.2.2 hk ho o1 o2
      have hnd' : (st1.1.map Prod.fst).Nodup := by
        rw [e1, List.map_append, List.nodup_append]
        refine ⟨hnd, by simp, fun x hx y hy => ?_⟩
        simp only [List.map_cons, List.map_nil, List.mem_cons, List.not_mem_nil, or_false] at hy
        subst hy
        intro hxy
        exact hnot (hxy ▸ hx)
      have hre1 : ∀ e ∈ st1.1, e.2.1 < 3 ∧ Reach mb num a e.1 e.2.1 e.2.2 := by
        intro e he
        rw [e1, List.mem_append] at he
        rcases he with he | he
        · exact hre e he
        · rw [List.mem_singleton] at he
          subst he
          exact ⟨Nat.mod_lt _ (by omega), hre'⟩
      obtain ⟨q, q1, q2, q3, q4, q5⟩ := ih st1 st' (fun x hx => hl x (List.mem_cons_of_mem _ hx)) h2 hnd' hre1
      refine ⟨_ :: q, by rw [q1, e1, List.append_assoc]; rfl, by rw [q2, e2, List.append_assoc]; rfl, q3, q4, fun x hx k' hk' => ?_⟩
      rcases List.mem_cons.1 hx with rfl | hx
      · rw [hk] at hk'
        obtain rfl := Option.some.inj hk'
        rw [q1, e1, List.map_append, List.map_append]
        exact List.mem_append_left _ (List.mem_append_right _ (by simp))
      · exact q5 x hx k' hk'

theorem pathInv_step {mb : List VBlk} {num a m ax : ℕ} {sw : Bool} {cut rest : List Entry} {st' : List Entry × List Entry} {b : VBlk}
    (hI : PathInv mb num a (cut, (m, ax, sw) :: rest)) (hb : getBlock mb m = some b)
    (h : (splitFaces ax).foldlM (pathFace b ax sw) (cut, rest) = some st') :
    PathInv mb num a st' ∧ ∃ q, st'.1 = cut ++ q ∧ st'.2 = rest ++ q := by
  obtain ⟨p, hp, hcl⟩ := hI.sub
  dsimp only at hp hcl
  have hmem : (m, ax, sw) ∈ cut := by rw [hp]; simp
  obtain ⟨hax, hr⟩ := hI.reach _ hmem
  obtain ⟨q, q1, q2, q3, q4, q5⟩ := fold_faces hb hax hr _ _ _ (fun _ h => h) h hI.nodup hI.reach
  dsimp only at q1 q2
  refine ⟨⟨q3, ⟨p ++ [(m, ax, sw)], ?_, ?_⟩, q4, ?_⟩, q, q1, q2⟩
  · rw [q1, q2, hp]; simp
  · intro e he
    rcases List.mem_append.1 he with he | he
    · obtain ⟨b', h1, h2⟩ := hcl e he
      refine ⟨b', h1, fun nf hnf k hk => ?_⟩
      rw [q1, List.map_append]
      exact List.mem_append_left _ (h2 nf hnf k hk)
    · rw [List.mem_singleton] at he
      subst he
      exact ⟨b, hb, q5⟩
  · rw [q1]
    exact List.mem_append_left _ hI.head

theorem pathLoop_spec {mb : List VBlk} {num a : ℕ} : ∀ (fuel : ℕ) (st : List Entry × List Entry) (L : List Entry),
    PathInv mb num a st → pathLoop mb fuel st = some L → PathInv mb num a (L, []) ∧ ∃ q, L = st.1 ++ q := by
  intro fuel
  induction fuel with
  | zero =>
    rintro ⟨cut, chk⟩ L hI h
    cases chk with
    | nil => unfold pathLoop at h; obtain rfl := Option.some.inj h; exact ⟨hI, [], by simp⟩
    | cons e r => unfold pathLoop at h; cases h
  | succ fuel ih =>
    rintro ⟨cut, chk⟩ L hI h
    cases chk with
    | nil => unfold pathLoop at h; obtain rfl := Option.some.inj h; exact ⟨hI, [], by simp⟩
    | cons e r =>
      obtain ⟨m, ax, sw⟩ := e
      unfold pathLoop at h
      simp only [Option.bind_eq_bind, Option.bind_eq_some_iff] at h
      obtain ⟨b, hb, st', h1, h2⟩ := h
      obtain ⟨hI', q, q1, _⟩ := pathInv_step hI hb h1
      obtain ⟨hI'', q', hq'⟩ := ih st' L hI' h2
      exact ⟨hI'', q ++ q', by rw [hq', q1, List.append_assoc]⟩

theorem pathInv_start {mb : List VBlk} {num a : ℕ} (ha : a < 3) : PathInv mb num a ([(num, a, false)], [(num, a, false)]) :=
  ⟨by simp, ⟨[], by simp, fun e he => absurd he List.not_mem_nil⟩, fun e he => by
    rw [List.mem_singleton] at he; subst he; exact ⟨ha, Reach.start⟩, by simp⟩

/-- C44 (propagation): the list of blocks to cut starts with the requested block and axis, holds no block twice, holds only blocks the
    cut has to be continued in (with the right axis and direction for some way of getting there), and every block attached to a listed
    one through a face the cut meets is listed; for every grid. -/
theorem C44_path (mb : List VBlk) (num a : ℕ) (ha : a < 3) (L : List Entry) (h : cutPath mb num a = some L) :
    (∃ r, L = (num, a, false) :: r) ∧ (L.map Prod.fst).Nodup ∧ (∀ e ∈ L, Reach mb num a e.1 e.2.1 e.2.2) ∧
    ∀ e ∈ L, ∃ b, getBlock mb e.1 = some b ∧ ∀ nf, 1 ≤ nf → nf ≤ 6 → normalAxis nf ≠ e.2.1 → ∀ m, (b.face nf).neighbor = some m →
      ∃ e' ∈ L, e'.1 = m := by
  obtain ⟨hI, q, hq⟩ := pathLoop_spec _ _ _ (pathInv_start ha) h
  refine ⟨⟨q, hq⟩, hI.nodup, fun e he => (hI.reach e he).2, fun e he => ?_⟩
  obtain ⟨p, hp, hcl⟩ := hI.sub
  dsimp only at hp hcl
  rw [List.append_nil] at hp
  subst hp
  obtain ⟨b, h1, h2⟩ := hcl e he
  refine ⟨b, h1, fun nf n1 n2 n3 m hm => ?_⟩
  obtain ⟨e', he', rfl⟩ := List.mem_map.1 (h2 nf ((mem_splitFaces (hI.reach e he).1).2 ⟨n1, n2, n3⟩) m hm)
  exact ⟨e', he', rfl⟩

/-- reachable blocks are all listed, whatever the way of getting there -/
theorem path_complete {mb : List VBlk} {num a : ℕ} (ha : a < 3) {L : List Entry} (h : cutPath mb num a = some L)
    (hcons : ∀ m ax sw ax' sw', Reach mb num a m ax sw → Reach mb num a m ax' sw' → ax = ax' ∧ sw = sw') {m ax : ℕ} {sw : Bool}
    (hr : Reach mb num a m ax sw) : (m, ax, sw) ∈ L := by
  obtain ⟨⟨r, hr0⟩, _, h2, h3⟩ := C44_path mb num a ha L h
  induction hr with
  | start => rw [hr0]; exact List.mem_cons_self
  | step hr hb n1 n2 n3 hn ho o1 o2 ih =>
    obtain ⟨b', hb', hcl⟩ := h3 _ ih
    obtain rfl : _ = b' := Option.some.inj (hb.symm.trans hb')
    obtain ⟨e', he', rfl⟩ := hcl _ n1 n2 n3 _ hn
    obtain ⟨x1, x2⟩ := hcons _ _ _ _ _ (h2 e' he') (Reach.step hr hb n1 n2 n3 hn ho o1 o2)
    obtain ⟨e1, e2, e3⟩ := e'
    dsimp only at x1 x2
    rw [← x1, ← x2]
    exact he'

/-- C44 (alignment): if the ways of continuing the cut never disagree, then the list is exactly the blocks it has to be continued in, and
    the cut indices used (the given one, or the one counted from the other end when the direction is switched) agree on every face the
    cut plane meets: the neighbour is cut at the node the orientation identifies with the node of the cut. -/
theorem C44_cuts_align (mb : List VBlk) (num a : ℕ) (ha : a < 3) (L : List Entry) (h : cutPath mb num a = some L)
    (hcons : ∀ m ax sw ax' sw', Reach mb num a m ax sw → Reach mb num a m ax' sw' → ax = ax' ∧ sw = sw') :
    (∀ m ax sw, (m, ax, sw) ∈ L ↔ Reach mb num a m ax sw) ∧
    ∀ cutNx cutIndex : ℕ, cutIndex + 1 ≤ cutNx → ∀ m ax sw, (m, ax, sw) ∈ L → ∀ b, getBlock mb m = some b →
      ∀ nf, 1 ≤ nf → nf ≤ 6 → normalAxis nf ≠ ax → ∀ n o, (b.face nf).neighbor = some n → (b.face nf).ori = some o → o.Legal →
      ∃ sw', (n, axisOf (o.get ax), sw') ∈ L ∧
        (if sw' then cutNx - cutIndex - 1 else cutIndex) =
          if reversed (o.get ax) then cutNx - 1 - (if sw then cutNx - cutIndex - 1 else cutIndex)
          else (if sw then cutNx - cutIndex - 1 else cutIndex) := by
  obtain ⟨_, _, h2, _⟩ := C44_path mb num a ha L h
  refine ⟨fun m ax sw => ⟨fun hm => h2 _ hm, fun hr => path_complete ha h hcons hr⟩, ?_⟩
  intro cutNx cutIndex hc m ax sw hm b hb nf n1 n2 n3 n o hn ho hl
  have hd : 1 ≤ o.get ax ∧ o.get ax ≤ 6 := by
    obtain ⟨l0, l1, l2, _⟩ := hl
    unfold Ori.get
    split
    · exact l0
    · exact l1
    · exact l2
  refine ⟨_, path_complete ha h hcons (Reach.step (h2 _ hm) hb n1 n2 n3 hn ho hd.1 hd.2), ?_⟩
  cases sw <;> cases reversed (o.get ax) <;> simp <;> omega

/-- C44 (termination): in a grid where every neighbour exists and every orientation is legal the search for the blocks to cut ends
    without error after at most as many rounds as there are blocks. -/
theorem C44_path_terminates (mb : List VBlk) (num a : ℕ) (ha : a < 3) (hmb : Connected mb) (hnum : ∃ b ∈ mb, b.num = num) :
    ∃ L, cutPath mb num a = some L := by
  have face_ok : ∀ {m ax : ℕ} {sw : Bool} {b : VBlk}, getBlock mb m = some b → ∀ (l : List ℕ) (st : List Entry × List Entry),
      (∀ nf ∈ l, 1 ≤ nf ∧ nf ≤ 6) → (∀ e ∈ st.1, ∃ b ∈ mb, b.num = e.1) →
      ∃ st', l.foldlM (pathFace b ax sw) st = some st' ∧ ∀ e ∈ st'.1, ∃ b ∈ mb, b.num = e.1 := by
    intro m ax sw b hb l
    induction l with
    | nil => intro st _ hst; exact ⟨st, rfl, hst⟩
    | cons nf l ih =>
      intro st hl hst
      obtain ⟨n1, n2⟩ := hl nf List.mem_cons_self
      have : ∃ st1, pathFace b ax sw st nf = some st1 ∧ ∀ e ∈ st1.1, ∃ b ∈ mb, b.num = e.1 := by
        unfold pathFace
        cases hn : (b.face nf).neighbor with
        | none => exact ⟨st, rfl, hst⟩
        | some k =>
          dsimp only
          obtain ⟨hk, o, ho, hl⟩ := hmb b (getBlock_some hb).1 nf n1 n2 k hn
          by_cases hm : k ∈ st.1.map Prod.fst
          · rw [if_pos hm]; exact ⟨st, rfl, hst⟩
          · rw [if_neg hm, ho]
            have hd : 1 ≤ o.get ax ∧ o.get ax ≤ 6 := by
              obtain ⟨l0, l1, l2, _⟩ := hl
              unfold Ori.get
              split
              · exact l0
              · exact l1
              · exact l2
            simp only [Option.bind_eq_bind, Option.bind_some, dir_some hd.1 hd.2]
            refine ⟨_, rfl, fun e he => ?_⟩
            rcases List.mem_append.1 he with he | he
            · exact hst e he
            · rw [List.mem_singleton] at he
              subst he
              exact hk
      obtain ⟨st1, s1, s2⟩ := this
      obtain ⟨st', s3, s4⟩ := ih st1 (fun x hx => hl x (List.mem_cons_of_mem _ hx)) s2
      refine ⟨st', ?_, s4⟩
      rw [List.foldlM_cons, s1]
      exact s3
  have count : ∀ l : List Entry, (l.map Prod.fst).Nodup → (∀ e ∈ l, ∃ b ∈ mb, b.num = e.1) → l.length ≤ mb.length := by
    intro l h1 h2
    have : (l.map Prod.fst) ⊆ mb.map VBlk.num := by
      intro x hx
      obtain ⟨e, he, rfl⟩ := List.mem_map.1 hx
      obtain ⟨b, hb, hbn⟩ := h2 e he
      exact List.mem_map.2 ⟨b, hb, hbn⟩
    have := (List.Nodup.subperm h1 this).length_le
    simpa using this
  have loop : ∀ (fuel : ℕ) (cut chk : List Entry), PathInv mb num a (cut, chk) → (∀ e ∈ cut, ∃ b ∈ mb, b.num = e.1) →
      mb.length + chk.length ≤ fuel + cut.length → ∃ L, pathLoop mb fuel (cut, chk) = some L := by
    intro fuel
    induction fuel with
    | zero =>
      intro cut chk hI hex hf
      cases chk with
      | nil => exact ⟨cut, by unfold pathLoop; rfl⟩
      | cons e r =>
        have := count cut hI.nodup hex
        simp only [List.length_cons] at hf
        omega
    | succ fuel ih =>
      intro cut chk hI hex hf
      cases chk with
      | nil => exact ⟨cut, by unfold pathLoop; rfl⟩
      | cons e r =>
        obtain ⟨m, ax, sw⟩ := e
        obtain ⟨p, hp, _⟩ := hI.sub
        dsimp only at hp
        have hmem : (m, ax, sw) ∈ cut := by rw [hp]; simp
        obtain ⟨b, hb⟩ := getBlock_exists (hex _ hmem)
        have hax := (hI.reach _ hmem).1
        dsimp only at hb hax
        obtain ⟨st', s1, s2⟩ := face_ok (ax := ax) (sw := sw) hb (splitFaces ax) (cut, r)
          (fun nf hnf => ⟨((mem_splitFaces hax).1 hnf).1, ((mem_splitFaces hax).1 hnf).2.1⟩) hex
        obtain ⟨hI', q, q1, q2⟩ := pathInv_step hI hb s1
        obtain ⟨L, hL⟩ := ih st'.1 st'.2 hI' s2 (by
          rw [q1, q2, List.length_append, List.length_append]
          simp only [List.length_cons] at hf
          omega)
        refine ⟨L, ?_⟩
        unfold pathLoop
        simp only [Option.bind_eq_bind, hb, Option.bind_some, s1]
        exact hL
  exact loop _ _ _ (pathInv_start ha) (fun e he => by rw [List.mem_singleton] at he; subst he; exact hnum) (by simp)

/-! ### cut indices -/

/-- C44 (indices): cutting `og` nodes `nCuts` times uses the indices `og (nCuts - cut) / (nCuts + 1)`. If and only if there are fewer cuts
    than cells, every one of them is admissible for what is left of the block (the nodes up to the previous cut); then all are positive, so
    every piece has at least one cell, and no two pieces differ by more than two cells. -/
theorem C44_indices (og nCuts : ℕ) (hn : 0 < nCuts) :
    ((∀ cut < nCuts, og * (nCuts - cut) / (nCuts + 1) + 1 < (if cut = 0 then og else og * (nCuts - (cut - 1)) / (nCuts + 1) + 1)) ↔
      nCuts + 1 < og) ∧
    (nCuts + 1 < og → (∀ cut < nCuts, 1 ≤ og * (nCuts - cut) / (nCuts + 1)) ∧
      ∀ m < nCuts, og / (nCuts + 1) ≤ og * (m + 1) / (nCuts + 1) - og * m / (nCuts + 1) ∧
        og * (m + 1) / (nCuts + 1) - og * m / (nCuts + 1) ≤ og / (nCuts + 1) + 1 ∧
      og / (nCuts + 1) ≤ og - og * nCuts / (nCuts + 1) ∧ og - og * nCuts / (nCuts + 1) ≤ og / (nCuts + 1) + 1) := by
  have key : ∀ m : ℕ, og / (nCuts + 1) + og * m / (nCuts + 1) ≤ og * (m + 1) / (nCuts + 1) ∧
      og * (m + 1) / (nCuts + 1) ≤ og / (nCuts + 1) + og * m / (nCuts + 1) + 1 := by
    intro m
    have e : og * (m + 1) = og + og * m := by ring
    rw [e]
    constructor
    · exact Nat.add_div_le_add_div _ _ _
    · rw [Nat.add_div (by omega)]
      split_ifs <;> omega
  refine ⟨⟨fun h => ?_, fun h => ?_⟩, fun h => ⟨fun cut hc => ?_, fun m hm => ?_⟩⟩
  · have h0 := h 0 hn
    rw [if_pos rfl, Nat.sub_zero] at h0
    have h1 : og * nCuts / (nCuts + 1) < og - 1 := by omega
    rw [Nat.div_lt_iff_lt_mul (by omega)] at h1
    rcases og with _ | og
    · omega
    · simp only [Nat.add_sub_cancel] at h1
      have : (og + 1) * nCuts = og * nCuts + nCuts := by ring
      have : og * (nCuts + 1) = og * nCuts + og := by ring
      omega
  · intro cut hc
    have hq : 1 ≤ og / (nCuts + 1) := by
      rw [Nat.le_div_iff_mul_le (by omega)]; omega
    by_cases h0 : cut = 0
    · rw [if_pos h0, h0, Nat.sub_zero]
      have : og * nCuts / (nCuts + 1) < og - 1 := by
        rw [Nat.div_lt_iff_lt_mul (by omega)]
        rcases og with _ | og
        · omega
        · simp only [Nat.add_sub_cancel]
          have : (og + 1) * nCuts = og * nCuts + nCuts := by ring
          have : og * (nCuts + 1) = og * nCuts + og := by ring
          omega
      omega
    · rw [if_neg h0]
      have := (key (nCuts - cut)).1
      rw [show nCuts - cut + 1 = nCuts - (cut - 1) by omega] at this
      omega
  · have hq : 1 ≤ og / (nCuts + 1) := by
      rw [Nat.le_div_iff_mul_le (by omega)]; omega
    have := (key (nCuts - cut - 1)).1
    rw [show nCuts - cut - 1 + 1 = nCuts - cut by omega] at this
    exact hq.trans ((Nat.le_add_right _ _).trans this)
  · obtain ⟨k1, k2⟩ := key m
    obtain ⟨k3, k4⟩ := key nCuts
    have e : og * (nCuts + 1) / (nCuts + 1) = og := Nat.mul_div_cancel _ (by omega)
    rw [e] at k3 k4
    generalize og * (m + 1) / (nCuts + 1) = x1 at *
    generalize og * m / (nCuts + 1) = x2 at *
    generalize og * nCuts / (nCuts + 1) = x3 at *
    generalize og / (nCuts + 1) = x4 at *
    omega

/-! ### a concrete grid -/

/-- face attached to block `n` -/
def pathJoin (n : ℕ) (o : Ori) : VFace := ⟨"b0", none, some n, some o, 0, 0, id, id⟩
def pathWall : VFace := ⟨"adiabaticSlipWall", none, none, none, 0, 0, id, id⟩
/-- two blocks side by side along j, their i and k axes in opposite directions -/
def turned : List VBlk :=
  [⟨0, 5, 3, 3, fun i j k => ⟨i, j, k⟩, fun nf => if nf = 4 then pathJoin 1 ⟨4, 2, 6⟩ else pathWall⟩,
   ⟨1, 5, 3, 3, fun i j k => ⟨4 - i, j + 2, 2 - k⟩, fun nf => if nf = 3 then pathJoin 0 ⟨4, 2, 6⟩ else pathWall⟩]

/-- the cut of block 0 along i continues in block 1 from the other end, and the grid meets the hypotheses of the theorems above -/
example : cutPath turned 0 0 = some [(0, 0, false), (1, 0, true)] := rfl

example : Connected turned := by
  intro b hb nf h1 h2 n hn
  simp only [turned, List.mem_cons, List.not_mem_nil, or_false] at hb
  rcases hb with rfl | rfl
  · by_cases h : nf = 4
    · subst h
      obtain rfl : 1 = n := by simpa [pathJoin] using hn
      exact ⟨⟨_, List.mem_cons_of_mem _ List.mem_cons_self, rfl⟩, ⟨4, 2, 6⟩, rfl, by decide⟩
    · simp [h, pathWall] at hn
  · by_cases h : nf = 3
    · subst h
      obtain rfl : 0 = n := by simpa [pathJoin] using hn
      exact ⟨⟨_, List.mem_cons_self, rfl⟩, ⟨4, 2, 6⟩, rfl, by decide⟩
    · simp [h, pathWall] at hn

example (m ax : ℕ) (sw : Bool) (h : Reach turned 0 0 m ax sw) : (m = 0 ∧ ax = 0 ∧ sw = false) ∨ (m = 1 ∧ ax = 0 ∧ sw = true) := by
  induction h with
  | start => exact Or.inl ⟨rfl, rfl, rfl⟩
  | @step m ax sw b nf n o hr hb n1 n2 n3 hn ho o1 o2 ih =>
    rcases ih with ⟨rfl, rfl, rfl⟩ | ⟨rfl, rfl, rfl⟩
    · obtain rfl := Option.some.inj hb
      dsimp only at hn ho
      by_cases h : nf = 4
      · rw [if_pos h] at hn ho
        obtain rfl := Option.some.inj hn
        obtain rfl := Option.some.inj ho
        exact Or.inr ⟨rfl, rfl, rfl⟩
      · rw [if_neg h] at hn
        cases hn
    · obtain rfl := Option.some.inj hb
      dsimp only at hn ho
      by_cases h : nf = 3
      · rw [if_pos h] at hn ho
        obtain rfl := Option.some.inj hn
        obtain rfl := Option.some.inj ho
        exact Or.inl ⟨rfl, rfl, rfl⟩
      · rw [if_neg h] at hn
        cases hn

end PG.Util
