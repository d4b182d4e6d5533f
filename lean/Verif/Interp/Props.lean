import Verif.Interp.Model
import Mathlib.Tactic.Linarith
/-!
C55, C56.
-/
namespace PG.Interp
open PG

theorem foldr_min_le (l : List ℝ) (a : ℝ) : l.foldr min a ≤ a ∧ ∀ x ∈ l, l.foldr min a ≤ x := by
  induction l with
  | nil => exact ⟨le_refl _, fun x hx => absurd hx List.not_mem_nil⟩
  | cons y l ih =>
    refine ⟨(min_le_right _ _).trans ih.1, fun x hx => ?_⟩
    rcases List.mem_cons.1 hx with rfl | hx
    · exact min_le_left _ _
    · exact (min_le_right _ _).trans (ih.2 x hx)

theorem le_foldr_max (l : List ℝ) (a : ℝ) : a ≤ l.foldr max a ∧ ∀ x ∈ l, x ≤ l.foldr max a := by
  induction l with
  | nil => exact ⟨le_refl _, fun x hx => absurd hx List.not_mem_nil⟩
  | cons y l ih =>
    refine ⟨ih.1.trans (le_max_right _ _), fun x hx => ?_⟩
    rcases List.mem_cons.1 hx with rfl | hx
    · exact le_max_left _ _
    · exact (ih.2 x hx).trans (le_max_right _ _)

theorem lmin_le {l : List ℝ} {x : ℝ} (h : x ∈ l) : lmin l ≤ x := (foldr_min_le l _).2 x h
theorem le_lmax {l : List ℝ} {x : ℝ} (h : x ∈ l) : x ≤ lmax l := (le_foldr_max l _).2 x h

theorem foldr_min_mem (l : List ℝ) (a : ℝ) : l.foldr min a = a ∨ l.foldr min a ∈ l := by
  induction l with
  | nil => exact Or.inl rfl
  | cons y l ih =>
    rw [List.foldr_cons]
    rcases min_choice y (l.foldr min a) with h | h
    · rw [h]; exact Or.inr List.mem_cons_self
    · rw [h]; exact ih.imp id (List.mem_cons_of_mem _)

theorem foldr_max_mem (l : List ℝ) (a : ℝ) : l.foldr max a = a ∨ l.foldr max a ∈ l := by
  induction l with
  | nil => exact Or.inl rfl
  | cons y l ih =>
    rw [List.foldr_cons]
    rcases max_choice y (l.foldr max a) with h | h
    · rw [h]; exact Or.inr List.mem_cons_self
    · rw [h]; exact ih.imp id (List.mem_cons_of_mem _)

theorem lmin_mem {l : List ℝ} (h : l ≠ []) : lmin l ∈ l := by
  cases l with
  | nil => exact absurd rfl h
  | cons a l =>
    unfold lmin
    rcases foldr_min_mem (a :: l) a with h | h
    · rw [List.headD_cons, h]; exact List.mem_cons_self
    · exact h

theorem lmax_mem {l : List ℝ} (h : l ≠ []) : lmax l ∈ l := by
  cases l with
  | nil => exact absurd rfl h
  | cons a l =>
    unfold lmax
    rcases foldr_max_mem (a :: l) a with h | h
    · rw [List.headD_cons, h]; exact List.mem_cons_self
    · exact h

/-- C55: whatever the interpolant and the source data, every interpolated value lies between two values of the same variable in the
    source blocks, and a value the interpolant already puts between two source values is kept. Only with no source data at all does
    the routine fail. -/
theorem C55_no_new_extrema (interp : Interpolant) (bs : List FromBlk) (n : ℕ) (tgt : List V3) (hne : ∃ b ∈ bs, b.q n ≠ []) :
    ∃ vs, blocksToBlock interp bs n tgt = some vs ∧
      List.Forall₂ (fun p v =>
        (∃ b ∈ bs, ∃ lo ∈ b.q n, lo ≤ v) ∧ (∃ b ∈ bs, ∃ hi ∈ b.q n, v ≤ hi) ∧
        (∀ e, e = interp (bs.flatMap FromBlk.xc) (qvFrom bs n) p →
          (∃ b ∈ bs, ∃ lo ∈ b.q n, lo ≤ e) → (∃ b ∈ bs, ∃ hi ∈ b.q n, e ≤ hi) → v = e)) tgt vs := by
  have hq : qvFrom bs n ≠ [] := by
    obtain ⟨b, hb, hbn⟩ := hne
    obtain ⟨x, hx⟩ := List.exists_mem_of_ne_nil _ hbn
    exact List.ne_nil_of_mem (List.mem_flatMap.2 ⟨b, hb, hx⟩)
  have hle : lmin (qvFrom bs n) ≤ lmax (qvFrom bs n) := lmin_le (lmax_mem hq)
  obtain ⟨b0, hb0, h0⟩ := List.mem_flatMap.1 (lmin_mem hq)
  obtain ⟨b1, hb1, h1⟩ := List.mem_flatMap.1 (lmax_mem hq)
  change lmin (qvFrom bs n) ∈ b0.q n at h0
  change lmax (qvFrom bs n) ∈ b1.q n at h1
  refine ⟨_, by unfold blocksToBlock; rw [if_neg hq], ?_⟩
  rw [List.forall₂_map_right_iff, List.forall₂_same]
  intro p _
  generalize interp (bs.flatMap FromBlk.xc) (qvFrom bs n) p = v
  refine ⟨⟨b0, hb0, _, h0, ?_⟩, ⟨b1, hb1, _, h1, ?_⟩, ?_⟩
  · unfold clip; dsimp only; split_ifs <;> linarith
  · unfold clip; dsimp only; split_ifs <;> linarith
  · rintro e rfl ⟨c0, hc0, lo, hlo, h2⟩ ⟨c1, hc1, hi, hhi, h3⟩
    have h4 := lmin_le (List.mem_flatMap.2 ⟨c0, hc0, hlo⟩ : lo ∈ qvFrom bs n)
    have h5 := le_lmax (List.mem_flatMap.2 ⟨c1, hc1, hhi⟩ : hi ∈ qvFrom bs n)
    change lmin (qvFrom bs n) ≤ lo at h4
    change hi ≤ lmax (qvFrom bs n) at h5
    unfold clip
    dsimp only
    split_ifs <;> linarith

/-- C55 (uniform data): a uniform field stays uniform, whatever the interpolant. -/
theorem C55_uniform (interp : Interpolant) (bs : List FromBlk) (n : ℕ) (tgt : List V3) (c : ℝ) (hne : ∃ b ∈ bs, b.q n ≠ [])
    (hc : ∀ b ∈ bs, ∀ v ∈ b.q n, v = c) : blocksToBlock interp bs n tgt = some (tgt.map fun _ => c) := by
  obtain ⟨vs, h1, h2⟩ := C55_no_new_extrema interp bs n tgt hne
  rw [h1]
  congr 1
  clear h1 hne
  induction h2 with
  | nil => rfl
  | cons h _ ih =>
    obtain ⟨⟨b, hb, lo, hlo, h3⟩, ⟨b', hb', hi, hhi, h4⟩, _⟩ := h
    rw [hc b hb lo hlo] at h3
    rw [hc b' hb' hi hhi] at h4
    rw [List.map_cons, ih, le_antisymm h4 h3]

/-- two source blocks and an interpolant that overshoots -/
example : ∃ b ∈ [(⟨[⟨0, 0, 0⟩], fun _ => [1]⟩ : FromBlk), ⟨[⟨1, 0, 0⟩], fun _ => [3]⟩], b.q 2 ≠ [] :=
  ⟨_, List.mem_cons_self, by simp⟩

/-! ### C56 -/

theorem zip_bounds (f : V3 → ℝ) (lo hi : ℝ) : ∀ (w : List ℝ) (l : List V3), w.length = l.length → (∀ a ∈ w, 0 ≤ a) →
    (∀ v ∈ l, lo ≤ f v ∧ f v ≤ hi) →
    lo * w.sum ≤ (List.zipWith (fun a v => a * f v) w l).sum ∧ (List.zipWith (fun a v => a * f v) w l).sum ≤ hi * w.sum := by
  intro w
  induction w with
  | nil => intro l _ _ _; simp
  | cons a w ih =>
    intro l hl hw hv
    cases l with
    | nil => simp at hl
    | cons v l =>
      obtain ⟨h1, h2⟩ := ih l (by simpa using hl) (fun b hb => hw b (List.mem_cons_of_mem _ hb))
        (fun u hu => hv u (List.mem_cons_of_mem _ hu))
      obtain ⟨h3, h4⟩ := hv v List.mem_cons_self
      have ha := hw a List.mem_cons_self
      simp only [List.zipWith_cons_cons, List.sum_cons]
      constructor
      · nlinarith [mul_le_mul_of_nonneg_left h3 ha]
      · nlinarith [mul_le_mul_of_nonneg_left h4 ha]

theorem mem_nodes {b : SBlk} {i j k : ℕ} (hi : i < b.ni) (hj : j < b.nj) (hk : k < b.nk) : b.x i j k ∈ b.nodes := by
  unfold SBlk.nodes
  simp only [List.mem_flatMap, List.mem_range, List.mem_map]
  exact ⟨i, hi, j, hj, k, hk, rfl⟩

/-- a block with nodes -/
def SBlk.Ok (b : SBlk) : Prop := 0 < b.ni ∧ 0 < b.nj ∧ 0 < b.nk

theorem cube_nodes {b : SBlk} (h : b.Ok) : ∀ v ∈ cube b, v ∈ b.nodes := by
  obtain ⟨hi, hj, hk⟩ := h
  have a1 : b.ni - 1 < b.ni := by omega
  have a2 : b.nj - 1 < b.nj := by omega
  have a3 : b.nk - 1 < b.nk := by omega
  have a4 : b.ni / 2 < b.ni := by omega
  have a5 : b.nj / 2 < b.nj := by omega
  have a6 : b.nk / 2 < b.nk := by omega
  intro v hv
  unfold cube at hv
  dsimp only at hv
  have fin : ∀ {l : List V3}, (∀ u ∈ l, u ∈ b.nodes) → ∀ {l' : List V3}, (∀ u ∈ l', u ∈ b.nodes) → ∀ u ∈ l ++ l', u ∈ b.nodes := by
    intro l h1 l' h2 u hu
    exact (List.mem_append.1 hu).elim (h1 u) (h2 u)
  have ite : ∀ {c : Prop} [Decidable c] {l : List V3}, (∀ u ∈ l, u ∈ b.nodes) → ∀ u ∈ (if c then l else []), u ∈ b.nodes := by
    intro c _ l h1 u hu
    split_ifs at hu
    · exact h1 u hu
    · exact absurd hu List.not_mem_nil
  revert v
  refine fin (fin (fin ?_ (ite (fin (fin ?_ (ite ?_)) (ite ?_)))) (ite (fin ?_ (ite ?_)))) (ite ?_)
  all_goals
    intro u hu
    simp only [List.mem_cons, List.not_mem_nil, or_false] at hu
    repeat' (rcases hu with rfl | hu)
    all_goals first
      | exact mem_nodes ‹_› ‹_› ‹_›
      | (subst hu; exact mem_nodes ‹_› ‹_› ‹_›)

/-- a point of the hull is inside the box of the nodes, in every coordinate -/
theorem hull_box {b : SBlk} (h : b.Ok) {p : V3} (hp : InHull (cube b) p) :
    (lmin (b.nodes.map V3.x) ≤ p.x ∧ p.x ≤ lmax (b.nodes.map V3.x)) ∧
    (lmin (b.nodes.map V3.y) ≤ p.y ∧ p.y ≤ lmax (b.nodes.map V3.y)) ∧
    (lmin (b.nodes.map V3.z) ≤ p.z ∧ p.z ≤ lmax (b.nodes.map V3.z)) := by
  obtain ⟨w, hl, hw, hs, hx, hy, hz⟩ := hp
  have key : ∀ f : V3 → ℝ, lmin (b.nodes.map f) ≤ (List.zipWith (fun a v => a * f v) w (cube b)).sum ∧
      (List.zipWith (fun a v => a * f v) w (cube b)).sum ≤ lmax (b.nodes.map f) := by
    intro f
    have := zip_bounds f (lmin (b.nodes.map f)) (lmax (b.nodes.map f)) w (cube b) hl hw fun v hv =>
      ⟨lmin_le (List.mem_map.2 ⟨v, cube_nodes h v hv, rfl⟩), le_lmax (List.mem_map.2 ⟨v, cube_nodes h v hv, rfl⟩)⟩
    rwa [hs, mul_one, mul_one] at this
  rw [hx, hy, hz]
  exact ⟨key V3.x, key V3.y, key V3.z⟩

/-- a block passed over contains no target point -/
theorem skip_sound {verbose : Bool} {tgt : List V3} {b : SBlk} (h : b.Ok) (hs : skip verbose tgt b = true) :
    ∀ p ∈ tgt, ¬ InHull (cube b) p := by
  intro p hp hin
  obtain ⟨⟨x1, x2⟩, ⟨y1, y2⟩, ⟨z1, z2⟩⟩ := hull_box h hin
  have tx1 := lmin_le (List.mem_map.2 ⟨p, hp, rfl⟩ : p.x ∈ tgt.map V3.x)
  have tx2 := le_lmax (List.mem_map.2 ⟨p, hp, rfl⟩ : p.x ∈ tgt.map V3.x)
  have ty1 := lmin_le (List.mem_map.2 ⟨p, hp, rfl⟩ : p.y ∈ tgt.map V3.y)
  have ty2 := le_lmax (List.mem_map.2 ⟨p, hp, rfl⟩ : p.y ∈ tgt.map V3.y)
  have tz1 := lmin_le (List.mem_map.2 ⟨p, hp, rfl⟩ : p.z ∈ tgt.map V3.z)
  have tz2 := le_lmax (List.mem_map.2 ⟨p, hp, rfl⟩ : p.z ∈ tgt.map V3.z)
  unfold skip at hs
  simp only [Bool.or_eq_true, Bool.and_eq_true, decide_eq_true_eq] at hs
  rcases hs with ((((h | h) | h) | h) | h) | ⟨h, _⟩ <;> linarith

open Classical in
theorem true_mem_iff (tgt : List V3) (b : SBlk) :
    true ∈ (tgt.map fun p => decide (InHull (cube b) p)) ↔ ∃ p ∈ tgt, InHull (cube b) p := by
  simp only [List.mem_map, decide_eq_true_eq]

open Classical in
theorem search_verbose (tgt : List V3) (bs : List SBlk) (hb : ∀ b ∈ bs, b.Ok) (found : List Bool) :
    search true tgt bs found = (bs.filter fun b => decide (∃ p ∈ tgt, InHull (cube b) p)).map SBlk.num := by
  induction bs generalizing found with
  | nil => rfl
  | cons b bs ih =>
    have ih' := fun f => ih (fun c hc => hb c (List.mem_cons_of_mem _ hc)) f
    unfold search
    by_cases hs : skip true tgt b = true
    · rw [if_pos hs, ih', List.filter_cons_of_neg]
      simp only [decide_eq_true_eq, not_exists, not_and]
      exact skip_sound (hb b List.mem_cons_self) hs
    · rw [if_neg hs]
      dsimp only
      rw [if_neg (fun h => by simp at h), ih']
      by_cases ht : ∃ p ∈ tgt, InHull (cube b) p
      · rw [if_pos ((true_mem_iff tgt b).2 ht), List.filter_cons_of_pos (by simpa using ht)]; rfl
      · rw [if_neg fun h => ht ((true_mem_iff tgt b).1 h), List.filter_cons_of_neg (by simpa using ht)]; rfl

open Classical in
/-- what the normal search guarantees from an intermediate state: points marked found need not be found again -/
theorem search_spec (tgt : List V3) (bs : List SBlk) (hb : ∀ b ∈ bs, b.Ok) (found : List Bool) (hl : found.length = tgt.length) :
    (search false tgt bs found).Sublist ((bs.filter fun b => decide (∃ p ∈ tgt, InHull (cube b) p)).map SBlk.num) ∧
    ∀ t (ht : t < tgt.length), found[t]'(hl ▸ ht) = false → ∀ b ∈ bs, InHull (cube b) tgt[t] →
      ∃ b' ∈ bs, b'.num ∈ search false tgt bs found ∧ InHull (cube b') tgt[t] := by
  induction bs generalizing found with
  | nil => exact ⟨List.Sublist.refl _, fun t ht _ b hb' => absurd hb' List.not_mem_nil⟩
  | cons b bs ih =>
    have ih' := fun f hf => ih (fun c hc => hb c (List.mem_cons_of_mem _ hc)) f hf
    have hok := hb b List.mem_cons_self
    unfold search
    by_cases hs : skip false tgt b = true
    · rw [if_pos hs]
      have hno := skip_sound hok hs
      obtain ⟨h1, h2⟩ := ih' found hl
      refine ⟨?_, fun t ht hf c hc hin => ?_⟩
      · rw [List.filter_cons_of_neg (by simp only [decide_eq_true_eq, not_exists, not_and]; exact hno)]
        exact h1
      · rcases List.mem_cons.1 hc with rfl | hc
        · exact absurd hin (hno _ (List.getElem_mem _))
        · obtain ⟨b', m1, m2⟩ := h2 t ht hf c hc hin
          exact ⟨b', List.mem_cons_of_mem _ m1, m2⟩
    · rw [if_neg hs]
      dsimp only
      by_cases ht : ∃ p ∈ tgt, InHull (cube b) p
      · have hm := (true_mem_iff tgt b).2 ht
        rw [if_pos hm, if_pos hm, List.filter_cons_of_pos (by simpa using ht), List.map_cons]
        generalize hg : List.zipWith (fun x y => x || y) found (tgt.map fun p => decide (InHull (cube b) p)) = found'
        have hl' : found'.length = tgt.length := by
          rw [← hg, List.length_zipWith, List.length_map, hl, min_self]
        have hget : ∀ t (h : t < tgt.length), found'[t]'(hl' ▸ h) = (found[t]'(hl ▸ h) || decide (InHull (cube b) tgt[t])) := by
          intro t h
          subst hg
          simp only [List.getElem_zipWith, List.getElem_map]
        by_cases hd : false = false ∧ false ∉ found'
        · rw [if_pos hd]
          refine ⟨List.Sublist.cons_cons _ (List.nil_sublist _), fun t h hf c hc hin => ?_⟩
          refine ⟨b, List.mem_cons_self, List.mem_cons_self, ?_⟩
          by_contra hn
          have h3 := hget t h
          rw [hf, decide_eq_false hn] at h3
          rw [Bool.or_self] at h3
          exact hd.2 (h3 ▸ List.getElem_mem _)
        · rw [if_neg hd]
          obtain ⟨h1, h2⟩ := ih' found' hl'
          refine ⟨List.Sublist.cons_cons _ h1, fun t h hf c hc hin => ?_⟩
          by_cases hn : InHull (cube b) tgt[t]
          · exact ⟨b, List.mem_cons_self, List.mem_cons_self, hn⟩
          · have h3 := hget t h
            rw [hf, decide_eq_false hn] at h3
            rcases List.mem_cons.1 hc with rfl | hc
            · exact absurd hin hn
            · obtain ⟨b', m1, m2, m3⟩ := h2 t h h3 c hc hin
              exact ⟨b', List.mem_cons_of_mem _ m1, List.mem_append_right _ m2, m3⟩
      · have hm : ¬ true ∈ (tgt.map fun p => decide (InHull (cube b) p)) := fun h => ht ((true_mem_iff tgt b).1 h)
        rw [if_neg hm, if_neg hm, List.filter_cons_of_neg (by simpa using ht)]
        by_cases hd : false = false ∧ false ∉ found
        · rw [if_pos hd]
          refine ⟨List.nil_sublist _, fun t h hf => ?_⟩
          exact absurd (hf ▸ List.getElem_mem (hl ▸ h)) hd.2
        · rw [if_neg hd]
          obtain ⟨h1, h2⟩ := ih' found hl
          refine ⟨h1, fun t h hf c hc hin => ?_⟩
          rcases List.mem_cons.1 hc with rfl | hc
          · exact absurd ⟨_, List.getElem_mem h, hin⟩ ht
          · obtain ⟨b', m1, m2⟩ := h2 t h hf c hc hin
            exact ⟨b', List.mem_cons_of_mem _ m1, m2⟩

open Classical in
/-- C56 (verbose search): for every target block the list returned is exactly the source blocks, in order, one of whose test hulls
    contains a target cell centre; the bounding-box shortcut loses none of them. -/
theorem C56_verbose (mbTo : List (List V3)) (bs : List SBlk) (hb : ∀ b ∈ bs, b.Ok) :
    List.Forall₂ (fun tgt l => l = (bs.filter fun b => decide (∃ p ∈ tgt, InHull (cube b) p)).map SBlk.num)
      mbTo (findBounds true mbTo bs) := by
  unfold findBounds
  rw [List.forall₂_map_right_iff, List.forall₂_same]
  exact fun tgt _ => search_verbose tgt bs hb _

open Classical in
/-- C56 (normal search): for every target block the blocks returned are source blocks whose test hull contains a target cell centre,
    none twice, and every target centre that lies in the hull of any source block lies in the hull of a returned one, although the
    search stops early. -/
theorem C56_normal (mbTo : List (List V3)) (bs : List SBlk) (hb : ∀ b ∈ bs, b.Ok) :
    List.Forall₂ (fun tgt l => l.Sublist ((bs.filter fun b => decide (∃ p ∈ tgt, InHull (cube b) p)).map SBlk.num) ∧
      ∀ p ∈ tgt, ∀ b ∈ bs, InHull (cube b) p → ∃ b' ∈ bs, b'.num ∈ l ∧ InHull (cube b') p) mbTo (findBounds false mbTo bs) := by
  unfold findBounds
  rw [List.forall₂_map_right_iff, List.forall₂_same]
  intro tgt _
  obtain ⟨h1, h2⟩ := search_spec tgt bs hb (tgt.map fun _ => false) (by rw [List.length_map])
  refine ⟨h1, fun p hp b hbm hin => ?_⟩
  obtain ⟨t, ht, rfl⟩ := List.getElem_of_mem hp
  exact h2 t ht (by simp) b hbm hin

/-- C56 (error report): for every target block, with either search, the list is empty - which makes the utility stop with an error -
    exactly if no target centre lies in the hull of any source block. -/
theorem C56_empty (verbose : Bool) (mbTo : List (List V3)) (bs : List SBlk) (hb : ∀ b ∈ bs, b.Ok) :
    List.Forall₂ (fun tgt l => l = [] ↔ ∀ p ∈ tgt, ∀ b ∈ bs, ¬ InHull (cube b) p) mbTo (findBounds verbose mbTo bs) := by
  classical
  cases verbose with
  | true =>
    refine List.Forall₂.imp ?_ (C56_verbose mbTo bs hb)
    rintro tgt l rfl
    rw [List.map_eq_nil_iff, List.filter_eq_nil_iff]
    simp only [decide_eq_true_eq, not_exists, not_and]
    exact ⟨fun h p hp b hbm => h b hbm p hp, fun h b hbm p hp => h p hp b hbm⟩
  | false =>
    refine List.Forall₂.imp ?_ (C56_normal mbTo bs hb)
    rintro tgt l ⟨h1, h2⟩
    constructor
    · intro h p hp b hbm hin
      obtain ⟨b', _, m2, _⟩ := h2 p hp b hbm hin
      rw [h] at m2
      exact absurd m2 List.not_mem_nil
    · intro h
      have : (bs.filter fun b => decide (∃ p ∈ tgt, InHull (cube b) p)) = [] := by
        rw [List.filter_eq_nil_iff]
        simp only [decide_eq_true_eq, not_exists, not_and]
        exact fun b hbm p hp => h p hp b hbm
      rw [this] at h1
      exact List.sublist_nil.1 h1

/-! ### the hull of a parallelepiped is the parallelepiped -/

theorem inHull_append {l l' : List V3} {p : V3} (h : InHull l p) : InHull (l ++ l') p := by
  obtain ⟨w, hl, hw, hs, hx, hy, hz⟩ := h
  have e : ∀ f : V3 → ℝ, (List.zipWith (fun a v => a * f v) (w ++ List.replicate l'.length 0) (l ++ l')).sum =
      (List.zipWith (fun a v => a * f v) w l).sum := by
    intro f
    rw [List.zipWith_append hl, List.sum_append]
    have : ∀ m : List V3, (List.zipWith (fun a v => a * f v) (List.replicate m.length (0 : ℝ)) m).sum = 0 := by
      intro m
      induction m with
      | nil => rfl
      | cons v m ih => rw [List.length_cons, List.replicate_succ, List.zipWith_cons_cons, List.sum_cons, ih]; ring
    rw [this, add_zero]
  refine ⟨w ++ List.replicate l'.length 0, by simp [hl], ?_, ?_, ?_, ?_, ?_⟩
  · intro a ha
    rcases List.mem_append.1 ha with h | h
    · exact hw a h
    · rw [(List.mem_replicate.1 h).2]
  · rw [List.sum_append, hs]; simp
  · rw [e V3.x, hx]
  · rw [e V3.y, hy]
  · rw [e V3.z, hz]

/-- `p` is `c0 o + s u + t v + r w` -/
def Comb (o u v w : V3) (c0 s t r : ℝ) (x y z : ℝ) : Prop :=
  x = c0 * o.x + s * u.x + t * v.x + r * w.x ∧ y = c0 * o.y + s * u.y + t * v.y + r * w.y ∧
  z = c0 * o.z + s * u.z + t * v.z + r * w.z

theorem comb_hull (o u v w : V3) (S T R : ℝ) : ∀ (c : List ℝ) (l : List V3), c.length = l.length → (∀ a ∈ c, 0 ≤ a) →
    (∀ p ∈ l, ∃ s t r, (0 ≤ s ∧ s ≤ S) ∧ (0 ≤ t ∧ t ≤ T) ∧ (0 ≤ r ∧ r ≤ R) ∧ Comb o u v w 1 s t r p.x p.y p.z) →
    ∃ s t r, (0 ≤ s ∧ s ≤ S * c.sum) ∧ (0 ≤ t ∧ t ≤ T * c.sum) ∧ (0 ≤ r ∧ r ≤ R * c.sum) ∧
      Comb o u v w c.sum s t r (List.zipWith (fun a q => a * q.x) c l).sum (List.zipWith (fun a q => a * q.y) c l).sum
        (List.zipWith (fun a q => a * q.z) c l).sum := by
  intro c
  induction c with
  | nil => intro l _ _ _; exact ⟨0, 0, 0, by simp, by simp, by simp, by simp [Comb]⟩
  | cons a c ih =>
    intro l hl hc hp
    cases l with
    | nil => simp at hl
    | cons q l =>
      obtain ⟨s, t, r, ⟨s0, s1⟩, ⟨t0, t1⟩, ⟨r0, r1⟩, e1, e2, e3⟩ := ih l (by simpa using hl) (fun b hb => hc b (List.mem_cons_of_mem _ hb))
        (fun p h => hp p (List.mem_cons_of_mem _ h))
      obtain ⟨s', t', r', ⟨s0', s1'⟩, ⟨t0', t1'⟩, ⟨r0', r1'⟩, f1, f2, f3⟩ := hp q List.mem_cons_self
      have ha := hc a List.mem_cons_self
      refine ⟨a * s' + s, a * t' + t, a * r' + r, ⟨by positivity, ?_⟩, ⟨by positivity, ?_⟩, ⟨by positivity, ?_⟩, ?_, ?_, ?_⟩
      · rw [List.sum_cons]; nlinarith [mul_le_mul_of_nonneg_left s1' ha]
      · rw [List.sum_cons]; nlinarith [mul_le_mul_of_nonneg_left t1' ha]
      · rw [List.sum_cons]; nlinarith [mul_le_mul_of_nonneg_left r1' ha]
      · rw [List.zipWith_cons_cons, List.sum_cons, List.sum_cons, e1, f1]; ring
      · rw [List.zipWith_cons_cons, List.sum_cons, List.sum_cons, e2, f2]; ring
      · rw [List.zipWith_cons_cons, List.sum_cons, List.sum_cons, e3, f3]; ring

/-- C56 (what a hull is): for a source block that is a parallelepiped with equally spaced nodes, of any size, the points of its test
    hull are exactly the points of the parallelepiped. -/
theorem C56_hull_parallelepiped (b : SBlk) (hb : b.Ok) (o u v w : V3)
    (hx : ∀ i j k, b.x i j k = o + V3.smul i u + V3.smul j v + V3.smul k w) (p : V3) :
    InHull (cube b) p ↔ ∃ s t r : ℝ, (0 ≤ s ∧ s ≤ (b.ni - 1 : ℕ)) ∧ (0 ≤ t ∧ t ≤ (b.nj - 1 : ℕ)) ∧ (0 ≤ r ∧ r ≤ (b.nk - 1 : ℕ)) ∧
      p = o + V3.smul s u + V3.smul t v + V3.smul r w := by
  constructor
  · rintro ⟨c, hl, hc, hs, e1, e2, e3⟩
    obtain ⟨s, t, r, h1, h2, h3, f1, f2, f3⟩ := comb_hull o u v w (b.ni - 1 : ℕ) (b.nj - 1 : ℕ) (b.nk - 1 : ℕ) c (cube b) hl hc (by
      intro q hq
      have := cube_nodes hb q hq
      unfold SBlk.nodes at this
      simp only [List.mem_flatMap, List.mem_range, List.mem_map] at this
      obtain ⟨i, hi, j, hj, k, hk, rfl⟩ := this
      refine ⟨i, j, k, ⟨Nat.cast_nonneg _, Nat.cast_le.2 (by omega)⟩, ⟨Nat.cast_nonneg _, Nat.cast_le.2 (by omega)⟩,
        ⟨Nat.cast_nonneg _, Nat.cast_le.2 (by omega)⟩, ?_⟩
      rw [hx]
      refine ⟨?_, ?_, ?_⟩ <;> simp)
    rw [hs] at h1 h2 h3 f1 f2 f3
    rw [mul_one] at h1 h2 h3
    refine ⟨s, t, r, h1, h2, h3, ?_⟩
    ext
    · rw [e1, f1]; simp
    · rw [e2, f2]; simp
    · rw [e3, f3]; simp
  · rintro ⟨s, t, r, ⟨s0, s1⟩, ⟨t0, t1⟩, ⟨r0, r1⟩, rfl⟩
    unfold cube
    dsimp only
    refine inHull_append (inHull_append (inHull_append ?_))
    have frac : ∀ (m : ℕ) (q : ℝ), 0 ≤ q → q ≤ (m : ℝ) → ∃ a : ℝ, 0 ≤ a ∧ a ≤ 1 ∧ a * m = q := by
      intro m q h0 h1
      rcases Nat.eq_zero_or_pos m with rfl | hm
      · exact ⟨0, le_refl _, by norm_num, by simp at h1 ⊢; linarith⟩
      · have : (0 : ℝ) < m := Nat.cast_pos.2 hm
        exact ⟨q / m, by positivity, (div_le_one this).2 h1, by field_simp⟩
    obtain ⟨a, a0, a1, ea⟩ := frac _ s s0 s1
    obtain ⟨c, c0, c1, ec⟩ := frac _ t t0 t1
    obtain ⟨d, d0, d1, ed⟩ := frac _ r r0 r1
    have a2 : 0 ≤ 1 - a := by linarith
    have c2 : 0 ≤ 1 - c := by linarith
    have d2 : 0 ≤ 1 - d := by linarith
    refine ⟨[(1 - a) * (1 - c) * (1 - d), a * (1 - c) * (1 - d), (1 - a) * c * (1 - d), (1 - a) * (1 - c) * d, a * c * (1 - d),
      a * (1 - c) * d, (1 - a) * c * d, a * c * d], rfl, ?_, ?_, ?_, ?_, ?_⟩
    · intro q hq
      simp only [List.mem_cons, List.not_mem_nil, or_false] at hq
      rcases hq with rfl | rfl | rfl | rfl | rfl | rfl | rfl | rfl <;> positivity
    · simp only [List.sum_cons, List.sum_nil]; ring
    all_goals
      simp only [hx, List.zipWith_cons_cons, List.zipWith_nil_left, List.sum_cons, List.sum_nil, V3.add_x, V3.add_y, V3.add_z,
        V3.smul_x, V3.smul_y, V3.smul_z, Nat.cast_zero]
      rw [← ea, ← ec, ← ed]
      ring

/-- C56 (what a hull is, any block): the hull contains the eight corners of the block. -/
theorem C56_hull_corners (b : SBlk) (i j k : ℕ) (hi : i = 0 ∨ i = b.ni - 1) (hj : j = 0 ∨ j = b.nj - 1) (hk : k = 0 ∨ k = b.nk - 1) :
    InHull (cube b) (b.x i j k) := by
  unfold cube
  dsimp only
  refine inHull_append (inHull_append (inHull_append ?_))
  rcases hi with rfl | rfl <;> rcases hj with rfl | rfl <;> rcases hk with rfl | rfl
  · exact ⟨[1, 0, 0, 0, 0, 0, 0, 0], rfl, by simp, by simp, by simp, by simp, by simp⟩
  · exact ⟨[0, 0, 0, 1, 0, 0, 0, 0], rfl, by simp, by simp, by simp, by simp, by simp⟩
  · exact ⟨[0, 0, 1, 0, 0, 0, 0, 0], rfl, by simp, by simp, by simp, by simp, by simp⟩
  · exact ⟨[0, 0, 0, 0, 0, 0, 1, 0], rfl, by simp, by simp, by simp, by simp, by simp⟩
  · exact ⟨[0, 1, 0, 0, 0, 0, 0, 0], rfl, by simp, by simp, by simp, by simp, by simp⟩
  · exact ⟨[0, 0, 0, 0, 0, 1, 0, 0], rfl, by simp, by simp, by simp, by simp, by simp⟩
  · exact ⟨[0, 0, 0, 0, 1, 0, 0, 0], rfl, by simp, by simp, by simp, by simp, by simp⟩
  · exact ⟨[0, 0, 0, 0, 0, 0, 0, 1], rfl, by simp, by simp, by simp, by simp, by simp⟩

/-- a unit cube of 2 x 2 x 2 nodes -/
def exBlk : SBlk := ⟨0, 2, 2, 2, fun i j k => ⟨i, j, k⟩⟩

/-- its centre is found -/
theorem exBlk_centre : exBlk.Ok ∧ InHull (cube exBlk) ⟨1 / 2, 1 / 2, 1 / 2⟩ := by
  refine ⟨⟨by decide, by decide, by decide⟩, [1 / 2, 0, 0, 0, 0, 0, 0, 1 / 2], rfl, ?_, ?_, ?_, ?_, ?_⟩
  · intro a ha
    simp only [List.mem_cons, List.not_mem_nil, or_false] at ha
    rcases ha with rfl | rfl | rfl | rfl | rfl | rfl | rfl | rfl <;> norm_num
  all_goals
    simp [cube, exBlk] <;> norm_num

/-- and it is a parallelepiped -/
example : ∀ i j k, exBlk.x i j k = 0 + V3.smul i ⟨1, 0, 0⟩ + V3.smul j ⟨0, 1, 0⟩ + V3.smul k ⟨0, 0, 1⟩ := by
  intro i j k
  simp [exBlk, V3.ext_iff]

end PG.Interp
