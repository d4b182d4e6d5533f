import Verif.Halo.Unify
/-
C86, C87 on a concrete family: one block that is its own neighbour in any subset of the three directions.
-/
noncomputable section
namespace PG.Halo
open PG.Topo V3

/-- a block whose low and high faces are connected to each other in the directions `S` (as `create.multiBlockCube` makes
    with one block per direction, grid/create.py, C41) -/
def boxBlock (d : Dims) (S : Nat → Bool) : Block :=
  ⟨0, d, [⟨1, if S 0 then some 0 else none, ⟨1,2,3⟩, 0⟩, ⟨2, if S 0 then some 0 else none, ⟨1,2,3⟩, 0⟩,
    ⟨3, if S 1 then some 0 else none, ⟨1,2,3⟩, 0⟩, ⟨4, if S 1 then some 0 else none, ⟨1,2,3⟩, 0⟩,
    ⟨5, if S 2 then some 0 else none, ⟨1,2,3⟩, 0⟩, ⟨6, if S 2 then some 0 else none, ⟨1,2,3⟩, 0⟩]⟩

/-- its periodic data: translation by `span a` along `ax a` -/
def boxPer (S : Nat → Bool) (ax : Nat → V3) (span : Nat → ℝ) (nf : Nat) : PerFace :=
  ⟨if S (normalAxis nf) then (if isLow nf then .transLow else .transHigh) else .none,
   ax (normalAxis nf), span (normalAxis nf), fun _ => 0, fun _ => 0⟩

theorem box_owns (d : Dims) (S : Nat → Bool) (r : Nat) (b : Block) :
    Owns [[boxBlock d S]] r b ↔ r = 0 ∧ b = boxBlock d S := by
  unfold Owns
  rcases r with _ | r <;> simp

theorem box_face {d : Dims} {S : Nat → Bool} {f : Face} (hf : f ∈ (boxBlock d S).faces) :
    (1 ≤ f.nface ∧ f.nface ≤ 6) ∧ f = ⟨f.nface, if S (normalAxis f.nface) then some 0 else none, ⟨1,2,3⟩, 0⟩ := by
  simp only [boxBlock, List.mem_cons, List.not_mem_nil, or_false] at hf
  rcases hf with rfl|rfl|rfl|rfl|rfl|rfl <;> refine ⟨⟨by simp, by simp⟩, ?_⟩ <;> simp [normalAxis] <;> split_ifs <;> simp_all

theorem box_face_mem (d : Dims) (S : Nat → Bool) (nf : Nat) (hn : 1 ≤ nf ∧ nf ≤ 6) :
    (⟨nf, if S (normalAxis nf) then some 0 else none, ⟨1,2,3⟩, 0⟩ : Face) ∈ (boxBlock d S).faces := by
  have : nf = 1 ∨ nf = 2 ∨ nf = 3 ∨ nf = 4 ∨ nf = 5 ∨ nf = 6 := by omega
  rcases this with rfl|rfl|rfl|rfl|rfl|rfl <;> simp [boxBlock, normalAxis] <;> rfl

theorem get123 (i : Nat) (hi : i < 3) : axisOf ((⟨1,2,3⟩ : Ori).get i) = i ∧ reversed ((⟨1,2,3⟩ : Ori).get i) = false := by
  have : i = 0 ∨ i = 1 ∨ i = 2 := by omega
  rcases this with rfl | rfl | rfl <;> decide

theorem box_well (d : Dims) (S : Nat → Bool) (hd : 2 ≤ d.ni ∧ 2 ≤ d.nj ∧ 2 ≤ d.nk) : WellConnected [[boxBlock d S]] where
  uniq := by
    intro r r' b b' h h' _
    rw [box_owns] at h h'
    exact ⟨h.1.trans h'.1.symm, h.2.trans h'.2.symm⟩
  nodup := by
    intro mb h
    simp only [List.mem_cons, List.not_mem_nil, or_false] at h
    subst h; simp
  nface_range := by
    intro r b h f hf
    rw [box_owns] at h
    obtain ⟨-, rfl⟩ := h
    exact (box_face hf).1
  nface_distinct := by
    intro r b h
    rw [box_owns] at h
    obtain ⟨-, rfl⟩ := h
    simp [boxBlock]
  cells := by
    intro r b h
    rw [box_owns] at h
    obtain ⟨-, rfl⟩ := h
    exact hd
  conn := by
    intro r b h f hf nb hnb
    rw [box_owns] at h
    obtain ⟨rfl, rfl⟩ := h
    obtain ⟨hn, e⟩ := box_face hf
    have hori : f.ori = ⟨1,2,3⟩ := by rw [e]
    have hcr : f.commRank = 0 := by rw [e]
    have hS : S (normalAxis f.nface) = true ∧ nb = 0 := by
      rw [e] at hnb
      simp only at hnb
      cases hS : S (normalAxis f.nface)
      · rw [hS] at hnb; simp at hnb
      · rw [hS] at hnb; simp at hnb; exact ⟨rfl, hnb.symm⟩
    obtain ⟨hS, rfl⟩ := hS
    rw [hori, hcr]
    refine ⟨by decide, boxBlock d S, (box_owns _ _ _ _).2 ⟨rfl, rfl⟩, rfl, ?_, ?_⟩
    · intro i hi _
      rw [(get123 i hi).1]
    · obtain ⟨nf', h1, h2, h3⟩ : ∃ nf', neighborNface f.nface ⟨1,2,3⟩ = some nf' ∧ (1 ≤ nf' ∧ nf' ≤ 6) ∧
          normalAxis nf' = normalAxis f.nface := by
        have : f.nface = 1 ∨ f.nface = 2 ∨ f.nface = 3 ∨ f.nface = 4 ∨ f.nface = 5 ∨ f.nface = 6 := by omega
        rcases this with h|h|h|h|h|h <;> rw [h]
        exacts [⟨2, by decide⟩, ⟨1, by decide⟩, ⟨4, by decide⟩, ⟨3, by decide⟩, ⟨6, by decide⟩, ⟨5, by decide⟩]
      refine ⟨_, box_face_mem d S nf' h2, ?_, h1, rfl⟩
      simp only [h3, hS, if_true]; rfl

/-- the coordinate inside the block that an out-of-range coordinate stands for -/
def wrap (per : Bool) (N x : Int) : Int := if per then (if x < 0 then x + N else if N < x then x - N else x) else x

theorem wrap_idem {N x : Int} (hx : 0 ≤ x ∧ x ≤ N) : wrap true N x = x := by unfold wrap; simp; omega

theorem box_glued {d : Dims} {S : Nat → Bool} {f : Face} (hf : f ∈ (boxBlock d S).faces) {c c' : Nat → Int}
    (hg : Glued .node f.nface f.ori d d c c') (i : Nat) (hi : i < 3) :
    c' i = if i = normalAxis f.nface then (if isLow f.nface then last .node d i + c i else c i - last .node d i) else c i := by
  obtain ⟨hn, e⟩ := box_face hf
  have hori : f.ori = ⟨1,2,3⟩ := by rw [e]
  have := hg i hi
  rw [hori] at this
  simp only [(get123 i hi).1, (get123 i hi).2, gap, Bool.false_eq_true, if_false] at this
  rw [this]
  split
  · split <;> omega
  · rfl

/-- a field of the glued periodic box from any function of the wrapped indices -/
theorem box_field {α : Type} (ng : Nat) (d : Dims) (S : Nat → Bool) (hd : ∀ a, a < 3 → (ng : Int) ≤ last .node d a)
    (X : Int → Int → Int → α) :
    FieldOnGluedGrid .node ng [[boxBlock d S]] (fun _ c =>
      X (wrap (S 0) (last .node d 0) (c 0)) (wrap (S 1) (last .node d 1) (c 1)) (wrap (S 2) (last .node d 2) (c 2))) := by
  intro r b hb f hf nb hnb r' b' hb' hb'n c c' hc hB hg
  rw [box_owns] at hb hb'
  obtain ⟨rfl, rfl⟩ := hb
  obtain ⟨rfl, rfl⟩ := hb'
  obtain ⟨hn, e⟩ := box_face hf
  have hS : S (normalAxis f.nface) = true := by
    rw [e] at hnb
    simp only at hnb
    cases hS : S (normalAxis f.nface)
    · rw [hS] at hnb; simp at hnb
    · rfl
  have key : ∀ i, i < 3 → wrap (S i) (last .node d i) (c i) = wrap (S i) (last .node d i) (c' i) := by
    intro i hi
    rw [box_glued hf hg i hi]
    by_cases h : i = normalAxis f.nface
    · rw [if_pos h, h, hS]
      have h1 := hd (normalAxis f.nface) (axes_distinct f.nface hn).1
      unfold Behind depthBehind layers at hB
      unfold wrap
      simp only [boxBlock] at hB
      simp only [if_true]
      cases hl : isLow f.nface <;> simp only [hl, if_true, if_false, Bool.false_eq_true] at hB ⊢
      · rw [if_neg (by omega), if_pos (by omega), if_neg (by omega), if_neg (by omega)]
      · rw [if_pos (by omega), if_neg (by omega), if_neg (by omega)]; omega
    · rw [if_neg h]
  show X _ _ _ = X _ _ _
  rw [key 0 (by omega), key 1 (by omega), key 2 (by omega)]

/-- what the two faces of axis `a` add to a node's coordinates -/
def delta (per : Bool) (N x : Int) (t : V3) : V3 := if per then (if x < 0 then -t else if N < x then t else 0) else 0

theorem pair_shift (ng : Nat) (d : Dims) (S : Nat → Bool) (ax : Nat → V3) (span : Nat → ℝ) (c : Nat → Int)
    (hc : InArr .node ng d c) (a : Nat) (ha : a < 3) (h0 : 0 ≤ last .node d a) (nlo nhi : Option Nat) (v : V3) :
    shifts ng (boxPer S ax span) d c [⟨2*a+1, nlo, ⟨1,2,3⟩, 0⟩, ⟨2*a+2, nhi, ⟨1,2,3⟩, 0⟩] v
      = v + delta (S a) (last .node d a) (c a) (smul (span a) (ax a)) := by
  classical
  have n1 : normalAxis (2*a+1) = a := by unfold normalAxis; omega
  have n2 : normalAxis (2*a+2) = a := by unfold normalAxis; omega
  have l1 : isLow (2*a+1) = true := by unfold isLow; simp
  have l2 : isLow (2*a+2) = false := by unfold isLow; simp
  have hca := hc a ha
  have b1 : Behind .node (2*a+1) ng d c ↔ c a < 0 := by
    unfold Behind depthBehind layers; rw [n1, l1]; simp; omega
  have b2 : Behind .node (2*a+2) ng d c ↔ last .node d a < c a := by
    unfold Behind depthBehind layers; rw [n2, l2]; simp; omega
  unfold shifts
  simp only [List.foldl_cons, List.foldl_nil]
  unfold delta
  cases hS : S a
  · have t1 : (boxPer S ax span (2*a+1)).type = .none := by simp [boxPer, n1, hS]
    have t2 : (boxPer S ax span (2*a+2)).type = .none := by simp [boxPer, n2, hS]
    have hz : v + 0 = v := by ext <;> simp
    simp only [shift_none _ t1, shift_none _ t2, ite_self, Bool.false_eq_true, if_false, hz]
  · have t1 : (boxPer S ax span (2*a+1)).type = .transLow := by simp [boxPer, n1, l1, hS]
    have t2 : (boxPer S ax span (2*a+2)).type = .transHigh := by simp [boxPer, n2, l2, hS]
    have s1 : (boxPer S ax span (2*a+1)).span = span a := by simp [boxPer, n1]
    have s2 : (boxPer S ax span (2*a+2)).span = span a := by simp [boxPer, n2]
    have a1 : (boxPer S ax span (2*a+1)).axis = ax a := by simp [boxPer, n1]
    have a2 : (boxPer S ax span (2*a+2)).axis = ax a := by simp [boxPer, n2]
    simp only [shift_transLow _ t1, shift_transHigh _ t2, s1, s2, a1, a2, if_true]
    by_cases hlo : c a < 0
    · rw [if_pos (b1.2 hlo), if_neg (fun h => by have := b2.1 h; omega), if_pos hlo]
      ext <;> simp <;> ring
    · rw [if_neg (fun h => hlo (b1.1 h)), if_neg hlo]
      by_cases hhi : last .node d a < c a
      · rw [if_pos (b2.2 hhi), if_pos hhi]
      · rw [if_neg (fun h => hhi (b2.1 h)), if_neg hhi]
        ext <;> simp

theorem wrap_delta (per : Bool) (N : Int) (t : V3) (Y : Int → V3) (h : per = true → ∀ x, Y (x + N) = Y x + t) (x : Int) :
    Y (wrap per N x) + delta per N x t = Y x := by
  unfold wrap delta
  cases per
  · simp; ext <;> simp
  · simp only [if_true]
    have h := h rfl
    by_cases h1 : x < 0
    · rw [if_pos h1, if_pos h1, h]; ext <;> simp
    · rw [if_neg h1, if_neg h1]
      by_cases h2 : N < x
      · rw [if_pos h2, if_pos h2]
        have := h (x - N)
        rw [show x - N + N = x by omega] at this
        exact this.symm
      · rw [if_neg h2, if_neg h2]; ext <;> simp

/-- C87 (box): a block that is periodic by translation in any of its directions, with spans equal to the distance between
    the opposite sides. Whatever its (curved, stretched) node coordinates `X`, continued periodically, after unification all
    halo nodes, including edges and corners, have the coordinates of the continued grid; in the other directions the
    generated halos are kept. -/
theorem C87_box_partial (ng : Nat) (hng : 0 < ng) (d : Dims) (hd : 2 ≤ d.ni ∧ 2 ≤ d.nj ∧ 2 ≤ d.nk)
    (ht : ∀ a, a < 3 → (ng : Int) ≤ last .node d a) (S : Nat → Bool) (ax : Nat → V3) (span : Nat → ℝ)
    (X : Int → Int → Int → V3)
    (h0 : S 0 = true → ∀ i j k, X (i + (d.ni - 1)) j k = X i j k + smul (span 0) (ax 0))
    (h1 : S 1 = true → ∀ i j k, X i (j + (d.nj - 1)) k = X i j k + smul (span 1) (ax 1))
    (h2 : S 2 = true → ∀ i j k, X i j (k + (d.nk - 1)) = X i j k + smul (span 2) (ax 2))
    (gen : Nat → Arr3 V3)
    (hgen : ∀ c, InArr .node ng d c → (∀ a, a < 3 → S a = true → 0 ≤ c a ∧ c a ≤ last .node d a) →
      at' ng (gen 0) c = X (c 0) (c 1) (c 2)) (c : Nat → Int) (hc : InArr .node ng d c) :
    at' ng (unify ng [[boxBlock d S]] (fun _ => boxPer S ax span) gen (boxBlock d S)) c = X (c 0) (c 1) (c 2) := by
  have hw := box_well d S hd
  have hown : Owns [[boxBlock d S]] 0 (boxBlock d S) := (box_owns _ _ _ _).2 ⟨rfl, rfl⟩
  rw [unify_at ng _ hw _ gen 0 (boxBlock d S) hown c hc]
  have hex := exchanged_eq ng hng [[boxBlock d S]] hw
    (by intro r b hb a ha; rw [box_owns] at hb; obtain ⟨-, rfl⟩ := hb; exact ht a ha)
    gen _ (box_field ng d S ht X)
    (by
      intro r b hb c hc hu
      rw [box_owns] at hb
      obtain ⟨-, rfl⟩ := hb
      have hin : ∀ a, a < 3 → S a = true → 0 ≤ c a ∧ c a ≤ last .node d a := by
        intro a ha hS
        have hca := hc a ha
        by_contra hcon
        rcases (by omega : c a < 0 ∨ last .node d a < c a) with hx | hx
        · refine hu _ (box_face_mem d S (2*a+1) (by omega)) ?_ ?_
          · simp only [show normalAxis (2*a+1) = a by unfold normalAxis; omega, hS]; simp
          · unfold Behind depthBehind layers
            rw [show normalAxis (2*a+1) = a by unfold normalAxis; omega, show isLow (2*a+1) = true by unfold isLow; simp]
            simp only [if_true]; omega
        · refine hu _ (box_face_mem d S (2*a+2) (by omega)) ?_ ?_
          · simp only [show normalAxis (2*a+2) = a by unfold normalAxis; omega, hS]; simp
          · unfold Behind depthBehind layers
            rw [show normalAxis (2*a+2) = a by unfold normalAxis; omega, show isLow (2*a+2) = false by unfold isLow; simp]
            simp only [if_false, Bool.false_eq_true]
            have : (boxBlock d S).dims = d := rfl
            rw [this] at hca ⊢
            omega
      have hw' : ∀ a, a < 3 → wrap (S a) (last .node d a) (c a) = c a := by
        intro a ha
        cases hS : S a
        · rfl
        · exact wrap_idem (hin a ha hS)
      rw [hw' 0 (by omega), hw' 1 (by omega), hw' 2 (by omega)]
      exact hgen c hc hin) 0 (boxBlock d S) hown c hc
  rw [hex]
  show shifts ng (boxPer S ax span) d c ([⟨2*0+1, _, ⟨1,2,3⟩, 0⟩, ⟨2*0+2, _, ⟨1,2,3⟩, 0⟩] ++
    ([⟨2*1+1, _, ⟨1,2,3⟩, 0⟩, ⟨2*1+2, _, ⟨1,2,3⟩, 0⟩] ++ [⟨2*2+1, _, ⟨1,2,3⟩, 0⟩, ⟨2*2+2, _, ⟨1,2,3⟩, 0⟩])) _ = _
  rw [shifts_append, shifts_append,
    pair_shift ng d S ax span c hc 0 (by omega) (last_nonneg .node d hd 0),
    pair_shift ng d S ax span c hc 1 (by omega) (last_nonneg .node d hd 1),
    pair_shift ng d S ax span c hc 2 (by omega) (last_nonneg .node d hd 2)]
  have e0 := wrap_delta (S 0) (last .node d 0) (smul (span 0) (ax 0))
    (fun x => X x (wrap (S 1) (last .node d 1) (c 1)) (wrap (S 2) (last .node d 2) (c 2))) (fun h x => h0 h x _ _) (c 0)
  have e1 := wrap_delta (S 1) (last .node d 1) (smul (span 1) (ax 1))
    (fun x => X (c 0) x (wrap (S 2) (last .node d 2) (c 2))) (fun h x => h1 h _ x _) (c 1)
  have e2 := wrap_delta (S 2) (last .node d 2) (smul (span 2) (ax 2))
    (fun x => X (c 0) (c 1) x) (fun h x => h2 h _ _ x) (c 2)
  rw [e0, e1, e2]

/-- a stretched, skewed grid that is periodic in i and k: all hypotheses of `C87_box_partial` (hence of `C86_field`) hold -/
example : ∃ (d : Dims) (S : Nat → Bool) (ax : Nat → V3) (span : Nat → ℝ) (X : Int → Int → Int → V3),
    (2 ≤ d.ni ∧ 2 ≤ d.nj ∧ 2 ≤ d.nk) ∧ (∀ a, a < 3 → ((2 : Nat) : Int) ≤ last .node d a) ∧ S 0 = true ∧ S 1 = false ∧ S 2 = true ∧
    (∀ i j k, X (i + (d.ni - 1)) j k = X i j k + smul (span 0) (ax 0)) ∧
    (∀ i j k, X i j (k + (d.nk - 1)) = X i j k + smul (span 2) (ax 2)) ∧ X 1 3 2 ≠ X 1 2 2 + (X 1 1 2 - X 1 0 2) := by
  refine ⟨⟨4, 5, 3⟩, fun a => decide (a ≠ 1), fun a => if a = 0 then ⟨1, 0, 0⟩ else ⟨0, 0, 1⟩, fun a => if a = 0 then 3 else 4,
    fun i j k => ⟨i + (j : ℝ) ^ 2, (j : ℝ) ^ 3, 2 * k + j⟩, by decide, by decide, rfl, rfl, rfl, ?_, ?_, ?_⟩
  · intro i j k; ext <;> simp; ring
  · intro i j k; ext <;> simp; ring
  · intro h
    have := congrArg V3.x h
    norm_num at this

/-- C87 is false for a periodic direction that is one cell thick with two halo layers (accepted by the code): after
    unification the second halo plane on the low side coincides with the first instead of lying one span further out, for
    every grid and span. -/
theorem C87_thin_violated (d : Dims) (hd : 2 ≤ d.ni ∧ 2 ≤ d.nj) (hk : d.nk = 2) (ax : Nat → V3) (span : Nat → ℝ)
    (gen : Nat → Arr3 V3) (i j : Int) (hi : 0 ≤ i ∧ i ≤ d.ni - 1) (hj : 0 ≤ j ∧ j ≤ d.nj - 1) :
    let S : Nat → Bool := fun a => decide (a = 2)
    let out := unify 2 [[boxBlock d S]] (fun _ => boxPer S ax span) gen (boxBlock d S)
    let own : V3 := at' 2 (gen 0) (fun a => if a = 0 then i else if a = 1 then j else 0)
    at' 2 out (fun a => if a = 0 then i else if a = 1 then j else -1) = own - smul (span 2) (ax 2) ∧
    at' 2 out (fun a => if a = 0 then i else if a = 1 then j else -2) = own - smul (span 2) (ax 2) := by
  classical
  intro S out own
  have hw := box_well d S ⟨hd.1, hd.2, by omega⟩
  have hown : Owns [[boxBlock d S]] 0 (boxBlock d S) := (box_owns _ _ _ _).2 ⟨rfl, rfl⟩
  have hl2 : last .node d 2 = 1 := by unfold last; simp only; omega
  have hl0 : last .node d 0 = d.ni - 1 := rfl
  have hl1 : last .node d 1 = d.nj - 1 := rfl
  let pos : Int → Nat → Int := fun x a => if a = 0 then i else if a = 1 then j else x
  have harr : ∀ x, -2 ≤ x → x ≤ 1 → InArr .node 2 d (pos x) := by
    intro x hx1 hx2 a ha
    have : a = 0 ∨ a = 1 ∨ a = 2 := by omega
    rcases this with rfl | rfl | rfl
    · rw [hl0]; show -2 ≤ i ∧ i ≤ _; constructor <;> push_cast <;> omega
    · rw [hl1]; show -2 ≤ j ∧ j ≤ _; constructor <;> push_cast <;> omega
    · rw [hl2]; show -2 ≤ x ∧ x ≤ _; constructor <;> push_cast <;> omega
  have hface5 : (⟨5, some 0, ⟨1,2,3⟩, 0⟩ : Face) ∈ (boxBlock d S).faces := by simp [boxBlock, S]
  -- one exchange moves the value at k = x < 0 to the value at k = x + 1
  have hstep : ∀ (g : Nat → Arr3 ℝ) (x : Int), -2 ≤ x → x ≤ -1 →
      at' 2 (communicate .node 2 g [[boxBlock d S]] 0 (boxBlock d S)) (pos x) = at' 2 (g 0) (pos (x + 1)) := by
    intro g x h1 h2
    refine exchange_correct .node 2 (by omega) g _ hw 0 _ hown ⟨5, some 0, ⟨1,2,3⟩, 0⟩ hface5 0 rfl 0 _ hown rfl
      (pos x) (pos (x+1)) ?_ ?_ ?_
    · show 1 ≤ -x ∧ -x ≤ 2; omega
    · intro a ha hne
      have : a = 0 ∨ a = 1 ∨ a = 2 := by omega
      rcases this with rfl | rfl | rfl
      · exact hi
      · exact hj
      · exact absurd rfl hne
    · intro a ha
      have : a = 0 ∨ a = 1 ∨ a = 2 := by omega
      rcases this with rfl | rfl | rfl
      · rfl
      · rfl
      · show x + 1 = last .node d 2 + 0 + x
        rw [hl2]; omega
  have hin : ∀ (k : Nat) (g : Nat → Arr3 ℝ), at' 2 (rounds .node 2 [[boxBlock d S]] k g 0) (pos 0) = at' 2 (g 0) (pos 0) := by
    intro k g
    refine rounds_unexchanged .node 2 (by omega) _ hw g 0 _ hown (pos 0) (interior_unexchanged hw hown ?_) k
    intro a ha
    have : a = 0 ∨ a = 1 ∨ a = 2 := by omega
    rcases this with rfl | rfl | rfl
    · exact hi
    · exact hj
    · show (0:Int) ≤ 0 ∧ 0 ≤ last .node d 2; omega
  have hround : ∀ (k : Nat) (g : Nat → Arr3 ℝ), rounds .node 2 [[boxBlock d S]] (k+1) g 0 =
      communicate .node 2 (rounds .node 2 [[boxBlock d S]] k g) [[boxBlock d S]] 0 (boxBlock d S) := fun k g =>
    round_eq .node 2 _ hw _ 0 _ hown
  have r1 : ∀ g : Nat → Arr3 ℝ, at' 2 (rounds .node 2 [[boxBlock d S]] 3 g 0) (pos (-1)) = at' 2 (g 0) (pos 0) := by
    intro g; rw [hround, hstep _ _ (by omega) (by omega)]; exact hin 2 g
  have r2 : ∀ g : Nat → Arr3 ℝ, at' 2 (rounds .node 2 [[boxBlock d S]] 3 g 0) (pos (-2)) = at' 2 (g 0) (pos 0) := by
    intro g
    rw [hround, hstep _ _ (by omega) (by omega), hround]
    exact (hstep _ (-1) (by omega) (by omega)).trans (hin 1 g)
  have fin : ∀ x, -2 ≤ x → x ≤ -1 → exchanged 2 [[boxBlock d S]] gen 0 (pos x) = own →
      at' 2 out (pos x) = own - smul (span 2) (ax 2) := by
    intro x h1 h2 he
    have := unify_at 2 _ hw (fun _ => boxPer S ax span) gen 0 _ hown (pos x) (harr x h1 (by omega))
    refine this.trans ?_
    have he' : exchanged ((2 : Nat) : Int) [[boxBlock d S]] gen (boxBlock d S).nblki (pos x) = own := he
    rw [he']
    show shifts 2 (boxPer S ax span) d (pos x) ([⟨2*0+1, _, ⟨1,2,3⟩, 0⟩, ⟨2*0+2, _, ⟨1,2,3⟩, 0⟩] ++
      ([⟨2*1+1, _, ⟨1,2,3⟩, 0⟩, ⟨2*1+2, _, ⟨1,2,3⟩, 0⟩] ++ [⟨2*2+1, _, ⟨1,2,3⟩, 0⟩, ⟨2*2+2, _, ⟨1,2,3⟩, 0⟩])) _ = _
    rw [shifts_append, shifts_append, pair_shift 2 d S ax span _ (harr x h1 (by omega)) 0 (by omega) (by rw [hl0]; omega),
      pair_shift 2 d S ax span _ (harr x h1 (by omega)) 1 (by omega) (by rw [hl1]; omega),
      pair_shift 2 d S ax span _ (harr x h1 (by omega)) 2 (by omega) (by rw [hl2]; omega)]
    have d0 : delta (S 0) (last .node d 0) (pos x 0) (smul (span 0) (ax 0)) = 0 := rfl
    have d1 : delta (S 1) (last .node d 1) (pos x 1) (smul (span 1) (ax 1)) = 0 := rfl
    have d2 : delta (S 2) (last .node d 2) (pos x 2) (smul (span 2) (ax 2)) = -smul (span 2) (ax 2) := by
      unfold delta
      rw [if_pos (by rfl), if_pos (by show x < 0; omega)]
    rw [d0, d1, d2]
    ext <;> simp <;> ring
  refine ⟨fin (-1) (by omega) (by omega) ?_, fin (-2) (by omega) (by omega) ?_⟩
  · ext
    · exact r1 (fun n i j k => (gen n i j k).x)
    · exact r1 (fun n i j k => (gen n i j k).y)
    · exact r1 (fun n i j k => (gen n i j k).z)
  · ext
    · exact r2 (fun n i j k => (gen n i j k).x)
    · exact r2 (fun n i j k => (gen n i j k).y)
    · exact r2 (fun n i j k => (gen n i j k).z)

end PG.Halo
