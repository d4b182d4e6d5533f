import Verif.Util.Verify
import Verif.IO.Conn
import Mathlib.Tactic.IntervalCases
/-!
C59: what acceptance by the grid checker means.
-/
namespace PG.Util
open PG PG.Topo

/-! ### specification -/

/-- number of nodes along an axis -/
def VBlk.n (b : VBlk) : ℕ → ℕ
  | 0 => b.ni | 1 => b.nj | _ => b.nk

/-- the node with given coordinates along the three axes -/
def VBlk.at (b : VBlk) (c : ℕ → ℕ) : V3 := b.x (c 0) (c 1) (c 2)

/-- `c` is a node of face `nf` of block `b` -/
def OnFace (b : VBlk) (nf : ℕ) (c : ℕ → ℕ) : Prop :=
  (∀ a < 3, c a < b.n a) ∧ c (normalAxis nf) = if isLow nf then 0 else b.n (normalAxis nf) - 1

/-- the node `c'` of block `b'` is the node `c` of face `nf` of `b`, when `b'` is attached to that face with orientation `o`: along
    the axis of `b'` that my axis `i` follows, the coordinate is mine, or counted from the other end if the direction is reversed; the
    node is on the opposite end of the axis that continues my normal axis, or on the same end if that axis is reversed -/
def SameNode (nf : ℕ) (o : Ori) (b b' : VBlk) (c c' : ℕ → ℕ) : Prop :=
  ∀ i < 3, c' (axisOf (o.get i)) =
    if i = normalAxis nf then (if isLow nf = reversed (o.get i) then 0 else b'.n (axisOf (o.get i)) - 1)
    else if reversed (o.get i) then b'.n (axisOf (o.get i)) - 1 - c i else c i

/-- coordinates agree within the tolerance -/
def Near (p q : V3) : Prop := |p.x - q.x| ≤ tol ∧ |p.y - q.y| ≤ tol ∧ |p.z - q.z| ≤ tol

/-- a boundary type that makes sense without a neighbour and that the checker knows: any valid type that is not an interior or
    periodic one, except `stagnationSubsonicInlet` -/
def KnownBoundary (t : String) : Prop :=
  t.toList ∈ IO.Conn.validBcTypes ∧
  t ∉ ["b0", "periodicTransLow", "periodicTransHigh", "periodicRotLow", "periodicRotHigh", "stagnationSubsonicInlet"]

/-- a face without neighbour is as it should be: one of the known boundary types, no orientation, a family where needed -/
def GoodBoundary (f : VFace) : Prop :=
  KnownBoundary f.bcType ∧ f.ori = none ∧
  (f.bcFam = none → f.bcType = "supersonicExit" ∨ f.bcType = "adiabaticNoSlipWall" ∨ f.bcType = "adiabaticSlipWall")

/-- face `nf` of `b` is properly attached to the block numbered `n`: a legal orientation, a block of that number with matching sizes
    whose face on the other side names `b` as its neighbour, and the same nodes (after the periodic shift) in the order the
    orientation says -/
def GoodConnection (mb : List VBlk) (b : VBlk) (nf n : ℕ) : Prop :=
  ∃ o b' nf', (b.face nf).ori = some o ∧ o.Legal ∧ getBlock mb n = some b' ∧ neighborNface nf o = some nf' ∧
    (b'.face nf').neighbor = some b.num ∧
    (∀ i < 3, i ≠ normalAxis nf → b.n i = b'.n (axisOf (o.get i))) ∧
    ∀ c c', OnFace b nf c → SameNode nf o b b' c c' → Near (shift (b.face nf) (b.at c)) (b'.at c')

/-- first corner right-handed or degenerate -/
def NotLeftHanded (b : VBlk) : Prop :=
  0 ≤ V3.det (b.x 0 0 1 - b.x 0 0 0) (b.x 1 0 0 - b.x 0 0 0) (b.x 0 1 0 - b.x 0 0 0)

/-- everything the checker should establish about a grid -/
def Valid (mb : List VBlk) : Prop :=
  ∀ b ∈ mb, NotLeftHanded b ∧ ∀ nf, 1 ≤ nf → nf ≤ 6 →
    match (b.face nf).neighbor with
    | none => GoodBoundary (b.face nf)
    | some n => GoodConnection mb b nf n

/-- every block has at least two nodes each way -/
def Sized (mb : List VBlk) : Prop := ∀ b ∈ mb, 2 ≤ b.ni ∧ 2 ≤ b.nj ∧ 2 ≤ b.nk

/-! ### proof -/

/-- in-plane axes of a face, ascending -/
def tang (nf : ℕ) : ℕ × ℕ := match normalAxis nf with | 0 => (1, 2) | 1 => (0, 2) | _ => (0, 1)

/-- coordinates of the entry `(s, t)` of an extracted face -/
def faceC (b : VBlk) (nf s t : ℕ) : ℕ → ℕ := fun a =>
  if a = normalAxis nf then (if isLow nf then 0 else b.n a - 1) else if a = (tang nf).1 then s else t

theorem extract_eq (b : VBlk) {nf : ℕ} (h1 : 1 ≤ nf) (h2 : nf ≤ 6) :
    (extract b nf).m = b.n (tang nf).1 ∧ (extract b nf).n = b.n (tang nf).2 ∧
    ∀ s t, (extract b nf).a s t = b.at (faceC b nf s t) := by
  interval_cases nf <;> exact ⟨rfl, rfl, fun s t => rfl⟩

theorem neighborOrientation_legal {o o' : Ori} (h : neighborOrientation o = some o') : o.Legal := by
  obtain ⟨d0, d1, d2⟩ := o
  have hd : ∀ d, dirToOrientIndex d ≠ none → 1 ≤ d ∧ d ≤ 6 := by
    intro d hd
    unfold dirToOrientIndex at hd
    split at hd <;> first | omega | exact absurd rfl hd
  have r0 : 1 ≤ d0 ∧ d0 ≤ 6 := by
    apply hd; intro hn; unfold neighborOrientation neighborOrientationStep at h; simp [Ori.get, hn] at h
  have r1 : 1 ≤ d1 ∧ d1 ≤ 6 := by
    apply hd; intro hn; unfold neighborOrientation at h
    have : ∀ acc, neighborOrientationStep ⟨d0, d1, d2⟩ 1 acc = none := by
      intro acc; unfold neighborOrientationStep; simp [Ori.get, hn]
    simp only [this, Option.bind_eq_bind, Option.bind_none, Option.bind_eq_some_iff, reduceCtorEq, and_false, exists_false] at h
  have r2 : 1 ≤ d2 ∧ d2 ≤ 6 := by
    apply hd; intro hn; unfold neighborOrientation at h
    have : ∀ acc, neighborOrientationStep ⟨d0, d1, d2⟩ 2 acc = none := by
      intro acc; unfold neighborOrientationStep; simp [Ori.get, hn]
    simp only [this, Option.bind_eq_bind, Option.bind_none, Option.bind_eq_some_iff, reduceCtorEq, and_false, exists_false] at h
  have key : ∀ a b c : Fin 6, (neighborOrientation ⟨a.val + 1, b.val + 1, c.val + 1⟩).isSome = true →
      (⟨a.val + 1, b.val + 1, c.val + 1⟩ : Ori).Legal := by decide +kernel
  have := key ⟨d0 - 1, by omega⟩ ⟨d1 - 1, by omega⟩ ⟨d2 - 1, by omega⟩
  simp only [Nat.sub_add_cancel r0.1, Nat.sub_add_cancel r1.1, Nat.sub_add_cancel r2.1] at this
  exact this (by rw [h]; rfl)

/-- facts about the tables -/
def Facts (nf nf' : ℕ) (o o' : Ori) : Prop :=
  (1 ≤ nf' ∧ nf' ≤ 6) ∧ faceToOrientIndex nf' = some (normalAxis nf') ∧ faceToOrientIndex nf = some (normalAxis nf) ∧
  normalAxis nf' = axisOf (o.get (normalAxis nf)) ∧ (isLow nf' = true ↔ isLow nf = reversed (o.get (normalAxis nf))) ∧
  (((inPlane o' (normalAxis nf')).2 ∈ needToTranspose (largeIndex (normalAxis nf')) (largeIndex (normalAxis nf)) ∧
    axisOf (o.get (tang nf).1) = (tang nf').2 ∧ axisOf (o.get (tang nf).2) = (tang nf').1 ∧
    ((inPlane o' (normalAxis nf')).1 ∈ [4, 5, 6] ↔ reversed (o.get (tang nf).2) = true) ∧
    ((inPlane o' (normalAxis nf')).2 ∈ [4, 5, 6] ↔ reversed (o.get (tang nf).1) = true)) ∨
   ((inPlane o' (normalAxis nf')).2 ∉ needToTranspose (largeIndex (normalAxis nf')) (largeIndex (normalAxis nf)) ∧
    axisOf (o.get (tang nf).1) = (tang nf').1 ∧ axisOf (o.get (tang nf).2) = (tang nf').2 ∧
    ((inPlane o' (normalAxis nf')).1 ∈ [4, 5, 6] ↔ reversed (o.get (tang nf).1) = true) ∧
    ((inPlane o' (normalAxis nf')).2 ∈ [4, 5, 6] ↔ reversed (o.get (tang nf).2) = true)))

instance (nf nf' : ℕ) (o o' : Ori) : Decidable (Facts nf nf' o o') := by unfold Facts; infer_instance

theorem table_facts {nf nf' : ℕ} {o o' : Ori} (h1 : 1 ≤ nf) (h2 : nf ≤ 6) (ho : o.Legal) (hn : neighborNface nf o = some nf')
    (hO : neighborOrientation o = some o') : Facts nf nf' o o' := by
  have key : ∀ n a b c : Fin 6, (⟨a.val + 1, b.val + 1, c.val + 1⟩ : Ori).Legal →
      (neighborNface (n.val + 1) ⟨a.val + 1, b.val + 1, c.val + 1⟩).all (fun nf' =>
        (neighborOrientation ⟨a.val + 1, b.val + 1, c.val + 1⟩).all (fun o' =>
          decide (Facts (n.val + 1) nf' ⟨a.val + 1, b.val + 1, c.val + 1⟩ o'))) = true := by
    decide +kernel
  obtain ⟨n, rfl⟩ : ∃ n, nf = n + 1 := ⟨nf - 1, by omega⟩
  have gen : ∀ o : Ori, o.Legal → ∀ nf' o', neighborNface (n + 1) o = some nf' → neighborOrientation o = some o' →
      Facts (n + 1) nf' o o' := by
    refine legal_cases (fun o => ∀ nf' o', neighborNface (n + 1) o = some nf' → neighborOrientation o = some o' →
      Facts (n + 1) nf' o o') ?_
    intro a b c h nf' o' hn hO
    have := key ⟨n, by omega⟩ a b c h
    rw [hn] at this
    simp only [Option.all_some] at this
    rw [hO] at this
    simp only [Option.all_some] at this
    exact of_decide_eq_true this
  exact gen o ho nf' o' hn hO

theorem rearrange_transposed {ix2 ix d0 d1 : ℕ} (f : A2) (h : d1 ∈ needToTranspose (largeIndex ix2) (largeIndex ix)) :
    (rearrange ix2 ix d0 d1 f).m = f.n ∧ (rearrange ix2 ix d0 d1 f).n = f.m ∧
    ∀ s t, (rearrange ix2 ix d0 d1 f).a s t =
      f.a (if d1 ∈ [4, 5, 6] then f.m - 1 - t else t) (if d0 ∈ [4, 5, 6] then f.n - 1 - s else s) := by
  unfold rearrange
  rw [if_pos h]
  by_cases a : d0 ∈ [4, 5, 6] <;> by_cases c : d1 ∈ [4, 5, 6] <;> simp only [if_pos, if_neg, a, c, not_false_eq_true] <;>
    first | exact ⟨rfl, rfl, fun s t => rfl⟩ | exact ⟨trivial, trivial, fun s t => rfl⟩ | exact ⟨trivial, trivial, fun s t => trivial⟩

theorem rearrange_straight {ix2 ix d0 d1 : ℕ} (f : A2) (h : d1 ∉ needToTranspose (largeIndex ix2) (largeIndex ix)) :
    (rearrange ix2 ix d0 d1 f).m = f.m ∧ (rearrange ix2 ix d0 d1 f).n = f.n ∧
    ∀ s t, (rearrange ix2 ix d0 d1 f).a s t =
      f.a (if d0 ∈ [4, 5, 6] then f.m - 1 - s else s) (if d1 ∈ [4, 5, 6] then f.n - 1 - t else t) := by
  unfold rearrange
  rw [if_neg h]
  by_cases a : d0 ∈ [4, 5, 6] <;> by_cases c : d1 ∈ [4, 5, 6] <;> simp only [if_pos, if_neg, a, c, not_false_eq_true] <;>
    first | exact ⟨rfl, rfl, fun s t => rfl⟩ | exact ⟨trivial, trivial, fun s t => rfl⟩ | exact ⟨trivial, trivial, fun s t => trivial⟩

theorem tang_cases {nf : ℕ} (h1 : 1 ≤ nf) (h2 : nf ≤ 6) :
    (∀ a < 3, a = normalAxis nf ∨ a = (tang nf).1 ∨ a = (tang nf).2) ∧ (tang nf).1 ≠ normalAxis nf ∧ (tang nf).2 ≠ normalAxis nf ∧
    (tang nf).1 ≠ (tang nf).2 ∧ (tang nf).1 < 3 ∧ (tang nf).2 < 3 ∧ normalAxis nf < 3 := by
  interval_cases nf <;> refine ⟨fun a ha => ?_, by decide, by decide, by decide, by decide, by decide, by decide⟩ <;>
    interval_cases a <;> decide

/-- coordinates in my block of the entry of the neighbour's face with coordinates `c'` -/
def back (b : VBlk) (nf : ℕ) (o : Ori) (c' : ℕ → ℕ) : ℕ → ℕ :=
  faceC b nf
    (if reversed (o.get (tang nf).1) = true then b.n (tang nf).1 - 1 - c' (axisOf (o.get (tang nf).1)) else c' (axisOf (o.get (tang nf).1)))
    (if reversed (o.get (tang nf).2) = true then b.n (tang nf).2 - 1 - c' (axisOf (o.get (tang nf).2)) else c' (axisOf (o.get (tang nf).2)))

theorem faceC_normal (b : VBlk) (nf s t : ℕ) : faceC b nf s t (normalAxis nf) = if isLow nf then 0 else b.n (normalAxis nf) - 1 :=
  if_pos rfl

theorem faceC_1 (b : VBlk) {nf : ℕ} (h1 : 1 ≤ nf) (h2 : nf ≤ 6) (s t : ℕ) : faceC b nf s t (tang nf).1 = s := by
  obtain ⟨_, a, _⟩ := tang_cases h1 h2
  unfold faceC
  rw [if_neg a, if_pos rfl]

theorem faceC_2 (b : VBlk) {nf : ℕ} (h1 : 1 ≤ nf) (h2 : nf ≤ 6) (s t : ℕ) : faceC b nf s t (tang nf).2 = t := by
  obtain ⟨_, _, a, c, _⟩ := tang_cases h1 h2
  unfold faceC
  rw [if_neg a, if_neg (Ne.symm c)]

/-- shapes and entries of the rearranged face in terms of coordinates -/
theorem rearranged {b b' : VBlk} {nf nf' : ℕ} {o o' : Ori} (h1 : 1 ≤ nf) (h2 : nf ≤ 6) (hF : Facts nf nf' o o') (f : A2)
    (hf : f = rearrange (normalAxis nf') (normalAxis nf) (inPlane o' (normalAxis nf')).1 (inPlane o' (normalAxis nf')).2 (extract b nf)) :
    ((f.m = (extract b' nf').m ∧ f.n = (extract b' nf').n) ↔
      b.n (tang nf).1 = b'.n (axisOf (o.get (tang nf).1)) ∧ b.n (tang nf).2 = b'.n (axisOf (o.get (tang nf).2))) ∧
    ∀ s t, f.a s t = b.at (back b nf o (faceC b' nf' s t)) := by
  obtain ⟨e1, e2, e3⟩ := extract_eq b h1 h2
  obtain ⟨⟨g1, g2⟩, _, _, _, _, hT⟩ := hF
  obtain ⟨k1, k2, k3⟩ := extract_eq b' g1 g2
  subst hf
  rcases hT with ⟨t1, t2, t3, t4, t5⟩ | ⟨t1, t2, t3, t4, t5⟩
  · obtain ⟨r1, r2, r3⟩ := rearrange_transposed (d0 := (inPlane o' (normalAxis nf')).1) (extract b nf) t1
    refine ⟨?_, fun s t => ?_⟩
    · rw [r1, r2, e1, e2, k1, k2, t2, t3]
      exact And.comm
    · rw [r3, e3]
      unfold back
      rw [t2, t3, faceC_1 b' g1 g2, faceC_2 b' g1 g2, e1, e2]
      simp only [t4, t5]
  · obtain ⟨r1, r2, r3⟩ := rearrange_straight (d0 := (inPlane o' (normalAxis nf')).1) (extract b nf) t1
    refine ⟨?_, fun s t => ?_⟩
    · rw [r1, r2, e1, e2, k1, k2, t2, t3]
    · rw [r3, e3]
      unfold back
      rw [t2, t3, faceC_1 b' g1 g2, faceC_2 b' g1 g2, e1, e2]
      simp only [t4, t5]

theorem at_congr (b : VBlk) {c d : ℕ → ℕ} (h : ∀ a < 3, c a = d a) : b.at c = b.at d := by
  unfold VBlk.at
  rw [h 0 (by omega), h 1 (by omega), h 2 (by omega)]

/-- comparing the arrays entry by entry is comparing the nodes the orientation identifies -/
theorem entries_iff {b b' : VBlk} {nf nf' : ℕ} {o o' : Ori} (h1 : 1 ≤ nf) (h2 : nf ≤ 6) (hF : Facts nf nf' o o') (ho : o.Legal)
    (hs : b.n (tang nf).1 = b'.n (axisOf (o.get (tang nf).1)) ∧ b.n (tang nf).2 = b'.n (axisOf (o.get (tang nf).2)))
    (hb : 0 < b.n (normalAxis nf)) (R : V3 → V3 → Prop) :
    (∀ s t, s < (extract b' nf').m → t < (extract b' nf').n →
      R (b.at (back b nf o (faceC b' nf' s t))) ((extract b' nf').a s t)) ↔
    ∀ c c', OnFace b nf c → SameNode nf o b b' c c' → R (b.at c) (b'.at c') := by
  obtain ⟨⟨g1, g2⟩, _, _, hna, hlow, hT⟩ := hF
  obtain ⟨k1, k2, k3⟩ := extract_eq b' g1 g2
  obtain ⟨A1, A2, A3, A4, A5, A6, A7⟩ := tang_cases h1 h2
  obtain ⟨B1, B2, B3, B4, B5, B6, B7⟩ := tang_cases g1 g2
  have hends : (if isLow nf = reversed (o.get (normalAxis nf)) then 0 else b'.n (axisOf (o.get (normalAxis nf))) - 1) =
      if isLow nf' then 0 else b'.n (normalAxis nf') - 1 := by
    rw [← hna]
    by_cases hl : isLow nf' = true
    · rw [if_pos hl, if_pos (hlow.1 hl)]
    · rw [if_neg hl, if_neg fun h => hl (hlow.2 h)]
  have ax : ∀ P : ℕ → Prop, (∀ a < 3, P a) ↔ P (normalAxis nf') ∧ P (axisOf (o.get (tang nf).1)) ∧ P (axisOf (o.get (tang nf).2)) := by
    intro P
    have e1 : (P (axisOf (o.get (tang nf).1)) ∧ P (axisOf (o.get (tang nf).2))) ↔ (P (tang nf').1 ∧ P (tang nf').2) := by
      rcases hT with ⟨_, t2, t3, _⟩ | ⟨_, t2, t3, _⟩
      · rw [t2, t3]; exact And.comm
      · rw [t2, t3]
    rw [e1]
    constructor
    · intro h; exact ⟨h _ B7, h _ B5, h _ B6⟩
    · rintro ⟨p1, p2, p3⟩ a ha
      rcases B1 a ha with rfl | rfl | rfl
      · exact p1
      · exact p2
      · exact p3
  have eqd : ∀ c : ℕ → ℕ, ∀ a < 3, faceC b' nf' (c (tang nf').1) (c (tang nf').2) a = c a ∨ a = normalAxis nf' := by
    intro c a ha
    rcases B1 a ha with rfl | rfl | rfl
    · exact Or.inr rfl
    · exact Or.inl (faceC_1 b' g1 g2 _ _)
    · exact Or.inl (faceC_2 b' g1 g2 _ _)
  constructor
  · intro h c c' hc hcc
    obtain ⟨c1, c2⟩ := hc
    have s0 := hcc _ A7
    have s1 := hcc _ A5
    have s2 := hcc _ A6
    rw [if_pos rfl, hends, ← hna] at s0
    rw [if_neg A2] at s1
    rw [if_neg A3] at s2
    have cc : ∀ a < 3, faceC b' nf' (c' (tang nf').1) (c' (tang nf').2) a = c' a := by
      intro a ha
      rcases eqd c' a ha with h | rfl
      · exact h
      · rw [faceC_normal, s0]
    have hlt : ∀ a < 3, a ≠ normalAxis nf' → c' a < b'.n a := by
      refine (ax fun a => a ≠ normalAxis nf' → c' a < b'.n a).2 ⟨fun h => absurd rfl h, fun _ => ?_, fun _ => ?_⟩
      · have := c1 _ A5
        rw [s1, ← hs.1]
        split_ifs <;> omega
      · have := c1 _ A6
        rw [s2, ← hs.2]
        split_ifs <;> omega
    have key := h (c' (tang nf').1) (c' (tang nf').2) (by rw [k1]; exact hlt _ B5 B2) (by rw [k2]; exact hlt _ B6 B3)
    rw [k3, at_congr b' cc] at key
    have hbk : ∀ a < 3, back b nf o (faceC b' nf' (c' (tang nf').1) (c' (tang nf').2)) a = c a := by
      obtain ⟨x0, x1, x2⟩ := (ax fun a => faceC b' nf' (c' (tang nf').1) (c' (tang nf').2) a = c' a).1 cc
      intro a ha
      unfold back
      rw [x1, x2, s1, s2, ← hs.1, ← hs.2]
      have y1 := c1 _ A5
      have y2 := c1 _ A6
      rcases A1 a ha with rfl | rfl | rfl
      · rw [faceC_normal, c2]
      · rw [faceC_1 b h1 h2]
        split_ifs <;> omega
      · rw [faceC_2 b h1 h2]
        split_ifs <;> omega
    rwa [at_congr b hbk] at key
  · intro h s t hs' ht'
    rw [k1] at hs'
    rw [k2] at ht'
    rw [k3]
    have lt' : b'.n (axisOf (o.get (tang nf).1)) > faceC b' nf' s t (axisOf (o.get (tang nf).1)) ∧
        b'.n (axisOf (o.get (tang nf).2)) > faceC b' nf' s t (axisOf (o.get (tang nf).2)) := by
      rcases hT with ⟨_, t2, t3, _⟩ | ⟨_, t2, t3, _⟩ <;> rw [t2, t3, faceC_1 b' g1 g2, faceC_2 b' g1 g2]
      · exact ⟨ht', hs'⟩
      · exact ⟨hs', ht'⟩
    have v1 : back b nf o (faceC b' nf' s t) (tang nf).1 = if reversed (o.get (tang nf).1) = true then
        b.n (tang nf).1 - 1 - faceC b' nf' s t (axisOf (o.get (tang nf).1)) else faceC b' nf' s t (axisOf (o.get (tang nf).1)) :=
      faceC_1 b h1 h2 _ _
    have v2 : back b nf o (faceC b' nf' s t) (tang nf).2 = if reversed (o.get (tang nf).2) = true then
        b.n (tang nf).2 - 1 - faceC b' nf' s t (axisOf (o.get (tang nf).2)) else faceC b' nf' s t (axisOf (o.get (tang nf).2)) :=
      faceC_2 b h1 h2 _ _
    have v0 : back b nf o (faceC b' nf' s t) (normalAxis nf) = if isLow nf then 0 else b.n (normalAxis nf) - 1 := faceC_normal _ _ _ _
    refine h _ _ ⟨fun a ha => ?_, v0⟩ ?_
    · rcases A1 a ha with rfl | rfl | rfl
      · rw [v0]; split_ifs <;> omega
      · rw [v1]; split_ifs <;> omega
      · rw [v2]; split_ifs <;> omega
    · intro i hi
      rcases A1 i hi with rfl | rfl | rfl
      · rw [if_pos rfl, hends, ← hna, faceC_normal]
      · rw [if_neg A2, v1]
        by_cases hr : reversed (o.get (tang nf).1) = true
        · rw [if_pos hr, if_pos hr]; omega
        · rw [if_neg hr, if_neg hr]
      · rw [if_neg A3, v2]
        by_cases hr : reversed (o.get (tang nf).2) = true
        · rw [if_pos hr, if_pos hr]; omega
        · rw [if_neg hr, if_neg hr]

theorem fold_flags {α : Type} (chk : α → Option Bool) (l : List α) (w : Bool) :
    l.foldlM (fun w a => (chk a).map (w || ·)) w = some false ↔ w = false ∧ ∀ a ∈ l, chk a = some false := by
  induction l generalizing w with
  | nil => simp
  | cons a l ih =>
    rw [List.foldlM_cons]
    cases h : chk a with
    | none => simp [h]
    | some v =>
      simp only [Option.map_some, Option.bind_eq_bind, Option.bind_some, ih, List.mem_cons, forall_eq_or_imp, h, Option.some.injEq,
        Bool.or_eq_false_iff, and_assoc]

theorem known_iff (t : String) : t ∈ acceptedBcs ↔ KnownBoundary t := by
  constructor
  · intro h
    unfold acceptedBcs at h
    simp only [List.mem_cons, List.not_mem_nil, or_false] at h
    rcases h with rfl | rfl | rfl | rfl | rfl | rfl | rfl | rfl | rfl | rfl | rfl | rfl <;> exact ⟨by decide, by decide⟩
  · rintro ⟨h1, h2⟩
    have key : ∀ l ∈ IO.Conn.validBcTypes, l ∈ acceptedBcs.map String.toList ∨
        l ∈ ["b0", "periodicTransLow", "periodicTransHigh", "periodicRotLow", "periodicRotHigh", "stagnationSubsonicInlet"].map String.toList := by
      decide
    rcases key _ h1 with h | h
    · obtain ⟨u, hu, e⟩ := List.mem_map.1 h
      rwa [← String.toList_inj.1 e]
    · obtain ⟨u, hu, e⟩ := List.mem_map.1 h
      rw [String.toList_inj.1 e] at hu
      exact absurd hu h2

theorem good_iff (f : VFace) : (f.bcType ∈ acceptedBcs ∧ f.ori = none ∧ (f.bcType ∈ familyFree ∨ f.bcFam ≠ none)) ↔ GoodBoundary f := by
  unfold GoodBoundary familyFree
  rw [known_iff]
  simp only [List.mem_cons, List.not_mem_nil, or_false]
  tauto

theorem checkFace_iff {mb : List VBlk} (hmb : Sized mb) {b : VBlk} (hb : b ∈ mb) {nf : ℕ} (h1 : 1 ≤ nf) (h2 : nf ≤ 6) :
    checkFace mb b nf = some false ↔
      match (b.face nf).neighbor with
      | none => GoodBoundary (b.face nf)
      | some n => GoodConnection mb b nf n := by
  classical
  unfold checkFace
  dsimp only
  cases hn : (b.face nf).neighbor with
  | none =>
    dsimp only
    rw [← good_iff]
    split_ifs with h
    · exact ⟨fun _ => h, fun _ => rfl⟩
    · exact ⟨fun h' => by simp at h', fun h' => absurd h' h⟩
  | some n =>
    dsimp only
    have hpos : 0 < b.n (normalAxis nf) := by
      obtain ⟨p1, p2, p3⟩ := hmb b hb
      interval_cases nf <;> simp [normalAxis, VBlk.n] <;> omega
    have hsz : ∀ (o : Ori) (b' : VBlk), (b.n (tang nf).1 = b'.n (axisOf (o.get (tang nf).1)) ∧ b.n (tang nf).2 = b'.n (axisOf (o.get (tang nf).2))) ↔
        ∀ i < 3, i ≠ normalAxis nf → b.n i = b'.n (axisOf (o.get i)) := by
      intro o b'
      obtain ⟨A1, A2, A3, A4, A5, A6, A7⟩ := tang_cases h1 h2
      constructor
      · rintro ⟨x1, x2⟩ i hi hne
        rcases A1 i hi with rfl | rfl | rfl
        · exact absurd rfl hne
        · exact x1
        · exact x2
      · intro h; exact ⟨h _ A5 A2, h _ A6 A3⟩
    have hnear : ∀ p q : V3, ¬ (|p.x - q.x| > tol ∨ |p.y - q.y| > tol ∨ |p.z - q.z| > tol) ↔ Near p q := by
      intro p q
      unfold Near
      push Not
      rfl
    constructor
    · intro h
      simp only [Option.bind_eq_bind, Option.bind_eq_some_iff] at h
      obtain ⟨b', hb', o, ho, nf', hnf, o', hO, bk, hbk, h⟩ := h
      have hleg := neighborOrientation_legal hO
      have hF := table_facts h1 h2 hleg hnf hO
      split_ifs at h with hbk'
      simp only [hF.2.1, hF.2.2.1, Option.bind_some] at h
      obtain ⟨r1, r2⟩ := rearranged (b := b) (b' := b') h1 h2 hF _ rfl
      split_ifs at h with hsh
      have hs := r1.1 hsh
      have h' := of_decide_eq_false (Option.some.inj h)
      refine ⟨o, b', nf', ho, hleg, hb', hnf, ?_, (hsz o b').1 hs, ?_⟩
      · rw [hbk, not_not.1 hbk']
      · refine (entries_iff h1 h2 hF hleg hs hpos fun p q => Near (shift (b.face nf) p) q).1 ?_
        intro s t hs' ht'
        rw [← r2 s t]
        refine (hnear _ _).1 fun hc => h' ⟨s, t, hs', ht', hc⟩
    · rintro ⟨o, b', nf', ho, hleg, hb', hnf, hbk, hs, hnode⟩
      obtain ⟨o', hO, _⟩ := C01_neighborOrientation_inverse o hleg
      have hF := table_facts h1 h2 hleg hnf hO
      obtain ⟨r1, r2⟩ := rearranged (b := b) (b' := b') h1 h2 hF _ rfl
      have hs' := (hsz o b').2 hs
      simp only [hb', ho, hnf, hO, hbk, Option.bind_eq_bind, Option.bind_some, ne_eq, not_true_eq_false, if_false, hF.2.1, hF.2.2.1]
      have hsh := r1.2 hs'
      rw [if_pos (show (A2.map (shift (b.face nf)) _).m = _ ∧ (A2.map (shift (b.face nf)) _).n = _ from hsh)]
      congr 1
      refine decide_eq_false ?_
      rintro ⟨s, t, ls, lt, hc⟩
      refine (hnear _ _).2 ?_ hc
      have := (entries_iff h1 h2 hF hleg hs' hpos fun p q => Near (shift (b.face nf) p) q).2 hnode s t ls lt
      rw [← r2 s t] at this
      exact this

/-- C59: the checker accepts a grid exactly if every block is not left-handed at its first corner, every face without neighbour has
    an accepted boundary type (with a family where it needs one) and no orientation, and every face with a neighbour has a legal
    orientation and is attached to an existing block of matching size, whose face there names this block, with the same node
    coordinates (after the periodic shift) in the order the orientation says; for any number of blocks of any size. -/
theorem C59_verify_iff_partial (mb : List VBlk) (hmb : Sized mb) : verify mb = some true ↔ Valid mb := by
  unfold verify
  have e : (mb.foldlM (fun w b => (checkBlk mb b).map (w || ·)) false).map (!·) = some true ↔
      mb.foldlM (fun w b => (checkBlk mb b).map (w || ·)) false = some false := by
    cases mb.foldlM (fun w b => (checkBlk mb b).map (w || ·)) false with
    | none => simp
    | some v => cases v <;> simp
  rw [e, fold_flags]
  unfold Valid
  simp only [true_and]
  refine forall₂_congr fun b hb => ?_
  unfold checkBlk
  have e2 : (([1, 2, 3, 4, 5, 6].foldlM (fun w nf => (checkFace mb b nf).map (w || ·)) false).map (· || leftHanded b)) = some false ↔
      leftHanded b = false ∧ [1, 2, 3, 4, 5, 6].foldlM (fun w nf => (checkFace mb b nf).map (w || ·)) false = some false := by
    cases [1, 2, 3, 4, 5, 6].foldlM (fun w nf => (checkFace mb b nf).map (w || ·)) false with
    | none => simp
    | some v => cases v <;> simp
  rw [e2, fold_flags]
  have e3 : leftHanded b = false ↔ NotLeftHanded b := by
    unfold leftHanded NotLeftHanded
    simp only [decide_eq_false_iff_not, not_lt]
    have : V3.dot (b.x 0 0 1 - b.x 0 0 0) (V3.cross (b.x 1 0 0 - b.x 0 0 0) (b.x 0 1 0 - b.x 0 0 0)) =
        V3.det (b.x 0 0 1 - b.x 0 0 0) (b.x 1 0 0 - b.x 0 0 0) (b.x 0 1 0 - b.x 0 0 0) := by
      unfold V3.dot V3.cross V3.det
      dsimp only
      ring
    rw [this]
  rw [e3]
  refine and_congr_right fun _ => ?_
  simp only [true_and]
  constructor
  · intro h nf h1 h2
    exact (checkFace_iff hmb hb h1 h2).1 (h nf (by simp only [List.mem_cons, List.not_mem_nil, or_false]; omega))
  · intro h nf hm
    have : 1 ≤ nf ∧ nf ≤ 6 := by
      simp only [List.mem_cons, List.not_mem_nil, or_false] at hm
      omega
    exact (checkFace_iff hmb hb this.1 this.2).2 (h nf this.1 this.2)

end PG.Util
