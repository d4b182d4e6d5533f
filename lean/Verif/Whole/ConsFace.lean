import Verif.Whole.ConsGrid
/-!
C93: the face between two connected blocks is the same face for both.
-/
noncomputable section
namespace PG.Whole
open PG.Topo PG.Halo PG.Time PG.Mesh V3

/-- what the fluxes know of a face: area vector and the way to its centre from the centres of the two cells -/
abbrev FaceData := V3 × V3 × V3
/-- the same face seen from the other side -/
def FaceData.neg (γ : FaceData) : FaceData := (-γ.1, γ.2.2, γ.2.1)
/-- the face between the cells -1 and 0 of a line in direction `d` -/
def faceData (d : Fin 3) (L : Int → Geo) : FaceData := ((L 0).s d, (L 0).xf d - (L (-1)).xc, (L 0).xf d - (L 0).xc)
/-- face `nf` of a block at cell `p`, oriented along increasing index -/
def faceOn (X : Pos → V3) (dims : Dims) (nf : Nat) (p : Pos) : FaceData :=
  faceData (axis nf) fun u => geoOf X (along nf dims p (if isLow nf then u else -1 - u))

section
variable {XA XB : Pos → V3} {v : V3} {nf nfB : Nat} {o oB : Ori} {fl : Bool × Bool × Bool} {dA dB : Dims}

/-- nodes of cells on both sides of a connected face fit -/
def FitAt (XA XB : Pos → V3) (v : V3) (nf : Nat) (o : Ori) (dA dB : Dims) : Prop :=
  ∀ c c' : Pos, -1 ≤ nodeDep nf dA c → nodeDep nf dA c ≤ 1 → (∀ a, a ≠ axis nf → 0 ≤ c a ∧ c a ≤ top dA a + 1) →
    Glued .node nf o dA dB (nat c) (nat c') → XB c' = XA c + v

theorem corner_fit (h : FitAt XA XB v nf o dA dB) {z z' : Pos} (h1 : -1 ≤ dep nf dA z) (h2 : dep nf dA z ≤ 0)
    (h3 : ∀ a, a ≠ axis nf → 0 ≤ z a ∧ z a ≤ top dA a) (hg : Glued .ccAll nf o dA dB (nat z) (nat z')) {α α' : Fin 3 → Bool}
    (ht : Turned o α α') : XB (corner z' α') = XA (corner z α) + v := by
  refine h _ _ ?_ ?_ ?_ (corner_glued hg ht)
  · unfold nodeDep dep at *
    unfold corner
    split_ifs at * <;> omega
  · unfold nodeDep dep at *
    unfold corner
    split_ifs at * <;> omega
  · intro a ha
    have := h3 a ha
    unfold corner
    split_ifs <;> omega

theorem centre_fit (ho : o.Legal) (h : FitAt XA XB v nf o dA dB) {z z' : Pos} (h1 : -1 ≤ dep nf dA z) (h2 : dep nf dA z ≤ 0)
    (h3 : ∀ a, a ≠ axis nf → 0 ≤ z a ∧ z a ≤ top dA a) (hg : Glued .ccAll nf o dA dB (nat z) (nat z')) :
    (geoOf XB z').xc = (geoOf XA z).xc + v := by
  obtain ⟨e, he⟩ := turned_exists ho
  have key : ∀ g : V3 → ℝ, (∀ a b, g (a + b) = g a + g b) → g (sum8 fun α => XB (corner z' α)) = g (sum8 fun α => XA (corner z α)) + 8 * g v := by
    intro g hg'
    rw [sum8_fin _ g hg', sum8_fin _ g hg', ← Equiv.sum_comp e]
    have : ∀ α, g (XB (corner z' (e α))) = g (XA (corner z α)) + g v := fun α => by
      rw [corner_fit h h1 h2 h3 hg (he α), hg']
    simp only [this, Finset.sum_add_distrib, Finset.sum_const, Finset.card_univ, nsmul_eq_mul]
    simp
  rw [geo_xc, geo_xc]
  ext
  · have := key V3.x (fun _ _ => rfl); simp only [smul_x, add_x]; rw [this]; ring
  · have := key V3.y (fun _ _ => rfl); simp only [smul_y, add_y]; rw [this]; ring
  · have := key V3.z (fun _ _ => rfl); simp only [smul_z, add_z]; rw [this]; ring

theorem axes3 (d a : Fin 3) : a = d ∨ a = d + 1 ∨ a = d + 2 := by revert d a; decide
theorem ne3 (d : Fin 3) : d + 1 ≠ d ∧ d + 2 ≠ d ∧ d + 2 ≠ d + 1 := by revert d; decide

/-- the low face of cell `y` of A is the low face of cell `y'` of B; area and centre -/
theorem quad_fit (ho : o.Legal) (hp : Proper o) (h : FitAt XA XB v nf o dA dB) {d : Fin 3} {y y' ζ : Pos}
    (h1 : -1 ≤ dep nf dA y) (h2 : dep nf dA y ≤ 0) (h3 : ∀ a, a ≠ axis nf → 0 ≤ y a ∧ y a ≤ top dA a)
    (hg : Glued .ccAll nf o dA dB (nat y) (nat ζ))
    (hy : ∀ a, y' a = ζ a + if a = oax o d ∧ orev o d = true then 1 else 0) :
    (geoOf XB y').s (oax o d) = (if orev o d then - (geoOf XA y).s d else (geoOf XA y).s d) ∧
    (geoOf XB y').xf (oax o d) = (geoOf XA y).xf d + v := by
  obtain ⟨e, he⟩ := turned_exists ho
  obtain ⟨n1, n2, n3⟩ := ne3 d
  obtain ⟨m1, m2, m3⟩ := ne3 (oax o d)
  have hsurj : ∀ a, a = oax o d ∨ a = oax o (d + 1) ∨ a = oax o (d + 2) := by
    intro a
    obtain ⟨i, rfl⟩ := ((Fintype.bijective_iff_injective_and_card _).2 ⟨oax_inj ho, rfl⟩ : Function.Bijective (oax o)).2 a
    rcases axes3 d i with rfl | rfl | rfl <;> simp
  rw [geo_s, geo_s, geo_xf, geo_xf]
  rcases proper_axes ho hp d with ⟨a1, a2, a3⟩ | ⟨a1, a2, a3⟩
  · have hF : ∀ x z, XB (corner y' (fbits (oax o d) (xor (orev o (d + 1)) x) (xor (orev o (d + 2)) z))) = XA (corner y (fbits d x z)) + v := by
      intro x z
      rw [← corner_fit h h1 h2 h3 hg (he (fbits d x z))]
      refine congrArg XB (funext fun a => ?_)
      unfold corner
      rw [hy a]
      rcases hsurj a with rfl | rfl | rfl
      · rw [he]
        simp only [fbits, if_true, Bool.false_eq_true, if_false, Bool.xor_false, true_and]
        omega
      · rw [he, a1]
        simp [fbits, m1, n1]
      · rw [he, a2]
        simp [fbits, m2, n2, m3, n3]
    have q := quad_turn (fun x z => XA (corner y (fbits d x z))) (fun x z => XB (corner y' (fbits (oax o d) x z))) v _ _ hF
    have s := sum4_turn (fun x z => XA (corner y (fbits d x z))) (fun x z => XB (corner y' (fbits (oax o d) x z))) v _ _ hF
    refine ⟨?_, s⟩
    rw [q, a3]
  · have hF : ∀ x z, XB (corner y' (fbits (oax o d) (xor (orev o (d + 2)) z) (xor (orev o (d + 1)) x))) = XA (corner y (fbits d x z)) + v := by
      intro x z
      rw [← corner_fit h h1 h2 h3 hg (he (fbits d x z))]
      refine congrArg XB (funext fun a => ?_)
      unfold corner
      rw [hy a]
      rcases hsurj a with rfl | rfl | rfl
      · rw [he]
        simp only [fbits, if_true, Bool.false_eq_true, if_false, Bool.xor_false, true_and]
        omega
      · rw [he, a1]
        simp [fbits, m2, n1, m3]
      · rw [he, a2]
        simp [fbits, m1, n2, n3]
    have q := quad_swap (fun x z => XA (corner y (fbits d x z))) (fun x z => XB (corner y' (fbits (oax o d) x z))) v _ _ hF
    have s := sum4_swap (fun x z => XA (corner y (fbits d x z))) (fun x z => XB (corner y' (fbits (oax o d) x z))) v _ _ hF
    refine ⟨?_, s⟩
    rw [q, a3]
    cases xor (orev o (d + 1)) (orev o (d + 2)) <;> simp

/-- A connected face is the same face for both blocks: same area vector, same ways to its centre; seen from the other side
    exactly if the index directions of the two blocks are opposite there. -/
theorem face_fit (hn : 1 ≤ nf ∧ nf ≤ 6) (hc : Conn nf o nfB oB fl) (ho : o.Legal) (hoB : neighborOrientation o = some oB)
    (hp : Proper o) (h : FitAt XA XB v nf o dA dB) {p p' : Pos} (hp0 : InBox 0 dA p) (hg : Glued .ccAll nf o dA dB (nat (along nf dA p (-1))) (nat p')) :
    faceOn XB dB nfB p' = if isLow nf = isLow nfB then (faceOn XA dA nf p).neg else faceOn XA dA nf p := by
  have htan : ∀ t a, a ≠ axis nf → 0 ≤ along nf dA p t a ∧ along nf dA p t a ≤ top dA a := by
    intro t a ha
    rw [along_other ha]
    have := hp0 a
    omega
  have hl := fun t => glued_line hn hc ho hoB hg t
  have hdep := fun t => dep_along (nf := nf) (d := dA) (p := p) t
  have hax : axis nfB = oax o (axis nf) := by
    refine Fin.ext ?_
    rw [axis_val hc.nfB_range, hc.normal]
    simp only [oax]
    rw [axis_val hn]
  have hrev : orev o (axis nf) = reversed (o.get (normalAxis nf)) := by unfold orev; rw [axis_val hn]
  have hlow := hc.low
  rw [← hrev] at hlow
  have c0 := centre_fit ho h (z := along nf dA p 0) (by rw [hdep]; decide) (by rw [hdep]) (htan 0) (hl 0)
  have c1 := centre_fit ho h (z := along nf dA p (-1)) (by rw [hdep]) (by rw [hdep]; decide) (htan (-1)) (hl (-1))
  have hy : ∀ t s, t = (if isLow nf then 0 else -1) → s = (if isLow nfB then 0 else -1 : Int) → ∀ a, along nfB dB p' s a = along nfB dB p' (-1 - t) a + if a = oax o (axis nf) ∧ orev o (axis nf) = true then 1 else 0 := by
    intro t s ht hs a
    rw [← hax]
    unfold along
    rw [hs, ht, hlow]
    by_cases ha : a = axis nfB
    · rw [if_pos ha, if_pos ha]
      cases isLow nf <;> cases orev o (axis nf) <;> simp [ha] <;> omega
    · rw [if_neg ha, if_neg ha, if_neg (fun h => ha h.1)]; ring
  have q := quad_fit ho hp h (d := axis nf) (y := along nf dA p (if isLow nf then 0 else -1)) (by rw [hdep]; split_ifs <;> decide)
    (by rw [hdep]; split_ifs <;> decide) (htan _) (hl _) (hy _ _ rfl rfl)
  obtain ⟨q1, q2⟩ := q
  rw [← hax] at q1 q2
  unfold faceOn faceData
  have e0 : (if isLow nf then (0 : Int) else -1 - 0) = if isLow nf then 0 else -1 := by split_ifs <;> rfl
  have e0B : (if isLow nfB then (0 : Int) else -1 - 0) = if isLow nfB then 0 else -1 := by split_ifs <;> rfl
  have e1 : (if isLow nf then (-1 : Int) else -1 - (-1)) = if isLow nf then -1 else 0 := by split_ifs <;> rfl
  have e1B : (if isLow nfB then (-1 : Int) else -1 - (-1)) = if isLow nfB then -1 else 0 := by split_ifs <;> rfl
  dsimp only at q1 q2 ⊢
  rw [e0, e0B, e1, e1B]
  rw [q1, q2]
  norm_num at c0 c1
  have sub_add : ∀ a b w : V3, a + w - (b + w) = a - b := by intro a b w; ext <;> simp
  cases hA : isLow nf <;> cases hr : orev o (axis nf) <;> rw [hA, hr] at hlow <;>
    simp only [beq_self_eq_true, beq_true, beq_false, Bool.not_true, Bool.not_false] at hlow <;>
    simp only [hlow, if_true, if_false, Bool.false_eq_true, FaceData.neg, c0, c1, sub_add, reduceCtorEq]

end

/-- C93 (faces): where two right-handed blocks are connected, by any legal orientation, and the nodes on both sides of the
    connection fit, the metrics give both blocks the same face. -/
theorem C93_same_face {X : Nat → Pos → V3} {W : List (List Block)} (hw : WellConnected W) (hX : Fits X W) {r : Nat} {b : Block}
    (hb : Owns W r b) {f : Face} (hf : f ∈ b.faces) {nb : Nat} (hnb : f.neighbor = some nb) {r' : Nat} {b' : Block} (hb' : Owns W r' b')
    (hb'n : b'.nblki = nb) (hP : Proper f.ori) {nf' : Nat} (hnf' : neighborNface f.nface f.ori = some nf') {p p' : Pos}
    (hp : InBox 0 b.dims p)
    (hg : Glued .ccAll f.nface f.ori b.dims b'.dims (nat (along f.nface b.dims p (-1))) (nat p')) :
    faceOn (X nb) b'.dims nf' p' =
      if isLow f.nface = isLow nf' then (faceOn (X b.nblki) b.dims f.nface p).neg else faceOn (X b.nblki) b.dims f.nface p := by
  obtain ⟨v, hv⟩ := hX r b hb f hf nb hnb r' b' hb' hb'n
  have hn := hw.nface_range r b hb f hf
  have ho := (hw.conn r b hb f hf nb hnb).1
  obtain ⟨nfB, oB, fl, e1, e2, -, hc⟩ := conn_exists f.nface hn f.ori ho
  rw [e1] at hnf'
  cases hnf'
  exact face_fit hn hc ho e2 hP hv hp hg

end PG.Whole
