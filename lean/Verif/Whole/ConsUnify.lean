import Verif.Whole.ConsFace
/-!
C93: the node coordinates which unifySolverGrid produces fit (`Fits`), if the grid files do.
-/
noncomputable section
namespace PG.Whole
open PG.Topo PG.Halo PG.Time PG.Mesh V3

/-- by how much the block behind a face is displaced: not at all, or by the period (bcTypes b0, periodicTransLow, periodicTransHigh) -/
def trans (p : PerFace) : V3 :=
  match p.type with
  | .transLow => smul p.span p.axis
  | .transHigh => - smul p.span p.axis
  | _ => 0

/-- The grid as read from file: every connection is interior or translational periodic, the two faces of a connection carry
    opposite displacements, and the nodes on the common face coincide up to the displacement. -/
structure GridFits (W : List (List Block)) (per : Nat → Nat → PerFace) (G : Nat → Pos → V3) : Prop where
  kind : ∀ r b, Owns W r b → ∀ f ∈ b.faces, f.neighbor ≠ none →
    (per b.nblki f.nface).type ≠ .rotLow ∧ (per b.nblki f.nface).type ≠ .rotHigh
  opposite : ∀ r b, Owns W r b → ∀ f ∈ b.faces, ∀ nb, f.neighbor = some nb → ∀ nf', neighborNface f.nface f.ori = some nf' →
    trans (per nb nf') = - trans (per b.nblki f.nface)
  face : ∀ r b, Owns W r b → ∀ f ∈ b.faces, ∀ nb, f.neighbor = some nb → ∀ r' b', Owns W r' b' → b'.nblki = nb → ∀ c c' : Pos,
    nodeDep f.nface b.dims c = 0 → (∀ a, a ≠ axis f.nface → 0 ≤ c a ∧ c a ≤ top b.dims a + 1) →
    Glued .node f.nface f.ori b.dims b'.dims (nat c) (nat c') → G nb c' = G b.nblki c + trans (per b.nblki f.nface)

theorem node_last (d : Dims) (a : Fin 3) : last .node d a = top d a + 1 := by
  have := last_gap .ccAll d a
  unfold top; rw [this]; simp [gap]

theorem glued_node {nf nfB : Nat} {o oB : Ori} {fl : Bool × Bool × Bool} (hn : 1 ≤ nf ∧ nf ≤ 6) (hc : Conn nf o nfB oB fl)
    (ho : o.Legal) (hoB : neighborOrientation o = some oB) {dA dB : Dims} (hs : SizesMatch nf o dA dB) {c c' : Pos}
    (h3 : ∀ a, a ≠ axis nf → 0 ≤ c a ∧ c a ≤ top dA a + 1) (h : Glued .node nf o dA dB (nat c) (nat c')) :
    nodeDep nfB dB c' = - nodeDep nf dA c ∧ ∀ a, a ≠ axis nfB → 0 ≤ c' a ∧ c' a ≤ top dB a + 1 := by
  have hax : axis nfB = oax o (axis nf) := by
    refine Fin.ext ?_
    rw [axis_val hc.nfB_range, hc.normal]
    simp only [oax]
    rw [axis_val hn]
  constructor
  · have h3 := (axes_distinct nf hn).1
    have g := h (normalAxis nf) h3
    dsimp only at g
    rw [if_pos rfl, ← hc.normal] at g
    have h3B := (axes_distinct nfB hc.nfB_range).1
    rw [nat_lt _ h3, nat_lt _ h3B] at g
    have hv : (axis nf : Fin 3) = ⟨normalAxis nf, h3⟩ := Fin.ext (axis_val hn)
    have hvB : (axis nfB : Fin 3) = ⟨normalAxis nfB, h3B⟩ := Fin.ext (axis_val hc.nfB_range)
    have hlow := hc.low
    unfold nodeDep
    rw [hv, hvB, ← node_last, ← node_last]
    generalize c' ⟨normalAxis nfB, h3B⟩ = x at *
    generalize c ⟨normalAxis nf, h3⟩ = y at *
    dsimp only
    generalize last .node dB (normalAxis nfB) = lB at *
    generalize last .node dA (normalAxis nf) = lA at *
    simp only [gap] at g
    cases hl : isLow nf <;> cases hr : reversed (o.get (normalAxis nf)) <;>
      simp only [hl, hr, if_true, if_false, Bool.false_eq_true, beq_self_eq_true, beq_true, beq_false, Bool.not_true, Bool.not_false] at g hlow ⊢ <;>
      simp only [hlow, if_true, if_false, Bool.false_eq_true] <;> omega
  · intro a ha
    obtain ⟨i, rfl⟩ := ((Fintype.bijective_iff_injective_and_card _).2 ⟨oax_inj ho, rfl⟩ : Function.Bijective (oax o)).2 a
    have hi : i ≠ axis nf := fun e => ha (by rw [hax, e])
    have hin : (i : Nat) ≠ normalAxis nf := by
      rw [← axis_val hn]; exact fun e => hi (Fin.ext e)
    have g := h i i.2
    dsimp only at g
    rw [if_neg hin, nat_lt _ (axisOf_lt _), nat_lt _ i.2] at g
    have e : oax o i = ⟨axisOf (o.get i), axisOf_lt _⟩ := rfl
    have s := hs i i.2 hin
    have t := h3 i hi
    rw [← node_last] at t ⊢
    rw [e, g]
    change 0 ≤ c i ∧ c i ≤ _ at t
    have e2 : c ⟨(i : Nat), i.2⟩ = c i := rfl
    rw [e2, ← s]
    split_ifs <;> omega

theorem trans_eq {p : PerFace} (h : p.type ≠ .rotLow ∧ p.type ≠ .rotHigh) {v w : V3}
    (e : w = match p.type with
         | .none => v
         | .transLow => v - smul p.span p.axis
         | .transHigh => v + smul p.span p.axis
         | .rotLow => PG.BC.rot p.rotDown v
         | .rotHigh => PG.BC.rot p.rotUp v) : v = w + trans p := by
  unfold trans
  cases ht : p.type <;> rw [ht] at e h
  · rw [e]; ext <;> simp
  · rw [e]; ext <;> simp
  · rw [e]; ext <;> simp
  · exact absurd rfl h.1
  · exact absurd rfl h.2

theorem interior_of {nf : Nat} (hn : 1 ≤ nf ∧ nf ≤ 6) {d : Dims} {c : Pos} (h0 : 0 ≤ nodeDep nf d c) (h1 : nodeDep nf d c ≤ top d (axis nf) + 1)
    (h3 : ∀ a, a ≠ axis nf → 0 ≤ c a ∧ c a ≤ top d a + 1) : Interior .node d (nat c) := by
  intro i hi
  rw [nat_lt _ hi]
  have e : last .node d i = top d ⟨i, hi⟩ + 1 := node_last d ⟨i, hi⟩
  rw [e]
  by_cases ha : (⟨i, hi⟩ : Fin 3) = axis nf
  · unfold nodeDep at h0 h1
    rw [ha]
    split_ifs at h0 h1 <;> omega
  · exact h3 _ ha

theorem behind_of {nf : Nat} (hn : 1 ≤ nf ∧ nf ≤ 6) {ng : Nat} {d : Dims} {c : Pos} (h0 : nodeDep nf d c = -1) (hng : 0 < ng) : Behind .node nf ng d (nat c) := by
  have h3 := (axes_distinct nf hn).1
  have hv : (axis nf : Fin 3) = ⟨normalAxis nf, h3⟩ := Fin.ext (axis_val hn)
  unfold nodeDep at h0
  rw [hv, ← node_last] at h0
  dsimp only at h0
  unfold Behind depthBehind
  rw [nat_lt _ h3]
  have hl : layers .node (ng : Int) = ng := rfl
  rw [hl]
  cases hlo : isLow nf <;> simp only [hlo, if_true, if_false, Bool.false_eq_true] at h0 ⊢ <;> omega

theorem inplane_of {nf : Nat} (hn : 1 ≤ nf ∧ nf ≤ 6) {d : Dims} {c : Pos} (h3 : ∀ a, a ≠ axis nf → 0 ≤ c a ∧ c a ≤ top d a + 1) :
    inPlaneInterior .node nf d (nat c) := by
  intro i hi hne
  rw [nat_lt _ hi]
  have e : last .node d i = top d ⟨i, hi⟩ + 1 := node_last d ⟨i, hi⟩
  rw [e]
  exact h3 _ (fun h => hne (by rw [← axis_val hn, ← h]))

/-- C93 (node coordinates): after unifySolverGrid the node coordinates of connected blocks fit on the face, on the first plane
    inside and on the first halo plane, if the grid as read (`gen`: with whatever halo generateHalo made) fits on the faces. -/
theorem C93_grid_fits (ng : Nat) (hng : 0 < ng) (W : List (List Block)) (hw : WellConnected W) (ht : Thick ng W)
    (per : Nat → Nat → PerFace) (gen : Nat → Arr3 V3) (hG : GridFits W per fun n p => at' ng (gen n) (nat p)) (X : Nat → Pos → V3)
    (hX : ∀ r b, Owns W r b → ∀ p, X b.nblki p = at' ng (unify ng W per gen b) (nat p)) : Fits X W := by
  intro r b hb f hf nb hnb r' b' hb' hb'n
  refine ⟨trans (per b.nblki f.nface), fun c c' h1 h2 h3 hg => ?_⟩
  have hn := hw.nface_range r b hb f hf
  obtain ⟨ho, b2, hb2, hb2n, hs, f', hf', hf'n, hnf', hoB⟩ := hw.conn r b hb f hf nb hnb
  obtain rfl : b2 = b' := (hw.uniq _ _ _ _ hb2 hb' (hb2n.trans hb'n.symm)).2
  obtain ⟨nfB, oB, fl, e1, e2, -, hc⟩ := conn_exists f.nface hn f.ori ho
  rw [hoB] at e2; cases e2
  rw [hnf'] at e1; cases e1
  obtain ⟨g1, g3⟩ := glued_node hn hc ho hoB hs h3 hg
  have hopp := hG.opposite r b hb f hf nb hnb _ hnf'
  have tA : (ng : Int) ≤ top b.dims (axis f.nface) + 1 := by rw [← node_last]; exact ht r b hb _ (axis f.nface).2
  have tB : (ng : Int) ≤ top b2.dims (axis f'.nface) + 1 := by rw [← node_last]; exact ht _ b2 hb2 _ (axis f'.nface).2
  have C87A := C87_face_partial ng hng W hw ht per gen r b hb
  have C87B := C87_face_partial ng hng W hw ht per gen r' b2 hb'
  subst hb'n
  rw [hX r' b2 hb' c', hX r b hb c]
  have hd : nodeDep f.nface b.dims c = -1 ∨ nodeDep f.nface b.dims c = 0 ∨ nodeDep f.nface b.dims c = 1 := by omega
  rcases hd with hd | hd | hd
  · -- first halo plane
    have := C87A.2 f hf _ hnb r' b2 hb' rfl (nat c) (nat c') (behind_of hn hd hng) (inplane_of hn h3) hg
    rw [C87B.1 _ this.1]
    exact trans_eq (hG.kind r b hb f hf (by rw [hnb]; simp)) this.2
  · -- on the face
    rw [C87A.1 _ (interior_of hn (by omega) (by omega) h3), C87B.1 _ (interior_of hc.nfB_range (by omega) (by omega) g3)]
    exact hG.face r b hb f hf _ hnb r' b2 hb' rfl c c' hd h3 hg
  · -- first plane inside
    rw [C87A.1 _ (interior_of hn (by omega) (by omega) h3)]
    have hback := glued_back hn hc ho hoB hs hg
    have := C87B.2 f' hf' _ hf'n r b hb rfl (nat c') (nat c) (behind_of hc.nfB_range (by omega) hng) (inplane_of hc.nfB_range g3) hback
    have e := trans_eq (hG.kind r' b2 hb' f' hf' (by rw [hf'n]; simp)) this.2
    rw [e, hopp]
    ext <;> simp

end PG.Whole
