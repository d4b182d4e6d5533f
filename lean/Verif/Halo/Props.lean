import Verif.Halo.System
/-
C02, C03, C04, C05, C06, C08: the halo exchange.
`kind = .ccAll` are q and Q (C02), `.node` are x, y, z (C03), `.ccFirst` are gradients and shock sensor (C04).
-/
namespace PG.Halo
open PG.Topo
variable {α : Type}

/-- C02/C03/C04 in one statement, over a whole decomposed grid: after `communicate` on every rank, each position
    behind a connected face (all exchanged layers, in-plane interior) holds the value which the neighbour block's
    array had before the exchange at the same place (`Glued`). Any number of ranks and blocks, any sizes, any of the
    6 faces and 48 orientations, any halo depth `ng ≥ 1`. -/
theorem exchange_correct (kind : Kind) (ng : Nat) (hng : 0 < ng) (data : Nat → Arr3 α) (world : List (List Block))
    (hw : WellConnected world) (r : Nat) (b : Block) (hb : Owns world r b) (f : Face) (hf : f ∈ b.faces)
    (nb : Nat) (hnb : f.neighbor = some nb) (r' : Nat) (b' : Block) (hb' : Owns world r' b') (hb'n : b'.nblki = nb)
    (c c' : Nat → Int) (hc : Behind kind f.nface ng b.dims c) (hpl : inPlaneInterior kind f.nface b.dims c)
    (hg : Glued kind f.nface f.ori b.dims b'.dims c c') :
    at' ng (communicate kind ng data world r b) c = at' ng (data nb) c' := by
  obtain ⟨b2, f', fl, m, hb2, hb2k, hf', hsz, e1, e2, hconn, hrecv, hpay⟩ :=
    faceRecv_partner kind ng data world hw r b hb f hf nb hnb
  obtain ⟨_, rfl⟩ := hw.uniq _ _ _ _ hb2 hb' (hb2k.trans hb'n.symm)
  have hfr := hw.nface_range r b hb f hf
  have hd := hw.nface_distinct r b hb
  obtain ⟨l1, l2, hl⟩ := List.append_of_mem hf
  have hpl' : inPlaneArray kind f.nface ng b.dims c := fun i hi hne => by
    have := hpl i hi hne; omega
  unfold communicate
  rw [hl, List.foldl_append, List.foldl_cons]
  rw [foldl_outside kind ng hng]
  · simp only [facePlace, hnb, hrecv]
    rw [place_inside kind _ f.nface hfr ng hng b.dims _ c hc hpl', hpay]
    refine recv_value kind hfr hconn ng hng b.dims b2.dims hsz (data nb) c c' hg ?_ hpl'
    unfold Behind at hc
    rw [← layersN_eq] at hc
    exact hc
  · intro g hg2
    exact hw.nface_range r b hb g (by rw [hl]; simp [hg2])
  · intro g hg2 _
    have hne : g.nface ≠ f.nface := by
      rw [hl, List.pairwise_append] at hd
      have := (List.pairwise_cons.1 hd.2.1).1 g hg2
      exact fun h => this h.symm
    exact behind_unique kind ng hng b.dims (hw.cells r b hb) f.nface g.nface hfr
      (hw.nface_range r b hb g (by rw [hl]; simp [hg2])) hne c hc hpl

/-- C02: cell-centred exchange (q, Q), all `ng` layers. `c` is a halo cell `l` layers outside face `f`
    (`1 ≤ l ≤ ng`). -/
theorem C02_cell_exchange (ng : Nat) (hng : 0 < ng) (data : Nat → Arr3 α) (world : List (List Block))
    (hw : WellConnected world) (r : Nat) (b : Block) (hb : Owns world r b) (f : Face) (hf : f ∈ b.faces)
    (nb : Nat) (hnb : f.neighbor = some nb) (r' : Nat) (b' : Block) (hb' : Owns world r' b') (hb'n : b'.nblki = nb)
    (c c' : Nat → Int)
    (hc : 1 ≤ depthBehind .ccAll f.nface b.dims c ∧ depthBehind .ccAll f.nface b.dims c ≤ ng)
    (hpl : inPlaneInterior .ccAll f.nface b.dims c)
    (hg : Glued .ccAll f.nface f.ori b.dims b'.dims c c') :
    at' ng (communicate .ccAll ng data world r b) c = at' ng (data nb) c' :=
  exchange_correct .ccAll ng hng data world hw r b hb f hf nb hnb r' b' hb' hb'n c c' hc hpl hg

/-- C02 (source): the place a halo cell of depth `l` is filled from is an *interior* cell of the neighbour exactly when
    the neighbour has at least `l` cells behind the shared face. (So a block with fewer cells than halo layers in the
    direction normal to a connection hands out its own halo values for the outer layers.) -/
theorem C02_source_interior_iff (nf : Nat) (hn : 1 ≤ nf ∧ nf ≤ 6) (o : Ori) (ho : o.Legal) (nfB : Nat)
    (h1 : neighborNface nf o = some nfB) (dA dB : Dims) (hs : SizesMatch nf o dA dB) (c c' : Nat → Int)
    (hd : 1 ≤ depthBehind .ccAll nf dA c) (hpl : inPlaneInterior .ccAll nf dA c)
    (hg : Glued .ccAll nf o dA dB c c') :
    Interior .ccAll dB c' ↔ depthBehind .ccAll nf dA c ≤ last .ccAll dB (normalAxis nfB) + 1 := by
  obtain ⟨nfB', oB, fl, e1, e2, _, hc⟩ := conn_exists nf hn o ho
  obtain rfl : nfB' = nfB := by simpa [e1] using h1
  obtain ⟨q1, q2, q3, q4, q5, q6⟩ := axes_distinct nf hn
  obtain ⟨r1, r2, r3, r4, r5, r6⟩ := axes_distinct nfB' hc.nfB_range
  have gN := hg (normalAxis nf) q1
  have g0 := hg (pl0 nf) q2
  have g1 := hg (pl1 nf) q3
  dsimp only at gN g0 g1
  rw [if_pos rfl, ← hc.normal] at gN
  rw [if_neg q4, ← hc.f0, hc.ax0] at g0
  rw [if_neg q5, ← hc.f1, hc.ax1] at g1
  have hp0 := hpl (pl0 nf) q2 q4
  have hp1 := hpl (pl1 nf) q3 q5
  have hsz0 : last .ccAll dA (pl0 nf) = last .ccAll dB (if fl.1 then pl1 nfB' else pl0 nfB') := by
    have := hs (pl0 nf) q2 q4
    rw [hc.ax0] at this
    rw [last_gap .ccAll dA, last_gap .ccAll dB, this]
  have hsz1 : last .ccAll dA (pl1 nf) = last .ccAll dB (if fl.1 then pl0 nfB' else pl1 nfB') := by
    have := hs (pl1 nf) q3 q5
    rw [hc.ax1] at this
    rw [last_gap .ccAll dA, last_gap .ccAll dB, this]
  have hnorm : (0 ≤ c' (normalAxis nfB') ∧ c' (normalAxis nfB') ≤ last .ccAll dB (normalAxis nfB')) ↔
      depthBehind .ccAll nf dA c ≤ last .ccAll dB (normalAxis nfB') + 1 := by
    unfold depthBehind at hd ⊢
    rw [gN]
    simp only [gap]
    cases hl : isLow nf <;> cases hr : reversed (o.get (normalAxis nf)) <;>
      simp only [hl, if_true, if_false, Bool.false_eq_true] at hd ⊢ <;> omega
  constructor
  · intro hi
    exact hnorm.1 (hi _ r1)
  · intro hle x hx
    rcases axes_cover nfB' hc.nfB_range x hx with h | h | h
    · rw [h]; exact hnorm.2 hle
    · rw [h]
      cases hT : fl.1 <;> simp only [hT, if_true, if_false, Bool.false_eq_true] at g0 g1 hsz0 hsz1
      · rw [g0]; split <;> omega
      · rw [g1]; split <;> omega
    · rw [h]
      cases hT : fl.1 <;> simp only [hT, if_true, if_false, Bool.false_eq_true] at g0 g1 hsz0 hsz1
      · rw [g1]; split <;> omega
      · rw [g0]; split <;> omega

/-- C03: node coordinates: the node plane `l` outside the face gets the neighbour's plane `l` inside the shared one. -/
theorem C03_node_exchange (ng : Nat) (hng : 0 < ng) (data : Nat → Arr3 α) (world : List (List Block))
    (hw : WellConnected world) (r : Nat) (b : Block) (hb : Owns world r b) (f : Face) (hf : f ∈ b.faces)
    (nb : Nat) (hnb : f.neighbor = some nb) (r' : Nat) (b' : Block) (hb' : Owns world r' b') (hb'n : b'.nblki = nb)
    (c c' : Nat → Int)
    (hc : 1 ≤ depthBehind .node f.nface b.dims c ∧ depthBehind .node f.nface b.dims c ≤ ng)
    (hpl : inPlaneInterior .node f.nface b.dims c)
    (hg : Glued .node f.nface f.ori b.dims b'.dims c c') :
    at' ng (communicate .node ng data world r b) c = at' ng (data nb) c' :=
  exchange_correct .node ng hng data world hw r b hb f hf nb hnb r' b' hb' hb'n c c' hc hpl hg

/-- C04: gradients and shock sensor: the first halo layer gets the neighbour's first interior layer, and a cell two or
    more layers outside, with in-plane interior indices, keeps its value. -/
theorem C04_first_layer_exchange (ng : Nat) (hng : 0 < ng) (data : Nat → Arr3 α) (world : List (List Block))
    (hw : WellConnected world) (r : Nat) (b : Block) (hb : Owns world r b) (f : Face) (hf : f ∈ b.faces)
    (nb : Nat) (hnb : f.neighbor = some nb) (r' : Nat) (b' : Block) (hb' : Owns world r' b') (hb'n : b'.nblki = nb) :
    (∀ c c' : Nat → Int, depthBehind .ccFirst f.nface b.dims c = 1 → inPlaneInterior .ccFirst f.nface b.dims c →
      Glued .ccFirst f.nface f.ori b.dims b'.dims c c' →
      at' ng (communicate .ccFirst ng data world r b) c = at' ng (data nb) c') ∧
    (∀ c : Nat → Int, 2 ≤ depthBehind .ccFirst f.nface b.dims c → inPlaneInterior .ccFirst f.nface b.dims c →
      at' ng (communicate .ccFirst ng data world r b) c = at' ng (data b.nblki) c) := by
  refine ⟨fun c c' h1 h2 h3 => exchange_correct .ccFirst ng hng data world hw r b hb f hf nb hnb r' b' hb' hb'n c c'
    ⟨by omega, by simp [layers]; omega⟩ h2 h3, ?_⟩
  intro c h1 h2
  unfold communicate
  apply foldl_outside .ccFirst ng hng _ r b b.faces (hw.nface_range r b hb)
  intro g hg _ hB
  have hB1 : depthBehind .ccFirst g.nface b.dims c = 1 := by
    unfold Behind layers at hB; dsimp only at hB; omega
  by_cases e : g.nface = f.nface
  · rw [e] at hB1; omega
  · -- the depth is larger than one layer
    have hn := hw.nface_range r b hb f hf
    have hn2 := hw.nface_range r b hb g hg
    by_cases hax : normalAxis g.nface = normalAxis f.nface
    · have hl : 0 ≤ last .ccFirst b.dims (normalAxis f.nface) := by
        unfold last; obtain ⟨h1, h2, h3⟩ := hw.cells r b hb
        dsimp only; split <;> omega
      have hlow : isLow g.nface ≠ isLow f.nface := by
        intro hll
        apply e
        have hll' : (g.nface % 2 == 1) = (f.nface % 2 == 1) := hll
        rw [Bool.eq_iff_iff] at hll'
        simp only [beq_iff_eq] at hll'
        unfold normalAxis at hax
        omega
      unfold depthBehind at h1 hB1
      rw [hax] at hB1
      cases h1' : isLow f.nface <;> cases h2' : isLow g.nface <;> simp [h1', h2'] at hlow h1 hB1 <;> omega
    · have := h2 (normalAxis g.nface) (axes_distinct g.nface hn2).1 hax
      unfold depthBehind at hB1
      cases h2 : isLow g.nface <;> simp [h2] at hB1 <;> omega

/-- C05: `communicate` changes nothing except positions in the exchanged halo layers behind connected faces. -/
theorem C05_only_halos_change (kind : Kind) (ng : Nat) (hng : 0 < ng) (data : Nat → Arr3 α) (world : List (List Block))
    (hw : WellConnected world) (r : Nat) (b : Block) (hb : Owns world r b) (c : Nat → Int)
    (h : ∀ f ∈ b.faces, f.neighbor ≠ none → ¬ Behind kind f.nface ng b.dims c) :
    at' ng (communicate kind ng data world r b) c = at' ng (data b.nblki) c :=
  foldl_outside kind ng hng _ r b b.faces (hw.nface_range r b hb) c h _

/-- C05 (interior): in particular every interior value is unchanged. -/
theorem C05_interior_unchanged (kind : Kind) (ng : Nat) (hng : 0 < ng) (data : Nat → Arr3 α)
    (world : List (List Block)) (hw : WellConnected world) (r : Nat) (b : Block) (hb : Owns world r b) (c : Nat → Int)
    (h : Interior kind b.dims c) :
    at' ng (communicate kind ng data world r b) c = at' ng (data b.nblki) c := by
  apply C05_only_halos_change kind ng hng data world hw r b hb c
  intro f hf _ hB
  have := h (normalAxis f.nface) (axes_distinct f.nface (hw.nface_range r b hb f hf)).1
  unfold Behind depthBehind at hB
  cases h2 : isLow f.nface <;> simp [h2] at hB <;> omega

/-- C06 (a): tags of receives posted for distinct (block, face) pairs are distinct. -/
theorem C06_tag_injective (b b' nf nf' : Nat) (h : 1 ≤ nf ∧ nf ≤ 6) (h' : 1 ≤ nf' ∧ nf' ≤ 6)
    (e : tagR b nf = tagR b' nf') : b = b' ∧ nf = nf' := tag_inj b b' nf nf' h h' e

/-- C06 (b): over a reciprocal connection every posted receive is matched by a message, and each matching message
    (same source, destination, tag) comes from the partner block, and from the partner's face towards this one. -/
theorem C06_receive_matched (kind : Kind) (ng : Int) (data : Nat → Arr3 α) (world : List (List Block))
    (hw : WellConnected world) (r : Nat) (b : Block) (hb : Owns world r b) (f : Face) (hf : f ∈ b.faces)
    (nb : Nat) (hnb : f.neighbor = some nb) :
    ∃ b' f' fl m, Owns world f.commRank b' ∧ b'.nblki = nb ∧ f' ∈ b'.faces ∧ f'.neighbor = some b.nblki ∧
      neighborNface f.nface f.ori = some f'.nface ∧ orientFlags f'.nface f'.ori = some fl ∧
      faceRecv (allSends kind ng data world) r b f = some m ∧
      m.payload = sendBuffer kind (data nb) f'.nface f'.ori ng b'.dims fl := by
  obtain ⟨b', f', fl, m, h1, h2, h3, _, h5, h6, h7, h8, h9⟩ :=
    faceRecv_partner kind ng data world hw r b hb f hf nb hnb
  obtain ⟨hleg, b2, g1, g2, _, f2, g3, g4, g5, g6⟩ := hw.conn r b hb f hf nb hnb
  obtain ⟨_, rfl⟩ := hw.uniq _ _ _ _ g1 h1 (g2.trans h2.symm)
  have : f2.nface = f'.nface := by rw [g5] at h5; exact Option.some.inj h5
  obtain rfl := face_eq_of_nface (hw.nface_distinct _ _ h1) g3 h3 this
  obtain ⟨fl', e1, e2⟩ := conn_of f.nface (hw.nface_range r b hb f hf) f.ori hleg f2.nface f2.ori h5 h6
  have hfl : fl' = fl := by
    have a := e2.f0.trans h7.f0.symm
    have b' := e2.f1.trans h7.f1.symm
    have c' : fl'.1 = fl.1 := by
      have x := e2.ax0.symm.trans h7.ax0
      have := (axes_distinct f2.nface h7.nfB_range).2.2.2.2.2
      cases u : fl'.1 <;> cases w : fl.1 <;> simp [u, w] at x ⊢ <;> omega
    exact Prod.ext c' (Prod.ext a b')
  exact ⟨b2, f2, fl, m, h1, h2, h3, g4, h5, hfl ▸ e1, h8, h9⟩

/-- C08: over a connection with matching sizes the oriented send buffer of one side has exactly the shape of the
    receive buffer of the other (number of layers and both in-plane extents), for every kind of variable. -/
theorem C08_buffer_shapes_match (kind : Kind) (nf : Nat) (hn : 1 ≤ nf ∧ nf ≤ 6) (o : Ori) (ho : o.Legal)
    (nfB : Nat) (oB : Ori) (h1 : neighborNface nf o = some nfB) (h2 : neighborOrientation o = some oB)
    (ng : Nat) (hng : 0 < ng) (dA dB : Dims) (hs : SizesMatch nf o dA dB) (v : Arr3 α) (msg : Buf α) :
    ∃ fl, orientFlags nfB oB = some fl ∧
      (sendBuffer kind v nfB oB ng dB fl).nl = (recvBuffer kind nf ng dA msg).nl ∧
      (sendBuffer kind v nfB oB ng dB fl).n0 = (recvBuffer kind nf ng dA msg).n0 ∧
      (sendBuffer kind v nfB oB ng dB fl).n1 = (recvBuffer kind nf ng dA msg).n1 := by
  obtain ⟨fl, e, hc⟩ := conn_of nf hn o ho nfB oB h1 h2
  exact ⟨fl, e, shapes_match kind hn hc ng hng dA dB hs v msg⟩

/-! ### Non-vacuity: a two-rank, two-block grid with a transposing, reversing connection -/

def exA : Block := ⟨0, ⟨4, 3, 5⟩, [⟨1, none, ⟨1,2,3⟩, 0⟩, ⟨2, some 1, ⟨5, 1, 3⟩, 1⟩]⟩
def exB : Block := ⟨1, ⟨3, 6, 5⟩, [⟨4, some 0, ⟨2, 4, 3⟩, 0⟩]⟩
def exWorld : List (List Block) := [[exA], [exB]]

theorem exOwns (r : Nat) (b : Block) : Owns exWorld r b ↔ (r = 0 ∧ b = exA) ∨ (r = 1 ∧ b = exB) := by
  unfold Owns exWorld
  rcases r with _ | _ | r
  · simp
  · simp
  · simp

theorem exWell : WellConnected exWorld where
  uniq := by
    intro r r' b b' h h' e
    rw [exOwns] at h h'
    rcases h with ⟨rfl, rfl⟩ | ⟨rfl, rfl⟩ <;> rcases h' with ⟨rfl, rfl⟩ | ⟨rfl, rfl⟩ <;> simp_all [exA, exB]
  nodup := by decide
  nface_range := by
    intro r b h
    rw [exOwns] at h
    rcases h with ⟨rfl, rfl⟩ | ⟨rfl, rfl⟩ <;> decide
  nface_distinct := by
    intro r b h
    rw [exOwns] at h
    rcases h with ⟨rfl, rfl⟩ | ⟨rfl, rfl⟩ <;> decide
  cells := by
    intro r b h
    rw [exOwns] at h
    rcases h with ⟨rfl, rfl⟩ | ⟨rfl, rfl⟩ <;> decide
  conn := by
    intro r b h f hf nb hnb
    rw [exOwns] at h
    rcases h with ⟨rfl, rfl⟩ | ⟨rfl, rfl⟩
    · simp only [exA, List.mem_cons, List.not_mem_nil, or_false] at hf
      rcases hf with rfl | rfl
      · cases hnb
      · cases hnb
        refine ⟨by decide, exB, (exOwns _ _).2 (by simp), rfl, ?_, ⟨4, some 0, ⟨2, 4, 3⟩, 0⟩, by simp [exB], rfl, rfl, rfl⟩
        intro i hi hne
        have : i = 0 ∨ i = 1 ∨ i = 2 := by omega
        rcases this with rfl | rfl | rfl
        · exact absurd rfl hne
        · rfl
        · rfl
    · simp only [exB, List.mem_cons, List.not_mem_nil, or_false] at hf
      subst hf
      cases hnb
      refine ⟨by decide, exA, (exOwns _ _).2 (by simp), rfl, ?_, ⟨2, some 1, ⟨5, 1, 3⟩, 1⟩, by simp [exA], rfl, rfl, rfl⟩
      intro i hi hne
      have : i = 0 ∨ i = 1 ∨ i = 2 := by omega
      rcases this with rfl | rfl | rfl
      · rfl
      · exact absurd rfl hne
      · rfl

/-- halo cell (3, 0, 2) of block 0 (first layer beyond face 2) is cell (0, 4, 2) of block 1 -/
example : ∃ c c' : Nat → Int,
    (1 ≤ depthBehind .ccAll 2 exA.dims c ∧ depthBehind .ccAll 2 exA.dims c ≤ 2) ∧
    inPlaneInterior .ccAll 2 exA.dims c ∧ Glued .ccAll 2 ⟨5,1,3⟩ exA.dims exB.dims c c' ∧
    (c 0, c 1, c 2) = (3, 0, 2) ∧ (c' 0, c' 1, c' 2) = (0, 4, 2) := by
  refine ⟨fun a => if a = 0 then 3 else if a = 1 then 0 else 2,
    fun a => if a = 0 then 0 else if a = 1 then 4 else 2, by decide, ?_, ?_, rfl, rfl⟩
  · intro i hi hne
    have : i = 0 ∨ i = 1 ∨ i = 2 := by omega
    rcases this with rfl | rfl | rfl
    · exact absurd rfl hne
    · decide
    · decide
  · intro i hi
    have : i = 0 ∨ i = 1 ∨ i = 2 := by omega
    rcases this with rfl | rfl | rfl <;> decide

end PG.Halo
