import Verif.Halo.Lemmas
/-! Exchange over one connection: the received buffer holds the neighbour's values at the glued positions. -/
namespace PG.Halo
open PG.Topo
variable {α : Type}

/-- lower / higher in-plane axis of a face -/
def pl0 (nf : Nat) : Nat := if normalAxis nf = 0 then 1 else 0
def pl1 (nf : Nat) : Nat := if normalAxis nf = 2 then 1 else 2

/-- Everything the finite tables say about a connection, seen from A (`nf`, `o`) towards B (`nfB`, `oB`), `fl` the
    orientation flags B uses to send to A. -/
structure Conn (nf : Nat) (o : Ori) (nfB : Nat) (oB : Ori) (fl : Bool × Bool × Bool) : Prop where
  nfB_range : 1 ≤ nfB ∧ nfB ≤ 6
  back_nf : neighborNface nfB oB = some nf
  back_o : neighborOrientation oB = some o
  legalB : oB.Legal
  normal : normalAxis nfB = axisOf (o.get (normalAxis nf))
  low : isLow nfB = (isLow nf == reversed (o.get (normalAxis nf)))
  rev : sendReversed nfB oB = reversed (o.get (normalAxis nf))
  ax0 : axisOf (o.get (pl0 nf)) = if fl.1 then pl1 nfB else pl0 nfB
  ax1 : axisOf (o.get (pl1 nf)) = if fl.1 then pl0 nfB else pl1 nfB
  f0 : fl.2.1 = reversed (o.get (pl0 nf))
  f1 : fl.2.2 = reversed (o.get (pl1 nf))

def connB (nf : Nat) (o : Ori) (nfB : Nat) (oB : Ori) (fl : Bool × Bool × Bool) : Bool :=
  decide (1 ≤ nfB ∧ nfB ≤ 6) && decide (neighborNface nfB oB = some nf) &&
  decide (neighborOrientation oB = some o) && decide oB.Legal &&
  decide (normalAxis nfB = axisOf (o.get (normalAxis nf))) &&
  decide (isLow nfB = (isLow nf == reversed (o.get (normalAxis nf)))) &&
  decide (sendReversed nfB oB = reversed (o.get (normalAxis nf))) &&
  decide (axisOf (o.get (pl0 nf)) = if fl.1 then pl1 nfB else pl0 nfB) &&
  decide (axisOf (o.get (pl1 nf)) = if fl.1 then pl0 nfB else pl1 nfB) &&
  decide (fl.2.1 = reversed (o.get (pl0 nf))) && decide (fl.2.2 = reversed (o.get (pl1 nf)))

theorem conn_table : ∀ n : Fin 6, ∀ a : Fin 6, ∀ b : Fin 6, ∀ c : Fin 6,
    (⟨a.val+1, b.val+1, c.val+1⟩ : Ori).Legal →
    (neighborNface (n.val+1) ⟨a.val+1, b.val+1, c.val+1⟩).any (fun nfB =>
      (neighborOrientation ⟨a.val+1, b.val+1, c.val+1⟩).any (fun oB =>
        (orientFlags nfB oB).any (fun fl => connB (n.val+1) ⟨a.val+1, b.val+1, c.val+1⟩ nfB oB fl))) = true := by
  decide +kernel

theorem conn_exists (nf : Nat) (hn : 1 ≤ nf ∧ nf ≤ 6) (o : Ori) (ho : o.Legal) :
    ∃ nfB oB fl, neighborNface nf o = some nfB ∧ neighborOrientation o = some oB ∧ orientFlags nfB oB = some fl ∧
      Conn nf o nfB oB fl := by
  obtain ⟨n, rfl⟩ : ∃ n, nf = n + 1 := ⟨nf - 1, by omega⟩
  refine legal_cases (fun o => ∃ nfB oB fl, neighborNface (n+1) o = some nfB ∧ neighborOrientation o = some oB ∧
    orientFlags nfB oB = some fl ∧ Conn (n+1) o nfB oB fl) ?_ o ho
  intro a b c h
  obtain ⟨nfB, h1, h2⟩ := (Option.any_eq_true _ _).1 (conn_table ⟨n, by omega⟩ a b c h)
  obtain ⟨oB, h3, h4⟩ := (Option.any_eq_true _ _).1 h2
  obtain ⟨fl, h5, h6⟩ := (Option.any_eq_true _ _).1 h4
  refine ⟨nfB, oB, fl, h1, h3, h5, ?_⟩
  simp only [connB, Bool.and_eq_true, decide_eq_true_eq] at h6
  obtain ⟨⟨⟨⟨⟨⟨⟨⟨⟨⟨p1, p2⟩, p3⟩, p4⟩, p5⟩, p6⟩, p7⟩, p8⟩, p9⟩, p10⟩, p11⟩ := h6
  exact ⟨p1, p2, p3, p4, p5, p6, p7, p8, p9, p10, p11⟩

theorem conn_of (nf : Nat) (hn : 1 ≤ nf ∧ nf ≤ 6) (o : Ori) (ho : o.Legal) (nfB : Nat) (oB : Ori)
    (h1 : neighborNface nf o = some nfB) (h2 : neighborOrientation o = some oB) :
    ∃ fl, orientFlags nfB oB = some fl ∧ Conn nf o nfB oB fl := by
  obtain ⟨nfB', oB', fl, e1, e2, e3, e4⟩ := conn_exists nf hn o ho
  obtain rfl : nfB' = nfB := by simpa [e1] using h1
  obtain rfl : oB' = oB := by simpa [e2] using h2
  exact ⟨fl, e3, e4⟩

/-! ### Normal form of slices and shapes in terms of `last` -/

theorem last_gap (kind : Kind) (d : Dims) (a : Nat) : last kind d a = last .node d a - gap kind := by
  unfold last gap; cases kind <;> simp <;> omega

theorem dims_normal (kind : Kind) (d : Dims) (nf : Nat) (hn : 1 ≤ nf ∧ nf ≤ 6) :
    d.normal nf = last kind d (normalAxis nf) + 1 + gap kind := by
  obtain ⟨h1, h2⟩ := hn
  have : nf = 1 ∨ nf = 2 ∨ nf = 3 ∨ nf = 4 ∨ nf = 5 ∨ nf = 6 := by omega
  rcases this with rfl|rfl|rfl|rfl|rfl|rfl <;> cases kind <;>
    simp [Dims.normal, last, gap, normalAxis] <;> omega

theorem faceShape_last (kind : Kind) (d : Dims) (nf : Nat) (hn : 1 ≤ nf ∧ nf ≤ 6) (ng : Int) :
    faceShape kind nf ng d = (last kind d (pl0 nf) + 2*ng + 1, last kind d (pl1 nf) + 2*ng + 1) := by
  have : nf = 1 ∨ nf = 2 ∨ nf = 3 ∨ nf = 4 ∨ nf = 5 ∨ nf = 6 := by omega
  rcases this with rfl|rfl|rfl|rfl|rfl|rfl <;> cases kind <;>
    simp [faceShape, last, normalAxis, pl0, pl1] <;> omega

theorem isSmall_isLow (nf : Nat) (hn : 1 ≤ nf ∧ nf ≤ 6) : isSmall nf = isLow nf := by
  have : nf = 1 ∨ nf = 2 ∨ nf = 3 ∨ nf = 4 ∨ nf = 5 ∨ nf = 6 := by omega
  rcases this with rfl|rfl|rfl|rfl|rfl|rfl <;> rfl

theorem getFaceSlice_at (v : Arr3 α) (nf : Nat) (hn : 1 ≤ nf ∧ nf ≤ 6) (ng s a b : Int) :
    getFaceSlice v nf s a b =
      at' ng v (fun x => if x = normalAxis nf then s - ng else if x = pl0 nf then a - ng else b - ng) := by
  have : nf = 1 ∨ nf = 2 ∨ nf = 3 ∨ nf = 4 ∨ nf = 5 ∨ nf = 6 := by omega
  rcases this with rfl|rfl|rfl|rfl|rfl|rfl <;> simp [getFaceSlice, at', normalAxis, pl0]

theorem axes_cover (nf : Nat) (hn : 1 ≤ nf ∧ nf ≤ 6) (x : Nat) (hx : x < 3) :
    x = normalAxis nf ∨ x = pl0 nf ∨ x = pl1 nf := by
  have : nf = 1 ∨ nf = 2 ∨ nf = 3 ∨ nf = 4 ∨ nf = 5 ∨ nf = 6 := by omega
  have h3 : x = 0 ∨ x = 1 ∨ x = 2 := by omega
  rcases this with rfl|rfl|rfl|rfl|rfl|rfl <;> rcases h3 with rfl|rfl|rfl <;> decide

theorem axes_distinct (nf : Nat) (hn : 1 ≤ nf ∧ nf ≤ 6) :
    normalAxis nf < 3 ∧ pl0 nf < 3 ∧ pl1 nf < 3 ∧ pl0 nf ≠ normalAxis nf ∧ pl1 nf ≠ normalAxis nf ∧
      pl0 nf ≠ pl1 nf := by
  have : nf = 1 ∨ nf = 2 ∨ nf = 3 ∨ nf = 4 ∨ nf = 5 ∨ nf = 6 := by omega
  rcases this with rfl|rfl|rfl|rfl|rfl|rfl <;> decide

theorem at'_congr (ng : Int) (v : Arr3 α) (c c' : Nat → Int) (nf : Nat) (hn : 1 ≤ nf ∧ nf ≤ 6)
    (h1 : c (normalAxis nf) = c' (normalAxis nf)) (h2 : c (pl0 nf) = c' (pl0 nf)) (h3 : c (pl1 nf) = c' (pl1 nf)) :
    at' ng v c = at' ng v c' := by
  have key : ∀ x, x < 3 → c x = c' x := by
    intro x hx
    rcases axes_cover nf hn x hx with h|h|h <;> rw [h] <;> assumption
  unfold at'
  rw [key 0 (by omega), key 1 (by omega), key 2 (by omega)]

/-! ### orient -/

theorem orient_n0 (fl : Bool × Bool × Bool) (t : Arr2 α) : (orient fl t).n0 = if fl.1 then t.n1 else t.n0 := by
  obtain ⟨T, a, b⟩ := fl
  cases T <;> cases a <;> cases b <;> rfl

theorem orient_n1 (fl : Bool × Bool × Bool) (t : Arr2 α) : (orient fl t).n1 = if fl.1 then t.n0 else t.n1 := by
  obtain ⟨T, a, b⟩ := fl
  cases T <;> cases a <;> cases b <;> rfl

theorem orient_get (fl : Bool × Bool × Bool) (t : Arr2 α) (a b : Int) :
    (orient fl t).get a b =
      (let a' := if fl.2.1 then (orient fl t).n0 - 1 - a else a
       let b' := if fl.2.2 then (orient fl t).n1 - 1 - b else b
       if fl.1 then t.get b' a' else t.get a' b') := by
  obtain ⟨T, f, g⟩ := fl
  cases T <;> cases f <;> cases g <;> rfl

/-! ### shapes agree -/

theorem shapes_match (kind : Kind) {nf nfB : Nat} {o oB : Ori} {fl : Bool × Bool × Bool} (hn : 1 ≤ nf ∧ nf ≤ 6)
    (hc : Conn nf o nfB oB fl) (ng : Nat) (hng : 0 < ng) (dA dB : Dims) (hs : SizesMatch nf o dA dB) (v : Arr3 α)
    (msg : Buf α) :
    (sendBuffer kind v nfB oB ng dB fl).nl = (recvBuffer kind nf ng dA msg).nl ∧
    (sendBuffer kind v nfB oB ng dB fl).n0 = (recvBuffer kind nf ng dA msg).n0 ∧
    (sendBuffer kind v nfB oB ng dB fl).n1 = (recvBuffer kind nf ng dA msg).n1 := by
  obtain ⟨q1, q2, q3, q4, q5, q6⟩ := axes_distinct nf hn
  have s0 := hs (pl0 nf) q2 q4
  have s1 := hs (pl1 nf) q3 q5
  refine ⟨?_, ?_, ?_⟩
  · simp only [sendBuffer, recvBuffer]
    rw [sendSlices_length _ _ _ _ hng]
    cases kind <;> rfl
  · simp only [sendBuffer, recvBuffer, orient_n0, faceShape_last kind dB nfB hc.nfB_range, faceShape_last kind dA nf hn]
    have hax := hc.ax0
    rw [last_gap kind dA (pl0 nf), s0, hax]
    split <;> simp only [last_gap kind dB] <;> simp_all
  · simp only [sendBuffer, recvBuffer, orient_n1, faceShape_last kind dB nfB hc.nfB_range, faceShape_last kind dA nf hn]
    have hax := hc.ax1
    rw [last_gap kind dA (pl1 nf), s1, hax]
    split <;> simp only [last_gap kind dB] <;> simp_all

/-! ### The received value -/

theorem recvStart_last (kind : Kind) (d : Dims) (nf : Nat) (hn : 1 ≤ nf ∧ nf ≤ 6) (ng : Nat) :
    recvStart kind (isSmall nf) ng (d.normal nf) =
      if isLow nf then (ng : Int) - (layersN kind ng : Int) else last kind d (normalAxis nf) + ng + 1 := by
  rw [isSmall_isLow nf hn, dims_normal kind d nf hn]
  cases kind <;> simp [recvStart, layersN, gap] <;> split <;> omega

theorem sendStart_last (kind : Kind) (d : Dims) (nf : Nat) (hn : 1 ≤ nf ∧ nf ≤ 6) (ng : Nat) :
    sendStart kind (isSmall nf) ng (d.normal nf) =
      if isLow nf then (ng : Int) + 1 - gap kind
      else last kind d (normalAxis nf) + ng - (1 - gap kind) - (layersN kind ng - 1) := by
  rw [isSmall_isLow nf hn, dims_normal kind d nf hn]
  cases kind <;> simp [sendStart, layersN, gap] <;> split <;> omega

/-- The heart of the matter: buffer layer `g` position `(t0,t1)` that A receives equals B's value at the glued place. -/
theorem recv_value (kind : Kind) {nf nfB : Nat} {o oB : Ori} {fl : Bool × Bool × Bool} (hn : 1 ≤ nf ∧ nf ≤ 6)
    (hc : Conn nf o nfB oB fl) (ng : Nat) (hng : 0 < ng) (dA dB : Dims) (hs : SizesMatch nf o dA dB) (v : Arr3 α)
    (c c' : Nat → Int) (hglue : Glued kind nf o dA dB c c')
    (hd : 1 ≤ depthBehind kind nf dA c ∧ depthBehind kind nf dA c ≤ layersN kind ng)
    (hpl : inPlaneArray kind nf ng dA c) :
    (recvBuffer kind nf ng dA (sendBuffer kind v nfB oB ng dB fl)).get
      (c (normalAxis nf) + ng - recvStart kind (isSmall nf) ng (dA.normal nf)) (c (pl0 nf) + ng) (c (pl1 nf) + ng)
      = at' ng v c' := by
  obtain ⟨q1, q2, q3, q4, q5, q6⟩ := axes_distinct nf hn
  obtain ⟨r1, r2, r3, r4, r5, r6⟩ := axes_distinct nfB hc.nfB_range
  have hp0 := hpl (pl0 nf) q2 q4
  have hp1 := hpl (pl1 nf) q3 q5
  have gN := hglue (normalAxis nf) q1
  have g0 := hglue (pl0 nf) q2
  have g1 := hglue (pl1 nf) q3
  dsimp only at gN g0 g1
  rw [if_pos rfl, ← hc.normal] at gN
  rw [if_neg q4, ← hc.f0, hc.ax0] at g0
  rw [if_neg q5, ← hc.f1, hc.ax1] at g1
  obtain ⟨e0, e1, e2⟩ := shapes_match kind hn hc ng hng dA dB hs v (sendBuffer kind v nfB oB ng dB fl)
  -- transfer through flat memory
  have hflat : ∀ g t0 t1 : Int, 0 ≤ t0 → t0 < (sendBuffer kind v nfB oB ng dB fl).n0 → 0 ≤ t1 →
      t1 < (sendBuffer kind v nfB oB ng dB fl).n1 →
      (recvBuffer kind nf ng dA (sendBuffer kind v nfB oB ng dB fl)).get g t0 t1
        = (sendBuffer kind v nfB oB ng dB fl).get g t0 t1 := by
    intro g t0 t1 a1 a2 a3 a4
    have := flat_unflat (sendBuffer kind v nfB oB ng dB fl) g t0 t1 a1 a2 a3 a4
    rw [← this]
    simp only [recvBuffer] at e1 e2 ⊢
    rw [e1, e2]
  have n0eq : (sendBuffer kind v nfB oB ng dB fl).n0 = last kind dA (pl0 nf) + 2*ng + 1 := by
    rw [e1]; simp only [recvBuffer, faceShape_last kind dA nf hn]
  have n1eq : (sendBuffer kind v nfB oB ng dB fl).n1 = last kind dA (pl1 nf) + 2*ng + 1 := by
    rw [e2]; simp only [recvBuffer, faceShape_last kind dA nf hn]
  rw [hflat _ _ _ (by omega) (by omega) (by omega) (by omega)]
  -- now the layer index
  have hgnat : ∃ gN : Nat, (c (normalAxis nf) + ng - recvStart kind (isSmall nf) ng (dA.normal nf)) = gN ∧
      gN < layersN kind ng := by
    refine ⟨(c (normalAxis nf) + ng - recvStart kind (isSmall nf) ng (dA.normal nf)).toNat, ?_, ?_⟩ <;>
    · rw [recvStart_last kind dA nf hn]
      unfold depthBehind at hd
      split <;> rename_i hl <;> simp only [hl] at hd <;> simp at hd <;> omega
  obtain ⟨g, hg, hgL⟩ := hgnat
  rw [hg]
  have hn0 : ∀ t : Arr2 α, t.n0 = (faceShape kind nfB ng dB).1 → t.n1 = (faceShape kind nfB ng dB).2 →
      (orient fl t).n0 = last kind dA (pl0 nf) + 2*ng + 1 ∧ (orient fl t).n1 = last kind dA (pl1 nf) + 2*ng + 1 := by
    intro t h1 h2
    rw [← n0eq, ← n1eq]
    simp only [sendBuffer, orient_n0, orient_n1, h1, h2]
    exact ⟨trivial, trivial⟩
  simp only [sendBuffer, Int.toNat_natCast, orient_get]
  rw [(hn0 _ rfl rfl).1, (hn0 _ rfl rfl).2]
  simp only [extractSendBuffer]
  rw [sendSlices_getD kind nfB oB ng hng _ g hgL, hc.rev, sendStart_last kind dB nfB hc.nfB_range]
  rw [getFaceSlice_at v nfB hc.nfB_range ng, getFaceSlice_at v nfB hc.nfB_range ng]
  have hsz0 : last kind dA (pl0 nf) = last kind dB (if fl.1 then pl1 nfB else pl0 nfB) := by
    have := hs (pl0 nf) q2 q4
    rw [hc.ax0] at this
    rw [last_gap kind dA, last_gap kind dB, this]
  have hsz1 : last kind dA (pl1 nf) = last kind dB (if fl.1 then pl0 nfB else pl1 nfB) := by
    have := hs (pl1 nf) q3 q5
    rw [hc.ax1] at this
    rw [last_gap kind dA, last_gap kind dB, this]
  rw [recvStart_last kind dA nf hn] at hg
  have hlow := hc.low
  split
  · rename_i hT
    simp only [hT, if_true] at g0 g1 hsz0 hsz1
    apply at'_congr ng v _ _ nfB hc.nfB_range
    · simp only [if_true]
      rw [gN]
      cases hl : isLow nf <;> cases hr : reversed (o.get (normalAxis nf)) <;>
        simp only [hl, hr, if_true, if_false, Bool.false_eq_true] at hg hlow ⊢ <;> simp [hlow] <;> omega
    · rw [if_neg r4, if_pos rfl, g1]; split <;> omega
    · rw [if_neg r5, if_neg (Ne.symm r6), g0]; split <;> omega
  · rename_i hT
    simp only [hT, if_false, Bool.false_eq_true] at g0 g1 hsz0 hsz1
    apply at'_congr ng v _ _ nfB hc.nfB_range
    · simp only [if_true]
      rw [gN]
      cases hl : isLow nf <;> cases hr : reversed (o.get (normalAxis nf)) <;>
        simp only [hl, hr, if_true, if_false, Bool.false_eq_true] at hg hlow ⊢ <;> simp [hlow] <;> omega
    · rw [if_neg r4, if_pos rfl, g0]; split <;> omega
    · rw [if_neg r5, if_neg (Ne.symm r6), g1]; split <;> omega

end PG.Halo
