import Verif.Halo.Pair
/-! Helper lemmas: message matching and placement in a whole decomposed grid. -/
namespace PG.Halo
open PG.Topo
variable {α : Type}

theorem tag_inj (a b n m : Nat) (hn : 1 ≤ n ∧ n ≤ 6) (hm : 1 ≤ m ∧ m ≤ 6) (h : a * 6 + n = b * 6 + m) :
    a = b ∧ n = m := by omega

theorem mem_allSends (kind : Kind) (ng : Int) (data : Nat → Arr3 α) (world : List (List Block)) (m : Msg α) :
    m ∈ allSends kind ng data world ↔
      ∃ r b, Owns world r b ∧ ∃ f ∈ b.faces, faceSend kind ng data r b f = some m := by
  unfold allSends Owns
  simp only [List.mem_flatMap, List.mem_filterMap, Prod.exists, List.mem_zipIdx_iff_getElem?]
  constructor
  · rintro ⟨mb, r, h1, b, h2, f, h3, h4⟩
    exact ⟨r, b, ⟨mb, h1, h2⟩, f, h3, h4⟩
  · rintro ⟨r, b, ⟨mb, h1, h2⟩, f, h3, h4⟩
    exact ⟨mb, r, h1, b, h2, f, h3, h4⟩

theorem face_eq_of_nface {l : List Face} (h : l.Pairwise (fun f g => f.nface ≠ g.nface)) {f g : Face}
    (hf : f ∈ l) (hg : g ∈ l) (e : f.nface = g.nface) : f = g := by
  induction l with
  | nil => cases hf
  | cons a l ih =>
    rw [List.pairwise_cons] at h
    rcases List.mem_cons.1 hf with rfl | hf'
    · rcases List.mem_cons.1 hg with rfl | hg'
      · rfl
      · exact absurd e (h.1 g hg')
    · rcases List.mem_cons.1 hg with rfl | hg'
      · exact absurd e.symm (h.1 f hf')
      · exact ih h.2 hf' hg'

/-- Under reciprocal connections the posted receive of a face is matched, and by the partner face's message. -/
theorem faceRecv_partner (kind : Kind) (ng : Int) (data : Nat → Arr3 α) (world : List (List Block))
    (hw : WellConnected world) (r : Nat) (b : Block) (hb : Owns world r b) (f : Face) (hf : f ∈ b.faces)
    (nb : Nat) (hnb : f.neighbor = some nb) :
    ∃ b' f' fl m, Owns world f.commRank b' ∧ b'.nblki = nb ∧ f' ∈ b'.faces ∧
      SizesMatch f.nface f.ori b.dims b'.dims ∧
      neighborNface f.nface f.ori = some f'.nface ∧ neighborOrientation f.ori = some f'.ori ∧
      Conn f.nface f.ori f'.nface f'.ori fl ∧
      faceRecv (allSends kind ng data world) r b f = some m ∧
      m.payload = sendBuffer kind (data nb) f'.nface f'.ori ng b'.dims fl := by
  obtain ⟨hleg, b', hb', hnbk, hsz, f', hf', hf'n, e1, e2⟩ := hw.conn r b hb f hf nb hnb
  have hfr := hw.nface_range r b hb f hf
  obtain ⟨fl, hfl, hc⟩ := conn_of f.nface hfr f.ori hleg f'.nface f'.ori e1 e2
  -- the partner's message
  obtain ⟨hleg', b2, hb2, hb2k, _, _, _, _, _, _⟩ := hw.conn f.commRank b' hb' f' hf' b.nblki hf'n
  have hcr : f'.commRank = r := (hw.uniq _ _ _ _ hb2 hb hb2k).1
  let m0 : Msg α := ⟨f.commRank, f'.commRank, tagS b.nblki f.nface,
    sendBuffer kind (data b'.nblki) f'.nface f'.ori ng b'.dims fl⟩
  have hm0 : faceSend kind ng data f.commRank b' f' = some m0 := by
    simp [faceSend, hf'n, hc.back_nf, hfl, m0]
  have hmem : m0 ∈ allSends kind ng data world := (mem_allSends _ _ _ _ _).2 ⟨_, _, hb', f', hf', hm0⟩
  -- any matching message is the partner's
  have hall : ∀ m ∈ allSends kind ng data world,
      (m.src == f.commRank && m.dst == r && m.tag == tagR b.nblki f.nface) = true → m = m0 := by
    intro m hm hp
    obtain ⟨r3, b3, hb3, f3, hf3, hs3⟩ := (mem_allSends _ _ _ _ _).1 hm
    simp only [Bool.and_eq_true, beq_iff_eq] at hp
    obtain ⟨⟨p1, p2⟩, p3⟩ := hp
    have hf3r := hw.nface_range r3 b3 hb3 f3 hf3
    cases hn3 : f3.neighbor with
    | none => simp [faceSend, hn3] at hs3
    | some nb3 =>
      obtain ⟨hleg3, b4, hb4, hb4k, hsz4, f4, hf4, hf4n, u1, u2⟩ := hw.conn r3 b3 hb3 f3 hf3 nb3 hn3
      have hf4r := hw.nface_range _ b4 hb4 f4 hf4
      have hs3' := hs3
      simp only [faceSend, hn3, u1, bind, Option.bind] at hs3'
      cases hfl3 : orientFlags f3.nface f3.ori with
      | none => rw [hfl3] at hs3'; cases hs3'
      | some fl3 =>
        rw [hfl3] at hs3'
        have hs4 := Option.some.inj hs3'
        have htag : tagS nb3 f4.nface = tagR b.nblki f.nface := by rw [← p3, ← hs4]
        obtain ⟨t1, t2⟩ := tag_inj nb3 b.nblki f4.nface f.nface hf4r hfr htag
        -- b4 = b, f4 = f
        obtain ⟨_, rfl⟩ := hw.uniq _ _ _ _ hb4 hb (hb4k.trans t1)
        obtain rfl := face_eq_of_nface (hw.nface_distinct _ _ hb) hf4 hf t2
        rw [hnb] at hf4n
        have hk : nb = b3.nblki := Option.some.inj hf4n
        obtain ⟨hr3, rfl⟩ := hw.uniq _ _ _ _ hb3 hb' (hk.symm.trans hnbk.symm)
        -- f3 = f'
        have hback : neighborNface f4.nface f4.ori = some f3.nface := by
          obtain ⟨fl3', _, hc3⟩ := conn_of f3.nface hf3r f3.ori hleg3 f4.nface f4.ori u1 u2
          exact hc3.back_nf
        have : f3.nface = f'.nface := by rw [e1] at hback; exact (Option.some.inj hback).symm
        obtain rfl := face_eq_of_nface (hw.nface_distinct _ _ hb') hf3 hf' this
        rw [← hs4]
        simp only [m0]
        rw [hfl] at hfl3
        rw [hr3, Option.some.inj hfl3, t1]
  have hfind : faceRecv (allSends kind ng data world) r b f = some m0 := by
    unfold faceRecv
    cases hfd : (allSends kind ng data world).find?
        (fun m => m.src == f.commRank && m.dst == r && m.tag == tagR b.nblki f.nface) with
    | none =>
      rw [List.find?_eq_none] at hfd
      exact absurd (by simp [m0, hcr, tagS, tagR]) (hfd m0 hmem)
    | some m =>
      have hp := List.find?_some (p := fun m : Msg α => m.src == f.commRank && m.dst == r && m.tag == tagR b.nblki f.nface) hfd
      rw [hall m (List.mem_of_find?_eq_some hfd) hp]
  exact ⟨b', f', fl, m0, hb', hnbk, hf', hsz, e1, e2, hc, hfind, by simp only [m0, hnbk]⟩

/-! ### placement -/

theorem nrm_at (nf : Nat) (hn : 1 ≤ nf ∧ nf ≤ 6) (c : Nat → Int) (ng : Int) :
    nrm nf (c 0 + ng) (c 1 + ng) (c 2 + ng) = c (normalAxis nf) + ng ∧
    tan0 nf (c 0 + ng) (c 1 + ng) (c 2 + ng) = c (pl0 nf) + ng ∧
    tan1 nf (c 0 + ng) (c 1 + ng) (c 2 + ng) = c (pl1 nf) + ng := by
  have : nf = 1 ∨ nf = 2 ∨ nf = 3 ∨ nf = 4 ∨ nf = 5 ∨ nf = 6 := by omega
  rcases this with rfl|rfl|rfl|rfl|rfl|rfl <;> simp [nrm, tan0, tan1, normalAxis, pl0, pl1]

theorem layersN_le (kind : Kind) (ng : Nat) (hng : 0 < ng) : layersN kind ng ≤ ng := by
  cases kind <;> simp [layersN] <;> omega

theorem layersN_eq (kind : Kind) (ng : Nat) : (layersN kind ng : Int) = layers kind ng := by
  cases kind <;> rfl

/-- Placing at a face leaves positions not behind that face alone. -/
theorem place_outside (kind : Kind) (v : Arr3 α) (nf : Nat) (hn : 1 ≤ nf ∧ nf ≤ 6) (ng : Nat) (hng : 0 < ng) (d : Dims)
    (buf : Buf α) (c : Nat → Int)
    (h : ¬ Behind kind nf ng d c) :
    at' ng (placeRecvBuffer v nf (recvSlices kind nf ng (d.normal nf)) buf) c = at' ng v c := by
  unfold at'
  rw [recvSlices_ap kind nf ng hng, place_ap]
  obtain ⟨n1, n2, n3⟩ := nrm_at nf hn c ng
  rw [n1, n2, n3, recvStart_last kind d nf hn]
  rw [if_neg]
  rintro ⟨⟨p1, p2⟩, _⟩
  apply h
  unfold Behind depthBehind
  rw [← layersN_eq]
  have := layersN_le kind ng hng
  cases hl : isLow nf <;> simp only [hl, if_true, if_false, Bool.false_eq_true] at p1 p2 ⊢ <;> omega

/-- Placing at a face fills positions behind the face with the buffer. -/
theorem place_inside (kind : Kind) (v : Arr3 α) (nf : Nat) (hn : 1 ≤ nf ∧ nf ≤ 6) (ng : Nat) (hng : 0 < ng) (d : Dims)
    (msg : Buf α) (c : Nat → Int) (h : Behind kind nf ng d c) (hpl : inPlaneArray kind nf ng d c) :
    at' ng (placeRecvBuffer v nf (recvSlices kind nf ng (d.normal nf)) (recvBuffer kind nf ng d msg)) c =
      (recvBuffer kind nf ng d msg).get
        (c (normalAxis nf) + ng - recvStart kind (isSmall nf) ng (d.normal nf)) (c (pl0 nf) + ng) (c (pl1 nf) + ng) := by
  unfold at'
  rw [recvSlices_ap kind nf ng hng, place_ap]
  obtain ⟨n1, n2, n3⟩ := nrm_at nf hn c ng
  obtain ⟨q1, q2, q3, q4, q5, q6⟩ := axes_distinct nf hn
  have hp0 := hpl (pl0 nf) q2 q4
  have hp1 := hpl (pl1 nf) q3 q5
  rw [n1, n2, n3, if_pos]
  refine ⟨?_, ?_⟩
  · rw [recvStart_last kind d nf hn]
    unfold Behind depthBehind at h
    rw [← layersN_eq] at h
    cases hl : isLow nf <;> simp only [hl, if_true, if_false, Bool.false_eq_true] at h ⊢ <;> omega
  · simp only [recvBuffer, faceShape_last kind d nf hn]
    omega

theorem facePlace_outside (kind : Kind) (ng : Nat) (hng : 0 < ng) (msgs : List (Msg α)) (r : Nat) (b : Block)
    (v : Arr3 α) (f : Face) (hn : 1 ≤ f.nface ∧ f.nface ≤ 6) (c : Nat → Int)
    (h : f.neighbor ≠ none → ¬ Behind kind f.nface ng b.dims c) :
    at' ng (facePlace kind ng msgs r b v f) c = at' ng v c := by
  unfold facePlace
  cases hnb : f.neighbor with
  | none => rfl
  | some nb =>
    cases faceRecv msgs r b f with
    | none => rfl
    | some m => exact place_outside kind v f.nface hn ng hng b.dims _ c (h (by simp [hnb]))

theorem foldl_outside (kind : Kind) (ng : Nat) (hng : 0 < ng) (msgs : List (Msg α)) (r : Nat) (b : Block)
    (l : List Face) (hr : ∀ f ∈ l, 1 ≤ f.nface ∧ f.nface ≤ 6) (c : Nat → Int)
    (h : ∀ f ∈ l, f.neighbor ≠ none → ¬ Behind kind f.nface ng b.dims c) (v : Arr3 α) :
    at' ng (l.foldl (facePlace kind ng msgs r b) v) c = at' ng v c := by
  induction l generalizing v with
  | nil => rfl
  | cons f l ih =>
    rw [List.foldl_cons, ih (fun g hg => hr g (List.mem_cons_of_mem _ hg)) (fun g hg => h g (List.mem_cons_of_mem _ hg))]
    exact facePlace_outside kind ng hng msgs r b v f (hr f (by simp)) c (h f (by simp))

/-- A position behind one face and in-plane interior is not behind any other face. -/
theorem behind_unique (kind : Kind) (ng : Nat) (_hng : 0 < ng) (d : Dims) (hd : 2 ≤ d.ni ∧ 2 ≤ d.nj ∧ 2 ≤ d.nk)
    (nf nf2 : Nat) (hn : 1 ≤ nf ∧ nf ≤ 6) (hn2 : 1 ≤ nf2 ∧ nf2 ≤ 6) (hne : nf2 ≠ nf) (c : Nat → Int)
    (hb : Behind kind nf ng d c) (hpl : inPlaneInterior kind nf d c) : ¬ Behind kind nf2 ng d c := by
  intro hb2
  by_cases hax : normalAxis nf2 = normalAxis nf
  · have hlow : isLow nf2 ≠ isLow nf := by
      have e1 : nf = 1 ∨ nf = 2 ∨ nf = 3 ∨ nf = 4 ∨ nf = 5 ∨ nf = 6 := by omega
      have e2 : nf2 = 1 ∨ nf2 = 2 ∨ nf2 = 3 ∨ nf2 = 4 ∨ nf2 = 5 ∨ nf2 = 6 := by omega
      rcases e1 with rfl|rfl|rfl|rfl|rfl|rfl <;> rcases e2 with rfl|rfl|rfl|rfl|rfl|rfl <;>
        first | (exact absurd rfl hne) | (exact absurd hax (by decide)) | decide
    have hl : 0 ≤ last kind d (normalAxis nf) := by
      unfold last; obtain ⟨h1, h2, h3⟩ := hd
      cases kind <;> dsimp only <;> split <;> omega
    unfold Behind depthBehind at hb hb2
    rw [hax] at hb2
    cases h1 : isLow nf <;> cases h2 : isLow nf2 <;> simp [h1, h2] at hlow hb hb2 <;> omega
  · have := hpl (normalAxis nf2) (axes_distinct nf2 hn2).1 hax
    unfold Behind depthBehind at hb2
    cases h2 : isLow nf2 <;> simp [h2] at hb2 <;> omega

end PG.Halo
