import Verif.Halo.Props
import Mathlib.Tactic.SplitIfs
import Mathlib.Tactic.ByContra
/-
C86: repeated exchanges.  `unifySolverGrid` (/repo/src/peregrinepy/grid/unifySolverGrid.py:9-11) repeats the exchange of the
node coordinates three times so that edges and corners of the halo are right as well.
-/
namespace PG.Halo
open PG.Topo
variable {α : Type}

/-- the rank and block with block number `n` (every rank holds a list of blocks, multiBlock/topology.py) -/
def owner (world : List (List Block)) (n : Nat) : Option (Nat × Block) :=
  (world.zipIdx.flatMap (fun mr => mr.1.map (fun b => (mr.2, b)))).find? (fun rb => rb.2.nblki == n)

/-- one collective `communicate` (communicate.py:12-83) of one variable on all ranks: the arrays of all blocks -/
def round (kind : Kind) (ng : Int) (world : List (List Block)) (data : Nat → Arr3 α) (n : Nat) : Arr3 α :=
  match owner world n with
  | some rb => communicate kind ng data world rb.1 rb.2
  | none => data n

/-- `for _ in range(k): communicate(mb, [...])` (unifySolverGrid.py:10-11) -/
def rounds (kind : Kind) (ng : Int) (world : List (List Block)) : Nat → (Nat → Arr3 α) → Nat → Arr3 α
  | 0, data => data
  | k + 1, data => round kind ng world (rounds kind ng world k data)

/-! ### specification -/

/-- a position of the array of a block, halos included -/
def InArr (kind : Kind) (ng : Nat) (d : Dims) (c : Nat → Int) : Prop :=
  ∀ i, i < 3 → -(ng : Int) ≤ c i ∧ c i ≤ last kind d i + ng

/-- `ext` assigns to every block and array position a value such that the two names of a place across a connection have
    the same value: a field on the glued grid -/
def FieldOnGluedGrid (kind : Kind) (ng : Nat) (world : List (List Block)) (ext : Nat → (Nat → Int) → α) : Prop :=
  ∀ r b, Owns world r b → ∀ f ∈ b.faces, ∀ nb, f.neighbor = some nb → ∀ r' b', Owns world r' b' → b'.nblki = nb →
    ∀ c c', InArr kind ng b.dims c → Behind kind f.nface ng b.dims c →
      Glued kind f.nface f.ori b.dims b'.dims c c' → ext b.nblki c = ext nb c'

/-- no connected face has `c` in its exchanged layers -/
def Unexchanged (kind : Kind) (ng : Nat) (b : Block) (c : Nat → Int) : Prop :=
  ∀ f ∈ b.faces, f.neighbor ≠ none → ¬ Behind kind f.nface ng b.dims c

/-- number of axes along which `c` is outside the block: 0 interior, 1 behind a face, 2 edge, 3 corner of the halo -/
def outAxes (kind : Kind) (d : Dims) (c : Nat → Int) : Nat :=
  (if 0 ≤ c 0 ∧ c 0 ≤ last kind d 0 then 0 else 1) + (if 0 ≤ c 1 ∧ c 1 ≤ last kind d 1 then 0 else 1)
    + (if 0 ≤ c 2 ∧ c 2 ≤ last kind d 2 then 0 else 1)

/-- every block has at least as many cells in every direction as there are halo layers -/
def Thick (ng : Nat) (world : List (List Block)) : Prop :=
  ∀ r b, Owns world r b → ∀ a, a < 3 → (ng : Int) ≤ last .node b.dims a

/-! ### one exchange, everywhere in the halo -/

/-- where `c` is seen from the block behind the face -/
def glue (kind : Kind) (nf : Nat) (o : Ori) (dA dB : Dims) (c : Nat → Int) : Nat → Int := fun p =>
  let val (i : Nat) : Int :=
    if i = normalAxis nf then
        (if isLow nf then (if reversed (o.get i) then -gap kind - c i else last kind dB p + gap kind + c i)
         else (if reversed (o.get i) then last kind dB p - (c i - last kind dA i - gap kind) else c i - last kind dA i - gap kind))
      else (if reversed (o.get i) then last kind dB p - c i else c i)
  if p = axisOf (o.get 0) then val 0 else if p = axisOf (o.get 1) then val 1 else val 2

theorem glued_glue (kind : Kind) (nf : Nat) (o : Ori) (ho : o.Legal) (dA dB : Dims) (c : Nat → Int) :
    Glued kind nf o dA dB c (glue kind nf o dA dB c) := by
  obtain ⟨_, _, _, h1, h2, h3⟩ := ho
  have e0 : o.get 0 = o.d0 := rfl
  have e1 : o.get 1 = o.d1 := rfl
  have e2 : o.get 2 = o.d2 := rfl
  intro i hi
  have : i = 0 ∨ i = 1 ∨ i = 2 := by omega
  rcases this with rfl | rfl | rfl
  · simp only [glue, if_true]
  · simp only [glue]; rw [if_neg (by rw [e0, e1]; exact fun h => h1 h.symm), if_pos trivial]
  · simp only [glue]
    rw [if_neg (by rw [e0, e2]; exact fun h => h2 h.symm), if_neg (by rw [e1, e2]; exact fun h => h3 h.symm)]

theorem exchange_last (kind : Kind) (ng : Nat) (hng : 0 < ng) (data : Nat → Arr3 α) (world : List (List Block))
    (hw : WellConnected world) (r : Nat) (b : Block) (hb : Owns world r b) (f : Face) (l1 l2 : List Face)
    (hl : b.faces = l1 ++ f :: l2) (nb : Nat) (hnb : f.neighbor = some nb) (r' : Nat) (b' : Block)
    (hb' : Owns world r' b') (hb'n : b'.nblki = nb) (c c' : Nat → Int) (hc : Behind kind f.nface ng b.dims c)
    (hpl : InArr kind ng b.dims c) (hlast : ∀ g ∈ l2, g.neighbor ≠ none → ¬ Behind kind g.nface ng b.dims c)
    (hg : Glued kind f.nface f.ori b.dims b'.dims c c') :
    at' ng (communicate kind ng data world r b) c = at' ng (data nb) c' := by
  have hf : f ∈ b.faces := by rw [hl]; simp
  obtain ⟨b2, f', fl, m, hb2, hb2k, hf', hsz, e1, e2, hconn, hrecv, hpay⟩ :=
    faceRecv_partner kind ng data world hw r b hb f hf nb hnb
  obtain ⟨_, rfl⟩ := hw.uniq _ _ _ _ hb2 hb' (hb2k.trans hb'n.symm)
  have hfr := hw.nface_range r b hb f hf
  have hpl' : inPlaneArray kind f.nface ng b.dims c := fun i hi _ => hpl i hi
  unfold communicate
  rw [hl, List.foldl_append, List.foldl_cons]
  rw [foldl_outside kind ng hng]
  · simp only [facePlace, hnb, hrecv]
    rw [place_inside kind _ f.nface hfr ng hng b.dims _ c hc hpl', hpay]
    refine recv_value kind hfr hconn ng hng b.dims b2.dims hsz (data nb) c c' hg ?_ hpl'
    unfold Behind at hc
    rw [← layersN_eq] at hc
    exact hc
  · intro g hg2
    exact hw.nface_range r b hb g (by rw [hl]; simp [hg2])
  · exact hlast

theorem exists_last {β : Type} (p : β → Prop) : ∀ l : List β, (∃ x ∈ l, p x) →
    ∃ l1 x l2, l = l1 ++ x :: l2 ∧ p x ∧ ∀ y ∈ l2, ¬ p y
  | [], h => by obtain ⟨x, hx, _⟩ := h; cases hx
  | a :: l, h => by
    by_cases hl : ∃ x ∈ l, p x
    · obtain ⟨l1, x, l2, e, hx, hy⟩ := exists_last p l hl
      exact ⟨a :: l1, x, l2, by rw [e]; rfl, hx, hy⟩
    · obtain ⟨x, hx, px⟩ := h
      rcases List.mem_cons.1 hx with rfl | hx
      · exact ⟨[], x, l, rfl, px, fun y hy py => hl ⟨y, hy, py⟩⟩
      · exact absurd ⟨x, hx, px⟩ hl

/-- C86 (one exchange): everywhere in the array, edges and corners included, `communicate` either leaves the value alone
    (no connected face behind which the position lies) or replaces it by the value which the neighbour behind one such
    face had before the exchange at the same place (the last such face in the order of the block's face list). -/
theorem C86_one_exchange (kind : Kind) (ng : Nat) (hng : 0 < ng) (data : Nat → Arr3 α) (world : List (List Block))
    (hw : WellConnected world) (r : Nat) (b : Block) (hb : Owns world r b) (c : Nat → Int)
    (hpl : InArr kind ng b.dims c) :
    (Unexchanged kind ng b c → at' ng (communicate kind ng data world r b) c = at' ng (data b.nblki) c) ∧
    (¬ Unexchanged kind ng b c → ∃ l1 f l2 nb r' b' c', b.faces = l1 ++ f :: l2 ∧ f.neighbor = some nb ∧
      Behind kind f.nface ng b.dims c ∧ (∀ g ∈ l2, g.neighbor ≠ none → ¬ Behind kind g.nface ng b.dims c) ∧
      Owns world r' b' ∧ b'.nblki = nb ∧ SizesMatch f.nface f.ori b.dims b'.dims ∧ f.ori.Legal ∧
      Glued kind f.nface f.ori b.dims b'.dims c c' ∧
      at' ng (communicate kind ng data world r b) c = at' ng (data nb) c') := by
  refine ⟨fun h => foldl_outside kind ng hng _ r b b.faces (hw.nface_range r b hb) c h _, fun h => ?_⟩
  have h' : ∃ f ∈ b.faces, f.neighbor ≠ none ∧ Behind kind f.nface ng b.dims c := by
    by_contra hcon
    exact h (fun f hf hn hB => hcon ⟨f, hf, hn, hB⟩)
  obtain ⟨l1, f, l2, hl, ⟨hn, hB⟩, hlast⟩ := exists_last _ _ h'
  obtain ⟨nb, hnb⟩ := Option.ne_none_iff_exists'.1 hn
  have hf : f ∈ b.faces := by rw [hl]; simp
  obtain ⟨hleg, b', hb', hb'n, hsz, -⟩ := hw.conn r b hb f hf nb hnb
  have hl2 : ∀ g ∈ l2, g.neighbor ≠ none → ¬ Behind kind g.nface ng b.dims c :=
    fun g hg h1 h2 => hlast g hg ⟨h1, h2⟩
  have hg := glued_glue kind f.nface f.ori hleg b.dims b'.dims c
  exact ⟨l1, f, l2, nb, _, b', _, hl, hnb, hB, hl2, hb', hb'n, hsz, hleg, hg,
    exchange_last kind ng hng data world hw r b hb f l1 l2 hl nb hnb _ b' hb' hb'n c _ hB hpl hl2 hg⟩

/-! ### repetition -/

theorem owner_eq (world : List (List Block)) (hw : WellConnected world) (r : Nat) (b : Block) (hb : Owns world r b) :
    owner world b.nblki = some (r, b) := by
  have hmem : ∀ rb : Nat × Block, rb ∈ world.zipIdx.flatMap (fun mr => mr.1.map (fun b => (mr.2, b))) ↔
      Owns world rb.1 rb.2 := by
    rintro ⟨r, b⟩
    unfold Owns
    simp only [List.mem_flatMap, List.mem_map, Prod.exists, List.mem_zipIdx_iff_getElem?, Prod.mk.injEq]
    constructor
    · rintro ⟨mb, r', h1, b', h2, rfl, rfl⟩; exact ⟨mb, h1, h2⟩
    · rintro ⟨mb, h1, h2⟩; exact ⟨mb, r, h1, b, h2, rfl, rfl⟩
  unfold owner
  cases h : (world.zipIdx.flatMap (fun mr => mr.1.map (fun b => (mr.2, b)))).find? (fun rb => rb.2.nblki == b.nblki) with
  | none =>
    rw [List.find?_eq_none] at h
    exact absurd (by simp) (h (r, b) ((hmem _).2 hb))
  | some rb =>
    have h1 := (hmem rb).1 (List.mem_of_find?_eq_some h)
    have h2 := List.find?_some h
    simp only [beq_iff_eq] at h2
    obtain ⟨e1, e2⟩ := hw.uniq _ _ _ _ h1 hb h2
    congr 1
    exact Prod.ext e1 e2

theorem round_eq (kind : Kind) (ng : Int) (world : List (List Block)) (hw : WellConnected world) (data : Nat → Arr3 α)
    (r : Nat) (b : Block) (hb : Owns world r b) :
    round kind ng world data b.nblki = communicate kind ng data world r b := by
  unfold round; rw [owner_eq world hw r b hb]

/-- 1 if `x` is outside `0..l` -/
def outOne (x l : Int) : Nat := if 0 ≤ x ∧ x ≤ l then 0 else 1

theorem outAxes_eq (kind : Kind) (d : Dims) (c : Nat → Int) :
    outAxes kind d c = outOne (c 0) (last kind d 0) + outOne (c 1) (last kind d 1) + outOne (c 2) (last kind d 2) := rfl

theorem outOne_in {x l : Int} (h : 0 ≤ x ∧ x ≤ l) : outOne x l = 0 := if_pos h
theorem outOne_out {x l : Int} (h : ¬ (0 ≤ x ∧ x ≤ l)) : outOne x l = 1 := if_neg h
theorem outOne_flip (x l : Int) : outOne (l - x) l = outOne x l := by
  unfold outOne; split_ifs <;> omega

theorem glue_axis (kind : Kind) (ng : Nat) (nf : Nat) (o : Ori)
    (dA dB : Dims) (hs : SizesMatch nf o dA dB) (hB : ∀ a, a < 3 → (ng : Int) ≤ last .node dB a) (hng : 0 < ng)
    (c c' : Nat → Int) (hA : 0 ≤ last kind dA (normalAxis nf))
    (hc : Behind kind nf ng dA c) (ha : InArr kind ng dA c) (hg : Glued kind nf o dA dB c c') (i : Nat) (hi : i < 3) :
    outOne (c' (axisOf (o.get i))) (last kind dB (axisOf (o.get i))) + (if i = normalAxis nf then 1 else 0)
        = outOne (c i) (last kind dA i) ∧
      (-(ng : Int) ≤ c' (axisOf (o.get i)) ∧ c' (axisOf (o.get i)) ≤ last kind dB (axisOf (o.get i)) + ng) := by
  have hlay : layers kind ng ≤ ng := by cases kind <;> simp [layers] <;> omega
  have hgap : gap kind = 0 ∨ gap kind = 1 := by cases kind <;> simp [gap]
  have g := hg i hi
  dsimp only at g
  have hai := ha i hi
  have lt3 : axisOf (o.get i) < 3 := Nat.mod_lt _ (by omega)
  have hb := hB _ lt3
  have hlB := last_gap kind dB (axisOf (o.get i))
  by_cases hin : i = normalAxis nf
  · rw [if_pos hin] at g
    unfold Behind depthBehind at hc
    rw [← hin] at hc hA
    rw [if_pos hin]
    clear hg ha hs hB hin
    generalize c' (axisOf (o.get i)) = x at *
    generalize last kind dB (axisOf (o.get i)) = lB at *
    generalize last .node dB (axisOf (o.get i)) = lN at *
    generalize last kind dA i = lA at *
    generalize c i = y at *
    generalize layers kind ng = ly at *
    generalize gap kind = gp at *
    cases hl : isLow nf <;> cases hr : reversed (o.get i) <;> simp only [hl, hr, if_true, if_false, Bool.false_eq_true] at g hc <;>
      (rw [outOne_in (by omega), outOne_out (by omega)]; omega)
  · rw [if_neg hin] at g
    have hsi := hs i hi hin
    have hlA := last_gap kind dA i
    have e : last kind dB (axisOf (o.get i)) = last kind dA i := by omega
    rw [if_neg hin, e, Nat.add_zero]
    cases hr : reversed (o.get i) <;> simp only [hr, if_true, if_false, Bool.false_eq_true] at g <;> rw [g]
    · exact ⟨rfl, hai⟩
    · rw [e, outOne_flip]; exact ⟨rfl, by omega⟩

/-- crossing a connection makes the position interior along one more axis, and stays in the array -/
theorem glue_out (kind : Kind) (ng : Nat) (nf : Nat) (hn : 1 ≤ nf ∧ nf ≤ 6) (o : Ori) (ho : o.Legal)
    (dA dB : Dims) (hs : SizesMatch nf o dA dB) (hB : ∀ a, a < 3 → (ng : Int) ≤ last .node dB a) (hng : 0 < ng)
    (c c' : Nat → Int) (hA : 0 ≤ last kind dA (normalAxis nf))
    (hc : Behind kind nf ng dA c) (ha : InArr kind ng dA c) (hg : Glued kind nf o dA dB c c') :
    outAxes kind dB c' + 1 = outAxes kind dA c ∧ InArr kind ng dB c' := by
  have hcx := glue_axis kind ng nf o dA dB hs hB hng c c' hA hc ha hg
  obtain ⟨-, -, -, h1, h2, h3⟩ := ho
  have hN : normalAxis nf < 3 := (axes_distinct nf hn).1
  have e0 := hcx 0 (by omega)
  have e1 := hcx 1 (by omega)
  have e2 := hcx 2 (by omega)
  have g0 : o.get 0 = o.d0 := rfl
  have g1 : o.get 1 = o.d1 := rfl
  have g2 : o.get 2 = o.d2 := rfl
  rw [g0] at e0; rw [g1] at e1; rw [g2] at e2
  have lt0 : axisOf o.d0 < 3 := Nat.mod_lt _ (by omega)
  have lt1 : axisOf o.d1 < 3 := Nat.mod_lt _ (by omega)
  have lt2 : axisOf o.d2 < 3 := Nat.mod_lt _ (by omega)
  clear hcx hs hB hA hc ha hg g0 g1 g2
  generalize axisOf o.d0 = p0 at *
  generalize axisOf o.d1 = p1 at *
  generalize axisOf o.d2 = p2 at *
  have one : (if 0 = normalAxis nf then 1 else 0 : Nat) + (if 1 = normalAxis nf then 1 else 0)
      + (if 2 = normalAxis nf then 1 else 0) = 1 := by split_ifs <;> omega
  have hp : (p0 = 0 ∧ p1 = 1 ∧ p2 = 2) ∨ (p0 = 0 ∧ p1 = 2 ∧ p2 = 1) ∨ (p0 = 1 ∧ p1 = 0 ∧ p2 = 2) ∨
      (p0 = 1 ∧ p1 = 2 ∧ p2 = 0) ∨ (p0 = 2 ∧ p1 = 0 ∧ p2 = 1) ∨ (p0 = 2 ∧ p1 = 1 ∧ p2 = 0) := by omega
  rw [outAxes_eq, outAxes_eq]
  unfold InArr
  obtain ⟨s0, t0⟩ := e0
  obtain ⟨s1, t1⟩ := e1
  obtain ⟨s2, t2⟩ := e2
  generalize (if 0 = normalAxis nf then 1 else 0 : Nat) = w0 at *
  generalize (if 1 = normalAxis nf then 1 else 0 : Nat) = w1 at *
  generalize (if 2 = normalAxis nf then 1 else 0 : Nat) = w2 at *
  generalize outOne (c 0) _ = v0 at *
  generalize outOne (c 1) _ = v1 at *
  generalize outOne (c 2) _ = v2 at *
  refine ⟨?_, fun i hi => ?_⟩
  · clear t0 t1 t2
    rcases hp with ⟨rfl, rfl, rfl⟩ | ⟨rfl, rfl, rfl⟩ | ⟨rfl, rfl, rfl⟩ | ⟨rfl, rfl, rfl⟩ | ⟨rfl, rfl, rfl⟩ | ⟨rfl, rfl, rfl⟩ <;>
      omega
  · clear s0 s1 s2
    have : i = 0 ∨ i = 1 ∨ i = 2 := by omega
    rcases hp with ⟨rfl, rfl, rfl⟩ | ⟨rfl, rfl, rfl⟩ | ⟨rfl, rfl, rfl⟩ | ⟨rfl, rfl, rfl⟩ | ⟨rfl, rfl, rfl⟩ | ⟨rfl, rfl, rfl⟩ <;>
      rcases this with rfl | rfl | rfl <;> assumption

theorem outAxes_le (kind : Kind) (d : Dims) (c : Nat → Int) : outAxes kind d c ≤ 3 := by
  unfold outAxes; split_ifs <;> omega

theorem outAxes_zero {kind : Kind} {d : Dims} {c : Nat → Int} (h : outAxes kind d c = 0) : Interior kind d c := by
  unfold outAxes at h
  intro i hi
  have : i = 0 ∨ i = 1 ∨ i = 2 := by omega
  rcases this with rfl | rfl | rfl <;> (by_contra hc; rw [if_neg hc] at h; omega)

theorem last_nonneg (kind : Kind) (d : Dims) (h : 2 ≤ d.ni ∧ 2 ≤ d.nj ∧ 2 ≤ d.nk) (a : Nat) : 0 ≤ last kind d a := by
  unfold last; cases kind <;> dsimp only <;> split <;> omega

theorem interior_unexchanged {kind : Kind} {ng : Nat} {world : List (List Block)} (hw : WellConnected world) {r : Nat}
    {b : Block} (hb : Owns world r b) {c : Nat → Int} (h : Interior kind b.dims c) : Unexchanged kind ng b c := by
  intro f hf _ hB
  have := h (normalAxis f.nface) (axes_distinct f.nface (hw.nface_range r b hb f hf)).1
  unfold Behind depthBehind at hB
  cases h2 : isLow f.nface <;> simp [h2] at hB <;> omega

theorem rounds_unexchanged (kind : Kind) (ng : Nat) (hng : 0 < ng) (world : List (List Block)) (hw : WellConnected world)
    (data : Nat → Arr3 α) (r : Nat) (b : Block) (hb : Owns world r b) (c : Nat → Int) (h : Unexchanged kind ng b c)
    (k : Nat) : at' ng (rounds kind ng world k data b.nblki) c = at' ng (data b.nblki) c := by
  induction k with
  | zero => rfl
  | succ k ih =>
    rw [rounds, round_eq kind ng world hw _ r b hb, ← ih]
    exact foldl_outside kind ng hng _ r b b.faces (hw.nface_range r b hb) c h _

/-- C86: let the arrays hold a field of the glued grid at every position that no connected face fills (interior, and
    halos of physical boundaries). After `k` exchanges every position that is outside its block along at most `k` axes
    holds the field; so after three exchanges all of the array does: faces, edges and corners of the halo, in any
    decomposition, orientation and depth, provided no block has fewer cells across than there are halo layers. -/
theorem C86_field (kind : Kind) (ng : Nat) (hng : 0 < ng) (world : List (List Block)) (hw : WellConnected world)
    (ht : Thick ng world) (data : Nat → Arr3 α) (ext : Nat → (Nat → Int) → α) (he : FieldOnGluedGrid kind ng world ext)
    (h0 : ∀ r b, Owns world r b → ∀ c, InArr kind ng b.dims c → Unexchanged kind ng b c →
      at' ng (data b.nblki) c = ext b.nblki c) :
    (∀ k r b, Owns world r b → ∀ c, InArr kind ng b.dims c → outAxes kind b.dims c ≤ k →
      at' ng (rounds kind ng world k data b.nblki) c = ext b.nblki c) ∧
    (∀ k, 3 ≤ k → ∀ r b, Owns world r b → ∀ c, InArr kind ng b.dims c →
      at' ng (rounds kind ng world k data b.nblki) c = ext b.nblki c) := by
  have key : ∀ k r b, Owns world r b → ∀ c, InArr kind ng b.dims c → outAxes kind b.dims c ≤ k →
      at' ng (rounds kind ng world k data b.nblki) c = ext b.nblki c := by
    intro k
    induction k with
    | zero =>
      intro r b hb c hc ho
      exact h0 r b hb c hc (interior_unexchanged hw hb (outAxes_zero (by omega)))
    | succ k ih =>
      intro r b hb c hc ho
      by_cases hu : Unexchanged kind ng b c
      · rw [rounds_unexchanged kind ng hng world hw data r b hb c hu]
        exact h0 r b hb c hc hu
      · rw [rounds, round_eq kind ng world hw _ r b hb]
        obtain ⟨l1, f, l2, nb, r', b', c', hl, hnb, hB, hlast, hb', hb'n, hsz, hleg, hg, hv⟩ :=
          (C86_one_exchange kind ng hng (rounds kind ng world k data) world hw r b hb c hc).2 hu
        have hf : f ∈ b.faces := by rw [hl]; simp
        obtain ⟨o1, o2⟩ := glue_out kind ng f.nface (hw.nface_range r b hb f hf) f.ori hleg b.dims b'.dims hsz (ht r' b' hb')
          hng c c' (last_nonneg kind b.dims (hw.cells r b hb) _) hB hc hg
        rw [hv, he r b hb f hf nb hnb r' b' hb' hb'n c c' hc hB hg, ← hb'n]
        exact ih r' b' hb' c' o2 (by omega)
  refine ⟨key, fun k hk r b hb c hc => key k r b hb c hc ?_⟩
  have := outAxes_le kind b.dims c
  omega

/-- C86 (no more needed): after three exchanges further ones change nothing anywhere in any array. -/
theorem C86_three_suffice (kind : Kind) (ng : Nat) (hng : 0 < ng) (world : List (List Block)) (hw : WellConnected world)
    (ht : Thick ng world) (data : Nat → Arr3 α) (k : Nat) (hk : 3 ≤ k) (r : Nat) (b : Block) (hb : Owns world r b)
    (c : Nat → Int) (hc : InArr kind ng b.dims c) :
    at' ng (rounds kind ng world k data b.nblki) c = at' ng (rounds kind ng world 3 data b.nblki) c := by
  -- after `j` exchanges, positions outside along at most `j` axes are settled
  have key : ∀ j k, j ≤ k → ∀ r b, Owns world r b → ∀ c, InArr kind ng b.dims c → outAxes kind b.dims c ≤ j →
      at' ng (rounds kind ng world k data b.nblki) c = at' ng (rounds kind ng world j data b.nblki) c := by
    intro j
    induction j with
    | zero =>
      intro k _ r b hb c _ ho
      exact rounds_unexchanged kind ng hng world hw data r b hb c (interior_unexchanged hw hb (outAxes_zero (by omega))) k
    | succ j ih =>
      intro k hk r b hb c hc ho
      obtain ⟨k, rfl⟩ : ∃ m, k = m + 1 := ⟨k - 1, by omega⟩
      by_cases hu : Unexchanged kind ng b c
      · rw [rounds_unexchanged kind ng hng world hw data r b hb c hu, rounds_unexchanged kind ng hng world hw data r b hb c hu]
      · rw [rounds, rounds, round_eq kind ng world hw _ r b hb, round_eq kind ng world hw _ r b hb]
        obtain ⟨l1, f, l2, nb, r', b', c', hl, hnb, hB, hlast, hb', hb'n, hsz, hleg, hg, hv⟩ :=
          (C86_one_exchange kind ng hng (rounds kind ng world k data) world hw r b hb c hc).2 hu
        have hf : f ∈ b.faces := by rw [hl]; simp
        obtain ⟨o1, o2⟩ := glue_out kind ng f.nface (hw.nface_range r b hb f hf) f.ori hleg b.dims b'.dims hsz (ht r' b' hb')
          hng c c' (last_nonneg kind b.dims (hw.cells r b hb) _) hB hc hg
        rw [hv, exchange_last kind ng hng _ world hw r b hb f l1 l2 hl nb hnb r' b' hb' hb'n c c' hB hc hlast hg, ← hb'n]
        exact ih k (by omega) r' b' hb' c' o2 (by omega)
  exact key 3 k hk r b hb c hc (outAxes_le _ _ _)

end PG.Halo
