import Verif.Whole.Main
import Verif.Dual.Dtau
/-!
C91: a block of 4 x 4 x 2 cells, periodic in the first direction, cut into four boxes on two ranks; and the two ways in which
the code does depend on the decomposition.
-/
noncomputable section
namespace PG.Whole
open PG.Topo PG.Halo PG.Time

def o123 : Ori := ⟨1, 2, 3⟩
def exP : Block := ⟨7, ⟨5, 5, 3⟩, [⟨1, some 7, o123, 0⟩, ⟨2, some 7, o123, 0⟩, ⟨3, none, o123, 0⟩, ⟨4, none, o123, 0⟩,
  ⟨5, none, o123, 0⟩, ⟨6, none, o123, 0⟩]⟩
def exW : List (List Block) := [[exP]]
def ex0 : Block := ⟨0, ⟨3, 3, 3⟩, [⟨1, some 1, o123, 0⟩, ⟨2, some 1, o123, 0⟩, ⟨3, none, o123, 0⟩, ⟨4, some 2, o123, 1⟩,
  ⟨5, none, o123, 0⟩, ⟨6, none, o123, 0⟩]⟩
def ex1 : Block := ⟨1, ⟨3, 3, 3⟩, [⟨1, some 0, o123, 0⟩, ⟨2, some 0, o123, 0⟩, ⟨3, none, o123, 0⟩, ⟨4, some 3, o123, 1⟩,
  ⟨5, none, o123, 0⟩, ⟨6, none, o123, 0⟩]⟩
def ex2 : Block := ⟨2, ⟨3, 3, 3⟩, [⟨1, some 3, o123, 1⟩, ⟨2, some 3, o123, 1⟩, ⟨3, some 0, o123, 0⟩, ⟨4, none, o123, 0⟩,
  ⟨5, none, o123, 0⟩, ⟨6, none, o123, 0⟩]⟩
def ex3 : Block := ⟨3, ⟨3, 3, 3⟩, [⟨1, some 2, o123, 1⟩, ⟨2, some 2, o123, 1⟩, ⟨3, some 1, o123, 0⟩, ⟨4, none, o123, 0⟩,
  ⟨5, none, o123, 0⟩, ⟨6, none, o123, 0⟩]⟩
def exW' : List (List Block) := [[ex0, ex1], [ex2, ex3]]
def exOff (n : Nat) : Pos := fun a => if a = 0 then (if n = 1 ∨ n = 3 then 2 else 0) else if a = 1 then (if n = 2 ∨ n = 3 then 2 else 0) else 0

theorem ownsP (r : Nat) (b : Block) : Owns exW r b ↔ r = 0 ∧ b = exP := by
  unfold Owns exW
  rcases r with _ | r <;> simp

theorem ownsC (r : Nat) (b : Block) : Owns exW' r b ↔
    (r = 0 ∧ b = ex0) ∨ (r = 0 ∧ b = ex1) ∨ (r = 1 ∧ b = ex2) ∨ (r = 1 ∧ b = ex3) := by
  unfold Owns exW'
  rcases r with _ | _ | r <;> simp

theorem three {P : Nat → Prop} (h0 : P 0) (h1 : P 1) (h2 : P 2) : ∀ i, i < 3 → P i := by
  intro i hi
  have : i = 0 ∨ i = 1 ∨ i = 2 := by omega
  rcases this with rfl | rfl | rfl <;> assumption

theorem wellP : WellConnected exW where
  uniq := by
    intro r r' b b' h h' _
    rw [ownsP] at h h'
    rw [h.1, h'.1, h.2, h'.2]; exact ⟨rfl, rfl⟩
  nodup := by decide
  nface_range := by intro r b h; rw [ownsP] at h; obtain ⟨rfl, rfl⟩ := h; decide
  nface_distinct := by intro r b h; rw [ownsP] at h; obtain ⟨rfl, rfl⟩ := h; decide
  cells := by intro r b h; rw [ownsP] at h; obtain ⟨rfl, rfl⟩ := h; decide
  conn := by
    intro r b h f hf nb hnb
    rw [ownsP] at h
    obtain ⟨rfl, rfl⟩ := h
    simp only [exP, List.mem_cons, List.not_mem_nil, or_false] at hf
    rcases hf with rfl | rfl | rfl | rfl | rfl | rfl <;> cases hnb
    · exact ⟨by decide, exP, (ownsP _ _).2 ⟨rfl, rfl⟩, rfl, three (by decide) (by decide) (by decide),
        ⟨2, some 7, o123, 0⟩, by decide, rfl, rfl, rfl⟩
    · exact ⟨by decide, exP, (ownsP _ _).2 ⟨rfl, rfl⟩, rfl, three (by decide) (by decide) (by decide),
        ⟨1, some 7, o123, 0⟩, by decide, rfl, rfl, rfl⟩

/-- a connection as a decidable check -/
def connOk (W : List (List Block)) (b : Block) (f : Face) : Bool :=
  match f.neighbor with
  | none => true
  | some nb => (W.getD f.commRank []).any fun b' => decide (b'.nblki = nb) &&
      (List.range 3).all (fun i => decide (i = normalAxis f.nface) || decide (last .node b.dims i = last .node b'.dims (axisOf (f.ori.get i)))) &&
      b'.faces.any fun f' => decide (f'.neighbor = some b.nblki) && decide (neighborNface f.nface f.ori = some f'.nface) &&
        decide (neighborOrientation f.ori = some f'.ori)

theorem connOk_conn {W : List (List Block)} {b : Block} {f : Face} (ho : f.ori.Legal) (h : connOk W b f = true) (nb : Nat)
    (hnb : f.neighbor = some nb) :
    f.ori.Legal ∧ ∃ b', Owns W f.commRank b' ∧ b'.nblki = nb ∧ SizesMatch f.nface f.ori b.dims b'.dims ∧
      ∃ f' ∈ b'.faces, f'.neighbor = some b.nblki ∧ neighborNface f.nface f.ori = some f'.nface ∧
        neighborOrientation f.ori = some f'.ori := by
  unfold connOk at h
  rw [hnb] at h
  simp only [List.any_eq_true, Bool.and_eq_true, decide_eq_true_eq, List.all_eq_true, List.mem_range, Bool.or_eq_true] at h
  obtain ⟨b', hb', ⟨h1, h2⟩, f', hf', ⟨h3, h4⟩, h5⟩ := h
  refine ⟨ho, b', ?_, h1, fun i hi hne => (h2 i hi).resolve_left hne, f', hf', h3, h4, h5⟩
  unfold Owns
  cases e : W[f.commRank]? with
  | none => rw [List.getD, e] at hb'; cases hb'
  | some mb => rw [List.getD, e] at hb'; exact ⟨mb, rfl, hb'⟩

theorem wellC : WellConnected exW' where
  uniq := by
    intro r r' b b' h h' e
    rw [ownsC] at h h'
    rcases h with ⟨rfl, rfl⟩ | ⟨rfl, rfl⟩ | ⟨rfl, rfl⟩ | ⟨rfl, rfl⟩ <;>
      rcases h' with ⟨rfl, rfl⟩ | ⟨rfl, rfl⟩ | ⟨rfl, rfl⟩ | ⟨rfl, rfl⟩ <;> first | exact ⟨rfl, rfl⟩ | (exfalso; revert e; decide)
  nodup := by decide
  nface_range := by intro r b h; rw [ownsC] at h; rcases h with ⟨rfl, rfl⟩ | ⟨rfl, rfl⟩ | ⟨rfl, rfl⟩ | ⟨rfl, rfl⟩ <;> decide
  nface_distinct := by intro r b h; rw [ownsC] at h; rcases h with ⟨rfl, rfl⟩ | ⟨rfl, rfl⟩ | ⟨rfl, rfl⟩ | ⟨rfl, rfl⟩ <;> decide
  cells := by intro r b h; rw [ownsC] at h; rcases h with ⟨rfl, rfl⟩ | ⟨rfl, rfl⟩ | ⟨rfl, rfl⟩ | ⟨rfl, rfl⟩ <;> decide
  conn := by
    intro r b h f hf nb hnb
    have ho : ∀ f ∈ b.faces, f.ori = o123 ∧ connOk exW' b f = true := by
      rw [ownsC] at h; rcases h with ⟨rfl, rfl⟩ | ⟨rfl, rfl⟩ | ⟨rfl, rfl⟩ | ⟨rfl, rfl⟩ <;> decide
    exact connOk_conn (by rw [(ho f hf).1]; decide) (ho f hf).2 nb hnb

/-- gluing without turning -/
theorem glued123 {nf : Nat} {dA dB : Dims} {c c' : Nat → Int} : Glued .ccAll nf o123 dA dB c c' ↔
    ∀ i, i < 3 → c' i = if i = normalAxis nf then (if isLow nf then last .ccAll dB i + 1 + c i else c i - last .ccAll dA i - 1) else c i := by
  unfold Glued
  constructor <;> intro h i hi <;> have h1 := h i hi <;> revert h1 <;> revert i <;>
    refine three ?_ ?_ ?_ <;> simp [o123, Ori.get, axisOf, reversed, gap]

instance (nf : Nat) (d' d : Dims) (o : Pos) : Decidable (Touches nf d' d o) := by unfold Touches; infer_instance

theorem glue_move {nf : Nat} {dA dB eA eB : Dims} {oA oB : Pos} {c c' : Nat → Int}
    (h : ∀ i < 3, if i = normalAxis nf then
        (if isLow nf then last .ccAll dB i + nat oB i = last .ccAll eB i + nat oA i
          else nat oB i - last .ccAll dA i = nat oA i - last .ccAll eA i)
      else nat oB i = nat oA i) (hg : Glued .ccAll nf o123 dA dB c c') : Glued .ccAll nf o123 eA eB (moved oA c) (moved oB c') := by
  rw [glued123] at hg ⊢
  intro i hi
  have h1 := hg i hi
  have h2 := h i hi
  unfold moved
  split_ifs at h1 h2 ⊢ <;> omega

theorem ownsC_mem {r : Nat} {b : Block} (h : Owns exW' r b) : b ∈ exW'.flatten := by
  rw [ownsC] at h
  rcases h with ⟨rfl, rfl⟩ | ⟨rfl, rfl⟩ | ⟨rfl, rfl⟩ | ⟨rfl, rfl⟩ <;> decide

theorem outerCheck : ∀ b' ∈ exW'.flatten, ∀ f' ∈ b'.faces, Touches f'.nface b'.dims exP.dims (exOff b'.nblki) →
    ∃ f ∈ exP.faces, f.nface = f'.nface ∧ f.ori = o123 ∧ f'.ori = o123 ∧ (f'.neighbor = none → f.neighbor = none) ∧
      ∀ nb ∈ f'.neighbor, f.neighbor = some 7 ∧ ∀ b₂ ∈ exW'.flatten, b₂.nblki = nb → ∀ i < 3,
        if i = normalAxis f'.nface then
          (if isLow f'.nface then last .ccAll b₂.dims i + nat (exOff nb) i = last .ccAll exP.dims i + nat (exOff b'.nblki) i
           else nat (exOff nb) i - last .ccAll b'.dims i = nat (exOff b'.nblki) i - last .ccAll exP.dims i)
        else nat (exOff nb) i = nat (exOff b'.nblki) i := by decide +kernel

theorem cutCheck : ∀ b' ∈ exW'.flatten, ∀ f' ∈ b'.faces, ¬ Touches f'.nface b'.dims exP.dims (exOff b'.nblki) →
    f'.ori = o123 ∧ f'.neighbor ≠ none ∧ ∀ nb ∈ f'.neighbor, ∀ b₂ ∈ exW'.flatten, b₂.nblki = nb → ∀ i < 3,
      if i = normalAxis f'.nface then
        (if isLow f'.nface then last .ccAll b₂.dims i + 1 + nat (exOff nb) i = nat (exOff b'.nblki) i
         else nat (exOff nb) i - last .ccAll b'.dims i - 1 = nat (exOff b'.nblki) i)
      else nat (exOff nb) i = nat (exOff b'.nblki) i := by decide +kernel

theorem exSplit : Split 2 exW' exW (fun _ => 7) exOff where
  child := wellC
  parent := wellP
  thick := by
    intro r b h
    rw [ownsC] at h
    rcases h with ⟨rfl, rfl⟩ | ⟨rfl, rfl⟩ | ⟨rfl, rfl⟩ | ⟨rfl, rfl⟩ <;> refine three ?_ ?_ ?_ <;> decide
  inside := by
    intro r b h
    refine ⟨0, exP, (ownsP _ _).2 ⟨rfl, rfl⟩, rfl, ?_⟩
    rw [ownsC] at h
    rcases h with ⟨rfl, rfl⟩ | ⟨rfl, rfl⟩ | ⟨rfl, rfl⟩ | ⟨rfl, rfl⟩ <;> decide
  six := by
    intro r b h nf h1 h2
    have : nf = 1 ∨ nf = 2 ∨ nf = 3 ∨ nf = 4 ∨ nf = 5 ∨ nf = 6 := by omega
    rw [ownsC] at h
    rcases h with ⟨rfl, rfl⟩ | ⟨rfl, rfl⟩ | ⟨rfl, rfl⟩ | ⟨rfl, rfl⟩ <;>
      rcases this with rfl | rfl | rfl | rfl | rfl | rfl <;> decide
  outer := by
    intro r' b' h r b hP _ f' hf' ht
    rw [ownsP] at hP
    obtain ⟨rfl, rfl⟩ := hP
    obtain ⟨f, hf, e1, e2, e3, e4, e5⟩ := outerCheck b' (ownsC_mem h) f' hf' ht
    refine ⟨f, hf, e1, e4, fun nb hnb => ⟨(e5 nb hnb).1, ?_⟩⟩
    intro r₂ b₂ h2 hn r₃ b₃ h3 _ c c' hg
    rw [ownsP] at h3
    obtain ⟨rfl, rfl⟩ := h3
    rw [e1, e2]
    rw [e3] at hg
    exact glue_move ((e5 nb hnb).2 b₂ (ownsC_mem h2) hn) hg
  cut := by
    intro r' b' h r b hP _ f' hf' ht
    rw [ownsP] at hP
    obtain ⟨rfl, rfl⟩ := hP
    obtain ⟨e3, e4, e5⟩ := cutCheck b' (ownsC_mem h) f' hf' ht
    obtain ⟨nb, hnb⟩ := Option.ne_none_iff_exists'.1 e4
    refine ⟨nb, hnb, rfl, ?_⟩
    intro r₂ b₂ h2 hn c c' hg i hi
    rw [e3] at hg
    have h1 := glued123.1 hg i hi
    have h2 := e5 nb hnb b₂ (ownsC_mem h2) hn i hi
    unfold moved
    rw [h1]
    split_ifs at h2 ⊢ <;> omega

/-! ### a complete case on this decomposition -/

abbrev exS : Sig := ⟨Unit, ℝ, ℝ, ℝ, ℝ⟩

/-- kernels with sensor, diffusion, subgrid model and chemistry, reading up to the limits of `LocalKernels` -/
def exK : Kernels exS where
  eosC c := ⟨c.Q, fun l => c.Q l / 2, ()⟩
  eosP c := ⟨fun l => 2 * c.q l, c.q, ()⟩
  trans c := c.q 0
  sponge g t := (1 + g) * t
  sw := some fun l => (l 0 1).1.q 0 - (l 1 (-1)).1.q 0 + (l 2 0).2
  flux1 d l := fun k => (l (-2)).1.Q k + (l 1).1.q k * (l 0).2.1
  flux2 d l := fun k => ((l 0).1.Q k - (l (-1)).1.Q k) * ((l 0).2.2 + (l (-1)).2.2)
  apply1 g ph lo hi x := fun k => x k + (lo 0 k - hi 0 k + lo 1 k - hi 1 k) * (1 - ph 0 1) / (1 + g)
  apply2 g ph lo hi x := fun k => x k + (lo 0 k - hi 0 k + lo 2 k - hi 2 k) * ph 0 (-1)
  diffusion := true
  grad l := (l 0 2).1.q 0 - (l 1 (-2)).1.q 1
  sgs c d g t := t + d * g
  fluxD d l := fun k => (l 0).2.2.1 * ((l 0).2.2.2 + (l (-1)).2.2.2) * (l (-1)).1.q k
  applyD g lo hi x := fun k => x k - lo 0 k + hi 0 k - lo 1 k + hi 1 k
  chem c x := fun k => x k + c.Q k ^ 2
  stiff dt c := ⟨fun l => c.Q l + dt * c.q l, fun l => c.q l, ()⟩
  dtau th g c x := if th 0 then 1 else 2 + g 0 1 + x + c.q 0
  invert dt th g c x y := fun k => y k + dt * (g 1 (-1) + c.Q k)

theorem exK_local : LocalKernels 2 exK where
  eosP := by intro c c' h; change Cl.mk _ _ _ = Cl.mk _ _ _; rw [h]
  sw := by
    intro w hw l l' h
    cases hw
    change (l 0 1).1.q 0 - (l 1 (-1)).1.q 0 + (l 2 0).2 = (l' 0 1).1.q 0 - (l' 1 (-1)).1.q 0 + (l' 2 0).2
    rw [h 0 1 (by decide) (by decide), h 1 (-1) (by decide) (by decide), h 2 0 (by decide) (by decide)]
  flux1 := by
    intro d l l' h _
    funext k
    change (l (-2)).1.Q k + (l 1).1.q k * (l 0).2.1 = (l' (-2)).1.Q k + (l' 1).1.q k * (l' 0).2.1
    rw [(h (-2) (by decide) (by decide)).1, (h 1 (by decide) (by decide)).1, (h 0 (by decide) (by decide)).2]
  flux2 := by
    intro d l l' h h2
    funext k
    change ((l 0).1.Q k - (l (-1)).1.Q k) * ((l 0).2.2 + (l (-1)).2.2) = ((l' 0).1.Q k - (l' (-1)).1.Q k) * ((l' 0).2.2 + (l' (-1)).2.2)
    rw [(h (-1) (by decide) (by decide)).1, (h 0 (by decide) (by decide)).1, h2 0 (by decide) (by decide), h2 (-1) (by decide) (by decide)]
  apply1 := by intro g ph ph' lo hi x h; funext k; simp only [exK]; rw [h 0 1 (by decide) (by decide)]
  apply2 := by intro g ph ph' lo hi x h; funext k; simp only [exK]; rw [h 0 (-1) (by decide) (by decide)]
  grad := by
    intro l l' h
    change (l 0 2).1.q 0 - (l 1 (-2)).1.q 1 = (l' 0 2).1.q 0 - (l' 1 (-2)).1.q 1
    rw [h 0 2 (by decide) (by decide), h 1 (-2) (by decide) (by decide)]
  fluxD := by
    intro d l l' h
    funext k
    change (l 0).2.2.1 * ((l 0).2.2.2 + (l (-1)).2.2.2) * (l (-1)).1.q k = (l' 0).2.2.1 * ((l' 0).2.2.2 + (l' (-1)).2.2.2) * (l' (-1)).1.q k
    rw [h 0 (by decide) (by decide), h (-1) (by decide) (by decide)]
  dtau := by intro th g g' c x h; simp only [exK]; rw [h 0 1 (by decide) (by decide)]
  invert := by intro dt th g g' c x y h; funext k; simp only [exK]; rw [h 1 (-1) (by decide) (by decide)]

theorem exK_Q : EosFromQ exK := by intro c c' h; change Cl.mk _ _ _ = Cl.mk _ _ _; rw [h]

/-- boundary conditions of the block: periodic in the first direction, elsewhere a wall that mirrors and heats with time -/
def wall (nf : Nat) (t : ℝ) (p : Pos) (l : Int → Cl exS) (k : Int) : Cl exS :=
  if nf = 1 ∨ nf = 2 then l k else ⟨fun i => (l (-1 - k)).Q i + t * p 0, fun i => - (l (-1 - k)).q i, ()⟩
def wallGrad (nf : Nat) (l : Int → Cl exS × ℝ) : ℝ := if nf = 1 ∨ nf = 2 then (l (-1)).2 else - (l 0).2

def exI : Inp exS where
  geo _ p := p 1 * p 2
  euler _ nf t p l k := wall nf t p l k
  pre _ nf t p l k := wall nf (2 * t) p l k
  post _ nf _ _ l := wallGrad nf l

/-- and of the boxes cut out of it -/
def exI' : Inp exS where
  geo n p := (p + exOff n) 1 * (p + exOff n) 2
  euler n nf t p l k := if Touches nf ⟨3, 3, 3⟩ exP.dims (exOff n) then wall nf t (p + exOff n) l k else l k
  pre n nf t p l k := if Touches nf ⟨3, 3, 3⟩ exP.dims (exOff n) then wall nf (2 * t) (p + exOff n) l k else l k
  post n nf _ _ l := if Touches nf ⟨3, 3, 3⟩ exP.dims (exOff n) then wallGrad nf l else (l (-1)).2

theorem wall_local (nf : Nat) (t : ℝ) (p : Pos) (k : Int) (l l' : Int → Cl exS) (h1 : -2 ≤ k) (h2 : k < 0)
    (h : ∀ u, -2 ≤ u → u < 2 → l u = l' u) : wall nf t p l k = wall nf t p l' k := by
  unfold wall
  rw [h k h1 (by omega), h (-1 - k) (by omega) (by omega)]

theorem exI_local : LocalBC 2 exI where
  euler := fun _ nf t p k l l' h1 h2 h => wall_local nf t p k l l' h1 h2 h
  pre := fun _ nf t p k l l' h1 h2 h => wall_local nf _ p k l l' h1 h2 h
  post := by
    intro n nf t p l l' _ h
    change wallGrad nf l = wallGrad nf l'
    unfold wallGrad
    rw [h (-1) (by decide) (by decide), h 0 (by decide) (by decide)]

theorem exI'_local : LocalBC 2 exI' where
  euler := by
    intro n nf t p k l l' h1 h2 h
    simp only [exI']
    rw [wall_local nf t _ k l l' h1 h2 h, h k h1 (by push_cast; omega)]
  pre := by
    intro n nf t p k l l' h1 h2 h
    simp only [exI']
    rw [wall_local nf _ _ k l l' h1 h2 h, h k h1 (by push_cast; omega)]
  post := by
    intro n nf t p l l' _ h
    simp only [exI']
    unfold wallGrad
    rw [h (-1) (by decide) (by decide), h 0 (by decide) (by decide)]

theorem dimsC {r : Nat} {b : Block} (h : Owns exW' r b) : b.dims = ⟨3, 3, 3⟩ := by
  rw [ownsC] at h
  rcases h with ⟨rfl, rfl⟩ | ⟨rfl, rfl⟩ | ⟨rfl, rfl⟩ | ⟨rfl, rfl⟩ <;> rfl

theorem exSame : SameInput 2 exW' exW (fun _ => 7) exOff exI' exI where
  geo := fun _ _ _ _ _ => rfl
  outer := by
    intro r' b' h' r b h hn nf _ _ ht t p
    rw [ownsP] at h
    obtain ⟨rfl, rfl⟩ := h
    rw [dimsC h'] at ht
    exact ⟨fun l k _ _ => if_pos ht, fun l k _ _ => if_pos ht, fun l => if_pos ht⟩
  cut := by
    intro r' b' h' r b h hn nf _ _ ht t p
    rw [ownsP] at h
    obtain ⟨rfl, rfl⟩ := h
    rw [dimsC h'] at ht
    exact ⟨fun l k _ _ => if_neg ht, fun l k _ _ => if_neg ht, fun l => if_neg ht⟩
  local' := exI'_local
  local_ := exI_local

/-- an initial state: a wave in the undivided block, and the same wave in the boxes -/
def exStart (o : Nat → Pos) : St Entry (Aux exS) where
  core := ⟨fun _ => 0, fun i => ((i.2.1 + o i.1) 0) + 10 * ((i.2.1 + o i.1) 1) ^ 2 + i.2.2,
    ⟨fun _ _ => (), fun _ _ => 0, fun _ _ => 0, fun _ _ => 0⟩⟩
  Q0 := fun _ => 0
  Q1 := fun _ => 0
  Q2 := fun _ => 0
  Q3 := fun _ => 0
  Qn := fun _ => 0
  Qnm1 := fun _ => 0
  dtau := fun _ => 0
  dQ := fun _ => 0
  nrt := 0
  tme := 0
  titme := 0

theorem exSameStart : SameStart 2 exW' exW (fun _ => 7) exOff (exStart exOff) (exStart fun _ => 0) := by
  refine ⟨?_, fun _ _ _ _ _ => ⟨rfl, rfl⟩, fun _ _ => ⟨rfl, rfl, rfl, rfl, rfl, rfl⟩, rfl, rfl, rfl⟩
  intro r' b' _ p _ l
  simp [exStart]

theorem exThin : SameThin exW' exW fun _ => 7 := by
  intro r' b' h' r b h _ a ha
  rw [dimsC h'] at ha
  have : ∀ a, top ⟨3, 3, 3⟩ a ≠ 0 := by decide
  exact absurd ha (this a)

/-- every hypothesis of C91 holds of this case, for each integrator and any time steps -/
example (J : Integrator) (dts : List ℝ) (p : Pos) (hp : InBox 0 ex3.dims p) (l : Nat) :
    (run (env exK exI' 2 exW') J dts (bootstrap exK exI' 2 exW' (exStart exOff))).core.q (3, p, l) =
      (run (env exK exI 2 exW) J dts (bootstrap exK exI 2 exW (exStart fun _ => 0))).core.q (7, p + exOff 3, l) :=
  (C91_decomposition_partial (by decide) exSplit exK_local exK_Q exSame J (by cases J <;> first | trivial | exact exThin)
    _ _ exSameStart dts 1 ex3 ((ownsC _ _).2 (by simp)) p hp).2.1 l

/-! ### where the code does depend on the decomposition -/

/-- a field on the undivided block, and its copy in the boxes with halos not yet filled -/
def exData (n : Nat) (p : Pos) : Int := if InBox 0 ⟨3, 3, 3⟩ p then 1000 + (p 0 + exOff n 0) + 10 * (p 1 + exOff n 1) else 0

/-- C91 violated (edges): after an exchange, the halo cell of box 3 diagonally across the edge where all four boxes meet does not
    hold the value of the cell of the undivided block that is there (which is an interior cell, of box 0); the halo cells
    straight behind the faces do. mixedScaleModel (/repo/src/compute/subgrid/mixedScaleModel.cpp:18-88) reads such edge cells
    when it is applied to the first halo layer, so its result there depends on the decomposition. -/
theorem C91_edge_violated :
    vec (-1) (-1) 0 + exOff 3 = vec 1 1 0 + exOff 0 ∧ InBox 0 ex0.dims (vec 1 1 0) ∧
    exch .ccAll 2 exW' exData 3 (vec (-1) 0 0) = exData 2 (vec 1 0 0) ∧
    exch .ccAll 2 exW' exData 3 (vec (-1) (-1) 0) ≠ exData 0 (vec 1 1 0) := by decide +kernel

/-! a block of 2 x 2 x 1 cells cut into two of 1 x 2 x 1 -/
def thP : Block := ⟨7, ⟨3, 3, 2⟩, [⟨1, none, o123, 0⟩, ⟨2, none, o123, 0⟩, ⟨3, none, o123, 0⟩, ⟨4, none, o123, 0⟩,
  ⟨5, none, o123, 0⟩, ⟨6, none, o123, 0⟩]⟩
def thW : List (List Block) := [[thP]]
def th0 : Block := ⟨0, ⟨2, 3, 2⟩, [⟨1, none, o123, 0⟩, ⟨2, some 1, o123, 0⟩, ⟨3, none, o123, 0⟩, ⟨4, none, o123, 0⟩,
  ⟨5, none, o123, 0⟩, ⟨6, none, o123, 0⟩]⟩
def th1 : Block := ⟨1, ⟨2, 3, 2⟩, [⟨1, some 0, o123, 0⟩, ⟨2, none, o123, 0⟩, ⟨3, none, o123, 0⟩, ⟨4, none, o123, 0⟩,
  ⟨5, none, o123, 0⟩, ⟨6, none, o123, 0⟩]⟩
def thW' : List (List Block) := [[th0, th1]]
def thOff (n : Nat) : Pos := fun a => if a = 0 then n else 0

theorem ownsTP (r : Nat) (b : Block) : Owns thW r b ↔ r = 0 ∧ b = thP := by
  unfold Owns thW
  rcases r with _ | r <;> simp

theorem ownsTC (r : Nat) (b : Block) : Owns thW' r b ↔ (r = 0 ∧ b = th0) ∨ (r = 0 ∧ b = th1) := by
  unfold Owns thW'
  rcases r with _ | _ | r <;> simp

theorem ownsTC_mem {r : Nat} {b : Block} (h : Owns thW' r b) : b ∈ thW'.flatten := by
  rw [ownsTC] at h
  rcases h with ⟨rfl, rfl⟩ | ⟨rfl, rfl⟩ <;> decide

theorem wellTP : WellConnected thW where
  uniq := by
    intro r r' b b' h h' _
    rw [ownsTP] at h h'
    rw [h.1, h'.1, h.2, h'.2]; exact ⟨rfl, rfl⟩
  nodup := by decide
  nface_range := by intro r b h; rw [ownsTP] at h; obtain ⟨rfl, rfl⟩ := h; decide
  nface_distinct := by intro r b h; rw [ownsTP] at h; obtain ⟨rfl, rfl⟩ := h; decide
  cells := by intro r b h; rw [ownsTP] at h; obtain ⟨rfl, rfl⟩ := h; decide
  conn := by
    intro r b h f hf nb hnb
    have ho : ∀ f ∈ b.faces, f.neighbor = none := by
      rw [ownsTP] at h; obtain ⟨rfl, rfl⟩ := h; decide
    rw [ho f hf] at hnb; cases hnb

theorem wellTC : WellConnected thW' where
  uniq := by
    intro r r' b b' h h' e
    rw [ownsTC] at h h'
    rcases h with ⟨rfl, rfl⟩ | ⟨rfl, rfl⟩ <;>
      rcases h' with ⟨rfl, rfl⟩ | ⟨rfl, rfl⟩ <;> first | exact ⟨rfl, rfl⟩ | (exfalso; revert e; decide)
  nodup := by decide
  nface_range := by intro r b h; rw [ownsTC] at h; rcases h with ⟨rfl, rfl⟩ | ⟨rfl, rfl⟩ <;> decide
  nface_distinct := by intro r b h; rw [ownsTC] at h; rcases h with ⟨rfl, rfl⟩ | ⟨rfl, rfl⟩ <;> decide
  cells := by intro r b h; rw [ownsTC] at h; rcases h with ⟨rfl, rfl⟩ | ⟨rfl, rfl⟩ <;> decide
  conn := by
    intro r b h f hf nb hnb
    have ho : ∀ f ∈ b.faces, f.ori = o123 ∧ connOk thW' b f = true := by
      rw [ownsTC] at h; rcases h with ⟨rfl, rfl⟩ | ⟨rfl, rfl⟩ <;> decide
    exact connOk_conn (by rw [(ho f hf).1]; decide) (ho f hf).2 nb hnb

theorem thOuter : ∀ b' ∈ thW'.flatten, ∀ f' ∈ b'.faces, Touches f'.nface b'.dims thP.dims (thOff b'.nblki) →
    f'.neighbor = none ∧ ∃ f ∈ thP.faces, f.nface = f'.nface ∧ f.neighbor = none := by decide +kernel

theorem thCut : ∀ b' ∈ thW'.flatten, ∀ f' ∈ b'.faces, ¬ Touches f'.nface b'.dims thP.dims (thOff b'.nblki) →
    f'.ori = o123 ∧ f'.neighbor ≠ none ∧ ∀ nb ∈ f'.neighbor, ∀ b₂ ∈ thW'.flatten, b₂.nblki = nb → ∀ i < 3,
      if i = normalAxis f'.nface then
        (if isLow f'.nface then last .ccAll b₂.dims i + 1 + nat (thOff nb) i = nat (thOff b'.nblki) i
         else nat (thOff nb) i - last .ccAll b'.dims i - 1 = nat (thOff b'.nblki) i)
      else nat (thOff nb) i = nat (thOff b'.nblki) i := by decide +kernel

theorem thSplit : Split 1 thW' thW (fun _ => 7) thOff where
  child := wellTC
  parent := wellTP
  thick := by
    intro r b h
    rw [ownsTC] at h
    rcases h with ⟨rfl, rfl⟩ | ⟨rfl, rfl⟩ <;> refine three ?_ ?_ ?_ <;> decide
  inside := by
    intro r b h
    refine ⟨0, thP, (ownsTP _ _).2 ⟨rfl, rfl⟩, rfl, ?_⟩
    rw [ownsTC] at h
    rcases h with ⟨rfl, rfl⟩ | ⟨rfl, rfl⟩ <;> decide
  six := by
    intro r b h nf h1 h2
    have : nf = 1 ∨ nf = 2 ∨ nf = 3 ∨ nf = 4 ∨ nf = 5 ∨ nf = 6 := by omega
    rw [ownsTC] at h
    rcases h with ⟨rfl, rfl⟩ | ⟨rfl, rfl⟩ <;>
      rcases this with rfl | rfl | rfl | rfl | rfl | rfl <;> decide
  outer := by
    intro r' b' h r b hP _ f' hf' ht
    rw [ownsTP] at hP
    obtain ⟨rfl, rfl⟩ := hP
    obtain ⟨e0, f, hf, e1, e2⟩ := thOuter b' (ownsTC_mem h) f' hf' ht
    refine ⟨f, hf, e1, fun _ => e2, fun nb hnb => ?_⟩
    rw [e0] at hnb; cases hnb
  cut := by
    intro r' b' h r b hP _ f' hf' ht
    rw [ownsTP] at hP
    obtain ⟨rfl, rfl⟩ := hP
    obtain ⟨e3, e4, e5⟩ := thCut b' (ownsTC_mem h) f' hf' ht
    obtain ⟨nb, hnb⟩ := Option.ne_none_iff_exists'.1 e4
    refine ⟨nb, hnb, rfl, ?_⟩
    intro r₂ b₂ h2 hn c c' hg i hi
    rw [e3] at hg
    have h1 := glued123.1 hg i hi
    have h2 := e5 nb hnb b₂ (ownsTC_mem h2) hn i hi
    unfold moved
    rw [h1]
    split_ifs at h2 ⊢ <;> omega

/-- a cell of width 1 x 2 x 2 aligned with the axes -/
def slab : PG.Dual.FaceGeo :=
  ⟨fun d s x => if s ∧ x = d then (if d = 0 then 1 else 2) else 0, fun d _ x => if x = d then 1 else 0⟩

theorem slab_limit (th : Fin 3 → Bool) (d : Fin 3) (hd : th d = false) :
    PG.Dual.convLimit th slab (fun _ => 0) 1 d = ((if d = 0 then 1 / 2 else 1 : ℝ) : EReal) := by
  rw [PG.Dual.conv_thick hd]
  refine congrArg Real.toEReal ?_
  unfold PG.Dual.cellLen PG.Dual.convSpeed slab
  have h4 : √(2 ^ 2 : ℝ) = 2 := Real.sqrt_sq (by norm_num)
  fin_cases d <;> simp [Fin.sum_univ_three]
  all_goals norm_num

theorem slab_thin (th : Fin 3 → Bool) (d : Fin 3) (hd : th d = true) : PG.Dual.convLimit th slab (fun _ => 0) 1 d = ⊤ := by
  have hg : PG.Dual.GoodCell slab 1 0 1 :=
    ⟨fun d => ⟨d, by simp only [slab]; split_ifs <;> simp_all⟩, by norm_num, le_rfl, by norm_num⟩
  exact PG.Dual.mult_thin hd (PG.Dual.conv_pos hg d)

/-- C91 violated (thin boxes): a block of 2 x 2 x 1 cells of width 1 x 2 x 2 at rest with sound speed 1 is cut into two boxes of
    1 x 2 x 1 cells. localDtau (dualTime.cpp:36-105) gives the cells a pseudo time step of 1/2 in the undivided block and 1 in
    the boxes. -/
theorem C91_thin_violated : Split 1 thW' thW (fun _ => 7) thOff ∧
    PG.Dual.localDtau (thin thP.dims) false slab (fun _ => 0) 1 0 1 = ((1 / 2 : ℝ) : EReal) ∧
    ∀ b' ∈ thW'.flatten, PG.Dual.localDtau (thin b'.dims) false slab (fun _ => 0) 1 0 1 = ((1 : ℝ) : EReal) := by
  refine ⟨thSplit, ?_, ?_⟩
  · unfold PG.Dual.localDtau
    rw [slab_limit _ 0 (by decide), slab_limit _ 1 (by decide), slab_thin _ 2 (by decide)]
    simp only [Bool.false_eq_true, if_false, le_top, inf_of_le_right, inf_of_le_left, if_true]
    rw [if_neg (by decide)]
    exact min_eq_left (by exact_mod_cast (by norm_num : (1 / 2 : ℝ) ≤ 1))
  · intro b' hb'
    have e : b'.dims = ⟨2, 3, 2⟩ := by revert b'; decide
    rw [e]
    unfold PG.Dual.localDtau
    rw [slab_thin _ 0 (by decide), slab_limit _ 1 (by decide), slab_thin _ 2 (by decide)]
    simp

end PG.Whole
