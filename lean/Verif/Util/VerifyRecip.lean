import Verif.Util.VerifyProps
import Verif.Util.VerifyTable
import Verif.IO.Conn
/-!
C59: reciprocity of accepted connections, and what the checker misses.
-/
namespace PG.Util
open PG PG.Topo

/-- C59, violated: `stagnationSubsonicInlet` is a valid boundary type (it can be read from a connectivity file), but a grid with such
    a face is never accepted. -/
theorem C59_stagnation_violated (mb : List VBlk) (hmb : Sized mb) (b : VBlk) (hb : b ∈ mb) (nf : ℕ) (h1 : 1 ≤ nf) (h2 : nf ≤ 6)
    (hn : (b.face nf).neighbor = none) (ht : (b.face nf).bcType = "stagnationSubsonicInlet") :
    "stagnationSubsonicInlet".toList ∈ IO.Conn.validBcTypes ∧ verify mb ≠ some true := by
  refine ⟨by decide, fun h => ?_⟩
  have := ((C59_verify_iff_partial mb hmb).1 h b hb).2 nf h1 h2
  rw [hn] at this
  dsimp only at this
  have h3 := this.1.2
  rw [ht] at h3
  exact absurd h3 (by decide)

/-! ### reciprocity -/

theorem corner_recip {nf nf' : ℕ} {o o2 : Ori} (h1 : 1 ≤ nf) (h2 : nf ≤ 6) (ho : o.Legal) (ho2 : o2.Legal)
    (hn : neighborNface nf o = some nf')
    (h : ∀ v : ℕ → Bool, v (normalAxis nf) = !isLow nf → ∀ j < 3, carry nf' o2 (carry nf o v) j = v j) :
    neighborOrientation o = some o2 := by
  obtain ⟨n, rfl⟩ : ∃ n, nf = n + 1 := ⟨nf - 1, by omega⟩
  have gen : ∀ o : Ori, o.Legal → ∀ o2 : Ori, o2.Legal → ∀ nf', neighborNface (n + 1) o = some nf' →
      (∀ v : ℕ → Bool, v (normalAxis (n + 1)) = !isLow (n + 1) → ∀ j < 3, carry nf' o2 (carry (n + 1) o v) j = v j) →
      neighborOrientation o = some o2 := by
    refine legal_cases (fun o => ∀ o2 : Ori, o2.Legal → ∀ nf', neighborNface (n + 1) o = some nf' →
      (∀ v : ℕ → Bool, v (normalAxis (n + 1)) = !isLow (n + 1) → ∀ j < 3, carry nf' o2 (carry (n + 1) o v) j = v j) →
      neighborOrientation o = some o2) ?_
    intro a b c hl
    refine legal_cases (fun o2 => ∀ nf', neighborNface (n + 1) ⟨a.val + 1, b.val + 1, c.val + 1⟩ = some nf' →
      (∀ v : ℕ → Bool, v (normalAxis (n + 1)) = !isLow (n + 1) →
        ∀ j < 3, carry nf' o2 (carry (n + 1) ⟨a.val + 1, b.val + 1, c.val + 1⟩ v) j = v j) →
      neighborOrientation ⟨a.val + 1, b.val + 1, c.val + 1⟩ = some o2) ?_
    intro p q r hl2 nf' hn h
    have key := corner_identity ⟨n, by omega⟩ a b c p q r hl hl2
    dsimp only at key
    rw [hn, Option.all_some, Bool.or_eq_true] at key
    rcases key with key | key
    · exfalso
      rw [Bool.not_eq_true'] at key
      refine Bool.false_ne_true (key.symm.trans (List.all_eq_true.2 fun v _ => ?_))
      by_cases hv : v (normalAxis (n + 1)) = !isLow (n + 1)
      · rw [Bool.or_eq_true]
        right
        refine List.all_eq_true.2 fun j hj => ?_
        rw [beq_iff_eq]
        refine h v hv j ?_
        simp only [List.mem_cons, List.not_mem_nil, or_false] at hj
        omega
      · rw [Bool.or_eq_true]
        left
        rw [Bool.not_eq_true', beq_eq_false_iff_ne]
        exact hv
    · exact eq_of_beq key
  exact gen o ho o2 ho2 nf' hn h

/-- no two nodes of a block are within twice the tolerance of each other -/
def Separated (b : VBlk) : Prop :=
  ∀ c d : ℕ → ℕ, (∀ a < 3, c a < b.n a) → (∀ a < 3, d a < b.n a) →
    |(b.at c).x - (b.at d).x| ≤ 2 * tol → |(b.at c).y - (b.at d).y| ≤ 2 * tol → |(b.at c).z - (b.at d).z| ≤ 2 * tol →
    ∀ a < 3, c a = d a

/-- the periodic shifts of two faces undo each other: neither is periodic, or one is the low and the other the high side of the same
    translation -/
def OppositeShifts (f f' : VFace) : Prop := ∃ t : V3, (∀ p, shift f p = p + t) ∧ ∀ p, shift f' p = p - t

/-- corner of a block given by bits -/
def corner (b : VBlk) (v : ℕ → Bool) : ℕ → ℕ := fun a => if v a then b.n a - 1 else 0

theorem corner_lt {b : VBlk} (hs : ∀ a < 3, 2 ≤ b.n a) (v : ℕ → Bool) : ∀ a < 3, corner b v a < b.n a := by
  intro a ha
  have := hs a ha
  unfold corner
  split_ifs <;> omega

theorem corner_onFace {b : VBlk} (hs : ∀ a < 3, 2 ≤ b.n a) {nf : ℕ} {v : ℕ → Bool} (hv : v (normalAxis nf) = !isLow nf) :
    OnFace b nf (corner b v) := by
  refine ⟨corner_lt hs v, ?_⟩
  unfold corner
  rw [hv]
  cases isLow nf <;> rfl

theorem corner_same {b b' : VBlk} {nf : ℕ} {o : Ori} (ho : o.Legal)
    (hsz : ∀ i < 3, i ≠ normalAxis nf → b.n i = b'.n (axisOf (o.get i))) (v : ℕ → Bool) :
    SameNode nf o b b' (corner b v) (corner b' (carry nf o v)) := by
  intro i hi
  unfold corner carry
  rw [axisFrom_eq ho hi]
  by_cases hn : i = normalAxis nf
  · rw [if_pos hn, if_pos hn]
    by_cases h : isLow nf = reversed (o.get i)
    · rw [if_pos h, h, beq_self_eq_true, Bool.not_true, if_neg Bool.false_ne_true]
    · rw [if_neg h, beq_eq_false_iff_ne.2 h, Bool.not_false, if_pos rfl]
  · rw [if_neg hn, if_neg hn, hsz i hi hn]
    cases reversed (o.get i) <;> cases v i <;> simp

theorem getBlock_num {mb : List VBlk} {n : ℕ} {b : VBlk} (h : getBlock mb n = some b) : b.num = n := by
  unfold getBlock at h
  simpa using List.find?_some h

/-- C59: in an accepted grid with distinct block numbers, two faces attached to each other without a periodic shift (or with opposite
    translations) describe the same attachment: the orientation of the neighbour's face is the reciprocal one, and it leads back to
    this very face. The nodes of each block must be further apart than twice the tolerance of the checker. -/
theorem C59_reciprocal (mb : List VBlk) (hmb : Sized mb) (hacc : verify mb = some true)
    (hnum : ∀ b ∈ mb, ∀ d ∈ mb, b.num = d.num → b = d) (b : VBlk) (hb : b ∈ mb) (hsep : Separated b)
    (nf : ℕ) (h1 : 1 ≤ nf) (h2 : nf ≤ 6) (n : ℕ) (hn : (b.face nf).neighbor = some n)
    (hsh : ∀ b' ∈ mb, ∀ o nf', b'.num = n → (b.face nf).ori = some o → neighborNface nf o = some nf' →
      OppositeShifts (b.face nf) (b'.face nf')) :
    ∃ o b' nf' o2, (b.face nf).ori = some o ∧ b' ∈ mb ∧ b'.num = n ∧ neighborNface nf o = some nf' ∧
      (b'.face nf').neighbor = some b.num ∧ (b'.face nf').ori = some o2 ∧
      neighborOrientation o = some o2 ∧ neighborNface nf' o2 = some nf := by
  have hval := (C59_verify_iff_partial mb hmb).1 hacc
  have hg := (hval b hb).2 nf h1 h2
  rw [hn] at hg
  obtain ⟨o, b', nf', hori, hleg, hget, hnf, hback, hsz, hnode⟩ := hg
  have hb' : b' ∈ mb := List.mem_of_find?_eq_some hget
  have hbn : b'.num = n := getBlock_num hget
  obtain ⟨nf'', e1, e2, e3, e4, e5, o', e6, e7⟩ := C01_neighborNface nf ⟨h1, h2⟩ o hleg
  rw [hnf] at e1
  obtain rfl := Option.some.inj e1
  have hg2 := (hval b' hb').2 nf' e2 e3
  rw [hback] at hg2
  obtain ⟨o2, b2, nf2, hori2, hleg2, hget2, hnf2, hback2, hsz2, hnode2⟩ := hg2
  have hb2 : b2 = b := hnum _ (List.mem_of_find?_eq_some hget2) _ hb (getBlock_num hget2)
  subst hb2
  obtain ⟨t, ht1, ht2⟩ := hsh b' hb' o nf' hbn hori hnf
  have sz : ∀ d ∈ mb, ∀ a < 3, 2 ≤ d.n a := by
    intro d hd a ha
    obtain ⟨q1, q2, q3⟩ := hmb d hd
    interval_cases a
    · exact q1
    · exact q2
    · exact q3
  have key : neighborOrientation o = some o2 := by
    refine corner_recip h1 h2 hleg hleg2 hnf ?_
    intro v hv
    have f1 : OnFace b2 nf (corner b2 v) := corner_onFace (sz _ hb) hv
    have hv' : carry nf o v (normalAxis nf') = !isLow nf' := by
      have h3 : normalAxis nf < 3 := (tang_cases h1 h2).2.2.2.2.2.2
      unfold carry
      rw [e4, axisFrom_eq hleg h3, if_pos rfl, e5]
    have f2 : OnFace b' nf' (corner b' (carry nf o v)) := corner_onFace (sz _ hb') hv'
    have n1 := hnode _ _ f1 (corner_same hleg hsz v)
    have n2 := hnode2 _ _ f2 (corner_same hleg2 hsz2 (carry nf o v))
    rw [ht1] at n1
    rw [ht2] at n2
    obtain ⟨x1, y1, z1⟩ := n1
    obtain ⟨x2, y2, z2⟩ := n2
    have tri : ∀ p q r s : ℝ, |p + s - q| ≤ tol → |q - s - r| ≤ tol → |p - r| ≤ 2 * tol := by
      intro p q r s u w
      rw [abs_le] at *
      constructor <;> linarith [u.1, u.2, w.1, w.2]
    have hc := hsep _ _ (corner_lt (sz _ hb) v) (corner_lt (sz _ hb) (carry nf' o2 (carry nf o v)))
      (tri _ _ _ _ x1 x2) (tri _ _ _ _ y1 y2) (tri _ _ _ _ z1 z2)
    intro j hj
    have := hc j hj
    have h2j := sz _ hb j hj
    unfold corner at this
    cases hq : carry nf' o2 (carry nf o v) j <;> cases hw : v j <;> rw [hq, hw] at this <;>
      first | rfl | (simp at this; omega)
  refine ⟨o, b', nf', o2, hori, hb', hbn, hnf, hback, hori2, key, ?_⟩
  rw [key] at e6
  obtain rfl := Option.some.inj e6
  exact e7

/-! ### concrete grids -/

/-- a face without neighbour -/
def wallFace : VFace := ⟨"adiabaticNoSlipWall", none, none, none, 0, 0, id, id⟩
/-- a face attached to block `n` -/
def joinFace (ty : String) (n : ℕ) (o : Ori) : VFace := ⟨ty, none, some n, some o, ⟨-1, 0, 0⟩, 1, id, id⟩
/-- a unit cube of two nodes each way, the corner of number `n` at (n, 0, 0) -/
def cubeBlk (n : ℕ) (f1 f2 : VFace) : VBlk :=
  ⟨n, 2, 2, 2, fun i j k => ⟨i + n, j, k⟩, fun nf => if nf = 1 then f1 else if nf = 2 then f2 else wallFace⟩
/-- two cubes side by side -/
def pair (f01 f02 f11 f12 : VFace) : List VBlk := [cubeBlk 0 f01 f02, cubeBlk 1 f11 f12]

theorem pair_sized (f01 f02 f11 f12 : VFace) : Sized (pair f01 f02 f11 f12) := by
  intro b hb
  simp only [pair, List.mem_cons, List.not_mem_nil, or_false] at hb
  rcases hb with rfl | rfl <;> exact ⟨le_refl _, le_refl _, le_refl _⟩

theorem cube_rightHanded (n : ℕ) (f1 f2 : VFace) : NotLeftHanded (cubeBlk n f1 f2) := by
  unfold NotLeftHanded V3.det cubeBlk
  simp

theorem wall_good : GoodBoundary wallFace := ⟨⟨by decide, by decide⟩, rfl, fun _ => Or.inr (Or.inl rfl)⟩

/-- both cubes' walls -/
theorem pair_valid (f01 f02 f11 f12 : VFace)
    (h : ∀ n < 2, ∀ nf, 1 ≤ nf → nf ≤ 2 →
      let b := if n = 0 then cubeBlk 0 f01 f02 else cubeBlk 1 f11 f12
      match (b.face nf).neighbor with
      | none => GoodBoundary (b.face nf)
      | some m => GoodConnection (pair f01 f02 f11 f12) b nf m) : Valid (pair f01 f02 f11 f12) := by
  intro b hb
  simp only [pair, List.mem_cons, List.not_mem_nil, or_false] at hb
  rcases hb with rfl | rfl
  · refine ⟨cube_rightHanded _ _ _, fun nf h1 h2 => ?_⟩
    by_cases h3 : nf ≤ 2
    · exact h 0 (by omega) nf h1 h3
    · have : (cubeBlk 0 f01 f02).face nf = wallFace := by
        unfold cubeBlk; dsimp only; rw [if_neg (by omega), if_neg (by omega)]
      rw [this]
      exact wall_good
  · refine ⟨cube_rightHanded _ _ _, fun nf h1 h2 => ?_⟩
    by_cases h3 : nf ≤ 2
    · exact h 1 (by omega) nf h1 h3
    · have : (cubeBlk 1 f11 f12).face nf = wallFace := by
        unfold cubeBlk; dsimp only; rw [if_neg (by omega), if_neg (by omega)]
      rw [this]
      exact wall_good

theorem near_of_eq {p q : V3} (h : p = q) : Near p q := by
  subst h
  have : (0 : ℝ) ≤ tol := by unfold tol; positivity
  unfold Near
  simpa using this

/-- two cubes sharing a face, everything else walls -/
def twoCubes : List VBlk := pair wallFace (joinFace "b0" 1 ⟨1, 2, 3⟩) (joinFace "b0" 0 ⟨1, 2, 3⟩) wallFace

theorem twoCubes_valid : Valid twoCubes := by
  refine pair_valid _ _ _ _ fun n hn nf h1 h2 => ?_
  interval_cases n <;> interval_cases nf
  · exact wall_good
  · refine ⟨⟨1, 2, 3⟩, cubeBlk 1 (joinFace "b0" 0 ⟨1, 2, 3⟩) wallFace, 1, rfl, by decide, rfl, rfl, rfl, ?_, ?_⟩
    · intro i hi _; interval_cases i <;> rfl
    · intro c c' hc hcc
      have c0 : c 0 = 1 := hc.2
      have e0 : c' 0 = 0 := hcc 0 (by omega)
      have e1 : c' 1 = c 1 := hcc 1 (by omega)
      have e2 : c' 2 = c 2 := hcc 2 (by omega)
      refine near_of_eq ?_
      show (⟨(c 0 : ℝ) + (0 : ℕ), c 1, c 2⟩ : V3) = ⟨(c' 0 : ℝ) + (1 : ℕ), c' 1, c' 2⟩
      rw [c0, e0, e1, e2]
      norm_num
  · refine ⟨⟨1, 2, 3⟩, cubeBlk 0 wallFace (joinFace "b0" 1 ⟨1, 2, 3⟩), 2, rfl, by decide, rfl, rfl, rfl, ?_, ?_⟩
    · intro i hi _; interval_cases i <;> rfl
    · intro c c' hc hcc
      have c0 : c 0 = 0 := hc.2
      have e0 : c' 0 = 1 := hcc 0 (by omega)
      have e1 : c' 1 = c 1 := hcc 1 (by omega)
      have e2 : c' 2 = c 2 := hcc 2 (by omega)
      refine near_of_eq ?_
      show (⟨(c 0 : ℝ) + (1 : ℕ), c 1, c 2⟩ : V3) = ⟨(c' 0 : ℝ) + (0 : ℕ), c' 1, c' 2⟩
      rw [c0, e0, e1, e2]
      norm_num
  · exact wall_good

/-- the two cubes are accepted (the hypotheses of the theorems above are met) -/
example : verify twoCubes = some true := (C59_verify_iff_partial _ (pair_sized _ _ _ _)).2 twoCubes_valid

example : OppositeShifts (joinFace "b0" 1 ⟨1, 2, 3⟩) (joinFace "b0" 0 ⟨1, 2, 3⟩) := by
  refine ⟨0, fun p => ?_, fun p => ?_⟩ <;> simp [shift, joinFace, V3.ext_iff]

/-- cubes are separated -/
example (n : ℕ) (f1 f2 : VFace) : Separated (cubeBlk n f1 f2) := by
  have key : ∀ (p q : ℕ) (r : ℝ), |(p : ℝ) + r - (q + r)| ≤ 2 * tol → p = q := by
    intro p q r h
    by_contra hne
    have h2 : (1 : ℝ) ≤ |(p : ℝ) - q| := by
      have : (1 : ℤ) ≤ |(p : ℤ) - q| := Int.one_le_abs (by omega)
      exact_mod_cast this
    have h3 : (p : ℝ) + r - (q + r) = p - q := by ring
    rw [h3] at h
    have : 2 * tol < 1 := by unfold tol; norm_num
    linarith
  intro c d _ _ hx hy hz a ha
  interval_cases a
  · exact key _ _ n hx
  · exact key _ _ 0 (by rw [add_zero, add_zero]; exact hy)
  · exact key _ _ 0 (by rw [add_zero, add_zero]; exact hz)

/-- the grid of `C59_reciprocity_violated`: the shared face of the first cube is attached to the second cube, whose face there is
    periodic and attached to the other side of the first cube -/
def crossed : List VBlk :=
  pair (joinFace "periodicTransHigh" 1 ⟨4, 2, 3⟩) (joinFace "b0" 1 ⟨1, 2, 3⟩) (joinFace "periodicTransLow" 0 ⟨4, 2, 3⟩) wallFace

/-- C59, violated in general: the checker accepts a grid in which block 0's face 2 is attached to block 1's face 1, while block 1's
    face 1 is attached to block 0's face 1 with an orientation that is not the reciprocal one. Only the number of the block is
    compared on the way back, never the face or the orientation. -/
theorem C59_reciprocity_violated :
    verify crossed = some true ∧
    ∃ b0 ∈ crossed, ∃ b1 ∈ crossed, (b0.face 2).neighbor = some b1.num ∧ (b0.face 2).ori = some ⟨1, 2, 3⟩ ∧
      neighborNface 2 ⟨1, 2, 3⟩ = some 1 ∧ (b1.face 1).ori = some ⟨4, 2, 3⟩ ∧ (b1.face 1).neighbor = some b0.num ∧
      neighborNface 1 ⟨4, 2, 3⟩ = some 1 ∧ neighborOrientation ⟨1, 2, 3⟩ ≠ some ⟨4, 2, 3⟩ := by
  refine ⟨(C59_verify_iff_partial _ (pair_sized _ _ _ _)).2 ?_, _, List.mem_cons_self, _, List.mem_cons_of_mem _ List.mem_cons_self, rfl, rfl, rfl,
    rfl, rfl, rfl, by decide⟩
  refine pair_valid _ _ _ _ fun n hn nf h1 h2 => ?_
  interval_cases n <;> interval_cases nf
  · refine ⟨⟨4, 2, 3⟩, cubeBlk 1 (joinFace "periodicTransLow" 0 ⟨4, 2, 3⟩) wallFace, 1, rfl, by decide, rfl, rfl, rfl, ?_, ?_⟩
    · intro i hi _; interval_cases i <;> rfl
    · intro c c' hc hcc
      have c0 : c 0 = 0 := hc.2
      have e0 : c' 0 = 0 := hcc 0 (by omega)
      have e1 : c' 1 = c 1 := hcc 1 (by omega)
      have e2 : c' 2 = c 2 := hcc 2 (by omega)
      refine near_of_eq ?_
      show shift (joinFace "periodicTransHigh" 1 ⟨4, 2, 3⟩) (⟨(c 0 : ℝ) + (0 : ℕ), c 1, c 2⟩ : V3) = ⟨(c' 0 : ℝ) + (1 : ℕ), c' 1, c' 2⟩
      rw [c0, e0, e1, e2]
      simp [shift, joinFace, V3.ext_iff]
  · refine ⟨⟨1, 2, 3⟩, cubeBlk 1 (joinFace "periodicTransLow" 0 ⟨4, 2, 3⟩) wallFace, 1, rfl, by decide, rfl, rfl, rfl, ?_, ?_⟩
    · intro i hi _; interval_cases i <;> rfl
    · intro c c' hc hcc
      have c0 : c 0 = 1 := hc.2
      have e0 : c' 0 = 0 := hcc 0 (by omega)
      have e1 : c' 1 = c 1 := hcc 1 (by omega)
      have e2 : c' 2 = c 2 := hcc 2 (by omega)
      refine near_of_eq ?_
      show (⟨(c 0 : ℝ) + (0 : ℕ), c 1, c 2⟩ : V3) = ⟨(c' 0 : ℝ) + (1 : ℕ), c' 1, c' 2⟩
      rw [c0, e0, e1, e2]
      norm_num
  · refine ⟨⟨4, 2, 3⟩, cubeBlk 0 (joinFace "periodicTransHigh" 1 ⟨4, 2, 3⟩) (joinFace "b0" 1 ⟨1, 2, 3⟩), 1, rfl, by decide, rfl, rfl, rfl, ?_, ?_⟩
    · intro i hi _; interval_cases i <;> rfl
    · intro c c' hc hcc
      have c0 : c 0 = 0 := hc.2
      have e0 : c' 0 = 0 := hcc 0 (by omega)
      have e1 : c' 1 = c 1 := hcc 1 (by omega)
      have e2 : c' 2 = c 2 := hcc 2 (by omega)
      refine near_of_eq ?_
      show shift (joinFace "periodicTransLow" 0 ⟨4, 2, 3⟩) (⟨(c 0 : ℝ) + (1 : ℕ), c 1, c 2⟩ : V3) = ⟨(c' 0 : ℝ) + (0 : ℕ), c' 1, c' 2⟩
      rw [c0, e0, e1, e2]
      simp [shift, joinFace, V3.ext_iff]
  · exact wall_good

end PG.Util
