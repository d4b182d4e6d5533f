import Verif.Whole.ConsGeom
import Verif.Mesh.Props
import Verif.Halo.Unify
import Mathlib.Tactic.FinCases
/-!
C93: the metrics of two connected blocks fit together if their node coordinates do.
-/
noncomputable section
namespace PG.Whole
open PG.Topo PG.Halo PG.Time PG.Mesh V3

/-- metrics of a cell: volume, centre, and of its three low faces area vector and centre (metrics.py) -/
structure Geo where
  J : ℝ
  J_pos : 0 < J
  xc : V3
  s : Fin 3 → V3
  xf : Fin 3 → V3

/-- nodes counted from node `p` on -/
def loc (X : Pos → V3) (p : Pos) : Nodes := fun i j k => X fun a => p a + (if a = 0 then i else if a = 1 then j else k : Nat)

/-- metrics of cell `p` of a block with node coordinates `X` (metrics.py:39-284; the low faces of cell `p` are the faces with
    the index of the cell) -/
def geoOf (X : Pos → V3) (p : Pos) : Geo where
  J := volume (loc X p) 0 0 0
  J_pos := volume_pos _ _ _ _
  xc := cellCentre (loc X p) 0 0 0
  s d := if d = 0 then iArea (loc X p) 0 0 0 else if d = 1 then jArea (loc X p) 0 0 0 else kArea (loc X p) 0 0 0
  xf d := if d = 0 then iCentre (loc X p) 0 0 0 else if d = 1 then jCentre (loc X p) 0 0 0 else kCentre (loc X p) 0 0 0

/-- what the arrays of metrics.py contain: entry (i,j,k) of the arrays is about the cell with coordinates (i-ng, j-ng, k-ng) -/
theorem geoOf_arrays (N : Nodes) (X : Pos → V3) (ng : Nat) (h : ∀ i j k : Nat, N i j k = X (vec (i - ng) (j - ng) (k - ng)))
    (i j k : Nat) :
    (geoOf X (vec (i - ng) (j - ng) (k - ng))).J = volume N i j k ∧ (geoOf X (vec (i - ng) (j - ng) (k - ng))).xc = cellCentre N i j k ∧
    (geoOf X (vec (i - ng) (j - ng) (k - ng))).s 0 = iArea N i j k ∧ (geoOf X (vec (i - ng) (j - ng) (k - ng))).s 1 = jArea N i j k ∧
    (geoOf X (vec (i - ng) (j - ng) (k - ng))).s 2 = kArea N i j k := by
  have e : ∀ a b c : Nat, loc X (vec (i - ng) (j - ng) (k - ng)) a b c = N (i + a) (j + b) (k + c) := by
    intro a b c
    rw [h]
    refine congrArg X (funext fun x => ?_)
    fin_cases x <;> simp [vec] <;> omega
  refine ⟨?_, ?_, ?_, ?_, ?_⟩ <;>
    simp [geoOf, volume, rawVolume, cellCentre, iArea, jArea, kArea, e]

/-- a corner of cell `p` -/
def corner (p : Pos) (α : Fin 3 → Bool) : Pos := fun a => p a + if α a then 1 else 0

def bits (x y z : Bool) : Fin 3 → Bool := fun a => if a = 0 then x else if a = 1 then y else z

/-- the corners of the low face of a cell in direction `d`, counted along the next two directions -/
def fbits (d : Fin 3) (x y : Bool) : Fin 3 → Bool := fun a => if a = d then false else if a = d + 1 then x else y

theorem loc_corner (X : Pos → V3) (p : Pos) (x y z : Bool) :
    X (corner p (bits x y z)) = loc X p (if x then 1 else 0) (if y then 1 else 0) (if z then 1 else 0) := by
  unfold loc corner bits
  refine congrArg X (funext fun a => ?_)
  fin_cases a <;> simp

theorem geo_s (X : Pos → V3) (p : Pos) (d : Fin 3) : (geoOf X p).s d =
    quadArea (X (corner p (fbits d false false))) (X (corner p (fbits d true false))) (X (corner p (fbits d true true)))
      (X (corner p (fbits d false true))) := by
  have e0 : ∀ x y, fbits 0 x y = bits false x y := by intro x y; funext a; fin_cases a <;> simp [fbits, bits]
  have e1 : ∀ x y, fbits 1 x y = bits y false x := by intro x y; funext a; fin_cases a <;> simp [fbits, bits]
  have e2 : ∀ x y, fbits 2 x y = bits x y false := by intro x y; funext a; fin_cases a <;> simp [fbits, bits]
  have h := C11_area_is_quad (loc X p) 0 0 0
  have hd : d = 0 ∨ d = 1 ∨ d = 2 := by fin_cases d <;> simp
  rcases hd with rfl | rfl | rfl
  · simp only [geoOf, e0, loc_corner, if_true, Bool.false_eq_true, if_false]; exact h.1
  · simp only [geoOf, e1, loc_corner, if_true, Bool.false_eq_true, if_false, one_ne_zero, ite_false]; exact h.2.1
  · simp only [geoOf, e2, loc_corner, if_true, Bool.false_eq_true, if_false]; exact h.2.2

/-- sum over the four corners of a face, and the eight of a cell -/
def sum4 (F : Bool → Bool → V3) : V3 := F false false + F false true + F true false + F true true
def sum8 (F : (Fin 3 → Bool) → V3) : V3 :=
  F (bits false false false) + F (bits false false true) + F (bits false true false) + F (bits false true true)
    + F (bits true false false) + F (bits true false true) + F (bits true true false) + F (bits true true true)

theorem geo_xf (X : Pos → V3) (p : Pos) (d : Fin 3) : (geoOf X p).xf d = smul (1/4) (sum4 fun x y => X (corner p (fbits d x y))) := by
  have e0 : ∀ x y, fbits 0 x y = bits false x y := by intro x y; funext a; fin_cases a <;> simp [fbits, bits]
  have e1 : ∀ x y, fbits 1 x y = bits y false x := by intro x y; funext a; fin_cases a <;> simp [fbits, bits]
  have e2 : ∀ x y, fbits 2 x y = bits x y false := by intro x y; funext a; fin_cases a <;> simp [fbits, bits]
  have hd : d = 0 ∨ d = 1 ∨ d = 2 := by fin_cases d <;> simp
  rcases hd with rfl | rfl | rfl
  · simp only [geoOf, e0, loc_corner, sum4, iCentre]; ext <;> simp
  · simp only [geoOf, e1, loc_corner, sum4, jCentre]; ext <;> simp <;> ring
  · simp only [geoOf, e2, loc_corner, sum4, kCentre]; ext <;> simp

theorem geo_xc (X : Pos → V3) (p : Pos) : (geoOf X p).xc = smul (1/8) (sum8 fun α => X (corner p α)) := by
  simp only [geoOf, loc_corner, sum8, cellCentre]; ext <;> simp

theorem sum8_fin (F : (Fin 3 → Bool) → V3) (g : V3 → ℝ) (hg : ∀ a b, g (a + b) = g a + g b) : g (sum8 F) = ∑ α, g (F α) := by
  have h : (Finset.univ : Finset (Fin 3 → Bool)) = ([bits false false false, bits false false true, bits false true false, bits false true true,
    bits true false false, bits true false true, bits true true false, bits true true true] : List _).toFinset := by decide
  rw [h, List.sum_toFinset _ (by decide)]
  simp only [sum8, hg, List.map_cons, List.map_nil, List.sum_cons, List.sum_nil]
  ring

/-! ### orientations -/

/-- the signed permutation matrix of an orientation -/
def Omat (o : Ori) (i j : Nat) : Int := if axisOf (o.get i) = j then (if reversed (o.get i) then -1 else 1) else 0
/-- its determinant -/
def odet (o : Ori) : Int :=
  Omat o 0 0 * (Omat o 1 1 * Omat o 2 2 - Omat o 1 2 * Omat o 2 1) - Omat o 0 1 * (Omat o 1 0 * Omat o 2 2 - Omat o 1 2 * Omat o 2 0)
    + Omat o 0 2 * (Omat o 1 0 * Omat o 2 1 - Omat o 1 1 * Omat o 2 0)
/-- both blocks are right handed -/
def Proper (o : Ori) : Prop := odet o = 1
instance (o : Ori) : Decidable (Proper o) := by unfold Proper; infer_instance

/-- axis of B that belongs to axis `a` of A -/
def oax (o : Ori) (a : Fin 3) : Fin 3 := ⟨axisOf (o.get a), axisOf_lt _⟩
def orev (o : Ori) (a : Fin 3) : Bool := reversed (o.get a)

theorem oax_inj_table : ∀ a : Fin 6, ∀ b : Fin 6, ∀ c : Fin 6, (⟨a.val+1, b.val+1, c.val+1⟩ : Ori).Legal →
    ∀ i j : Fin 3, oax ⟨a.val+1, b.val+1, c.val+1⟩ i = oax ⟨a.val+1, b.val+1, c.val+1⟩ j → i = j := by decide +kernel

theorem oax_inj {o : Ori} (ho : o.Legal) : Function.Injective (oax o) := by
  intro i j h
  exact legal_cases (fun o => ∀ i j : Fin 3, oax o i = oax o j → i = j) oax_inj_table o ho i j h

theorem proper_table : ∀ a : Fin 6, ∀ b : Fin 6, ∀ c : Fin 6, (⟨a.val+1, b.val+1, c.val+1⟩ : Ori).Legal →
    Proper ⟨a.val+1, b.val+1, c.val+1⟩ → ∀ d : Fin 3,
      (oax ⟨a.val+1, b.val+1, c.val+1⟩ (d + 1) = oax ⟨a.val+1, b.val+1, c.val+1⟩ d + 1 ∧
        oax ⟨a.val+1, b.val+1, c.val+1⟩ (d + 2) = oax ⟨a.val+1, b.val+1, c.val+1⟩ d + 2 ∧
        orev ⟨a.val+1, b.val+1, c.val+1⟩ d = xor (orev ⟨a.val+1, b.val+1, c.val+1⟩ (d + 1)) (orev ⟨a.val+1, b.val+1, c.val+1⟩ (d + 2))) ∨
      (oax ⟨a.val+1, b.val+1, c.val+1⟩ (d + 1) = oax ⟨a.val+1, b.val+1, c.val+1⟩ d + 2 ∧
        oax ⟨a.val+1, b.val+1, c.val+1⟩ (d + 2) = oax ⟨a.val+1, b.val+1, c.val+1⟩ d + 1 ∧
        orev ⟨a.val+1, b.val+1, c.val+1⟩ d = !xor (orev ⟨a.val+1, b.val+1, c.val+1⟩ (d + 1)) (orev ⟨a.val+1, b.val+1, c.val+1⟩ (d + 2))) := by
  decide +kernel

theorem proper_axes {o : Ori} (ho : o.Legal) (hp : Proper o) (d : Fin 3) :
    (oax o (d + 1) = oax o d + 1 ∧ oax o (d + 2) = oax o d + 2 ∧ orev o d = xor (orev o (d + 1)) (orev o (d + 2))) ∨
    (oax o (d + 1) = oax o d + 2 ∧ oax o (d + 2) = oax o d + 1 ∧ orev o d = !xor (orev o (d + 1)) (orev o (d + 2))) :=
  legal_cases (fun o => Proper o → ∀ d : Fin 3,
    (oax o (d + 1) = oax o d + 1 ∧ oax o (d + 2) = oax o d + 2 ∧ orev o d = xor (orev o (d + 1)) (orev o (d + 2))) ∨
    (oax o (d + 1) = oax o d + 2 ∧ oax o (d + 2) = oax o d + 1 ∧ orev o d = !xor (orev o (d + 1)) (orev o (d + 2)))) proper_table o ho hp d

/-- corner `α` of a cell of A is corner `α'` of the same cell of B -/
def Turned (o : Ori) (α α' : Fin 3 → Bool) : Prop := ∀ a, α' (oax o a) = xor (orev o a) (α a)

theorem corner_glued {nf : Nat} {o : Ori} {dA dB : Dims} {p p' : Pos} (h : Glued .ccAll nf o dA dB (nat p) (nat p'))
    {α α' : Fin 3 → Bool} (ht : Turned o α α') : Glued .node nf o dA dB (nat (corner p α)) (nat (corner p' α')) := by
  intro i hi
  have g := h i hi
  have t := ht ⟨i, hi⟩
  dsimp only at g ⊢
  rw [nat_lt _ (axisOf_lt _), nat_lt _ hi] at g ⊢
  unfold corner
  have e1 : oax o ⟨i, hi⟩ = ⟨axisOf (o.get i), axisOf_lt _⟩ := rfl
  have e2 : orev o ⟨i, hi⟩ = reversed (o.get i) := rfl
  rw [e1, e2] at t
  rw [t, g]
  rw [last_gap .ccAll dB, last_gap .ccAll dA]
  simp only [gap]
  generalize last .node dB (axisOf (o.get i)) = lB
  generalize last .node dA i = lA
  generalize p ⟨i, hi⟩ = x
  cases α ⟨i, hi⟩ <;> cases reversed (o.get i) <;> cases isLow nf <;> by_cases hin : i = normalAxis nf <;>
    simp [hin] <;> omega

theorem turned_exists {o : Ori} (ho : o.Legal) : ∃ e : (Fin 3 → Bool) ≃ (Fin 3 → Bool), ∀ α, Turned o α (e α) := by
  let π : Fin 3 ≃ Fin 3 := Equiv.ofBijective (oax o) ((Fintype.bijective_iff_injective_and_card _).2 ⟨oax_inj ho, rfl⟩)
  have hπ : ∀ a, π.symm (oax o a) = a := fun a => π.symm_apply_apply a
  refine ⟨⟨fun α b => xor (orev o (π.symm b)) (α (π.symm b)), fun β a => xor (orev o a) (β (oax o a)), ?_, ?_⟩, ?_⟩
  · intro α; funext a; simp only [hπ]; cases orev o a <;> simp
  · intro β; funext b
    have : oax o (π.symm b) = b := π.apply_symm_apply b
    simp only [this]
    cases orev o (π.symm b) <;> simp
  · intro α a
    simp only [Equiv.coe_fn_mk, hπ]

/-! ### grids that fit -/

/-- depth of a node plane behind a face: 0 on the face, 1 the first plane inside, -1 the first halo plane -/
def nodeDep (nf : Nat) (d : Dims) (c : Pos) : Int := if isLow nf then c (axis nf) else top d (axis nf) + 1 - c (axis nf)

/-- The node coordinates of connected blocks fit: on the common face, on the first plane of nodes inside and on the first
    plane of halo nodes, corresponding nodes are at the same place up to one translation per connection (zero for an interior
    connection, the period for a translational periodic one). -/
def Fits (X : Nat → Pos → V3) (W : List (List Block)) : Prop :=
  ∀ r b, Owns W r b → ∀ f ∈ b.faces, ∀ nb, f.neighbor = some nb → ∀ r' b', Owns W r' b' → b'.nblki = nb →
    ∃ v : V3, ∀ c c' : Pos, -1 ≤ nodeDep f.nface b.dims c → nodeDep f.nface b.dims c ≤ 1 →
      (∀ a, a ≠ axis f.nface → 0 ≤ c a ∧ c a ≤ top b.dims a + 1) →
      Glued .node f.nface f.ori b.dims b'.dims (nat c) (nat c') → X nb c' = X b.nblki c + v

theorem quad_turn (F F' : Bool → Bool → V3) (v : V3) (r1 r2 : Bool) (h : ∀ x y, F' (xor r1 x) (xor r2 y) = F x y + v) :
    quadArea (F' false false) (F' true false) (F' true true) (F' false true) =
      if xor r1 r2 then - quadArea (F false false) (F true false) (F true true) (F false true)
      else quadArea (F false false) (F true false) (F true true) (F false true) := by
  have h00 := h false false
  have h10 := h true false
  have h11 := h true true
  have h01 := h false true
  cases r1 <;> cases r2 <;> simp only [Bool.xor_false, Bool.xor_true, Bool.not_false, Bool.not_true] at h00 h10 h11 h01 <;>
    rw [h00, h10, h11, h01] <;> ext <;> simp [quadArea] <;> ring

theorem quad_swap (F F' : Bool → Bool → V3) (v : V3) (r1 r2 : Bool) (h : ∀ x y, F' (xor r2 y) (xor r1 x) = F x y + v) :
    quadArea (F' false false) (F' true false) (F' true true) (F' false true) =
      if xor r1 r2 then quadArea (F false false) (F true false) (F true true) (F false true)
      else - quadArea (F false false) (F true false) (F true true) (F false true) := by
  have h00 := h false false
  have h10 := h true false
  have h11 := h true true
  have h01 := h false true
  cases r1 <;> cases r2 <;> simp only [Bool.xor_false, Bool.xor_true, Bool.not_false, Bool.not_true] at h00 h10 h11 h01 <;>
    rw [h00, h10, h11, h01] <;> ext <;> simp [quadArea] <;> ring

theorem sum4_turn (F F' : Bool → Bool → V3) (v : V3) (r1 r2 : Bool) (h : ∀ x y, F' (xor r1 x) (xor r2 y) = F x y + v) :
    smul (1/4) (sum4 F') = smul (1/4) (sum4 F) + v := by
  have h00 := h false false
  have h10 := h true false
  have h11 := h true true
  have h01 := h false true
  unfold sum4
  cases r1 <;> cases r2 <;> simp only [Bool.xor_false, Bool.xor_true, Bool.not_false, Bool.not_true] at h00 h10 h11 h01 <;>
    rw [h00, h10, h11, h01] <;> ext <;> simp <;> ring

theorem sum4_swap (F F' : Bool → Bool → V3) (v : V3) (r1 r2 : Bool) (h : ∀ x y, F' (xor r2 y) (xor r1 x) = F x y + v) :
    smul (1/4) (sum4 F') = smul (1/4) (sum4 F) + v := by
  have h00 := h false false
  have h10 := h true false
  have h11 := h true true
  have h01 := h false true
  unfold sum4
  cases r1 <;> cases r2 <;> simp only [Bool.xor_false, Bool.xor_true, Bool.not_false, Bool.not_true] at h00 h10 h11 h01 <;>
    rw [h00, h10, h11, h01] <;> ext <;> simp <;> ring

end PG.Whole
