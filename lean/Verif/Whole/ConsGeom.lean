import Verif.Whole.ConsSpec
import Verif.Whole.Step
import Mathlib.Algebra.BigOperators.Ring.Finset
import Mathlib.Algebra.BigOperators.Fin
/-!
Geometry for C93: connections are symmetric, lines continue through connections, sums of differences telescope.
-/
noncomputable section
namespace PG.Whole
open PG.Topo PG.Halo PG.Time

theorem back_table : ∀ a : Fin 6, ∀ b : Fin 6, ∀ c : Fin 6,
    (⟨a.val+1, b.val+1, c.val+1⟩ : Ori).Legal →
    (neighborOrientation ⟨a.val+1, b.val+1, c.val+1⟩).all (fun oB => ∀ i : Fin 3,
      axisOf (oB.get (axisOf ((⟨a.val+1, b.val+1, c.val+1⟩ : Ori).get i))) = i ∧
      reversed (oB.get (axisOf ((⟨a.val+1, b.val+1, c.val+1⟩ : Ori).get i))) = reversed ((⟨a.val+1, b.val+1, c.val+1⟩ : Ori).get i)) = true := by
  decide +kernel

theorem back_get {o oB : Ori} (ho : o.Legal) (h : neighborOrientation o = some oB) (i : Nat) (hi : i < 3) :
    axisOf (oB.get (axisOf (o.get i))) = i ∧ reversed (oB.get (axisOf (o.get i))) = reversed (o.get i) := by
  refine legal_cases (fun o => ∀ oB, neighborOrientation o = some oB →
    axisOf (oB.get (axisOf (o.get i))) = i ∧ reversed (oB.get (axisOf (o.get i))) = reversed (o.get i)) ?_ o ho oB h
  intro a b c hl oB e
  have := back_table a b c hl
  rw [e] at this
  simp only [Option.all_some, decide_eq_true_eq] at this
  exact this ⟨i, hi⟩

theorem axisOf_lt (d : Nat) : axisOf d < 3 := Nat.mod_lt _ (by omega)

/-- glued positions seen from the other block -/
theorem glued_back {nf nfB : Nat} {o oB : Ori} {fl : Bool × Bool × Bool} (hn : 1 ≤ nf ∧ nf ≤ 6) (hc : Conn nf o nfB oB fl)
    (ho : o.Legal) (hoB : neighborOrientation o = some oB)
    {kind : Kind} {dA dB : Dims} (hs : SizesMatch nf o dA dB) {c c' : Nat → Int} (h : Glued kind nf o dA dB c c') :
    Glued kind nfB oB dB dA c' c := by
  intro j hj
  -- j is the image of an axis i of A
  obtain ⟨i, hi, rfl⟩ : ∃ i, i < 3 ∧ j = axisOf (o.get i) := by
    have := back_get (o := oB) (oB := o) hc.legalB hc.back_o j hj
    exact ⟨axisOf (oB.get j), axisOf_lt _, this.1.symm⟩
  obtain ⟨e1, e2⟩ := back_get ho hoB i hi
  have g := h i hi
  dsimp only at g ⊢
  rw [e1, e2]
  have hni : (axisOf (o.get i) = normalAxis nfB) ↔ i = normalAxis nf := by
    constructor
    · intro e
      have h3 := (axes_distinct nf hn).1
      have q := (back_get ho hoB _ h3).1
      rw [← hc.normal, ← e, e1] at q
      exact q
    · rintro rfl; exact hc.normal.symm
  have hlow := hc.low
  by_cases hin : i = normalAxis nf
  · rw [if_pos (hni.2 hin)]
    rw [if_pos hin] at g
    rw [← hin] at hlow
    generalize c' (axisOf (o.get i)) = x at *
    generalize last kind dB (axisOf (o.get i)) = lB at *
    generalize last kind dA i = lA at *
    generalize c i = y at *
    generalize gap kind = gp at *
    cases hl : isLow nf <;> cases hr : reversed (o.get i) <;>
      simp only [hl, hr, if_true, if_false, Bool.false_eq_true, beq_self_eq_true, beq_true, beq_false, Bool.not_true, Bool.not_false] at g hlow ⊢ <;>
      simp only [hlow, if_true, if_false, Bool.false_eq_true] <;> omega
  · rw [if_neg (fun e => hin (hni.1 e))]
    rw [if_neg hin] at g
    have hsi := hs i hi hin
    rw [last_gap kind dB] at g
    rw [last_gap kind dA]
    split_ifs at g ⊢ <;> omega

theorem nat_lt (p : Pos) {i : Nat} (hi : i < 3) : nat p i = p ⟨i, hi⟩ := dif_pos hi

/-- a line through a connection: if the first halo cell of A is the first cell `p'` of B, the line continues there -/
theorem glued_line {nf nfB : Nat} {o oB : Ori} {fl : Bool × Bool × Bool} (hn : 1 ≤ nf ∧ nf ≤ 6) (hc : Conn nf o nfB oB fl)
    (ho : o.Legal) (hoB : neighborOrientation o = some oB) {dA dB : Dims} {p p' : Pos}
    (h : Glued .ccAll nf o dA dB (nat (along nf dA p (-1))) (nat p')) (t : Int) :
    Glued .ccAll nf o dA dB (nat (along nf dA p t)) (nat (along nfB dB p' (-1 - t))) := by
  intro i hi
  have g := h i hi
  dsimp only at g ⊢
  rw [nat_lt _ (axisOf_lt _), nat_lt _ hi] at g ⊢
  have hax : (⟨i, hi⟩ : Fin 3) = axis nf ↔ i = normalAxis nf := by
    rw [← axis_val hn]; exact ⟨fun e => congrArg Fin.val e, fun e => Fin.ext e⟩
  have haxB : (⟨axisOf (o.get i), axisOf_lt _⟩ : Fin 3) = axis nfB ↔ i = normalAxis nf := by
    have hb : (⟨axisOf (o.get i), axisOf_lt _⟩ : Fin 3) = axis nfB ↔ axisOf (o.get i) = normalAxis nfB := by
      rw [← axis_val hc.nfB_range]; exact ⟨fun e => congrArg Fin.val e, fun e => Fin.ext e⟩
    rw [hb]
    constructor
    · intro e
      have h3 := (axes_distinct nf hn).1
      have q := (back_get ho hoB _ h3).1
      rw [← hc.normal, ← e, (back_get ho hoB i hi).1] at q
      exact q
    · rintro rfl; exact hc.normal.symm
  by_cases hin : i = normalAxis nf
  · rw [if_pos hin] at g ⊢
    have hlow := hc.low
    rw [← hin] at hlow
    have hv : (axis nf : Fin 3) = ⟨i, hi⟩ := (hax.2 hin).symm
    have hvB : (axis nfB : Fin 3) = ⟨axisOf (o.get i), axisOf_lt _⟩ := (haxB.2 hin).symm
    simp only [along, hv, hvB, if_true] at g ⊢
    have e1 : top dA ⟨i, hi⟩ = last .ccAll dA i := rfl
    have e2 : top dB ⟨axisOf (o.get i), axisOf_lt _⟩ = last .ccAll dB (axisOf (o.get i)) := rfl
    rw [e1] at g ⊢
    rw [e2]
    clear e1 e2
    generalize p' _ = x at *
    generalize last .ccAll dB (axisOf (o.get i)) = lB at *
    generalize last .ccAll dA i = lA at *
    simp only [gap] at g ⊢
    cases hl : isLow nf <;> cases hr : reversed (o.get i) <;>
      simp only [hl, hr, if_true, if_false, Bool.false_eq_true, beq_self_eq_true, beq_true, beq_false, Bool.not_true, Bool.not_false] at g hlow ⊢ <;>
      simp only [hlow, if_true, if_false, Bool.false_eq_true] <;> omega
  · rw [if_neg hin] at g ⊢
    rw [along_other (fun e => hin (haxB.1 e)), along_other (fun e => hin (hax.1 e))]
    rw [along_other (fun e => hin (hax.1 e))] at g
    exact g

/-- the first halo cell of A is a first interior cell of B -/
theorem glued_dep {nf nfB : Nat} {o oB : Ori} {fl : Bool × Bool × Bool} (hn : 1 ≤ nf ∧ nf ≤ 6) (hc : Conn nf o nfB oB fl)
    {dA dB : Dims} {p p' : Pos} (h : Glued .ccAll nf o dA dB (nat p) (nat p')) : dep nfB dB p' = -1 - dep nf dA p := by
  have h3 := (axes_distinct nf hn).1
  have g := h (normalAxis nf) h3
  dsimp only at g
  rw [if_pos rfl, ← hc.normal] at g
  have h3B := (axes_distinct nfB hc.nfB_range).1
  rw [nat_lt _ h3, nat_lt _ h3B] at g
  have hv : (axis nf : Fin 3) = ⟨normalAxis nf, h3⟩ := Fin.ext (axis_val hn)
  have hvB : (axis nfB : Fin 3) = ⟨normalAxis nfB, h3B⟩ := Fin.ext (axis_val hc.nfB_range)
  have hlow := hc.low
  unfold dep
  rw [hv, hvB]
  have e1 : top dA ⟨normalAxis nf, h3⟩ = last .ccAll dA (normalAxis nf) := rfl
  have e2 : top dB ⟨normalAxis nfB, h3B⟩ = last .ccAll dB (normalAxis nfB) := rfl
  rw [e1, e2]
  clear e1 e2
  generalize last .ccAll dB (normalAxis nfB) = lB at *
  generalize last .ccAll dA (normalAxis nf) = lA at *
  generalize p' ⟨normalAxis nfB, h3B⟩ = x at *
  generalize p ⟨normalAxis nf, h3⟩ = y at *
  simp only [gap] at g
  cases hl : isLow nf <;> cases hr : reversed (o.get (normalAxis nf)) <;>
    simp only [hl, hr, if_true, if_false, Bool.false_eq_true, beq_self_eq_true, beq_true, beq_false, Bool.not_true, Bool.not_false] at g hlow ⊢ <;>
    simp only [hlow, if_true, if_false, Bool.false_eq_true] <;> omega

theorem glued_unique {nf : Nat} {o : Ori} (ho : o.Legal) {dA dB : Dims} {c : Nat → Int} {p p' : Pos}
    (h : Glued .ccAll nf o dA dB c (nat p)) (h' : Glued .ccAll nf o dA dB c (nat p')) : p = p' := by
  obtain ⟨oB, e⟩ : ∃ oB, neighborOrientation o = some oB := by
    obtain ⟨_, oB, _, _, e, _⟩ := conn_exists 1 (by omega) o ho
    exact ⟨oB, e⟩
  obtain ⟨nfB, oB', fl, e1, e2, e3, hc⟩ := conn_exists 1 (by omega) o ho
  rw [e] at e2; cases e2
  funext a
  have hb := back_get (o := oB) (oB := o) hc.legalB hc.back_o a a.2
  have g := h (axisOf (oB.get a)) (axisOf_lt _)
  have g' := h' (axisOf (oB.get a)) (axisOf_lt _)
  dsimp only at g g'
  rw [hb.1] at g g'
  rw [← g', nat_fin, nat_fin] at g
  exact g

/-! ### sums -/

theorem mem_cells {d : Dims} {p : Pos} : p ∈ cells d ↔ InBox 0 d p := by
  unfold cells; rw [Fintype.mem_piFinset, inbox0]; simp only [Finset.mem_Icc]

theorem mem_faceCells {d : Dims} {nf : Nat} {p : Pos} : p ∈ faceCells d nf ↔ InBox 0 d p ∧ dep nf d p = 0 := by
  unfold faceCells; rw [Finset.mem_filter, mem_cells]

theorem lowFace_val (a : Fin 3) : axis (2 * (a : Nat) + 1) = a ∧ isLow (2 * (a : Nat) + 1) = true :=
  ⟨Fin.ext (by rw [axis_val (by have := a.2; omega)]; unfold normalAxis; omega), by unfold isLow; simp⟩

theorem highFace_val (a : Fin 3) : axis (2 * (a : Nat) + 2) = a ∧ isLow (2 * (a : Nat) + 2) = false :=
  ⟨Fin.ext (by rw [axis_val (by have := a.2; omega)]; unfold normalAxis; omega), by unfold isLow; simp⟩

/-- telescoping along one axis -/
theorem tele_axis (d : Dims) (a : Fin 3) (F : Pos → ℝ) :
    ∑ p ∈ cells d, (F p - F (shift p a 1)) =
      ∑ p ∈ faceCells d (2 * (a : Nat) + 1), F p - ∑ p ∈ faceCells d (2 * (a : Nat) + 2), F (shift p a 1) := by
  rw [Finset.sum_sub_distrib]
  have h1 : ∑ p ∈ cells d, F p = ∑ p ∈ faceCells d (2 * (a : Nat) + 1), F p + ∑ p ∈ (cells d).filter (fun p => ¬ dep (2 * (a : Nat) + 1) d p = 0), F p :=
    (Finset.sum_filter_add_sum_filter_not _ _ _).symm
  have h2 : ∑ p ∈ cells d, F (shift p a 1) = ∑ p ∈ faceCells d (2 * (a : Nat) + 2), F (shift p a 1)
      + ∑ p ∈ (cells d).filter (fun p => ¬ dep (2 * (a : Nat) + 2) d p = 0), F (shift p a 1) :=
    (Finset.sum_filter_add_sum_filter_not _ _ _).symm
  have h3 : ∑ p ∈ (cells d).filter (fun p => ¬ dep (2 * (a : Nat) + 2) d p = 0), F (shift p a 1)
      = ∑ p ∈ (cells d).filter (fun p => ¬ dep (2 * (a : Nat) + 1) d p = 0), F p := by
    obtain ⟨l1, l2⟩ := lowFace_val a
    obtain ⟨u1, u2⟩ := highFace_val a
    refine Finset.sum_bij' (fun p _ => shift p a 1) (fun p _ => shift p a (-1)) ?_ ?_ ?_ ?_ ?_
    · intro p hp
      rw [Finset.mem_filter, mem_cells, inbox0] at hp ⊢
      simp only [dep, l1, l2, u1, u2, if_true, Bool.false_eq_true, if_false] at hp ⊢
      refine ⟨fun b => ?_, ?_⟩
      · by_cases e : b = a
        · subst e; rw [shift_at]; have := hp.1 b; omega
        · rw [shift_other e]; exact hp.1 b
      · rw [shift_at]; have := hp.1 a; omega
    · intro p hp
      rw [Finset.mem_filter, mem_cells, inbox0] at hp ⊢
      simp only [dep, l1, l2, u1, u2, if_true, Bool.false_eq_true, if_false] at hp ⊢
      refine ⟨fun b => ?_, ?_⟩
      · by_cases e : b = a
        · subst e; rw [shift_at]; have := hp.1 b; omega
        · rw [shift_other e]; exact hp.1 b
      · rw [shift_at]; have := hp.1 a; omega
    · intro p _
      rw [shift_shift]; funext b; unfold shift; split_ifs <;> omega
    · intro p _
      rw [shift_shift]; funext b; unfold shift; split_ifs <;> omega
    · intro p _; rfl
  rw [h1, h2, h3]; ring

/-- the six faces -/
theorem sum_faces (φ : Nat → ℝ) : ∑ nf ∈ Finset.Icc 1 6, φ nf = ∑ a : Fin 3, (φ (2 * (a : Nat) + 1) + φ (2 * (a : Nat) + 2)) := by
  have : Finset.Icc 1 6 = {1, 2, 3, 4, 5, 6} := by decide
  rw [this, Fin.sum_univ_three]
  simp
  ring

end PG.Whole
