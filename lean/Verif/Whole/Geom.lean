import Verif.Whole.Spec
import Mathlib.Tactic.SplitIfs
/-!
Geometry of cells, halos and lines for C91.
-/
noncomputable section
namespace PG.Whole
open PG.Topo PG.Halo PG.Time

theorem axis_val {nf : Nat} (h : 1 ≤ nf ∧ nf ≤ 6) : ((axis nf : Fin 3) : Nat) = normalAxis nf := by
  unfold axis normalAxis; dsimp only; omega

theorem top_first (d : Dims) (a : Fin 3) : last .ccFirst d a = top d a := rfl
theorem top_all (d : Dims) (a : Fin 3) : last .ccAll d a = top d a := rfl

theorem nat_fin (p : Pos) (a : Fin 3) : nat p a = p a := by
  unfold nat; rw [dif_pos a.2]

theorem inbox0 {d : Dims} {p : Pos} : InBox 0 d p ↔ ∀ a, 0 ≤ p a ∧ p a ≤ top d a := by
  unfold InBox; simp

theorem kind_cases {kind : Kind} (h : kind ≠ .node) : kind = .ccAll ∨ kind = .ccFirst := by
  cases kind <;> simp_all

theorem last_top {kind : Kind} (h : kind ≠ .node) (d : Dims) (a : Fin 3) : last kind d a = top d a := by
  rcases kind_cases h with rfl | rfl <;> rfl

theorem depth_dep {kind : Kind} (hk : kind ≠ .node) {nf : Nat} (h : 1 ≤ nf ∧ nf ≤ 6) (d : Dims) (p : Pos) :
    depthBehind kind nf d (nat p) = - dep nf d p := by
  unfold depthBehind dep
  rw [← axis_val h, nat_fin, last_top hk]
  split_ifs <;> omega

theorem glued_kind {kind : Kind} (hk : kind ≠ .node) {nf : Nat} {o : Ori} {dA dB : Dims} {c c' : Nat → Int} :
    Glued kind nf o dA dB c c' ↔ Glued .ccAll nf o dA dB c c' := by
  rcases kind_cases hk with rfl | rfl <;> exact Iff.rfl

theorem dep_inside {nf : Nat} {d : Dims} {p : Pos} (h : InBox 0 d p) : 0 ≤ dep nf d p := by
  have := inbox0.1 h (axis nf)
  unfold dep; split_ifs <;> omega

/-- a cell behind one face is behind no other -/
theorem halo_unique {m : Int} {nf nf' : Nat} (hn : 1 ≤ nf ∧ nf ≤ 6) (hn' : 1 ≤ nf' ∧ nf' ≤ 6) (hne : nf ≠ nf') {d : Dims}
    (hd : ∀ a, 0 ≤ top d a) {p : Pos} (h : HaloOf m nf d p) : 0 ≤ dep nf' d p := by
  obtain ⟨-, h2, h3⟩ := h
  by_cases e : axis nf' = axis nf
  · have e1 := axis_val hn
    have e2 := axis_val hn'
    rw [e, e1] at e2
    have hlow : isLow nf ≠ isLow nf' := by
      unfold isLow; unfold normalAxis at e2
      intro h; apply hne
      have : (nf % 2 == 1) = (nf' % 2 == 1) := h
      have : nf % 2 = 1 ↔ nf' % 2 = 1 := by simpa using this
      omega
    unfold dep at h2 ⊢
    have := hd (axis nf)
    rw [e]
    clear hd h3 hne
    cases hl : isLow nf <;> cases hl' : isLow nf' <;> simp_all <;> omega
  · have := h3 _ e
    unfold dep; split_ifs <;> omega

theorem halo_outside {m : Int} {nf : Nat} {d : Dims} {p : Pos} (h : HaloOf m nf d p) : ¬ InBox 0 d p := by
  intro hi
  have := dep_inside (nf := nf) hi
  have := h.2.1
  omega

theorem dep_along {nf : Nat} {d : Dims} {p : Pos} (t : Int) : dep nf d (along nf d p t) = t := by
  unfold dep along; simp only [if_true]; split_ifs <;> omega

theorem along_dep {nf : Nat} {d : Dims} (p : Pos) : along nf d p (dep nf d p) = p := by
  funext a
  unfold along dep
  by_cases e : a = axis nf
  · subst e; simp only [if_true]; split_ifs <;> omega
  · simp only [if_neg e]

theorem along_other {nf : Nat} {d : Dims} {p : Pos} {t : Int} {a : Fin 3} (h : a ≠ axis nf) : along nf d p t a = p a := by
  unfold along; rw [if_neg h]

theorem halo_along {m k : Int} {nf : Nat} {d : Dims} {p : Pos} (h : HaloOf m nf d p) {t : Int} (h1 : -k ≤ t) (h2 : t < 0) :
    HaloOf k nf d (along nf d p t) := by
  refine ⟨by rw [dep_along]; exact h1, by rw [dep_along]; exact h2, fun a ha => ?_⟩
  rw [along_other ha]; exact h.2.2 a ha

theorem inside_along {m : Int} {nf : Nat} {d : Dims} {p : Pos} (h : HaloOf m nf d p) {t : Int} (h1 : 0 ≤ t)
    (h2 : t ≤ top d (axis nf)) : InBox 0 d (along nf d p t) := by
  rw [inbox0]
  intro a
  by_cases e : a = axis nf
  · subst e; unfold along; simp only [if_true]; split_ifs <;> omega
  · rw [along_other e]; exact h.2.2 a e

theorem near_along {m k : Int} {nf : Nat} (hn : 1 ≤ nf ∧ nf ≤ 6) {d : Dims} {p : Pos} (h : HaloOf m nf d p) {t : Int}
    (h1 : -k ≤ t) (h2 : t ≤ top d (axis nf)) : Near k d (along nf d p t) := by
  by_cases e : t < 0
  · exact Or.inr ⟨nf, hn, halo_along h h1 e⟩
  · exact Or.inl (inside_along h (by omega) h2)

theorem halo_mono {m k : Int} (hmk : m ≤ k) {nf : Nat} {d : Dims} {p : Pos} (h : HaloOf m nf d p) : HaloOf k nf d p :=
  ⟨by have := h.1; omega, h.2⟩

theorem near_mono {m k : Int} (hmk : m ≤ k) {d : Dims} {p : Pos} (h : Near m d p) : Near k d p := by
  rcases h with h | ⟨nf, hn, h⟩
  · exact Or.inl h
  · exact Or.inr ⟨nf, hn, halo_mono hmk h⟩

theorem near_inbox {m : Int} (hm : 0 ≤ m) {d : Dims} (hd : ∀ a, 0 ≤ top d a) {p : Pos} (h : Near m d p) : InBox m d p := by
  rcases h with h | ⟨nf, hn, h1, h2, h3⟩
  · intro a; have := inbox0.1 h a; omega
  · intro a
    by_cases e : a = axis nf
    · subst e; have := hd (axis nf); unfold dep at h1 h2; split_ifs at h1 h2 <;> omega
    · have := h3 a e; omega

theorem shift_at (p : Pos) (d : Fin 3) (t : Int) : shift p d t d = p d + t := if_pos rfl
theorem shift_other {p : Pos} {d a : Fin 3} {t : Int} (h : a ≠ d) : shift p d t a = p a := if_neg h

theorem shift_shift (p : Pos) (d : Fin 3) (s t : Int) : shift (shift p d s) d t = shift p d (s + t) := by
  funext a; unfold shift; split_ifs <;> omega

/-- cells within `m` of an interior cell along an axis are near -/
theorem near_shift {m : Int} {d : Dims} {p : Pos} (h : InBox 0 d p) {a : Fin 3} {t : Int} (h1 : -m ≤ t) (h2 : t ≤ m) :
    Near m d (shift p a t) := by
  have hp := inbox0.1 h
  have ha := a.2
  by_cases e1 : p a + t < 0
  · refine Or.inr ⟨2 * a + 1, by omega, ?_⟩
    have hax : axis (2 * (a : Nat) + 1) = a := Fin.ext (by rw [axis_val (by omega)]; unfold normalAxis; omega)
    have hl : isLow (2 * (a : Nat) + 1) = true := by unfold isLow; simp
    have := hp a
    refine ⟨?_, ?_, fun b hb => ?_⟩
    · unfold dep; rw [hax, hl, shift_at]; simp only [if_true]; omega
    · unfold dep; rw [hax, hl, shift_at]; simp only [if_true]; omega
    · rw [hax] at hb; rw [shift_other hb]; exact hp b
  · by_cases e2 : top d a < p a + t
    · refine Or.inr ⟨2 * a + 2, by omega, ?_⟩
      have hax : axis (2 * (a : Nat) + 2) = a := Fin.ext (by rw [axis_val (by omega)]; unfold normalAxis; omega)
      have hl : isLow (2 * (a : Nat) + 2) = false := by unfold isLow; simp
      have := hp a
      refine ⟨?_, ?_, fun b hb => ?_⟩
      · unfold dep; rw [hax, hl, shift_at]; simp only [Bool.false_eq_true, if_false]; omega
      · unfold dep; rw [hax, hl, shift_at]; simp only [Bool.false_eq_true, if_false]; omega
      · rw [hax] at hb; rw [shift_other hb]; exact hp b
    · refine Or.inl (inbox0.2 fun b => ?_)
      by_cases e : b = a
      · subst e; rw [shift_at]; omega
      · rw [shift_other e]; exact hp b

theorem shift_add (p o : Pos) (d : Fin 3) (t : Int) : shift p d t + o = shift (p + o) d t := by
  funext a; simp only [Pi.add_apply, shift]; split_ifs <;> omega

/-- a touching face sees the same depths -/
theorem touch_dep {nf : Nat} {d' d : Dims} {o : Pos} (h : Touches nf d' d o) (p : Pos) : dep nf d (p + o) = dep nf d' p := by
  unfold Touches at h; unfold dep; simp only [Pi.add_apply]; split_ifs at h ⊢ <;> omega

theorem touch_along {nf : Nat} {d' d : Dims} {o : Pos} (h : Touches nf d' d o) (p : Pos) (t : Int) :
    along nf d' p t + o = along nf d (p + o) t := by
  funext a
  unfold Touches at h; simp only [Pi.add_apply, along]
  by_cases e : a = axis nf
  · subst e; simp only [if_true]; split_ifs at h ⊢ <;> omega
  · simp only [if_neg e]

theorem touch_halo {m : Int} {nf : Nat} {d' d : Dims} {o : Pos} (h : Touches nf d' d o)
    (hin : ∀ a, 0 ≤ o a ∧ o a + top d' a ≤ top d a) {p : Pos} (hp : HaloOf m nf d' p) : HaloOf m nf d (p + o) := by
  refine ⟨by rw [touch_dep h]; exact hp.1, by rw [touch_dep h]; exact hp.2.1, fun a ha => ?_⟩
  have := hp.2.2 a ha
  have := hin a
  simp only [Pi.add_apply]; omega

theorem inside_add {d' d : Dims} {o : Pos} (hin : ∀ a, 0 ≤ o a ∧ o a + top d' a ≤ top d a) {p : Pos} (hp : InBox 0 d' p) :
    InBox 0 d (p + o) := by
  rw [inbox0] at hp ⊢
  intro a
  have := hin a
  have := hp a
  simp only [Pi.add_apply]; omega

theorem moved_nat (o p : Pos) : ∀ i, i < 3 → moved o (nat p) i = nat (p + o) i := by
  intro i hi
  unfold moved nat; simp only [dif_pos hi, Pi.add_apply]

/-- position from coordinates -/
def pos (c : Nat → Int) : Pos := fun a => c a

theorem pos_nat (p : Pos) : pos (nat p) = p := funext fun a => nat_fin p a

theorem at_toArr {α : Type} (ng : Int) (f : Pos → α) (c : Nat → Int) : at' ng (toArr ng f) c = f (pos c) := by
  unfold at' toArr
  congr 1
  funext a
  unfold vec pos
  have : a = 0 ∨ a = 1 ∨ a = 2 := by omega
  rcases this with rfl | rfl | rfl <;> simp

theorem pos_moved (o : Pos) (c : Nat → Int) : pos (moved o c) = pos c + o := by
  funext a; unfold pos moved; simp only [Pi.add_apply]; rw [nat_fin]

theorem interior_pos {kind : Kind} (hk : kind ≠ .node) {d : Dims} {c : Nat → Int} (h : Interior kind d c) : InBox 0 d (pos c) := by
  rw [inbox0]; intro a
  have := h a a.2
  rw [last_top hk] at this; exact this

theorem interior_nat {kind : Kind} (hk : kind ≠ .node) {d : Dims} {p : Pos} (h : InBox 0 d p) : Interior kind d (nat p) := by
  intro i hi
  have := inbox0.1 h ⟨i, hi⟩
  rw [← last_top hk] at this
  unfold nat; rw [dif_pos hi]; exact this

theorem dims_top {world : List (List Block)} (hw : WellConnected world) {r : Nat} {b : Block} (hb : Owns world r b) (a : Fin 3) :
    0 ≤ top b.dims a := last_nonneg .ccAll b.dims (hw.cells r b hb) a

end PG.Whole
