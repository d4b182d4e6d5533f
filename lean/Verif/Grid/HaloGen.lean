import Mathlib.Data.Real.Basic
import Mathlib.Algebra.BigOperators.Fin
import Mathlib.Tactic.Ring
import Mathlib.Tactic.Linarith
import Mathlib.Tactic.FinCases
/-!
Model of `src/peregrinepy/grid/generateHalo.py` and C15.

Simplifications. One coordinate array (the loops over `x`, `y`, `z` do the same thing to three arrays). Doubles are reals. Python's
negative indices are written from the front. An assignment `x[s0,:,:][mask] = expr` is taken to evaluate `expr` on the old array.
-/
namespace PG.HaloGen

/-- array position -/
abbrev Ix := Fin 3 → ℤ

/-- numbers of nodes `(ni, nj, nk)` and halo layers -/
structure Blk where
  n : Fin 3 → ℤ
  ng : ℕ

/-- the array being filled and the counter `temp` of the corner pass -/
structure St where
  x : Ix → ℝ
  temp : Ix → ℝ

/-- shapes of the masks, generateHalo.py:15-22, as the two directions in the face of normal direction `d` -/
def dirs : Fin 3 → Fin 3 × Fin 3
  | 0 => (1, 2)
  | 1 => (0, 2)
  | 2 => (0, 1)

/-- faceMask, generateHalo.py:28-31 -/
def faceMask (ng A B a b : ℤ) : Prop := (ng ≤ a ∧ a < A + ng) ∧ (ng ≤ b ∧ b < B + ng)

/-- edgeMask, generateHalo.py:33-39 -/
def edgeMask (ng A B a b : ℤ) : Prop :=
  ((0 ≤ a ∧ a < ng) ∧ (ng ≤ b ∧ b < B + ng)) ∨ ((ng ≤ a ∧ a < A + ng) ∧ (0 ≤ b ∧ b < ng)) ∨
  ((A + 2 * ng - ng ≤ a ∧ a < A + 2 * ng) ∧ (ng ≤ b ∧ b < B + ng)) ∨
  ((ng ≤ a ∧ a < A + ng) ∧ (B + 2 * ng - ng ≤ b ∧ b < B + 2 * ng))

/-- cornerMask, generateHalo.py:41-47 -/
def cornerMask (ng A B a b : ℤ) : Prop :=
  ((0 ≤ a ∧ a < ng) ∧ (0 ≤ b ∧ b < ng)) ∨ ((0 ≤ a ∧ a < ng) ∧ (B + 2 * ng - ng ≤ b ∧ b < B + 2 * ng)) ∨
  ((A + 2 * ng - ng ≤ a ∧ a < A + 2 * ng) ∧ (0 ≤ b ∧ b < ng)) ∨
  ((A + 2 * ng - ng ≤ a ∧ a < A + 2 * ng) ∧ (B + 2 * ng - ng ≤ b ∧ b < B + 2 * ng))

/-- the three passes -/
inductive Pass
  | faces
  | edges
  | corners
deriving DecidableEq

/-- one assignment: direction, plane written, planes read -/
structure Op where
  pass : Pass
  d : Fin 3
  s0 : ℤ
  s1 : ℤ
  s2 : ℤ

/-- positions written by an assignment -/
def On (b : Blk) (o : Op) (p : Ix) : Prop :=
  p o.d = o.s0 ∧
  (match o.pass with | .faces => faceMask | .edges => edgeMask | .corners => cornerMask)
    b.ng (b.n (dirs o.d).1) (b.n (dirs o.d).2) (p (dirs o.d).1) (p (dirs o.d).2)

open Classical in
/-- the assignments: lines 75 (faces), 147-152 (edges), 249-257 (corners) and the alike for the other faces. `e` is the
    extrapolated value. -/
noncomputable def rule (ps : Pass) (old temp e : ℝ) : ℝ :=
  match ps with
  | .faces => e
  | .edges => if old = 0 then e else 1 / 2 * old + 1 / 2 * e
  | .corners => if old = 0 then e else temp / (temp + 1) * old + (1 - temp / (temp + 1)) * e

open Classical in
/-- execute one assignment; the corner pass counts them (line 257) -/
noncomputable def exec (b : Blk) (st : St) (o : Op) : St where
  x p := if On b o p then
      rule o.pass (st.x p) (st.temp p) (2 * st.x (Function.update p o.d o.s1) - st.x (Function.update p o.d o.s2))
    else st.x p
  temp p := if o.pass = .corners ∧ On b o p then st.temp p + 1 else st.temp p

/-- faces 1, 3, 5 (generateHalo.py:66-95, 137-183, 236-299): layer `m` -/
def lowOp (b : Blk) (ps : Pass) (d : Fin 3) (m : ℕ) : Op :=
  if b.n d ≤ b.ng then ⟨ps, d, b.ng - m - 1, b.ng - m - 1 + 1, b.ng - m - 1 + 1 + 1⟩
  else ⟨ps, d, b.ng - m - 1, b.ng, b.ng + m + 1⟩

/-- the size tested for the high face of direction `d`: its own, except that the face pass tests `ni` for the faces 2, 4 and 6
    (generateHalo.py:101, 112, 123) -/
def tested (b : Blk) (ps : Pass) (d : Fin 3) : ℤ := if ps = .faces then b.n 0 else b.n d

/-- faces 2, 4, 6 (generateHalo.py:97-130, 185-231, 301-358): layer `m`, indices counted from the end -/
def highOp (b : Blk) (ps : Pass) (d : Fin 3) (m : ℕ) : Op :=
  let len := b.n d + 2 * b.ng
  if tested b ps d ≤ b.ng then ⟨ps, d, len + (-b.ng + m), len + (-b.ng + m - 1), len + (-b.ng + m - 1 - 1)⟩
  else ⟨ps, d, len + (-b.ng + m), len + (-b.ng - 1), len + (-b.ng - m - 2)⟩

def lows (b : Blk) (ps : Pass) (d : Fin 3) : List Op := (List.range b.ng).map (lowOp b ps d)
def highs (b : Blk) (ps : Pass) (d : Fin 3) : List Op := (List.range b.ng).map (highOp b ps d)

/-- one pass: faces 1, 3, 5, 2, 4, 6 -/
def passOps (b : Blk) (ps : Pass) : List Op :=
  lows b ps 0 ++ (lows b ps 1 ++ (lows b ps 2 ++ (highs b ps 0 ++ (highs b ps 1 ++ highs b ps 2))))

/-- a coordinate of the nodes of the block -/
def InnerC (b : Blk) (d : Fin 3) (s : ℤ) : Prop := b.ng ≤ s ∧ s < b.n d + b.ng

open Classical in
/-- the halo is set to zero, generateHalo.py:53-61 -/
noncomputable def zeroHalo (b : Blk) (x : Ix → ℝ) : Ix → ℝ :=
  fun p => if ∃ d, (0 ≤ p d ∧ p d < b.ng) ∨ (b.n d + 2 * b.ng - b.ng ≤ p d ∧ p d < b.n d + 2 * b.ng) then 0 else x p

/-- generateHalo for one coordinate array; `temp` starts from zero for the corner pass (line 236) and is not used before -/
noncomputable def generateHalo (b : Blk) (x : Ix → ℝ) : Ix → ℝ :=
  ((passOps b .faces ++ (passOps b .edges ++ passOps b .corners)).foldl (exec b) ⟨zeroHalo b x, fun _ => 0⟩).x

/-! ### specification -/

/-- positions of the array -/
def Box (b : Blk) (p : Ix) : Prop := ∀ d, 0 ≤ p d ∧ p d < b.n d + 2 * b.ng

/-- positions of the nodes of the block -/
def Inner (b : Blk) (p : Ix) : Prop := ∀ d, InnerC b d (p d)

/-- an affine function of the index -/
def affine (c0 : ℝ) (c : Fin 3 → ℝ) (p : Ix) : ℝ := c0 + ∑ d, c d * p d

/-! ### proof -/

def Ready (b : Blk) : (Ix → Prop) → List Op → Prop
  | _, [] => True
  | W, o :: os => (∀ p, Box b p → On b o p → (Box b (Function.update p o.d o.s1) ∧ W (Function.update p o.d o.s1)) ∧
      Box b (Function.update p o.d o.s2) ∧ W (Function.update p o.d o.s2)) ∧ 2 * o.s1 - o.s2 = o.s0 ∧
      Ready b (fun p => W p ∨ On b o p) os

def Written (b : Blk) (l : List Op) (p : Ix) : Prop := ∃ o ∈ l, On b o p

theorem ready_mono {b : Blk} {W W' : Ix → Prop} (h : ∀ p, W p → W' p) : ∀ l, Ready b W l → Ready b W' l := by
  intro l
  induction l generalizing W W' with
  | nil => intro _; trivial
  | cons o os ih =>
    rintro ⟨h1, h2, h3⟩
    refine ⟨fun p hb ho => ?_, h2, ih (fun p hp => hp.imp_left (h p)) h3⟩
    obtain ⟨⟨a, a'⟩, c, c'⟩ := h1 p hb ho
    exact ⟨⟨a, h _ a'⟩, c, h _ c'⟩

theorem ready_append {b : Blk} {W : Ix → Prop} : ∀ l l', Ready b W l → Ready b (fun p => W p ∨ Written b l p) l' →
    Ready b W (l ++ l') := by
  intro l
  induction l generalizing W with
  | nil =>
    intro l' _ h
    exact ready_mono (fun p hp => hp.elim id (fun ⟨o, ho, _⟩ => by simp at ho)) _ h
  | cons o os ih =>
    rintro l' ⟨h1, h2, h3⟩ h4
    refine ⟨h1, h2, ih _ h3 (ready_mono ?_ _ h4)⟩
    rintro p (hp | ⟨o', ho', hp⟩)
    · exact Or.inl (Or.inl hp)
    · rcases List.mem_cons.1 ho' with rfl | h
      · exact Or.inl (Or.inr hp)
      · exact Or.inr ⟨o', h, hp⟩

theorem ready_range {b : Blk} {W : Ix → Prop} (f : ℕ → Op) : ∀ m : ℕ,
    (∀ k < m, 2 * (f k).s1 - (f k).s2 = (f k).s0 ∧ ∀ p, Box b p → On b (f k) p →
      ∀ s, s = (f k).s1 ∨ s = (f k).s2 → Box b (Function.update p (f k).d s) ∧
        (W (Function.update p (f k).d s) ∨ ∃ k' < k, On b (f k') (Function.update p (f k).d s))) →
    Ready b W ((List.range m).map f) := by
  intro m
  induction m with
  | zero => intro _; trivial
  | succ m ih =>
    intro h
    rw [List.range_succ, List.map_append]
    refine ready_append _ _ (ih fun k hk => h k (by omega)) ?_
    obtain ⟨h1, h2⟩ := h m (by omega)
    refine ⟨fun p hb ho => ?_, h1, trivial⟩
    have key : ∀ s, s = (f m).s1 ∨ s = (f m).s2 → Box b (Function.update p (f m).d s) ∧
        (W (Function.update p (f m).d s) ∨ Written b ((List.range m).map f) (Function.update p (f m).d s)) := by
      intro s hs
      obtain ⟨hb', hw⟩ := h2 p hb ho s hs
      refine ⟨hb', hw.imp_right ?_⟩
      rintro ⟨k', hk', hon⟩
      exact ⟨f k', List.mem_map.2 ⟨k', List.mem_range.2 hk', rfl⟩, hon⟩
    exact ⟨key _ (Or.inl rfl), key _ (Or.inr rfl)⟩

/-- every position of the array is either exact and in `W`, or zero -/
def Inv (b : Blk) (A : Ix → ℝ) (W : Ix → Prop) (st : St) : Prop :=
  ∀ p, Box b p → (W p → st.x p = A p) ∧ (¬ W p → st.x p = 0)

theorem affine_extrap (c0 : ℝ) (c : Fin 3 → ℝ) (p : Ix) (d : Fin 3) (s0 s1 s2 : ℤ) (h : 2 * s1 - s2 = s0) (hp : p d = s0) :
    2 * affine c0 c (Function.update p d s1) - affine c0 c (Function.update p d s2) = affine c0 c p := by
  have hr : 2 * (s1:ℝ) - s2 = s0 := by exact_mod_cast h
  have hpr : (p d : ℝ) = s0 := by exact_mod_cast hp
  unfold affine
  fin_cases d <;> simp [Fin.sum_univ_three, Function.update] <;> simp at hpr <;> rw [hpr, ← hr] <;> ring

theorem exec_inv {b : Blk} {c0 : ℝ} {c : Fin 3 → ℝ} (l : List Op) : ∀ {W : Ix → Prop} {st : St},
    Inv b (affine c0 c) W st → Ready b W l →
    Inv b (affine c0 c) (fun p => W p ∨ Written b l p) (l.foldl (exec b) st) := by
  classical
  induction l with
  | nil =>
    intro W st h _ p hb
    obtain ⟨h1, h2⟩ := h p hb
    refine ⟨fun hw => h1 (hw.elim id fun ⟨o, ho, _⟩ => by simp at ho), fun hw => h2 fun hc => hw (Or.inl hc)⟩
  | cons o os ih =>
    rintro W st h ⟨r1, r2, r3⟩
    have step : Inv b (affine c0 c) (fun p => W p ∨ On b o p) (exec b st o) := by
      intro p hb
      by_cases ho : On b o p
      · refine ⟨fun _ => ?_, fun hc => absurd (Or.inr ho) hc⟩
        obtain ⟨⟨a1, a2⟩, a3, a4⟩ := r1 p hb ho
        have e : 2 * st.x (Function.update p o.d o.s1) - st.x (Function.update p o.d o.s2) = affine c0 c p := by
          rw [(h _ a1).1 a2, (h _ a3).1 a4]
          exact affine_extrap c0 c p o.d o.s0 o.s1 o.s2 r2 ho.1
        simp only [exec, if_pos ho]
        rw [e]
        by_cases hw : W p
        · rw [(h p hb).1 hw]
          unfold rule
          split
          · rfl
          · split_ifs <;> ring
          · split_ifs <;> ring
        · rw [(h p hb).2 hw]
          unfold rule
          split <;> simp
      · simp only [exec, if_neg ho]
        exact ⟨fun hw => (h p hb).1 (hw.resolve_right ho), fun hw => (h p hb).2 fun hc => hw (Or.inl hc)⟩
    have := ih step r3
    intro p hb
    obtain ⟨t1, t2⟩ := this p hb
    refine ⟨fun hw => t1 ?_, fun hw => t2 fun hc => hw ?_⟩
    · rcases hw with hw | ⟨o', ho', hon⟩
      · exact Or.inl (Or.inl hw)
      · rcases List.mem_cons.1 ho' with rfl | hh
        · exact Or.inl (Or.inr hon)
        · exact Or.inr ⟨o', hh, hon⟩
    · rcases hc with (hc | hc) | ⟨o', ho', hon⟩
      · exact Or.inl hc
      · exact Or.inr ⟨o, List.mem_cons_self, hc⟩
      · exact Or.inr ⟨o', List.mem_cons_of_mem _ ho', hon⟩

/-- the mask of a pass at the two other coordinates -/
def Mask (b : Blk) (ps : Pass) (d : Fin 3) (p : Ix) : Prop :=
  (match ps with | .faces => faceMask | .edges => edgeMask | .corners => cornerMask)
    b.ng (b.n (dirs d).1) (b.n (dirs d).2) (p (dirs d).1) (p (dirs d).2)

theorem dirs_ne (d : Fin 3) : (dirs d).1 ≠ d ∧ (dirs d).2 ≠ d := by fin_cases d <;> simp [dirs]

theorem mask_update (b : Blk) (ps : Pass) (d : Fin 3) (p : Ix) (s : ℤ) :
    Mask b ps d (Function.update p d s) ↔ Mask b ps d p := by
  obtain ⟨h1, h2⟩ := dirs_ne d
  unfold Mask
  rw [Function.update_of_ne h1, Function.update_of_ne h2]

theorem box_update {b : Blk} {p : Ix} (h : Box b p) (d : Fin 3) {s : ℤ} (hs : 0 ≤ s ∧ s < b.n d + 2 * b.ng) :
    Box b (Function.update p d s) := by
  intro e
  by_cases he : e = d
  · subst he; simpa using hs
  · rw [Function.update_of_ne he]; exact h e

theorem ready_lows {b : Blk} (hn : ∀ d, 2 ≤ b.n d) {W : Ix → Prop} (ps : Pass) (d : Fin 3)
    (hW : ∀ p, Box b p → Mask b ps d p → InnerC b d (p d) → W p) : Ready b W (lows b ps d) := by
  refine ready_range _ _ fun k hk => ?_
  have hn' := hn d
  have hd : (lowOp b ps d k).d = d := by unfold lowOp; split_ifs <;> rfl
  have hps : (lowOp b ps d k).pass = ps := by unfold lowOp; split_ifs <;> rfl
  constructor
  · unfold lowOp; split_ifs <;> dsimp only <;> ring
  · intro p hb ho s hs
    rw [hd]
    have hm : Mask b ps d p := by
      have := ho.2; rw [hd, hps] at this; exact this
    have hs' : (InnerC b d s) ∨ (∃ k' < k, s = b.ng - k' - 1) := by
      unfold lowOp at hs
      split_ifs at hs with hsm <;> dsimp only at hs
      · by_cases hin : s < b.ng
        · right
          rcases hs with rfl | rfl
          · exact ⟨k - 1, by omega, by omega⟩
          · exact ⟨k - 2, by omega, by omega⟩
        · left
          refine ⟨by omega, by omega⟩
      · left
        refine ⟨by omega, by omega⟩
    rcases hs' with hs' | ⟨k', hk', rfl⟩
    · have hbx : Box b (Function.update p d s) := box_update hb d ⟨by have := hs'.1; omega, by have := hs'.2; omega⟩
      exact ⟨hbx, Or.inl (hW _ hbx ((mask_update b ps d p s).2 hm) (by simpa using hs'))⟩
    · refine ⟨box_update hb d ⟨by omega, by omega⟩, Or.inr ⟨k', hk', ?_⟩⟩
      have hd' : (lowOp b ps d k').d = d := by unfold lowOp; split_ifs <;> rfl
      have hps' : (lowOp b ps d k').pass = ps := by unfold lowOp; split_ifs <;> rfl
      have hs0 : (lowOp b ps d k').s0 = b.ng - k' - 1 := by unfold lowOp; split_ifs <;> rfl
      refine ⟨by rw [hd', hs0]; simp, ?_⟩
      rw [hd', hps']
      exact (mask_update b ps d p _).2 hm

theorem ready_highs {b : Blk} (hn : ∀ d, 2 ≤ b.n d) {W : Ix → Prop} (ps : Pass) (d : Fin 3)
    (hW : ∀ p, Box b p → Mask b ps d p → p d < b.n d + b.ng → W p) : Ready b W (highs b ps d) := by
  refine ready_range _ _ fun k hk => ?_
  have hn' := hn d
  have hd : (highOp b ps d k).d = d := by unfold highOp; dsimp only; split_ifs <;> rfl
  have hps : (highOp b ps d k).pass = ps := by unfold highOp; dsimp only; split_ifs <;> rfl
  constructor
  · unfold highOp; dsimp only; split_ifs <;> dsimp only <;> ring
  · intro p hb ho s hs
    rw [hd]
    have hm : Mask b ps d p := by
      have := ho.2; rw [hd, hps] at this; exact this
    have hs' : (0 ≤ s ∧ s < b.n d + b.ng) ∨ (∃ k' < k, s = b.n d + 2 * b.ng + (-b.ng + k')) := by
      unfold highOp at hs
      dsimp only at hs
      split_ifs at hs with hsm <;> dsimp only at hs
      · by_cases hin : s < b.n d + b.ng
        · left; exact ⟨by omega, hin⟩
        · right
          rcases hs with rfl | rfl
          · exact ⟨k - 1, by omega, by omega⟩
          · exact ⟨k - 2, by omega, by omega⟩
      · left
        refine ⟨by omega, by omega⟩
    rcases hs' with hs' | ⟨k', hk', rfl⟩
    · have hbx : Box b (Function.update p d s) := box_update hb d ⟨hs'.1, by omega⟩
      exact ⟨hbx, Or.inl (hW _ hbx ((mask_update b ps d p s).2 hm) (by simpa using hs'.2))⟩
    · refine ⟨box_update hb d ⟨by omega, by omega⟩, Or.inr ⟨k', hk', ?_⟩⟩
      have hd' : (highOp b ps d k').d = d := by unfold highOp; dsimp only; split_ifs <;> rfl
      have hps' : (highOp b ps d k').pass = ps := by unfold highOp; dsimp only; split_ifs <;> rfl
      have hs0 : (highOp b ps d k').s0 = b.n d + 2 * b.ng + (-b.ng + k') := by unfold highOp; dsimp only; split_ifs <;> rfl
      refine ⟨by rw [hd', hs0]; simp, ?_⟩
      rw [hd', hps']
      exact (mask_update b ps d p _).2 hm

theorem written_lows {b : Blk} {ps : Pass} {d : Fin 3} {p : Ix} (hm : Mask b ps d p) (h0 : 0 ≤ p d) (h1 : p d < b.ng) :
    Written b (lows b ps d) p := by
  obtain ⟨k, hk⟩ : ∃ k : ℕ, (k : ℤ) = b.ng - 1 - p d := ⟨(b.ng - 1 - p d).toNat, by omega⟩
  refine ⟨lowOp b ps d k, List.mem_map.2 ⟨k, List.mem_range.2 (by omega), rfl⟩, ?_⟩
  have hd : (lowOp b ps d k).d = d := by unfold lowOp; split_ifs <;> rfl
  have hps : (lowOp b ps d k).pass = ps := by unfold lowOp; split_ifs <;> rfl
  have hs0 : (lowOp b ps d k).s0 = b.ng - k - 1 := by unfold lowOp; split_ifs <;> rfl
  refine ⟨by rw [hd, hs0]; omega, ?_⟩
  rw [hd, hps]; exact hm

theorem written_highs {b : Blk} {ps : Pass} {d : Fin 3} {p : Ix} (hm : Mask b ps d p) (h0 : b.n d + b.ng ≤ p d)
    (h1 : p d < b.n d + 2 * b.ng) : Written b (highs b ps d) p := by
  obtain ⟨k, hk⟩ : ∃ k : ℕ, (k : ℤ) = p d - b.n d - b.ng := ⟨(p d - b.n d - b.ng).toNat, by omega⟩
  refine ⟨highOp b ps d k, List.mem_map.2 ⟨k, List.mem_range.2 (by omega), rfl⟩, ?_⟩
  have hd : (highOp b ps d k).d = d := by unfold highOp; dsimp only; split_ifs <;> rfl
  have hps : (highOp b ps d k).pass = ps := by unfold highOp; dsimp only; split_ifs <;> rfl
  have hs0 : (highOp b ps d k).s0 = b.n d + 2 * b.ng + (-b.ng + k) := by unfold highOp; dsimp only; split_ifs <;> rfl
  refine ⟨by rw [hd, hs0]; omega, ?_⟩
  rw [hd, hps]; exact hm

theorem written_append {b : Blk} {l l' : List Op} {p : Ix} : Written b (l ++ l') p ↔ Written b l p ∨ Written b l' p := by
  unfold Written
  constructor
  · rintro ⟨o, ho, h⟩
    rcases List.mem_append.1 ho with ho | ho
    · exact Or.inl ⟨o, ho, h⟩
    · exact Or.inr ⟨o, ho, h⟩
  · rintro (⟨o, ho, h⟩ | ⟨o, ho, h⟩)
    · exact ⟨o, List.mem_append_left _ ho, h⟩
    · exact ⟨o, List.mem_append_right _ ho, h⟩

/-- a pass is ready when the positions it starts from are exact, and writes all positions of its kind -/
theorem ready_pass {b : Blk} (hn : ∀ d, 2 ≤ b.n d) {W : Ix → Prop} (ps : Pass)
    (hW : ∀ d p, Box b p → Mask b ps d p → InnerC b d (p d) → W p) : Ready b W (passOps b ps) := by
  have hlow : ∀ d (V : Ix → Prop), (∀ p, W p → V p) → Ready b V (lows b ps d) := fun d V hV =>
    ready_lows hn ps d fun p hb hm hi => hV p (hW d p hb hm hi)
  have hhigh : ∀ d (V : Ix → Prop), (∀ p, W p ∨ Written b (lows b ps d) p → V p) → Ready b V (highs b ps d) := fun d V hV =>
    ready_highs hn ps d fun p hb hm hi => by
      by_cases hl : p d < b.ng
      · exact hV p (Or.inr (written_lows hm (hb d).1 hl))
      · exact hV p (Or.inl (hW d p hb hm ⟨by omega, hi⟩))
  unfold passOps
  refine ready_append _ _ (hlow 0 _ fun p h => h) ?_
  refine ready_append _ _ (hlow 1 _ fun p h => Or.inl h) ?_
  refine ready_append _ _ (hlow 2 _ fun p h => Or.inl (Or.inl h)) ?_
  refine ready_append _ _ (hhigh 0 _ fun p h => ?_) ?_
  · rcases h with h | h
    · exact Or.inl (Or.inl (Or.inl h))
    · exact Or.inl (Or.inl (Or.inr h))
  refine ready_append _ _ (hhigh 1 _ fun p h => ?_) (hhigh 2 _ fun p h => ?_)
  · rcases h with h | h
    · exact Or.inl (Or.inl (Or.inl (Or.inl h)))
    · exact Or.inl (Or.inl (Or.inr h))
  · rcases h with h | h
    · exact Or.inl (Or.inl (Or.inl (Or.inl (Or.inl h))))
    · exact Or.inl (Or.inl (Or.inr h))

theorem written_pass {b : Blk} {ps : Pass} {d : Fin 3} {p : Ix} (hb : Box b p) (hm : Mask b ps d p) (h : ¬ InnerC b d (p d)) :
    Written b (passOps b ps) p := by
  have hmem : (∃ d, Written b (lows b ps d) p) ∨ (∃ d, Written b (highs b ps d) p) := by
    unfold InnerC at h
    by_cases hl : p d < b.ng
    · exact Or.inl ⟨d, written_lows hm (hb d).1 hl⟩
    · exact Or.inr ⟨d, written_highs hm (by omega) (hb d).2⟩
  unfold passOps
  simp only [written_append]
  rcases hmem with ⟨d, h⟩ | ⟨d, h⟩ <;> fin_cases d <;> simp only [Fin.zero_eta, Fin.mk_one, Fin.reduceFinMk] at h <;> tauto

/-- the three kinds of masks in terms of inner and halo coordinates -/
theorem mask_iff {b : Blk} {p : Ix} (hb : Box b p) (d : Fin 3) :
    (Mask b .faces d p ↔ InnerC b (dirs d).1 (p (dirs d).1) ∧ InnerC b (dirs d).2 (p (dirs d).2)) ∧
    (Mask b .edges d p ↔ (InnerC b (dirs d).1 (p (dirs d).1) ∧ ¬ InnerC b (dirs d).2 (p (dirs d).2)) ∨
      (¬ InnerC b (dirs d).1 (p (dirs d).1) ∧ InnerC b (dirs d).2 (p (dirs d).2))) ∧
    (Mask b .corners d p ↔ ¬ InnerC b (dirs d).1 (p (dirs d).1) ∧ ¬ InnerC b (dirs d).2 (p (dirs d).2)) := by
  have h1 := hb (dirs d).1
  have h2 := hb (dirs d).2
  unfold Mask InnerC faceMask edgeMask cornerMask
  refine ⟨by omega, by omega, by omega⟩

/-- C15: whatever the halo held before, on a block whose nodes are an affine function of the index - at least two nodes per
    direction, any number of halo layers - every node of the array, including all layers of face, edge and corner halos, is that
    affine function after generateHalo. -/
theorem C15_affine (b : Blk) (hn : ∀ d, 2 ≤ b.n d) (c0 : ℝ) (c : Fin 3 → ℝ) (x : Ix → ℝ)
    (hx : ∀ p, Inner b p → x p = affine c0 c p) (p : Ix) (hp : Box b p) : generateHalo b x p = affine c0 c p := by
  classical
  have inv0 : Inv b (affine c0 c) (Inner b) ⟨zeroHalo b x, fun _ => 0⟩ := by
    intro q hq
    constructor
    · intro hi
      show zeroHalo b x q = _
      unfold zeroHalo
      rw [if_neg, hx q hi]
      rintro ⟨d, h⟩
      have := hi d
      unfold InnerC at this
      omega
    · intro hi
      show zeroHalo b x q = _
      unfold zeroHalo
      rw [if_pos]
      unfold Inner at hi
      push Not at hi
      obtain ⟨d, h⟩ := hi
      have := hq d
      unfold InnerC at h
      exact ⟨d, by omega⟩
  have r1 : Ready b (Inner b) (passOps b .faces) := by
    refine ready_pass hn _ fun d q hq hm hi => ?_
    obtain ⟨m1, m2⟩ := (mask_iff hq d).1.1 hm
    intro e
    fin_cases d <;> fin_cases e <;> first | exact hi | exact m1 | exact m2
  have r2 : Ready b (fun q => Inner b q ∨ Written b (passOps b .faces) q) (passOps b .edges) := by
    refine ready_pass hn _ fun d q hq hm hi => ?_
    have hm' := (mask_iff hq d).2.1.1 hm
    right
    rcases hm' with ⟨m1, m2⟩ | ⟨m1, m2⟩
    · refine written_pass (d := (dirs d).2) hq ((mask_iff hq _).1.2 ?_) m2
      fin_cases d <;> first | exact ⟨hi, m1⟩ | exact ⟨m1, hi⟩
    · refine written_pass (d := (dirs d).1) hq ((mask_iff hq _).1.2 ?_) m1
      fin_cases d <;> first | exact ⟨hi, m2⟩ | exact ⟨m2, hi⟩
  have r3 : Ready b (fun q => (Inner b q ∨ Written b (passOps b .faces) q) ∨ Written b (passOps b .edges) q) (passOps b .corners) := by
    refine ready_pass hn _ fun d q hq hm hi => ?_
    obtain ⟨m1, m2⟩ := (mask_iff hq d).2.2.1 hm
    right
    refine written_pass (d := (dirs d).1) hq ((mask_iff hq _).2.1.2 ?_) m1
    fin_cases d <;> first | exact Or.inl ⟨hi, m2⟩ | exact Or.inr ⟨m2, hi⟩
  have i1 := exec_inv _ inv0 r1
  have i2 := exec_inv _ i1 r2
  have i3 := exec_inv _ i2 r3
  unfold generateHalo
  rw [List.foldl_append, List.foldl_append]
  refine (i3 p hp).1 ?_
  -- every position is an inner node or was written
  by_cases h0 : InnerC b 0 (p 0) <;> by_cases h1 : InnerC b 1 (p 1) <;> by_cases h2 : InnerC b 2 (p 2)
  · left; left; left; intro e; fin_cases e <;> assumption
  · left; left; right; exact written_pass (d := 2) hp ((mask_iff hp _).1.2 ⟨h0, h1⟩) h2
  · left; left; right; exact written_pass (d := 1) hp ((mask_iff hp _).1.2 ⟨h0, h2⟩) h1
  · left; right; exact written_pass (d := 1) hp ((mask_iff hp _).2.1.2 (Or.inl ⟨h0, h2⟩)) h1
  · left; left; right; exact written_pass (d := 0) hp ((mask_iff hp _).1.2 ⟨h1, h2⟩) h0
  · left; right; exact written_pass (d := 0) hp ((mask_iff hp _).2.1.2 (Or.inl ⟨h1, h2⟩)) h0
  · left; right; exact written_pass (d := 0) hp ((mask_iff hp _).2.1.2 (Or.inr ⟨h1, h2⟩)) h0
  · right; exact written_pass (d := 0) hp ((mask_iff hp _).2.2.2 ⟨h1, h2⟩) h0

/-- the hypotheses of C15_affine are met by a block of 3×2×4 nodes with two halo layers whose first coordinate is `i - k` -/
example : ∃ (b : Blk) (x : Ix → ℝ) (c : Fin 3 → ℝ), (∀ d, 2 ≤ b.n d) ∧ (∀ p, Inner b p → x p = affine 1 c p) ∧
    generateHalo b x (fun _ => 0) = 1 := by
  have hx : ∀ p : Ix, Inner ⟨fun d => if d = 0 then 3 else if d = 1 then 2 else 4, 2⟩ p →
      affine 1 (fun d => if d = 0 then 1 else if d = 1 then 0 else -1) p =
      affine 1 (fun d => if d = 0 then 1 else if d = 1 then 0 else -1) p := fun _ _ => rfl
  have hn : ∀ d : Fin 3, (2:ℤ) ≤ if d = 0 then 3 else if d = 1 then 2 else 4 := by decide
  refine ⟨⟨fun d => if d = 0 then 3 else if d = 1 then 2 else 4, 2⟩, affine 1 (fun d => if d = 0 then 1 else if d = 1 then 0 else -1),
    _, hn, hx, ?_⟩
  rw [C15_affine _ hn _ _ _ hx]
  · simp [affine]
  · intro d; have := hn d; dsimp only; omega

/-! ### arbitrary grids -/

/-- an operation of the three passes -/
theorem mem_ops {b : Blk} {o : Op} (h : o ∈ passOps b .faces ++ (passOps b .edges ++ passOps b .corners)) :
    ∃ ps d k, k < b.ng ∧ (o = lowOp b ps d k ∨ o = highOp b ps d k) := by
  have key : ∀ ps, o ∈ passOps b ps → ∃ ps d k, k < b.ng ∧ (o = lowOp b ps d k ∨ o = highOp b ps d k) := by
    intro ps h
    unfold passOps lows highs at h
    simp only [List.mem_append, List.mem_map, List.mem_range] at h
    rcases h with ⟨k, hk, rfl⟩ | ⟨k, hk, rfl⟩ | ⟨k, hk, rfl⟩ | ⟨k, hk, rfl⟩ | ⟨k, hk, rfl⟩ | ⟨k, hk, rfl⟩
    · exact ⟨ps, 0, k, hk, Or.inl rfl⟩
    · exact ⟨ps, 1, k, hk, Or.inl rfl⟩
    · exact ⟨ps, 2, k, hk, Or.inl rfl⟩
    · exact ⟨ps, 0, k, hk, Or.inr rfl⟩
    · exact ⟨ps, 1, k, hk, Or.inr rfl⟩
    · exact ⟨ps, 2, k, hk, Or.inr rfl⟩
  simp only [List.mem_append] at h
  rcases h with h | h | h <;> exact key _ h

/-- what an operation that writes `p` looks like -/
theorem on_op {b : Blk} {o : Op} {p : Ix} (h : o ∈ passOps b .faces ++ (passOps b .edges ++ passOps b .corners)) (ho : On b o p) :
    ∃ ps d k, k < b.ng ∧ Mask b ps d p ∧ ((o = lowOp b ps d k ∧ p d = b.ng - k - 1) ∨ (o = highOp b ps d k ∧ p d = b.n d + b.ng + k)) := by
  obtain ⟨ps, d, k, hk, rfl | rfl⟩ := mem_ops h
  · have hd : (lowOp b ps d k).d = d := by unfold lowOp; split_ifs <;> rfl
    have hps : (lowOp b ps d k).pass = ps := by unfold lowOp; split_ifs <;> rfl
    have hs0 : (lowOp b ps d k).s0 = b.ng - k - 1 := by unfold lowOp; split_ifs <;> rfl
    obtain ⟨h1, h2⟩ := ho
    rw [hd, hps] at h2
    rw [hd, hs0] at h1
    exact ⟨ps, d, k, hk, h2, Or.inl ⟨rfl, h1⟩⟩
  · have hd : (highOp b ps d k).d = d := by unfold highOp; dsimp only; split_ifs <;> rfl
    have hps : (highOp b ps d k).pass = ps := by unfold highOp; dsimp only; split_ifs <;> rfl
    have hs0 : (highOp b ps d k).s0 = b.n d + 2 * b.ng + (-b.ng + k) := by unfold highOp; dsimp only; split_ifs <;> rfl
    obtain ⟨h1, h2⟩ := ho
    rw [hd, hps] at h2
    rw [hd, hs0] at h1
    exact ⟨ps, d, k, hk, h2, Or.inr ⟨rfl, by omega⟩⟩

theorem fold_inner {b : Blk} (l : List Op) (hl : ∀ o ∈ l, o ∈ passOps b .faces ++ (passOps b .edges ++ passOps b .corners))
    (st : St) (p : Ix) (hp : Inner b p) : (l.foldl (exec b) st).x p = st.x p := by
  classical
  induction l generalizing st with
  | nil => rfl
  | cons o os ih =>
    rw [List.foldl_cons, ih (fun o' h => hl o' (List.mem_cons_of_mem _ h))]
    have : ¬ On b o p := by
      intro ho
      obtain ⟨ps, d, k, hk, _, h⟩ := on_op (hl o List.mem_cons_self) ho
      have := hp d
      unfold InnerC at this
      omega
    simp only [exec, if_neg this]

theorem zeroHalo_inner {b : Blk} (x : Ix → ℝ) {p : Ix} (hp : Inner b p) : zeroHalo b x p = x p := by
  unfold zeroHalo
  rw [if_neg]
  rintro ⟨d, h⟩
  have := hp d
  unfold InnerC at this
  omega

/-- C15: generateHalo never moves a node of the block, whatever its shape. -/
theorem C15_nodes_kept (b : Blk) (x : Ix → ℝ) (p : Ix) (hp : Inner b p) : generateHalo b x p = x p := by
  unfold generateHalo
  rw [fold_inner _ (fun _ h => h) _ _ hp]
  exact zeroHalo_inner x hp

/-- a node written by operations that all read the same inner nodes holds their extrapolation -/
theorem fold_face {b : Blk} (v : ℝ) (p p1 p2 : Ix) (l : List Op)
    (hl : ∀ o ∈ l, o ∈ passOps b .faces ++ (passOps b .edges ++ passOps b .corners))
    (h1 : Inner b p1) (h2 : Inner b p2)
    (ho : ∀ o ∈ l, On b o p → o.pass = .faces ∧ Function.update p o.d o.s1 = p1 ∧ Function.update p o.d o.s2 = p2)
    (st : St) (hv : v = 2 * st.x p1 - st.x p2) (hw : st.x p = v ∨ Written b l p) : (l.foldl (exec b) st).x p = v := by
  classical
  induction l generalizing st with
  | nil => exact hw.resolve_right fun ⟨o, h, _⟩ => by simp at h
  | cons o os ih =>
    rw [List.foldl_cons]
    have e1 : (exec b st o).x p1 = st.x p1 := fold_inner [o] (fun o' h => by
      simp only [List.mem_singleton] at h; subst h; exact hl _ List.mem_cons_self) st p1 h1
    have e2 : (exec b st o).x p2 = st.x p2 := fold_inner [o] (fun o' h => by
      simp only [List.mem_singleton] at h; subst h; exact hl _ List.mem_cons_self) st p2 h2
    refine ih (fun o' h => hl o' (List.mem_cons_of_mem _ h)) (fun o' h => ho o' (List.mem_cons_of_mem _ h)) _ (by rw [e1, e2, hv]) ?_
    by_cases hon : On b o p
    · left
      obtain ⟨a1, a2, a3⟩ := ho o List.mem_cons_self hon
      simp only [exec, if_pos hon, rule, a1]
      rw [a2, a3, hv]
    · rcases hw with hw | ⟨o', ho', h⟩
      · left; simp only [exec, if_neg hon]; exact hw
      · right
        rcases List.mem_cons.1 ho' with rfl | hh
        · exact absurd h hon
        · exact ⟨o', hh, h⟩

/-- a face halo position is in the face mask of its direction only, and in no edge or corner mask -/
theorem face_mask_only {b : Blk} {p : Ix} (hp : Box b p) {d : Fin 3} (hin : ∀ e, e ≠ d → InnerC b e (p e))
    (hd : ¬ InnerC b d (p d)) {ps : Pass} {d' : Fin 3} (hm : Mask b ps d' p) (h' : ¬ InnerC b d' (p d')) : ps = .faces ∧ d' = d := by
  have e' : d' = d := by
    by_contra hne
    exact h' (hin d' hne)
  subst e'
  obtain ⟨n1, n2⟩ := dirs_ne d'
  obtain ⟨q1, q2, q3⟩ := mask_iff hp d'
  refine ⟨?_, rfl⟩
  cases ps
  · rfl
  · rcases q2.1 hm with ⟨_, h⟩ | ⟨h, _⟩
    · exact absurd (hin _ n2) h
    · exact absurd (hin _ n1) h
  · exact absurd (hin _ n1) (q3.1 hm).1

/-- C15 (arbitrary grids): on a block with more nodes than halo layers in every direction, the nodes of a face halo are the nodes
    of the block mirrored in the nearest node of the face, layer by layer, on all six faces. -/
theorem C15_mirror (b : Blk) (hn : ∀ d, (b.ng : ℤ) < b.n d) (x : Ix → ℝ) (p : Ix) (hp : Box b p) (d : Fin 3)
    (hin : ∀ e, e ≠ d → InnerC b e (p e)) :
    (p d < b.ng → generateHalo b x p = 2 * x (Function.update p d b.ng) - x (Function.update p d (2 * b.ng - p d))) ∧
    (b.n d + b.ng ≤ p d → generateHalo b x p = 2 * x (Function.update p d (b.n d + b.ng - 1)) -
      x (Function.update p d (2 * (b.n d + b.ng - 1) - p d))) := by
  have hbx := hp d
  have hnd := hn d
  have hpat : Mask b .faces d p := (mask_iff hp d).1.2 ⟨hin _ (dirs_ne d).1, hin _ (dirs_ne d).2⟩
  have inner_upd : ∀ s, InnerC b d s → Inner b (Function.update p d s) := by
    intro s hs e
    by_cases he : e = d
    · subst he; simpa using hs
    · rw [Function.update_of_ne he]; exact hin e he
  have hlist : Written b (passOps b .faces) p → Written b (passOps b .faces ++ (passOps b .edges ++ passOps b .corners)) p :=
    fun h => written_append.2 (Or.inl h)
  have hnotin : p d < b.ng ∨ b.n d + b.ng ≤ p d → ¬ InnerC b d (p d) := by unfold InnerC; omega
  constructor
  · intro hl
    have i1 : InnerC b d b.ng := ⟨le_rfl, by omega⟩
    have i2 : InnerC b d (2 * b.ng - p d) := ⟨by omega, by omega⟩
    unfold generateHalo
    refine fold_face _ p _ _ _ (fun _ h => h) (inner_upd _ i1) (inner_upd _ i2) ?_ _ ?_ ?_
    · intro o ho hon
      obtain ⟨ps, d', k, hk, hm, h⟩ := on_op ho hon
      obtain ⟨rfl, rfl⟩ := face_mask_only hp hin (hnotin (Or.inl hl)) hm (by unfold InnerC; omega)
      rcases h with ⟨rfl, h⟩ | ⟨rfl, h⟩
      · unfold lowOp
        rw [if_neg (by omega)]
        refine ⟨rfl, rfl, ?_⟩
        dsimp only
        congr 1; omega
      · omega
    · dsimp only
      rw [zeroHalo_inner x (inner_upd _ i1), zeroHalo_inner x (inner_upd _ i2)]
    · exact Or.inr (hlist (written_pass hp hpat (hnotin (Or.inl hl))))
  · intro hl
    have i1 : InnerC b d (b.n d + b.ng - 1) := ⟨by omega, by omega⟩
    have i2 : InnerC b d (2 * (b.n d + b.ng - 1) - p d) := ⟨by omega, by omega⟩
    unfold generateHalo
    refine fold_face _ p _ _ _ (fun _ h => h) (inner_upd _ i1) (inner_upd _ i2) ?_ _ ?_ ?_
    · intro o ho hon
      obtain ⟨ps, d', k, hk, hm, h⟩ := on_op ho hon
      obtain ⟨rfl, rfl⟩ := face_mask_only hp hin (hnotin (Or.inr hl)) hm (by unfold InnerC; omega)
      rcases h with ⟨rfl, h⟩ | ⟨rfl, h⟩
      · omega
      · unfold highOp
        dsimp only
        have := hn 0
        rw [if_neg (by unfold tested; rw [if_pos rfl]; omega)]
        refine ⟨rfl, ?_, ?_⟩
        · dsimp only; congr 1; omega
        · dsimp only; congr 1; omega
    · dsimp only
      rw [zeroHalo_inner x (inner_upd _ i1), zeroHalo_inner x (inner_upd _ i2)]
    · exact Or.inr (hlist (written_pass hp hpat (hnotin (Or.inr hl))))

/-- C15_mirror on a curved 4×4×4 block with two layers: the second layer below the first face of `x = i³` -/
example : generateHalo ⟨fun _ => 4, 2⟩ (fun p => (p 0 : ℝ) ^ 3) (fun d => if d = 0 then 0 else 3) = 2 * 2 ^ 3 - 4 ^ 3 := by
  have h := (C15_mirror ⟨fun _ => 4, 2⟩ (fun _ => by norm_num) (fun p => (p 0 : ℝ) ^ 3) (fun d => if d = 0 then 0 else 3)
    (fun d => by fin_cases d <;> norm_num) 0 (fun e he => by simp only [if_neg he]; exact ⟨by norm_num, by norm_num⟩)).1 (by norm_num)
  rw [h]; norm_num

end PG.HaloGen
