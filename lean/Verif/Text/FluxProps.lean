import Verif.Text.Flux
import Mathlib.Tactic.Ring
import Mathlib.Tactic.IntervalCases
import Mathlib.Tactic.Linarith
import Mathlib.Tactic.FieldSimp
/-!
C115: the flux that a convective scheme stores at a face. `Text/Flux.lean` is generated from the text of the kernels.
-/
namespace PG.Text
open PG.Flux

/-! ### specification -/

/-- the state of a cell, block_.hpp: `q = p u v w T Y..`, `Q = rho rhou rhov rhow rhoE rhoY..`, `qh = gamma cp rhoh c rhoe ..` -/
def cell (b : Blk) (i j k : ℤ) : Cell where
  p := b.q i j k 0
  u := b.q i j k 1
  v := b.q i j k 2
  w := b.q i j k 3
  Y n := b.q i j k (5 + n)
  rho := b.Q i j k 0
  rhou := b.Q i j k 1
  rhov := b.Q i j k 2
  rhow := b.Q i j k 3
  rhoE := b.Q i j k 4
  rhoY n := b.Q i j k (5 + n)
  c := b.qh i j k 3
  rhoe := b.qh i j k 4

/-- the face between cell (i-1,j,k) and cell (i,j,k) -/
def faceI (b : Blk) (i j k : ℤ) : FaceG :=
  ⟨⟨b.isx i j k, b.isy i j k, b.isz i j k⟩, ⟨b.inx i j k, b.iny i j k, b.inz i j k⟩, b.iS i j k⟩
/-- the face between cell (i,j-1,k) and cell (i,j,k) -/
def faceJ (b : Blk) (i j k : ℤ) : FaceG :=
  ⟨⟨b.jsx i j k, b.jsy i j k, b.jsz i j k⟩, ⟨b.jnx i j k, b.jny i j k, b.jnz i j k⟩, b.jS i j k⟩
/-- the face between cell (i,j,k-1) and cell (i,j,k) -/
def faceK (b : Blk) (i j k : ℤ) : FaceG :=
  ⟨⟨b.ksx i j k, b.ksy i j k, b.ksz i j k⟩, ⟨b.knx i j k, b.kny i j k, b.knz i j k⟩, b.kS i j k⟩

/-- a loop nest leaves, in the `ne` components of its flux array at (i,j,k), the flux `f`, and touches no other component -/
def Leaves (b : Blk) (prog : ℤ → ℤ → ℤ → FluxV → FluxV) (f : ℤ → ℤ → ℤ → FluxV) : Prop :=
  ∀ (i j k : ℤ) (old : FluxV) (m : ℕ), prog i j k old m = if m < b.ne then f i j k m else old m

/-- what a two-cell scheme must compute: the same flux function of the two cells beside the face, in the three directions -/
def TwoCell (f : Cell → Cell → FaceG → FluxV) (pi pj pk : Blk → ℤ → ℤ → ℤ → FluxV → FluxV) : Prop :=
  ∀ b : Blk, 5 ≤ b.ne →
    Leaves b (pi b) (fun i j k => f (cell b (i - 1) j k) (cell b i j k) (faceI b i j k)) ∧
    Leaves b (pj b) (fun i j k => f (cell b i (j - 1) k) (cell b i j k) (faceJ b i j k)) ∧
    Leaves b (pk b) (fun i j k => f (cell b i j (k - 1)) (cell b i j k) (faceK b i j k))

/-- what a four-cell scheme must compute -/
def FourCell (f : Cell → Cell → Cell → Cell → FaceG → FluxV) (pi pj pk : Blk → ℤ → ℤ → ℤ → FluxV → FluxV) : Prop :=
  ∀ b : Blk, 5 ≤ b.ne →
    Leaves b (pi b) (fun i j k => f (cell b (i - 2) j k) (cell b (i - 1) j k) (cell b i j k) (cell b (i + 1) j k) (faceI b i j k)) ∧
    Leaves b (pj b) (fun i j k => f (cell b i (j - 2) k) (cell b i (j - 1) k) (cell b i j k) (cell b i (j + 1) k) (faceJ b i j k)) ∧
    Leaves b (pk b) (fun i j k => f (cell b i j (k - 2)) (cell b i j (k - 1)) (cell b i j k) (cell b i j (k + 1)) (faceK b i j k))

/-! ### proofs -/

/-- a component is one of the first five or a species, or is not stored -/
theorem leaves_of {ne : ℕ} (hb : 5 ≤ ne) {F out f : FluxV} (h0 : out 0 = f 0) (h1 : out 1 = f 1) (h2 : out 2 = f 2) (h3 : out 3 = f 3)
    (h4 : out 4 = f 4) (hs : ∀ n, 5 + n < ne → out (5 + n) = f (5 + n)) (ho : ∀ n, ¬ 5 + n < ne → out (5 + n) = F (5 + n)) (m : ℕ) :
    out m = if m < ne then f m else F m := by
  rcases Nat.lt_or_ge m 5 with h | h
  · rw [if_pos (by omega)]
    interval_cases m
    · exact h0
    · exact h1
    · exact h2
    · exact h3
    · exact h4
  · obtain ⟨n, rfl⟩ := Nat.exists_eq_add_of_le h
    split
    case isTrue hm => exact hs n hm
    case isFalse hm => exact ho n hm

theorem mk5_species (m a b c e : ℝ) (sp : ℕ → ℝ) (n : ℕ) : mk5 m a b c e sp (5 + n) = sp n := by
  rw [Nat.add_comm]; rfl

theorem sp1 (n : ℕ) : (5 + n = 1) = False := by simp; omega
theorem sp2 (n : ℕ) : (5 + n = 2) = False := by simp; omega
theorem sp3 (n : ℕ) : (5 + n = 3) = False := by simp; omega
theorem sp4 (n : ℕ) : (5 + n = 4) = False := by simp; omega

/-- the five first components by unfolding and algebra, the species by unfolding -/
macro "body" "[" ds:Lean.Parser.Tactic.simpLemma,* "]" : tactic =>
  `(tactic| (
    refine leaves_of ‹5 ≤ _› ?_ ?_ ?_ ?_ ?_ (fun n hn => ?_) (fun n hn => ?_) _
    rotate_left 5
    · simp [$ds,*, set, mk5_species, sp1, sp2, sp3, sp4, cell, avg, proj, hn, -mul_eq_mul_left_iff, -mul_eq_mul_right_iff, -sub_right_inj] <;> ring
    · simp [$ds,*, set, hn, sp1, sp2, sp3, sp4]
    all_goals first
      | (simp [$ds,*, set, mk5, cell, avg, proj]; done)
      | (simp [$ds,*, set, mk5, cell, avg, proj, -mul_eq_mul_left_iff, -mul_eq_mul_right_iff, -sub_right_inj]; ring)))

theorem KEEP_body (b : Blk) (hb : 5 ≤ b.ne) (isx isy isz : Arr) (a c d i j k : ℤ) (F : FluxV) (m : ℕ) (n : V3) (S : ℝ) :
    KEEP_computeFlux b isx isy isz a c d i j k F m = if m < b.ne then
      KEEP (cell b (i - a) (j - c) (k - d)) (cell b i j k) ⟨⟨isx i j k, isy i j k, isz i j k⟩, n, S⟩ m else F m := by
  body [KEEP_computeFlux, KEEP, keepWith, keepC, keepU, keepK, keepP]

/-- C115 (KEEP) -/
theorem C115_KEEP : TwoCell KEEP KEEP_iF KEEP_jF KEEP_kF := by
  intro b hb
  refine ⟨?_, ?_, ?_⟩ <;> intro i j k F m
  · rw [KEEP_iF, KEEP_body b hb _ _ _ _ _ _ _ _ _ _ _ (faceI b i j k).n (faceI b i j k).S]; simp only [sub_zero]; rfl
  · rw [KEEP_jF, KEEP_body b hb _ _ _ _ _ _ _ _ _ _ _ (faceJ b i j k).n (faceJ b i j k).S]; simp only [sub_zero]; rfl
  · rw [KEEP_kF, KEEP_body b hb _ _ _ _ _ _ _ _ _ _ _ (faceK b i j k).n (faceK b i j k).S]; simp only [sub_zero]; rfl

theorem KEEPpe_body (b : Blk) (hb : 5 ≤ b.ne) (isx isy isz : Arr) (a c d i j k : ℤ) (F : FluxV) (m : ℕ) (n : V3) (S : ℝ) :
    KEEPpe_computeFlux b isx isy isz a c d i j k F m = if m < b.ne then
      KEEPpe (cell b (i - a) (j - c) (k - d)) (cell b i j k) ⟨⟨isx i j k, isy i j k, isz i j k⟩, n, S⟩ m else F m := by
  body [KEEPpe_computeFlux, KEEPpe, keepWith, keepC, keepU, keepK, keepP]

/-- C115 (KEEPpe) -/
theorem C115_KEEPpe : TwoCell KEEPpe KEEPpe_iF KEEPpe_jF KEEPpe_kF := by
  intro b hb
  refine ⟨?_, ?_, ?_⟩ <;> intro i j k F m
  · rw [KEEPpe_iF, KEEPpe_body b hb _ _ _ _ _ _ _ _ _ _ _ (faceI b i j k).n (faceI b i j k).S]; simp only [sub_zero]; rfl
  · rw [KEEPpe_jF, KEEPpe_body b hb _ _ _ _ _ _ _ _ _ _ _ (faceJ b i j k).n (faceJ b i j k).S]; simp only [sub_zero]; rfl
  · rw [KEEPpe_kF, KEEPpe_body b hb _ _ _ _ _ _ _ _ _ _ _ (faceK b i j k).n (faceK b i j k).S]; simp only [sub_zero]; rfl

theorem KEPaEC_body (b : Blk) (hb : 5 ≤ b.ne) (isx isy isz : Arr) (a c d i j k : ℤ) (F : FluxV) (m : ℕ) (n : V3) (S : ℝ) :
    KEPaEC_computeFlux b isx isy isz a c d i j k F m = if m < b.ne then
      KEPaEC (cell b (i - a) (j - c) (k - d)) (cell b i j k) ⟨⟨isx i j k, isy i j k, isz i j k⟩, n, S⟩ m else F m := by
  body [KEPaEC_computeFlux, KEPaEC, keepWith, keepC, keepU, keepK, keepP]

/-- C115 (KEPaEC) -/
theorem C115_KEPaEC : TwoCell KEPaEC KEPaEC_iF KEPaEC_jF KEPaEC_kF := by
  intro b hb
  refine ⟨?_, ?_, ?_⟩ <;> intro i j k F m
  · rw [KEPaEC_iF, KEPaEC_body b hb _ _ _ _ _ _ _ _ _ _ _ (faceI b i j k).n (faceI b i j k).S]; simp only [sub_zero]; rfl
  · rw [KEPaEC_jF, KEPaEC_body b hb _ _ _ _ _ _ _ _ _ _ _ (faceJ b i j k).n (faceJ b i j k).S]; simp only [sub_zero]; rfl
  · rw [KEPaEC_kF, KEPaEC_body b hb _ _ _ _ _ _ _ _ _ _ _ (faceK b i j k).n (faceK b i j k).S]; simp only [sub_zero]; rfl

theorem centralDifference_body (b : Blk) (hb : 5 ≤ b.ne) (isx isy isz : Arr) (a c d i j k : ℤ) (F : FluxV) (m : ℕ) (n : V3) (S : ℝ) :
    centralDifference_computeFlux b isx isy isz a c d i j k F m = if m < b.ne then
      central (cell b (i - a) (j - c) (k - d)) (cell b i j k) ⟨⟨isx i j k, isy i j k, isz i j k⟩, n, S⟩ m else F m := by
  body [centralDifference_computeFlux, central]

/-- C115 (centralDifference) -/
theorem C115_centralDifference : TwoCell central centralDifference_iF centralDifference_jF centralDifference_kF := by
  intro b hb
  refine ⟨?_, ?_, ?_⟩ <;> intro i j k F m
  · rw [centralDifference_iF, centralDifference_body b hb _ _ _ _ _ _ _ _ _ _ _ (faceI b i j k).n (faceI b i j k).S]; simp only [sub_zero]; rfl
  · rw [centralDifference_jF, centralDifference_body b hb _ _ _ _ _ _ _ _ _ _ _ (faceJ b i j k).n (faceJ b i j k).S]; simp only [sub_zero]; rfl
  · rw [centralDifference_kF, centralDifference_body b hb _ _ _ _ _ _ _ _ _ _ _ (faceK b i j k).n (faceK b i j k).S]; simp only [sub_zero]; rfl

theorem rusanov_body (b : Blk) (hb : 5 ≤ b.ne) (iS isx isy isz inx iny inz : Arr) (a c d i j k : ℤ) (F : FluxV) (m : ℕ) :
    rusanov_computeFlux b iS isx isy isz inx iny inz a c d i j k F m = if m < b.ne then
      rusanov (cell b (i - a) (j - c) (k - d)) (cell b i j k) ⟨⟨isx i j k, isy i j k, isz i j k⟩, ⟨inx i j k, iny i j k, inz i j k⟩, iS i j k⟩ m else F m := by
  body [rusanov_computeFlux, rusanov, rusanovSpeed]

/-- C115 (rusanov) -/
theorem C115_rusanov : TwoCell rusanov rusanov_iF rusanov_jF rusanov_kF := by
  intro b hb
  refine ⟨?_, ?_, ?_⟩ <;> intro i j k F m
  · rw [rusanov_iF, rusanov_body b hb]; simp only [sub_zero]; rfl
  · rw [rusanov_jF, rusanov_body b hb]; simp only [sub_zero]; rfl
  · rw [rusanov_kF, rusanov_body b hb]; simp only [sub_zero]; rfl

/-- some branch is taken -/
theorem no_fifth {A c X S : ℝ} (h0 : ¬ c ≤ A) (h1 : ¬ (A ≤ c ∧ 0 ≤ S)) (h2 : ¬ (0 ≤ X ∧ S ≤ 0)) (h3 : ¬ X ≤ 0) : False := by
  rcases le_total 0 S with h | h
  · exact h1 ⟨(not_le.1 h0).le, h⟩
  · exact h2 ⟨(not_le.1 h3).le, h⟩

theorem hllc_apply (L R : Cell) (g : FaceG) (m : ℕ) : hllc L R g m =
    if 0 ≤ proj g.n L - L.c then sideFlux L g m
    else if proj g.n L - L.c ≤ 0 ∧ 0 ≤ hllcSstar L R g then starFlux L g (proj g.n L - L.c) (hllcSstar L R g) m
    else if 0 ≤ proj g.n R + R.c ∧ hllcSstar L R g ≤ 0 then starFlux R g (proj g.n R + R.c) (hllcSstar L R g) m
    else if proj g.n R + R.c ≤ 0 then sideFlux R g m
    else 0 := by
  unfold hllc
  split_ifs <;> rfl

set_option maxRecDepth 4000 in
theorem hllc_body (b : Blk) (hb : 5 ≤ b.ne) (iS isx isy isz inx iny inz : Arr) (a c d i j k : ℤ) (F : FluxV) (m : ℕ) :
    hllc_computeFlux b iS isx isy isz inx iny inz a c d i j k F m = if m < b.ne then
      hllc (cell b (i - a) (j - c) (k - d)) (cell b i j k) ⟨⟨isx i j k, isy i j k, isz i j k⟩, ⟨inx i j k, iny i j k, inz i j k⟩, iS i j k⟩ m else F m := by
  refine leaves_of hb ?_ ?_ ?_ ?_ ?_ (fun n hn => ?_) (fun n hn => ?_) _
  rotate_left 5
  · simp [hllc_computeFlux, hllc_apply, hllcSstar, sideFlux, starFlux, ite_apply, set, mk5_species, sp1, sp2, sp3, sp4, cell, avg, proj, hn]
    split_ifs <;> first | rfl | ring1 | (rename_i h0 h1 h2 h3; exact (no_fifth h0 h1 h2 h3).elim)
  · simp [hllc_computeFlux, ite_apply, set, hn, sp1, sp2, sp3, sp4]
  all_goals
    simp [hllc_computeFlux, hllc_apply, hllcSstar, sideFlux, starFlux, ite_apply, set, mk5, cell, avg, proj]
    split_ifs <;> first | rfl | ring1 | (rename_i h0 h1 h2 h3; exact (no_fifth h0 h1 h2 h3).elim)

/-- C115 (hllc) -/
theorem C115_hllc : TwoCell hllc hllc_iF hllc_jF hllc_kF := by
  intro b hb
  refine ⟨?_, ?_, ?_⟩ <;> intro i j k F m
  · rw [hllc_iF, hllc_body b hb]; simp only [sub_zero]; rfl
  · rw [hllc_jF, hllc_body b hb]; simp only [sub_zero]; rfl
  · rw [hllc_kF, hllc_body b hb]; simp only [sub_zero]; rfl

theorem five : (5 / 1000 : ℝ) = 1 / 200 := by norm_num

theorem scalarDissipation_body (b : Blk) (hb : 5 ≤ b.ne) (iS isx isy isz inx iny inz : Arr) (a c d i j k : ℤ) (F : FluxV) (m : ℕ) (s : V3) :
    scalarDissipation_computeFlux b iS isx isy isz inx iny inz a c d i j k F m = if m < b.ne then
      scalarDiss (cell b (i - a * 2) (j - c * 2) (k - d * 2)) (cell b (i - a) (j - c) (k - d)) (cell b i j k) (cell b (i + 1) j k)
        (b.phi (i - a) (j - c) (k - d) (((a - 1) * a + c * c) + (d + 1) * d).toNat) (b.phi i j k (((a - 1) * a + c * c) + (d + 1) * d).toNat)
        ⟨s, ⟨inx i j k, iny i j k, inz i j k⟩, iS i j k⟩ m else F m := by
  body [scalarDissipation_computeFlux, scalarDiss, five]

/-- C115 (scalarDissipation): in the i direction, the dissipation of the four cells along i with the first switch value; in the j and k
    directions the fourth difference uses the cell (i+1,j,k) in place of the next cell along the direction. -/
theorem C115_scalarDissipation_partial (b : Blk) (hb : 5 ≤ b.ne) (i j k : ℤ) (old : FluxV) (m : ℕ) :
    scalarDissipation_iF b i j k old m = (if m < b.ne then
      scalarDiss (cell b (i - 2) j k) (cell b (i - 1) j k) (cell b i j k) (cell b (i + 1) j k) (b.phi (i - 1) j k 0) (b.phi i j k 0)
        (faceI b i j k) m else old m) ∧
    scalarDissipation_jF b i j k old m = (if m < b.ne then
      scalarDiss (cell b i (j - 2) k) (cell b i (j - 1) k) (cell b i j k) (cell b (i + 1) j k) (b.phi i (j - 1) k 1) (b.phi i j k 1)
        (faceJ b i j k) m else old m) ∧
    scalarDissipation_kF b i j k old m = (if m < b.ne then
      scalarDiss (cell b i j (k - 2)) (cell b i j (k - 1)) (cell b i j k) (cell b (i + 1) j k) (b.phi i j (k - 1) 2) (b.phi i j k 2)
        (faceK b i j k) m else old m) := by
  refine ⟨?_, ?_, ?_⟩
  · rw [scalarDissipation_iF, scalarDissipation_body b hb _ _ _ _ _ _ _ _ _ _ _ _ _ _ _ (faceI b i j k).s]; simp [faceI]
  · rw [scalarDissipation_jF, scalarDissipation_body b hb _ _ _ _ _ _ _ _ _ _ _ _ _ _ _ (faceJ b i j k).s]; simp [faceJ]
  · rw [scalarDissipation_kF, scalarDissipation_body b hb _ _ _ _ _ _ _ _ _ _ _ _ _ _ _ (faceK b i j k).s]; simp [faceK]

/-- the state of a block in which only the density of the cell (1,0,0) is not zero, with unit sound speed and unit areas -/
def spike : Blk where
  ne := 5
  q _ _ _ _ := 0
  Q i j k n := if i = 1 ∧ j = 0 ∧ k = 0 ∧ n = 0 then 1 else 0
  qh _ _ _ n := if n = 3 then 1 else 0
  phi _ _ _ _ := 0
  isx _ _ _ := 1
  isy _ _ _ := 0
  isz _ _ _ := 0
  inx _ _ _ := 1
  iny _ _ _ := 0
  inz _ _ _ := 0
  iS _ _ _ := 1
  jsx _ _ _ := 0
  jsy _ _ _ := 1
  jsz _ _ _ := 0
  jnx _ _ _ := 0
  jny _ _ _ := 1
  jnz _ _ _ := 0
  jS _ _ _ := 1
  ksx _ _ _ := 0
  ksy _ _ _ := 0
  ksz _ _ _ := 1
  knx _ _ _ := 0
  kny _ _ _ := 0
  knz _ _ _ := 1
  kS _ _ _ := 1

/-- C115 fails for scalarDissipation: the four cells along j through (0,0,0) are identical, and the flux stored at the j face is not zero. -/
theorem C115_scalarDissipation_violated :
    (∀ j : ℤ, cell spike 0 j 0 = cell spike 0 0 0) ∧ ∀ old, scalarDissipation_jF spike 0 0 0 old 0 ≠ 0 := by
  refine ⟨fun j => by simp [cell, spike], fun old => ?_⟩
  rw [(C115_scalarDissipation_partial spike (le_refl 5) 0 0 0 old 0).2.1]
  simp [scalarDiss, cell, spike, faceJ, mk5, avg]

end PG.Text
