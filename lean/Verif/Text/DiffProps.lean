import Verif.Text.Diff
import Verif.Text.FluxProps
import Verif.Diff.Model
import Mathlib.Tactic.NormNum
/-!
C117: the flux that a diffusive flux kernel stores at a face. `Text/Diff.lean` is generated from the text of the kernels.
-/
namespace PG.Text
open PG.Flux (FluxV)
open PG.Diff (DCell FaceD)

/-! ### specification -/

/-- the state of a cell, block_.hpp: `q = p u v w T Y..`, `Q = rho ..`, `qh = gamma cp rhoh c rhoe h..`, `qt = mu kappa D..` -/
def dcell (b : DBlk) (i j k : ℤ) : DCell where
  q l := b.q i j k l
  g l := ⟨b.dqdx i j k l, b.dqdy i j k l, b.dqdz i j k l⟩
  mu := b.qt i j k 0
  kappa := b.qt i j k 1
  D n := b.qt i j k (2 + n)
  h n := b.qh i j k (5 + n)
  rho := b.Q i j k 0
  xc := ⟨b.xc i j k, b.yc i j k, b.zc i j k⟩

/-- the face between cell (i-1,j,k) and cell (i,j,k): area vector, normal, centre -/
def dfaceI (b : DBlk) (i j k : ℤ) : FaceD :=
  ⟨⟨b.isx i j k, b.isy i j k, b.isz i j k⟩, ⟨b.inx i j k, b.iny i j k, b.inz i j k⟩, ⟨b.ixc i j k, b.iyc i j k, b.izc i j k⟩⟩
/-- the face between cell (i,j-1,k) and cell (i,j,k) -/
def dfaceJ (b : DBlk) (i j k : ℤ) : FaceD :=
  ⟨⟨b.jsx i j k, b.jsy i j k, b.jsz i j k⟩, ⟨b.jnx i j k, b.jny i j k, b.jnz i j k⟩, ⟨b.jxc i j k, b.jyc i j k, b.jzc i j k⟩⟩
/-- the face between cell (i,j,k-1) and cell (i,j,k) -/
def dfaceK (b : DBlk) (i j k : ℤ) : FaceD :=
  ⟨⟨b.ksx i j k, b.ksy i j k, b.ksz i j k⟩, ⟨b.knx i j k, b.kny i j k, b.knz i j k⟩, ⟨b.kxc i j k, b.kyc i j k, b.kzc i j k⟩⟩

/-- a loop nest leaves, in the `ne` components of its flux array at (i,j,k), the flux `f`, and touches no other component -/
def DLeaves (b : DBlk) (prog : ℤ → ℤ → ℤ → FluxV → FluxV) (f : ℤ → ℤ → ℤ → FluxV) : Prop :=
  ∀ (i j k : ℤ) (old : FluxV) (m : ℕ), prog i j k old m = if m < b.ne then f i j k m else old m

/-- the same flux function of the two cells beside the face and of the face, in the three directions; a block with `ne` equations
    has `ne - 4` species -/
def DTwoCell (f : ℕ → FaceD → DCell → DCell → FluxV) (pi pj pk : DBlk → ℤ → ℤ → ℤ → FluxV → FluxV) : Prop :=
  ∀ b : DBlk, 5 ≤ b.ne →
    DLeaves b (pi b) (fun i j k => f (b.ne - 4) (dfaceI b i j k) (dcell b (i - 1) j k) (dcell b i j k)) ∧
    DLeaves b (pj b) (fun i j k => f (b.ne - 4) (dfaceJ b i j k) (dcell b i (j - 1) k) (dcell b i j k)) ∧
    DLeaves b (pk b) (fun i j k => f (b.ne - 4) (dfaceK b i j k) (dcell b i j (k - 1)) (dcell b i j k))

/-! ### proofs -/

theorem half_avg (r l : ℝ) : (1 / 2 : ℝ) * (r + l) = PG.Diff.avg r l := by unfold PG.Diff.avg; norm_num

/-- `F` with the species components `5 .. 5+N-1` replaced by `a 0 .. a (N-1)` -/
def stored (N : ℕ) (a : ℕ → ℝ) (F : FluxV) : FluxV := fun m => if 5 ≤ m ∧ m < 5 + N then a (m - 5) else F m

/-- the first species loop: one stored component and two carried sums -/
theorem fold1 (a g d : ℕ → ℝ) (F : FluxV) (y V : ℝ) (N : ℕ) :
    (List.range N).foldl (fun (st : FluxV × ℝ × ℝ) n => (set st.1 (5 + n) (a n), st.2.1 - g n, st.2.2 + d n)) (F, y, V) =
      (stored N a F, y - ∑ n ∈ Finset.range N, g n, V + ∑ n ∈ Finset.range N, d n) := by
  induction N with
  | zero => simp; funext m; simp [stored]
  | succ N ih =>
    rw [List.range_succ, List.foldl_append, ih]
    simp only [List.foldl_cons, List.foldl_nil, Finset.sum_range_succ, Prod.mk.injEq]
    refine ⟨?_, by ring, by ring⟩
    funext m
    unfold stored
    by_cases h : m = 5 + N
    · subst h; simp [set]
    · by_cases h' : 5 ≤ m ∧ m < 5 + N
      · rw [if_pos (by omega)]; simp [set, h, h']
      · rw [if_neg (by omega)]; simp [set, h, h']

/-- the second species loop: the correction of a stored component, its enthalpy in component 4, one carried sum -/
theorem fold2 (p h y : ℕ → ℝ) (F : FluxV) (Y : ℝ) (N : ℕ) :
    (List.range N).foldl (fun (st : FluxV × ℝ) n =>
      (set (set st.1 (5 + n) (st.1 (5 + n) + p n)) 4
        (set st.1 (5 + n) (st.1 (5 + n) + p n) 4 + set st.1 (5 + n) (st.1 (5 + n) + p n) (5 + n) * h n), st.2 - y n)) (F, Y) =
      (fun m => if m = 4 then F 4 + ∑ n ∈ Finset.range N, (F (5 + n) + p n) * h n
        else if 5 ≤ m ∧ m < 5 + N then F m + p (m - 5) else F m, Y - ∑ n ∈ Finset.range N, y n) := by
  induction N with
  | zero => simp; funext m; split <;> simp_all
  | succ N ih =>
    rw [List.range_succ, List.foldl_append, ih]
    simp only [List.foldl_cons, List.foldl_nil, Finset.sum_range_succ, Prod.mk.injEq]
    refine ⟨?_, by ring⟩
    funext m
    have e4 : ¬ (4 = 5 + N) := by omega
    have e5 : ¬ (5 + N = 4) := by omega
    by_cases h4 : m = 4
    · subst h4; simp [set, e4, e5]; ring
    by_cases h : m = 5 + N
    · subst h; simp [set, e5]
    · by_cases h' : 5 ≤ m ∧ m < 5 + N
      · have h2 : 5 ≤ m ∧ m < 5 + (N + 1) := by omega
        simp [set, h, h4, h', h2]
      · have h2 : ¬ (5 ≤ m ∧ m < 5 + (N + 1)) := by omega
        simp [set, h, h4, h', h2]

/-- the second loop after the first -/
theorem fold12 (p h y a : ℕ → ℝ) (F : FluxV) (Y : ℝ) (N : ℕ) :
    (List.range N).foldl (fun (st : FluxV × ℝ) n =>
      (set (set st.1 (5 + n) (st.1 (5 + n) + p n)) 4
        (set st.1 (5 + n) (st.1 (5 + n) + p n) 4 + set st.1 (5 + n) (st.1 (5 + n) + p n) (5 + n) * h n), st.2 - y n)) (stored N a F, Y) =
      (fun m => if m = 4 then F 4 + ∑ n ∈ Finset.range N, (a n + p n) * h n
        else if 5 ≤ m ∧ m < 5 + N then a (m - 5) + p (m - 5) else F m, Y - ∑ n ∈ Finset.range N, y n) := by
  rw [fold2]
  have hs : ∑ n ∈ Finset.range N, (stored N a F (5 + n) + p n) * h n = ∑ n ∈ Finset.range N, (a n + p n) * h n := by
    refine Finset.sum_congr rfl fun n hn => ?_
    rw [Finset.mem_range] at hn
    have : stored N a F (5 + n) = a n := by
      unfold stored
      rw [if_pos ⟨by omega, by omega⟩, Nat.add_sub_cancel_left]
    rw [this]
  rw [hs]
  refine Prod.ext ?_ rfl
  funext m
  by_cases h4 : m = 4
  · subst h4; simp [stored]
  · by_cases h' : 5 ≤ m ∧ m < 5 + N
    · simp [stored, h4, h']
    · simp [stored, h4, h']

theorem diffusive_species (ns : ℕ) (f : FaceD) (L R : DCell) (n : ℕ) :
    PG.Diff.diffusiveFlux ns f L R (5 + n) = PG.Diff.specFlux ns L R (PG.Diff.gradAvg L R) f.s n := by rw [Nat.add_comm]; rfl
theorem damping_species (ns : ℕ) (f : FaceD) (L R : DCell) (n : ℕ) :
    PG.Diff.alphaDampingFlux ns f L R (5 + n) = PG.Diff.specFlux ns L R (PG.Diff.gradDamp L R f) f.s n := by rw [Nat.add_comm]; rfl

set_option hygiene false in
/-- a component of the flux once the two species loops are closed forms: unfolding and algebra -/
macro "dcomp" "[" ds:Lean.Parser.Tactic.simpLemma,* "]" : tactic =>
  `(tactic| (
    first
      | (simp [set, sp1, sp2, sp3, sp4, $ds,*, PG.Diff.faceFlux, PG.Diff.stress, PG.Diff.specFlux, PG.Diff.lastFlux, PG.Diff.lastY,
          PG.Diff.corrVel, PG.Diff.sgradLast, PG.Diff.sgrad, dcell, e3, -neg_mul, -mul_eq_mul_left_iff, -mul_eq_mul_right_iff,
          -sub_right_inj, -add_left_inj, -add_right_inj]; done)
      | (simp [set, sp1, sp2, sp3, sp4, $ds,*, PG.Diff.faceFlux, PG.Diff.stress, PG.Diff.specFlux, PG.Diff.lastFlux, PG.Diff.lastY,
          PG.Diff.corrVel, PG.Diff.sgradLast, PG.Diff.sgrad, dcell, e3, -neg_mul, -mul_eq_mul_left_iff, -mul_eq_mul_right_iff,
          -sub_right_inj, -add_left_inj, -add_right_inj]; ring)))

set_option maxHeartbeats 4000000 in
theorem diffusive_body (b : DBlk) (hb : 5 ≤ b.ne) (isx isy isz : Arr) (a c d i j k : ℤ) (F : FluxV) (m : ℕ) (n xf : V3) :
    diffusiveFlux_computeFlux b isx isy isz a c d i j k F m = if m < b.ne then
      PG.Diff.diffusiveFlux (b.ne - 4) ⟨⟨isx i j k, isy i j k, isz i j k⟩, n, xf⟩ (dcell b (i - a) (j - c) (k - d)) (dcell b i j k) m
      else F m := by
  obtain ⟨N, hN⟩ := Nat.exists_eq_add_of_le hb
  have e1 : b.ne - 5 = N := by omega
  have e2 : 2 + b.ne - 5 = 2 + N := by omega
  have e3 : b.ne - 4 - 1 = N := by omega
  have e4 : b.qh i j k b.ne = b.qh i j k (5 + N) := by rw [hN]
  have e5 : b.qh (i - a) (j - c) (k - d) b.ne = b.qh (i - a) (j - c) (k - d) (5 + N) := by rw [hN]
  unfold diffusiveFlux_computeFlux
  simp only [half_avg]
  simp only [fold1, fold12, e1, e2, e4, e5]
  revert m
  refine leaves_of hb ?_ ?_ ?_ ?_ ?_ (fun n hn => ?_) (fun n hn => ?_)
  · dcomp [PG.Diff.diffusiveFlux, PG.Diff.gradAvg]
  · dcomp [PG.Diff.diffusiveFlux, PG.Diff.gradAvg]
  · dcomp [PG.Diff.diffusiveFlux, PG.Diff.gradAvg]
  · dcomp [PG.Diff.diffusiveFlux, PG.Diff.gradAvg]
  · dcomp [PG.Diff.diffusiveFlux, PG.Diff.gradAvg]
  · have hn' : 5 + n < 5 + N := by omega
    have hn2 : n < N := by omega
    rw [diffusive_species]
    dcomp [PG.Diff.gradAvg, hn', hn2]
  · have hn' : ¬ n < N := by omega
    have hn2 : ¬ 5 + n < 5 + N := by omega
    dcomp [hn', hn2]

set_option maxHeartbeats 4000000 in
theorem damping_body (b : DBlk) (hb : 5 ≤ b.ne) (isx isy isz inx iny inz ixc iyc izc : Arr) (a c d i j k : ℤ) (F : FluxV) (m : ℕ) :
    alphaDampingFlux_computeFlux b isx isy isz inx iny inz ixc iyc izc a c d i j k F m = if m < b.ne then
      PG.Diff.alphaDampingFlux (b.ne - 4) ⟨⟨isx i j k, isy i j k, isz i j k⟩,
        ⟨inx i j k, iny i j k, inz i j k⟩, ⟨ixc i j k, iyc i j k, izc i j k⟩⟩ (dcell b (i - a) (j - c) (k - d)) (dcell b i j k) m
      else F m := by
  obtain ⟨N, hN⟩ := Nat.exists_eq_add_of_le hb
  have e1 : b.ne - 5 = N := by omega
  have e2 : 2 + b.ne - 5 = 2 + N := by omega
  have e3 : b.ne - 4 - 1 = N := by omega
  have e4 : b.qh i j k b.ne = b.qh i j k (5 + N) := by rw [hN]
  have e5 : b.qh (i - a) (j - c) (k - d) b.ne = b.qh (i - a) (j - c) (k - d) (5 + N) := by rw [hN]
  unfold alphaDampingFlux_computeFlux
  simp only [half_avg]
  simp only [fold1, fold12, e1, e2, e4, e5]
  revert m
  refine leaves_of hb ?_ ?_ ?_ ?_ ?_ (fun n hn => ?_) (fun n hn => ?_)
  · dcomp [PG.Diff.alphaDampingFlux, PG.Diff.gradDamp, PG.Diff.damp, PG.Diff.magEn, PG.Diff.extrap]
  · dcomp [PG.Diff.alphaDampingFlux, PG.Diff.gradDamp, PG.Diff.damp, PG.Diff.magEn, PG.Diff.extrap]
  · dcomp [PG.Diff.alphaDampingFlux, PG.Diff.gradDamp, PG.Diff.damp, PG.Diff.magEn, PG.Diff.extrap]
  · dcomp [PG.Diff.alphaDampingFlux, PG.Diff.gradDamp, PG.Diff.damp, PG.Diff.magEn, PG.Diff.extrap]
  · dcomp [PG.Diff.alphaDampingFlux, PG.Diff.gradDamp, PG.Diff.damp, PG.Diff.magEn, PG.Diff.extrap]
  · have hn' : 5 + n < 5 + N := by omega
    have hn2 : n < N := by omega
    rw [damping_species]
    dcomp [PG.Diff.gradDamp, PG.Diff.damp, PG.Diff.magEn, PG.Diff.extrap, hn', hn2]
  · have hn' : ¬ n < N := by omega
    have hn2 : ¬ 5 + n < 5 + N := by omega
    dcomp [hn', hn2]

/-- C117 (diffusiveFlux): every direction stores `diffusiveFlux` of the two cells beside the face -/
theorem C117_diffusiveFlux : DTwoCell PG.Diff.diffusiveFlux diffusiveFlux_iF diffusiveFlux_jF diffusiveFlux_kF := by
  intro b hb
  refine ⟨?_, ?_, ?_⟩ <;> intro i j k F m
  · rw [diffusiveFlux_iF, diffusive_body b hb _ _ _ _ _ _ _ _ _ _ _ (dfaceI b i j k).n (dfaceI b i j k).xf]; simp only [sub_zero]; rfl
  · rw [diffusiveFlux_jF, diffusive_body b hb _ _ _ _ _ _ _ _ _ _ _ (dfaceJ b i j k).n (dfaceJ b i j k).xf]; simp only [sub_zero]; rfl
  · rw [diffusiveFlux_kF, diffusive_body b hb _ _ _ _ _ _ _ _ _ _ _ (dfaceK b i j k).n (dfaceK b i j k).xf]; simp only [sub_zero]; rfl

/-- C117 (alphaDampingFlux): every direction stores `alphaDampingFlux` of the two cells beside the face -/
theorem C117_alphaDampingFlux : DTwoCell PG.Diff.alphaDampingFlux alphaDampingFlux_iF alphaDampingFlux_jF alphaDampingFlux_kF := by
  intro b hb
  refine ⟨?_, ?_, ?_⟩ <;> intro i j k F m
  · rw [alphaDampingFlux_iF, damping_body b hb]; simp only [sub_zero]; rfl
  · rw [alphaDampingFlux_jF, damping_body b hb]; simp only [sub_zero]; rfl
  · rw [alphaDampingFlux_kF, damping_body b hb]; simp only [sub_zero]; rfl

/-! ### a concrete block: two species, unit velocity and mass fraction gradients along x, unit faces -/

noncomputable def exD : DBlk where
  ne := 6
  q _ _ _ _ := 1
  Q _ _ _ _ := 1
  qh _ _ _ _ := 1
  qt _ _ _ _ := 1
  dqdx _ _ _ _ := 1
  dqdy _ _ _ _ := 0
  dqdz _ _ _ _ := 0
  xc i _ _ := i
  yc _ j _ := j
  zc _ _ k := k
  isx _ _ _ := 1
  isy _ _ _ := 0
  isz _ _ _ := 0
  inx _ _ _ := 1
  iny _ _ _ := 0
  inz _ _ _ := 0
  ixc i _ _ := i - 1 / 2
  iyc _ j _ := j
  izc _ _ k := k
  jsx _ _ _ := 0
  jsy _ _ _ := 1
  jsz _ _ _ := 0
  jnx _ _ _ := 0
  jny _ _ _ := 1
  jnz _ _ _ := 0
  jxc i _ _ := i
  jyc _ j _ := j - 1 / 2
  jzc _ _ k := k
  ksx _ _ _ := 0
  ksy _ _ _ := 0
  ksz _ _ _ := 1
  knx _ _ _ := 0
  kny _ _ _ := 0
  knz _ _ _ := 1
  kxc i _ _ := i
  kyc _ j _ := j
  kzc _ _ k := k - 1 / 2

/-- the hypothesis is met, and the stored momentum and species fluxes of this block are not zero; component 6 keeps its old value -/
theorem C117_nonvacuous (F : FluxV) : 5 ≤ exD.ne ∧ diffusiveFlux_iF exD 3 2 1 F 1 = -(4 / 3) ∧ diffusiveFlux_iF exD 3 2 1 F 5 = -1 ∧
    alphaDampingFlux_jF exD 3 2 1 F 1 = -1 ∧ alphaDampingFlux_kF exD 3 2 1 F 6 = F 6 := by
  have h : (5 : ℕ) ≤ exD.ne := by decide
  have hne : exD.ne = 6 := rfl
  refine ⟨h, ?_, ?_, ?_, ?_⟩
  · rw [(C117_diffusiveFlux exD h).1, hne]
    norm_num [PG.Diff.diffusiveFlux, PG.Diff.faceFlux, PG.Diff.stress, PG.Diff.gradAvg, PG.Diff.avg, dcell, dfaceI, exD]
  · rw [(C117_diffusiveFlux exD h).1, hne]
    norm_num [PG.Diff.diffusiveFlux, PG.Diff.faceFlux, PG.Diff.specFlux, PG.Diff.corrVel, PG.Diff.sgradLast, PG.Diff.sgrad, PG.Diff.gradAvg,
      PG.Diff.avg, dcell, dfaceI, exD]
  · rw [(C117_alphaDampingFlux exD h).2.1, hne]
    norm_num [PG.Diff.alphaDampingFlux, PG.Diff.faceFlux, PG.Diff.stress, PG.Diff.gradDamp, PG.Diff.damp, PG.Diff.magEn, PG.Diff.extrap,
      PG.Diff.avg, dcell, dfaceJ, exD]
  · rw [(C117_alphaDampingFlux exD h).2.2, hne]
    norm_num

end PG.Text
