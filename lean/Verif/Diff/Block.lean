import Verif.Diff.Props
import Verif.FV.Model
/-!
C61 at block level: the diffusive part of the right hand side (RHS.py:45-47): `diffFlux` fills the face arrays over its face
range, keeping whatever the advective step left elsewhere, and `applyFlux` adds the flux differences to `dQ`.
-/
noncomputable section
namespace PG.Diff
open V3 PG.FV

/-- face families of a block -/
structure FaceArrs where
  i : ℕ → ℕ → ℕ → FaceD
  j : ℕ → ℕ → ℕ → FaceD
  k : ℕ → ℕ → ℕ → FaceD

/-- face flux range of `computeFlux` (diffusiveFlux.cpp:18-20, alphaDampingFlux.cpp:29-31) -/
def faceRange (b : Dims) (iMod jMod kMod i j k : ℕ) : Prop :=
  (b.ng ≤ i ∧ i < b.ni + b.ng - 1 + iMod) ∧ (b.ng ≤ j ∧ j < b.nj + b.ng - 1 + jMod) ∧
    (b.ng ≤ k ∧ k < b.nk + b.ng - 1 + kMod)

/-- one `computeFlux` call: writes components 0..ne-1 in range, leaves the rest of the array -/
def computeFlux (sc : Scheme) (b : Dims) (C : ℕ → ℕ → ℕ → DCell) (f : ℕ → ℕ → ℕ → FaceD) (iMod jMod kMod : ℕ) (F : A4) :
    A4 :=
  open Classical in
  fun i j k l =>
    if faceRange b iMod jMod kMod i j k ∧ l < b.ne then
      sc.flux (b.ne - 4) (f i j k) (C (i - iMod) (j - jMod) (k - kMod)) (C i j k) l
    else F i j k l

/-- diffusiveFlux / alphaDampingFlux of a block (diffusiveFlux.cpp:156-160, alphaDampingFlux.cpp:227-236) -/
def blockFlux (sc : Scheme) (b : Dims) (C : ℕ → ℕ → ℕ → DCell) (fa : FaceArrs) (F : Fluxes) : Fluxes :=
  { iF := computeFlux sc b C fa.i 1 0 0 F.iF
    jF := computeFlux sc b C fa.j 0 1 0 F.jF
    kF := computeFlux sc b C fa.k 0 0 1 F.kF }

/-- RHS.py:45-47 -/
def diffRhs (sc : Scheme) (b : Dims) (J : A3) (C : ℕ → ℕ → ℕ → DCell) (fa : FaceArrs) (F : Fluxes) (dQ : A4) : A4 :=
  applyFlux b J (blockFlux sc b C fa F) dQ

/-- cells whose state the diffusive fluxes may read: the interior and one layer around it, without edges and corners -/
def Near (b : Dims) (i j k : ℕ) : Prop :=
  b.ng ≤ i + 1 ∧ i < b.ni + b.ng ∧ b.ng ≤ j + 1 ∧ j < b.nj + b.ng ∧ b.ng ≤ k + 1 ∧ k < b.nk + b.ng

theorem blockFlux_uniform (sc : Scheme) (b : Dims) (hng : 1 ≤ b.ng) (hne : 5 ≤ b.ne) (C : ℕ → ℕ → ℕ → DCell)
    (f : ℕ → ℕ → ℕ → FaceD) (iMod jMod kMod : ℕ) (F : A4) (hi : iMod ≤ 1) (hj : jMod ≤ 1) (hk : kMod ≤ 1)
    (hu : ∀ i j k i' j' k', Near b i j k → Near b i' j' k' → Uniform (b.ne - 4) (C i j k) (C i' j' k'))
    (i j k l : ℕ) (hr : faceRange b iMod jMod kMod i j k) (hl : l < b.ne) :
    computeFlux sc b C f iMod jMod kMod F i j k l = 0 := by
  unfold computeFlux
  rw [if_pos ⟨hr, hl⟩]
  obtain ⟨⟨h1, h2⟩, ⟨h3, h4⟩, ⟨h5, h6⟩⟩ := hr
  refine C61_uniform_zero sc (b.ne - 4) (by omega) _ _ _ (hu _ _ _ _ _ _ ?_ ?_) l (by omega) <;>
    exact ⟨by omega, by omega, by omega, by omega, by omega, by omega⟩

/-- C61: on a block (with its halo) in uniform motion at uniform temperature and composition, diffusion changes nothing:
    `dQ` is the same after the diffusive step in every cell, whatever was left in the face arrays, for every block size, halo
    depth, number of equations, grid and distribution of transport coefficients. -/
theorem C61_rhs_uniform (sc : Scheme) (b : Dims) (hng : 1 ≤ b.ng) (hne : 5 ≤ b.ne) (J : A3) (C : ℕ → ℕ → ℕ → DCell)
    (fa : FaceArrs) (F : Fluxes) (dQ : A4)
    (hu : ∀ i j k i' j' k', Near b i j k → Near b i' j' k' → Uniform (b.ne - 4) (C i j k) (C i' j' k')) :
    diffRhs sc b J C fa F dQ = dQ := by
  funext i j k l
  unfold diffRhs applyFlux
  split
  · rename_i h
    obtain ⟨⟨h1, h2⟩, ⟨h3, h4⟩, ⟨h5, h6⟩, hl⟩ := h
    simp only [blockFlux]
    have e := blockFlux_uniform sc b hng hne C
    rw [e fa.i 1 0 0 F.iF (by omega) (by omega) (by omega) hu i j k l ⟨⟨h1, by omega⟩, ⟨h3, by omega⟩, ⟨h5, by omega⟩⟩ hl,
      e fa.i 1 0 0 F.iF (by omega) (by omega) (by omega) hu (i+1) j k l
        ⟨⟨by omega, by omega⟩, ⟨h3, by omega⟩, ⟨h5, by omega⟩⟩ hl,
      e fa.j 0 1 0 F.jF (by omega) (by omega) (by omega) hu i j k l ⟨⟨h1, by omega⟩, ⟨h3, by omega⟩, ⟨h5, by omega⟩⟩ hl,
      e fa.j 0 1 0 F.jF (by omega) (by omega) (by omega) hu i (j+1) k l
        ⟨⟨h1, by omega⟩, ⟨by omega, by omega⟩, ⟨h5, by omega⟩⟩ hl,
      e fa.k 0 0 1 F.kF (by omega) (by omega) (by omega) hu i j k l ⟨⟨h1, by omega⟩, ⟨h3, by omega⟩, ⟨h5, by omega⟩⟩ hl,
      e fa.k 0 0 1 F.kF (by omega) (by omega) (by omega) hu i j (k+1) l
        ⟨⟨h1, by omega⟩, ⟨h3, by omega⟩, ⟨by omega, by omega⟩⟩ hl]
    simp
  · rfl

/-- face `f` with centre cells `L`, `R` is a regular face between two slabs: unit normal along the area vector, positive damping
    length -/
structure RegFace (f : FaceD) (L R : DCell) (k : ℝ) : Prop where
  slabs : Slabs L R k
  unit : dot f.n f.n = 1
  along : ∃ S, 0 < S ∧ f.s = smul S f.n
  len : 0 < magEn L R f

theorem heat_sign {f : FaceD} {L R : DCell} {k : ℝ} (hk : 0 < k) (h : RegFace f L R k) :
    (L.q 4 ≤ R.q 4 → alphaDampingFlux 1 f L R 4 ≤ 0) ∧ (R.q 4 ≤ L.q 4 → 0 ≤ alphaDampingFlux 1 f L R 4) ∧
    (R.q 4 < L.q 4 → 0 < alphaDampingFlux 1 f L R 4) := by
  obtain ⟨S, hS, hs⟩ := h.along
  rw [damped_heat f L R k S h.slabs hs h.unit]
  have hkS := mul_pos hk hS
  refine ⟨fun hT => div_nonpos_of_nonpos_of_nonneg ?_ h.len.le, fun hT => div_nonneg ?_ h.len.le, fun hT => div_pos ?_ h.len⟩
  · have := mul_nonneg hkS.le (sub_nonneg.2 hT); linarith
  · have := mul_nonneg hkS.le (sub_nonneg.2 hT); linarith
  · have := mul_pos hkS (sub_pos.2 hT); linarith

/-- C61 (maximum principle of the block operator): a cell of a single-species gas at rest, on a grid whose face area vectors
    point along increasing index, that is not colder than any of its six neighbours loses energy (strictly if the next cell in
    i is colder), for every block, cell and neighbour states; stored gradients zero. -/
theorem C61_hot_cell_cools (b : Dims) (hng : 1 ≤ b.ng) (hne : b.ne = 5) (J : A3) (C : ℕ → ℕ → ℕ → DCell) (fa : FaceArrs)
    (F : Fluxes) (dQ : A4) (kap : ℝ) (hk : 0 < kap) (i j k : ℕ) (hr : InRange b i j k 4) (hJ : 0 < J i j k)
    (hi : RegFace (fa.i i j k) (C (i-1) j k) (C i j k) kap) (hi' : RegFace (fa.i (i+1) j k) (C i j k) (C (i+1) j k) kap)
    (hj : RegFace (fa.j i j k) (C i (j-1) k) (C i j k) kap) (hj' : RegFace (fa.j i (j+1) k) (C i j k) (C i (j+1) k) kap)
    (hkk : RegFace (fa.k i j k) (C i j (k-1)) (C i j k) kap) (hk' : RegFace (fa.k i j (k+1)) (C i j k) (C i j (k+1)) kap)
    (hT : ∀ c ∈ [C (i-1) j k, C (i+1) j k, C i (j-1) k, C i (j+1) k, C i j (k-1), C i j (k+1)], c.q 4 ≤ (C i j k).q 4) :
    diffRhs .damped b J C fa F dQ i j k 4 ≤ dQ i j k 4 ∧
    ((C (i+1) j k).q 4 < (C i j k).q 4 → diffRhs .damped b J C fa F dQ i j k 4 < dQ i j k 4) := by
  simp only [List.forall_mem_cons, List.not_mem_nil, false_imp_iff, implies_true, and_true] at hT
  obtain ⟨t1, t2, t3, t4, t5, t6⟩ := hT
  have hr' := hr
  obtain ⟨⟨h1, h2⟩, ⟨h3, h4⟩, ⟨h5, h6⟩, hl⟩ := hr'
  have v : ∀ (f : ℕ → ℕ → ℕ → FaceD) (a c d : ℕ) (G : A4) (x y z : ℕ), faceRange b a c d x y z →
      computeFlux .damped b C f a c d G x y z 4 = alphaDampingFlux 1 (f x y z) (C (x - a) (y - c) (z - d)) (C x y z) 4 := by
    intro f a c d G x y z h
    unfold computeFlux
    rw [if_pos ⟨h, hl⟩, hne]; rfl
  have e := v fa.i 1 0 0 F.iF i j k ⟨⟨h1, by omega⟩, ⟨h3, by omega⟩, ⟨h5, by omega⟩⟩
  have e' := v fa.i 1 0 0 F.iF (i+1) j k ⟨⟨by omega, by omega⟩, ⟨h3, by omega⟩, ⟨h5, by omega⟩⟩
  have g := v fa.j 0 1 0 F.jF i j k ⟨⟨h1, by omega⟩, ⟨h3, by omega⟩, ⟨h5, by omega⟩⟩
  have g' := v fa.j 0 1 0 F.jF i (j+1) k ⟨⟨h1, by omega⟩, ⟨by omega, by omega⟩, ⟨h5, by omega⟩⟩
  have w := v fa.k 0 0 1 F.kF i j k ⟨⟨h1, by omega⟩, ⟨h3, by omega⟩, ⟨h5, by omega⟩⟩
  have w' := v fa.k 0 0 1 F.kF i j (k+1) ⟨⟨h1, by omega⟩, ⟨h3, by omega⟩, ⟨by omega, by omega⟩⟩
  simp only [Nat.sub_zero, Nat.add_sub_cancel] at e e' g g' w w'
  have s1 := (heat_sign hk hi).1 t1
  have s2 := (heat_sign hk hi').2.1 t2
  have s3 := (heat_sign hk hj).1 t3
  have s4 := (heat_sign hk hj').2.1 t4
  have s5 := (heat_sign hk hkk).1 t5
  have s6 := (heat_sign hk hk').2.1 t6
  have s7 := (heat_sign hk hi').2.2
  unfold diffRhs applyFlux
  rw [if_pos hr]
  simp only [blockFlux, e, e', g, g', w, w']
  refine ⟨?_, fun hlt => ?_⟩
  · have p := div_nonpos_of_nonpos_of_nonneg (add_nonpos (add_nonpos s1 s3) s5) hJ.le
    have q := div_nonneg (add_nonneg (add_nonneg s2 s4) s6) hJ.le
    linarith
  · have p := div_nonpos_of_nonpos_of_nonneg (add_nonpos (add_nonpos s1 s3) s5) hJ.le
    have q := div_pos (add_pos_of_pos_of_nonneg (add_pos_of_pos_of_nonneg (s7 hlt) s4) s6) hJ
    linarith

/-- a unit-spaced cartesian block with one hot cell meets the hypotheses of `C61_hot_cell_cools` -/
example (T T' : ℝ) (x : V3) :
    RegFace ⟨⟨2, 0, 0⟩, ⟨1, 0, 0⟩, x⟩ (slab x T) (slab (x + ⟨1, 0, 0⟩) T') 1 ∧
    RegFace ⟨⟨0, 2, 0⟩, ⟨0, 1, 0⟩, x⟩ (slab x T) (slab (x + ⟨0, 1, 0⟩) T') 1 ∧
    RegFace ⟨⟨0, 0, 2⟩, ⟨0, 0, 1⟩, x⟩ (slab x T) (slab (x + ⟨0, 0, 1⟩) T') 1 := by
  refine ⟨⟨slabs_slab _ _ _ _, by simp [dot], ⟨2, by norm_num, by simp [smul]⟩, ?_⟩,
    ⟨slabs_slab _ _ _ _, by simp [dot], ⟨2, by norm_num, by simp [smul]⟩, ?_⟩,
    ⟨slabs_slab _ _ _ _, by simp [dot], ⟨2, by norm_num, by simp [smul]⟩, ?_⟩⟩ <;>
  simp [magEn, slab]

/-- a uniform block meets the hypothesis of `C61_rhs_uniform` -/
example (b : Dims) : ∀ i j k i' j' k' : ℕ, Near b i j k → Near b i' j' k' →
    Uniform (b.ne - 4) ((fun i _ _ => slab ⟨i, 0, 0⟩ 300) i j k) ((fun i _ _ => slab ⟨i, 0, 0⟩ 300) i' j' k') :=
  fun _ _ _ _ _ _ _ _ _ _ _ => ⟨rfl, rfl, rfl⟩

end PG.Diff
