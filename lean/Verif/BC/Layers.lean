import Verif.BC.Lemmas
/-!
C34: which cells a boundary condition writes and from which cells, for the halo depths the solver allocates
(`howManyNG` returns 1 or 2, proved in C37).
-/
noncomputable section
namespace PG.BC
open PG.Thermo

/-- index of the faces shared by the first halo layer and the first interior layer: face `i` of a face family lies between
    cells `i-1` and `i` -/
def faceIdx (dm : Dims) (f : Face) : ℤ := max (haloLayer dm f 0) (interiorLayer dm f 0)

theorem blockFace_eq (dm : Dims) (f : Face) : blockFace dm f = faceIdx dm f := by
  unfold blockFace faceIdx haloLayer interiorLayer
  split <;> simp only [Nat.cast_zero] <;> omega

/-- unit normal of the block face at the tangential position of `c`, from the face family of the face's own direction -/
def faceNormal (dm : Dims) (f : Face) (F : FaceData) (c : Ix) : V3 := F.nrm f.dir (Function.update c f.dir (faceIdx dm f))
/-- the i-family normal found at the same indices -/
def iNormal (dm : Dims) (f : Face) (F : FaceData) (c : Ix) : V3 := F.nrm 0 (Function.update c f.dir (faceIdx dm f))

/-- C34 ("euler", walls, inlets other than mass flux, exits): halo layer `g` receives the condition's law evaluated on the
    halo cell's own old value, the first interior cell and interior layer `g+1`, all as they were before the call, followed
    by the equation of state; every other stored cell, in particular every interior cell, is unchanged. -/
theorem C34_euler {dm : Dims} (hng : dm.ng = 1 ∨ dm.ng = 2) (k : Kind) (f : Face) (F : FaceData) (eos : Cell → Cell)
    (b : Blk) (c : Ix) (hc : InArr dm c) (hk : k ≠ .constantMassFluxSubsonicInlet) (hk1 : k ≠ .periodicRotHigh)
    (hk2 : k ≠ .periodicRotLow) :
    (∀ g < dm.ng, c f.dir = haloLayer dm f g →
      (applyBC k dm f F eos "euler" b).A c =
        eos (law k f F (faceNormal dm f F c) (iNormal dm f F c) (F.bc (tan f c)) (b.A c) (b.A (inner dm f 0 c))
          (b.A (inner dm f (g+1) c)))) ∧
    ((∀ g < dm.ng, c f.dir ≠ haloLayer dm f g) → (applyBC k dm f F eos "euler" b).A c = b.A c) ∧
    (applyBC k dm f F eos "euler" b).G = b.G := by
  have key := haloLoop_spec hng f (bodyOf k dm f F) 1 b.A c hc
  have e : (applyBC k dm f F eos "euler" b).A = eosFace dm f eos
      (haloLoop dm f (bodyOf k dm f F) ⟨haloLayer dm f 0, interiorLayer dm f 1, b.A⟩).A := by
    have := interior_step dm f 0
    simp only [Nat.cast_zero, mul_zero, add_zero, Nat.zero_add] at this
    unfold applyBC eulerBC
    rw [if_pos rfl, firstHalo_eq, this]
    cases k <;> first | rfl | exact absurd rfl hk | exact absurd rfl hk1 | exact absurd rfl hk2
  refine ⟨fun g hg h => ?_, fun h => ?_, ?_⟩
  · rw [e, eosFace_hit hc hg h, key.1 g hg h, Nat.add_comm 1 g]
    unfold bodyOf faceNormal iNormal; rw [blockFace_eq]; rfl
  · rw [e, eosFace_miss hc h, key.2 h]
  · unfold applyBC; rw [if_pos rfl]

/-- C34 ("euler", rotational periodicity): every halo layer is rotated once, nothing else is touched. -/
theorem C34_periodic {dm : Dims} (hng : dm.ng = 1 ∨ dm.ng = 2) (f : Face) (F : FaceData) (eos : Cell → Cell)
    (b : Blk) (c : Ix) (hc : InArr dm c) (k : Kind) (M : Fin 3 → V3)
    (hk : k = .periodicRotHigh ∧ M = F.rotUp ∨ k = .periodicRotLow ∧ M = F.rotDown) :
    ((∃ g < dm.ng, c f.dir = haloLayer dm f g) → (applyBC k dm f F eos "euler" b).A c = rotCell M (b.A c)) ∧
    ((∀ g < dm.ng, c f.dir ≠ haloLayer dm f g) → (applyBC k dm f F eos "euler" b).A c = b.A c) := by
  have key := haloLoop_spec hng f (bodyOf k dm f F) 1 b.A c hc
  have e : (applyBC k dm f F eos "euler" b).A =
      (haloLoop dm f (bodyOf k dm f F) ⟨haloLayer dm f 0, interiorLayer dm f 1, b.A⟩).A := by
    have := interior_step dm f 0
    simp only [Nat.cast_zero, mul_zero, add_zero, Nat.zero_add] at this
    unfold applyBC eulerBC
    rw [if_pos rfl, firstHalo_eq, this]
    rcases hk with ⟨rfl, -⟩ | ⟨rfl, -⟩ <;> rfl
  refine ⟨fun ⟨g, hg, h⟩ => ?_, fun h => ?_⟩
  · rw [e, key.1 g hg h]
    rcases hk with ⟨rfl, rfl⟩ | ⟨rfl, rfl⟩ <;> rfl
  · rw [e, key.2 h]

/-- C34 ("euler", mass flux inlet): after its two passes halo layer `g` holds the state with the pressure extrapolated from
    interior layers 0 and `g+1`, then corrected against interior layer `g`; other cells are unchanged. -/
theorem C34_massFlux {dm : Dims} (hng : dm.ng = 1 ∨ dm.ng = 2) (f : Face) (F : FaceData) (eos : Cell → Cell)
    (b : Blk) (c : Ix) (hc : InArr dm c) :
    (∀ g < dm.ng, c f.dir = haloLayer dm f g →
      (applyBC .constantMassFluxSubsonicInlet dm f F eos "euler" b).A c =
        massFluxFix (F.bc (tan f c))
          (eos { b.A c with q := ⟨2 * (b.A (inner dm f 0 c)).q.p - (b.A (inner dm f (g+1) c)).q.p, 0, 0, 0,
                                   (F.bc (tan f c)).q.T, (F.bc (tan f c)).q.Y⟩ })
          (b.A (inner dm f g c))) ∧
    ((∀ g < dm.ng, c f.dir ≠ haloLayer dm f g) →
      (applyBC .constantMassFluxSubsonicInlet dm f F eos "euler" b).A c = b.A c) := by
  have hst := interior_step dm f 0
  simp only [Nat.cast_zero, mul_zero, add_zero, Nat.zero_add] at hst
  have idx := haloLoop_idx hng f (bodyOf .constantMassFluxSubsonicInlet dm f F) (haloLayer dm f 0)
    (interiorLayer dm f 1) b.A
  set st := haloLoop dm f (bodyOf .constantMassFluxSubsonicInlet dm f F)
    ⟨haloLayer dm f 0, interiorLayer dm f 1, b.A⟩ with hstd
  have e : (applyBC .constantMassFluxSubsonicInlet dm f F eos "euler" b).A =
      (haloLoop dm f (fun c c0 _ c2 => massFluxFix (F.bc (tan f c)) c0 c2)
        ⟨haloLayer dm f 0, interiorLayer dm f 0, eosFace dm f eos st.A⟩).A := by
    unfold applyBC eulerBC
    rw [if_pos rfl, firstHalo_eq, hst]
    simp only [← hstd]
    rw [idx.1, idx.2]
    have h1 : interiorLayer dm f 1 + plus f * (dm.ng - 1) - plus f * (dm.ng - 1) - plus f = interiorLayer dm f 0 := by
      unfold interiorLayer plus; split <;> simp
    have h2 : haloLayer dm f 0 - plus f * (dm.ng - 1) + plus f * (dm.ng - 1) = haloLayer dm f 0 := by ring
    rw [h1, h2]
  have hcT : ∀ i : ℕ, InArr dm c → (∀ g < dm.ng, (inner dm f i c) f.dir ≠ haloLayer dm f g) := by
    intro i _ g _; rw [inner_eq, at_dir]; exact halo_ne_interior dm f i g
  have hmiss : ∀ (i : ℕ), eosFace dm f eos st.A (inner dm f i c) = b.A (inner dm f i c) := by
    intro i
    have hnr : ¬ inFaceRange dm f (inner dm f i c) := by
      rintro ⟨ha, hx⟩
      obtain ⟨g, hg, he⟩ := (inFaceRange_iff f _ ha).1 ⟨ha, hx⟩
      exact hcT i hc g hg he
    have : eosFace dm f eos st.A (inner dm f i c) = st.A (inner dm f i c) := by
      unfold eosFace; rw [if_neg hnr]
    rw [this]
    rw [hstd]
    exact haloLoop_unstored hng f _ 1 b.A _ (hcT i hc)
  have key := haloLoop_spec hng f (fun c c0 _ c2 => massFluxFix (F.bc (tan f c)) c0 c2) 0 (eosFace dm f eos st.A) c hc
  have key1 := haloLoop_spec hng f (bodyOf .constantMassFluxSubsonicInlet dm f F) 1 b.A c hc
  refine ⟨fun g hg h => ?_, fun h => ?_⟩
  · rw [e, key.1 g hg h, eosFace_hit hc hg h, hmiss, Nat.zero_add]
    have := key1.1 g hg h
    rw [← hstd] at this
    rw [this, Nat.add_comm 1 g]; rfl
  · rw [e, key.2 h, eosFace_miss hc h]
    exact key1.2 h

/-- any cell (stored or not) whose normal index is not a halo layer of the face keeps its value -/
theorem wall_int {dm : Dims} (hng : dm.ng = 1 ∨ dm.ng = 2) {k : Kind} (hk : IsWall k) (f : Face) (F : FaceData)
    (eos : Cell → Cell) (b : Blk) (c : Ix) (i : ℕ) :
    (applyBC k dm f F eos "euler" b).A (inner dm f i c) = b.A (inner dm f i c) := by
  have hst := interior_step dm f 0
  simp only [Nat.cast_zero, mul_zero, add_zero, Nat.zero_add] at hst
  have e : (applyBC k dm f F eos "euler" b).A = eosFace dm f eos
      (haloLoop dm f (bodyOf k dm f F) ⟨haloLayer dm f 0, interiorLayer dm f 1, b.A⟩).A := by
    unfold applyBC eulerBC
    rw [if_pos rfl, firstHalo_eq, hst]
    cases k <;> first | rfl | exact hk.elim
  have hn : ∀ g < dm.ng, (inner dm f i c) f.dir ≠ haloLayer dm f g := by
    intro g _; rw [inner_eq, at_dir]; exact halo_ne_interior dm f i g
  rw [e, eosFace, if_neg]
  · exact haloLoop_unstored hng f _ 1 b.A _ hn
  · rintro ⟨ha, hx⟩
    obtain ⟨g, hg, he⟩ := (inFaceRange_iff f _ ha).1 ⟨ha, hx⟩
    exact hn g hg he

/-- C34 ("preDqDxyz"): halo layer `g` is set from the first interior cell; nothing else changes. -/
theorem C34_pre {dm : Dims} (hng : dm.ng = 1 ∨ dm.ng = 2) (k : Kind) (f : Face) (F : FaceData) (eos : Cell → Cell)
    (b : Blk) (c : Ix) (hc : InArr dm c) :
    ((∃ g < dm.ng, c f.dir = haloLayer dm f g) →
      (applyBC k dm f F eos "preDqDxyz" b).A c = preLaw k (F.bc (tan f c)) (b.A c) (b.A (inner dm f 0 c))) ∧
    ((∀ g < dm.ng, c f.dir ≠ haloLayer dm f g) → (applyBC k dm f F eos "preDqDxyz" b).A c = b.A c) ∧
    (applyBC k dm f F eos "preDqDxyz" b).G = b.G := by
  have hst := interior_step dm f 0
  simp only [Nat.cast_zero, mul_zero, add_zero, Nat.zero_add] at hst
  have e : (applyBC k dm f F eos "preDqDxyz" b).A = preBC k dm f F b.A := by
    unfold applyBC; rw [if_neg (by decide), if_pos rfl]
  have eG : (applyBC k dm f F eos "preDqDxyz" b).G = b.G := by
    unfold applyBC; rw [if_neg (by decide), if_pos rfl]
  have key := haloLoop_spec hng f (fun c c0 c1 _ => preLaw k (F.bc (tan f c)) c0 c1) 1 b.A c hc
  refine ⟨fun ⟨g, hg, h⟩ => ?_, fun h => ?_, eG⟩
  · rw [e]; unfold preBC
    split
    · rw [firstHalo_eq, hst, key.1 g hg h]
    · next hp => unfold preLaw; cases k <;> simp_all [hasPre]
  · rw [e]; unfold preBC
    split
    · rw [firstHalo_eq, hst, key.2 h]
    · rfl

/-- C34 ("postDqDxyz"): only the gradients of the first halo layer change, set from the first interior cell (or, for
    periodic faces, from their own value). -/
theorem C34_post {dm : Dims} (k : Kind) (f : Face) (F : FaceData) (eos : Cell → Cell)
    (b : Blk) (c : Ix) (hc : InArr dm c) :
    (c f.dir = haloLayer dm f 0 →
      (applyBC k dm f F eos "postDqDxyz" b).G c = postLaw k F (b.G c) (b.G (inner dm f 0 c))) ∧
    (c f.dir ≠ haloLayer dm f 0 → (applyBC k dm f F eos "postDqDxyz" b).G c = b.G c) ∧
    (applyBC k dm f F eos "postDqDxyz" b).A = b.A := by
  have e : applyBC k dm f F eos "postDqDxyz" b = { b with G := postBC k dm f F b.G } := by
    unfold applyBC; rw [if_neg (by decide), if_neg (by decide), if_pos rfl]
  rw [e]
  refine ⟨fun h => ?_, fun h => ?_, rfl⟩
  · show postBC k dm f F b.G c = _
    unfold postBC; rw [firstHalo_eq, writeSlice_hit hc h, firstInterior_eq]; rfl
  · show postBC k dm f F b.G c = _
    unfold postBC; rw [firstHalo_eq, writeSlice_miss h]

/-- C34: whatever the condition, the face and the stage (`terms`), no interior cell and no interior gradient is written. -/
theorem C34_interior_untouched {dm : Dims} (hng : dm.ng = 1 ∨ dm.ng = 2) (k : Kind) (f : Face) (F : FaceData)
    (eos : Cell → Cell) (terms : String) (b : Blk) (c : Ix) (hc : Interior dm c) :
    (applyBC k dm f F eos terms b).A c = b.A c ∧ (applyBC k dm f F eos terms b).G c = b.G c := by
  have ha := hc.inArr
  have hn : ∀ g < dm.ng, c f.dir ≠ haloLayer dm f g := fun g _ => interior_not_halo hc g
  by_cases h1 : terms = "euler"
  · subst h1
    refine ⟨?_, by unfold applyBC; rw [if_pos rfl]⟩
    by_cases hk : k = .constantMassFluxSubsonicInlet
    · subst hk; exact (C34_massFlux hng f F eos b c ha).2 hn
    by_cases hk1 : k = .periodicRotHigh
    · exact (C34_periodic hng f F eos b c ha k F.rotUp (Or.inl ⟨hk1, rfl⟩)).2 hn
    by_cases hk2 : k = .periodicRotLow
    · exact (C34_periodic hng f F eos b c ha k F.rotDown (Or.inr ⟨hk2, rfl⟩)).2 hn
    exact (C34_euler hng k f F eos b c ha hk hk1 hk2).2.1 hn
  by_cases h2 : terms = "preDqDxyz"
  · subst h2
    obtain ⟨-, h, h'⟩ := C34_pre hng k f F eos b c ha
    exact ⟨h hn, congrFun h' c⟩
  by_cases h3 : terms = "postDqDxyz"
  · subst h3
    obtain ⟨-, h, h'⟩ := C34_post k f F eos b c ha
    exact ⟨congrFun h' c, h (interior_not_halo hc 0)⟩
  unfold applyBC; rw [if_neg h1, if_neg h2, if_neg h3]; exact ⟨rfl, rfl⟩

/-- C34: all cells read and written are stored cells: with at least one cell per direction, interior layers up to `ng`
    and halo layers up to `ng-1` lie inside the arrays, and each halo cell of a face belongs to exactly one layer. -/
theorem C34_in_bounds {dm : Dims} (hng : dm.ng = 1 ∨ dm.ng = 2) (f : Face) (hn : 2 ≤ dm.n f.dir) :
    (∀ g ≤ dm.ng, 0 ≤ interiorLayer dm f g ∧ interiorLayer dm f g < dm.ext f.dir) ∧
    (∀ g < dm.ng, 0 ≤ haloLayer dm f g ∧ haloLayer dm f g < dm.ext f.dir) ∧
    (∀ x, 0 ≤ x → x < dm.ext f.dir →
      (∃! g, g < dm.ng ∧ x = haloLayer dm f g) ∨
      (if f.low then (dm.ng : ℤ) ≤ x else x < dm.n f.dir + dm.ng - 1)) := by
  unfold interiorLayer haloLayer Dims.ext
  refine ⟨fun g hg => ?_, fun g hg => ?_, fun x h0 h1 => ?_⟩
  · split <;> omega
  · split <;> omega
  · split
    · by_cases hx : (dm.ng : ℤ) ≤ x
      · exact Or.inr hx
      · refine Or.inl ⟨(dm.ng - 1 - x).toNat, by simp only; omega, ?_⟩
        rintro y ⟨hy, e⟩; omega
    · by_cases hx : x < dm.n f.dir + dm.ng - 1
      · exact Or.inr hx
      · refine Or.inl ⟨(x - (dm.n f.dir + dm.ng - 1)).toNat, by simp only; omega, ?_⟩
        rintro y ⟨hy, e⟩; omega

/-- C34 does not extend to three layers: the slice indices are shifted cumulatively, so with `ng = 3` a low face writes
    slices 2, 1 and then -1 (outside the array), and the outermost layer (slice 0) keeps its old contents. -/
theorem C34_depth_limit (n : Fin 3 → ℤ) (d : Fin 3) (body : Ix → Cell → Cell → Cell → Cell) (A : Ix → Cell)
    (c : Ix) (hc : c d = 0) :
    let dm : Dims := ⟨n, 3⟩
    let f : Face := ⟨d, true⟩
    let r := haloLoop dm f body ⟨firstHalo dm f, firstInterior dm f + plus f, A⟩
    haloLayer dm f 2 = 0 ∧ r.A c = A c ∧ r.h = -1 := by
  intro dm f r
  have hl : List.range 3 = [0, 1, 2] := rfl
  refine ⟨by simp [dm, f, haloLayer], ?_, ?_⟩
  · show (haloLoop dm f body _).A c = _
    unfold haloLoop
    show LoopSt.A (List.foldl _ _ (List.range 3)) c = _
    rw [hl]; simp only [List.foldl_cons, List.foldl_nil, loopBody]
    rw [writeSlice_miss, writeSlice_miss, writeSlice_miss] <;>
      simp [dm, f, firstHalo, plus, hc]
  · show (haloLoop dm f body _).h = _
    unfold haloLoop
    show LoopSt.h (List.foldl _ _ (List.range 3)) = _
    rw [hl]; simp [loopBody, firstHalo, plus, dm, f]

/-- the hypotheses are met: a 4x3x2-cell block with two layers, its high j face, the cell in the outer layer -/
example : let dm : Dims := ⟨fun t => if t = 0 then 5 else if t = 1 then 4 else 3, 2⟩
    let f : Face := ⟨1, false⟩
    let c : Ix := fun t => if t = 1 then 6 else 2
    (dm.ng = 1 ∨ dm.ng = 2) ∧ InArr dm c ∧ c f.dir = haloLayer dm f 1 ∧ 2 ≤ dm.n f.dir := by
  intro dm f c
  refine ⟨Or.inr rfl, ?_, rfl, by simp [dm, f]⟩
  intro t; fin_cases t <;> simp [dm, c, Dims.ext]

end PG.BC
