import Verif.BC.Spec
import Mathlib.Tactic.Linarith
/-! Helper lemmas for the boundary condition model. -/
noncomputable section
namespace PG.BC
open PG.Thermo

theorem firstHalo_eq (dm : Dims) (f : Face) : firstHalo dm f = haloLayer dm f 0 := by
  unfold firstHalo haloLayer; split <;> simp
theorem firstInterior_eq (dm : Dims) (f : Face) : firstInterior dm f = interiorLayer dm f 0 := by
  unfold firstInterior interiorLayer; split <;> simp
theorem interior_step (dm : Dims) (f : Face) (g : ℕ) :
    firstInterior dm f + plus f + plus f * g = interiorLayer dm f (g+1) := by
  unfold firstInterior interiorLayer plus; split <;> push_cast <;> ring
theorem interior_step0 (dm : Dims) (f : Face) (g : ℕ) :
    firstInterior dm f + plus f * g = interiorLayer dm f g := by
  unfold firstInterior interiorLayer plus; split <;> ring
theorem halo_ne_interior (dm : Dims) (f : Face) (g h : ℕ) : interiorLayer dm f g ≠ haloLayer dm f h := by
  unfold interiorLayer haloLayer; split <;> omega

theorem halo_inj (dm : Dims) (f : Face) (g h : ℕ) (e : haloLayer dm f g = haloLayer dm f h) : g = h := by
  unfold haloLayer at e; split at e <;> omega

theorem writeSlice_hit {α : Type} {dm : Dims} {f : Face} {s : ℤ} {val A : Ix → α} {c : Ix} (hc : InArr dm c)
    (h : c f.dir = s) : writeSlice dm f s val A c = val c := by
  unfold writeSlice; rw [if_pos ⟨h, fun t _ => hc t⟩]
theorem writeSlice_miss {α : Type} {dm : Dims} {f : Face} {s : ℤ} {val A : Ix → α} {c : Ix}
    (h : c f.dir ≠ s) : writeSlice dm f s val A c = A c := by
  unfold writeSlice; rw [if_neg (fun h' => h h'.1)]

@[simp] theorem at_dir (f : Face) (s : ℤ) (c : Ix) : (at_ f s c) f.dir = s := by simp [at_]
@[simp] theorem at_at (f : Face) (s t : ℤ) (c : Ix) : at_ f s (at_ f t c) = at_ f s c := by simp [at_]
@[simp] theorem tan_at (f : Face) (s : ℤ) (c : Ix) : tan f (at_ f s c) = tan f c := by simp [at_, tan]
theorem inner_eq (dm : Dims) (f : Face) (g : ℕ) (c : Ix) : inner dm f g c = at_ f (interiorLayer dm f g) c := rfl

/-- the cumulative shift `firstHaloIdx -= plus*g` visits layers 0 and 1 -/
theorem halo_shift0 (dm : Dims) (f : Face) : haloLayer dm f 0 - plus f * ((0:ℕ):ℤ) = haloLayer dm f 0 := by simp
theorem halo_shift1 (dm : Dims) (f : Face) : haloLayer dm f 0 - plus f * ((1:ℕ):ℤ) = haloLayer dm f 1 := by
  unfold haloLayer plus; split <;> simp

/-- the slice loop for one or two halo layers, `s0` being the starting index of the second slice -/
theorem haloLoop_spec {dm : Dims} (hng : dm.ng = 1 ∨ dm.ng = 2) (f : Face) (body : Ix → Cell → Cell → Cell → Cell)
    (k : ℕ) (A : Ix → Cell) (c : Ix) (hc : InArr dm c) :
    let r := (haloLoop dm f body ⟨haloLayer dm f 0, interiorLayer dm f k, A⟩).A
    (∀ g < dm.ng, c f.dir = haloLayer dm f g →
      r c = body c (A c) (A (inner dm f 0 c)) (A (inner dm f (k+g) c))) ∧
    ((∀ g < dm.ng, c f.dir ≠ haloLayer dm f g) → r c = A c) := by
  have hs : ∀ g : ℕ, interiorLayer dm f k + plus f * (g:ℤ) = interiorLayer dm f (k+g) := by
    intro g; unfold interiorLayer plus; split <;> push_cast <;> ring
  have hne := halo_ne_interior dm f
  have h01 : haloLayer dm f 0 ≠ haloLayer dm f 1 := fun e => by have := halo_inj dm f 0 1 e; omega
  intro r
  rcases hng with hng | hng
  · have hr : r = writeSlice dm f (haloLayer dm f 0) (fun c => body c (A c) (A (inner dm f 0 c)) (A (inner dm f k c))) A := by
      show (haloLoop dm f body _).A = _
      unfold haloLoop; rw [hng]
      have : List.range 1 = [0] := rfl
      rw [this]; simp only [List.foldl_cons, List.foldl_nil, loopBody]
      rw [halo_shift0, hs 0, firstInterior_eq]; rfl
    constructor
    · intro g hg hcg
      have : g = 0 := by omega
      subst this; rw [hr, writeSlice_hit hc hcg]; rfl
    · intro h; rw [hr, writeSlice_miss (h 0 (by omega))]
  · have hr : r = writeSlice dm f (haloLayer dm f 1) (fun c => body c
          (writeSlice dm f (haloLayer dm f 0) (fun c => body c (A c) (A (inner dm f 0 c)) (A (inner dm f k c))) A c)
          (A (inner dm f 0 c)) (A (inner dm f (k+1) c)))
        (writeSlice dm f (haloLayer dm f 0) (fun c => body c (A c) (A (inner dm f 0 c)) (A (inner dm f k c))) A) := by
      show (haloLoop dm f body _).A = _
      unfold haloLoop; rw [hng]
      have : List.range 2 = [0, 1] := rfl
      rw [this]; simp only [List.foldl_cons, List.foldl_nil, loopBody]
      rw [halo_shift0, hs 0, halo_shift1, Nat.add_zero, hs 1, firstInterior_eq]
      congr 1
      funext c
      rw [writeSlice_miss (c := at_ f (interiorLayer dm f 0) c) (by rw [at_dir]; exact hne 0 0),
          writeSlice_miss (c := at_ f (interiorLayer dm f (k+1)) c) (by rw [at_dir]; exact hne (k+1) 0)]
      rfl
    constructor
    · intro g hg hcg
      rcases (by omega : g = 0 ∨ g = 1) with h | h
      · subst h; rw [hr, writeSlice_miss (by rw [hcg]; exact h01), writeSlice_hit hc hcg]; rfl
      · subst h; rw [hr, writeSlice_hit hc hcg, writeSlice_miss (by rw [hcg]; exact h01.symm)]
    · intro h; rw [hr, writeSlice_miss (h 1 (by omega)), writeSlice_miss (h 0 (by omega))]

/-- slices that are not halo layers of the face are not written -/
theorem haloLoop_unstored {dm : Dims} (hng : dm.ng = 1 ∨ dm.ng = 2) (f : Face) (body : Ix → Cell → Cell → Cell → Cell)
    (k : ℕ) (A : Ix → Cell) (c : Ix) (h : ∀ g < dm.ng, c f.dir ≠ haloLayer dm f g) :
    (haloLoop dm f body ⟨haloLayer dm f 0, interiorLayer dm f k, A⟩).A c = A c := by
  unfold haloLoop
  rcases hng with hng | hng <;> rw [hng] at h ⊢
  · have : List.range 1 = [0] := rfl
    rw [this]; simp only [List.foldl_cons, List.foldl_nil, loopBody]
    rw [halo_shift0, writeSlice_miss (h 0 (by omega))]
  · have : List.range 2 = [0, 1] := rfl
    rw [this]; simp only [List.foldl_cons, List.foldl_nil, loopBody]
    rw [halo_shift0, halo_shift1, writeSlice_miss (h 1 (by omega)), writeSlice_miss (h 0 (by omega))]

/-- loop indices at the end of the slice loop, for one or two layers -/
theorem haloLoop_idx {dm : Dims} (hng : dm.ng = 1 ∨ dm.ng = 2) (f : Face) (body : Ix → Cell → Cell → Cell → Cell)
    (h s : ℤ) (A : Ix → Cell) :
    (haloLoop dm f body ⟨h, s, A⟩).h = h - plus f * (dm.ng - 1) ∧
    (haloLoop dm f body ⟨h, s, A⟩).s = s + plus f * (dm.ng - 1) := by
  unfold haloLoop
  rcases hng with hng | hng <;> rw [hng]
  · have : List.range 1 = [0] := rfl
    rw [this]; simp [loopBody]
  · have : List.range 2 = [0, 1] := rfl
    rw [this]; simp [loopBody]

/-- the equation-of-state range covers exactly the halo layers of the face -/
theorem inFaceRange_iff {dm : Dims} (f : Face) (c : Ix) (hc : InArr dm c) :
    inFaceRange dm f c ↔ ∃ g < dm.ng, c f.dir = haloLayer dm f g := by
  unfold inFaceRange
  have h1 := hc f.dir
  unfold Dims.ext at h1
  unfold haloLayer
  constructor
  · rintro ⟨-, h⟩
    split at h
    · next hl => exact ⟨(dm.ng - 1 - c f.dir).toNat, by omega, by rw [if_pos hl]; omega⟩
    · next hl => exact ⟨(c f.dir - (dm.n f.dir + dm.ng - 1)).toNat, by omega, by rw [if_neg hl]; omega⟩
  · rintro ⟨g, hg, h⟩
    refine ⟨hc, ?_⟩
    split at h
    · next hl => rw [if_pos hl]; omega
    · next hl => rw [if_neg hl]; omega

theorem eosFace_hit {dm : Dims} {f : Face} {eos : Cell → Cell} {A : Ix → Cell} {c : Ix} (hc : InArr dm c) {g : ℕ}
    (hg : g < dm.ng) (h : c f.dir = haloLayer dm f g) : eosFace dm f eos A c = eos (A c) := by
  unfold eosFace; rw [if_pos ((inFaceRange_iff f c hc).2 ⟨g, hg, h⟩)]
theorem eosFace_miss {dm : Dims} {f : Face} {eos : Cell → Cell} {A : Ix → Cell} {c : Ix} (hc : InArr dm c)
    (h : ∀ g < dm.ng, c f.dir ≠ haloLayer dm f g) : eosFace dm f eos A c = A c := by
  unfold eosFace; rw [if_neg]
  intro h'; obtain ⟨g, hg, e⟩ := (inFaceRange_iff f c hc).1 h'; exact h g hg e

theorem interior_not_halo {dm : Dims} {f : Face} {c : Ix} (hc : Interior dm c) (g : ℕ) : c f.dir ≠ haloLayer dm f g := by
  have := hc f.dir
  unfold haloLayer; split <;> omega

theorem Interior.inArr {dm : Dims} {c : Ix} (hc : Interior dm c) : InArr dm c := by
  intro t; have := hc t; unfold Dims.ext; omega

end PG.BC
