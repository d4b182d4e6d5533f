import Verif.Config.Props
import Verif.Flux.Freestream
import Verif.Subgrid.Model
/-!
C37: the halo depth chosen by `howManyNG` covers the cells read by the configured advective schemes and the subgrid model.

Cells are indexed by integers here, so that an access below index 0 or above the last allocated index is visible. "A kernel
reads only allocated cells" is stated by its effect: states that agree on the allocated cells give the same result.
-/
namespace PG.Config
open PG.Flux PG.FV

/-- cell data of a block, indexed by integers -/
abbrev Cells := ℤ → ℤ → ℤ → Cell

/-- block shape: `ni × nj × nk` grid nodes, `ng` halo layers (block_.hpp) -/
structure Shape where
  ni : ℤ
  nj : ℤ
  nk : ℤ
  ng : ℤ

/-- number of cells allocated in a direction with `n` nodes: `n + 2 ng - 1` (solverBlock.py:73), indexed from 0 -/
def inAlloc (n ng i : ℤ) : Prop := 0 ≤ i ∧ i < n + 2 * ng - 1

/-- the allocated cells -/
def Alloc (b : Shape) (i j k : ℤ) : Prop := inAlloc b.ni b.ng i ∧ inAlloc b.nj b.ng j ∧ inAlloc b.nk b.ng k

/-- face directions -/
inductive Dir
  | i
  | j
  | k
deriving DecidableEq

/-- iMod, jMod, kMod -/
def Dir.step : Dir → ℤ × ℤ × ℤ
  | .i => (1, 0, 0)
  | .j => (0, 1, 0)
  | .k => (0, 0, 1)

/-- the loop of every advective kernel in direction `d`, e.g. rusanov.cpp:13-15, fourthOrderKEEP.cpp:11-12, 185-186, 353-354:
    indices from `ng` to below `n + ng - 1`, one more in direction `d` -/
def FaceLoop (b : Shape) (d : Dir) (i j k : ℤ) : Prop :=
  (b.ng ≤ i ∧ i < b.ni + b.ng - 1 + d.step.1) ∧ (b.ng ≤ j ∧ j < b.nj + b.ng - 1 + d.step.2.1) ∧
  (b.ng ≤ k ∧ k < b.nk + b.ng - 1 + d.step.2.2)

/-- the flux kernels bound in bindingsAdvFlux.cpp (except scalarDissipation), by name, as functions of the four cells around
    the face (kernels of Flux/Model.lean) -/
noncomputable def kernel : String → Option Scheme
  | "KEEP" => some (fun _ L R _ g => KEEP L R g)
  | "KEEPpe" => some (fun _ L R _ g => KEEPpe L R g)
  | "KEPaEC" => some (fun _ L R _ g => KEPaEC L R g)
  | "centralDifference" => some (fun _ L R _ g => central L R g)
  | "rusanov" => some (fun _ L R _ g => rusanov L R g)
  | "ausmPlusUp" => some (fun _ L R _ g => ausm L R g)
  | "hllc" => some (fun _ L R _ g => hllc L R g)
  | "fourthOrderKEEP" => some fourthKEEP
  | "muscl2rusanov" => some muscl2rusanov
  | "muscl2hllc" => some muscl2hllc
  | _ => none

/-- flux computed by the scheme `name` at the face `(i, j, k)` of direction `d`: between the cells one step back and at the
    index, with the cells two steps back and one step ahead for wide stencils; scalarDissipation reads the cell `(i+1, j, k)` in
    all directions and the switch values `phi` of the two cells at the face (scalarDissipation.cpp:24-102) -/
noncomputable def fluxAt (name : String) (phi : ℤ → ℤ → ℤ → Dir → ℝ) (g : FaceG) (st : Cells) (d : Dir) (i j k : ℤ) :
    Option FluxV :=
  let m := d.step
  let L := st (i - m.1) (j - m.2.1) (k - m.2.2)
  let LL := st (i - m.1 * 2) (j - m.2.1 * 2) (k - m.2.2 * 2)
  if name = "scalarDissipation" then
    some (scalarDiss LL L (st i j k) (st (i + 1) j k) (phi (i - m.1) (j - m.2.1) (k - m.2.2) d) (phi i j k d) g)
  else (kernel name).map (fun f => f LL L (st i j k) (st (i + m.1) (j + m.2.1) (k + m.2.2)) g)

/-- velocities handed to the mixed-scale model -/
def vel (st : Cells) : Subgrid.Vel := fun i j k => ⟨(st i j k).u, (st i j k).v, (st i j k).w⟩

/-- loop of the subgrid models (Subgrid/Model.lean) -/
def SubLoop (b : Shape) (i j k : ℤ) : Prop := Subgrid.SubLoop ⟨b.ni, b.nj, b.nk, b.ng, 5⟩ i j k

/-- the quantity the mixed-scale model filters from neighbouring cells (Subgrid/Model.lean) -/
noncomputable def qc2 (st : Cells) (i j k : ℤ) : ℝ := Subgrid.qc2 (vel st) i j k

/-! ### the table -/

/-- the table `howManyNG`: schemes reading four cells need two layers, the others one -/
theorem advNG_value {v : Val} {n : ℕ} (h : advNG v = .ok n) :
    (n = 1 ∨ n = 2) ∧ (n = 2 ↔ v ∈ [Val.str "fourthOrderKEEP", .str "muscl2hllc", .str "muscl2rusanov", .str "scalarDissipation"]) := by
  rcases advNG_ok.1 ⟨n, h⟩ with rfl | ⟨a, ha, rfl⟩
  · cases h; simp
  · simp only [usableAdv, List.mem_cons, List.not_mem_nil, or_false] at ha
    rcases ha with rfl | rfl | rfl | rfl | rfl | rfl | rfl | rfl | rfl | rfl <;> cases h <;> simp

theorem subNG_value {v : Val} {n : ℕ} (h : subNG v = .ok n) : (n = 1 ∨ n = 2) ∧ (n = 2 ↔ v = .str "mixedScaleModel") := by
  rcases subNG_ok.1 ⟨n, h⟩ with rfl | ⟨a, ha, rfl⟩
  · cases h; simp
  · simp only [boundSubgrid, List.mem_cons, List.not_mem_nil, or_false] at ha
    rcases ha with rfl | rfl <;> cases h <;> simp

/-- C37 (number of layers): the number of layers is 1 or 2; it is 2 exactly when one of the two flux schemes is a four-cell
    scheme or the subgrid model is the mixed-scale model. -/
theorem C37_layers (s : Sel) (ng : ℕ) (h : howManyNG s = .ok ng) :
    (ng = 1 ∨ ng = 2) ∧
    (ng = 2 ↔ s.primary ∈ [Val.str "fourthOrderKEEP", .str "muscl2hllc", .str "muscl2rusanov", .str "scalarDissipation"] ∨
      s.secondary ∈ [Val.str "fourthOrderKEEP", .str "muscl2hllc", .str "muscl2rusanov", .str "scalarDissipation"] ∨
      s.subgrid = .str "mixedScaleModel") := by
  unfold howManyNG at h
  simp only [bind_ok, pure_ok] at h
  obtain ⟨a, ha, b, hb, c, hc, rfl⟩ := h
  obtain ⟨a1, a2⟩ := advNG_value ha
  obtain ⟨b1, b2⟩ := advNG_value hb
  obtain ⟨c1, c2⟩ := subNG_value hc
  rw [← a2, ← b2, ← c2]
  omega

/-- C37 (unknown names): an unknown or unusable scheme or subgrid model has no halo depth: the set-up raises. -/
theorem C37_unknown (s : Sel) :
    (∃ ng, howManyNG s = .ok ng) ↔
    (s.primary = .none ∨ ∃ a ∈ usableAdv, s.primary = .str a) ∧ (s.secondary = .none ∨ ∃ a ∈ usableAdv, s.secondary = .str a) ∧
    (s.subgrid = .none ∨ ∃ g ∈ ["mixedScaleModel", "smagorinsky"], s.subgrid = .str g) := by
  rw [howManyNG_ok, advNG_ok, advNG_ok, subNG_ok]
  rfl

/-! ### sufficiency -/

/-- two-cell schemes ignore the outer cells -/
theorem narrow {name : String} {f : Scheme} (hk : kernel name = some f)
    (hn : name ∉ ["fourthOrderKEEP", "muscl2hllc", "muscl2rusanov"]) (a a' b b' L R : Cell) (g : FaceG) :
    f a L R b g = f a' L R b' g := by
  simp only [List.mem_cons, List.not_mem_nil, or_false, not_or] at hn
  unfold kernel at hk
  split at hk
  case h_8 => exact absurd rfl hn.1
  case h_9 => exact absurd rfl hn.2.2
  case h_10 => exact absurd rfl hn.2.1
  case h_11 => cases hk
  all_goals (cases hk; rfl)

/-- C37 (fluxes): with the number of layers chosen, the primary and the secondary flux at every face the kernels loop over, in
    every direction and for every block size, depend only on allocated cells. -/
theorem C37_fluxes (s : Sel) (ng : ℕ) (h : howManyNG s = .ok ng) (b : Shape) (hb : b.ng = ng) (name : String)
    (hname : s.primary = .str name ∨ s.secondary = .str name) (phi phi' : ℤ → ℤ → ℤ → Dir → ℝ) (st st' : Cells)
    (hst : ∀ i j k, Alloc b i j k → st i j k = st' i j k) (hphi : ∀ i j k d, Alloc b i j k → phi i j k d = phi' i j k d)
    (g : FaceG) (d : Dir) (i j k : ℤ) (hf : FaceLoop b d i j k) :
    fluxAt name phi g st d i j k = fluxAt name phi' g st' d i j k := by
  obtain ⟨h1, h2⟩ := C37_layers s ng h
  have hng : 1 ≤ b.ng := by omega
  have hwide : name ∈ ["fourthOrderKEEP", "muscl2hllc", "muscl2rusanov", "scalarDissipation"] → b.ng = 2 := by
    intro hw
    have : ng = 2 := h2.2 (by
      rcases hname with e | e
      · exact Or.inl (by rw [e]; simpa using hw)
      · exact Or.inr (Or.inl (by rw [e]; simpa using hw)))
    omega
  obtain ⟨f1, f2, f3⟩ := hf
  have hR : st i j k = st' i j k ∧ ∀ d, phi i j k d = phi' i j k d := by
    have : Alloc b i j k := by
      cases d <;> simp only [Dir.step, Alloc, inAlloc] at * <;> omega
    exact ⟨hst _ _ _ this, fun d => hphi _ _ _ _ this⟩
  have hL : st (i - d.step.1) (j - d.step.2.1) (k - d.step.2.2) = st' (i - d.step.1) (j - d.step.2.1) (k - d.step.2.2) ∧
      ∀ d', phi (i - d.step.1) (j - d.step.2.1) (k - d.step.2.2) d' = phi' (i - d.step.1) (j - d.step.2.1) (k - d.step.2.2) d' := by
    have : Alloc b (i - d.step.1) (j - d.step.2.1) (k - d.step.2.2) := by
      cases d <;> simp only [Dir.step, Alloc, inAlloc] at * <;> omega
    exact ⟨hst _ _ _ this, fun d => hphi _ _ _ _ this⟩
  unfold fluxAt
  dsimp only
  rw [hR.1, hL.1, hR.2, hL.2]
  by_cases hs : name = "scalarDissipation"
  · rw [if_pos hs, if_pos hs]
    have h2 := hwide (by rw [hs]; simp)
    rw [hst (i - d.step.1 * 2) (j - d.step.2.1 * 2) (k - d.step.2.2 * 2) (by
        cases d <;> simp only [Dir.step, Alloc, inAlloc] at * <;> omega),
      hst (i + 1) j k (by cases d <;> simp only [Dir.step, Alloc, inAlloc] at * <;> omega)]
  · rw [if_neg hs, if_neg hs]
    rcases hk : kernel name with _ | f
    · rfl
    · simp only [Option.map_some, Option.some.injEq]
      by_cases hw : name ∈ ["fourthOrderKEEP", "muscl2hllc", "muscl2rusanov"]
      · have h2 := hwide (by simp only [List.mem_cons, List.not_mem_nil, or_false] at hw ⊢; tauto)
        rw [hst (i - d.step.1 * 2) (j - d.step.2.1 * 2) (k - d.step.2.2 * 2) (by
            cases d <;> simp only [Dir.step, Alloc, inAlloc] at * <;> omega),
          hst (i + d.step.1) (j + d.step.2.1) (k + d.step.2.2) (by
            cases d <;> simp only [Dir.step, Alloc, inAlloc] at * <;> omega)]
      · exact narrow hk hw _ _ _ _ _ _ _

/-- C37 (subgrid model): with the mixed-scale model configured, its filter reads only allocated cells, also at the halo cells
    it is evaluated in. -/
theorem C37_subgrid (s : Sel) (ng : ℕ) (h : howManyNG s = .ok ng) (b : Shape) (hb : b.ng = ng)
    (hsub : s.subgrid = .str "mixedScaleModel") (st st' : Cells) (hst : ∀ i j k, Alloc b i j k → st i j k = st' i j k)
    (i j k : ℤ) (hl : SubLoop b i j k) : qc2 st i j k = qc2 st' i j k := by
  have h2 : ng = 2 := (C37_layers s ng h).2.2 (Or.inr (Or.inr hsub))
  obtain ⟨f1, f2, f3⟩ := hl
  dsimp only at f1 f2 f3
  have key : ∀ i' j' k', |i' - i| ≤ 1 → |j' - j| ≤ 1 → |k' - k| ≤ 1 → st i' j' k' = st' i' j' k' := by
    intro i' j' k' hi hj hk
    rw [abs_le] at hi hj hk
    refine hst _ _ _ ?_
    simp only [Alloc, inAlloc]
    omega
  unfold qc2 Subgrid.qc2 Subgrid.filter vel
  rw [key i j k (by simp) (by simp) (by simp), key (i - 1) j k (by simp) (by simp) (by simp),
    key (i + 1) j k (by simp) (by simp) (by simp), key i (j - 1) k (by simp) (by simp) (by simp),
    key i (j + 1) k (by simp) (by simp) (by simp), key i j (k - 1) (by simp) (by simp) (by simp),
    key i j (k + 1) (by simp) (by simp) (by simp)]

/-- fluxes and the mixed-scale model of the configuration `rich` -/
example : howManyNG rich = .ok 2 ∧ howManyNG dflt = .ok 1 := ⟨rfl, rfl⟩

/-! ### one layer is too few for the wide schemes -/

/-- at rest, with density and total energy density `r`, unit pressure -/
noncomputable def plain (r v : ℝ) : Cell :=
  ⟨1, v, 0, 0, fun _ => 0, r, r * v, 0, 0, r, fun _ => 0, 1, r⟩

/-- velocity `v` in the cell `(-1, 1, 1)`, 1 everywhere else -/
noncomputable def bumped (v : ℝ) : Cells := fun i j k => if i = -1 ∧ j = 1 ∧ k = 1 then plain 1 v else plain 1 1

/-- C37 (needed): with a single layer the four-cell schemes and the mixed-scale filter would depend on cells that are not
    allocated, so the second layer is not redundant. -/
theorem C37_one_layer_too_few :
    let b : Shape := ⟨3, 3, 3, 1⟩
    (∀ i j k, Alloc b i j k → bumped 1 i j k = bumped 2 i j k) ∧ FaceLoop b .i 1 1 1 ∧ SubLoop b 0 1 1 ∧
    (fluxAt "fourthOrderKEEP" (fun _ _ _ _ => 0) exFace (bumped 1) .i 1 1 1 ≠
      fluxAt "fourthOrderKEEP" (fun _ _ _ _ => 0) exFace (bumped 2) .i 1 1 1) ∧
    (fluxAt "scalarDissipation" (fun _ _ _ _ => 0) exFace (bumped 1) .i 1 1 1 ≠
      fluxAt "scalarDissipation" (fun _ _ _ _ => 0) exFace (bumped 2) .i 1 1 1) ∧
    qc2 (bumped 1) 0 1 1 ≠ qc2 (bumped 2) 0 1 1 := by
  refine ⟨?_, by simp [FaceLoop, Dir.step], by simp [SubLoop, Subgrid.SubLoop], ?_, ?_, ?_⟩
  · intro i j k h
    have : ¬ (i = -1 ∧ j = 1 ∧ k = 1) := fun e => by
      have := h.1.1; omega
    simp [bumped, this]
  · intro h
    have := congrArg (fun o => o.map (fun f => f 0)) h
    have hne : ¬ ("fourthOrderKEEP" = "scalarDissipation") := by decide
    norm_num [fluxAt, hne, kernel, Dir.step, bumped, plain, fourthKEEP, four, mk5_0, exFace] at this
  · intro h
    have := congrArg (fun o => o.map (fun f => f 1)) h
    norm_num [fluxAt, Dir.step, bumped, plain, scalarDiss, mk5, exFace, avg] at this
  · norm_num [qc2, Subgrid.qc2, Subgrid.filter, vel, bumped, plain]

end PG.Config
