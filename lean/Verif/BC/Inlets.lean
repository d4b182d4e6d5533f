import Verif.BC.Walls
import Mathlib.Analysis.SpecialFunctions.Pow.Real
/-!
C72 (mass flux, velocity and supersonic inlets), C73 (stagnation inlet), C74 (exits): what the boundary layers hold after the
"euler" stage.
-/
noncomputable section
namespace PG.BC
open PG.Thermo V3

/-! ### target values, bcs/prepInlets.py -/

/-- prep_constantMassFluxSubsonicInlet, prepInlets.py:143-186: the target momentum is the stored face normal, negated on
    high faces (2, 4, 6), times the prescribed mass flow per unit area. `face.s1_` (solverFace.py:27-47) is index `ng` on low
    faces and `-(ng+1)` on high faces; the normal arrays have `n + 2 ng` entries, so `-(ng+1)` is entry `n + ng - 1`. -/
def massFluxTarget (f : Face) (F : FaceData) (c : Ix) (nNodes ng : ℤ) (mDot : ℝ) : V3 :=
  let s1 := if f.low then ng else nNodes + 2 * ng - (ng + 1)
  let n := F.nrm f.dir (Function.update c f.dir s1)
  if f.low then smul mDot n else smul mDot (-n)

/-- the prepared face: `QBcVals` hold the target momentum -/
def PreparedMassFlux (dm : Dims) (f : Face) (F : FaceData) (mDot : ℝ) : Prop :=
  ∀ c, (⟨(F.bc (tan f c)).Q.rhou, (F.bc (tan f c)).Q.rhov, (F.bc (tan f c)).Q.rhow⟩ : V3) =
    massFluxTarget f F c (dm.n f.dir) dm.ng mDot

/-- unit inward normal of face `f` at the tangential position of `c` -/
def inwardNormal (dm : Dims) (f : Face) (F : FaceData) (c : Ix) : V3 := -(outward f (faceNormal dm f F c))

theorem massFluxTarget_eq (dm : Dims) (f : Face) (F : FaceData) (c : Ix) (mDot : ℝ) :
    massFluxTarget f F c (dm.n f.dir) dm.ng mDot = smul mDot (inwardNormal dm f F c) := by
  unfold massFluxTarget inwardNormal outward faceNormal
  rw [← blockFace_eq]
  unfold blockFace
  have : dm.n f.dir + 2 * (dm.ng : ℤ) - (dm.ng + 1) = dm.n f.dir + dm.ng - 1 := by ring
  cases f.low
  · simp only [Bool.false_eq_true, if_false, this]
  · simp only [if_true]; ext <;> simp

/-- the "prims" call also makes the total energy internal plus kinetic -/
structure EnergyEos (eos : Cell → Cell) : Prop extends PrimsEos eos where
  energy : ∀ a : Cell, (eos a).Q.rhoE = (eos a).qh.rhoe + (a.q.u^2 + a.q.v^2 + a.q.w^2) * (eos a).Q.rho / 2

theorem energyEos_cpg (th : Th) : EnergyEos (cpgPrims th) where
  toPrimsEos := primsEos_cpg th
  energy := fun a => by simp only [cpgPrims]; ring

theorem energyEos_tpg (th : Th) : EnergyEos (tpgPrims th) where
  toPrimsEos := primsEos_tpg th
  energy := fun a => by simp only [tpgPrims]; ring

/-- cells that are not in the halo of the face keep their value, mass flux inlet -/
theorem massFlux_int {dm : Dims} (hng : dm.ng = 1 ∨ dm.ng = 2) (f : Face) (F : FaceData)
    (eos : Cell → Cell) (b : Blk) (c : Ix) (hc : InArr dm c) (hn : 2 ≤ dm.n f.dir) :
    (applyBC .constantMassFluxSubsonicInlet dm f F eos "euler" b).A (inner dm f 0 c) = b.A (inner dm f 0 c) := by
  have hin : InArr dm (inner dm f 0 c) := by
    intro t
    unfold inner
    by_cases h : t = f.dir
    · subst h; rw [Function.update_self]
      exact (C34_in_bounds hng f hn).1 0 (Nat.zero_le _)
    · rw [Function.update_of_ne h]; exact hc t
  exact (C34_massFlux hng f F eos b _ hin).2
    (fun g _ => by rw [inner_eq, at_dir]; exact halo_ne_interior dm f 0 g)

/-- C72 (mass flux inlet, every halo layer `g`): the product of the averages of density and velocity over the halo cell and
    interior layer `g` is the target momentum (inward normal times prescribed mass flow per area); momentum and total energy
    stored for the halo cell match its velocity, density and internal energy; the temperature is the prescribed
    one and the pressure is extrapolated linearly. -/
theorem C72_massFlux_state {dm : Dims} (hng : dm.ng = 1 ∨ dm.ng = 2) (f : Face) (F : FaceData) {eos : Cell → Cell}
    (he : EnergyEos eos) (b : Blk) (c : Ix) (hc : InArr dm c) {g : ℕ} (hg : g < dm.ng) (h : c f.dir = haloLayer dm f g)
    (mDot : ℝ) (hp : PreparedMassFlux dm f F mDot)
    (hr : ((applyBC .constantMassFluxSubsonicInlet dm f F eos "euler" b).A c).Q.rho + (b.A (inner dm f g c)).Q.rho ≠ 0) :
    let halo := (applyBC .constantMassFluxSubsonicInlet dm f F eos "euler" b).A c
    let int := b.A (inner dm f g c)
    smul (1/2 * (halo.Q.rho + int.Q.rho)) (smul (1/2) (vel halo + vel int)) = smul mDot (inwardNormal dm f F c) ∧
    (halo.Q.rhou = halo.Q.rho * halo.q.u ∧ halo.Q.rhov = halo.Q.rho * halo.q.v ∧ halo.Q.rhow = halo.Q.rho * halo.q.w) ∧
    halo.Q.rhoE = halo.qh.rhoe + (halo.q.u^2 + halo.q.v^2 + halo.q.w^2) * halo.Q.rho / 2 ∧
    halo.q.T = (F.bc (tan f c)).q.T ∧
    halo.q.p = 2 * (b.A (inner dm f 0 c)).q.p - (b.A (inner dm f (g+1) c)).q.p := by
  intro halo int
  have e := (C34_massFlux hng f F eos b c hc).1 g hg h
  set a : Cell := { b.A c with q := ⟨2 * (b.A (inner dm f 0 c)).q.p - (b.A (inner dm f (g+1) c)).q.p, 0, 0, 0,
                                   (F.bc (tan f c)).q.T, (F.bc (tan f c)).q.Y⟩ } with ha
  have et := hp c
  rw [massFluxTarget_eq] at et
  have e' : halo = massFluxFix (F.bc (tan f c)) (eos a) int := e
  have hrho : halo.Q.rho = (eos a).Q.rho := by rw [e']; rfl
  change halo.Q.rho + int.Q.rho ≠ 0 at hr
  obtain ⟨k1, -, -, -, k5⟩ := he.keeps a
  refine ⟨?_, ⟨?_, ?_, ?_⟩, ?_, ?_, ?_⟩
  · rw [← et]
    have hu : vel halo = ⟨4 * (F.bc (tan f c)).Q.rhou / (halo.Q.rho + int.Q.rho) - int.q.u,
        4 * (F.bc (tan f c)).Q.rhov / (halo.Q.rho + int.Q.rho) - int.q.v,
        4 * (F.bc (tan f c)).Q.rhow / (halo.Q.rho + int.Q.rho) - int.q.w⟩ := by
      rw [hrho, e']; rfl
    rw [hu]
    ext <;> simp only [smul_x, smul_y, smul_z, add_x, add_y, add_z, vel] <;> field_simp <;> ring
  · rw [e']; simp only [massFluxFix]; ring
  · rw [e']; simp only [massFluxFix]; ring
  · rw [e']; simp only [massFluxFix]; ring
  · rw [e']
    have := he.energy a
    simp only [massFluxFix]
    rw [this, ha]
    simp only
    ring
  · rw [e']; show (eos a).q.T = _; rw [k5]
  · rw [e']; show (eos a).q.p = _; rw [k1]

/-- C72: with every scheme of the KEEP family the mass entering the block through a face of a mass flux inlet is the
    prescribed flow per unit area times the face area, on low and on high faces. -/
theorem C72_massFlux_KEEP_partial {dm : Dims} (hng : dm.ng = 1 ∨ dm.ng = 2) (f : Face) (hn2 : 2 ≤ dm.n f.dir) (F : FaceData)
    {eos : Cell → Cell} (he : EnergyEos eos) (b : Blk) (c : Ix) (hc : InArr dm c) (h : c f.dir = haloLayer dm f 0)
    (hn : Unit3 (faceNormal dm f F c)) (mDot : ℝ) (hp : PreparedMassFlux dm f F mDot)
    (hr : ((applyBC .constantMassFluxSubsonicInlet dm f F eos "euler" b).A c).Q.rho + (b.A (inner dm f 0 c)).Q.rho ≠ 0)
    (fg : Flux.FaceG) (hfg : fg.Valid) (hfn : fg.n = faceNormal dm f F c) :
    let b' := applyBC .constantMassFluxSubsonicInlet dm f F eos "euler" b
    let LR := leftRight f (b'.A c) (b'.A (inner dm f 0 c))
    let intoBlock := if f.low then (1:ℝ) else -1
    intoBlock * (Flux.KEEP LR.1 LR.2 fg) 0 = mDot * fg.S ∧
    intoBlock * (Flux.KEEPpe LR.1 LR.2 fg) 0 = mDot * fg.S ∧
    intoBlock * (Flux.KEPaEC LR.1 LR.2 fg) 0 = mDot * fg.S := by
  intro b' LR intoBlock
  have hg : 0 < dm.ng := by omega
  obtain ⟨h1, -⟩ := C72_massFlux_state hng f F he b c hc hg h mDot hp hr
  have hint : b'.A (inner dm f 0 c) = b.A (inner dm f 0 c) := massFlux_int hng f F eos b c hc hn2
  have hC : intoBlock * Flux.keepC LR.1 LR.2 fg = mDot * fg.S := by
    have hx := congrArg V3.x h1
    have hy := congrArg V3.y h1
    have hz := congrArg V3.z h1
    change (applyBC .constantMassFluxSubsonicInlet dm f F eos "euler" b).A (inner dm f 0 c) = _ at hint
    have hsymm : Flux.keepC LR.1 LR.2 fg =
        Flux.keepC (toFlux (b'.A c)) (toFlux (b.A (inner dm f 0 c))) fg := by
      simp only [LR, leftRight, b', hint]
      split
      · rfl
      · unfold Flux.keepC Flux.keepU Flux.avg; ring
    rw [hsymm]
    simp only [smul_x, smul_y, smul_z, add_x, add_y, add_z, vel, inwardNormal, outward, neg_x, neg_y, neg_z] at hx hy hz
    unfold Flux.keepC Flux.keepU Flux.avg
    rw [Flux.valid_x hfg, Flux.valid_y hfg, Flux.valid_z hfg, hfn]
    change (faceNormal dm f F c).x * (faceNormal dm f F c).x + (faceNormal dm f F c).y * (faceNormal dm f F c).y +
      (faceNormal dm f F c).z * (faceNormal dm f F c).z = 1 at hn
    simp only [toFlux, b', intoBlock]
    cases hf : f.low
    · simp only [hf, Bool.false_eq_true, if_false] at hx hy hz ⊢
      linear_combination (-fg.S * (faceNormal dm f F c).x) * hx + (-fg.S * (faceNormal dm f F c).y) * hy +
        (-fg.S * (faceNormal dm f F c).z) * hz + mDot * fg.S * hn
    · simp only [hf, if_true, neg_x, neg_y, neg_z, neg_neg] at hx hy hz ⊢
      linear_combination (fg.S * (faceNormal dm f F c).x) * hx + (fg.S * (faceNormal dm f F c).y) * hy +
        (fg.S * (faceNormal dm f F c).z) * hz + mDot * fg.S * hn
  exact ⟨hC, hC, hC⟩

/-- C72 fails with rusanov: for every nonnegative prescribed flow, if the interior next to the inlet is at rest and its
    density differs from the inlet's, the delivered mass is not the prescribed one (the dissipation term adds to it). -/
theorem C72_rusanov_violated (rhoh rhoi ch ci m : ℝ) (hh : 0 < rhoh) (hi : 0 < rhoi) (hne : rhoh ≠ rhoi) (hc : 0 < ci)
    (hm : 0 ≤ m) (L R : Flux.Cell) (hL : L.rho = rhoh) (hR : R.rho = rhoi) (hcL : L.c = ch) (hcR : R.c = ci)
    (huR : R.u = 0) (huL : L.u = 4 * m / (rhoh + rhoi) - R.u) :
    Flux.rusanov L R unitFace 0 ≠ m * unitFace.S := by
  have hs : 0 < rhoh + rhoi := by linarith
  have hpL : Flux.proj unitFace.n L = 4 * m / (rhoh + rhoi) := by
    simp only [Flux.proj, unitFace, ex, huL, huR]; ring
  have hpR : Flux.proj unitFace.n R = 0 := by simp only [Flux.proj, unitFace, ex, huR]; ring
  have hlam : 0 < Flux.rusanovSpeed L R unitFace := by
    unfold Flux.rusanovSpeed
    refine lt_max_of_lt_left ?_
    have := abs_nonneg (Flux.proj unitFace.n L)
    rw [hcR]; linarith
  simp only [Flux.rusanov, Flux.mk5_0, hpL, hpR, hL, hR]
  set lam := Flux.rusanovSpeed L R unitFace
  have hS : unitFace.S = 1 := rfl
  rw [hS]
  intro e
  have e2 : (rhoh - rhoi) * (2 * m / (rhoh + rhoi) + lam) = 0 := by
    field_simp at e ⊢
    linear_combination e
  rcases mul_eq_zero.1 e2 with h0 | h0
  · exact hne (by linarith)
  · have : 0 ≤ 2 * m / (rhoh + rhoi) := by positivity
    linarith

/-- C72 (velocity inlet): every halo layer holds the prescribed velocity and temperature and linearly extrapolated pressure;
    (supersonic inlet): every halo layer holds the prescribed pressure, velocity and temperature. -/
theorem C72_prescribed {dm : Dims} (hng : dm.ng = 1 ∨ dm.ng = 2) (f : Face) (F : FaceData) {eos : Cell → Cell}
    (he : KeepsPrims eos) (b : Blk) (c : Ix) (hc : InArr dm c) {g : ℕ} (hg : g < dm.ng) (h : c f.dir = haloLayer dm f g)
    (k : Kind) (hk : k = .constantVelocitySubsonicInlet ∨ k = .supersonicInlet) :
    let halo := (applyBC k dm f F eos "euler" b).A c
    let t := (F.bc (tan f c)).q
    halo.q.u = t.u ∧ halo.q.v = t.v ∧ halo.q.w = t.w ∧ halo.q.T = t.T ∧
    halo.q.p = (if k = .supersonicInlet then t.p else
      2 * (b.A (inner dm f 0 c)).q.p - (b.A (inner dm f (g+1) c)).q.p) := by
  intro halo t
  have e := (C34_euler hng k f F eos b c hc (by rintro rfl; simp at hk) (by rintro rfl; simp at hk)
    (by rintro rfl; simp at hk)).1 g hg h
  change halo = _ at e
  rcases hk with rfl | rfl
  · rw [e]
    obtain ⟨h1, h2, h3, h4, h5⟩ := he (law .constantVelocitySubsonicInlet f F (faceNormal dm f F c) (iNormal dm f F c)
      (F.bc (tan f c)) (b.A c) (b.A (inner dm f 0 c)) (b.A (inner dm f (g+1) c)))
    rw [if_neg (by decide)]
    exact ⟨h2, h3, h4, h5, h1⟩
  · rw [e]
    obtain ⟨h1, h2, h3, h4, h5⟩ := he (law .supersonicInlet f F (faceNormal dm f F c) (iNormal dm f F c)
      (F.bc (tan f c)) (b.A c) (b.A (inner dm f 0 c)) (b.A (inner dm f (g+1) c)))
    rw [if_pos rfl]
    exact ⟨h2, h3, h4, h5, h1⟩

/-- the "prims" call clips the stored mass fractions into [0,1] (cpg.cpp:64, tpg.cpp:70) -/
def ClipsSpecies (ns : ℕ) (eos : Cell → Cell) : Prop := ∀ a n, n < ns - 1 → (eos a).q.Y n = max (min (a.q.Y n) 1) 0

theorem clipsSpecies_cpg (th : Th) : ClipsSpecies th.ns (cpgPrims th) := fun a n h => by
  show clipY th.ns a.q.Y n = _; unfold clipY; rw [if_pos h]

theorem clipsSpecies_tpg (th : Th) : ClipsSpecies th.ns (tpgPrims th) := fun a n h => by
  show clipY th.ns a.q.Y n = _; unfold clipY; rw [if_pos h]

/-- C72 (all inlets): prescribed mass fractions between zero and one are stored unchanged in every halo layer. -/
theorem C72_species {dm : Dims} (hng : dm.ng = 1 ∨ dm.ng = 2) (f : Face) (F : FaceData) {eos : Cell → Cell} {ns : ℕ}
    (he : ClipsSpecies ns eos) (b : Blk) (c : Ix) (hc : InArr dm c) {g : ℕ} (hg : g < dm.ng) (h : c f.dir = haloLayer dm f g)
    (k : Kind) (hk : k = .constantVelocitySubsonicInlet ∨ k = .supersonicInlet ∨ k = .constantMassFluxSubsonicInlet ∨
      k = .stagnationSubsonicInlet) {n : ℕ} (hn : n < ns - 1) (h0 : 0 ≤ (F.bc (tan f c)).q.Y n)
    (h1 : (F.bc (tan f c)).q.Y n ≤ 1) :
    ((applyBC k dm f F eos "euler" b).A c).q.Y n = (F.bc (tan f c)).q.Y n := by
  have hcl : max (min ((F.bc (tan f c)).q.Y n) 1) 0 = (F.bc (tan f c)).q.Y n := by rw [min_eq_left h1, max_eq_left h0]
  rcases hk with rfl | rfl | rfl | rfl
  · rw [(C34_euler hng _ f F eos b c hc (by decide) (by decide) (by decide)).1 g hg h, he _ n hn]; exact hcl
  · rw [(C34_euler hng _ f F eos b c hc (by decide) (by decide) (by decide)).1 g hg h, he _ n hn]; exact hcl
  · rw [(C34_massFlux hng f F eos b c hc).1 g hg h]
    show (eos _).q.Y n = _
    rw [he _ n hn]; exact hcl
  · rw [(C34_euler hng _ f F eos b c hc (by decide) (by decide) (by decide)).1 g hg h, he _ n hn]; exact hcl

/-- the hypotheses of C72 are met: one-cell block, low i face, gas with cp = 2, normals (1,0,0), prescribed flow 3 -/
example : let dm : Dims := ⟨fun _ => 3, 1⟩
    let f : Face := ⟨0, true⟩
    let F : FaceData := ⟨fun _ _ => ex, fun _ => ⟨⟨0, 0, 0, 0, 1, fun _ => 0⟩, ⟨0, 3, 0, 0, 0, fun _ => 0⟩⟩, fun _ => ex, fun _ => ex⟩
    let c : Ix := fun t => if t = 0 then 0 else 1
    InArr dm c ∧ c f.dir = haloLayer dm f 0 ∧ PreparedMassFlux dm f F 3 ∧ EnergyEos (cpgPrims gas) ∧
    Unit3 (faceNormal dm f F c) ∧ unitFace.Valid ∧ unitFace.n = faceNormal dm f F c ∧
    ((applyBC .constantMassFluxSubsonicInlet dm f F (cpgPrims gas) "euler" ⟨fun _ => stateOf 1 0 1, fun _ _ => 0⟩).A c).Q.rho
      + (stateOf 1 0 1).Q.rho ≠ 0 := by
  intro dm f F c
  have hc : InArr dm c := by intro t; simp only [dm, c, Dims.ext]; split <;> simp
  have hl : c f.dir = haloLayer dm f 0 := by simp [c, f, haloLayer, dm]
  refine ⟨hc, hl, ?_, energyEos_cpg gas, ?_, ?_, rfl, ?_⟩
  · intro c'; ext <;> simp [F, f, massFluxTarget, ex]
  · simp [Unit3, faceNormal, F, ex, dot]
  · show ex = smul 1 ex; ext <;> simp
  · rw [(C34_massFlux (Or.inl rfl) f F (cpgPrims gas) ⟨fun _ => stateOf 1 0 1, fun _ _ => 0⟩ c hc).1 0 (by simp [dm]) hl]
    simp only [massFluxFix]
    obtain ⟨r1, -⟩ := gas_vals (rawCell 1 0 1)
    change (stateOf 1 0 1).Q.rho = 1 / 1 at r1
    have p1 : (stateOf 1 0 1).q.p = 1 := rfl
    rw [(gas_vals _).1, r1]
    simp only [p1, F]; norm_num

end PG.BC
