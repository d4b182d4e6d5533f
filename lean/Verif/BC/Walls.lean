import Verif.BC.Layers
import Verif.Flux.Model
import Verif.Flux.Spec
import Verif.Thermo.Spec
import Mathlib.Tactic.LinearCombination
import Mathlib.Tactic.NormNum
/-!
C32: walls pass no mass, and give the right face values and gradients.
-/
noncomputable section
namespace PG.BC
open PG.Thermo V3

/-- what a flux kernel reads of a stored cell (the same arrays `b.q`, `b.Q`, `b.qh`) -/
def toFlux (c : Cell) : Flux.Cell :=
  { p := c.q.p, u := c.q.u, v := c.q.v, w := c.q.w, Y := c.q.Y, rho := c.Q.rho, rhou := c.Q.rhou, rhov := c.Q.rhov
    rhow := c.Q.rhow, rhoE := c.Q.rhoE, rhoY := c.Q.rhoY, c := c.qh.c, rhoe := c.qh.rhoe }

/-- the two cells a face flux reads at face `f`: halo on the low side of a low face, on the high side of a high face -/
def leftRight (f : Face) (halo int : Cell) : Flux.Cell × Flux.Cell :=
  if f.low then (toFlux halo, toFlux int) else (toFlux int, toFlux halo)

/-- properties of the "prims" call that C32 needs: velocity, pressure, temperature kept; density and sound speed are
    functions of pressure, temperature and composition; momentum is density times velocity -/
structure PrimsEos (eos : Cell → Cell) : Prop where
  keeps : KeepsPrims eos
  state : ∀ a b : Cell, a.q.p = b.q.p → a.q.T = b.q.T → a.q.Y = b.q.Y →
    (eos a).Q.rho = (eos b).Q.rho ∧ (eos a).qh.c = (eos b).qh.c
  mom : ∀ a : Cell, (eos a).Q.rhou = (eos a).Q.rho * a.q.u ∧ (eos a).Q.rhov = (eos a).Q.rho * a.q.v ∧
    (eos a).Q.rhow = (eos a).Q.rho * a.q.w

theorem primsEos_cpg (th : Th) : PrimsEos (cpgPrims th) where
  keeps := fun c => ⟨rfl, rfl, rfl, rfl, rfl⟩
  state := fun a b hp hT hY => by simp only [cpgPrims, hp, hT, hY]; exact ⟨trivial, trivial⟩
  mom := fun a => ⟨rfl, rfl, rfl⟩

theorem primsEos_tpg (th : Th) : PrimsEos (tpgPrims th) where
  keeps := fun c => ⟨rfl, rfl, rfl, rfl, rfl⟩
  state := fun a b hp hT hY => by simp only [tpgPrims, hp, hT, hY]; exact ⟨trivial, trivial⟩
  mom := fun a => ⟨rfl, rfl, rfl⟩

/-- value a wall prescribes for the halo temperature -/
def wallT (k : Kind) (bc : BcVal) (i : Cell) : ℝ :=
  match k with
  | .isoTNoSlipWall | .isoTSlipWall | .isoTMovingWall => bc.q.T
  | _ => i.q.T

theorem wall_halo {dm : Dims} (hng : dm.ng = 1 ∨ dm.ng = 2) {k : Kind} (hk : IsWall k) (f : Face) (F : FaceData)
    {eos : Cell → Cell} (b : Blk) (c : Ix) (hc : InArr dm c) {g : ℕ} (hg : g < dm.ng) (h : c f.dir = haloLayer dm f g) :
    (applyBC k dm f F eos "euler" b).A c = eos { b.A c with
      q := wallEuler (faceNormal dm f F c) (b.A (inner dm f 0 c)).q (wallT k (F.bc (tan f c)) (b.A (inner dm f 0 c))) } := by
  rw [(C34_euler hng k f F eos b c hc (by rintro rfl; exact hk) (by rintro rfl; exact hk) (by rintro rfl; exact hk)).1 g hg h]
  cases k <;> first | rfl | exact hk.elim

/-- C32 ("euler", all walls): in every halo layer the velocity is the mirror image of the first interior cell's: the face
    average has no normal component, every tangential component and the speed are kept, the pressure is matched, and the
    temperature is the interior one (adiabatic) or the prescribed one (isothermal). -/
theorem C32_mirror {dm : Dims} (hng : dm.ng = 1 ∨ dm.ng = 2) {k : Kind} (hk : IsWall k) (f : Face) (F : FaceData)
    {eos : Cell → Cell} (he : KeepsPrims eos) (b : Blk) (c : Ix) (hc : InArr dm c) {g : ℕ} (hg : g < dm.ng)
    (h : c f.dir = haloLayer dm f g) (hn : Unit3 (faceNormal dm f F c)) :
    let halo := (applyBC k dm f F eos "euler" b).A c
    let int := b.A (inner dm f 0 c)
    let n := faceNormal dm f F c
    dot (smul (1/2) (vel halo + vel int)) n = 0 ∧
    (∀ t, dot t n = 0 → dot (vel halo) t = dot (vel int) t) ∧
    dot (vel halo) (vel halo) = dot (vel int) (vel int) ∧
    halo.q.p = int.q.p ∧ halo.q.T = wallT k (F.bc (tan f c)) int := by
  intro halo int n
  have e := wall_halo hng hk f F (eos := eos) b c hc hg h
  obtain ⟨e1, e2, e3, e4, e5⟩ := he { b.A c with q := wallEuler n int.q (wallT k (F.bc (tan f c)) int) }
  rw [← e] at e1 e2 e3 e4 e5
  change n.x * n.x + n.y * n.y + n.z * n.z = 1 at hn
  change halo.q.u = int.q.u - 2 * (int.q.u * n.x + int.q.v * n.y + int.q.w * n.z) * n.x at e2
  change halo.q.v = int.q.v - 2 * (int.q.u * n.x + int.q.v * n.y + int.q.w * n.z) * n.y at e3
  change halo.q.w = int.q.w - 2 * (int.q.u * n.x + int.q.v * n.y + int.q.w * n.z) * n.z at e4
  refine ⟨?_, ?_, ?_, e1, e5⟩
  · simp only [dot, vel, smul_x, smul_y, smul_z, add_x, add_y, add_z, e2, e3, e4]
    linear_combination (-(int.q.u * n.x + int.q.v * n.y + int.q.w * n.z)) * hn
  · intro t ht
    simp only [dot] at ht
    simp only [dot, vel, e2, e3, e4]
    linear_combination (-2 * (int.q.u * n.x + int.q.v * n.y + int.q.w * n.z)) * ht
  · simp only [dot, vel, e2, e3, e4]
    linear_combination (4 * (int.q.u * n.x + int.q.v * n.y + int.q.w * n.z)^2) * hn

/-- C32 ("preDqDxyz", no-slip walls): in every halo layer the face average of the velocity is zero. -/
theorem C32_no_slip {dm : Dims} (hng : dm.ng = 1 ∨ dm.ng = 2) {k : Kind}
    (hk : k = .adiabaticNoSlipWall ∨ k = .isoTNoSlipWall) (f : Face) (F : FaceData) (eos : Cell → Cell) (b : Blk) (c : Ix)
    (hc : InArr dm c) {g : ℕ} (hg : g < dm.ng) (h : c f.dir = haloLayer dm f g) :
    smul (1/2) (vel ((applyBC k dm f F eos "preDqDxyz" b).A c) + vel (b.A (inner dm f 0 c))) = 0 := by
  rw [(C34_pre hng k f F eos b c hc).1 ⟨g, hg, h⟩]
  rcases hk with rfl | rfl <;> ext <;> simp [preLaw, vel]

/-- C32 ("preDqDxyz", moving walls): in every halo layer the face average of the velocity is the wall velocity. -/
theorem C32_moving {dm : Dims} (hng : dm.ng = 1 ∨ dm.ng = 2) {k : Kind}
    (hk : k = .adiabaticMovingWall ∨ k = .isoTMovingWall) (f : Face) (F : FaceData) (eos : Cell → Cell) (b : Blk) (c : Ix)
    (hc : InArr dm c) {g : ℕ} (hg : g < dm.ng) (h : c f.dir = haloLayer dm f g) :
    smul (1/2) (vel ((applyBC k dm f F eos "preDqDxyz" b).A c) + vel (b.A (inner dm f 0 c))) =
      ⟨(F.bc (tan f c)).q.u, (F.bc (tan f c)).q.v, (F.bc (tan f c)).q.w⟩ := by
  rw [(C34_pre hng k f F eos b c hc).1 ⟨g, hg, h⟩]
  rcases hk with rfl | rfl <;> ext <;> simp [preLaw, vel]

/-- C32 ("preDqDxyz", slip walls, inlets, exits): the halo velocities of the "euler" stage stay. -/
theorem C32_slip_pre {dm : Dims} (hng : dm.ng = 1 ∨ dm.ng = 2) {k : Kind}
    (hk : k = .adiabaticSlipWall ∨ k = .isoTSlipWall) (f : Face) (F : FaceData) (eos : Cell → Cell) (b : Blk) (c : Ix)
    (hc : InArr dm c) : (applyBC k dm f F eos "preDqDxyz" b).A c = b.A c := by
  by_cases hx : ∃ g < dm.ng, c f.dir = haloLayer dm f g
  · rw [(C34_pre hng k f F eos b c hc).1 hx]; rcases hk with rfl | rfl <;> rfl
  · exact (C34_pre hng k f F eos b c hc).2.1 (fun g hg h => hx ⟨g, hg, h⟩)

/-- C32 ("postDqDxyz"): the averaged face gradients of pressure and of every species vanish at every wall, that of the
    temperature vanishes at adiabatic walls, that of the velocity vanishes at slip walls; where a face gradient does not
    vanish it is the one of the interior cell. -/
theorem C32_wall_gradients {dm : Dims} {k : Kind} (hk : IsWall k) (f : Face) (F : FaceData)
    (eos : Cell → Cell) (b : Blk) (c : Ix) (hc : InArr dm c) (h : c f.dir = haloLayer dm f 0) :
    let face := fun l => smul (1/2) ((applyBC k dm f F eos "postDqDxyz" b).G c l + b.G (inner dm f 0 c) l)
    let int := b.G (inner dm f 0 c)
    face 0 = 0 ∧ (∀ m, face (m+5) = 0) ∧
    (k = .adiabaticNoSlipWall ∨ k = .adiabaticSlipWall ∨ k = .adiabaticMovingWall → face 4 = 0) ∧
    (k = .isoTNoSlipWall ∨ k = .isoTSlipWall ∨ k = .isoTMovingWall → face 4 = int 4) ∧
    (k = .adiabaticSlipWall ∨ k = .isoTSlipWall → face 1 = 0 ∧ face 2 = 0 ∧ face 3 = 0) ∧
    (k ≠ .adiabaticSlipWall ∧ k ≠ .isoTSlipWall → face 1 = int 1 ∧ face 2 = int 2 ∧ face 3 = int 3) := by
  intro face int
  have e : (applyBC k dm f F eos "postDqDxyz" b).G c = fun l => smul (gradSign k l) (int l) := by
    rw [(C34_post k f F eos b c hc).1 h]; cases k <;> first | rfl | exact hk.elim
  have hf : face = fun l => smul (1/2) (smul (gradSign k l) (int l) + int l) := by
    show (fun l => smul (1/2) ((applyBC k dm f F eos "postDqDxyz" b).G c l + int l)) = _
    rw [e]
  rw [hf]
  have hneg : ∀ v : V3, smul (1/2) (smul (-1) v + v) = 0 := by intro v; ext <;> simp
  have hpos : ∀ v : V3, smul (1/2) (smul 1 v + v) = v := by intro v; ext <;> simp <;> ring
  cases k <;> first | exact hk.elim | (simp [gradSign, hneg, hpos, -one_div])

/-! ### mass flux through wall faces -/

/-- data of a wall face at cell `c` of halo layer 0, after the "euler" stage: halo and interior velocities mirror -/
theorem wall_un {dm : Dims} (hng : dm.ng = 1 ∨ dm.ng = 2) {k : Kind} (hk : IsWall k) (f : Face) (F : FaceData)
    {eos : Cell → Cell} (he : KeepsPrims eos) (b : Blk) (c : Ix) (hc : InArr dm c) {g : ℕ} (hg : g < dm.ng)
    (h : c f.dir = haloLayer dm f g) (hn : Unit3 (faceNormal dm f F c)) :
    let n := faceNormal dm f F c
    Flux.proj n (toFlux ((applyBC k dm f F eos "euler" b).A c)) = -Flux.proj n (toFlux (b.A (inner dm f 0 c))) := by
  intro n
  have := (C32_mirror hng hk f F he b c hc hg h hn).1
  simp only [dot, vel, smul_x, smul_y, smul_z, add_x, add_y, add_z] at this
  simp only [Flux.proj, toFlux, n]
  linarith

/-- C32: with every scheme of the KEEP family, no mass crosses the face of any wall (and hence no species), whatever the
    thermodynamic state on the two sides. -/
theorem C32_no_mass_KEEP_partial {dm : Dims} (hng : dm.ng = 1 ∨ dm.ng = 2) {k : Kind} (hk : IsWall k) (f : Face) (F : FaceData)
    {eos : Cell → Cell} (he : KeepsPrims eos) (b : Blk) (c : Ix) (hc : InArr dm c)
    (h : c f.dir = haloLayer dm f 0) (hn : Unit3 (faceNormal dm f F c)) (fg : Flux.FaceG) (hfg : fg.Valid)
    (hfn : fg.n = faceNormal dm f F c) :
    let b' := applyBC k dm f F eos "euler" b
    let LR := leftRight f (b'.A c) (b'.A (inner dm f 0 c))
    (Flux.KEEP LR.1 LR.2 fg) 0 = 0 ∧ (Flux.KEEPpe LR.1 LR.2 fg) 0 = 0 ∧ (Flux.KEPaEC LR.1 LR.2 fg) 0 = 0 ∧
    (∀ m, (Flux.KEEP LR.1 LR.2 fg) (m+5) = 0 ∧ (Flux.KEEPpe LR.1 LR.2 fg) (m+5) = 0 ∧
      (Flux.KEPaEC LR.1 LR.2 fg) (m+5) = 0) := by
  intro b' LR
  have hg : 0 < dm.ng := by omega
  have hint : b'.A (inner dm f 0 c) = b.A (inner dm f 0 c) := wall_int hng hk f F eos b c 0
  have hun := wall_un hng hk f F he b c hc hg h hn
  have hU : Flux.keepU LR.1 LR.2 fg = 0 := by
    have h1 : Flux.keepU LR.1 LR.2 fg = fg.S * (1/2) * (Flux.proj fg.n LR.1 + Flux.proj fg.n LR.2) := by
      unfold Flux.keepU Flux.avg Flux.proj
      rw [Flux.valid_x hfg, Flux.valid_y hfg, Flux.valid_z hfg]; ring
    have h2 : Flux.proj fg.n LR.1 + Flux.proj fg.n LR.2 = 0 := by
      simp only [LR, leftRight, hfn, hint]
      split
      · simp only [b']; rw [hun]; ring
      · simp only [b']; rw [hun]; ring
    rw [h1, h2]; ring
  have hC : Flux.keepC LR.1 LR.2 fg = 0 := by unfold Flux.keepC; rw [hU]; ring
  refine ⟨hC, hC, hC, fun m => ?_⟩
  simp only [Flux.KEEP, Flux.KEEPpe, Flux.KEPaEC, Flux.keepWith, Flux.mk5_5, hC, mul_zero, and_self]

/-- C32: at adiabatic walls the two sides also share density and sound speed, and then no mass crosses the face with
    rusanov, centralDifference and AUSM+-up at any normal speed, and with hllc at subsonic normal speed. The interior cell
    is one whose stored state is what the equation of state computes from its primitives. -/
theorem C32_no_mass_adiabatic_partial {dm : Dims} (hng : dm.ng = 1 ∨ dm.ng = 2) {k : Kind}
    (hk : k = .adiabaticNoSlipWall ∨ k = .adiabaticSlipWall ∨ k = .adiabaticMovingWall) (f : Face) (F : FaceData)
    {eos : Cell → Cell} (he : PrimsEos eos) (b : Blk) (c : Ix) (hc : InArr dm c)
    (h : c f.dir = haloLayer dm f 0) (hn : Unit3 (faceNormal dm f F c)) (fg : Flux.FaceG) (hfg : fg.Valid)
    (hfn : fg.n = faceNormal dm f F c) (hint : eos (b.A (inner dm f 0 c)) = b.A (inner dm f 0 c))
    (hrho : 0 < (b.A (inner dm f 0 c)).Q.rho) (hcs : 0 < (b.A (inner dm f 0 c)).qh.c) :
    let b' := applyBC k dm f F eos "euler" b
    let LR := leftRight f (b'.A c) (b'.A (inner dm f 0 c))
    (Flux.rusanov LR.1 LR.2 fg) 0 = 0 ∧ (Flux.central LR.1 LR.2 fg) 0 = 0 ∧ (Flux.ausm LR.1 LR.2 fg) 0 = 0 ∧
    (|Flux.proj fg.n (toFlux (b.A (inner dm f 0 c)))| < (b.A (inner dm f 0 c)).qh.c →
      (Flux.hllc LR.1 LR.2 fg) 0 = 0) := by
  intro b' LR
  have hg : 0 < dm.ng := by omega
  have hkw : IsWall k := by rcases hk with rfl | rfl | rfl <;> trivial
  have hint' : b'.A (inner dm f 0 c) = b.A (inner dm f 0 c) := wall_int hng hkw f F eos b c 0
  have hun := wall_un hng hkw f F he.keeps b c hc hg h hn
  have hT : wallT k (F.bc (tan f c)) (b.A (inner dm f 0 c)) = (b.A (inner dm f 0 c)).q.T := by
    rcases hk with rfl | rfl | rfl <;> rfl
  have hh := wall_halo hng hkw f F (eos := eos) b c hc hg h
  rw [hT] at hh
  set i := b.A (inner dm f 0 c) with hi
  set w : Cell := { b.A c with q := wallEuler (faceNormal dm f F c) i.q i.q.T } with hw
  obtain ⟨hr, hcc⟩ := he.state w i rfl rfl rfl
  rw [← hh, hint] at hr hcc
  have hp : (b'.A c).q.p = i.q.p := by show ((applyBC k dm f F eos "euler" b).A c).q.p = _; rw [hh, (he.keeps w).1]; rfl
  obtain ⟨hm1, hm2, hm3⟩ := he.mom w
  obtain ⟨-, hu1, hu2, hu3, -⟩ := he.keeps w
  rw [← hu1, ← hh] at hm1
  rw [← hu2, ← hh] at hm2
  rw [← hu3, ← hh] at hm3
  obtain ⟨im1, im2, im3⟩ := he.mom i
  rw [hint] at im1 im2 im3
  -- the two sides, in whichever order
  have hL : ∃ U : ℝ, Flux.proj fg.n LR.1 = U ∧ Flux.proj fg.n LR.2 = -U ∧ |U| = |Flux.proj fg.n (toFlux i)| := by
    simp only [LR, leftRight, hint', hfn]
    split
    · exact ⟨_, rfl, by simp only [b']; rw [hun]; ring, by simp only [b']; rw [hun, abs_neg]⟩
    · exact ⟨_, rfl, by simp only [b']; rw [hun], rfl⟩
  obtain ⟨U, hU1, hU2, hU3⟩ := hL
  have hrho1 : LR.1.rho = i.Q.rho ∧ LR.2.rho = i.Q.rho := by
    simp only [LR, leftRight, hint']; split <;> exact ⟨by first | exact hr | rfl, by first | exact hr | rfl⟩
  have hc1 : LR.1.c = i.qh.c ∧ LR.2.c = i.qh.c := by
    simp only [LR, leftRight, hint']; split <;> exact ⟨by first | exact hcc | rfl, by first | exact hcc | rfl⟩
  have hp1 : LR.1.p = i.q.p ∧ LR.2.p = i.q.p := by
    simp only [LR, leftRight, hint']; split <;> exact ⟨by first | exact hp | rfl, by first | exact hp | rfl⟩
  have hmom : ∀ X, X = LR.1 ∨ X = LR.2 → X.rhou = X.rho * X.u ∧ X.rhov = X.rho * X.v ∧ X.rhow = X.rho * X.w := by
    have ha : (toFlux (b'.A c)).rhou = (toFlux (b'.A c)).rho * (toFlux (b'.A c)).u ∧
      (toFlux (b'.A c)).rhov = (toFlux (b'.A c)).rho * (toFlux (b'.A c)).v ∧
      (toFlux (b'.A c)).rhow = (toFlux (b'.A c)).rho * (toFlux (b'.A c)).w := ⟨hm1, hm2, hm3⟩
    have hb : (toFlux i).rhou = (toFlux i).rho * (toFlux i).u ∧ (toFlux i).rhov = (toFlux i).rho * (toFlux i).v ∧
      (toFlux i).rhow = (toFlux i).rho * (toFlux i).w := ⟨im1, im2, im3⟩
    intro X hX
    simp only [LR, leftRight, hint'] at hX
    split at hX
    · rcases hX with rfl | rfl
      · exact ha
      · exact hb
    · rcases hX with rfl | rfl
      · exact hb
      · exact ha
  clear_value LR
  refine ⟨?_, ?_, ?_, ?_⟩
  · simp only [Flux.rusanov, Flux.mk5_0, hU1, hU2, hrho1.1, hrho1.2]; ring
  · obtain ⟨a1, a2, a3⟩ := hmom LR.1 (Or.inl rfl)
    obtain ⟨b1, b2, b3⟩ := hmom LR.2 (Or.inr rfl)
    simp only [Flux.proj] at hU1 hU2
    simp only [Flux.central, Flux.mk5_0, a1, a2, a3, b1, b2, b3, hrho1.1, hrho1.2, Flux.valid_x hfg, Flux.valid_y hfg,
      Flux.valid_z hfg]
    linear_combination (1/2 * fg.S * i.Q.rho) * hU1 + (1/2 * fg.S * i.Q.rho) * hU2
  · have : (Flux.ausmFace LR.1 LR.2 fg).1 = 0 := by
      simp only [Flux.ausmFace, hU1, hU2, hrho1.1, hrho1.2, hc1.1, hc1.2, hp1.1, hp1.2, sub_self, mul_zero, zero_div,
        sub_zero, neg_div, abs_neg]
      set M := U / (1/2 * (i.qh.c + i.qh.c)) with hM
      clear_value M
      have hz : (if 1 ≤ |M| then 1/2 * (M + |M|) else 1/4 * (M + 1)^2 * (1 - 16 * (1/8) * (-(1/4) * (-M - 1)^2))) +
          (if 1 ≤ |M| then 1/2 * (-M - |M|) else -(1/4) * (-M - 1)^2 * (1 + 16 * (1/8) * (1/4 * (M + 1)^2))) = 0 := by
        split <;> ring
      rw [hz]
      simp
    simp only [Flux.ausm, Flux.mk5_0, this, zero_mul]
  · intro hsub
    rw [← hU3, abs_lt] at hsub
    have hS : Flux.hllcSstar LR.1 LR.2 fg = 0 := by
      simp only [Flux.hllcSstar, hU1, hU2, hrho1.1, hrho1.2, hc1.1, hc1.2, hp1.1, hp1.2]
      have : (i.q.p - i.q.p + i.Q.rho * U * (U - i.qh.c - U) - i.Q.rho * -U * (-U + i.qh.c - -U)) = 0 := by ring
      rw [this, zero_div]
    have hSL : U - i.qh.c < 0 := by linarith
    simp only [Flux.hllc, hS, hU1, hU2, hc1.1, hc1.2]
    rw [if_neg (by linarith), if_pos ⟨hSL.le, le_refl _⟩]
    simp only [Flux.starFlux, Flux.mk5_0, hU1, hrho1.1, sub_zero]
    have hne := hSL.ne
    field_simp
    ring

/-! ### where the claim fails -/

/-- a gas with R = 1, cp = 2 (gamma = 2) for the counterexamples -/
def gas : Th := ⟨1, 1, fun _ => 1, fun _ => 2, fun _ _ => 0⟩

/-- a cell with the given pressure, x-velocity and temperature, before its derived quantities are computed -/
def rawCell (p u T : ℝ) : Cell := ⟨⟨p, u, 0, 0, T, fun _ => 0⟩, ⟨0, 0, 0, 0, 0, fun _ => 0⟩, ⟨0, 0, 0, 0, 0, fun _ => 0⟩⟩
/-- the same as the equation of state stores it -/
def stateOf (p u T : ℝ) : Cell := cpgPrims gas (rawCell p u T)

theorem gas_vals (a : Cell) :
    (cpgPrims gas a).Q.rho = a.q.p / a.q.T ∧ (cpgPrims gas a).qh.c = Real.sqrt (2 * a.q.T) ∧
    (cpgPrims gas a).q.u = a.q.u ∧ (cpgPrims gas a).q.v = a.q.v ∧ (cpgPrims gas a).q.w = a.q.w ∧
    (cpgPrims gas a).q.p = a.q.p ∧ (cpgPrims gas a).q.T = a.q.T := by
  have e : ∀ y, localY 1 (clipY 1 y) 0 = 1 := by intro y; simp [localY, testSum]
  have hR : ∀ y, Rmix gas (localY gas.ns (clipY gas.ns y)) = 1 := by
    intro y; show Rmix gas (localY 1 (clipY 1 y)) = 1; simp [Rmix, gas, e]
  have hcp : ∀ y, cpmix gas (localY gas.ns (clipY gas.ns y)) = 2 := by
    intro y; show cpmix gas (localY 1 (clipY 1 y)) = 2; simp [cpmix, gas, e]
  refine ⟨?_, ?_, rfl, rfl, rfl, rfl, rfl⟩
  · simp only [cpgPrims, hR, one_mul]
  · simp only [cpgPrims, hR, hcp]; norm_num

/-- the face used below: unit area, normal (1,0,0) -/
def ex : V3 := ⟨1, 0, 0⟩
def unitFace : Flux.FaceG := ⟨ex, ex, 1⟩
/-- one-cell block with one halo layer, face data with normals (1,0,0) and wall temperature `T` -/
def demoF (T : ℝ) : FaceData :=
  ⟨fun _ _ => ex, fun _ => ⟨⟨0, 0, 0, 0, T, fun _ => 0⟩, ⟨0, 0, 0, 0, 0, fun _ => 0⟩⟩, fun _ => ex, fun _ => ex⟩

/-- C32 fails at isothermal walls with rusanov: the halo density follows the wall temperature, so the dissipation term
    carries mass through the wall although nothing moves. -/
theorem C32_isothermal_violated :
    let dm : Dims := ⟨fun _ => 3, 1⟩
    let f : Face := ⟨0, true⟩
    let b : Blk := ⟨fun _ => stateOf 1 0 1, fun _ _ => 0⟩
    let c : Ix := fun t => if t = 0 then 0 else 1
    let b' := applyBC .isoTNoSlipWall dm f (demoF (1/2)) (cpgPrims gas) "euler" b
    let LR := leftRight f (b'.A c) (b'.A (inner dm f 0 c))
    InArr dm c ∧ c f.dir = haloLayer dm f 0 ∧ (Flux.rusanov LR.1 LR.2 unitFace) 0 ≠ 0 := by
  intro dm f b c b' LR
  have hc : InArr dm c := by
    intro t; simp only [dm, c, Dims.ext]; split <;> simp
  have hl : c f.dir = haloLayer dm f 0 := by simp [c, f, haloLayer, dm]
  refine ⟨hc, hl, ?_⟩
  have hint : b'.A (inner dm f 0 c) = stateOf 1 0 1 :=
    wall_int (k := .isoTNoSlipWall) (Or.inl rfl) trivial f _ _ b c 0
  have hh := wall_halo (k := .isoTNoSlipWall) (Or.inl rfl) trivial f (demoF (1/2)) (eos := cpgPrims gas) b c hc
    (by simp [dm] : 0 < dm.ng) hl
  have hS : b'.A c = cpgPrims gas { stateOf 1 0 1 with q := wallEuler ex (stateOf 1 0 1).q (1/2) } := hh
  obtain ⟨r1, c1, u1, v1, w1, p1, -⟩ := gas_vals (rawCell 1 0 1)
  obtain ⟨r2, c2, u2, v2, w2, -, -⟩ := gas_vals { stateOf 1 0 1 with q := wallEuler ex (stateOf 1 0 1).q (1/2) }
  rw [← hS] at r2 c2 u2 v2 w2
  change (stateOf 1 0 1).Q.rho = 1 / 1 at r1
  change (stateOf 1 0 1).qh.c = √(2 * 1) at c1
  change (stateOf 1 0 1).q.u = 0 at u1
  change (stateOf 1 0 1).q.v = 0 at v1
  change (stateOf 1 0 1).q.w = 0 at w1
  change (stateOf 1 0 1).q.p = 1 at p1
  simp only [wallEuler, uDotn, u1, v1, w1, p1, ex] at r2 c2 u2 v2 w2
  rw [← hint] at r1 c1 u1 v1 w1
  clear hS hh
  simp only [LR, leftRight, f, if_true]
  generalize b'.A c = X at r2 c2 u2 v2 w2 ⊢
  generalize b'.A _ = Y at r1 c1 u1 v1 w1 ⊢
  simp only [Flux.rusanov, Flux.mk5_0, Flux.rusanovSpeed, Flux.proj, toFlux, unitFace, ex, r1, c1, u1, v1, w1, r2, c2, u2,
    v2, w2]
  have h2 : (0:ℝ) < √(2 * 1) := Real.sqrt_pos.2 (by norm_num)
  norm_num

/-- C32 fails with hllc when the cell next to the wall moves towards it faster than sound: the scheme then takes the full
    interior flux and mass leaves through the wall. -/
theorem C32_hllc_supersonic_violated :
    let dm : Dims := ⟨fun _ => 3, 1⟩
    let f : Face := ⟨0, false⟩
    let b : Blk := ⟨fun _ => stateOf 1 2 1, fun _ _ => 0⟩
    let c : Ix := fun t => if t = 0 then 3 else 1
    let b' := applyBC .adiabaticSlipWall dm f (demoF 1) (cpgPrims gas) "euler" b
    let LR := leftRight f (b'.A c) (b'.A (inner dm f 0 c))
    InArr dm c ∧ c f.dir = haloLayer dm f 0 ∧ (Flux.hllc LR.1 LR.2 unitFace) 0 = 2 := by
  intro dm f b c b' LR
  have hc : InArr dm c := by
    intro t; simp only [dm, c, Dims.ext]; split <;> simp
  have hl : c f.dir = haloLayer dm f 0 := by simp [c, f, haloLayer, dm]
  refine ⟨hc, hl, ?_⟩
  have hint : b'.A (inner dm f 0 c) = stateOf 1 2 1 :=
    wall_int (k := .adiabaticSlipWall) (Or.inl rfl) trivial f _ _ b c 0
  obtain ⟨r1, c1, u1, v1, w1, p1, -⟩ := gas_vals (rawCell 1 2 1)
  change (stateOf 1 2 1).Q.rho = 1 / 1 at r1
  change (stateOf 1 2 1).qh.c = √(2 * 1) at c1
  change (stateOf 1 2 1).q.u = 2 at u1
  change (stateOf 1 2 1).q.v = 0 at v1
  change (stateOf 1 2 1).q.w = 0 at w1
  have hs : √(2 * 1 : ℝ) ≤ 2 := by
    rw [Real.sqrt_le_left (by norm_num)]; norm_num
  show Flux.hllc (toFlux (b'.A (inner dm f 0 c))) (toFlux (b'.A c)) unitFace 0 = 2
  rw [hint]
  have : (0:ℝ) ≤ Flux.proj unitFace.n (toFlux (stateOf 1 2 1)) - (toFlux (stateOf 1 2 1)).c := by
    simp only [Flux.proj, unitFace, ex, toFlux, u1, v1, w1, c1]; linarith
  simp only [Flux.hllc]
  rw [if_pos this]
  simp only [Flux.sideFlux, Flux.mk5_0, Flux.proj, unitFace, ex, toFlux, u1, v1, w1, r1]; norm_num

/-- C32 fails with fourthOrderKEEP: both halo layers mirror the first interior cell, but the four-point mass flux pairs the
    inner halo layer with the second interior cell, so a velocity difference between the first two interior cells drives
    mass through the wall. -/
theorem C32_fourth_order_violated :
    let dm : Dims := ⟨fun _ => 4, 2⟩
    let f : Face := ⟨0, true⟩
    let b : Blk := ⟨fun x => if x 0 = 2 then stateOf 1 0 1 else stateOf 1 1 1, fun _ _ => 0⟩
    let c : ℤ → Ix := fun s t => if t = 0 then s else 2
    let b' := applyBC .adiabaticSlipWall dm f (demoF 1) (cpgPrims gas) "euler" b
    (∀ s ∈ [0, 1, 2, 3], InArr dm (c s)) ∧ (c 1) f.dir = haloLayer dm f 0 ∧ (c 0) f.dir = haloLayer dm f 1 ∧
    (Flux.fourthKEEP (toFlux (b'.A (c 0))) (toFlux (b'.A (c 1))) (toFlux (b'.A (c 2))) (toFlux (b'.A (c 3))) unitFace) 0
      ≠ 0 := by
  intro dm f b c b'
  have hc : ∀ s ∈ ([0, 1, 2, 3] : List ℤ), InArr dm (c s) := by
    intro s hs t
    simp only [List.mem_cons, List.not_mem_nil, or_false] at hs
    simp only [dm, c, Dims.ext]
    split <;> rcases hs with rfl | rfl | rfl | rfl <;> norm_num
  have hl0 : (c 1) f.dir = haloLayer dm f 0 := by simp [c, f, haloLayer, dm]
  have hl1 : (c 0) f.dir = haloLayer dm f 1 := by simp [c, f, haloLayer, dm]
  refine ⟨hc, hl0, hl1, ?_⟩
  have hi : ∀ s, inner dm f 0 (c s) = c 2 := by
    intro s; funext t; simp only [inner, Function.update, interiorLayer, f, dm, c]
    by_cases h : t = 0
    · subst h; simp
    · simp [h]
  have hb2 : b.A (c 2) = stateOf 1 0 1 := by simp [b, c]
  have hb3 : b.A (c 3) = stateOf 1 1 1 := by simp [b, c]
  have h2 : b'.A (c 2) = stateOf 1 0 1 := by
    have := wall_int (k := .adiabaticSlipWall) (dm := dm) (Or.inr rfl) trivial f (demoF 1) (cpgPrims gas) b (c 2) 0
    rw [hi, hb2] at this; exact this
  have h3 : b'.A (c 3) = stateOf 1 1 1 := by
    have := wall_int (k := .adiabaticSlipWall) (dm := dm) (Or.inr rfl) trivial f (demoF 1) (cpgPrims gas) b (c 2) 1
    have e : inner dm f 1 (c 2) = c 3 := by
      funext t; simp only [inner, Function.update, interiorLayer, f, dm, c]
      by_cases h : t = 0
      · subst h; simp
      · simp [h]
    rw [e, hb3] at this; exact this
  have ha := wall_halo (k := .adiabaticSlipWall) (dm := dm) (Or.inr rfl) trivial f (demoF 1) (eos := cpgPrims gas) b (c 1)
    (hc 1 (by simp)) (by simp [dm] : 0 < dm.ng) hl0
  have hb := wall_halo (k := .adiabaticSlipWall) (dm := dm) (Or.inr rfl) trivial f (demoF 1) (eos := cpgPrims gas) b (c 0)
    (hc 0 (by simp)) (by simp [dm] : 1 < dm.ng) hl1
  rw [hi, hb2] at ha hb
  obtain ⟨r1, -, u1, v1, w1, p1, T1⟩ := gas_vals (rawCell 1 0 1)
  change (stateOf 1 0 1).Q.rho = 1 / 1 at r1
  change (stateOf 1 0 1).q.u = 0 at u1
  change (stateOf 1 0 1).q.v = 0 at v1
  change (stateOf 1 0 1).q.w = 0 at w1
  change (stateOf 1 0 1).q.p = 1 at p1
  change (stateOf 1 0 1).q.T = 1 at T1
  obtain ⟨r3, -, u3, v3, w3, -, -⟩ := gas_vals (rawCell 1 1 1)
  change (stateOf 1 1 1).Q.rho = 1 / 1 at r3
  change (stateOf 1 1 1).q.u = 1 at u3
  change (stateOf 1 1 1).q.v = 0 at v3
  change (stateOf 1 1 1).q.w = 0 at w3
  obtain ⟨ra, -, ua, va, wa, -, -⟩ := gas_vals { b.A (c 1) with
    q := wallEuler (faceNormal dm f (demoF 1) (c 1)) (stateOf 1 0 1).q (wallT .adiabaticSlipWall ((demoF 1).bc (tan f (c 1))) (stateOf 1 0 1)) }
  obtain ⟨rb, -, ub, vb, wb, -, -⟩ := gas_vals { b.A (c 0) with
    q := wallEuler (faceNormal dm f (demoF 1) (c 0)) (stateOf 1 0 1).q (wallT .adiabaticSlipWall ((demoF 1).bc (tan f (c 0))) (stateOf 1 0 1)) }
  rw [← ha] at ra ua va wa
  rw [← hb] at rb ub vb wb
  simp only [wallEuler, uDotn, u1, v1, w1, p1, T1, wallT] at ra ua va wa rb ub vb wb
  rw [← h2] at r1 u1 v1 w1
  rw [← h3] at r3 u3 v3 w3
  clear ha hb
  change (b'.A (c 1)).Q.rho = _ at ra
  change (b'.A (c 1)).q.u = _ at ua
  change (b'.A (c 1)).q.v = _ at va
  change (b'.A (c 1)).q.w = _ at wa
  change (b'.A (c 0)).Q.rho = _ at rb
  change (b'.A (c 0)).q.u = _ at ub
  change (b'.A (c 0)).q.v = _ at vb
  change (b'.A (c 0)).q.w = _ at wb
  generalize b'.A (c 0) = X0 at *
  generalize b'.A (c 1) = X1 at *
  generalize b'.A (c 2) = X2 at *
  generalize b'.A (c 3) = X3 at *
  simp only [Flux.fourthKEEP, Flux.mk5_0, Flux.four, toFlux, unitFace, ex, r1, u1, v1, w1, r3, u3, v3, w3, ra, ua, va, wa,
    rb, ub, vb, wb]
  norm_num

/-- the hypotheses of the C32 theorems are met by the first halo layer of the demonstration block -/
example : let dm : Dims := ⟨fun _ => 3, 1⟩
    let f : Face := ⟨0, true⟩
    let c : Ix := fun t => if t = 0 then 0 else 1
    InArr dm c ∧ c f.dir = haloLayer dm f 0 ∧ Unit3 (faceNormal dm f (demoF 1) c) ∧ unitFace.Valid ∧
    unitFace.n = faceNormal dm f (demoF 1) c ∧ PrimsEos (cpgPrims gas) ∧ cpgPrims gas (stateOf 1 2 1) = stateOf 1 2 1 ∧
    0 < (stateOf 1 2 1).Q.rho ∧ 0 < (stateOf 1 2 1).qh.c := by
  intro dm f c
  obtain ⟨r1, c1, -, -, -, -, -⟩ := gas_vals (rawCell 1 2 1)
  refine ⟨?_, by simp [c, f, haloLayer, dm], by simp [Unit3, faceNormal, demoF, ex, dot], ?_, rfl, primsEos_cpg _, ?_, ?_, ?_⟩
  · intro t; simp only [dm, c, Dims.ext]; split <;> simp
  · simp [Flux.FaceG.Valid, unitFace, ex, smul]
  · have : clipY gas.ns (clipY gas.ns (rawCell 1 2 1).q.Y) = clipY gas.ns (rawCell 1 2 1).q.Y := by
      funext n; simp [clipY, gas]
    simp only [stateOf, cpgPrims, this, Thermo.Cell.mk.injEq, Cons.mk.injEq, Qh.mk.injEq, true_and]
    constructor <;> funext n <;> split <;> simp_all
  · show 0 < (cpgPrims gas (rawCell 1 2 1)).Q.rho
    rw [r1]; simp [rawCell]
  · show 0 < (cpgPrims gas (rawCell 1 2 1)).qh.c
    rw [c1]; simp [rawCell]

end PG.BC
