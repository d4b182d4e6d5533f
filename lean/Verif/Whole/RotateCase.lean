import Verif.Whole.RotateCell
import Verif.Sensor.Model
/-!
C110: a complete case - gas, schemes, models, grid, boundary data - and the same case moved rigidly: the grid nodes rotated and
translated, boundary velocities, mass fluxes and axes of rotation rotated, the sponge moved. Everything else is as before.
-/
noncomputable section
namespace PG.Whole
open PG.Topo PG.Halo PG.Time PG.Flux V3

/-- the arrays of a block (solverBlock.py:60-214) with `qh` as the gas stores it -/
abbrev rotS : Sig := gasS Transport (Fin 3 → ℝ) (ℕ → V3) Geo

/-- what the fluxes read of a cell -/
def down (c : Cl rotS) : Cl blockS := ⟨c.Q, c.q, ⟨c.h.c, c.h.rhoe, c.h.hi⟩⟩

/-- arrays of a cell, by position (inverse of `named`) -/
def flat (c : Thermo.Cell) : Cl rotS :=
  ⟨mk5 c.Q.rho c.Q.rhou c.Q.rhov c.Q.rhow c.Q.rhoE c.Q.rhoY, mk5 c.q.p c.q.u c.q.v c.q.w c.q.T c.q.Y, c.qh⟩

/-- the scalars of a cell: everything but velocity and momentum. Transport and chemistry read nothing else (transport/*.cpp,
    chemistry/*.cpp) -/
structure Scalars where
  p : ℝ
  T : ℝ
  Y : ℕ → ℝ
  rho : ℝ
  rhoE : ℝ
  rhoY : ℕ → ℝ
  h : Thermo.Qh

def scalars (c : Cl rotS) : Scalars := ⟨c.q 0, c.q 4, fun n => c.q (n + 5), c.Q 0, c.Q 4, fun n => c.Q (n + 5), c.h⟩

/-- the equation of state of the case (thermo/*.cpp) -/
inductive Eos
  | cpg (th : Thermo.Th)
  | tpg (th : Thermo.Th)
  | cubic (th : Thermo.ThC)

/-- number of species -/
def Eos.ns : Eos → ℕ
  | cpg th => th.ns
  | tpg th => th.ns
  | cubic th => th.ns

/-- eos(..., "prims") (cpg.cpp:32-134, tpg.cpp, cubic.cpp); where the cubic equation has no root (NaN in the code) the cell is kept -/
def Eos.prims : Eos → Thermo.Cell → Thermo.Cell
  | cpg th => Thermo.cpgPrims th
  | tpg th => Thermo.tpgPrims th
  | cubic th => fun c => (Thermo.cubicPrims th c).getD c

/-- eos(..., "cons") -/
def Eos.cons : Eos → Thermo.Cell → Thermo.Cell
  | cpg th => Thermo.cpgCons th
  | tpg th => Thermo.tpgCons th
  | cubic th => fun c => (Thermo.cubicCons th c).getD c

/-- both on the arrays -/
def Eos.P (e : Eos) (c : Cl rotS) : Cl rotS := packed e.ns (e.prims (named c))
def Eos.C (e : Eos) (c : Cl rotS) : Cl rotS := packed e.ns (e.cons (named c))

/-- config["viscousSponge"]: origin, ending, multiplier -/
structure Sponge where
  origin : V3
  ending : V3
  mult : ℝ

/-- viscousSponge.cpp:5-39 on one cell -/
def Sponge.apply (s : Sponge) (g : Geo) (t : Transport) : Transport := { t with mu := Sensor.sponge s.origin s.ending s.mult g.xc t.mu }

/-- switches/*.cpp on one cell: the sensor of direction `d` reads the pressures of the cell and its two neighbours along `d`; where
    it divides by zero (NaN in the code) it is 0 -/
def sensorAt (k : Sensor.Kind) (L : Fin 3 → Int → Cl rotS × Geo) : Fin 3 → ℝ := fun d =>
  (Sensor.sens1 k ((L d (-1)).1.q 0) ((L d 0).1.q 0) ((L d 1).1.q 0)).getD 0

/-- smagorinsky.cpp:16-75 on one cell, `ne` equations -/
def smagAt (ne : ℕ) (c : Cl rotS) (d : ℕ → V3) (g : Geo) (t : Transport) : Transport :=
  let D : Subgrid.Data := ⟨d 1, d 2, d 3, g.J, c.Q 0, c.h.cp⟩
  let qt := Subgrid.addSgs ne (Subgrid.nuSmag D) D (fun l => if l = 0 then t.mu else if l = 1 then t.kappa else t.D (l - 2))
  ⟨qt 0, qt 1, fun n => qt (n + 2)⟩

/-- What config selects (multiBlock/__init__.py:23-200): equation of state, transport, sponge, switch, one or two advective
    schemes, diffusion with its scheme, gradients of second or fourth order, subgrid model, chemistry. Transport and chemistry are
    any functions of the scalars of the cell (C77, C84-C86 say which). -/
structure Gas where
  eos : Eos
  tr : Scalars → Transport
  sponge : Option Sponge
  switch : Option Sensor.Kind
  s1 : Flux.Scheme
  s2 : Option Flux.Scheme
  diffusion : Bool
  sd : Diff.Scheme
  fourth : Bool
  smag : Bool
  /-- new dQ(4..) from the scalars of the cell and the old dQ(4..) (explicit chemistry) -/
  source : Scalars → (ℕ → ℝ) → ℕ → ℝ
  /-- new T, Y and rho Y after integrating the reactor of a cell over a time step (strang.py:9-14, 72-88) -/
  react : ℝ → Scalars → ℝ × (ℕ → ℝ) × (ℕ → ℝ)
  /-- what dual time stepping uses (dualTime.cpp) -/
  dtau : (Fin 3 → Bool) → (Fin 3 → Int → Geo) → Cl rotS → Transport → ℝ
  invert : ℝ → (Fin 3 → Bool) → (Fin 3 → Int → Geo) → Cl rotS → Transport → Vec → Vec

/-- an advective kernel on the line of cells through a face -/
def advLine (s : Flux.Scheme) (d : Fin 3) (L : Int → Cl rotS × Geo × (Fin 3 → ℝ)) : Vec := advOn s d fun t => (down (L t).1, (L t).2)

/-- the kernels of the solver -/
def Gas.kernels (G : Gas) : Kernels rotS where
  eosC := G.eos.C
  eosP := G.eos.P
  trans c := G.tr (scalars c)
  sponge g t := match G.sponge with
    | none => t
    | some s => s.apply g t
  sw := G.switch.map sensorAt
  flux1 := advLine G.s1
  flux2 := match G.s2 with
    | none => fun _ _ _ => 0
    | some s => advLine s
  apply1 := match G.s2 with
    | none => fun g _ => plainAt g
    | some _ => hybridAt 1
  apply2 := match G.s2 with
    | none => fun _ _ _ _ x => x
    | some _ => hybridAt 0
  diffusion := G.diffusion
  grad L := gradAt G.fourth (fun d u => (L d u).1.q) (fun d u => (L d u).2)
  sgs c d g t := if G.smag then smagAt (5 + G.eos.ns - 1) c d g t else t
  fluxD d L := diffOn G.sd G.eos.ns d fun t => (down (L t).1, (L t).2)
  applyD := plainAt
  chem c x := fun l => if l < 4 then x l else G.source (scalars c) (fun n => x (n + 4)) (l - 4)
  stiff dt c := ⟨fun l => if l < 5 then c.Q l else (G.react dt (scalars c)).2.2 (l - 5),
    fun l => if l < 4 then c.q l else if l = 4 then (G.react dt (scalars c)).1 else (G.react dt (scalars c)).2.1 (l - 5), c.h⟩
  dtau := G.dtau
  invert := G.invert

/-- What the user supplies about space: for every block its grid nodes (halo nodes included), its dimensions, for every face the
    kind of boundary condition (`none`: connected to a block or translationally periodic, bcFunc does nothing), its values - which
    may depend on time and place -, and axis and span of rotational periodicity. -/
structure Case where
  X : ℕ → Pos → V3
  dims : ℕ → Halo.Dims
  kind : ℕ → ℕ → Option BC.Kind
  val : ℕ → ℕ → ℝ → Pos → BC.BcVal
  rotAxis : ℕ → ℕ → V3
  span : ℕ → ℕ → ℝ

/-- the face as the boundary condition functions see it -/
def bcFace (nf : ℕ) : BC.Face := ⟨axis nf, isLow nf⟩

/-- unit normals of the block face on the normal line of `p`: of the face family of the direction `d` -/
def Case.normal (C : Case) (n nf : ℕ) (p : Pos) (d : Fin 3) : V3 :=
  Mesh.normal ((geoOf (C.X n) (along nf (C.dims n) p (if isLow nf then 0 else -1))).s d)

/-- what rotational periodicity uses of a face (gridFace.py:22-72) -/
def Case.face (C : Case) (n nf : ℕ) : BC.FaceData := BC.faceDataOf (fun _ _ => 0) (fun _ => ⟨⟨0, 0, 0, 0, 0, 0⟩, ⟨0, 0, 0, 0, 0, 0⟩⟩) (C.rotAxis n nf) (C.span n nf)

/-- "euler" boundary conditions on halo cell `k < 0` of a normal line (C34_euler, C34_massFlux, C34_periodic) -/
def Case.euler (C : Case) (e : Eos) (n nf : ℕ) (t : ℝ) (p : Pos) (l : Int → Cl rotS) (k : Int) : Cl rotS :=
  match C.kind n nf with
  | none => l k
  | some kind =>
    let c := flat (BC.law kind (bcFace nf) (C.face n nf) (C.normal n nf p (axis nf)) (C.normal n nf p 0) (C.val n nf t p)
      (named (l k)) (named (l 0)) (named (l (-k))))
    match kind with
    | .periodicRotHigh | .periodicRotLow => c
    | .constantMassFluxSubsonicInlet => flat (BC.massFluxFix (C.val n nf t p) (named (e.P c)) (named (l (-1 - k))))
    | _ => e.P c

/-- "preDqDxyz" (C34_pre) -/
def Case.pre (C : Case) (n nf : ℕ) (t : ℝ) (p : Pos) (l : Int → Cl rotS) (k : Int) : Cl rotS :=
  match C.kind n nf with
  | none => l k
  | some kind => flat (BC.preLaw kind (C.val n nf t p) (named (l k)) (named (l 0)))

/-- "postDqDxyz" (C34_post) -/
def Case.post (C : Case) (n nf : ℕ) (_t : ℝ) (_p : Pos) (l : Int → Cl rotS × (ℕ → V3)) : ℕ → V3 :=
  match C.kind n nf with
  | none => (l (-1)).2
  | some kind => BC.postLaw kind (C.face n nf) (l (-1)).2 (l 0).2

/-- metrics from the nodes, and the boundary conditions -/
def Case.input (C : Case) (e : Eos) : Inp rotS := ⟨fun n => geoOf (C.X n), C.euler e, C.pre, C.post⟩

/-! ### the moved case -/

/-- the whole set-up rotated by `R` and translated by `m`: nodes and sponge moved, boundary velocities, mass fluxes and axes of
    rotation turned -/
def Case.moved (R : Rotation) (m : V3) (C : Case) : Case :=
  { C with X := fun n => movedNodes R m (C.X n), val := fun n nf t p => (C.val n nf t p).turn R, rotAxis := fun n nf => R.f (C.rotAxis n nf) }

def Sponge.moved (R : Rotation) (m : V3) (s : Sponge) : Sponge := ⟨R.f s.origin + m, R.f s.ending + m, s.mult⟩
def Gas.moved (R : Rotation) (m : V3) (G : Gas) : Gas := { G with sponge := G.sponge.map (Sponge.moved R m) }

/-- what a rigid motion does to the arrays -/
def motion (R : Rotation) (m : V3) : Change rotS := ⟨R.comps, id, id, id, R.grads, Geo.move R m⟩

variable (R : Rotation) (m : V3)

theorem comps_ge {l : ℕ} (h : 4 ≤ l) (x : Vec) : R.comps x l = x l := by
  obtain ⟨n, rfl⟩ := Nat.exists_eq_add_of_le' h
  rfl

theorem comps_vec (x : Vec) : (⟨R.comps x 1, R.comps x 2, R.comps x 3⟩ : V3) = R.f ⟨x 1, x 2, x 3⟩ := rfl

theorem named_move (c : Cl rotS) : named ((motion R m).cl c) = (named c).turn R := rfl

theorem scalars_move (c : Cl rotS) : scalars ((motion R m).cl c) = scalars c := rfl

theorem mk5_comps (a b c d e : ℝ) (s : ℕ → ℝ) : mk5 a (R.f ⟨b, c, d⟩).x (R.f ⟨b, c, d⟩).y (R.f ⟨b, c, d⟩).z e s = R.comps (mk5 a b c d e s) :=
  mk5_turn R rfl rfl (fun _ => rfl) rfl

theorem flat_turn (c : Thermo.Cell) : flat (c.turn R) = (motion R m).cl (flat c) := by
  unfold flat Change.cl
  rw [Cl.mk.injEq]
  exact ⟨mk5_comps R _ _ _ _ _ _, mk5_comps R _ _ _ _ _ _, rfl⟩

theorem packed_turn (ns : ℕ) (c : Thermo.Cell) : (packed ns (c.turn R) : Cl rotS) = (motion R m).cl (packed ns c) := by
  unfold packed Change.cl
  rw [Cl.mk.injEq]
  exact ⟨mk5_comps R _ _ _ _ _ _, mk5_comps R _ _ _ _ _ _, rfl⟩

theorem Eos.prims_turn (e : Eos) (c : Thermo.Cell) : e.prims (c.turn R) = (e.prims c).turn R := by
  cases e with
  | cpg th => exact Thermo.cpgPrims_isotropic th R c
  | tpg th => exact Thermo.tpgPrims_isotropic th R c
  | cubic th =>
    show (Thermo.cubicPrims th (c.turn R)).getD (c.turn R) = ((Thermo.cubicPrims th c).getD c).turn R
    rw [Thermo.cubicPrims_isotropic]
    cases Thermo.cubicPrims th c <;> rfl

theorem Eos.cons_turn (e : Eos) (c : Thermo.Cell) : e.cons (c.turn R) = (e.cons c).turn R := by
  cases e with
  | cpg th => exact Thermo.cpgCons_isotropic th R c
  | tpg th => exact Thermo.tpgCons_isotropic th R c
  | cubic th =>
    show (Thermo.cubicCons th (c.turn R)).getD (c.turn R) = ((Thermo.cubicCons th c).getD c).turn R
    rw [Thermo.cubicCons_isotropic]
    cases Thermo.cubicCons th c <;> rfl

theorem Eos.P_move (e : Eos) (c : Cl rotS) : e.P ((motion R m).cl c) = (motion R m).cl (e.P c) := by
  unfold Eos.P
  rw [named_move, e.prims_turn, packed_turn]

theorem Eos.C_move (e : Eos) (c : Cl rotS) : e.C ((motion R m).cl c) = (motion R m).cl (e.C c) := by
  unfold Eos.C
  rw [named_move, e.cons_turn, packed_turn]

theorem sponge_move (s : Sponge) (g : Geo) (t : Transport) : (s.moved R m).apply (g.move R m) t = s.apply g t := by
  have hs : ∀ a b : V3, ((R.f a + m).x - (R.f b + m).x)^2 + ((R.f a + m).y - (R.f b + m).y)^2 + ((R.f a + m).z - (R.f b + m).z)^2 =
      (a.x - b.x)^2 + (a.y - b.y)^2 + (a.z - b.z)^2 := by
    intro a b
    have := R.sq' (a - b)
    rw [← diff_moved R m] at this
    exact this
  have hl : Sensor.spongeLength (R.f s.origin + m) (R.f s.ending + m) = Sensor.spongeLength s.origin s.ending := by
    unfold Sensor.spongeLength
    rw [hs]
  have hd : Sensor.spongeDist (R.f s.origin + m) (R.f s.ending + m) (R.f g.xc + m) = Sensor.spongeDist s.origin s.ending g.xc := by
    have e : ∀ o e c : V3, Sensor.spongeDist o e c = V3.dot (c - o) (e - o) / Sensor.spongeLength o e := by
      intro o e c
      simp only [Sensor.spongeDist, V3.dot, sub_x, sub_y, sub_z]
      ring
    rw [e, e, hl, diff_moved, diff_moved, R.dot]
  unfold Sponge.apply Sponge.moved Geo.move Sensor.sponge Sensor.spongeMult
  rw [hl, hd]

theorem flowCell_move (c : Cl rotS) : flowCell (down ((motion R m).cl c)) = (flowCell (down c)).turn R := by
  have e : ∀ x : Vec, (fun n => R.comps x (5 + n)) = fun n => x (5 + n) := fun x => funext fun n => comps_ge R (by omega) x
  unfold flowCell down Change.cl motion Cell.turn
  simp only [e]
  rfl

theorem adv_move {s : Flux.Scheme} (h : Flux.IsotropicAt R s) (d : Fin 3) (L : Int → Cl rotS × Geo × (Fin 3 → ℝ)) :
    advLine s d (fun t => ((motion R m).cl (L t).1, (L t).2.1.move R m, (L t).2.2)) = R.comps (advLine s d L) := by
  unfold advLine advOn
  simp only [flowCell_move]
  rw [← h]
  congr 1
  exact faceOf_turn R _

theorem plain_move (g : Geo) (lo hi : Fin 3 → Vec) (x : Vec) :
    plainAt (g.move R m) (fun d => R.comps (lo d)) (fun d => R.comps (hi d)) (R.comps x) = R.comps (plainAt g lo hi x) := by
  have e : ∀ (g : Geo) (lo hi : Fin 3 → Vec) x, plainAt g lo hi x = x + (1 / g.J) • (lo 0 + lo 1 + lo 2) - (1 / g.J) • (hi 0 + hi 1 + hi 2) := by
    intro g lo hi x
    funext l
    simp only [plainAt, Pi.add_apply, Pi.sub_apply, Pi.smul_apply, smul_eq_mul]
    ring
  rw [e, e]
  simp only [map_add, map_sub, map_smul]
  rfl

theorem hybrid_move (a : ℝ) (g : Geo) (ph : Fin 3 → Int → Fin 3 → ℝ) (lo hi : Fin 3 → Vec) (x : Vec) :
    hybridAt a (g.move R m) ph (fun d => R.comps (lo d)) (fun d => R.comps (hi d)) (R.comps x) = R.comps (hybridAt a g ph lo hi x) := by
  have e : ∀ (g : Geo) (lo hi : Fin 3 → Vec) x, hybridAt a g ph lo hi x =
      x + (1 / g.J) • ((a - max (ph 0 0 0) (ph 0 (-1) 0) * (2 * a - 1)) • lo 0 + (a - max (ph 1 0 1) (ph 1 (-1) 1) * (2 * a - 1)) • lo 1 +
          (a - max (ph 2 0 2) (ph 2 (-1) 2) * (2 * a - 1)) • lo 2)
        - (1 / g.J) • ((a - max (ph 0 0 0) (ph 0 1 0) * (2 * a - 1)) • hi 0 + (a - max (ph 1 0 1) (ph 1 1 1) * (2 * a - 1)) • hi 1 +
          (a - max (ph 2 0 2) (ph 2 1 2) * (2 * a - 1)) • hi 2) := by
    intro g lo hi x
    funext l
    simp only [hybridAt, Pi.add_apply, Pi.sub_apply, Pi.smul_apply, smul_eq_mul]
    ring
  rw [e, e]
  simp only [map_add, map_sub, map_smul]
  rfl

theorem smag_move (ne : ℕ) (c : Cl rotS) (d : ℕ → V3) (g : Geo) (t : Transport) :
    smagAt ne ((motion R m).cl c) (R.grads d) (g.move R m) t = smagAt ne c d g t := by
  have h : Subgrid.nuSmag ⟨R.grads d 1, R.grads d 2, R.grads d 3, g.J, c.Q 0, c.h.cp⟩ = Subgrid.nuSmag ⟨d 1, d 2, d 3, g.J, c.Q 0, c.h.cp⟩ := by
    unfold Subgrid.nuSmag Subgrid.delta
    rw [Subgrid.magS_turn]
  have e : ∀ D : Subgrid.Data, ∀ nu t n, Subgrid.addSgs ne nu D t n = Subgrid.addSgs ne nu ⟨0, 0, 0, 0, D.rho, D.cp⟩ t n := by
    intro D nu t n
    match n with
    | 0 => rfl
    | 1 => rfl
    | n + 2 => rfl
  unfold smagAt
  simp only []
  rw [show (⟨R.grads d 1, R.grads d 2, R.grads d 3, (g.move R m).J, ((motion R m).cl c).Q 0, ((motion R m).cl c).h.cp⟩ : Subgrid.Data) =
    ⟨R.grads d 1, R.grads d 2, R.grads d 3, g.J, c.Q 0, c.h.cp⟩ from rfl, h]
  simp only [e ⟨R.grads d 1, R.grads d 2, R.grads d 3, g.J, c.Q 0, c.h.cp⟩, e ⟨d 1, d 2, d 3, g.J, c.Q 0, c.h.cp⟩]

theorem diff_move {sd : Diff.Scheme} (h : Diff.IsotropicAt R sd) (ns : ℕ) (d : Fin 3) (L : Int → Cl rotS × Geo × Transport × (ℕ → V3)) :
    diffOn sd ns d (fun t => (down ((motion R m).cl (L t).1), (L t).2.1.move R m, (L t).2.2.1, R.grads (L t).2.2.2)) =
      R.comps (diffOn sd ns d fun t => (down (L t).1, (L t).2)) := by
  unfold diffOn
  rw [← h m]
  congr 1
  unfold Diff.FaceD.turn
  simp only [Geo.move, normal_turn]

/-- the kernels do not care about the motion if the schemes do not -/
theorem Gas.kernel_move {G : Gas} (h1 : Flux.IsotropicAt R G.s1) (h2 : ∀ s ∈ G.s2, Flux.IsotropicAt R s)
    (hd : G.diffusion = true → Diff.IsotropicAt R G.sd) : (motion R m).Kernel (G.moved R m).kernels G.kernels where
  eosC c := G.eos.C_move R m c
  eosP c := G.eos.P_move R m c
  trans c := rfl
  sponge g x := by
    show (match G.sponge.map (Sponge.moved R m) with | none => x | some s => s.apply (g.move R m) x) = (match G.sponge with | none => x | some s => s.apply g x)
    cases G.sponge with
    | none => rfl
    | some s => exact sponge_move R m s g x
  noSw h := h
  sw w hw := ⟨w, hw, fun L => by
    change G.switch.map sensorAt = some w at hw
    cases hk : G.switch with
    | none => rw [hk] at hw; cases hw
    | some k => rw [hk] at hw; cases hw; rfl⟩
  flux1 d L := adv_move R m h1 d L
  flux2 d L := by
    unfold Gas.kernels
    simp only [Gas.moved]
    cases hs : G.s2 with
    | none => exact (map_zero R.comps).symm
    | some s => exact adv_move R m (h2 s hs) d L
  apply1 g ph lo hi x := by
    unfold Gas.kernels
    simp only [Gas.moved]
    cases G.s2 with
    | none => exact plain_move R m g lo hi x
    | some s => exact hybrid_move R m 1 g ph lo hi x
  apply2 g ph lo hi x := by
    unfold Gas.kernels
    simp only [Gas.moved]
    cases G.s2 with
    | none => rfl
    | some s => exact hybrid_move R m 0 g ph lo hi x
  diffusion := rfl
  grad _ L := gradAt_move R m G.fourth (fun d u => (L d u).1.q) (fun d u => (L d u).2)
  sgs _ c d g x := by
    show (if G.smag then smagAt _ _ _ _ _ else _) = id (if G.smag then _ else _)
    split_ifs
    · exact smag_move R m _ c d g x
    · rfl
  fluxD hdif d L := diff_move R m (hd hdif) G.eos.ns d L
  applyD _ g lo hi x := plain_move R m g lo hi x
  chem c x := by
    funext l
    match l with
    | 0 => rfl
    | 1 => rfl
    | 2 => rfl
    | 3 => rfl
    | n + 4 => rfl
  stiff dt c := by
    have hQ : (fun l => if l < 5 then R.comps c.Q l else (G.react dt (scalars c)).2.2 (l - 5)) =
        R.comps fun l => if l < 5 then c.Q l else (G.react dt (scalars c)).2.2 (l - 5) := by
      funext l
      match l with
      | 0 => rfl
      | 1 => rfl
      | 2 => rfl
      | 3 => rfl
      | n + 4 => rfl
    have hq : (fun l => if l < 4 then R.comps c.q l else if l = 4 then (G.react dt (scalars c)).1 else (G.react dt (scalars c)).2.1 (l - 5)) =
        R.comps fun l => if l < 4 then c.q l else if l = 4 then (G.react dt (scalars c)).1 else (G.react dt (scalars c)).2.1 (l - 5) := by
      funext l
      match l with
      | 0 => rfl
      | 1 => rfl
      | 2 => rfl
      | 3 => rfl
      | n + 4 => rfl
    show Cl.mk _ _ _ = Cl.mk _ _ _
    rw [Cl.mk.injEq]
    exact ⟨hQ, hq, rfl⟩

theorem Case.normal_move (C : Case) (n nf : ℕ) (p : Pos) (d : Fin 3) : (C.moved R m).normal n nf p d = R.f (C.normal n nf p d) := by
  unfold Case.normal Case.moved
  simp only [geoOf_move]
  exact normal_turn R _

/-- the moved case has the moved metrics and its boundary conditions give the moved halo cells -/
theorem Case.input_move (C : Case) (e : Eos) : (motion R m).Input ((C.moved R m).input e) (C.input e) where
  geo n p := geoOf_move R m (C.X n) p
  euler n nf t p l k := by
    have hu : ∀ v, BC.rot ((C.moved R m).face n nf).rotUp (R.f v) = R.f (BC.rot (C.face n nf).rotUp v) := fun v => BC.rotUp_turn R _ v _
    have hd : ∀ v, BC.rot ((C.moved R m).face n nf).rotDown (R.f v) = R.f (BC.rot (C.face n nf).rotDown v) := fun v => BC.rotDown_turn R _ v _
    show Case.euler (C.moved R m) e n nf t p (fun u => (motion R m).cl (l u)) k = (motion R m).cl (Case.euler C e n nf t p l k)
    unfold Case.euler
    rw [show (C.moved R m).kind n nf = C.kind n nf from rfl]
    cases C.kind n nf with
    | none => rfl
    | some kind =>
      have hlaw : flat (BC.law kind (bcFace nf) ((C.moved R m).face n nf) ((C.moved R m).normal n nf p (axis nf)) ((C.moved R m).normal n nf p 0)
            ((C.moved R m).val n nf t p) (named ((motion R m).cl (l k))) (named ((motion R m).cl (l 0))) (named ((motion R m).cl (l (-k))))) =
          (motion R m).cl (flat (BC.law kind (bcFace nf) (C.face n nf) (C.normal n nf p (axis nf)) (C.normal n nf p 0) (C.val n nf t p)
            (named (l k)) (named (l 0)) (named (l (-k))))) := by
        rw [Case.normal_move, Case.normal_move, ← flat_turn, ← BC.law_turn R kind (bcFace nf) _ _ hu hd]
        rfl
      simp only [hlaw]
      cases kind
      case constantMassFluxSubsonicInlet =>
        simp only [e.P_move]
        rw [← flat_turn, ← BC.massFluxFix_turn]
        rfl
      case periodicRotHigh => rfl
      case periodicRotLow => rfl
      all_goals exact e.P_move R m _
  pre n nf t p l k := by
    show Case.pre (C.moved R m) n nf t p (fun u => (motion R m).cl (l u)) k = (motion R m).cl (Case.pre C n nf t p l k)
    unfold Case.pre
    rw [show (C.moved R m).kind n nf = C.kind n nf from rfl]
    cases C.kind n nf with
    | none => rfl
    | some kind =>
      simp only []
      rw [← flat_turn, ← BC.preLaw_turn]
      rfl
  post n nf t p l := by
    have hu : ∀ v, BC.rot ((C.moved R m).face n nf).rotUp (R.f v) = R.f (BC.rot (C.face n nf).rotUp v) := fun v => BC.rotUp_turn R _ v _
    have hd : ∀ v, BC.rot ((C.moved R m).face n nf).rotDown (R.f v) = R.f (BC.rot (C.face n nf).rotDown v) := fun v => BC.rotDown_turn R _ v _
    show Case.post (C.moved R m) n nf t p (fun u => ((motion R m).cl (l u).1, R.grads (l u).2)) = R.grads (Case.post C n nf t p l)
    unfold Case.post
    rw [show (C.moved R m).kind n nf = C.kind n nf from rfl]
    cases C.kind n nf with
    | none => rfl
    | some kind => exact BC.postLaw_turn R kind _ _ hu hd _ _

end PG.Whole
