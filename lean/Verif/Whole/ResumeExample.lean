import Verif.Whole.ResumeGas
import Verif.Whole.Example
/-!
C109: a complete case that meets the hypotheses, and the two ways in which resuming is not transparent.
-/
noncomputable section
namespace PG.Whole
open PG.Topo PG.Halo PG.Time

/-! ### a case: the periodic block of C91 with kernels of every kind, moved from rank 0 to rank 1 at the restart -/

/-- steady boundary conditions: periodic in the first direction, elsewhere a mirroring wall -/
def stI : Inp exS where
  geo _ p := p 1 * p 2
  euler _ nf _ p l k := wall nf 1 p l k
  pre _ nf t p l k := wall nf (2 * t) p l k
  post _ nf _ _ l := wallGrad nf l

theorem stI_local : LocalBC 2 stI where
  euler := fun _ nf _ p k l l' h1 h2 h => wall_local nf _ p k l l' h1 h2 h
  pre := fun _ nf _ p k l l' h1 h2 h => wall_local nf _ p k l l' h1 h2 h
  post := exI_local.post

def exP1 : Block := ⟨7, ⟨5, 5, 3⟩, [⟨1, some 7, o123, 1⟩, ⟨2, some 7, o123, 1⟩, ⟨3, none, o123, 0⟩, ⟨4, none, o123, 0⟩,
  ⟨5, none, o123, 0⟩, ⟨6, none, o123, 0⟩]⟩
/-- the same block on the second of two ranks -/
def exW1 : List (List Block) := [[], [exP1]]

theorem ownsP1 (r : Nat) (b : Block) : Owns exW1 r b ↔ r = 1 ∧ b = exP1 := by
  unfold Owns exW1
  rcases r with _ | _ | r <;> simp

theorem legal0 : Legal 2 exW where
  conn := wellP
  thick := by intro r b h; rw [ownsP] at h; obtain ⟨rfl, rfl⟩ := h; refine three ?_ ?_ ?_ <;> decide
  six := by
    intro r b h; rw [ownsP] at h; obtain ⟨rfl, rfl⟩ := h
    intro nf h1 h2
    obtain rfl | rfl | rfl | rfl | rfl | rfl : nf = 1 ∨ nf = 2 ∨ nf = 3 ∨ nf = 4 ∨ nf = 5 ∨ nf = 6 := by omega
    all_goals decide

theorem legal1 : Legal 2 exW1 where
  conn :=
    { uniq := by
        intro r r' b b' h h' _
        rw [ownsP1] at h h'
        rw [h.1, h'.1, h.2, h'.2]; exact ⟨rfl, rfl⟩
      nodup := by decide
      nface_range := by intro r b h; rw [ownsP1] at h; obtain ⟨rfl, rfl⟩ := h; decide
      nface_distinct := by intro r b h; rw [ownsP1] at h; obtain ⟨rfl, rfl⟩ := h; decide
      cells := by intro r b h; rw [ownsP1] at h; obtain ⟨rfl, rfl⟩ := h; decide
      conn := by
        intro r b h f hf nb hnb
        have ho : ∀ f ∈ b.faces, f.ori = o123 ∧ connOk exW1 b f = true := by
          rw [ownsP1] at h; obtain ⟨rfl, rfl⟩ := h; decide
        exact connOk_conn (by rw [(ho f hf).1]; decide) (ho f hf).2 nb hnb }
  thick := by intro r b h; rw [ownsP1] at h; obtain ⟨rfl, rfl⟩ := h; refine three ?_ ?_ ?_ <;> decide
  six := by
    intro r b h; rw [ownsP1] at h; obtain ⟨rfl, rfl⟩ := h
    intro nf h1 h2
    obtain rfl | rfl | rfl | rfl | rfl | rfl : nf = 1 ∨ nf = 2 ∨ nf = 3 ∨ nf = 4 ∨ nf = 5 ∨ nf = 6 := by omega
    all_goals decide

theorem redist01 : Redistributed exW1 exW := by
  constructor <;> constructor <;> intro r b h
  · rw [ownsP1] at h; obtain ⟨rfl, rfl⟩ := h
    exact ⟨0, exP, (ownsP _ _).2 ⟨rfl, rfl⟩, rfl, rfl, by decide⟩
  · rw [ownsP] at h; obtain ⟨rfl, rfl⟩ := h
    exact ⟨1, exP1, (ownsP1 _ _).2 ⟨rfl, rfl⟩, rfl, rfl, by decide⟩

theorem st_fresh {W : List (List Block)} (hW : ∀ r b, Owns W r b → ∀ f ∈ b.faces, f.neighbor = none → ¬ (f.nface = 1 ∨ f.nface = 2)) :
    FreshEuler 2 W stI ∧ FreshPost 2 W stI := by
  constructor
  · intro r b h f hf hn t p l l' k h1 h2 hl
    simp only [stI, wall, if_neg (hW r b h f hf hn)]
    rw [hl (-1 - k) (by omega) (by push_cast at h1 ⊢; omega)]
  · intro r b h f hf hn t p l l' h1 h2
    simp only [stI, wallGrad, if_neg (hW r b h f hf hn)]
    rw [h2 0 (by decide) (by decide)]

theorem st_fresh0 : FreshEuler 2 exW stI ∧ FreshPost 2 exW stI :=
  st_fresh (by intro r b h; rw [ownsP] at h; obtain ⟨rfl, rfl⟩ := h; decide)
theorem st_fresh1 : FreshEuler 2 exW1 stI ∧ FreshPost 2 exW1 stI :=
  st_fresh (by intro r b h; rw [ownsP1] at h; obtain ⟨rfl, rfl⟩ := h; decide)

theorem ex_trips (J : Integrator) (dts : List ℝ) (s : St Entry (Aux exS)) :
    Trips exK exW (run (env exK stI 2 exW) J dts (bootstrap exK stI 2 exW s)).core := by
  intro r b hb p hp
  obtain ⟨x, hx | hx⟩ := run_made (I := stI) (by decide) legal0 exK_Q J dts s hb hp <;> rw [hx]
  · simp only [exK]
    congr 1 <;> funext l <;> ring
  · simp only [exK]
    congr 1 <;> funext l <;> ring

/-- every hypothesis of C109 holds of this case: each integrator, any steps, any contents of the new solver's arrays (but the
    sensor, which is zero), stopped after `d1`, resumed on rank 1, stopped after `d2`, resumed on rank 0 and run over `d3` -/
example (J : Integrator) (d1 d2 d3 : List ℝ) (n1 n2 : St Entry (Aux exS)) (h1 : n1.core.aux.phi = fun _ _ => (0 : ℝ))
    (h2 : n2.core.aux.phi = fun _ _ => (0 : ℝ)) (p : Pos) (hp : InBox 0 exP.dims p) (l : Nat) :
    (launches exK stI 2 J exW (run (env exK stI 2 exW) J d1 (bootstrap exK stI 2 exW (exStart fun _ => 0)))
      [⟨exW1, n1, d2⟩, ⟨exW, n2, d3⟩]).2.core.Q (7, p, l) =
    (run (env exK stI 2 exW) J (d1 ++ (d2 ++ d3)) (bootstrap exK stI 2 exW (exStart fun _ => 0))).core.Q (7, p, l) := by
  have h := C109_restarts_partial (W := exW) (K := exK) (I := stI) (by decide) legal0 exK_local exK_Q stI_local
    (fun _ _ _ _ _ _ _ _ _ => rfl) J (exStart fun _ => 0) d1 [⟨exW1, n1, d2⟩, ⟨exW, n2, d3⟩]
    (by
      intro g hg
      simp only [List.mem_cons, List.not_mem_nil, or_false] at hg
      rcases hg with rfl | rfl
      · exact ⟨legal1, redist01, st_fresh1.1, st_fresh1.2, h1⟩
      · exact ⟨legal0, .refl _, st_fresh0.1, st_fresh0.2, h2⟩)
    (fun n => ex_trips J _ _)
  have := (h.2.2 0 exP ((ownsP _ _).2 ⟨rfl, rfl⟩) p hp l).1
  simp only [List.flatMap_cons, List.flatMap_nil, List.append_nil] at this
  exact this

/-! ### two species of calorically perfect gas at rest in the same block: the run stays physical -/

/-- no fluxes -/
def airK : Kernels (gasS Unit Unit Unit Unit) where
  eosC := cpgC Thermo.exTh
  eosP := cpgP Thermo.exTh
  trans _ := ()
  sponge _ t := t
  sw := none
  flux1 _ _ _ := 0
  flux2 _ _ _ := 0
  apply1 _ _ _ _ x := x
  apply2 _ _ _ _ x := x
  diffusion := false
  grad _ := ()
  sgs _ _ _ t := t
  fluxD _ _ _ := 0
  applyD _ _ _ x := x
  chem _ x := x
  stiff _ c := c
  dtau _ _ _ _ := 0
  invert _ _ _ _ _ y := y

/-- periodic in the first direction, mirror walls elsewhere -/
def airI : Inp (gasS Unit Unit Unit Unit) where
  geo _ _ := ()
  euler _ nf _ _ l k := if nf = 1 ∨ nf = 2 then l k else l (-1 - k)
  pre _ _ _ _ l k := l k
  post _ _ _ _ _ := ()

theorem air_local : LocalBC 2 airI where
  euler := by
    intro n nf t p k l l' h1 h2 h
    simp only [airI]
    rw [h k (by omega) (by push_cast at *; omega), h (-1 - k) (by omega) (by push_cast at *; omega)]
  pre := by
    intro n nf t p k l l' h1 h2 h
    exact h k (by omega) (by push_cast at *; omega)
  post := fun _ _ _ _ _ _ _ _ => rfl

theorem air_fresh {W : List (List Block)} (hW : ∀ r b, Owns W r b → ∀ f ∈ b.faces, f.neighbor = none → ¬ (f.nface = 1 ∨ f.nface = 2)) :
    FreshEuler 2 W airI ∧ FreshPost 2 W airI := by
  refine ⟨?_, fun _ _ _ _ _ _ _ _ _ _ _ _ => rfl⟩
  intro r b h f hf hn t p l l' k h1 h2 hl
  simp only [airI, if_neg (hW r b h f hf hn)]
  exact hl (-1 - k) (by omega) (by push_cast at h1 ⊢; omega)

theorem airTh_ok : Thermo.exTh.Ok := by
  refine ⟨by simp [Thermo.exTh], by norm_num [Thermo.exTh], ?_, ?_⟩ <;> intro n _ <;> simp only [Thermo.exTh] <;> split_ifs <;> norm_num

theorem airK_local : LocalKernels 2 airK := by
  refine ⟨?_, (fun w h => by cases h), fun _ _ _ _ _ => rfl, fun _ _ _ _ _ => rfl, fun _ _ _ _ _ _ _ => rfl, fun _ _ _ _ _ _ _ => rfl,
    fun _ _ _ => rfl, fun _ _ _ _ => rfl, fun _ _ _ _ _ _ => rfl, fun _ _ _ _ _ _ _ _ => rfl⟩
  intro c c' h
  show cpgP _ c = cpgP _ c'
  obtain ⟨h1, h2, h3⟩ := Thermo.cpgPrims_congr (th := Thermo.exTh) (c := named c) (c' := named c') (by
    refine ⟨?_, ?_, ?_, ?_, ?_, fun n _ => ?_⟩ <;> simp only [named, h])
  exact packed_congr h1 h2 h3

/-- the right-hand side is zero -/
theorem air_rhs (t : ℝ) (c : State (gasS Unit Unit Unit Unit)) : (rhs airK airI 2 exW t c).1 = fun _ => 0 := by
  have adv : ∀ b p, advective airK airI c b p = fun _ => 0 := by
    intro b p
    unfold advective
    split <;> rfl
  have per : ∀ (f : Block → Pos → Vec), (∀ b p, f b p = fun _ => 0) → perBlock exW (fun _ _ => fun _ => (0 : ℝ)) f = fun _ _ _ => 0 := by
    intro f hf
    funext n p l
    unfold perBlock
    cases owner exW n with
    | none => rfl
    | some rb => exact congrFun (hf rb.2 p) l
  have e1 : perBlock exW (fun _ _ => (0 : Vec)) (advective airK airI c) = fun _ _ _ => 0 := per _ adv
  have e2 : (rhs airK airI 2 exW t c).1 = fun i => perBlock exW (perBlock exW (fun _ _ => (0 : Vec)) (advective airK airI c))
      (fun b p => if InBox 0 b.dims p then perBlock exW (fun _ _ => (0 : Vec)) (advective airK airI c) b.nblki p else
        perBlock exW (fun _ _ => (0 : Vec)) (advective airK airI c) b.nblki p) i.1 i.2.1 i.2.2 := rfl
  rw [e2, e1]
  funext i
  rw [per _ (fun b p => by split <;> rfl)]

/-- room air: 101325 Pa, 300 K, mass fractions 0.7 and 0.3 -/
def airStart : St Entry (Aux (gasS Unit Unit Unit Unit)) where
  core := ⟨fun _ => 0, fun i => Flux.mk5 101325 0 0 0 300 (fun _ => 0.7) i.2.2, ⟨fun _ _ => ⟨0, 0, 0, 0, 0, fun _ => 0⟩, fun _ _ => (), fun _ _ => (), fun _ _ => ()⟩⟩
  Q0 := fun _ => 0
  Q1 := fun _ => 0
  Q2 := fun _ => 0
  Q3 := fun _ => 0
  Qn := fun _ => 0
  Qnm1 := fun _ => 0
  dtau := fun _ => 0
  dQ := fun _ => 0
  nrt := 0
  tme := 0
  titme := 0

/-- the cell everywhere in the room -/
def airCell : Cl (gasS Unit Unit Unit Unit) := cpgC Thermo.exTh (cpgP Thermo.exTh ⟨fun _ => 0, Flux.mk5 101325 0 0 0 300 (fun _ => 0.7), ⟨0, 0, 0, 0, 0, fun _ => 0⟩⟩)

theorem air_physical : Physical 2 airCell ∧ cpgC Thermo.exTh airCell = airCell := by
  set g : Cl (gasS Unit Unit Unit Unit) := ⟨fun _ => 0, Flux.mk5 101325 0 0 0 300 (fun _ => 0.7), ⟨0, 0, 0, 0, 0, fun _ => 0⟩⟩ with hg
  have hok : (named g).q.Ok 2 := ⟨by show (0 : ℝ) < 101325; norm_num, by show (0 : ℝ) < 300; norm_num,
    fun n _ => by show (0 : ℝ) ≤ 0.7; norm_num, by show ∑ n ∈ Finset.range 1, (0.7 : ℝ) ≤ 1; norm_num⟩
  obtain ⟨j1, j2, j3⟩ := Thermo.C22_prims_cons_prims airTh_ok (named g) hok
  have hc : airCell = packed 2 (Thermo.cpgCons Thermo.exTh (Thermo.cpgPrims Thermo.exTh (named g))) := by
    unfold airCell
    exact cpgC_of (named_packed 2 (Thermo.cpgPrims Thermo.exTh (named g))).2
  have hr : 0 < (Thermo.cpgPrims Thermo.exTh (named g)).Q.rho := by
    have := Thermo.Rmix_pos airTh_ok.Ru airTh_ok.MW (Thermo.prims_simplex airTh_ok (named g))
    show (0 : ℝ) < 101325 / (_ * 300)
    positivity
  refine ⟨⟨?_, ?_⟩, ?_⟩
  · rw [hc]; exact hr
  · rw [hc]
    obtain ⟨a1, a2, a3, a4, a5, a6⟩ := (named_packed (T := Unit) (P := Unit) (D := Unit) (G := Unit) 2
      (Thermo.cpgCons Thermo.exTh (Thermo.cpgPrims Thermo.exTh (named g)))).1
    obtain ⟨b1, b2, b3, b4, b5, b6⟩ := j1
    refine ⟨by rw [a1, b1]; exact hok.p, by rw [a5, b5]; exact hok.T, fun n hn => ?_, ?_⟩
    · rw [a6 n hn, b6 n hn]; exact hok.Y.1 n hn
    · rw [Finset.sum_congr rfl fun n hn => (a6 n (Finset.mem_range.1 hn)).trans (b6 n (Finset.mem_range.1 hn))]; exact hok.Y.2
  · rw [hc]
    rw [cpgC_of (named_packed 2 (Thermo.cpgCons Thermo.exTh (Thermo.cpgPrims Thermo.exTh (named g)))).2]
    obtain ⟨k1, k2, k3⟩ := Thermo.cpgCons_cpgCons airTh_ok (Thermo.cpgPrims Thermo.exTh (named g)) hr
    exact packed_congr k1 k2 k3

theorem air_still (dts : List ℝ) {r : Nat} {b : Block} (hb : Owns exW r b) {p : Pos} (hp : InBox 0 b.dims p) :
    cell (run (env airK airI 2 exW) .rk1 dts (bootstrap airK airI 2 exW airStart)).core b.nblki p = airCell := by
  have hQ := cpg_fromQ Thermo.exTh airK rfl
  induction dts using List.reverseRecOn with
  | nil =>
    have hc : (run (env airK airI 2 exW) .rk1 [] (bootstrap airK airI 2 exW airStart)).core = consistify airK airI 2 exW 0
        (setCells airStart.core (perBlock exW (cell airStart.core) fun b p => airK.eosP (cell airStart.core b.nblki p))) := rfl
    rw [hc, consistify_inside (by decide) legal0 hQ _ _ hb hp, cell_setCells, perBlock_eq legal0.conn hb]
    rfl
  | append_singleton ds d ih =>
    rw [run_append]
    generalize run (env airK airI 2 exW) .rk1 ds (bootstrap airK airI 2 exW airStart) = a at ih ⊢
    have hc : (run (env airK airI 2 exW) .rk1 [d] a).core = consistify airK airI 2 exW a.tme
        { a.core with Q := fun i => a.core.Q i + d * (rhs airK airI 2 exW a.tme a.core).1 i } := rfl
    rw [hc, air_rhs, consistify_inside (by decide) legal0 hQ _ _ hb hp]
    have e : airK.eosC (cell ({ a.core with Q := fun i => a.core.Q i + d * (fun _ => (0 : ℝ)) i } : State (gasS Unit Unit Unit Unit)) b.nblki p) =
        airK.eosC (cell a.core b.nblki p) := hQ _ _ (by funext l; show a.core.Q _ + d * 0 = a.core.Q _; ring)
    rw [e, ih]
    exact air_physical.2

/-- every hypothesis of `C109_cpg_partial` holds of this case -/
example (d1 d2 : List ℝ) (n1 : St Entry (Aux (gasS Unit Unit Unit Unit))) (p : Pos) (hp : InBox 0 exP1.dims p) (l : Nat) :
    (launches airK airI 2 .rk1 exW (run (env airK airI 2 exW) .rk1 d1 (bootstrap airK airI 2 exW airStart)) [⟨exW1, n1, d2⟩]).2.core.q (7, p, l) =
    (run (env airK airI 2 exW) .rk1 (d1 ++ (d2 ++ [])) (bootstrap airK airI 2 exW airStart)).core.q (7, p, l) :=
  ((C109_cpg_partial (W := exW) (K := airK) (I := airI) (by decide) airTh_ok rfl rfl legal0 airK_local air_local
    (fun _ _ _ _ _ _ _ _ _ => rfl) .rk1 airStart d1 [⟨exW1, n1, d2⟩]
    (by
      intro g hg
      simp only [List.mem_cons, List.not_mem_nil, or_false] at hg
      subst hg
      obtain ⟨f1, f2⟩ := air_fresh (W := exW1) (by intro r b h; rw [ownsP1] at h; obtain ⟨rfl, rfl⟩ := h; decide)
      exact ⟨legal1, redist01, f1, f2, rfl⟩)
    (fun n r b hb p hp => by rw [air_still _ hb hp]; exact air_physical.1)).2.2 1 exP1 ((ownsP1 _ _).2 ⟨rfl, rfl⟩) p hp l).2

/-! ### a boundary condition that depends on time -/

abbrev oneS : Sig := ⟨Unit, Unit, Unit, Unit, Unit⟩

/-- one cell, six boundary faces -/
def oneB : Block := ⟨0, ⟨2, 2, 2⟩, [⟨1, none, o123, 0⟩, ⟨2, none, o123, 0⟩, ⟨3, none, o123, 0⟩, ⟨4, none, o123, 0⟩,
  ⟨5, none, o123, 0⟩, ⟨6, none, o123, 0⟩]⟩
def oneW : List (List Block) := [[oneB]]

/-- the primitive variables are the conserved ones; what the low face in the first direction holds flows in -/
def oneK : Kernels oneS where
  eosC c := ⟨c.Q, c.Q, ()⟩
  eosP c := ⟨c.q, c.q, ()⟩
  trans _ := ()
  sponge _ t := t
  sw := none
  flux1 _ l := (l (-1)).1.Q
  flux2 _ _ _ := 0
  apply1 _ _ lo _ x := fun k => x k + lo 0 k
  apply2 _ _ _ _ x := x
  diffusion := false
  grad _ := ()
  sgs _ _ _ t := t
  fluxD _ _ _ := 0
  applyD _ _ _ x := x
  chem _ x := x
  stiff _ c := c
  dtau _ _ _ _ := 0
  invert _ _ _ _ _ y := y

/-- an inlet at face 1 that supplies the value of the time (as cubicSplineSubsonicInlet, bcs/inlets.cpp, follows its spline in
    `titme`), walls elsewhere -/
def oneI : Inp oneS where
  geo _ _ := ()
  euler _ nf t _ l k := if nf = 1 then ⟨fun _ => t, fun _ => t, ()⟩ else l (-1 - k)
  pre _ _ _ _ l k := l k
  post _ _ _ _ _ := ()

theorem ownsOne (r : Nat) (b : Block) : Owns oneW r b ↔ r = 0 ∧ b = oneB := by
  unfold Owns oneW
  rcases r with _ | r <;> simp

theorem legalOne : Legal 1 oneW where
  conn :=
    { uniq := by
        intro r r' b b' h h' _
        rw [ownsOne] at h h'
        rw [h.1, h'.1, h.2, h'.2]; exact ⟨rfl, rfl⟩
      nodup := by decide
      nface_range := by intro r b h; rw [ownsOne] at h; obtain ⟨rfl, rfl⟩ := h; decide
      nface_distinct := by intro r b h; rw [ownsOne] at h; obtain ⟨rfl, rfl⟩ := h; decide
      cells := by intro r b h; rw [ownsOne] at h; obtain ⟨rfl, rfl⟩ := h; decide
      conn := by
        intro r b h f hf nb hnb
        have ho : ∀ f ∈ b.faces, f.ori = o123 ∧ connOk oneW b f = true := by
          rw [ownsOne] at h; obtain ⟨rfl, rfl⟩ := h; decide
        exact connOk_conn (by rw [(ho f hf).1]; decide) (ho f hf).2 nb hnb }
  thick := by intro r b h; rw [ownsOne] at h; obtain ⟨rfl, rfl⟩ := h; refine three ?_ ?_ ?_ <;> decide
  six := by
    intro r b h; rw [ownsOne] at h; obtain ⟨rfl, rfl⟩ := h
    intro nf h1 h2
    obtain rfl | rfl | rfl | rfl | rfl | rfl : nf = 1 ∨ nf = 2 ∨ nf = 3 ∨ nf = 4 ∨ nf = 5 ∨ nf = 6 := by omega
    all_goals decide

/-- the cell and the halo cell before it -/
def here : Pos := fun _ => 0
def before : Pos := shift here 0 (-1)

theorem one_fromQ : EosFromQ oneK := by intro c c' h; change Cl.mk _ _ _ = Cl.mk _ _ _; rw [h]

theorem ownOne : Owns oneW 0 oneB := (ownsOne _ _).2 ⟨rfl, rfl⟩

theorem one_inside (t : ℝ) (c : State oneS) : cell (consistify oneK oneI 1 oneW t c) 0 here = oneK.eosC (cell c 0 here) :=
  consistify_inside (b := oneB) (by decide) legalOne one_fromQ t c ownOne (by decide)

theorem one_before (t : ℝ) (c : State oneS) : (cell (consistify oneK oneI 1 oneW t c) 0 before).Q = fun _ => t := by
  have e : cell (consistify oneK oneI 1 oneW t c) = perBlock oneW
      (cell ({ c with Q := fun i => exch .ccAll 1 oneW (fun n p l => c.Q (n, p, l)) i.1 i.2.1 i.2.2 } : State oneS))
      (fun b => bcAll 1 b (fun nf => oneI.euler b.nblki nf t)
        (fun p => oneK.eosC (cell ({ c with Q := fun i => exch .ccAll 1 oneW (fun n p l => c.Q (n, p, l)) i.1 i.2.1 i.2.2 } : State oneS) b.nblki p))) := rfl
  rw [e]
  have := perBlock_eq (A := (cell ({ c with Q := fun i => exch .ccAll 1 oneW (fun n p l => c.Q (n, p, l)) i.1 i.2.1 i.2.2 } : State oneS)))
    (f := (fun b => bcAll 1 b (fun nf => oneI.euler b.nblki nf t)
        (fun p => oneK.eosC (cell ({ c with Q := fun i => exch .ccAll 1 oneW (fun n p l => c.Q (n, p, l)) i.1 i.2.1 i.2.2 } : State oneS) b.nblki p)))) legalOne.conn ownOne
  rw [show (0 : Nat) = oneB.nblki from rfl, this]
  generalize (fun p => oneK.eosC (cell ({ c with Q := fun i => exch .ccAll 1 oneW (fun n p l => c.Q (n, p, l)) i.1 i.2.1 i.2.2 } : State oneS) oneB.nblki p)) = A
  have hf : (⟨1, none, o123, 0⟩ : Face) ∈ oneB.faces := by decide
  rw [bc_halo (n := 1) legalOne.conn ownOne (by decide) (fc := ⟨1, none, o123, 0⟩) hf (by
    refine ⟨by decide, by decide, ?_⟩; decide) (fun _ _ _ => rfl)]
  rfl

theorem one_rhs (t : ℝ) (c : State oneS) (l : Nat) : (rhs oneK oneI 1 oneW t c).1 (0, here, l) = c.Q (0, before, l) ∧
    (rhs oneK oneI 1 oneW t c).2 = c := by
  refine ⟨?_, rfl⟩
  have hp : InBox 0 oneB.dims here := by decide
  have e3 : ∀ A : Nat → Pos → Vec, perBlock oneW A (fun b p => if InBox 0 b.dims p then oneK.chem (cell c b.nblki p) (A b.nblki p) else A b.nblki p)
      oneB.nblki here = A 0 here := by
    intro A
    rw [perBlock_eq legalOne.conn ownOne, if_pos hp]
    rfl
  show perBlock (β := Pos → Vec) oneW (perBlock oneW (fun _ _ => 0) (advective oneK oneI c)) (fun b p => if InBox 0 b.dims p then
    oneK.chem (cell c b.nblki p) (perBlock oneW (fun _ _ => 0) (advective oneK oneI c) b.nblki p) else
      perBlock oneW (fun _ _ => 0) (advective oneK oneI c) b.nblki p) oneB.nblki here l = _
  rw [e3, show (0 : Nat) = oneB.nblki from rfl, perBlock_eq legalOne.conn ownOne]
  unfold advective
  rw [if_pos hp]
  show (0 : ℝ) + _ = _
  rw [zero_add]
  rfl

/-- one step of rk1 in this case: the cell gains what the halo held, the halo takes the time at which the step began -/
theorem one_step (dt : ℝ) (s : St Entry (Aux oneS)) (l : Nat) :
    (step (env oneK oneI 1 oneW) .rk1 dt s).core.Q (0, here, l) = s.core.Q (0, here, l) + dt * s.core.Q (0, before, l) ∧
    (step (env oneK oneI 1 oneW) .rk1 dt s).core.q (0, here, l) = s.core.Q (0, here, l) + dt * s.core.Q (0, before, l) ∧
    (step (env oneK oneI 1 oneW) .rk1 dt s).core.Q (0, before, l) = s.tme ∧
    (step (env oneK oneI 1 oneW) .rk1 dt s).tme = s.tme + dt := by
  have hc : (step (env oneK oneI 1 oneW) .rk1 dt s).core = consistify oneK oneI 1 oneW s.tme
      { (rhs oneK oneI 1 oneW s.tme s.core).2 with
        Q := fun i => (rhs oneK oneI 1 oneW s.tme s.core).2.Q i + dt * (rhs oneK oneI 1 oneW s.tme s.core).1 i } := rfl
  have h1 := one_inside s.tme { (rhs oneK oneI 1 oneW s.tme s.core).2 with
        Q := fun i => (rhs oneK oneI 1 oneW s.tme s.core).2.Q i + dt * (rhs oneK oneI 1 oneW s.tme s.core).1 i }
  have h2 := one_before s.tme { (rhs oneK oneI 1 oneW s.tme s.core).2 with
        Q := fun i => (rhs oneK oneI 1 oneW s.tme s.core).2.Q i + dt * (rhs oneK oneI 1 oneW s.tme s.core).1 i }
  rw [← hc] at h1 h2
  refine ⟨?_, ?_, congrFun h2 l, rfl⟩
  · have := congrFun (congrArg Cl.Q h1) l
    refine this.trans ?_
    show (rhs oneK oneI 1 oneW s.tme s.core).2.Q _ + dt * (rhs oneK oneI 1 oneW s.tme s.core).1 _ = _
    rw [(one_rhs _ _ _).1, (one_rhs _ _ l).2]
  · have := congrFun (congrArg Cl.q h1) l
    refine this.trans ?_
    show (rhs oneK oneI 1 oneW s.tme s.core).2.Q _ + dt * (rhs oneK oneI 1 oneW s.tme s.core).1 _ = _
    rw [(one_rhs _ _ _).1, (one_rhs _ _ l).2]

/-- a solver just created: arrays and clocks zero (solverBlock.py:60-214, solver.py:33-38) -/
def oneNew : St Entry (Aux oneS) where
  core := ⟨fun _ => 0, fun _ => 0, ⟨fun _ _ => (), fun _ _ => (), fun _ _ => (), fun _ _ => ()⟩⟩
  Q0 := fun _ => 0
  Q1 := fun _ => 0
  Q2 := fun _ => 0
  Q3 := fun _ => 0
  Qn := fun _ => 0
  Qnm1 := fun _ => 0
  dtau := fun _ => 0
  dQ := fun _ => 0
  nrt := 0
  tme := 0
  titme := 0

theorem one_boot (l : Nat) : (bootstrap oneK oneI 1 oneW oneNew).core.Q (0, here, l) = 0 ∧
    (bootstrap oneK oneI 1 oneW oneNew).core.Q (0, before, l) = 0 ∧ (bootstrap oneK oneI 1 oneW oneNew).tme = 0 := by
  have hc : (bootstrap oneK oneI 1 oneW oneNew).core = consistify oneK oneI 1 oneW 0
      (setCells oneNew.core (perBlock oneW (cell oneNew.core) fun b p => oneK.eosP (cell oneNew.core b.nblki p))) := rfl
  have h1 := one_inside 0 (setCells oneNew.core (perBlock oneW (cell oneNew.core) fun b p => oneK.eosP (cell oneNew.core b.nblki p)))
  have h2 := one_before 0 (setCells oneNew.core (perBlock oneW (cell oneNew.core) fun b p => oneK.eosP (cell oneNew.core b.nblki p)))
  rw [← hc] at h1 h2
  refine ⟨?_, congrFun h2 l, rfl⟩
  refine (congrFun (congrArg Cl.Q h1) l).trans ?_
  rw [cell_setCells, show (0 : Nat) = oneB.nblki from rfl, perBlock_eq legalOne.conn ownOne]
  rfl

/-- what the resumed solver holds -/
theorem one_resume (f : Saved) (l : Nat) : (resume oneK oneI 1 oneW f oneNew).core.Q (0, here, l) = (f.q (0, here, l)).getD 0 ∧
    (resume oneK oneI 1 oneW f oneNew).core.Q (0, before, l) = 0 ∧ (resume oneK oneI 1 oneW f oneNew).tme = f.tme := by
  have hc : (resume oneK oneI 1 oneW f oneNew).core = consistify oneK oneI 1 oneW 0
      (setCells (load f oneNew).core (perBlock oneW (cell (load f oneNew).core) fun b p => oneK.eosP (cell (load f oneNew).core b.nblki p))) := by
    unfold resume initDualTime
    split <;> rfl
  have h1 := one_inside 0 (setCells (load f oneNew).core (perBlock oneW (cell (load f oneNew).core) fun b p => oneK.eosP (cell (load f oneNew).core b.nblki p)))
  have h2 := one_before 0 (setCells (load f oneNew).core (perBlock oneW (cell (load f oneNew).core) fun b p => oneK.eosP (cell (load f oneNew).core b.nblki p)))
  rw [← hc] at h1 h2
  refine ⟨?_, congrFun h2 l, ?_⟩
  · refine (congrFun (congrArg Cl.Q h1) l).trans ?_
    rw [cell_setCells, show (0 : Nat) = oneB.nblki from rfl, perBlock_eq legalOne.conn ownOne]
    rfl
  · unfold resume initDualTime
    split <;> rfl

/-- C109 finding: the time of the current stage is not part of a restart, and the solver converts the restart with boundary
    conditions at stage time 0. With an inlet that follows the time (all other hypotheses of C109 hold), three steps give 1 in
    the cell, two steps, a restart and one step give 0. -/
theorem C109_inlet_time_violated (l : Nat) :
    (run (env oneK oneI 1 oneW) .rk1 [1, 1, 1] (bootstrap oneK oneI 1 oneW oneNew)).core.Q (0, here, l) = 1 ∧
    (launches oneK oneI 1 .rk1 oneW (run (env oneK oneI 1 oneW) .rk1 [1, 1] (bootstrap oneK oneI 1 oneW oneNew))
      [⟨oneW, oneNew, [1]⟩]).2.core.Q (0, here, l) = 0 := by
  obtain ⟨b1, b2, b3⟩ := one_boot l
  set s0 := bootstrap oneK oneI 1 oneW oneNew
  obtain ⟨s1Q, -, s1h, s1t⟩ := one_step 1 s0 l
  set s1 := step (env oneK oneI 1 oneW) .rk1 1 s0 with hs1
  obtain ⟨s2Q, s2q, s2h, s2t⟩ := one_step 1 s1 l
  set s2 := step (env oneK oneI 1 oneW) .rk1 1 s1 with hs2
  obtain ⟨s3Q, -, -, -⟩ := one_step 1 s2 l
  constructor
  · show (step (env oneK oneI 1 oneW) .rk1 1 s2).core.Q _ = 1
    rw [s3Q, s2Q, s2h, s1Q, s1h, s1t, b1, b2, b3]; norm_num
  · show (step (env oneK oneI 1 oneW) .rk1 1 (resume oneK oneI 1 oneW (save (env oneK oneI 1 oneW) s2) oneNew)).core.Q _ = 0
    obtain ⟨r1, r2, -⟩ := one_resume (save (env oneK oneI 1 oneW) s2) l
    rw [(one_step 1 _ l).1, r1, r2]
    have hin : (env oneK oneI 1 oneW).inner (0, here, l) = true := by
      have := inner_in (K := oneK) (I := oneI) (ng := 1) legalOne.conn ownOne (p := here) (l := l)
      exact this.trans (by decide)
    show ((if (env oneK oneI 1 oneW).inner (0, here, l) then some (s2.core.q (0, here, l)) else none).getD 0) + _ = _
    rw [hin]
    show s2.core.q (0, here, l) + _ = _
    rw [s2q, s1Q, s1h, b1, b2, b3]; norm_num

/-! ### primitives that do not determine the conserved state -/

theorem half_back {T P D G : Type} {th : Thermo.Th} (h3 : th.ns = 3) (ht : th.Ok) (g : Thermo.Cell) (hY : g.q.Y 0 = 1 ∧ g.q.Y 1 = 1)
    (hp : 0 < g.q.p) (hT : 0 < g.q.T) :
    (packed th.ns (Thermo.cpgCons th (named (packed th.ns (Thermo.cpgPrims th g) : Cl (gasS T P D G)))) : Cl (gasS T P D G)).q 5 = 1 / 2 := by
  have hs := Thermo.prims_simplex ht g
  have hR := Thermo.Rmix_pos ht.Ru ht.MW hs
  have hr : 0 < (Thermo.cpgPrims th g).Q.rho := by
    show 0 < g.q.p / (Thermo.Rmix th _ * g.q.T)
    positivity
  set Q := (named (packed th.ns (Thermo.cpgPrims th g) : Cl (gasS T P D G))).Q with hQd
  obtain ⟨k1, -, -, -, -, k6⟩ := (named_packed (T := T) (P := P) (D := D) (G := G) th.ns (Thermo.cpgPrims th g)).2
  have e0 : Thermo.clipY 3 g.q.Y 0 = 1 := by simp [Thermo.clipY, hY.1]
  have e1 : Thermo.clipY 3 g.q.Y 1 = 1 := by simp [Thermo.clipY, hY.2]
  have es : Thermo.testSum 3 (Thermo.clipY 3 g.q.Y) = 2 := by simp [Thermo.testSum, Finset.sum_range_succ, e0, e1]; norm_num
  have hq : ∀ n, n = 0 ∨ n = 1 → Thermo.consY 3 Q n = 1 / 2 := by
    intro n hn
    have hn2 : n < th.ns - 1 := by omega
    have h1 : Q.rhoY n = 1 / 2 * Q.rho := by
      rw [k6 n hn2, k1]
      have : (Thermo.cpgPrims th g).Q.rhoY n = Thermo.localY 3 (Thermo.clipY 3 g.q.Y) n * (Thermo.cpgPrims th g).Q.rho := by
        simp only [Thermo.cpgPrims]
        rw [if_pos hn2, h3]
      rw [this]
      congr 1
      rcases hn with rfl | rfl
      · simp [Thermo.localY, es, e0]
      · simp [Thermo.localY, es, e1]
    have hr' : 0 < Q.rho := by rw [k1]; exact hr
    unfold Thermo.consY Thermo.clipRhoY
    rw [if_pos (by omega), h1, min_eq_left (by linarith), max_eq_left (by linarith)]
    field_simp
  show stored th.ns (Thermo.cpgCons th (named (packed th.ns (Thermo.cpgPrims th g) : Cl (gasS T P D G)))).q.Y 0 = _
  unfold stored
  rw [if_pos (by omega)]
  show (if 0 < th.ns - 1 then Thermo.localY th.ns (Thermo.consY th.ns Q) 0 else _) = _
  rw [if_pos (by omega), h3]
  have et : Thermo.testSum 3 (Thermo.consY 3 Q) = 1 := by
    simp [Thermo.testSum, Finset.sum_range_succ, hq 0 (Or.inl rfl), hq 1 (Or.inr rfl)]; norm_num
  simp [Thermo.localY, et, hq 0 (Or.inl rfl)]

/-- C109 finding: with three species, a cell whose stored mass fractions are 1 and 1 (a dual time run can leave that, C23: the
    conversion from primitives rescales the fractions it uses but not those it stores) does not come back from its own restart:
    the resumed solver holds 1/2. -/
theorem C109_round_trip_violated {T P D G : Type} {ng : Nat} {W : List (List Block)} {K : Kernels (gasS T P D G)} {I : Inp (gasS T P D G)}
    (hng : 0 < ng) (h : Legal ng W) {th : Thermo.Th} (h3 : th.ns = 3) (ht : th.Ok) (hC : K.eosC = cpgC th) (hP : K.eosP = cpgP th)
    (a new : St Entry (Aux (gasS T P D G))) {r : Nat} {b : Block} (hb : Owns W r b) {p : Pos} (hp : InBox 0 b.dims p)
    (hpT : 0 < a.core.q (b.nblki, p, 0) ∧ 0 < a.core.q (b.nblki, p, 4))
    (hY : a.core.q (b.nblki, p, 5) = 1 ∧ a.core.q (b.nblki, p, 6) = 1) :
    (resume K I ng W (save (env K I ng W) a) new).core.q (b.nblki, p, 5) = 1 / 2 := by
  have hQ := cpg_fromQ th K hC
  have hc : (resume K I ng W (save (env K I ng W) a) new).core = consistify K I ng W (load (save (env K I ng W) a) new).titme
      (setCells (load (save (env K I ng W) a) new).core (perBlock W (cell (load (save (env K I ng W) a) new).core)
        fun b p => K.eosP (cell (load (save (env K I ng W) a) new).core b.nblki p))) := by
    unfold resume initDualTime
    split <;> rfl
  have e := consistify_inside (I := I) hng h hQ (load (save (env K I ng W) a) new).titme
      (setCells (load (save (env K I ng W) a) new).core (perBlock W (cell (load (save (env K I ng W) a) new).core)
        fun b p => K.eosP (cell (load (save (env K I ng W) a) new).core b.nblki p))) hb hp
  rw [← hc, cell_setCells, perBlock_eq h.conn hb, hC, hP] at e
  have hq : ∀ l, (load (save (env K I ng W) a) new).core.q (b.nblki, p, l) = a.core.q (b.nblki, p, l) := fun l =>
    (load_cell (K := K) (I := I) h h (.refl W) a new hb hp l).1
  set c := cell (load (save (env K I ng W) a) new).core b.nblki p with hcd
  have e5 := congrFun (congrArg Cl.q e) 5
  refine e5.trans ?_
  have g0 : (named c).q.Y 0 = 1 := (hq 5).trans hY.1
  have g1 : (named c).q.Y 1 = 1 := (hq 6).trans hY.2
  have gp : 0 < (named c).q.p := by show 0 < (load (save (env K I ng W) a) new).core.q (b.nblki, p, 0); rw [hq]; exact hpT.1
  have gT : 0 < (named c).q.T := by show 0 < (load (save (env K I ng W) a) new).core.q (b.nblki, p, 4); rw [hq]; exact hpT.2
  exact half_back h3 ht (named c) ⟨g0, g1⟩ gp gT

end PG.Whole
