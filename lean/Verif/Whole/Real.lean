import Verif.Whole.ConsProps
import Verif.Whole.ConsUnify
import Verif.Whole.ConsFace
import Verif.Config.Stencil
import Verif.Diff.Props
/-!
C93 for the flux kernels of the code: the whole solver with the advective schemes of Flux/Model.lean (alone or blended), the
diffusive fluxes of Diff/Model.lean, the metrics of Mesh/Model.lean and the application of fluxes of applyFluxes.cpp.
-/
noncomputable section
namespace PG.Whole
open PG.Topo PG.Halo PG.Time PG.Mesh PG.Flux V3

/-- what the fluxes read from qh: `qh(3)` speed of sound, `qh(4)` internal energy, `qh(5+n)` species enthalpies -/
structure Thermo where
  c : ℝ
  rhoe : ℝ
  h : Nat → ℝ

/-- qt: viscosity, conductivity, species diffusivities -/
structure Transport where
  mu : ℝ
  kappa : ℝ
  D : Nat → ℝ

/-- the arrays of a block (solverBlock.py:60-214): qh, qt, phi with one component per direction, gradients of every primitive
    variable, metrics -/
abbrev blockS : Sig := ⟨Thermo, Transport, Fin 3 → ℝ, Nat → V3, Geo⟩

/-- what advective kernels read of a cell -/
def flowCell (c : Cl blockS) : Cell :=
  ⟨c.q 0, c.q 1, c.q 2, c.q 3, fun n => c.q (5 + n), c.Q 0, c.Q 1, c.Q 2, c.Q 3, c.Q 4, fun n => c.Q (5 + n), c.h.c, c.h.rhoe⟩

/-- what diffusive kernels read of a cell -/
def diffCell (c : Cl blockS) (g : V3) (t : Transport) (d : Nat → V3) : Diff.DCell :=
  ⟨c.q, d, t.mu, t.kappa, t.D, c.h.h, c.Q 0, g⟩

/-- an advective scheme on the line of cells through a face (loops of advFlux/*.cpp, e.g. fourthOrderKEEP.cpp:11-40) -/
def advOn (sch : Flux.Scheme) (d : Fin 3) (L : Int → Cl blockS × Geo × (Fin 3 → ℝ)) : Vec :=
  sch (flowCell (L (-2)).1) (flowCell (L (-1)).1) (flowCell (L 0).1) (flowCell (L 1).1) (faceOf ((L 0).2.1.s d))

/-- a diffusive scheme on the two cells at a face (diffusiveFlux.cpp:10-153, alphaDampingFlux.cpp:16-225) -/
def diffOn (sch : Diff.Scheme) (ns : Nat) (d : Fin 3) (L : Int → Cl blockS × Geo × Transport × (Nat → V3)) : Vec :=
  sch.flux ns ⟨(L 0).2.1.s d, normal ((L 0).2.1.s d), (L 0).2.1.xf d⟩
    (diffCell (L (-1)).1 (L (-1)).2.1.xc (L (-1)).2.2.1 (L (-1)).2.2.2) (diffCell (L 0).1 (L 0).2.1.xc (L 0).2.2.1 (L 0).2.2.2)

/-- applyFlux (applyFluxes.cpp:6-25) for one cell -/
def plainAt (g : Geo) (lo hi : Fin 3 → Vec) (x : Vec) : Vec := fun l =>
  x l + (lo 0 l + lo 1 l + lo 2 l) / g.J - (hi 0 l + hi 1 l + hi 2 l) / g.J

/-- applyHybridFlux (applyFluxes.cpp:27-62) for one cell -/
def hybridAt (primary : ℝ) (g : Geo) (phi : Fin 3 → Int → Fin 3 → ℝ) (lo hi : Fin 3 → Vec) (x : Vec) : Vec := fun l =>
  let wl (d : Fin 3) := primary - max (phi d 0 d) (phi d (-1) d) * (2 * primary - 1)
  let wh (d : Fin 3) := primary - max (phi d 0 d) (phi d 1 d) * (2 * primary - 1)
  x l + (lo 0 l * wl 0 + lo 1 l * wl 1 + lo 2 l * wl 2) / g.J - (hi 0 l * wh 0 + hi 1 l * wh 1 + hi 2 l * wh 2) / g.J

/-- these are the loop bodies of FV/Model.lean -/
theorem plainAt_is (b : FV.Dims) (J : FV.A3) (F : FV.Fluxes) (dQ : FV.A4) {i j k l : Nat} (h : FV.InRange b i j k l) (g : Geo)
    (hg : g.J = J i j k) :
    FV.applyFlux b J F dQ i j k l = plainAt g (fun d => if d = 0 then F.iF i j k else if d = 1 then F.jF i j k else F.kF i j k)
      (fun d => if d = 0 then F.iF (i+1) j k else if d = 1 then F.jF i (j+1) k else F.kF i j (k+1)) (dQ i j k) l := by
  simp [FV.applyFlux, h, plainAt, hg]

/-- the kernels of a solver: `base` with advective scheme `s1`, blended with `s2` if given (setRHS, multiBlock/__init__.py:
    `None` secondary: applyFlux and null functions; a scheme: applyHybridFlux), and a diffusive scheme -/
def solver (base : Kernels blockS) (s1 : Flux.Scheme) (s2 : Option Flux.Scheme) (sd : Diff.Scheme) (ns : Nat) : Kernels blockS :=
  { base with
    flux1 := advOn s1
    flux2 := match s2 with
      | none => fun _ _ _ => 0
      | some s => advOn s
    apply1 := match s2 with
      | none => fun g _ => plainAt g
      | some _ => hybridAt 1
    apply2 := match s2 with
      | none => fun _ _ _ _ x => x
      | some _ => hybridAt 0
    fluxD := diffOn sd ns
    applyD := plainAt }

/-- the scheme fits the halo depth: it reads two cells on each side, or one -/
def Reaches (ng : Nat) (s : Flux.Scheme) : Prop :=
  2 ≤ ng ∨ ∀ a a' b b' L R g, s a L R b g = s a' L R b' g

/-- the scheme changes sign when the face is looked at from the other side -/
def Turns (s : Flux.Scheme) : Prop := ∀ a L R b g, s b R L a g.rev = fun l => - s a L R b g l

theorem normal_neg (s : V3) : normal (-s) = - normal s := by
  unfold normal area
  ext <;> simp <;> ring

theorem faceOf_neg (s : V3) : faceOf (-s) = (faceOf s).rev := by
  unfold faceOf FaceG.rev
  rw [normal_neg]
  unfold area
  simp

/-- diffusive fluxes depend on the positions of the centres relative to the face only -/
theorem diff_shift (sd : Diff.Scheme) (ns : Nat) (s n x xL xR : V3) (cL cR : Cl blockS) (tL tR : Transport) (dL dR : Nat → V3) :
    sd.flux ns ⟨s, n, x⟩ (diffCell cL xL tL dL) (diffCell cR xR tR dR) =
      sd.flux ns ⟨s, n, 0⟩ (diffCell cL (-(x - xL)) tL dL) (diffCell cR (-(x - xR)) tR dR) := by
  have key : sd.grad ⟨s, n, x⟩ (diffCell cL xL tL dL) (diffCell cR xR tR dR) =
      sd.grad ⟨s, n, 0⟩ (diffCell cL (-(x - xL)) tL dL) (diffCell cR (-(x - xR)) tR dR) := by
    funext l
    cases sd
    · rfl
    · have e1 : Diff.magEn (diffCell cL xL tL dL) (diffCell cR xR tR dR) ⟨s, n, x⟩ =
          Diff.magEn (diffCell cL (-(x - xL)) tL dL) (diffCell cR (-(x - xR)) tR dR) ⟨s, n, 0⟩ := by
        simp only [Diff.magEn, diffCell, sub_x, sub_y, sub_z, neg_x, neg_y, neg_z]
        congr 1; ring
      have e2 : ∀ (c : Cl blockS) (y : V3) (t : Transport) (d : Nat → V3), Diff.extrap (diffCell c y t d) ⟨s, n, x⟩ l =
          Diff.extrap (diffCell c (-(x - y)) t d) ⟨s, n, 0⟩ l := by
        intro c y t d
        simp only [Diff.extrap, diffCell, sub_x, sub_y, sub_z, neg_x, neg_y, neg_z, zero_x, zero_y, zero_z]
        ring
      simp only [Diff.Scheme.grad, Diff.gradDamp, Diff.damp, e1, e2]
      rfl
  rw [Diff.Scheme.flux_eq, Diff.Scheme.flux_eq, key]
  funext l
  unfold Diff.faceFlux
  rfl

/-- weight of the secondary scheme at a face in direction `d` -/
def weight (d : Fin 3) (a b : Fin 3 → ℝ) : ℝ := max (b d) (a d)

/-- the advective flux through a face: the primary scheme, or the blend of the two with the larger sensor of the two cells -/
def advFace (s1 : Flux.Scheme) (s2 : Option Flux.Scheme) (γ : Fin 3 × FaceData) (L : Int → Cl blockS × (Fin 3 → ℝ)) : Vec :=
  let F (s : Flux.Scheme) := s (flowCell (L (-2)).1) (flowCell (L (-1)).1) (flowCell (L 0).1) (flowCell (L 1).1) (faceOf γ.2.1)
  match s2 with
  | none => F s1
  | some s => fun l => F s1 l * (1 - weight γ.1 (L (-1)).2 (L 0).2) + F s l * weight γ.1 (L (-1)).2 (L 0).2

/-- the diffusive flux through a face -/
def diffFace (sd : Diff.Scheme) (ns : Nat) (γ : Fin 3 × FaceData) (L : Int → Cl blockS × Transport × (Nat → V3)) : Vec :=
  sd.flux ns ⟨γ.2.1, normal γ.2.1, 0⟩ (diffCell (L (-1)).1 (-γ.2.2.1) (L (-1)).2.1 (L (-1)).2.2)
    (diffCell (L 0).1 (-γ.2.2.2) (L 0).2.1 (L 0).2.2)

/-- a face with its direction, which matters only if schemes are blended -/
def faceDir (hybrid : Bool) (d : Fin 3) (L : Int → Geo) : Fin 3 × FaceData := (if hybrid then d else 0, faceData d L)

theorem adv_conservative (base : Kernels blockS) (s1 : Flux.Scheme) (s2 : Option Flux.Scheme) (sd : Diff.Scheme) (ns : Nat) (l : Nat)
    (L : Fin 3 → Int → Cl blockS × Geo × (Fin 3 → ℝ)) (g : Geo) :
    let K := solver base s1 s2 sd ns
    g.J * K.apply2 g (fun d t => (L d t).2.2) (fun d => K.flux2 d (L d)) (fun d => K.flux2 d (fun t => L d (1 + t)))
      (K.apply1 g (fun d t => (L d t).2.2) (fun d => K.flux1 d (L d)) (fun d => K.flux1 d (fun t => L d (1 + t))) (fun _ => 0)) l
    = ∑ d, (advFace s1 s2 (faceDir s2.isSome d fun t => (L d t).2.1) (fun t => ((L d t).1, (L d t).2.2)) l
        - advFace s1 s2 (faceDir s2.isSome d fun t => (L d (1 + t)).2.1) (fun t => ((L d (1 + t)).1, (L d (1 + t)).2.2)) l) := by
  have hJ := g.J_pos.ne'
  cases s2 with
  | none =>
    simp only [solver, plainAt, advFace, advOn, faceDir, faceData, Fin.sum_univ_three, Int.add_zero]
    field_simp
    ring
  | some s =>
    simp only [solver, hybridAt, advFace, advOn, faceDir, faceData, Fin.sum_univ_three, weight, Option.isSome, if_true, Int.add_zero]
    norm_num
    field_simp
    have e : ∀ a b : ℝ, max a b = max b a := max_comm
    rw [e ((L 0 0).2.2 0) ((L 0 1).2.2 0), e ((L 1 0).2.2 1) ((L 1 1).2.2 1), e ((L 2 0).2.2 2) ((L 2 1).2.2 2)]
    ring

theorem diff_conservative (base : Kernels blockS) (s1 : Flux.Scheme) (s2 : Option Flux.Scheme) (sd : Diff.Scheme) (ns : Nat) (l : Nat)
    (L : Fin 3 → Int → Cl blockS × Geo × Transport × (Nat → V3)) (g : Geo) (x : Vec) :
    let K := solver base s1 s2 sd ns
    g.J * K.applyD g (fun d => K.fluxD d (L d)) (fun d => K.fluxD d (fun t => L d (1 + t))) x l
    = g.J * x l + ∑ d, (diffFace sd ns (faceDir s2.isSome d fun t => (L d t).2.1) (fun t => ((L d t).1, (L d t).2.2)) l
        - diffFace sd ns (faceDir s2.isSome d fun t => (L d (1 + t)).2.1) (fun t => ((L d (1 + t)).1, (L d (1 + t)).2.2)) l) := by
  have hJ := g.J_pos.ne'
  have e : ∀ d (M : Int → Cl blockS × Geo × Transport × (Nat → V3)),
      diffOn sd ns d M = diffFace sd ns (faceDir s2.isSome d fun t => (M t).2.1) (fun t => ((M t).1, (M t).2.2)) :=
    fun d M => diff_shift _ _ _ _ _ _ _ _ _ _ _ _ _
  simp only [solver, plainAt, e, Fin.sum_univ_three]
  field_simp
  ring

theorem adv_congr {ng : Nat} (hng : 0 < ng) {s1 : Flux.Scheme} {s2 : Option Flux.Scheme} (h1 : Reaches ng s1)
    (h2 : ∀ s ∈ s2, Reaches ng s) (γ : Fin 3 × FaceData) (L L' : Int → Cl blockS × (Fin 3 → ℝ))
    (h : ∀ u, -(ng : Int) ≤ u → u < ng → (L' u).1 = (L u).1) (hp : ∀ u, -1 ≤ u → u < 1 → (L' u).2 = (L u).2) :
    advFace s1 s2 γ L' = advFace s1 s2 γ L := by
  have key : ∀ s, Reaches ng s → ∀ g, s (flowCell (L' (-2)).1) (flowCell (L' (-1)).1) (flowCell (L' 0).1) (flowCell (L' 1).1) g =
      s (flowCell (L (-2)).1) (flowCell (L (-1)).1) (flowCell (L 0).1) (flowCell (L 1).1) g := by
    intro s hs g
    rw [h (-1) (by omega) (by omega), h 0 (by omega) (by omega)]
    rcases hs with hs | hs
    · rw [h (-2) (by omega) (by omega), h 1 (by omega) (by omega)]
    · exact hs _ _ _ _ _ _ _
  cases s2 with
  | none => exact key s1 h1 _
  | some s =>
    simp only [advFace, key s1 h1, key s (h2 s rfl), hp (-1) (by decide) (by decide), hp 0 (by decide) (by decide)]

theorem adv_odd {ng : Nat} (hng : 0 < ng) {s1 : Flux.Scheme} {s2 : Option Flux.Scheme} (h1 : Reaches ng s1)
    (h2 : ∀ s ∈ s2, Reaches ng s) (t1 : Turns s1) (t2 : ∀ s ∈ s2, Turns s) (γ : Fin 3 × FaceData) (L L' : Int → Cl blockS × (Fin 3 → ℝ))
    (h : ∀ u, -(ng : Int) ≤ u → u < ng → (L' u).1 = (L (-1 - u)).1) (hp : ∀ u, -1 ≤ u → u < 1 → (L' u).2 = (L (-1 - u)).2) (l : Nat) :
    advFace s1 s2 (γ.1, γ.2.neg) L' l = - advFace s1 s2 γ L l := by
  have c1 := h (-1) (by omega) (by omega)
  have c0 := h 0 (by omega) (by omega)
  have p1 := hp (-1) (by omega) (by omega)
  have p0 := hp 0 (by omega) (by omega)
  norm_num at c1 c0 p1 p0
  have key : ∀ s, Reaches ng s → Turns s →
      s (flowCell (L' (-2)).1) (flowCell (L' (-1)).1) (flowCell (L' 0).1) (flowCell (L' 1).1) (faceOf (-γ.2.1)) l =
      - s (flowCell (L (-2)).1) (flowCell (L (-1)).1) (flowCell (L 0).1) (flowCell (L 1).1) (faceOf γ.2.1) l := by
    intro s hs ht
    rw [c1, c0, faceOf_neg]
    rcases hs with hs | hs
    · have c2 := h (-2) (by omega) (by omega)
      have c3 := h 1 (by omega) (by omega)
      norm_num at c2 c3
      rw [c2, c3]
      exact congrFun (ht _ _ _ _ _) l
    · rw [hs _ (flowCell (L 1).1) _ (flowCell (L (-2)).1)]
      exact congrFun (ht _ _ _ _ _) l
  cases s2 with
  | none => exact key s1 h1 t1
  | some s =>
    simp only [advFace, FaceData.neg, key s1 h1 t1, key s (h2 s rfl) (t2 s rfl), p1, p0, weight]
    rw [max_comm]
    ring

theorem diff_odd (sd : Diff.Scheme) (ns : Nat) (γ : Fin 3 × FaceData) (L L' : Int → Cl blockS × Transport × (Nat → V3))
    (h : ∀ u, -1 ≤ u → u < 1 → L' u = L (-1 - u)) (l : Nat) :
    diffFace sd ns (γ.1, γ.2.neg) L' l = - diffFace sd ns γ L l := by
  have c1 := h (-1) (by omega) (by omega)
  have c0 := h 0 (by omega) (by omega)
  norm_num at c1 c0
  unfold diffFace
  rw [c1, c0]
  have := Diff.C76_reversal sd ns ⟨γ.2.1, normal γ.2.1, 0⟩ (diffCell (L (-1)).1 (-γ.2.2.1) (L (-1)).2.1 (L (-1)).2.2)
    (diffCell (L 0).1 (-γ.2.2.2) (L 0).2.1 (L 0).2.2) l
  rw [← this]
  simp only [FaceData.neg, Diff.FaceD.rev, normal_neg]

/-- the kernels of the code are conservative in every component that equation of state and chemistry leave alone -/
def realC {ng : Nat} (hng : 0 < ng) (base : Kernels blockS) (s1 : Flux.Scheme) (s2 : Option Flux.Scheme) (sd : Diff.Scheme) (ns l : Nat)
    (h1 : Reaches ng s1) (h2 : ∀ s ∈ s2, Reaches ng s) (hc : ∀ c x, base.chem c x l = x l) (he : ∀ c, (base.eosC c).Q l = c.Q l) :
    Conservative ng (solver base s1 s2 sd ns) l where
  vol g := g.J
  Γ := Fin 3 × FaceData
  neg γ := (γ.1, γ.2.neg)
  vec := faceDir s2.isSome
  flux γ L := advFace s1 s2 γ L l
  fluxV γ L := diffFace sd ns γ L l
  adv L g _ := adv_conservative base s1 s2 sd ns l L g
  visc _ L g x _ := diff_conservative base s1 s2 sd ns l L g x
  congr γ L L' h hp := congrFun (adv_congr hng h1 h2 γ L L' h hp) l
  congrV γ L L' h := by
    change diffFace sd ns γ L' l = diffFace sd ns γ L l
    unfold diffFace
    rw [h (-1) (by decide) (by decide), h 0 (by decide) (by decide)]
  turns := Turns s1 ∧ ∀ s ∈ s2, Turns s
  odd t γ L L' h hp := adv_odd hng h1 h2 t.1 t.2 γ L L' h hp l
  oddV _ γ L L' h := diff_odd sd ns γ L L' h l
  chem := hc
  eos := he

/-- the schemes that change sign with the face, by name (C27: not so the hllc and muscl schemes) -/
def oddSchemes : List String := ["rusanov", "ausmPlusUp", "KEEP", "KEEPpe", "KEPaEC", "centralDifference", "fourthOrderKEEP"]

theorem odd_turns {n : String} (hn : n ∈ oddSchemes) {s : Flux.Scheme} (hs : Config.kernel n = some s) : Turns s := by
  simp only [oddSchemes, List.mem_cons, List.not_mem_nil, or_false] at hn
  intro a L R b g
  funext l
  have h := C27_antisymmetric a L R b g l
  rcases hn with rfl | rfl | rfl | rfl | rfl | rfl | rfl <;> cases hs
  · exact h.1
  · exact h.2.1
  · exact h.2.2.1
  · exact h.2.2.2.1
  · exact h.2.2.2.2.1
  · exact h.2.2.2.2.2.1
  · exact h.2.2.2.2.2.2

theorem reaches_of {sel : Config.Sel} {ng : Nat} (h : Config.howManyNG sel = .ok ng) {n : String} (hn : sel.primary = .str n ∨ sel.secondary = .str n)
    {s : Flux.Scheme} (hs : Config.kernel n = some s) : Reaches ng s := by
  obtain ⟨-, h2⟩ := Config.C37_layers sel ng h
  by_cases hw : n ∈ ["fourthOrderKEEP", "muscl2hllc", "muscl2rusanov"]
  · left
    have : ng = 2 := h2.2 (by
      have hw' : n ∈ ["fourthOrderKEEP", "muscl2hllc", "muscl2rusanov", "scalarDissipation"] := by
        simp only [List.mem_cons, List.not_mem_nil, or_false] at hw ⊢
        tauto
      rcases hn with e | e
      · exact Or.inl (by rw [e]; simpa using hw')
      · exact Or.inr (Or.inl (by rw [e]; simpa using hw')))
    omega
  · right
    intro a a' b b' L R g
    exact Config.narrow hs hw a a' b b' L R g

end PG.Whole
