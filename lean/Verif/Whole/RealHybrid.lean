import Verif.Whole.RealProps
/-!
C93: the closed case with a gas: the hypotheses of `C93_solver_partial` are met with rusanov; blending centralDifference with
rusanov by the pressure sensor creates mass at a connection whose blocks have different axes normal to it.
-/
noncomputable section
namespace PG.Whole
open PG.Topo PG.Halo PG.Time PG.Mesh PG.Flux V3

/-- one inert gas, gamma = 1.4, gas constant 1 (cpg.cpp) -/
def gas (Q : Vec) : Cl blockS :=
  let p : ℝ := 0.4 * (Q 4 - 0.5 * (Q 1 ^ 2 + Q 2 ^ 2 + Q 3 ^ 2) / Q 0)
  { Q := Q
    q := mk5 p (Q 1 / Q 0) (Q 2 / Q 0) (Q 3 / Q 0) (p / Q 0) (fun _ => 0)
    h := ⟨Real.sqrt (1.4 * p / Q 0), p / 0.4, fun _ => 3.5 * (p / Q 0)⟩ }

/-- inviscid flow of this gas with the sensor jamesonPressure (jameson.cpp:26-33) -/
def gasK : Kernels blockS where
  eosC c := gas c.Q
  eosP c := gas (mk5 (c.q 0 / c.q 4) (c.q 0 / c.q 4 * c.q 1) (c.q 0 / c.q 4 * c.q 2) (c.q 0 / c.q 4 * c.q 3)
    (c.q 0 / 0.4 + 0.5 * (c.q 0 / c.q 4) * (c.q 1 ^ 2 + c.q 2 ^ 2 + c.q 3 ^ 2)) (fun _ => 0))
  trans _ := ⟨0, 0, fun _ => 0⟩
  sponge _ t := t
  sw := some fun L d => |(L d 1).1.q 0 - 2 * (L d 0).1.q 0 + (L d (-1)).1.q 0| / |(L d 1).1.q 0 + 2 * (L d 0).1.q 0 + (L d (-1)).1.q 0|
  flux1 _ _ _ := 0
  flux2 _ _ _ := 0
  apply1 _ _ _ _ x := x
  apply2 _ _ _ _ x := x
  diffusion := false
  grad _ _ := 0
  sgs _ _ _ t := t
  fluxD _ _ _ := 0
  applyD _ _ _ x := x
  chem _ x := x
  stiff _ c := c
  dtau _ _ _ _ := 0
  invert _ _ _ _ _ y := y

def clG : Inp blockS where
  geo n p := geoOf (clX n) p
  euler _ _ _ _ x k := x k
  pre _ _ _ _ x k := x k
  post _ _ _ _ x := (x (-1)).2

theorem clNullG (ng : Nat) : NullBC ng clG clW :=
  ⟨fun _ _ _ _ _ _ _ _ _ _ _ _ => rfl, fun _ _ _ _ _ _ _ _ _ _ _ _ => rfl, fun _ _ _ _ _ _ _ _ _ => rfl⟩

theorem thickCl1 : Thick 1 clW := by
  intro r b h
  rw [ownsCl] at h
  rcases h with ⟨rfl, rfl⟩ | ⟨rfl, rfl⟩ <;> refine three ?_ ?_ ?_ <;> decide

/-- a configuration: the entries that matter here -/
def clSel (prim sec sw : Config.Val) : Config.Sel :=
  ⟨.none, .str "rk3", .none, .none, .none, prim, sec, sw, .bool false, .none, .str "cpg", .none, .none, .none, .none, .none⟩

theorem clSel_ng (p : String) (hp : p ∈ ["rusanov", "centralDifference"]) (q : Config.Val) (hq : q = .none ∨ q = .str "rusanov")
    (sw : Config.Val) : Config.howManyNG (clSel (.str p) q sw) = .ok 1 := by
  simp only [List.mem_cons, List.not_mem_nil, or_false] at hp
  rcases hp with rfl | rfl <;> rcases hq with rfl | rfl <;> rfl

theorem cl_suited : Suited (clSel (.str "rusanov") .none .none) clW := by
  intro r b hb f hf hnb
  have : ∀ b ∈ clW.flatten, ∀ f ∈ b.faces, Proper f.ori := by decide
  refine ⟨this b (ownsCl_mem hb) f hf, fun nf' _ => ⟨fun _ => ⟨?_, ?_⟩, fun h => absurd rfl h⟩⟩
  · intro n hn; cases hn; decide
  · intro n hn; cases hn

/-- the hypotheses of `C93_solver_partial` are met: rusanov, any initial state, any explicit integrator, every component -/
example (l : Nat) (J : Integrator) (hJ : J ≠ .dualTime) (dts : List ℝ) (c : State blockS) (s : St Entry (Aux blockS))
    (hs : s.core = consistify (solver gasK (fun _ L R _ g => rusanov L R g) none .damped 1) clG 1 clW 0 c) :
    total (S := blockS) Geo.J clG clW l (run (env (solver gasK (fun _ L R _ g => rusanov L R g) none .damped 1) clG 1 clW) J dts s).core.Q =
      total (S := blockS) Geo.J clG clW l s.core.Q :=
  C93_solver_partial (clSel_ng "rusanov" (by simp) .none (Or.inl rfl) .none) ⟨⟨"rusanov", rfl, rfl⟩, Or.inl ⟨rfl, rfl⟩⟩
    ⟨fun _ _ => rfl, fun _ _ _ _ => rfl⟩ .damped 1 l (fun _ _ => rfl) (fun _ => rfl) wellCl thickCl1 cl_suited clFits (fun _ _ => rfl)
    (clNullG 1) closedCl J hJ (fun _ => ⟨fun c c' h => by change gas _ = gas _; rw [h], fun _ _ => rfl⟩) dts s
    ⟨0, c, ⟨Or.inl fun c c' h => by change gas _ = gas _; rw [h], fun h => by cases h⟩, hs⟩

/-! ### blending at a connection between different axes -/

/-- the block in which a cell next to block `n` lies -/
def own (n : Nat) (p : Pos) : Nat := if n = 0 then (if 0 ≤ p 0 ∧ p 0 ≤ 1 then 0 else 1) else (if 0 ≤ p 2 ∧ p 2 ≤ 1 then 1 else 0)

theorem cl_top (a : Fin 3) : top cl0.dims a = 1 ∧ top cl1.dims a = 1 := by revert a; decide

theorem own_in {r : Nat} {b : Block} (hb : Owns clW r b) {p : Pos} (hp : InBox 0 b.dims p) : own b.nblki p = b.nblki := by
  rw [inbox0] at hp
  rw [ownsCl] at hb
  rcases hb with ⟨rfl, rfl⟩ | ⟨rfl, rfl⟩
  · have h := hp 0
    rw [(cl_top 0).1] at h
    simp [own, cl0, h]
  · have h := hp 2
    rw [(cl_top 2).2] at h
    simp [own, cl1, h]

theorem own_halo {r : Nat} {b : Block} (hb : Owns clW r b) {f : Face} (hf : f ∈ b.faces) {nb : Nat} (hnb : f.neighbor = some nb) {p : Pos}
    (hp : HaloOf 1 f.nface b.dims p) : own b.nblki p = nb := by
  have ax : axis 1 = 0 ∧ axis 2 = 0 ∧ axis 3 = 1 ∧ axis 4 = 1 ∧ axis 5 = 2 ∧ axis 6 = 2 := by decide
  obtain ⟨x1, x2, x3, x4, x5, x6⟩ := ax
  have il : isLow 1 = true ∧ isLow 2 = false ∧ isLow 5 = true ∧ isLow 6 = false := by decide
  obtain ⟨l1, l2, l5, l6⟩ := il
  obtain ⟨h1, h2, h3⟩ := hp
  have h0 := h3 0
  have h2' := h3 2
  unfold dep at h1 h2
  rw [ownsCl] at hb
  have t0 := fun a => (cl_top a).1
  have t1 := fun a => (cl_top a).2
  rcases hb with ⟨rfl, rfl⟩ | ⟨rfl, rfl⟩
  · simp only [t0] at *
    simp only [cl0, List.mem_cons, List.not_mem_nil, or_false] at hf
    rcases hf with rfl | rfl | rfl | rfl | rfl | rfl <;> cases hnb <;>
      simp only [x1, x2, x3, x4, x5, x6, l1, l2, if_true, if_false, Bool.false_eq_true] at h1 h2 h0 <;>
      simp only [own, cl0, if_true] <;> norm_num at h0 ⊢ <;> omega
  · simp only [t1] at *
    simp only [cl1, List.mem_cons, List.not_mem_nil, or_false] at hf
    rcases hf with rfl | rfl | rfl | rfl | rfl | rfl <;> cases hnb <;>
      simp only [x1, x2, x3, x4, x5, x6, l5, l6, if_true, if_false, Bool.false_eq_true] at h1 h2 h2' <;>
      simp only [own, cl1, if_true] <;> norm_num at h2' ⊢ <;> omega

theorem cl_face {r : Nat} {b : Block} (hb : Owns clW r b) {nf : Nat} (hn : 1 ≤ nf ∧ nf ≤ 6) :
    ∃ f ∈ b.faces, f.nface = nf ∧ ∃ nb, f.neighbor = some nb := by
  obtain ⟨f, hf, h1, h2⟩ := closedCl r b hb nf hn.1 hn.2
  exact ⟨f, hf, h1, Option.ne_none_iff_exists'.1 h2⟩

/-- exchange of something that is constant in every block -/
theorem exch_own {β : Type} {kind : Kind} (hk : kind ≠ .node) (a : Nat → β) (data : Nat → Pos → β)
    (h : ∀ r b, Owns clW r b → ∀ p, InBox 0 b.dims p → data b.nblki p = a b.nblki) {r : Nat} {b : Block} (hb : Owns clW r b) {p : Pos}
    (hp : Near 1 b.dims p) : exch kind 1 clW data b.nblki p = a (own b.nblki p) := by
  rcases hp with hp | ⟨nf, hn, hp⟩
  · rw [exch_un (by decide) wellCl data hb (interior_unexchanged wellCl hb (interior_nat hk hp)), h r b hb p hp, own_in hb hp]
  · obtain ⟨f, hf, rfl, nb, hnb⟩ := cl_face hb hn
    have hl : layers kind 1 = 1 := by cases kind <;> first | rfl | exact absurd rfl hk
    rw [own_halo hb hf hnb hp]
    rw [← hl] at hp
    obtain ⟨r₂, b₂, c', hb₂, hb₂n, hg, hin⟩ := glued_inside' hk (by decide) wellCl thickCl1 hb hf hnb hp
    rw [exch_conn hk (by decide) wellCl data hb hf hnb hb₂ hb₂n hp (fun _ _ => rfl) hg, ← hb₂n]
    exact h _ _ hb₂ _ hin

theorem bc_id {γ : Type} (m : Int) (b : Block) (A : Pos → γ) : bcAll m b (fun _ _ x k => x k) A = A := by
  unfold bcAll
  generalize b.faces = l
  induction l with
  | nil => rfl
  | cons f l ih =>
    rw [List.foldl_cons]
    refine Eq.trans ?_ ih
    congr 1
    funext p
    dsimp only
    rw [along_dep, ite_self]

/-- gas at rest: density 1, pressure 1 in block 0; density 2, pressure 3 in block 1 -/
def hyQ (n : Nat) : Vec := if n = 0 then mk5 1 0 0 0 2.5 (fun _ => 0) else mk5 2 0 0 0 7.5 (fun _ => 0)
def hyS : State blockS :=
  ⟨fun i => hyQ i.1 i.2.2, fun _ => 0, ⟨fun _ _ => ⟨0, 0, fun _ => 0⟩, fun _ _ => ⟨0, 0, fun _ => 0⟩, fun _ _ _ => 0, fun _ _ _ => 0⟩⟩
/-- centralDifference blended with rusanov -/
def hyK : Kernels blockS := solver gasK (fun _ L R _ g => central L R g) (some fun _ L R _ g => rusanov L R g) .damped 1

theorem cell_consistify {S : Sig} (K : Kernels S) (I : Inp S) (ng : Nat) (W : List (List Block)) (t : ℝ) (s : State S) (n : Nat) (p : Pos) :
    cell (consistify K I ng W t s) n p =
      perBlock W (cell ({ s with Q := fun i => exch .ccAll ng W (fun n p l => s.Q (n, p, l)) i.1 i.2.1 i.2.2 } : State S))
        (fun b => bcAll ng b (fun nf => I.euler b.nblki nf t) (fun p => K.eosC (cell ({ s with Q := fun i => exch .ccAll ng W (fun n p l => s.Q (n, p, l)) i.1 i.2.1 i.2.2 } : State S) b.nblki p))) n p := rfl

theorem hy_cell {r : Nat} {b : Block} (hb : Owns clW r b) {p : Pos} (hp : Near 1 b.dims p) :
    cell (consistify hyK clG 1 clW 0 hyS) b.nblki p = gas (hyQ (own b.nblki p)) := by
  rw [cell_consistify, perBlock_eq wellCl hb]
  change bcAll 1 b (fun _ _ x k => x k) _ p = _
  rw [bc_id]
  change gas (exch .ccAll 1 clW (fun n p l => hyQ n l) b.nblki p) = _
  rw [exch_own (by decide) hyQ _ (fun _ _ _ _ _ => rfl) hb hp]

/-- the sensor: direction 0 in block 0, direction 2 in block 1 -/
def hyPhi (n : Nat) (d : Fin 3) : ℝ := if n = 0 then (if d = 0 then 1/3 else 0) else (if d = 2 then 1/5 else 0)

theorem gas_p (n : Nat) : (gas (hyQ n)).q 0 = if n = 0 then 1 else 3 := by
  unfold gas hyQ
  split_ifs <;> norm_num [mk5]

theorem own_line0 {p : Pos} (hp : InBox 0 cl0.dims p) (d : Fin 3) :
    own 0 (shift p d (-1)) = (if d = 0 ∧ p 0 = 0 then 1 else 0) ∧ own 0 (shift p d 0) = 0 ∧
    own 0 (shift p d 1) = (if d = 0 ∧ p 0 = 1 then 1 else 0) := by
  have h := inbox0.1 hp 0
  rw [(cl_top 0).1] at h
  unfold own shift
  by_cases hd : d = 0
  · subst hd
    have : p 0 = 0 ∨ p 0 = 1 := by omega
    rcases this with e | e <;> simp [e]
  · have hd' : (0 : Fin 3) ≠ d := Ne.symm hd
    simp [hd, hd', h]

theorem own_line1 {p : Pos} (hp : InBox 0 cl1.dims p) (d : Fin 3) :
    own 1 (shift p d (-1)) = (if d = 2 ∧ p 2 = 0 then 0 else 1) ∧ own 1 (shift p d 0) = 1 ∧
    own 1 (shift p d 1) = (if d = 2 ∧ p 2 = 1 then 0 else 1) := by
  have h := inbox0.1 hp 2
  rw [(cl_top 2).2] at h
  unfold own shift
  by_cases hd : d = 2
  · subst hd
    have : p 2 = 0 ∨ p 2 = 1 := by omega
    rcases this with e | e <;> simp [e]
  · have hd' : (2 : Fin 3) ≠ d := Ne.symm hd
    simp [hd, hd', h]

theorem hy_phi {r : Nat} {b : Block} (hb : Owns clW r b) {p : Pos} (hp : Near 1 b.dims p) :
    (consistify hyK clG 1 clW 0 hyS).aux.phi b.nblki p = hyPhi (own b.nblki p) := by
  refine exch_own (kind := .ccFirst) (by decide) hyPhi _ ?_ hb hp
  intro r b hb p hp
  rw [perBlock_eq wellCl hb]
  beta_reduce
  rw [if_pos hp]
  have e : ∀ d t, -1 ≤ t → t ≤ 1 → (cell (consistify hyK clG 1 clW 0 hyS) b.nblki (shift p d t)).q 0 =
      if own b.nblki (shift p d t) = 0 then 1 else 3 := by
    intro d t h1 h2
    rw [hy_cell hb (near_shift hp h1 h2), gas_p]
  funext d
  change |(cell (consistify hyK clG 1 clW 0 hyS) b.nblki (shift p d 1)).q 0 - 2 * (cell (consistify hyK clG 1 clW 0 hyS) b.nblki (shift p d 0)).q 0
      + (cell (consistify hyK clG 1 clW 0 hyS) b.nblki (shift p d (-1))).q 0| /
    |(cell (consistify hyK clG 1 clW 0 hyS) b.nblki (shift p d 1)).q 0 + 2 * (cell (consistify hyK clG 1 clW 0 hyS) b.nblki (shift p d 0)).q 0
      + (cell (consistify hyK clG 1 clW 0 hyS) b.nblki (shift p d (-1))).q 0| = _
  rw [e d 1 (by decide) (by decide), e d 0 (by decide) (by decide), e d (-1) (by decide) (by decide)]
  have hb' := hb
  rw [ownsCl] at hb'
  rcases hb' with ⟨rfl, rfl⟩ | ⟨rfl, rfl⟩
  · obtain ⟨h1, h2, h3⟩ := own_line0 hp d
    have h := inbox0.1 hp 0
    rw [(cl_top 0).1] at h
    change |(if own 0 (shift p d 1) = 0 then (1 : ℝ) else 3) - 2 * (if own 0 (shift p d 0) = 0 then 1 else 3) +
      (if own 0 (shift p d (-1)) = 0 then 1 else 3)| / |(if own 0 (shift p d 1) = 0 then (1 : ℝ) else 3) +
      2 * (if own 0 (shift p d 0) = 0 then 1 else 3) + (if own 0 (shift p d (-1)) = 0 then 1 else 3)| = hyPhi 0 d
    rw [h1, h2, h3]
    by_cases hd : d = 0
    · subst hd
      have : p 0 = 0 ∨ p 0 = 1 := by omega
      rcases this with e | e <;> norm_num [e, hyPhi]
    · norm_num [hd, hyPhi]
  · obtain ⟨h1, h2, h3⟩ := own_line1 hp d
    have h := inbox0.1 hp 2
    rw [(cl_top 2).2] at h
    change |(if own 1 (shift p d 1) = 0 then (1 : ℝ) else 3) - 2 * (if own 1 (shift p d 0) = 0 then 1 else 3) +
      (if own 1 (shift p d (-1)) = 0 then 1 else 3)| / |(if own 1 (shift p d 1) = 0 then (1 : ℝ) else 3) +
      2 * (if own 1 (shift p d 0) = 0 then 1 else 3) + (if own 1 (shift p d (-1)) = 0 then 1 else 3)| = hyPhi 1 d
    rw [h1, h2, h3]
    by_cases hd : d = 2
    · subst hd
      have : p 2 = 0 ∨ p 2 = 1 := by omega
      rcases this with e | e <;> norm_num [e, hyPhi]
    · norm_num [hd, hyPhi]

/-- the blocks consist of unit cubes -/
theorem cl_area (n : Nat) (p : Pos) (d : Fin 3) : area ((geoOf (clX n) p).s d) = 1 := by
  have h20 : (2 : Fin 3) ≠ 0 := by decide
  have h21 : (2 : Fin 3) ≠ 1 := by decide
  have hc : clip 1 = 1 := by norm_num [clip]
  have key : ∀ v : V3, v.x ^ 2 + v.y ^ 2 + v.z ^ 2 = 1 → area v = 1 := by
    intro v h
    unfold area
    rw [h, Real.sqrt_one, hc]
  apply key
  have hd : d = 0 ∨ d = 1 ∨ d = 2 := by fin_cases d <;> simp
  rcases hd with rfl | rfl | rfl <;> unfold clX <;> split_ifs <;>
    norm_num [geoOf, iArea, jArea, kArea, loc, cross, V3.smul, h20, h21]

def hyC : Conservative 1 hyK 0 :=
  realC (by decide) gasK _ _ .damped 1 0 (Or.inr fun _ _ _ _ _ _ _ => rfl)
    (fun s hs => by cases hs; exact Or.inr fun _ _ _ _ _ _ _ => rfl) (fun _ _ => rfl) (fun _ => rfl)

def rho (n : Nat) : ℝ := if n = 0 then 1 else 2
def snd (n : Nat) : ℝ := (gas (hyQ n)).h.c

/-- mass flux between two gases at rest -/
theorem rest_flux (a b : Nat) (s : V3) (hs : area s = 1) (w : ℝ) :
    central (flowCell (gas (hyQ a))) (flowCell (gas (hyQ b))) (faceOf s) 0 * (1 - w)
      + rusanov (flowCell (gas (hyQ a))) (flowCell (gas (hyQ b))) (faceOf s) 0 * w = 1/2 * max (snd b) (snd a) * (rho a - rho b) * w := by
  have h : ∀ n, (flowCell (gas (hyQ n))).u = 0 ∧ (flowCell (gas (hyQ n))).v = 0 ∧ (flowCell (gas (hyQ n))).w = 0 ∧
      (flowCell (gas (hyQ n))).rho = rho n ∧ (flowCell (gas (hyQ n))).rhou = 0 ∧ (flowCell (gas (hyQ n))).rhov = 0 ∧
      (flowCell (gas (hyQ n))).rhow = 0 ∧ (flowCell (gas (hyQ n))).c = snd n := by
    intro n
    unfold flowCell gas hyQ rho snd
    refine ⟨?_, ?_, ?_, ?_, ?_, ?_, ?_, rfl⟩ <;> split_ifs <;> simp [mk5]
  obtain ⟨a1, a2, a3, a4, a5, a6, a7, a8⟩ := h a
  obtain ⟨b1, b2, b3, b4, b5, b6, b7, b8⟩ := h b
  simp only [central, rusanov, rusanovSpeed, mk5_0, proj, a1, a2, a3, a4, a5, a6, a7, a8, b1, b2, b3, b4, b5, b6, b7, b8]
  have hS : (faceOf s).S = 1 := hs
  rw [hS]
  simp only [mul_zero, add_zero, abs_zero, zero_add, zero_mul]
  ring

theorem hy_face (b : Block) (nf : Nat) (p : Pos) (L : Int → Cl blockS × (Fin 3 → ℝ)) :
    hyC.flux (faceVec hyC clG b nf p) L =
      central (flowCell (L (-1)).1) (flowCell (L 0).1) (faceOf (faceOn (clX b.nblki) b.dims nf p).1) 0 * (1 - max ((L 0).2 (axis nf)) ((L (-1)).2 (axis nf)))
      + rusanov (flowCell (L (-1)).1) (flowCell (L 0).1) (faceOf (faceOn (clX b.nblki) b.dims nf p).1) 0 * max ((L 0).2 (axis nf)) ((L (-1)).2 (axis nf)) := rfl

theorem hy_inflow {r : Nat} {b : Block} (hb : Owns clW r b) {f : Face} (hf : f ∈ b.faces) {nb : Nat} (hnb : f.neighbor = some nb) {p : Pos}
    (hp : p ∈ faceCells b.dims f.nface) :
    inflow hyC clG (consistify hyK clG 1 clW 0 hyS) b f.nface p =
      1/2 * max (snd b.nblki) (snd nb) * (rho nb - rho b.nblki) * max (hyPhi b.nblki (axis f.nface)) (hyPhi nb (axis f.nface)) := by
  have hn := wellCl.nface_range r b hb f hf
  have hh := face_halo hp (m := 1) (t := -1) (by decide) (by decide)
  have n1 : Near 1 b.dims (along f.nface b.dims p (-1)) := Or.inr ⟨_, hn, hh⟩
  have hi := (mem_faceCells.1 hp).1
  have n0 : Near 1 b.dims p := Or.inl hi
  have o1 := own_halo hb hf hnb hh
  have o0 := own_in hb hi
  have a0 := along_mem hp
  have ar : area (faceOn (clX b.nblki) b.dims f.nface p).1 = 1 := cl_area _ _ _
  unfold inflow
  cases hl : isLow f.nface
  · simp only [Bool.false_eq_true, if_false]
    rw [hy_face]
    simp only [show (-1 : Int) - -1 = 0 from rfl, show (-1 : Int) - 0 = -1 from rfl, a0, hy_cell hb n0, hy_cell hb n1,
      hy_phi hb n0, hy_phi hb n1, o0, o1]
    rw [rest_flux b.nblki nb _ ar, max_comm (snd nb), max_comm (hyPhi nb _)]
    ring
  · simp only [if_true]
    rw [hy_face]
    simp only [a0, hy_cell hb n0, hy_cell hb n1, hy_phi hb n0, hy_phi hb n1, o0, o1]
    rw [rest_flux nb b.nblki _ ar]
    ring

theorem hy_card : ∀ b ∈ clW.flatten, ∀ nf ∈ Finset.Icc 1 6, (faceCells b.dims nf).card = 4 := by decide +kernel

theorem hy_block {r : Nat} {b : Block} (hb : Owns clW r b) :
    ∑ p ∈ cells b.dims, Geo.J (clG.geo b.nblki p) * (rhs hyK clG 1 clW 0 (consistify hyK clG 1 clW 0 hyS)).1 (b.nblki, p, 0) =
      ∑ nf ∈ Finset.Icc 1 6, ∑ p ∈ faceCells b.dims nf, inflow hyC clG (consistify hyK clG 1 clW 0 hyS) b nf p := by
  rw [← advective_sum hyC (consistify hyK clG 1 clW 0 hyS) b]
  refine Finset.sum_congr rfl fun p hp => ?_
  rw [mem_cells] at hp
  have hd : hyK.diffusion = false := rfl
  simp only [rhs, hd, Bool.false_eq_true, if_false]
  rw [perBlock_eq wellCl hb, if_pos hp, hyC.chem, perBlock_eq wellCl hb]
  rfl

theorem hy_side {r : Nat} {b : Block} (hb : Owns clW r b) {f : Face} (hf : f ∈ b.faces) {nb : Nat} (hnb : f.neighbor = some nb) :
    ∑ p ∈ faceCells b.dims f.nface, inflow hyC clG (consistify hyK clG 1 clW 0 hyS) b f.nface p =
      2 * max (snd b.nblki) (snd nb) * (rho nb - rho b.nblki) * max (hyPhi b.nblki (axis f.nface)) (hyPhi nb (axis f.nface)) := by
  rw [Finset.sum_congr rfl fun p hp => hy_inflow hb hf hnb hp, Finset.sum_const,
    hy_card b (ownsCl_mem hb) f.nface (Finset.mem_Icc.2 (wellCl.nface_range r b hb f hf))]
  simp only [nsmul_eq_mul]
  push_cast
  ring

/-- C93 (violated: blended schemes at a connection between different axes): two cubes of gas at rest, connected to each other and
    to themselves on all sides, the second one lying on its side; centralDifference is blended with rusanov by jamesonPressure.
    Nothing can leave, and yet the mass of the whole domain grows: the sensor of the neighbour arrives with its components in
    the neighbour's order (consistify.py:49-50 exchanges phi as it is), so the two blocks blend differently at their common
    face. -/
theorem C93_hybrid_violated : Closed clW ∧ Fits clX clW ∧ (∀ n p, clG.geo n p = geoOf (clX n) p) ∧
    0 < total (S := blockS) Geo.J clG clW 0 (rhs hyK clG 1 clW 0 (consistify hyK clG 1 clW 0 hyS)).1 := by
  refine ⟨closedCl, clFits, fun _ _ => rfl, ?_⟩
  have hb0 : Owns clW 0 cl0 := (ownsCl _ _).2 (Or.inl ⟨rfl, rfl⟩)
  have hb1 : Owns clW 1 cl1 := (ownsCl _ _).2 (Or.inr ⟨rfl, rfl⟩)
  have e : total (S := blockS) Geo.J clG clW 0 (rhs hyK clG 1 clW 0 (consistify hyK clG 1 clW 0 hyS)).1 =
      ∑ nf ∈ Finset.Icc 1 6, ∑ p ∈ faceCells cl0.dims nf, inflow hyC clG (consistify hyK clG 1 clW 0 hyS) cl0 nf p +
      ∑ nf ∈ Finset.Icc 1 6, ∑ p ∈ faceCells cl1.dims nf, inflow hyC clG (consistify hyK clG 1 clW 0 hyS) cl1 nf p := by
    rw [← hy_block hb0, ← hy_block hb1]
    simp [total, clW]
  have i6 : Finset.Icc 1 6 = ({1, 2, 3, 4, 5, 6} : Finset Nat) := by decide
  have s0 : ∀ nf nb o r, (⟨nf, some nb, o, r⟩ : Face) ∈ cl0.faces → _ := fun nf nb o r h => hy_side hb0 h (nb := nb) rfl
  have s1 : ∀ nf nb o r, (⟨nf, some nb, o, r⟩ : Face) ∈ cl1.faces → _ := fun nf nb o r h => hy_side hb1 h (nb := nb) rfl
  have a1 := s0 1 1 o621 1 (by decide)
  have a2 := s0 2 1 o621 1 (by decide)
  have a3 := s0 3 0 o123 0 (by decide)
  have a4 := s0 4 0 o123 0 (by decide)
  have a5 := s0 5 0 o123 0 (by decide)
  have a6 := s0 6 0 o123 0 (by decide)
  have b1 := s1 1 1 o123 1 (by decide)
  have b2 := s1 2 1 o123 1 (by decide)
  have b3 := s1 3 1 o123 1 (by decide)
  have b4 := s1 4 1 o123 1 (by decide)
  have b5 := s1 5 0 o324 0 (by decide)
  have b6 := s1 6 0 o324 0 (by decide)
  dsimp only at a1 a2 a3 a4 a5 a6 b1 b2 b3 b4 b5 b6
  rw [e, i6]
  simp only [Finset.sum_insert, Finset.mem_insert, Finset.mem_singleton, Finset.sum_singleton, Nat.reduceEqDiff, or_self, not_false_eq_true]
  rw [a1, a2, a3, a4, a5, a6, b1, b2, b3, b4, b5, b6]
  have x1 : axis 1 = 0 := by decide
  have x2 : axis 2 = 0 := by decide
  have x5 : axis 5 = 2 := by decide
  have x6 : axis 6 = 2 := by decide
  have p0 : hyPhi 0 0 = 1/3 := by simp [hyPhi]
  have p1 : hyPhi 1 2 = 1/5 := by simp [hyPhi]
  have q0 : hyPhi 0 2 = 0 := by simp [hyPhi]
  have q1 : hyPhi 1 0 = 0 := by simp [hyPhi]
  have n0 : cl0.nblki = 0 := rfl
  have n1 : cl1.nblki = 1 := rfl
  have r0 : rho 0 = 1 := by simp [rho]
  have r1 : rho 1 = 2 := by simp [rho]
  rw [x1, x2, x5, x6, n0, n1, p0, p1, q0, q1, r0, r1, max_comm (snd 1) (snd 0)]
  have hc : 0 < max (snd 0) (snd 1) := by
    refine lt_max_of_lt_left ?_
    unfold snd gas hyQ
    rw [if_pos rfl]
    refine Real.sqrt_pos.2 ?_
    norm_num [mk5]
  norm_num
  linarith

end PG.Whole
