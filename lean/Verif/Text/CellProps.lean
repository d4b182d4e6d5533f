import Verif.Text.Cell
import Verif.FV.Model
import Verif.Mesh.Model
import Verif.Sensor.Model
import Mathlib.Tactic.Ring
import Mathlib.Tactic.Linarith
import Mathlib.Tactic.NormNum
import Mathlib.Tactic.FinCases
/-!
C118: a kernel that computes values of cells, run over its range in any order, is the kernel of the model. `Text/Cell.lean` is generated from
the text of the kernels.
-/
namespace PG.Text.CellP
open PG.Text.Cell
open Classical

/-! ### specification -/

/-- an index of an array with components, and of one without -/
abbrev I4 := ℤ × ℤ × ℤ × ℕ
abbrev I3 := ℤ × ℤ × ℤ

/-- run the iterations of a loop one after the other, in the given order -/
noncomputable def sweep {ι : Type} (iteration : ι → W → W) (order : List ι) (s : ι → W) : ι → W :=
  order.foldl (fun s x => Function.update s x (iteration x (s x))) s

/-- an order in which a range can be processed: every index of the range once -/
def Order {ι : Type} (range : ι → Prop) (order : List ι) : Prop := order.Nodup ∧ ∀ x, x ∈ order ↔ range x

/-- the cells of the block without its `ng` halo layers: `ni - 1` by `nj - 1` by `nk - 1` -/
def Inner (b : CBlk) (i j k : ℤ) : Prop :=
  (0 ≤ i - b.ng ∧ i - b.ng < b.ni - 1) ∧ (0 ≤ j - b.ng ∧ j - b.ng < b.nj - 1) ∧ (0 ≤ k - b.ng ∧ k - b.ng < b.nk - 1)
/-- the elements of an array with components in these cells -/
def Interior (b : CBlk) (x : I4) : Prop := Inner b x.1 x.2.1 x.2.2.1 ∧ x.2.2.2 < b.ne
/-- the cells without halo layers -/
def Cells (b : CBlk) (x : I3) : Prop := Inner b x.1 x.2.1 x.2.2
/-- the cells and one halo layer around them -/
def Ringed (b : CBlk) (x : I3) : Prop :=
  (-1 ≤ x.1 - b.ng ∧ x.1 - b.ng < b.ni) ∧ (-1 ≤ x.2.1 - b.ng ∧ x.2.1 - b.ng < b.nj) ∧ (-1 ≤ x.2.2 - b.ng ∧ x.2.2 - b.ng < b.nk)

/-- a loop over `range` replaces, in whatever order it runs, the values at every index `x` of `dom` by values that satisfy
`post x old new`, and changes nothing outside -/
def Loop {ι : Type} (range dom : ι → Prop) (iteration : ι → W → W) (post : ι → W → W → Prop) : Prop :=
  ∀ order, Order range order → ∀ s x, (dom x → post x (s x) (sweep iteration order s x)) ∧ (¬ dom x → sweep iteration order s x = s x)

/-- the iterations as functions of one index -/
def at4 {R : Sort*} (f : ℤ → ℤ → ℤ → ℕ → R) (x : I4) : R := f x.1 x.2.1 x.2.2.1 x.2.2.2
def at3 {R : Sort*} (f : ℤ → ℤ → ℤ → R) (x : I3) : R := f x.1 x.2.1 x.2.2

/-- the block has the sizes and flux arrays of the model -/
structure Holds (b : CBlk) (d : FV.Dims) (J : FV.A3) (F : FV.Fluxes) : Prop where
  ng_pos : 1 ≤ d.ng
  ng : b.ng = d.ng
  ni : b.ni = d.ni
  nj : b.nj = d.nj
  nk : b.nk = d.nk
  ne : b.ne = d.ne
  J : ∀ i j k : ℕ, b.J i j k = J i j k
  iF : ∀ i j k l : ℕ, b.iF i j k l = F.iF i j k l
  jF : ∀ i j k l : ℕ, b.jF i j k l = F.jF i j k l
  kF : ∀ i j k l : ℕ, b.kF i j k l = F.kF i j k l

/-- `dQ` becomes what the kernel `K` of the model makes of it, all else is kept -/
def SetsdQ (K : FV.A4 → FV.A4) (x : I4) (old v : W) : Prop :=
  ∀ i j k : ℕ, x.1 = i → x.2.1 = j → x.2.2.1 = k → ∀ dQ : FV.A4, dQ i j k x.2.2.2 = old.dQ → v = { old with dQ := K dQ i j k x.2.2.2 }

/-- new values of the gradients, all else kept -/
def SetsGrad (g : ℕ → ℕ → ℕ → ℕ → V3) (x : I4) (old v : W) : Prop :=
  ∀ i j k : ℕ, x.1 = i → x.2.1 = j → x.2.2.1 = k →
    v = { old with dqdx := (g i j k x.2.2.2).x, dqdy := (g i j k x.2.2.2).y, dqdz := (g i j k x.2.2.2).z }

/-- the block holds the variables `q` and the metrics of the nodes `X` -/
structure HoldsGrid (b : CBlk) (X : Mesh.Nodes) (q : ℕ → ℕ → ℕ → ℕ → ℝ) : Prop where
  q : ∀ i j k l : ℕ, b.q i j k l = q i j k l
  E : ∀ i j k : ℕ, (⟨b.dEdx i j k, b.dEdy i j k, b.dEdz i j k⟩ : V3) = Mesh.gradE X i j k
  N : ∀ i j k : ℕ, (⟨b.dNdx i j k, b.dNdy i j k, b.dNdz i j k⟩ : V3) = Mesh.gradN X i j k
  C : ∀ i j k : ℕ, (⟨b.dCdx i j k, b.dCdy i j k, b.dCdz i j k⟩ : V3) = Mesh.gradC X i j k

/-- the three sensor values, where the sensor is defined; all else kept -/
def SetsPhi (kind : Sensor.Kind) (b : CBlk) (x : I3) (old v : W) : Prop :=
  (∀ r, Sensor.phi kind (fun i j k => b.q i j k 0) x.1 x.2.1 x.2.2 0 = some r → v.phi_0 = r) ∧
  (∀ r, Sensor.phi kind (fun i j k => b.q i j k 0) x.1 x.2.1 x.2.2 1 = some r → v.phi_1 = r) ∧
  (∀ r, Sensor.phi kind (fun i j k => b.q i j k 0) x.1 x.2.1 x.2.2 2 = some r → v.phi_2 = r) ∧
  { v with phi_0 := old.phi_0, phi_1 := old.phi_1, phi_2 := old.phi_2 } = old

/-! ### proofs -/

theorem sweep_at {ι : Type} (u : ι → W → W) : ∀ (order : List ι), order.Nodup → ∀ (s : ι → W) (y : ι),
    sweep u order s y = if y ∈ order then u y (s y) else s y := by
  intro order
  induction order with
  | nil => intro _ s y; simp [sweep]
  | cons x xs ih =>
    intro hnd s y
    have hx : x ∉ xs := (List.nodup_cons.1 hnd).1
    have := ih (List.nodup_cons.1 hnd).2 (Function.update s x (u x (s x))) y
    rw [sweep, List.foldl_cons]
    rw [sweep] at this
    rw [this]
    by_cases h : y = x
    · subst h; simp [hx]
    · simp [h]

theorem loop_of {ι : Type} {range dom : ι → Prop} {u : ι → W → W} {post : ι → W → W → Prop} (hd : ∀ x, range x ↔ dom x)
    (h : ∀ x v, range x → post x v (u x v)) : Loop range dom u post := by
  intro order ho s x
  rw [← hd x]
  rw [sweep_at u order ho.1]
  refine ⟨fun hr => ?_, fun hr => ?_⟩
  · rw [if_pos ((ho.2 x).2 hr)]; exact h _ _ hr
  · rw [if_neg (fun hm => hr ((ho.2 x).1 hm))]

/-- the range of the text is the range of the model -/
theorem inRange {b : CBlk} {d : FV.Dims} {J : FV.A3} {F : FV.Fluxes} (h : Holds b d J F) {i j k l : ℕ} (hr : applyFlux_range b i j k l) :
    FV.InRange d i j k l := by
  have h0 := h.ng_pos
  have h1 := h.ng
  have h2 := h.ni
  have h3 := h.nj
  have h4 := h.nk
  have h5 := h.ne
  unfold applyFlux_range at hr
  unfold FV.InRange
  omega

set_option hygiene false in
macro "applied" "[" r:Lean.Parser.Tactic.simpLemma "," ds:Lean.Parser.Tactic.simpLemma,* "]" : tactic => `(tactic| (
  refine loop_of (fun x => ?_) ?_
  · simp only [at4, $r, Interior, Inner]; omega
  rintro ⟨x, y, z, l⟩ v hr i j k hi hj hk dQ e
  simp only at hi hj hk
  subst hi hj hk
  have hin := inRange h hr
  have hJ := h.J i j k
  have h1 := h.iF i j k l
  have h2 := h.jF i j k l
  have h3 := h.kF i j k l
  have h4 := h.iF (i+1) j k l
  have h5 := h.jF i (j+1) k l
  have h6 := h.kF i j (k+1) l
  push_cast at h4 h5 h6
  simp only at e
  simp only [at4, $ds,*, hJ, h1, h2, h3, h4, h5, h6, e, if_pos hin]))

/-- C118 (applyFlux) -/
theorem C118_applyFlux {b : CBlk} {d : FV.Dims} {J : FV.A3} {F : FV.Fluxes} (h : Holds b d J F) :
    Loop (at4 (applyFlux_range b)) (Interior b) (at4 (applyFlux b)) (SetsdQ (FV.applyFlux d J F)) := by
  applied [applyFlux_range, applyFlux, FV.applyFlux]

/-- C118 (applyDissipationFlux) -/
theorem C118_applyDissipationFlux {b : CBlk} {d : FV.Dims} {J : FV.A3} {F : FV.Fluxes} (h : Holds b d J F) :
    Loop (at4 (applyDissipationFlux_range b)) (Interior b) (at4 (applyDissipationFlux b)) (SetsdQ (FV.applyDissipationFlux d J F)) := by
  applied [applyDissipationFlux_range, applyDissipationFlux, FV.applyDissipationFlux]

/-- C118 (applyHybridFlux) -/
theorem C118_applyHybridFlux {b : CBlk} {d : FV.Dims} {J : FV.A3} {F : FV.Fluxes} (h : Holds b d J F) {phi : FV.A4}
    (hp : ∀ i j k l : ℕ, b.phi i j k l = phi i j k l) (primary : ℝ) :
    Loop (at4 (applyHybridFlux_range b)) (Interior b) (at4 (applyHybridFlux b primary)) (SetsdQ (FV.applyHybridFlux d J phi primary F)) := by
  refine loop_of (fun x => by simp only [at4, applyHybridFlux_range, Interior, Inner]; omega) ?_
  rintro ⟨x, y, z, l⟩ v hr i j k hi hj hk dQ e
  simp only at hi hj hk
  subst hi hj hk
  have hin := inRange h hr
  have hng := h.ng_pos
  have hJ := h.J i j k
  have h1 := h.iF i j k l
  have h2 := h.jF i j k l
  have h3 := h.kF i j k l
  have h4 := h.iF (i+1) j k l
  have h5 := h.jF i (j+1) k l
  have h6 := h.kF i j (k+1) l
  have c1 := hin.1.1
  have c2 := hin.2.1.1
  have c3 := hin.2.2.1.1
  have p0 := hp i j k
  have p1 := hp (i-1) j k 0
  have p2 := hp (i+1) j k 0
  have p3 := hp i (j-1) k 1
  have p4 := hp i (j+1) k 1
  have p5 := hp i j (k-1) 2
  have p6 := hp i j (k+1) 2
  rw [Nat.cast_sub (by omega)] at p1 p3 p5
  push_cast at h4 h5 h6 p1 p2 p3 p4 p5 p6
  simp only at e
  simp only [at4, applyHybridFlux, FV.applyHybridFlux, hJ, h1, h2, h3, h4, h5, h6, p0, p1, p2, p3, p4, p5, p6, e, if_pos hin]

theorem V3_ext {a b c : ℝ} {w : V3} (h : (⟨a, b, c⟩ : V3) = w) : a = w.x ∧ b = w.y ∧ c = w.z := by subst h; exact ⟨rfl, rfl, rfl⟩

/-- C118 (dq2FD) -/
theorem C118_dq2FD {b : CBlk} {X : Mesh.Nodes} {q : ℕ → ℕ → ℕ → ℕ → ℝ} (h : HoldsGrid b X q) (hng : 1 ≤ b.ng) :
    Loop (at4 (dq2FD_range b)) (Interior b) (at4 (dq2FD b)) (SetsGrad fun i j k l => Mesh.dq2FD X (fun i j k => q i j k l) i j k) := by
  refine loop_of (fun x => by simp only [at4, dq2FD_range, Interior, Inner]; omega) ?_
  rintro ⟨x, y, z, l⟩ v hr i j k hi hj hk
  simp only at hi hj hk
  subst hi hj hk
  simp only [at4, dq2FD_range] at hr
  obtain ⟨E1, E2, E3⟩ := V3_ext (h.E i j k)
  obtain ⟨N1, N2, N3⟩ := V3_ext (h.N i j k)
  obtain ⟨C1, C2, C3⟩ := V3_ext (h.C i j k)
  have p1 := h.q (i-1) j k l
  have p2 := h.q (i+1) j k l
  have p3 := h.q i (j-1) k l
  have p4 := h.q i (j+1) k l
  have p5 := h.q i j (k-1) l
  have p6 := h.q i j (k+1) l
  rw [Nat.cast_sub (by omega)] at p1 p3 p5
  push_cast at p1 p2 p3 p4 p5 p6
  simp only [at4, dq2FD, Mesh.dq2FD, Mesh.chain, E1, E2, E3, N1, N2, N3, C1, C2, C3, p1, p2, p3, p4, p5, p6]

/-- C118 (dq4FD) -/
theorem C118_dq4FD {b : CBlk} {X : Mesh.Nodes} {q : ℕ → ℕ → ℕ → ℕ → ℝ} (h : HoldsGrid b X q) (hng : 2 ≤ b.ng) :
    Loop (at4 (dq4FD_range b)) (Interior b) (at4 (dq4FD b)) (SetsGrad fun i j k l => Mesh.dq4FD X (fun i j k => q i j k l) i j k) := by
  refine loop_of (fun x => by simp only [at4, dq4FD_range, Interior, Inner]; omega) ?_
  rintro ⟨x, y, z, l⟩ v hr i j k hi hj hk
  simp only at hi hj hk
  subst hi hj hk
  simp only [at4, dq4FD_range] at hr
  obtain ⟨E1, E2, E3⟩ := V3_ext (h.E i j k)
  obtain ⟨N1, N2, N3⟩ := V3_ext (h.N i j k)
  obtain ⟨C1, C2, C3⟩ := V3_ext (h.C i j k)
  have p1 := h.q (i-1) j k l
  have p2 := h.q (i+1) j k l
  have p3 := h.q i (j-1) k l
  have p4 := h.q i (j+1) k l
  have p5 := h.q i j (k-1) l
  have p6 := h.q i j (k+1) l
  have q1 := h.q (i-2) j k l
  have q2 := h.q (i+2) j k l
  have q3 := h.q i (j-2) k l
  have q4 := h.q i (j+2) k l
  have q5 := h.q i j (k-2) l
  have q6 := h.q i j (k+2) l
  rw [Nat.cast_sub (by omega)] at p1 p3 p5 q1 q3 q5
  push_cast at p1 p2 p3 p4 p5 p6 q1 q2 q3 q4 q5 q6
  simp only [at4, dq4FD, Mesh.dq4FD, Mesh.chain, V3.smul_x, V3.smul_y, V3.smul_z, E1, E2, E3, N1, N2, N3, C1, C2, C3, p1, p2, p3, p4, p5, p6,
    q1, q2, q3, q4, q5, q6, W.mk.injEq, true_and, and_true]
  refine ⟨?_, ?_, ?_⟩ <;> ring

theorem cdiv_some {a b r : ℝ} (h : Sensor.cdiv a b = some r) : r = a / b := by
  unfold Sensor.cdiv at h
  split at h <;> simp_all

/-- C118 (jamesonPressure) -/
theorem C118_jamesonPressure (b : CBlk) : Loop (at3 (jamesonPressure_range b)) (Cells b) (at3 (jamesonPressure b)) (SetsPhi .jamesonPressure b) := by
  refine loop_of (fun x => by simp only [at3, jamesonPressure_range, Cells, Inner]; omega) ?_
  rintro ⟨x, y, z⟩ v hr
  refine ⟨fun r h => ?_, fun r h => ?_, fun r h => ?_, rfl⟩ <;> exact (cdiv_some h).symm

/-- C118 (vanAlbadaPressure) -/
theorem C118_vanAlbadaPressure (b : CBlk) : Loop (at3 (vanAlbadaPressure_range b)) (Cells b) (at3 (vanAlbadaPressure b)) (SetsPhi .vanAlbadaPressure b) := by
  refine loop_of (fun x => by simp only [at3, vanAlbadaPressure_range, Cells, Inner]; omega) ?_
  rintro ⟨x, y, z⟩ v hr
  have key : ∀ {pm p pp r : ℝ}, Sensor.albada1 pm p pp = some r →
      1 - ((p - pm + 1 / 10000000000000000) / (pp - p + 1 / 10000000000000000) +
        |(p - pm + 1 / 10000000000000000) / (pp - p + 1 / 10000000000000000)|) /
        (1 + ((p - pm + 1 / 10000000000000000) / (pp - p + 1 / 10000000000000000)) ^ 2) = r := by
    intro pm p pp r h
    unfold Sensor.albada1 at h
    split at h
    case h_1 => cases h
    case h_2 u hu =>
      have := cdiv_some hu
      norm_num at this h ⊢
      rw [← this]
      exact h
  refine ⟨fun r h => key h, fun r h => key h, fun r h => key h, rfl⟩

/-- C118 (vanLeer) -/
theorem C118_vanLeer (b : CBlk) : Loop (at3 (vanLeer_range b)) (Cells b) (at3 (vanLeer b)) (SetsPhi .vanLeer b) := by
  refine loop_of (fun x => by simp only [at3, vanLeer_range, Cells, Inner]; omega) ?_
  rintro ⟨x, y, z⟩ v hr
  have key : ∀ {pm p pp r : ℝ}, Sensor.leer1 pm p pp = some r →
      |pp - 2 * p + pm| / ((1 - 1 / 1000) * (|pp - p| + |p - pm|) + 1 / 1000 * (pp + 2 * p + pm)) = r := by
    intro pm p pp r h
    have := cdiv_some h
    norm_num at this ⊢
    exact this.symm
  refine ⟨fun r h => key h, fun r h => key h, fun r h => key h, rfl⟩

/-- C118 (viscousSponge): the viscosity becomes that of the sponge, in the interior and one halo layer; all else is kept -/
theorem C118_viscousSponge (b : CBlk) (o e : V3) (mult : ℝ) :
    Loop (at3 (viscousSponge_range b)) (Ringed b) (at3 (viscousSponge b o.x o.y o.z e.x e.y e.z mult)) (fun x old v =>
      v = { old with qt_0 := Sensor.sponge o e mult ⟨b.xc x.1 x.2.1 x.2.2, b.yc x.1 x.2.1 x.2.2, b.zc x.1 x.2.1 x.2.2⟩ old.qt_0 }) :=
  loop_of (fun x => by simp only [at3, viscousSponge_range, Ringed]; omega) fun _ _ _ => rfl

/-! ### the hypotheses can be met -/

/-- a block of two by one by one cells with halo width 2, with the arrays of the model -/
noncomputable def exC (J : FV.A3) (F : FV.Fluxes) (X : Mesh.Nodes) (q : ℕ → ℕ → ℕ → ℕ → ℝ) : CBlk where
  ne := 6
  ng := 2
  ni := 3
  nj := 2
  nk := 2
  q i j k l := q i.toNat j.toNat k.toNat l
  iF i j k l := F.iF i.toNat j.toNat k.toNat l
  jF i j k l := F.jF i.toNat j.toNat k.toNat l
  kF i j k l := F.kF i.toNat j.toNat k.toNat l
  phi _ _ _ _ := 1 / 2
  J i j k := J i.toNat j.toNat k.toNat
  dEdx i j k := (Mesh.gradE X i.toNat j.toNat k.toNat).x
  dEdy i j k := (Mesh.gradE X i.toNat j.toNat k.toNat).y
  dEdz i j k := (Mesh.gradE X i.toNat j.toNat k.toNat).z
  dNdx i j k := (Mesh.gradN X i.toNat j.toNat k.toNat).x
  dNdy i j k := (Mesh.gradN X i.toNat j.toNat k.toNat).y
  dNdz i j k := (Mesh.gradN X i.toNat j.toNat k.toNat).z
  dCdx i j k := (Mesh.gradC X i.toNat j.toNat k.toNat).x
  dCdy i j k := (Mesh.gradC X i.toNat j.toNat k.toNat).y
  dCdz i j k := (Mesh.gradC X i.toNat j.toNat k.toNat).z
  xc _ _ _ := 0
  yc _ _ _ := 0
  zc _ _ _ := 0

theorem exC_holds (J : FV.A3) (F : FV.Fluxes) (X : Mesh.Nodes) (q : ℕ → ℕ → ℕ → ℕ → ℝ) :
    Holds (exC J F X q) ⟨3, 2, 2, 2, 6⟩ J F ∧ HoldsGrid (exC J F X q) X q ∧ (2 : ℤ) ≤ (exC J F X q).ng := by
  refine ⟨⟨by decide, rfl, rfl, rfl, rfl, rfl, ?_, ?_, ?_, ?_⟩, ⟨?_, ?_, ?_, ?_⟩, by simp [exC]⟩ <;> intros <;> simp [exC]

/-- its two cells in an order, for the kernels without component index -/
theorem exC_order (J : FV.A3) (F : FV.Fluxes) (X : Mesh.Nodes) (q : ℕ → ℕ → ℕ → ℕ → ℝ) :
    Order (at3 (jamesonPressure_range (exC J F X q))) [(3, 2, 2), (2, 2, 2)] := by
  refine ⟨by decide, ?_⟩
  rintro ⟨x, y, z⟩
  simp only [at3, jamesonPressure_range, exC, List.mem_cons, Prod.mk.injEq, List.not_mem_nil, or_false]
  omega

/-- and the twelve elements of its two cells, for the kernels with one -/
theorem exC_order4 (J : FV.A3) (F : FV.Fluxes) (X : Mesh.Nodes) (q : ℕ → ℕ → ℕ → ℕ → ℝ) :
    Order (at4 (applyFlux_range (exC J F X q)))
      ([0, 1, 2, 3, 4, 5].flatMap fun l => [((3 : ℤ), (2 : ℤ), (2 : ℤ), l), (2, 2, 2, l)]) := by
  refine ⟨by decide, ?_⟩
  rintro ⟨x, y, z, l⟩
  simp only [at4, applyFlux_range, exC, List.flatMap_cons, List.flatMap_nil, List.mem_append, List.mem_cons, Prod.mk.injEq,
    List.not_mem_nil, or_false]
  omega

/-- the sensor is defined for a pressure step -/
example : Sensor.jameson1 1 1 2 = some (1 / 5) := by
  unfold Sensor.jameson1 Sensor.cdiv
  norm_num

end PG.Text.CellP
