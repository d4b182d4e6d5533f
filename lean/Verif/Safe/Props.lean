import Verif.Safe.Faces
import Verif.Config.Props
import Verif.BC.ReadBcsProps
/-!
C113: when every access of a run is to an element of an allocated array.
-/
namespace PG.Safe
open PG.Config (Sel Solver Apply Val Env truthy start Startable)
open PG.BC (FType)

/-! ### specification -/

/-- a block of a started case: halo depth and species of the solver, at least one cell in each direction -/
structure Fits (env : Env) (r : Solver) (d : Dims) : Prop where
  ng : d.ng = r.ng
  ns : d.ns = env.ns
  one : 1 ≤ env.ns
  cells : ∀ e : Dir, 2 ≤ d.n e

/-- what the input must provide for the run to stay inside its arrays -/
structure InputComplete (env : Env) (s : Sel) (b : Site) : Prop where
  faces : ∀ f, FaceReady (truthy s.diffusion) (b.typ f) (b.data f)
  mechanism : truthy s.chemistry = true → ∀ m, s.mechanism = .str m → PG.Config.mechNs m ≤ env.ns
  split : s.integrator = .str "strang" → truthy s.chemistry = true

/-! ### proofs -/

/-- the integrators stay inside; `strang` needs the chemistry array -/
theorem stages_safe {b : Site} {s : Sel} {r : Solver} (z : Sized b.d)
    (hi : ∃ i ∈ ["rk1", "rk2", "maccormack", "rk3", "rk34", "rk4", "strang", "dualTime"], s.integrator = .str i)
    (hst : s.integrator = .str "strang" → truthy s.chemistry = true) (hd : r.diffusion = true → truthy s.diffusion = true)
    (him : ∀ m, r.impChem = some m → truthy s.chemistry = true ∧ (PG.Config.mechNs m : ℤ) ≤ b.d.ns) :
    ∀ L ∈ stages b r s.integrator, L.Safe b.d s b.data := by
  obtain ⟨i, hi, e⟩ := hi
  have zz := z
  obtain ⟨z1, z2, z3, z4, z5⟩ := z
  simp only [List.mem_cons, List.not_mem_nil, or_false] at hi
  rcases hi with rfl | rfl | rfl | rfl | rfl | rfl | rfl | rfl
  · rw [e]
    simp only [stages, List.forall_mem_cons, List.not_mem_nil, IsEmpty.forall_iff, implies_true, and_true]
    inb
  · have h0 : 0 < nstorage s.integrator := by rw [e]; decide
    rw [e]
    simp only [stages, List.forall_mem_cons, List.not_mem_nil, IsEmpty.forall_iff, implies_true, and_true]
    inb
  · have h0 : 0 < nstorage s.integrator := by rw [e]; decide
    rw [e]
    simp only [stages, List.forall_mem_cons, List.not_mem_nil, IsEmpty.forall_iff, implies_true, and_true]
    refine ⟨?_, ?_, ?_⟩ <;> inb
  · have h0 : 0 < nstorage s.integrator := by rw [e]; decide
    rw [e]
    simp only [stages, List.forall_mem_cons, List.not_mem_nil, IsEmpty.forall_iff, implies_true, and_true]
    inb
  · have h0 : 0 < nstorage s.integrator := by rw [e]; decide
    rw [e]
    simp only [stages, List.forall_mem_cons, List.not_mem_nil, IsEmpty.forall_iff, implies_true, and_true]
    inb
  · have h0 : 0 < nstorage s.integrator := by rw [e]; decide
    have h1 : 1 < nstorage s.integrator := by rw [e]; decide
    have h2 : 2 < nstorage s.integrator := by rw [e]; decide
    have h3 : 3 < nstorage s.integrator := by rw [e]; decide
    rw [e]
    simp only [stages, List.forall_mem_cons, List.not_mem_nil, IsEmpty.forall_iff, implies_true, and_true]
    refine ⟨?_, ?_, ?_, ?_⟩ <;> inb
  · have h0 : 0 < nstorage s.integrator := by rw [e]; decide
    have hc := hst e
    rw [e]
    intro L hL
    simp only [stages, List.mem_append] at hL
    rcases hL with hL | hL
    · revert L
      simp only [List.forall_mem_cons, List.not_mem_nil, IsEmpty.forall_iff, implies_true, and_true]
      refine ⟨?_, ?_⟩ <;> inb
    · cases hm : r.impChem with
      | none => rw [hm] at hL; simp at hL
      | some m =>
        rw [hm] at hL
        simp only [Option.map_some, Option.getD_some, List.mem_singleton] at hL
        rw [hL]
        exact chem_safe zz hc (him m hm).2
  · have h0 : 0 < nstorage s.integrator := by rw [e]; decide
    cases hdf : r.diffusion with
    | false =>
      rw [e]
      simp only [stages, hdf, Bool.false_eq_true, if_false, List.append_nil, List.forall_mem_cons, List.not_mem_nil, IsEmpty.forall_iff, implies_true, and_true]
      refine ⟨?_, ?_, ?_, ?_, ?_, ?_⟩ <;> inb
    | true =>
      have hd' := hd hdf
      rw [e]
      simp only [stages, hdf, if_true, List.forall_mem_cons, List.not_mem_nil, IsEmpty.forall_iff, implies_true, and_true]
      refine ⟨?_, ?_, ?_, ?_, ?_, ?_⟩ <;> inb

/-- what the proofs use of a started case -/
structure Facts (env : Env) (s : Sel) (r : Solver) : Prop where
  ng : r.ng = 1 ∨ r.ng = 2
  primary : r.primary ∈ PG.Config.usableAdv
  wide : r.primary ∈ ["fourthOrderKEEP", "muscl2hllc", "muscl2rusanov", "scalarDissipation"] → r.ng = 2
  secondary : ∀ a, r.secondary = some a → a ∈ PG.Config.usableAdv
  wide2 : ∀ a, r.secondary = some a → a ∈ ["fourthOrderKEEP", "muscl2hllc", "muscl2rusanov", "scalarDissipation"] → r.ng = 2
  diffusion : r.diffusion = truthy s.diffusion
  trans : r.trans.isSome = true → truthy s.diffusion = true
  sponge : r.sponge = true → truthy s.diffusion = true
  sgs : r.diffusion = true → r.sgs = some "mixedScaleModel" → r.ng = 2
  integrator : ∃ i ∈ ["rk1", "rk2", "maccormack", "rk3", "rk34", "rk4", "strang", "dualTime"], s.integrator = .str i
  expl : ∀ m, r.expChem = some m → truthy s.chemistry = true ∧ s.mechanism = .str m
  impl : ∀ m, r.impChem = some m → truthy s.chemistry = true ∧ s.mechanism = .str m
  mech : truthy s.chemistry = true → ∃ m, s.mechanism = .str m ∧
    ((s.integrator ≠ .str "strang" ∧ r.expChem = some m) ∨ (s.integrator = .str "strang" ∧ r.impChem = some m))

theorem facts {env : Env} {s : Sel} {r : Solver} (h : start env s = .ok r) : Facts env s r := by
  have hst := (PG.Config.C35_start_exact env s).1 ⟨r, h⟩
  have hint := PG.Config.C35_integrator env s r h
  obtain ⟨c1, c2, c3, c4, c5, c6, c7, c8, c9, c10, c11⟩ := PG.Config.C35_solver env s r h
  have hng : PG.Config.howManyNG s = .ok r.ng := by
    unfold start at h
    obtain ⟨s', hv, hs⟩ := PG.Config.bind_ok.1 h
    obtain ⟨⟨dt, hdt, n, hn, rfl⟩, -⟩ := PG.Config.validate_ok.1 hv
    obtain ⟨step, ng, t1, t2, eos, trans, switch, primary, ap, secondary, sgs, ch, k1, k2, k3, k4, k5, k6, k7, k8, k9, k10, k11,
      k12, rfl⟩ := PG.Config.setup_ok.1 hs
    exact k2
  obtain ⟨n1, n2⟩ := PG.Config.C37_layers s r.ng hng
  have hsec : ∀ a, r.secondary = some a → s.secondary = .str a := by
    intro a ha
    rcases c4 with ⟨-, -, h, -⟩ | ⟨hsh, -, h, -⟩ | ⟨-, -, ⟨a', h1, -, h2⟩, -⟩
    · rw [h] at ha; exact absurd ha (by simp)
    · rw [h] at ha
      obtain rfl := Option.some.inj ha
      rcases hst.fluxes with ⟨g, -⟩ | ⟨-, g, -⟩ | ⟨g, -⟩
      · rw [hsh] at g; exact absurd g (by simp)
      · exact g
      · rw [hsh] at g; exact absurd g (by simp)
    · rw [h2] at ha
      obtain rfl := Option.some.inj ha
      exact h1
  refine ⟨n1, ?_, fun hw => n2.2 (Or.inl ?_), ?_, fun a ha hw => n2.2 (Or.inr (Or.inl ?_)), c5, ?_, ?_, ?_, hst.integrator, ?_, ?_, ?_⟩
  · obtain ⟨a, ha, e⟩ := hst.primary
    rw [c1] at e
    cases e; exact ha
  · rw [c1]
    simp only [List.mem_cons, List.not_mem_nil, or_false, Val.str.injEq] at hw ⊢
    exact hw
  · intro a ha
    have hs := hsec a ha
    rcases hst.fluxes with ⟨-, g, -⟩ | ⟨-, g, -⟩ | ⟨-, ⟨a', h1, -, h2⟩, -⟩
    · rw [hs] at g; exact absurd g (by simp)
    · rw [hs] at g; cases g; simp [PG.Config.usableAdv]
    · rw [hs] at h2; cases h2; exact h1
  · rw [hsec a ha]
    simp only [List.mem_cons, List.not_mem_nil, or_false, Val.str.injEq] at hw ⊢
    exact hw
  · intro ht
    rw [← c5]
    by_contra hc
    rw [(c7 (by simpa using hc)).1] at ht
    exact absurd ht (by simp)
  · intro ht; rw [← c5]; exact c9 ht
  · intro hd hg
    refine n2.2 (Or.inr (Or.inr ?_))
    rcases c8 hd with ⟨-, h0⟩ | ⟨g, h1, h2⟩
    · rw [h0] at hg; exact absurd hg (by simp)
    · rw [h2] at hg; rw [h1, Option.some.inj hg]
  · intro m hm
    have hc : truthy s.chemistry = true := by
      by_contra hc
      rw [(c10 (by simpa using hc)).1] at hm; exact absurd hm (by simp)
    obtain ⟨m', h1, ⟨-, h2, -⟩ | ⟨-, h2, -⟩⟩ := c11 hc
    · rw [h2] at hm; rw [← Option.some.inj hm]; exact ⟨hc, h1⟩
    · rw [h2] at hm; exact absurd hm (by simp)
  · intro m hm
    have hc : truthy s.chemistry = true := by
      by_contra hc
      rw [(c10 (by simpa using hc)).2] at hm; exact absurd hm (by simp)
    obtain ⟨m', h1, ⟨-, -, h2⟩ | ⟨-, -, h2⟩⟩ := c11 hc
    · rw [h2] at hm; exact absurd hm (by simp)
    · rw [h2] at hm; rw [← Option.some.inj hm]; exact ⟨hc, h1⟩
  · intro hc
    obtain ⟨m, h1, ⟨k, h2, -⟩ | ⟨k, -, h2⟩⟩ := c11 hc
    · exact ⟨m, h1, Or.inl ⟨fun e => k (hint.1.2 e), h2⟩⟩
    · exact ⟨m, h1, Or.inr ⟨hint.1.1 k, h2⟩⟩

theorem sized {env : Env} {s : Sel} {r : Solver} {d : Dims} (F : Facts env s r) (hf : Fits env r d) : Sized d := by
  refine ⟨hf.cells .i, hf.cells .j, hf.cells .k, ?_, ?_⟩
  · rw [hf.ng]; exact F.ng
  · rw [hf.ns]; exact_mod_cast hf.one

theorem append_safe {d : Dims} {s : Sel} {fd : Fc → FaceData} {a b : List Launch} :
    (∀ L ∈ a ++ b, L.Safe d s fd) ↔ (∀ L ∈ a, L.Safe d s fd) ∧ ∀ L ∈ b, L.Safe d s fd := by
  simp only [List.mem_append, or_imp, forall_and]

theorem single_safe {d : Dims} {s : Sel} {fd : Fc → FaceData} {a : Launch} :
    (∀ L ∈ [a], L.Safe d s fd) ↔ a.Safe d s fd := by simp

theorem flat_safe {d : Dims} {s : Sel} {fd : Fc → FaceData} {g : Fc → List Launch} :
    (∀ L ∈ faces.flatMap g, L.Safe d s fd) ↔ ∀ f, ∀ L ∈ g f, L.Safe d s fd := by
  have hall : ∀ f : Fc, f ∈ faces := by rintro ⟨_ | _ | _, _ | _⟩ <;> decide
  simp only [List.mem_flatMap]
  exact ⟨fun h f L hL => h L ⟨f, hall f, hL⟩, fun h L ⟨f, _, hL⟩ => h f L hL⟩

theorem consistify_safe {env : Env} {s : Sel} {r : Solver} {b : Site} (F : Facts env s r) (z : Sized b.d) (v : CV)
    (hv : v ≠ .grad) (hr : ∀ f, FaceReady (truthy s.diffusion) (b.typ f) (b.data f)) : ∀ L ∈ consistify b r v, L.Safe b.d s b.data := by
  unfold consistify
  simp only [append_safe, single_safe, flat_safe]
  refine ⟨⟨⟨⟨⟨⟨?_, eos_safe z⟩, fun f => euler_safe z f _ (hr f)⟩, ?_⟩, ?_⟩, ?_⟩, ?_⟩
  · exact comm_safe z _ _ (by cases v <;> first | trivial | exact absurd rfl hv)
  · split
    case isTrue h => exact single_safe.2 (trans_safe z (F.trans h))
    case isFalse => simp
  · split
    case isTrue h => exact single_safe.2 (switch_safe z)
    case isFalse => simp
  · split
    case isTrue h => exact single_safe.2 (sponge_safe z (F.sponge h))
    case isFalse => simp
  · split
    case isTrue h => exact comm_safe z _ _ trivial
    case isFalse => simp

theorem rhs_safe {env : Env} {s : Sel} {r : Solver} {b : Site} (F : Facts env s r) (hf : Fits env r b.d)
    (hr : ∀ f, FaceReady (truthy s.diffusion) (b.typ f) (b.data f))
    (hm : truthy s.chemistry = true → ∀ m, s.mechanism = .str m → PG.Config.mechNs m ≤ env.ns) :
    ∀ L ∈ rhs b r, L.Safe b.d s b.data := by
  have z := sized F hf
  unfold rhs
  simp only [append_safe, single_safe]
  refine ⟨⟨⟨⟨⟨⟨zero_safe z, adv_safe z F.primary fun h => hf.ng.trans (F.wide h)⟩, apply_safe z _⟩, ?_⟩, ?_⟩, ?_⟩, ?_⟩
  · cases hs : r.secondary with
    | none => simp
    | some a => exact adv_safe z (F.secondary a hs) fun h => hf.ng.trans (F.wide2 a hs h)
  · cases r.applySecondary with
    | none => simp
    | some a => exact single_safe.2 (apply_safe z _)
  · split
    case isFalse => simp
    case isTrue hdf =>
      have hd : truthy s.diffusion = true := by rw [← F.diffusion]; exact hdf
      rw [hd] at hr
      simp only [append_safe, single_safe, flat_safe]
      refine ⟨⟨⟨⟨⟨⟨fun f => pre_safe z f _ (hr f), grad_safe z hd⟩, comm_safe z _ _ hd⟩, fun f => post_safe z hd f _ (hr f)⟩, ?_⟩,
        damping_safe z hd⟩, apply_safe z _⟩
      cases hg : r.sgs with
      | none => simp
      | some g => exact subgrid_safe z hd fun e => hf.ng.trans (F.sgs hdf (by rw [hg, e]))
  · cases he : r.expChem with
    | none => simp
    | some m =>
      obtain ⟨h1, h2⟩ := F.expl m he
      exact single_safe.2 (chem_safe z h1 (by rw [hf.ns]; exact_mod_cast hm h1 m h2))

/-- C113 (exact): in a case that started, with one or more cells in each direction and at least one species, every access of
    every kernel launched during the run is to an element of an allocated array - for all schemes, integrators, boundary types
    and sizes - exactly when each face holds the data its boundary type reads, the chemistry mechanism has no more species than
    the case, and the split integrator is used with chemistry. The start checks none of the three, so the English claim holds only
    under them; see the `_violated` theorems. -/
theorem C113_exact_partial (env : Env) (s : Sel) (r : Solver) (b : Site) (h : start env s = .ok r) (hf : Fits env r b.d) :
    (∀ L ∈ run b s r, L.Safe b.d s b.data) ↔ InputComplete env s b := by
  have F := facts h
  have z := sized F hf
  constructor
  · intro H
    simp only [run, append_safe] at H
    obtain ⟨⟨⟨⟨H1, H2⟩, H3⟩, -⟩, -⟩ := H
    simp only [consistify, append_safe, flat_safe] at H1
    obtain ⟨⟨⟨⟨⟨-, He⟩, -⟩, -⟩, -⟩, -⟩ := H1
    simp only [rhs, append_safe] at H2
    obtain ⟨⟨-, Hd⟩, Hc⟩ := H2
    refine ⟨fun f => ?_, fun hc m hm => ?_, fun hi => ?_⟩
    · obtain ⟨e1, e2, e3⟩ := euler_ready z f (b.typ f) (He f)
      refine ⟨?_, e2, e3⟩
      rintro (ht | ⟨ht, hv⟩)
      · exact e1 ht
      · rw [if_pos (by rw [F.diffusion]; exact hv)] at Hd
        simp only [append_safe, flat_safe] at Hd
        obtain ⟨⟨⟨⟨⟨⟨Hp, -⟩, -⟩, -⟩, -⟩, -⟩, -⟩ := Hd
        have := Hp f
        rw [ht] at this
        exact pre_ready z f this
    · by_contra hlt
      have hlt : b.d.ns < (PG.Config.mechNs m : ℤ) := by rw [hf.ns]; omega
      obtain ⟨m', h1, ⟨-, h2⟩ | ⟨hi, h2⟩⟩ := F.mech hc
      · rw [h1] at hm
        cases hm
        rw [h2] at Hc
        exact chem_unsafe z hlt (single_safe.1 Hc)
      · rw [h1] at hm
        cases hm
        rw [hi] at H3
        simp only [stages, h2, append_safe] at H3
        exact chem_unsafe z hlt (single_safe.1 H3.2)
    · rw [hi] at H3
      simp only [stages, append_safe] at H3
      have := H3.1 _ (List.mem_cons_of_mem _ (List.mem_singleton.2 rfl))
      obtain ⟨z1, z2, z3, z4, z5⟩ := z
      exact (this b.d.ng b.d.ng b.d.ng (by simp [interior]) (by simp [interior]; omega) (by simp [interior]) (by simp [interior]; omega)
        (by simp [interior]) (by simp [interior]; omega) (at0 b.d .omega) (by simp [interior])).1
  · rintro ⟨hr, hm, hsp⟩
    simp only [run, append_safe]
    refine ⟨⟨⟨⟨consistify_safe F z _ (by simp) hr, rhs_safe F hf hr hm⟩, stages_safe z F.integrator hsp ?_ ?_⟩,
      consistify_safe F z _ ?_ hr⟩, monitors_safe z⟩
    · intro hd; rw [← F.diffusion]; exact hd
    · intro m hi
      obtain ⟨h1, h2⟩ := F.impl m hi
      exact ⟨h1, by rw [hf.ns]; exact_mod_cast hm h1 m h2⟩
    · unfold given; split <;> simp

/-! ### what the input files give -/

/-- what a face holds after the set-up: values, spline coefficients and rotation matrices as left by readBcs; a neighbour for
    `b0` and periodic faces -/
def heldBy (x : PG.BC.SFace) (neighbour : Bool) : FaceData := ⟨x.bc.isSome, x.alphas.isSome, x.rotUp.isSome, neighbour⟩

/-- boundary types whose kernels read what readBcs prepares -/
def Reads (viscous : Bool) (t : FType) : Prop :=
  t ∈ targetTypes ∨ (t = .adiabaticMovingWall ∧ viscous = true) ∨ t = .periodicRotLow ∨ t = .periodicRotHigh

/-- a face before the boundary files are read: solverFace.py:66-71, 110-114 -/
def Unread (x : PG.BC.SFace) : Prop := x.bc = none ∧ x.alphas = none ∧ x.rotUp = none

theorem prep_ready (viscous n : Bool) (B : PG.BC.SBlock) (fs : PG.BC.Files) (fam : String) (V : PG.BC.Vals)
    {x y : PG.BC.SFace} (hp : ¬ PG.BC.IsPeriodic x.bcType) (h : PG.BC.prep B fs fam x V = some y) :
    FaceReady viscous y.bcType (heldBy y n) := by
  have key : y.bc.isSome = true ∧ y.bcType = x.bcType ∧ (x.bcType = .cubicSplineSubsonicInlet → y.alphas.isSome = true) := by
    unfold PG.BC.prep at h
    cases ht : x.bcType <;> rw [ht] at h hp <;>
      first
        | (exfalso; revert hp; unfold PG.BC.IsPeriodic; decide)
        | (simp only [reduceCtorEq] at h; done)
        | (simp only at h
           (try split at h) <;>
           (simp only [Option.bind_eq_bind, Option.bind_eq_some_iff, Option.some.injEq] at h; grind))
  obtain ⟨k1, k2, k3⟩ := key
  refine ⟨fun _ => k1, fun e => k3 (by rw [← k2, e]), fun e => absurd ?_ hp⟩
  unfold PG.BC.IsPeriodic
  rw [← k2]
  exact Or.inr (Or.inr e)

theorem periodic_other {t : FType} (h : PG.BC.IsPeriodic t) :
    t ∉ targetTypes ∧ t ≠ .adiabaticMovingWall ∧ t ≠ .cubicSplineSubsonicInlet := by
  unfold PG.BC.IsPeriodic at h
  rcases h with rfl | rfl | rfl | rfl <;> decide

/-- C113 (input files): a face that reading bcFams.yaml accepted holds what its boundary type reads, exactly when it reads
    nothing or its family has an entry with `bcVals`: a family without values is accepted with no more than a warning
    (readBcs.py:72-80). -/
theorem C113_files (viscous n : Bool) (F : String → Option PG.BC.Fam) (fs : PG.BC.Files) (B : PG.BC.SBlock)
    (x y : PG.BC.SFace) (hu : Unread x) (h : PG.BC.readFace F fs false true B x = some y) :
    FaceReady viscous y.bcType (heldBy y n) ↔
      (Reads viscous x.bcType → ∃ fam e V, x.bcFam = some fam ∧ F fam = some e ∧ e.vals = some V) := by
  obtain ⟨u1, u2, u3⟩ := hu
  have bare : FaceReady viscous x.bcType (heldBy x n) ↔ ¬ Reads viscous x.bcType := by
    constructor
    · rintro ⟨h1, -, h3⟩ (h | h | h)
      · have := h1 (Or.inl h); simp [heldBy, u1] at this
      · have := h1 (Or.inr h); simp [heldBy, u1] at this
      · have := h3 h; simp [heldBy, u3] at this
    · intro hn
      refine ⟨fun h => absurd ?_ hn, fun h => absurd (Or.inl ?_) hn, fun h => absurd (Or.inr (Or.inr h)) hn⟩
      · exact h.elim Or.inl fun h => Or.inr (Or.inl h)
      · rw [h]; simp [targetTypes]
  unfold PG.BC.readFace at h
  cases hf : x.bcFam with
  | none =>
    rw [hf] at h
    simp only at h
    split at h
    · obtain rfl := Option.some.inj h
      rw [bare]
      exact ⟨fun hn hr => absurd hr hn, fun he hr => by obtain ⟨_, _, _, h, -⟩ := he hr; exact absurd h (by simp)⟩
    · exact absurd h (by simp)
  | some fam =>
    rw [hf] at h
    simp only [Option.bind_eq_bind, Option.bind_eq_some_iff] at h
    obtain ⟨e, he, h⟩ := h
    split at h
    · exact absurd h (by simp)
    · cases hv : e.vals with
      | none =>
        rw [hv] at h
        obtain rfl := Option.some.inj h
        rw [bare]
        refine ⟨fun hn hr => absurd hr hn, fun hx hr => ?_⟩
        obtain ⟨f', e', V, h1, h2, h3⟩ := hx hr
        cases h1
        rw [he] at h2
        cases h2
        rw [hv] at h3
        exact absurd h3 (by simp)
      | some V =>
        rw [hv] at h
        refine iff_of_true ?_ fun _ => ⟨fam, e, V, rfl, he, hv⟩
        simp only [Bool.not_true, Bool.or_self, Bool.false_eq_true, if_false] at h
        split at h
        case isTrue hp =>
          have hper := (PG.BC.name_periodic _).1 hp
          simp only [PG.BC.setPeriodic, Option.bind_eq_bind, Option.bind_eq_some_iff, Option.some.injEq] at h
          obtain ⟨sp, -, ax, -, rfl⟩ := h
          obtain ⟨n1, n2, n3⟩ := periodic_other hper
          split
          · exact ⟨fun h => absurd h (not_or.2 ⟨n1, fun h => n2 h.1⟩), fun h => absurd h n3, fun _ => rfl⟩
          case isFalse hr => exact ⟨fun h => absurd h (not_or.2 ⟨n1, fun h => n2 h.1⟩), fun h => absurd h n3, fun h => absurd h hr⟩
        case isFalse hp => exact prep_ready viscous n B fs fam V (fun h => hp ((PG.BC.name_periodic _).2 h)) h

/-- C113 (program): a case that started and whose boundary file was read, with at least one cell in each direction, stays inside
    its arrays when each face that reads prepared data belongs to a family with `bcVals`, the mechanism has no more species than
    the case, and the split integrator is used with chemistry. -/
theorem C113_program_partial (env : Env) (s : Sel) (r : Solver) (b : Site) (F : String → Option PG.BC.Fam) (fs : PG.BC.Files)
    (B : PG.BC.SBlock) (before after : Fc → PG.BC.SFace) (hst : start env s = .ok r) (hf : Fits env r b.d)
    (hu : ∀ f, Unread (before f)) (hr : ∀ f, PG.BC.readFace F fs false true B (before f) = some (after f))
    (ht : ∀ f, b.typ f = (after f).bcType) (hd : ∀ f, ∃ n, b.data f = heldBy (after f) n)
    (hv : ∀ f, Reads (truthy s.diffusion) (before f).bcType → ∃ fam e V, (before f).bcFam = some fam ∧ F fam = some e ∧ e.vals = some V)
    (hm : truthy s.chemistry = true → ∀ m, s.mechanism = .str m → PG.Config.mechNs m ≤ env.ns)
    (hs : s.integrator = .str "strang" → truthy s.chemistry = true) : ∀ L ∈ run b s r, L.Safe b.d s b.data := by
  refine (C113_exact_partial env s r b hst hf).2 ⟨fun f => ?_, hm, hs⟩
  obtain ⟨n, hn⟩ := hd f
  rw [ht, hn]
  exact (C113_files _ n F fs B _ _ (hu f) (hr f)).2 (hv f)

/-! ### violations -/

/-- a block of 3 x 4 x 5 nodes with `ng` layers and one species -/
def smallBlock (ng : ℕ) : Dims := ⟨3, 4, 5, ng, 1⟩

/-- walls without values on every face -/
def walled (ng : ℕ) : Site := ⟨smallBlock ng, fun _ => .adiabaticNoSlipWall, fun _ => ⟨false, false, false, false⟩, fun _ => false⟩

/-- C113 fails: the chemistry kernels use the species count of the mechanism. A case with one species and a twelve-species
    mechanism starts, and its chemistry reads and writes outside q, Q, dQ and omega. -/
theorem C113_mechanism_violated : ∃ (env : Env) (s : Sel) (r : Solver), start env s = .ok r ∧ truthy s.chemistry = true ∧
    ∀ b : Site, Fits env r b.d → ¬ ∀ L ∈ run b s r, L.Safe b.d s b.data := by
  refine ⟨PG.Config.allKnown 1, PG.Config.rich, _, rfl, rfl, fun b hf h => ?_⟩
  have := ((C113_exact_partial _ _ _ b rfl hf).1 h).mechanism rfl _ rfl
  revert this
  decide

/-- C113 fails: Strang splitting without chemistry starts and reads `omega`, which is allocated only with chemistry. This access is made
    from Python (strang.py:13), where the missing array is `None`: the first step ends with a TypeError instead of reading memory. -/
theorem C113_split_violated : ∃ (env : Env) (s : Sel) (r : Solver), start env s = .ok r ∧ truthy s.chemistry = false ∧
    ∀ b : Site, Fits env r b.d → ¬ ∀ L ∈ run b s r, L.Safe b.d s b.data := by
  refine ⟨PG.Config.allKnown 1, { PG.Config.rich with chemistry := .bool false }, _, rfl, rfl, fun b hf h => ?_⟩
  have := ((C113_exact_partial _ _ _ b rfl hf).1 h).split rfl
  exact absurd this (by decide)

/-- C113 fails: without bcFams.yaml readBcs returns at once (readBcs.py:35-43), so an inlet has no target values, and its kernel
    reads them -/
theorem C113_missing_file_violated (env : Env) (s : Sel) (r : Solver) (b : Site) (h : start env s = .ok r) (hf : Fits env r b.d)
    (mb mb' : List PG.BC.SBlock) (fs : PG.BC.Files) (hr : PG.BC.readBcs none fs false true mb = some mb') (B : PG.BC.SBlock) (hB : B ∈ mb')
    (x : PG.BC.SFace) (hx : x ∈ B.faces) (hu : ∀ B ∈ mb, ∀ x ∈ B.faces, Unread x) (f : Fc) (n : Bool) (ht : b.typ f = x.bcType)
    (hd : b.data f = heldBy x n) (hty : x.bcType ∈ targetTypes) : ¬ ∀ L ∈ run b s r, L.Safe b.d s b.data := by
  intro hs
  have := (((C113_exact_partial env s r b h hf).1 hs).faces f).target (Or.inl (by rw [ht]; exact hty))
  obtain rfl : mb = mb' := Option.some.inj hr
  rw [hd] at this
  simp [heldBy, (hu B hB x hx).1] at this

/-- C113 (halo depth): with three layers the halo loop of a wall reaches outside: the index of round `g` is moved by
    `0 + 1 + ... + g`, which equals `g` only up to two layers. `howManyNG` never gives three. -/
theorem C113_three_layers_violated (s : Sel) (fd : Fc → FaceData) (d : Dims) (hg : d.ng = 3) (hn : 2 ≤ d.ni ∧ 2 ≤ d.nj ∧ 2 ≤ d.nk)
    (hs : 1 ≤ d.ns) : ¬ ∀ L ∈ euler d ⟨.i, true⟩ .adiabaticNoSlipWall, L.Safe d s fd := by
  intro h
  have h2 := h (slab d .i ((⟨.i, true⟩ : Fc).int d) ((⟨.i, true⟩ : Fc).int d + 1) (haloInt d ⟨.i, true⟩ 2 ++ [normals d ⟨.i, true⟩ .i])) (by
    simp only [euler, rounds, List.mem_append, List.mem_map, List.mem_range]
    exact Or.inl ⟨2, by omega, rfl⟩)
  have h3 := (h2 d.ng 0 0 (by simp [slab, Fc.int]) (by simp [slab, Fc.int]) (le_refl _) (by simp only [slab]; omega) (le_refl _)
    (by simp only [slab]; omega) ((⟨.i, true⟩ : Fc).on ((⟨.i, true⟩ : Fc).int d) ((⟨.i, true⟩ : Fc).haloOf d 2) .q 0 d.ne)
    (by simp [haloInt, slab])).2 0 (le_refl _) (by simp only [Fc.on, Dims.ne]; omega)
  have := h3.2.2.1.1
  simp [Fc.on, Dir.v, Fc.int, Fc.haloOf, Fc.halo, Fc.plus, cum, hg] at this

/-! ### the hypotheses can be met -/

/-- the default case on a walled block stays inside -/
example : ∃ r, start (PG.Config.allKnown 1) PG.Config.dflt = .ok r ∧
    ∀ L ∈ run (walled r.ng) PG.Config.dflt r, L.Safe (smallBlock r.ng) PG.Config.dflt (walled r.ng).data := by
  obtain ⟨r, h⟩ : ∃ r, start (PG.Config.allKnown 1) PG.Config.dflt = .ok r := ⟨_, rfl⟩
  refine ⟨r, h, (C113_exact_partial _ _ r (walled r.ng) h ?_).2 ⟨fun f => ?_, ?_, ?_⟩⟩
  · exact ⟨rfl, rfl, le_refl _, fun e => by cases e <;> simp [walled, smallBlock, Dims.n]⟩
  · exact ⟨fun h => absurd h (by simp [targetTypes, walled]), by simp [walled], by simp [walled]⟩
  · intro h; exact absurd h (by decide)
  · intro h; exact absurd h (by simp [PG.Config.dflt])

/-- a viscous reacting hybrid case with twelve species stays inside -/
example (b : Site) (hb : ∀ f, b.typ f = .b0) (hd : ∀ e : Dir, 2 ≤ b.d.n e) (hs : b.d.ns = 12) :
    ∃ r, start (PG.Config.allKnown 12) PG.Config.rich = .ok r ∧
      (b.d.ng = r.ng → ∀ L ∈ run b PG.Config.rich r, L.Safe b.d PG.Config.rich b.data) := by
  obtain ⟨r, h⟩ : ∃ r, start (PG.Config.allKnown 12) PG.Config.rich = .ok r := ⟨_, rfl⟩
  refine ⟨r, h, fun hg => (C113_exact_partial (PG.Config.allKnown 12) _ r b h ⟨hg, hs, by decide, hd⟩).2
    ⟨fun f => ?_, fun _ m hm => ?_, fun _ => rfl⟩⟩
  · rw [hb]; exact ⟨fun h => absurd h (by simp [targetTypes]), by simp, by simp⟩
  · cases hm; decide

/-- an isothermal wall of a family with values holds them -/
example (x y : PG.BC.SFace) (F : String → Option PG.BC.Fam) (fs : PG.BC.Files) (B : PG.BC.SBlock) (V : PG.BC.Vals)
    (hu : Unread x) (ht : x.bcType = .isoTNoSlipWall) (hf : x.bcFam = some "wall") (hF : F "wall" = some ⟨"isoTNoSlipWall".toList, some V⟩)
    (h : PG.BC.readFace F fs false true B x = some y) : FaceReady false y.bcType (heldBy y false) :=
  (C113_files false false F fs B x y hu h).2 fun _ => ⟨_, _, V, hf, hF, rfl⟩

end PG.Safe
