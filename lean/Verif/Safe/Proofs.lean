import Verif.Safe.Model
import Verif.Config.Stencil
import Mathlib.Tactic.Basic
/-!
Each kernel launch stays inside its arrays.
-/
namespace PG.Safe
open PG.Config (Sel Solver Apply Val truthy)
open PG.BC (FType)

/-- dimensions of a block of a started case -/
structure Sized (d : Dims) : Prop where
  ni : 2 ≤ d.ni
  nj : 2 ≤ d.nj
  nk : 2 ≤ d.nk
  ng : d.ng = 1 ∨ d.ng = 2
  ns : 1 ≤ d.ns

/-- unfolds a launch and closes the bounds by linear arithmetic -/
macro "inb" : tactic => `(tactic| (
  intro i j k h1 h2 h3 h4 h5 h6
  simp only [interior, whole, ringed, faceBox, slab, Dir.v, stageK, List.map_cons, List.map_nil] at h1 h2 h3 h4 h5 h6 ⊢
  simp only [at0, cross, fluxDiff, switchAcc, lengths, eosAccs, transAccs, chemAccs, advAccs, List.flatMap_cons, List.flatMap_nil,
    List.map_cons, List.map_nil,
    List.cons_append, List.nil_append, List.append_nil, List.forall_mem_cons, List.not_mem_nil, IsEmpty.forall_iff,
    implies_true, and_true, true_and, Acc.Legal, allocated, comps, Inside, faceIx, cellIx, planeIx, normalIx, inC, inF, Dir.v, Dims.ne,
    Fc.on, Dims.n, haloInt, normals, targets, second]
  and_intros <;> first
    | trivial
    | assumption
    | (intro c hc1 hc2; omega)
    | omega))

section
variable {d : Dims} {s : Sel} {fd : Fc → FaceData}

theorem adv_KEEP (z : Sized d) : ∀ L ∈ adv d "KEEP", L.Safe d s fd := by
  obtain ⟨z1, z2, z3, z4, z5⟩ := z
  simp only [adv, List.map_cons, List.map_nil, List.forall_mem_cons, List.not_mem_nil, IsEmpty.forall_iff, implies_true, and_true]
  refine ⟨?_, ?_, ?_⟩ <;> inb

theorem adv_KEEPpe (z : Sized d) : ∀ L ∈ adv d "KEEPpe", L.Safe d s fd := by
  obtain ⟨z1, z2, z3, z4, z5⟩ := z
  simp only [adv, List.map_cons, List.map_nil, List.forall_mem_cons, List.not_mem_nil, IsEmpty.forall_iff, implies_true, and_true]
  refine ⟨?_, ?_, ?_⟩ <;> inb

theorem adv_KEPaEC (z : Sized d) : ∀ L ∈ adv d "KEPaEC", L.Safe d s fd := by
  obtain ⟨z1, z2, z3, z4, z5⟩ := z
  simp only [adv, List.map_cons, List.map_nil, List.forall_mem_cons, List.not_mem_nil, IsEmpty.forall_iff, implies_true, and_true]
  refine ⟨?_, ?_, ?_⟩ <;> inb

theorem adv_centralDifference (z : Sized d) : ∀ L ∈ adv d "centralDifference", L.Safe d s fd := by
  obtain ⟨z1, z2, z3, z4, z5⟩ := z
  simp only [adv, List.map_cons, List.map_nil, List.forall_mem_cons, List.not_mem_nil, IsEmpty.forall_iff, implies_true, and_true]
  refine ⟨?_, ?_, ?_⟩ <;> inb

theorem adv_hllc (z : Sized d) : ∀ L ∈ adv d "hllc", L.Safe d s fd := by
  obtain ⟨z1, z2, z3, z4, z5⟩ := z
  simp only [adv, List.map_cons, List.map_nil, List.forall_mem_cons, List.not_mem_nil, IsEmpty.forall_iff, implies_true, and_true]
  refine ⟨?_, ?_, ?_⟩ <;> inb

theorem adv_rusanov (z : Sized d) : ∀ L ∈ adv d "rusanov", L.Safe d s fd := by
  obtain ⟨z1, z2, z3, z4, z5⟩ := z
  simp only [adv, List.map_cons, List.map_nil, List.forall_mem_cons, List.not_mem_nil, IsEmpty.forall_iff, implies_true, and_true]
  refine ⟨?_, ?_, ?_⟩ <;> inb

theorem adv_fourthOrderKEEP (z : Sized d) (hg : d.ng = 2) : ∀ L ∈ adv d "fourthOrderKEEP", L.Safe d s fd := by
  obtain ⟨z1, z2, z3, z4, z5⟩ := z
  simp only [adv, List.map_cons, List.map_nil, List.forall_mem_cons, List.not_mem_nil, IsEmpty.forall_iff, implies_true, and_true]
  refine ⟨?_, ?_, ?_⟩ <;> inb

theorem adv_muscl2hllc (z : Sized d) (hg : d.ng = 2) : ∀ L ∈ adv d "muscl2hllc", L.Safe d s fd := by
  obtain ⟨z1, z2, z3, z4, z5⟩ := z
  simp only [adv, List.map_cons, List.map_nil, List.forall_mem_cons, List.not_mem_nil, IsEmpty.forall_iff, implies_true, and_true]
  refine ⟨?_, ?_, ?_⟩ <;> inb

theorem adv_muscl2rusanov (z : Sized d) (hg : d.ng = 2) : ∀ L ∈ adv d "muscl2rusanov", L.Safe d s fd := by
  obtain ⟨z1, z2, z3, z4, z5⟩ := z
  simp only [adv, List.map_cons, List.map_nil, List.forall_mem_cons, List.not_mem_nil, IsEmpty.forall_iff, implies_true, and_true]
  refine ⟨?_, ?_, ?_⟩ <;> inb

theorem adv_scalarDissipation (z : Sized d) (hg : d.ng = 2) : ∀ L ∈ adv d "scalarDissipation", L.Safe d s fd := by
  obtain ⟨z1, z2, z3, z4, z5⟩ := z
  simp only [adv, List.map_cons, List.map_nil, List.forall_mem_cons, List.not_mem_nil, IsEmpty.forall_iff, implies_true, and_true]
  refine ⟨?_, ?_, ?_⟩ <;> inb

theorem adv_safe (z : Sized d) {name : String} (hn : name ∈ PG.Config.usableAdv)
    (hw : name ∈ ["fourthOrderKEEP", "muscl2hllc", "muscl2rusanov", "scalarDissipation"] → d.ng = 2) :
    ∀ L ∈ adv d name, L.Safe d s fd := by
  simp only [PG.Config.usableAdv, List.mem_cons, List.not_mem_nil, or_false] at hn
  rcases hn with rfl | rfl | rfl | rfl | rfl | rfl | rfl | rfl | rfl | rfl
  · exact adv_KEEP z
  · exact adv_KEEPpe z
  · exact adv_KEPaEC z
  · exact adv_centralDifference z
  · exact adv_fourthOrderKEEP z (hw (by simp))
  · exact adv_hllc z
  · exact adv_rusanov z
  · exact adv_muscl2hllc z (hw (by simp))
  · exact adv_muscl2rusanov z (hw (by simp))
  · exact adv_scalarDissipation z (hw (by simp))

theorem apply_safe (z : Sized d) (a : Apply) : (apply d a).Safe d s fd := by
  obtain ⟨z1, z2, z3, z4, z5⟩ := z
  cases a <;> unfold apply <;> inb

theorem grad_safe (z : Sized d) (hd : truthy s.diffusion = true) : (dq2FD d).Safe d s fd := by
  obtain ⟨z1, z2, z3, z4, z5⟩ := z
  unfold dq2FD; inb

theorem damping_safe (z : Sized d) (hd : truthy s.diffusion = true) : ∀ L ∈ alphaDamping d, L.Safe d s fd := by
  obtain ⟨z1, z2, z3, z4, z5⟩ := z
  simp only [alphaDamping, List.map_cons, List.map_nil, List.forall_mem_cons, List.not_mem_nil, IsEmpty.forall_iff, implies_true,
    and_true]
  refine ⟨?_, ?_, ?_⟩ <;> inb

theorem subgrid_safe (z : Sized d) (hd : truthy s.diffusion = true) {g : String} (hg : g = "mixedScaleModel" → d.ng = 2) :
    ∀ L ∈ subgrid d g, L.Safe d s fd := by
  obtain ⟨z1, z2, z3, z4, z5⟩ := z
  unfold subgrid
  split
  · have := hg rfl
    simp only [List.forall_mem_cons, List.not_mem_nil, IsEmpty.forall_iff, implies_true, and_true]
    inb
  · simp only [List.forall_mem_cons, List.not_mem_nil, IsEmpty.forall_iff, implies_true, and_true]
    inb
  · simp

theorem chem_safe (z : Sized d) (hc : truthy s.chemistry = true) {m : ℤ} (hm : m ≤ d.ns) :
    (interior d (chemAccs m)).Safe d s fd := by
  obtain ⟨z1, z2, z3, z4, z5⟩ := z
  inb

/-- a mechanism with more species than the case reads and writes outside -/
theorem chem_unsafe (z : Sized d) {m : ℤ} (hm : d.ns < m) : ¬ (interior d (chemAccs m)).Safe d s fd := by
  obtain ⟨z1, z2, z3, z4, z5⟩ := z
  intro h
  have := (h d.ng d.ng d.ng (by simp [interior]) (by simp [interior]; omega) (by simp [interior]) (by simp [interior]; omega)
    (by simp [interior]) (by simp [interior]; omega) ⟨.omega, (0, 0, 0), 0 + 1, (m - 1) + 1⟩ (by simp [interior, chemAccs])).2 d.ns
    (by simp; omega) (by simp; omega)
  have := this.2.1
  simp only [comps] at this
  omega

theorem eos_safe (z : Sized d) : (whole d (eosAccs d)).Safe d s fd := by
  obtain ⟨z1, z2, z3, z4, z5⟩ := z
  inb

theorem trans_safe (z : Sized d) (hd : truthy s.diffusion = true) : (whole d (transAccs d)).Safe d s fd := by
  obtain ⟨z1, z2, z3, z4, z5⟩ := z
  inb

theorem switch_safe (z : Sized d) : (switchK d).Safe d s fd := by
  obtain ⟨z1, z2, z3, z4, z5⟩ := z
  unfold switchK; inb

theorem sponge_safe (z : Sized d) (hd : truthy s.diffusion = true) : (spongeK d).Safe d s fd := by
  obtain ⟨z1, z2, z3, z4, z5⟩ := z
  unfold spongeK; inb

theorem zero_safe (z : Sized d) : (whole d [at0 d .dQ]).Safe d s fd := by
  obtain ⟨z1, z2, z3, z4, z5⟩ := z
  inb

theorem monitors_safe (z : Sized d) : ∀ L ∈ monitors d, L.Safe d s fd := by
  obtain ⟨z1, z2, z3, z4, z5⟩ := z
  simp only [monitors, List.forall_mem_cons, List.not_mem_nil, IsEmpty.forall_iff, implies_true, and_true]
  refine ⟨?_, ?_⟩ <;> inb

end
end PG.Safe
