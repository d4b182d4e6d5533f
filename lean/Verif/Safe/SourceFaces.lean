import Verif.Safe.Source
/-!
C113 for the text of the boundary conditions.
-/
namespace PG.Safe.Src
open PG.Safe
open PG.Config (Sel Solver Env Apply start truthy)
open PG.BC (FType)

section
variable {d : Dims} {s : Sel} {fd : Fc → FaceData} {f : Fc} {ix : String → Option ℤ} {a : FAcc}

/-- a slice of a cell or face array -/
theorem fleg (A : Arr) {m : ℤ} (hA : faceArr f a.arr = some A) (hm : ix a.slice = some m)
    (al : allocated s fd A) (inn : ∀ i j k, cellIx d i j k → Inside d A i j k)
    (hb : 0 ≤ m ∧ m < d.n f.dir + 2 * d.ng - 1) (lo : 0 ≤ a.lo d.ns) (hi : a.hi d.ns ≤ comps d A) : a.Legal d s fd f ix := by
  refine ⟨A, m, hA, hm, al, fun c h1 h2 => ⟨by omega, by omega, fun i j k hp hn => inn i j k ?_⟩⟩
  cases hf : f.dir <;> rw [hf] at hp hn hb <;> simp only [planeIx, normalIx, inC, Dims.n, cellIx] at * <;> omega

/-- an array over the face -/
theorem fleg_face (A : Arr) {m : ℤ} (hA : faceArr f a.arr = some A) (hm : ix a.slice = some m)
    (al : allocated s fd A) (inn : ∀ i j k, planeIx d f.dir i j k → Inside d A i j k) (lo : 0 ≤ a.lo d.ns)
    (hi : a.hi d.ns ≤ comps d A) : a.Legal d s fd f ix :=
  ⟨A, m, hA, hm, al, fun c h1 h2 => ⟨by omega, by omega, fun i j k hp _ => inn i j k hp⟩⟩

theorem inn_face (e : Dir) (i j k : ℤ) (h : cellIx d i j k) : Inside d (.face e) i j k := by
  cases e <;> simp only [cellIx, inC, Inside, faceIx, inF] at * <;> omega

theorem reset_in (z : Sized d) (f : Fc) {g : ℕ} (hg : g < d.ng) :
    (0 ≤ f.haloOf d (d.ng - 1) + f.plus * (d.ng - 1) - f.plus * cum g ∧
      f.haloOf d (d.ng - 1) + f.plus * (d.ng - 1) - f.plus * cum g < d.n f.dir + 2 * d.ng - 1) ∧
    (0 ≤ f.secondOf d (d.ng - 1) - f.plus * (d.ng - 1) - f.plus + f.plus * cum g ∧
      f.secondOf d (d.ng - 1) - f.plus * (d.ng - 1) - f.plus + f.plus * cum g < d.n f.dir + 2 * d.ng - 1) := by
  have h2 := n_two z f.dir
  have hng := z.ng
  have hg' : (g = 0 ∧ d.ng = 1) ∨ (g = 0 ∧ d.ng = 2) ∨ (g = 1 ∧ d.ng = 2) := by omega
  unfold Fc.haloOf Fc.secondOf Fc.halo Fc.int Fc.plus
  have c0 : cum 0 = 0 := rfl
  have c1 : cum 1 = 1 := rfl
  have c0' : cum (1 - 1) = 0 := rfl
  have c1' : cum (2 - 1) = 1 := rfl
  rcases hg' with ⟨rfl, e⟩ | ⟨rfl, e⟩ | ⟨rfl, e⟩ <;> rw [e] <;> simp only [c0, c1, c0', c1'] <;> cases f.low <;> simp <;> omega

end

/-- bounds of components -/
macro "cmp" : tactic => `(tactic| (dsimp only [comps, Dims.ne]; omega))

set_option hygiene false in
/-- one access of a kernel of a boundary condition; uses the names of the proof below -/
macro "acc_k" : tactic => `(tactic| (first
  | exact fleg .q rfl rfl trivial (fun _ _ _ h => h) (halo_in z f hg) (by cmp) (by cmp)
  | exact fleg .q rfl rfl trivial (fun _ _ _ h => h) (int_in z f) (by cmp) (by cmp)
  | exact fleg .q rfl rfl trivial (fun _ _ _ h => h) (second_in z f hg) (by cmp) (by cmp)
  | exact fleg .Q rfl rfl trivial (fun _ _ _ h => h) (halo_in z f hg) (by cmp) (by cmp)
  | exact fleg .Q rfl rfl trivial (fun _ _ _ h => h) (int_in z f) (by cmp) (by cmp)
  | exact fleg .Q rfl rfl trivial (fun _ _ _ h => h) (second_in z f hg) (by cmp) (by cmp)
  | exact fleg .q rfl rfl trivial (fun _ _ _ h => h) (reset_in z f hg).1 (by cmp) (by cmp)
  | exact fleg .q rfl rfl trivial (fun _ _ _ h => h) (reset_in z f hg).2 (by cmp) (by cmp)
  | exact fleg .Q rfl rfl trivial (fun _ _ _ h => h) (reset_in z f hg).1 (by cmp) (by cmp)
  | exact fleg .Q rfl rfl trivial (fun _ _ _ h => h) (reset_in z f hg).2 (by cmp) (by cmp)
  | exact fleg .qh rfl rfl trivial (fun _ _ _ h => h) (int_in z f) (by cmp) (by cmp)
  | exact fleg (.face f.dir) rfl rfl trivial (inn_face _) (face_in z f) (by cmp) (by cmp)
  | exact fleg (.face .i) rfl rfl trivial (inn_face _) (face_in z f) (by cmp) (by cmp)
  | exact fleg .grad rfl rfl hd (fun _ _ _ h => h) (halo_in z f hg) (by cmp) (by cmp)
  | exact fleg .grad rfl rfl hd (fun _ _ _ h => h) (int_in z f) (by cmp) (by cmp)
  | exact fleg_face (.bc f) rfl rfl (hr.target (Or.inr ⟨rfl, hd⟩)) (fun _ _ _ h => h) (by cmp) (by cmp)
  | exact fleg_face (.bc f) rfl rfl (hr.target (by simp [targetTypes])) (fun _ _ _ h => h) (by cmp) (by cmp)
  | exact fleg_face (.alphas f) rfl rfl (hr.spline (by simp)) (fun _ _ _ h => h) (by cmp) (by cmp)
  | exact fleg_face (.rot f) rfl rfl (hr.rotation (by simp)) (fun _ _ _ _ => trivial) (by cmp) (by cmp)))

set_option hygiene false in
/-- one kernel of a boundary condition; uses the names of the proof below -/
macro "face_k" K:ident S:ident : tactic => `(tactic| (
  intro t ht hF hv g hg
  have hx : FKernel.ix b.d f g $K = $S b.d f g := by simp [FKernel.ix, $K:ident]
  rw [hx]
  have hd : ($K).terms ≠ "euler" → truthy s.diffusion = true := fun h => by rw [← F.diffusion]; exact hv h
  have hg : g < b.d.ng := by
    have := z.ng
    simp [FKernel.Round, $K:ident] at hg
    omega
  simp [$K:ident] at hd
  simp only [$K:ident, List.forall_mem_cons, List.not_mem_nil, IsEmpty.forall_iff, implies_true, and_true]
  cases t <;> first
    | (exfalso; simp only [FKernel.For, $K:ident, functionOf, String.reduceEq, reduceCtorEq, false_and, and_false, or_self] at hF; done)
    | (rw [ht] at hr
       and_intros <;> acc_k)))

theorem leg_f00 {env : Env} {s : Sel} {r : Solver} {b : Site}
    (hf : Fits env r b.d) (F : Facts env s r) (z : Sized b.d) (hn : 1 ≤ b.d.ns) (f : Fc)
    (hr : FaceReady (truthy s.diffusion) (b.typ f) (b.data f)) : ∀ t, b.typ f = t → f00.For t →
      (f00.terms ≠ "euler" → r.diffusion = true) → f00.Legal b.d s b.data f := by
  face_k f00 sliceIx

theorem leg_f01 {env : Env} {s : Sel} {r : Solver} {b : Site}
    (hf : Fits env r b.d) (F : Facts env s r) (z : Sized b.d) (hn : 1 ≤ b.d.ns) (f : Fc)
    (hr : FaceReady (truthy s.diffusion) (b.typ f) (b.data f)) : ∀ t, b.typ f = t → f01.For t →
      (f01.terms ≠ "euler" → r.diffusion = true) → f01.Legal b.d s b.data f := by
  face_k f01 sliceIx

theorem leg_f02 {env : Env} {s : Sel} {r : Solver} {b : Site}
    (hf : Fits env r b.d) (F : Facts env s r) (z : Sized b.d) (hn : 1 ≤ b.d.ns) (f : Fc)
    (hr : FaceReady (truthy s.diffusion) (b.typ f) (b.data f)) : ∀ t, b.typ f = t → f02.For t →
      (f02.terms ≠ "euler" → r.diffusion = true) → f02.Legal b.d s b.data f := by
  face_k f02 sliceIx

theorem leg_f03 {env : Env} {s : Sel} {r : Solver} {b : Site}
    (hf : Fits env r b.d) (F : Facts env s r) (z : Sized b.d) (hn : 1 ≤ b.d.ns) (f : Fc)
    (hr : FaceReady (truthy s.diffusion) (b.typ f) (b.data f)) : ∀ t, b.typ f = t → f03.For t →
      (f03.terms ≠ "euler" → r.diffusion = true) → f03.Legal b.d s b.data f := by
  face_k f03 sliceIx

theorem leg_f04 {env : Env} {s : Sel} {r : Solver} {b : Site}
    (hf : Fits env r b.d) (F : Facts env s r) (z : Sized b.d) (hn : 1 ≤ b.d.ns) (f : Fc)
    (hr : FaceReady (truthy s.diffusion) (b.typ f) (b.data f)) : ∀ t, b.typ f = t → f04.For t →
      (f04.terms ≠ "euler" → r.diffusion = true) → f04.Legal b.d s b.data f := by
  face_k f04 sliceIx

theorem leg_f05 {env : Env} {s : Sel} {r : Solver} {b : Site}
    (hf : Fits env r b.d) (F : Facts env s r) (z : Sized b.d) (hn : 1 ≤ b.d.ns) (f : Fc)
    (hr : FaceReady (truthy s.diffusion) (b.typ f) (b.data f)) : ∀ t, b.typ f = t → f05.For t →
      (f05.terms ≠ "euler" → r.diffusion = true) → f05.Legal b.d s b.data f := by
  face_k f05 sliceIx

theorem leg_f06 {env : Env} {s : Sel} {r : Solver} {b : Site}
    (hf : Fits env r b.d) (F : Facts env s r) (z : Sized b.d) (hn : 1 ≤ b.d.ns) (f : Fc)
    (hr : FaceReady (truthy s.diffusion) (b.typ f) (b.data f)) : ∀ t, b.typ f = t → f06.For t →
      (f06.terms ≠ "euler" → r.diffusion = true) → f06.Legal b.d s b.data f := by
  face_k f06 sliceIx

theorem leg_f07 {env : Env} {s : Sel} {r : Solver} {b : Site}
    (hf : Fits env r b.d) (F : Facts env s r) (z : Sized b.d) (hn : 1 ≤ b.d.ns) (f : Fc)
    (hr : FaceReady (truthy s.diffusion) (b.typ f) (b.data f)) : ∀ t, b.typ f = t → f07.For t →
      (f07.terms ≠ "euler" → r.diffusion = true) → f07.Legal b.d s b.data f := by
  face_k f07 sliceIx

theorem leg_f08 {env : Env} {s : Sel} {r : Solver} {b : Site}
    (hf : Fits env r b.d) (F : Facts env s r) (z : Sized b.d) (hn : 1 ≤ b.d.ns) (f : Fc)
    (hr : FaceReady (truthy s.diffusion) (b.typ f) (b.data f)) : ∀ t, b.typ f = t → f08.For t →
      (f08.terms ≠ "euler" → r.diffusion = true) → f08.Legal b.d s b.data f := by
  face_k f08 sliceIx

theorem leg_f09 {env : Env} {s : Sel} {r : Solver} {b : Site}
    (hf : Fits env r b.d) (F : Facts env s r) (z : Sized b.d) (hn : 1 ≤ b.d.ns) (f : Fc)
    (hr : FaceReady (truthy s.diffusion) (b.typ f) (b.data f)) : ∀ t, b.typ f = t → f09.For t →
      (f09.terms ≠ "euler" → r.diffusion = true) → f09.Legal b.d s b.data f := by
  face_k f09 sliceIx

theorem leg_f10 {env : Env} {s : Sel} {r : Solver} {b : Site}
    (hf : Fits env r b.d) (F : Facts env s r) (z : Sized b.d) (hn : 1 ≤ b.d.ns) (f : Fc)
    (hr : FaceReady (truthy s.diffusion) (b.typ f) (b.data f)) : ∀ t, b.typ f = t → f10.For t →
      (f10.terms ≠ "euler" → r.diffusion = true) → f10.Legal b.d s b.data f := by
  face_k f10 sliceIxReset

theorem leg_f11 {env : Env} {s : Sel} {r : Solver} {b : Site}
    (hf : Fits env r b.d) (F : Facts env s r) (z : Sized b.d) (hn : 1 ≤ b.d.ns) (f : Fc)
    (hr : FaceReady (truthy s.diffusion) (b.typ f) (b.data f)) : ∀ t, b.typ f = t → f11.For t →
      (f11.terms ≠ "euler" → r.diffusion = true) → f11.Legal b.d s b.data f := by
  face_k f11 sliceIx

theorem leg_f12 {env : Env} {s : Sel} {r : Solver} {b : Site}
    (hf : Fits env r b.d) (F : Facts env s r) (z : Sized b.d) (hn : 1 ≤ b.d.ns) (f : Fc)
    (hr : FaceReady (truthy s.diffusion) (b.typ f) (b.data f)) : ∀ t, b.typ f = t → f12.For t →
      (f12.terms ≠ "euler" → r.diffusion = true) → f12.Legal b.d s b.data f := by
  face_k f12 sliceIx

theorem leg_f13 {env : Env} {s : Sel} {r : Solver} {b : Site}
    (hf : Fits env r b.d) (F : Facts env s r) (z : Sized b.d) (hn : 1 ≤ b.d.ns) (f : Fc)
    (hr : FaceReady (truthy s.diffusion) (b.typ f) (b.data f)) : ∀ t, b.typ f = t → f13.For t →
      (f13.terms ≠ "euler" → r.diffusion = true) → f13.Legal b.d s b.data f := by
  face_k f13 sliceIx

theorem leg_f14 {env : Env} {s : Sel} {r : Solver} {b : Site}
    (hf : Fits env r b.d) (F : Facts env s r) (z : Sized b.d) (hn : 1 ≤ b.d.ns) (f : Fc)
    (hr : FaceReady (truthy s.diffusion) (b.typ f) (b.data f)) : ∀ t, b.typ f = t → f14.For t →
      (f14.terms ≠ "euler" → r.diffusion = true) → f14.Legal b.d s b.data f := by
  face_k f14 sliceIx

theorem leg_f15 {env : Env} {s : Sel} {r : Solver} {b : Site}
    (hf : Fits env r b.d) (F : Facts env s r) (z : Sized b.d) (hn : 1 ≤ b.d.ns) (f : Fc)
    (hr : FaceReady (truthy s.diffusion) (b.typ f) (b.data f)) : ∀ t, b.typ f = t → f15.For t →
      (f15.terms ≠ "euler" → r.diffusion = true) → f15.Legal b.d s b.data f := by
  face_k f15 sliceIx

theorem leg_f16 {env : Env} {s : Sel} {r : Solver} {b : Site}
    (hf : Fits env r b.d) (F : Facts env s r) (z : Sized b.d) (hn : 1 ≤ b.d.ns) (f : Fc)
    (hr : FaceReady (truthy s.diffusion) (b.typ f) (b.data f)) : ∀ t, b.typ f = t → f16.For t →
      (f16.terms ≠ "euler" → r.diffusion = true) → f16.Legal b.d s b.data f := by
  face_k f16 sliceIx

theorem leg_f17 {env : Env} {s : Sel} {r : Solver} {b : Site}
    (hf : Fits env r b.d) (F : Facts env s r) (z : Sized b.d) (hn : 1 ≤ b.d.ns) (f : Fc)
    (hr : FaceReady (truthy s.diffusion) (b.typ f) (b.data f)) : ∀ t, b.typ f = t → f17.For t →
      (f17.terms ≠ "euler" → r.diffusion = true) → f17.Legal b.d s b.data f := by
  face_k f17 sliceIx

theorem leg_f18 {env : Env} {s : Sel} {r : Solver} {b : Site}
    (hf : Fits env r b.d) (F : Facts env s r) (z : Sized b.d) (hn : 1 ≤ b.d.ns) (f : Fc)
    (hr : FaceReady (truthy s.diffusion) (b.typ f) (b.data f)) : ∀ t, b.typ f = t → f18.For t →
      (f18.terms ≠ "euler" → r.diffusion = true) → f18.Legal b.d s b.data f := by
  face_k f18 sliceIx

theorem leg_f19 {env : Env} {s : Sel} {r : Solver} {b : Site}
    (hf : Fits env r b.d) (F : Facts env s r) (z : Sized b.d) (hn : 1 ≤ b.d.ns) (f : Fc)
    (hr : FaceReady (truthy s.diffusion) (b.typ f) (b.data f)) : ∀ t, b.typ f = t → f19.For t →
      (f19.terms ≠ "euler" → r.diffusion = true) → f19.Legal b.d s b.data f := by
  face_k f19 sliceIx

theorem leg_f20 {env : Env} {s : Sel} {r : Solver} {b : Site}
    (hf : Fits env r b.d) (F : Facts env s r) (z : Sized b.d) (hn : 1 ≤ b.d.ns) (f : Fc)
    (hr : FaceReady (truthy s.diffusion) (b.typ f) (b.data f)) : ∀ t, b.typ f = t → f20.For t →
      (f20.terms ≠ "euler" → r.diffusion = true) → f20.Legal b.d s b.data f := by
  face_k f20 sliceIx

theorem leg_f21 {env : Env} {s : Sel} {r : Solver} {b : Site}
    (hf : Fits env r b.d) (F : Facts env s r) (z : Sized b.d) (hn : 1 ≤ b.d.ns) (f : Fc)
    (hr : FaceReady (truthy s.diffusion) (b.typ f) (b.data f)) : ∀ t, b.typ f = t → f21.For t →
      (f21.terms ≠ "euler" → r.diffusion = true) → f21.Legal b.d s b.data f := by
  face_k f21 sliceIx

theorem leg_f22 {env : Env} {s : Sel} {r : Solver} {b : Site}
    (hf : Fits env r b.d) (F : Facts env s r) (z : Sized b.d) (hn : 1 ≤ b.d.ns) (f : Fc)
    (hr : FaceReady (truthy s.diffusion) (b.typ f) (b.data f)) : ∀ t, b.typ f = t → f22.For t →
      (f22.terms ≠ "euler" → r.diffusion = true) → f22.Legal b.d s b.data f := by
  face_k f22 sliceIx

theorem leg_f23 {env : Env} {s : Sel} {r : Solver} {b : Site}
    (hf : Fits env r b.d) (F : Facts env s r) (z : Sized b.d) (hn : 1 ≤ b.d.ns) (f : Fc)
    (hr : FaceReady (truthy s.diffusion) (b.typ f) (b.data f)) : ∀ t, b.typ f = t → f23.For t →
      (f23.terms ≠ "euler" → r.diffusion = true) → f23.Legal b.d s b.data f := by
  face_k f23 sliceIx

theorem leg_f24 {env : Env} {s : Sel} {r : Solver} {b : Site}
    (hf : Fits env r b.d) (F : Facts env s r) (z : Sized b.d) (hn : 1 ≤ b.d.ns) (f : Fc)
    (hr : FaceReady (truthy s.diffusion) (b.typ f) (b.data f)) : ∀ t, b.typ f = t → f24.For t →
      (f24.terms ≠ "euler" → r.diffusion = true) → f24.Legal b.d s b.data f := by
  face_k f24 sliceIx

theorem leg_f25 {env : Env} {s : Sel} {r : Solver} {b : Site}
    (hf : Fits env r b.d) (F : Facts env s r) (z : Sized b.d) (hn : 1 ≤ b.d.ns) (f : Fc)
    (hr : FaceReady (truthy s.diffusion) (b.typ f) (b.data f)) : ∀ t, b.typ f = t → f25.For t →
      (f25.terms ≠ "euler" → r.diffusion = true) → f25.Legal b.d s b.data f := by
  face_k f25 sliceIx

theorem leg_f26 {env : Env} {s : Sel} {r : Solver} {b : Site}
    (hf : Fits env r b.d) (F : Facts env s r) (z : Sized b.d) (hn : 1 ≤ b.d.ns) (f : Fc)
    (hr : FaceReady (truthy s.diffusion) (b.typ f) (b.data f)) : ∀ t, b.typ f = t → f26.For t →
      (f26.terms ≠ "euler" → r.diffusion = true) → f26.Legal b.d s b.data f := by
  face_k f26 sliceIx

theorem leg_f27 {env : Env} {s : Sel} {r : Solver} {b : Site}
    (hf : Fits env r b.d) (F : Facts env s r) (z : Sized b.d) (hn : 1 ≤ b.d.ns) (f : Fc)
    (hr : FaceReady (truthy s.diffusion) (b.typ f) (b.data f)) : ∀ t, b.typ f = t → f27.For t →
      (f27.terms ≠ "euler" → r.diffusion = true) → f27.Legal b.d s b.data f := by
  face_k f27 sliceIx

theorem leg_f28 {env : Env} {s : Sel} {r : Solver} {b : Site}
    (hf : Fits env r b.d) (F : Facts env s r) (z : Sized b.d) (hn : 1 ≤ b.d.ns) (f : Fc)
    (hr : FaceReady (truthy s.diffusion) (b.typ f) (b.data f)) : ∀ t, b.typ f = t → f28.For t →
      (f28.terms ≠ "euler" → r.diffusion = true) → f28.Legal b.d s b.data f := by
  face_k f28 sliceIx

theorem leg_f29 {env : Env} {s : Sel} {r : Solver} {b : Site}
    (hf : Fits env r b.d) (F : Facts env s r) (z : Sized b.d) (hn : 1 ≤ b.d.ns) (f : Fc)
    (hr : FaceReady (truthy s.diffusion) (b.typ f) (b.data f)) : ∀ t, b.typ f = t → f29.For t →
      (f29.terms ≠ "euler" → r.diffusion = true) → f29.Legal b.d s b.data f := by
  face_k f29 sliceIx

theorem leg_f30 {env : Env} {s : Sel} {r : Solver} {b : Site}
    (hf : Fits env r b.d) (F : Facts env s r) (z : Sized b.d) (hn : 1 ≤ b.d.ns) (f : Fc)
    (hr : FaceReady (truthy s.diffusion) (b.typ f) (b.data f)) : ∀ t, b.typ f = t → f30.For t →
      (f30.terms ≠ "euler" → r.diffusion = true) → f30.Legal b.d s b.data f := by
  face_k f30 sliceIx

theorem leg_f31 {env : Env} {s : Sel} {r : Solver} {b : Site}
    (hf : Fits env r b.d) (F : Facts env s r) (z : Sized b.d) (hn : 1 ≤ b.d.ns) (f : Fc)
    (hr : FaceReady (truthy s.diffusion) (b.typ f) (b.data f)) : ∀ t, b.typ f = t → f31.For t →
      (f31.terms ≠ "euler" → r.diffusion = true) → f31.Legal b.d s b.data f := by
  face_k f31 sliceIx

theorem leg_f32 {env : Env} {s : Sel} {r : Solver} {b : Site}
    (hf : Fits env r b.d) (F : Facts env s r) (z : Sized b.d) (hn : 1 ≤ b.d.ns) (f : Fc)
    (hr : FaceReady (truthy s.diffusion) (b.typ f) (b.data f)) : ∀ t, b.typ f = t → f32.For t →
      (f32.terms ≠ "euler" → r.diffusion = true) → f32.Legal b.d s b.data f := by
  face_k f32 sliceIx

theorem leg_f33 {env : Env} {s : Sel} {r : Solver} {b : Site}
    (hf : Fits env r b.d) (F : Facts env s r) (z : Sized b.d) (hn : 1 ≤ b.d.ns) (f : Fc)
    (hr : FaceReady (truthy s.diffusion) (b.typ f) (b.data f)) : ∀ t, b.typ f = t → f33.For t →
      (f33.terms ≠ "euler" → r.diffusion = true) → f33.Legal b.d s b.data f := by
  face_k f33 sliceIx

/-- C113 (text of the boundary conditions): in a case that started, whose faces hold what their types read, every access in the
    text of the kernels of the boundary types in use is to an element of an allocated array, on every face, in every round of the
    halo loop, for all sizes. The terms of the gradients run with diffusion only. -/
theorem C113_source_faces (env : Env) (s : Sel) (r : Solver) (b : Site) (h : start env s = .ok r) (hf : Fits env r b.d)
    (hi : InputComplete env s b) : ∀ f, ∀ K ∈ onFaces, K.For (b.typ f) → (K.terms ≠ "euler" → r.diffusion = true) →
      K.Legal b.d s b.data f := by
  have F := facts h
  have z := sized F hf
  have hn := z.ns
  intro f
  have hr := hi.faces f
  have main : ∀ K ∈ onFaces, ∀ t, b.typ f = t → K.For t → (K.terms ≠ "euler" → r.diffusion = true) → K.Legal b.d s b.data f := by
    simp only [onFaces, List.forall_mem_cons, List.not_mem_nil, IsEmpty.forall_iff, implies_true, and_true]
    and_intros
    · exact leg_f00 hf F z hn f hr
    · exact leg_f01 hf F z hn f hr
    · exact leg_f02 hf F z hn f hr
    · exact leg_f03 hf F z hn f hr
    · exact leg_f04 hf F z hn f hr
    · exact leg_f05 hf F z hn f hr
    · exact leg_f06 hf F z hn f hr
    · exact leg_f07 hf F z hn f hr
    · exact leg_f08 hf F z hn f hr
    · exact leg_f09 hf F z hn f hr
    · exact leg_f10 hf F z hn f hr
    · exact leg_f11 hf F z hn f hr
    · exact leg_f12 hf F z hn f hr
    · exact leg_f13 hf F z hn f hr
    · exact leg_f14 hf F z hn f hr
    · exact leg_f15 hf F z hn f hr
    · exact leg_f16 hf F z hn f hr
    · exact leg_f17 hf F z hn f hr
    · exact leg_f18 hf F z hn f hr
    · exact leg_f19 hf F z hn f hr
    · exact leg_f20 hf F z hn f hr
    · exact leg_f21 hf F z hn f hr
    · exact leg_f22 hf F z hn f hr
    · exact leg_f23 hf F z hn f hr
    · exact leg_f24 hf F z hn f hr
    · exact leg_f25 hf F z hn f hr
    · exact leg_f26 hf F z hn f hr
    · exact leg_f27 hf F z hn f hr
    · exact leg_f28 hf F z hn f hr
    · exact leg_f29 hf F z hn f hr
    · exact leg_f30 hf F z hn f hr
    · exact leg_f31 hf F z hn f hr
    · exact leg_f32 hf F z hn f hr
    · exact leg_f33 hf F z hn f hr
  exact fun K hK => main K hK _ rfl
end PG.Safe.Src
