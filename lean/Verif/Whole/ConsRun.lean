import Verif.Whole.ConsMain
/-!
C93: totals over a run.
-/
noncomputable section
namespace PG.Whole
open PG.Topo PG.Halo PG.Time

variable {S : Sig} {ng : Nat} {W : List (List Block)} {K : Kernels S} {I : Inp S} {l : Nat}

theorem total_congr {vol : S.G → ℝ} {x y : Entry → ℝ} (h : ∀ r b, Owns W r b → ∀ p, InBox 0 b.dims p → x (b.nblki, p, l) = y (b.nblki, p, l)) :
    total vol I W l x = total vol I W l y := by
  unfold total
  congr 1
  refine List.map_congr_left fun b hb => ?_
  obtain ⟨r, hb⟩ := owns_flatten.1 hb
  refine Finset.sum_congr rfl fun p hp => ?_
  rw [h r b hb p (mem_cells.1 hp)]

theorem total_add (vol : S.G → ℝ) (x y : Entry → ℝ) :
    total vol I W l (fun i => x i + y i) = total vol I W l x + total vol I W l y := by
  unfold total
  rw [← List.sum_map_add]
  congr 1
  refine List.map_congr_left fun b _ => ?_
  rw [← Finset.sum_add_distrib]
  exact Finset.sum_congr rfl fun p _ => by ring

theorem total_mul (vol : S.G → ℝ) (a : ℝ) (x : Entry → ℝ) : total vol I W l (fun i => a * x i) = a * total vol I W l x := by
  unfold total
  rw [← List.sum_map_mul_left]
  congr 1
  refine List.map_congr_left fun b _ => ?_
  rw [Finset.mul_sum]
  exact Finset.sum_congr rfl fun p _ => by ring

theorem total_lin2 (vol : S.G → ℝ) (a b : ℝ) (x y w : Entry → ℝ) (h : ∀ i, w i = a * x i + b * y i) :
    total vol I W l w = a * total vol I W l x + b * total vol I W l y := by
  have : w = fun i => (fun i => a * x i) i + (fun i => b * y i) i := funext h
  rw [this, total_add, total_mul, total_mul]

theorem total_lin3 (vol : S.G → ℝ) (a b c : ℝ) (x y z w : Entry → ℝ) (h : ∀ i, w i = a * x i + b * y i + c * z i) :
    total vol I W l w = a * total vol I W l x + b * total vol I W l y + c * total vol I W l z := by
  have : w = fun i => (fun i => a * x i + b * y i) i + (fun i => c * z i) i := funext h
  rw [this, total_add, total_mul, total_lin2 vol a b x y _ (fun _ => rfl)]

theorem env_inner (hw : WellConnected W) {r : Nat} {b : Block} (hb : Owns W r b) {p : Pos} (hp : InBox 0 b.dims p) (k : Nat) :
    (env K I ng W).inner (b.nblki, p, k) = true := by
  simp only [env]
  rw [owner_eq W hw r b hb]
  simpa using hp

theorem total_onInner (hw : WellConnected W) (vol : S.G → ℝ) (x y : Entry → ℝ) :
    total vol I W l (onInner (env K I ng W) x y) = total vol I W l y :=
  total_congr fun r b hb p hp => by unfold onInner; rw [env_inner hw hb hp, if_pos rfl]

theorem consistify_total (C : Conservative ng K l) (hng : 0 < ng) (hw : WellConnected W) (t : ℝ) (s : State S) :
    total C.vol I W l (consistify K I ng W t s).Q = total C.vol I W l s.Q := by
  refine total_congr fun r b hb p hp => ?_
  simp only [consistify, finishConsistify, setCells]
  rw [perBlock_eq hw hb, bc_inside hp, C.eos]
  simp only [cell]
  rw [exch_un hng hw _ hb (interior_unexchanged hw hb (interior_nat (by decide) hp))]

theorem rhs_keeps (vol : S.G → ℝ) (hw : WellConnected W) (t : ℝ) (s : State S) :
    total vol I W l (rhs K I ng W t s).2.Q = total vol I W l s.Q := by
  simp only [rhs]
  cases K.diffusion
  · simp
  · simp only [if_true]
    refine total_congr fun r b hb p hp => ?_
    simp only [prepareDiffusion, setCells]
    rw [perBlock_eq hw hb, bc_inside hp]
    rfl

theorem Ready.setQ {s : State S} (h : Ready ng K W s) (Q : Entry → ℝ) : Ready ng K W { s with Q := Q } := ⟨h.eos, h.phi⟩

theorem Synced.ready {s : State S} (h : Synced ng W s) : Ready ng K W s :=
  ⟨Or.inr fun r b hb f hf nb hnb r' b' hb' hb'n p p' hp hp' hg => by
    have := h.cells r b hb f hf nb hnb r' b' hb' hb'n p p' hp hp' hg
    rw [this]; exact ⟨rfl, rfl⟩, fun _ => h.phi⟩

/-- between steps: halos have just been filled, and the total is `M` -/
structure Inv (C : Conservative ng K l) (I : Inp S) (W : List (List Block)) (M : ℝ) (s : St Entry (Aux S)) : Prop where
  img : ∃ t c, Ready ng K W c ∧ s.core = consistify K I ng W t c
  tot : total C.vol I W l s.core.Q = M

section
variable {C : Conservative ng K l} (hng : 0 < ng) (hw : WellConnected W) (ht : Thick ng W) (hF : SameFaces C I W) (hN : NullBC ng I W)
  (hZ : Sealed C I W)
include hng hw ht hF hN
local notation "e" => env K I ng W
local notation "T" => total C.vol I W l

theorem inv_stage {M : ℝ} (t : ℝ) {s s' : St Entry (Aux S)} (h : Inv C I W M s) {Q : Entry → ℝ}
    (hc : s'.core = { (doRHS e t s).core with Q := Q }) (hQ : T Q = M) : Inv C I W M (doConsistify e s') := by
  obtain ⟨⟨t0, c, hR, e0⟩, -⟩ := h
  have hs : Synced ng W s.core := by rw [e0]; exact consistify_sync hng hw hF hN t0 hR
  have hR2 : Ready ng K W (doRHS e t s).core := by
    have : Synced ng W (rhs K I ng W t s.core).2 := by
      simp only [rhs]
      cases K.diffusion
      · exact hs
      · exact (prepare_sync hng hw ht hF hN t hs).1
    exact this.ready
  refine ⟨⟨s'.titme, s'.core, ?_, rfl⟩, ?_⟩
  · rw [hc]; exact hR2.setQ Q
  · have : T (consistify K I ng W s'.titme s'.core).Q = T s'.core.Q := consistify_total C hng hw _ _
    rw [hc] at this
    exact (congrArg (fun c => T (consistify K I ng W s'.titme c).Q) hc).trans (this.trans hQ)

theorem rhs_supply {M : ℝ} (t : ℝ) {s : St Entry (Aux S)} (h : Inv C I W M s) : T (doRHS e t s).dQ = supply C I W t s.core := by
  obtain ⟨⟨t0, c, hR, e0⟩, -⟩ := h
  have hs : Synced ng W s.core := by rw [e0]; exact consistify_sync hng hw hF hN t0 hR
  exact rhs_total hng hw ht hF hN t hs

theorem rhs_core {M : ℝ} (t : ℝ) {s : St Entry (Aux S)} (h : Inv C I W M s) : T (doRHS e t s).core.Q = M := by
  rw [← h.tot]; exact rhs_keeps C.vol hw t s.core

include hZ in
theorem rhs_zero {M : ℝ} (t : ℝ) {s : St Entry (Aux S)} (h : Inv C I W M s) : T (doRHS e t s).dQ = 0 := by
  rw [rhs_supply hng hw ht hF hN t h]
  obtain ⟨⟨t0, c, hR, e0⟩, -⟩ := h
  rw [e0]; exact hZ _ _ _

omit hng hw ht hF hN in
theorem Inv.congr {M : ℝ} {s s' : St Entry (Aux S)} (h : Inv C I W M s) (hc : s'.core = s.core) : Inv C I W M s' := by
  obtain ⟨a, b⟩ := h
  exact ⟨by rw [hc]; exact a, by rw [hc]; exact b⟩

include hZ

theorem inv_rk1 {M : ℝ} (dt : ℝ) {s : St Entry (Aux S)} (h : Inv C I W M s) : Inv C I W M (rk1 e dt s) := by
  refine (inv_stage hng hw ht hF hN s.tme h (s' := ApEQxB dt (doRHS e s.tme s)) rfl ?_).congr rfl
  rw [total_lin2 C.vol 1 dt (doRHS e s.tme s).core.Q (doRHS e s.tme s).dQ _ (fun _ => by ring), rhs_zero hng hw ht hF hN hZ _ h,
    rhs_core hng hw ht hF hN _ h]
  ring

theorem inv_rk2 {M : ℝ} (dt : ℝ) {s : St Entry (Aux S)} (h : Inv C I W M s) : Inv C I W M (rk2 e dt s) := by
  simp only [rk2]
  have h1 : Inv C I W M (doConsistify e (rk2s1 e dt (doRHS e s.tme s))) := by
    refine inv_stage hng hw ht hF hN s.tme h rfl ?_
    rw [total_onInner hw, total_lin2 C.vol 1 dt (doRHS e s.tme s).core.Q (doRHS e s.tme s).dQ _ (fun _ => by ring),
      rhs_zero hng hw ht hF hN hZ _ h, rhs_core hng hw ht hF hN _ h]
    ring
  have q1 : T (doConsistify e (rk2s1 e dt (doRHS e s.tme s))).Q0 = M :=
    (total_onInner hw C.vol _ _).trans (rhs_core hng hw ht hF hN _ h)
  generalize doConsistify e (rk2s1 e dt (doRHS e s.tme s)) = s1 at h1 q1 ⊢
  refine (inv_stage hng hw ht hF hN (s.tme + dt) h1 (s' := rk2s2 e dt (doRHS e (s.tme + dt) s1)) rfl ?_).congr rfl
  rw [total_onInner hw, total_lin3 C.vol 0.5 0.5 (0.5 * dt) s1.Q0 (doRHS e (s.tme + dt) s1).core.Q (doRHS e (s.tme + dt) s1).dQ _
    (fun i => by simp only [doRHS]; ring), rhs_zero hng hw ht hF hN hZ _ h1, rhs_core hng hw ht hF hN _ h1, q1]
  ring

theorem inv_rk3stages {M : ℝ} (dt : ℝ) {s : St Entry (Aux S)} (h : Inv C I W M s) : Inv C I W M (rk3stages e dt s) := by
  simp only [rk3stages]
  have h1 : Inv C I W M (doConsistify e (rk3s1 e dt (doRHS e s.tme s))) := by
    refine inv_stage hng hw ht hF hN s.tme h rfl ?_
    rw [total_onInner hw, total_lin2 C.vol 1 dt (doRHS e s.tme s).core.Q (doRHS e s.tme s).dQ _ (fun _ => by ring),
      rhs_zero hng hw ht hF hN hZ _ h, rhs_core hng hw ht hF hN _ h]
    ring
  have q1 : T (doConsistify e (rk3s1 e dt (doRHS e s.tme s))).Q0 = M :=
    (total_onInner hw C.vol _ _).trans (rhs_core hng hw ht hF hN _ h)
  generalize doConsistify e (rk3s1 e dt (doRHS e s.tme s)) = s1 at h1 q1 ⊢
  have h2 : Inv C I W M (doConsistify e (rk3s2 e dt (doRHS e (s.tme + dt) s1))) := by
    refine inv_stage hng hw ht hF hN (s.tme + dt) h1 rfl ?_
    rw [total_onInner hw, total_lin3 C.vol 0.75 0.25 (0.25 * dt) s1.Q0 (doRHS e (s.tme + dt) s1).core.Q (doRHS e (s.tme + dt) s1).dQ _
      (fun i => by simp only [doRHS]; ring), rhs_zero hng hw ht hF hN hZ _ h1, rhs_core hng hw ht hF hN _ h1, q1]
    ring
  have q2 : T (doConsistify e (rk3s2 e dt (doRHS e (s.tme + dt) s1))).Q0 = M := q1
  generalize doConsistify e (rk3s2 e dt (doRHS e (s.tme + dt) s1)) = s2 at h2 q2 ⊢
  refine inv_stage hng hw ht hF hN (s.tme + dt / 2) h2 rfl ?_
  rw [total_onInner hw, total_lin3 C.vol (1 / 3) (2 / 3) (2 * dt / 3) s2.Q0 (doRHS e (s.tme + dt / 2) s2).core.Q (doRHS e (s.tme + dt / 2) s2).dQ _
    (fun i => by simp only [doRHS]; ring), rhs_zero hng hw ht hF hN hZ _ h2, rhs_core hng hw ht hF hN _ h2, q2]
  ring

theorem inv_rk34 {M : ℝ} (dt : ℝ) {s : St Entry (Aux S)} (h : Inv C I W M s) : Inv C I W M (rk34 e dt s) := by
  simp only [rk34]
  have h1 : Inv C I W M (doConsistify e (rk34s1 e dt (doRHS e s.tme s))) := by
    refine inv_stage hng hw ht hF hN s.tme h rfl ?_
    rw [total_onInner hw, total_lin2 C.vol 1 (0.5 * dt) (doRHS e s.tme s).core.Q (doRHS e s.tme s).dQ _ (fun _ => by ring),
      rhs_zero hng hw ht hF hN hZ _ h, rhs_core hng hw ht hF hN _ h]
    ring
  have q1 : T (doConsistify e (rk34s1 e dt (doRHS e s.tme s))).Q0 = M :=
    (total_onInner hw C.vol _ _).trans (rhs_core hng hw ht hF hN _ h)
  generalize doConsistify e (rk34s1 e dt (doRHS e s.tme s)) = s1 at h1 q1 ⊢
  have h2 : Inv C I W M (doConsistify e (rk34s2 e dt (doRHS e (s.tme + dt / 2) s1))) := by
    refine inv_stage hng hw ht hF hN (s.tme + dt / 2) h1 rfl ?_
    rw [total_onInner hw, total_lin2 C.vol 1 (0.5 * dt) (doRHS e (s.tme + dt / 2) s1).core.Q (doRHS e (s.tme + dt / 2) s1).dQ _ (fun _ => by ring),
      rhs_zero hng hw ht hF hN hZ _ h1, rhs_core hng hw ht hF hN _ h1]
    ring
  have q2 : T (doConsistify e (rk34s2 e dt (doRHS e (s.tme + dt / 2) s1))).Q0 = M := q1
  generalize doConsistify e (rk34s2 e dt (doRHS e (s.tme + dt / 2) s1)) = s2 at h2 q2 ⊢
  have h3 : Inv C I W M (doConsistify e (rk34s3 e dt (doRHS e (s.tme + dt) s2))) := by
    refine inv_stage hng hw ht hF hN (s.tme + dt) h2 rfl ?_
    rw [total_onInner hw, total_lin3 C.vol (2 / 3) (1 / 3) (1 / 6 * dt) s2.Q0 (doRHS e (s.tme + dt) s2).core.Q (doRHS e (s.tme + dt) s2).dQ _
      (fun i => by simp only [doRHS]; ring), rhs_zero hng hw ht hF hN hZ _ h2, rhs_core hng hw ht hF hN _ h2, q2]
    ring
  generalize doConsistify e (rk34s3 e dt (doRHS e (s.tme + dt) s2)) = s3 at h3 ⊢
  refine (inv_stage hng hw ht hF hN (s.tme + dt / 2) h3 (s' := rk34s4 e dt (doRHS e (s.tme + dt / 2) s3)) rfl ?_).congr rfl
  rw [total_onInner hw, total_lin2 C.vol 1 (0.5 * dt) (doRHS e (s.tme + dt / 2) s3).core.Q (doRHS e (s.tme + dt / 2) s3).dQ _ (fun _ => by ring),
    rhs_zero hng hw ht hF hN hZ _ h3, rhs_core hng hw ht hF hN _ h3]
  ring

theorem inv_rk4 {M : ℝ} (dt : ℝ) {s : St Entry (Aux S)} (h : Inv C I W M s) : Inv C I W M (rk4 e dt s) := by
  simp only [rk4]
  have z0 := rhs_zero hng hw ht hF hN hZ s.tme h
  have h1 : Inv C I W M (doConsistify e (rk4s1 e dt (doRHS e s.tme s))) := by
    refine inv_stage hng hw ht hF hN s.tme h rfl ?_
    rw [total_onInner hw, total_lin2 C.vol 1 (0.5 * dt) (doRHS e s.tme s).core.Q (doRHS e s.tme s).dQ _ (fun _ => by ring),
      z0, rhs_core hng hw ht hF hN _ h]
    ring
  have q1 : T (doConsistify e (rk4s1 e dt (doRHS e s.tme s))).Q0 = M ∧ T (doConsistify e (rk4s1 e dt (doRHS e s.tme s))).Q1 = 0 :=
    ⟨(total_onInner hw C.vol _ _).trans (rhs_core hng hw ht hF hN _ h),
      (total_onInner hw C.vol _ _).trans (by rw [total_mul, z0, mul_zero])⟩
  generalize doConsistify e (rk4s1 e dt (doRHS e s.tme s)) = s1 at h1 q1 ⊢
  have z1 := rhs_zero hng hw ht hF hN hZ (s.tme + dt / 2) h1
  have h2 : Inv C I W M (doConsistify e (rk4s2 e dt (doRHS e (s.tme + dt / 2) s1))) := by
    refine inv_stage hng hw ht hF hN (s.tme + dt / 2) h1 rfl ?_
    rw [total_onInner hw, total_lin2 C.vol 1 (0.5 * dt) s1.Q0 (doRHS e (s.tme + dt / 2) s1).dQ _ (fun _ => by simp only [doRHS]; ring), z1, q1.1]
    ring
  have q2 : T (doConsistify e (rk4s2 e dt (doRHS e (s.tme + dt / 2) s1))).Q0 = M ∧ T (doConsistify e (rk4s2 e dt (doRHS e (s.tme + dt / 2) s1))).Q1 = 0 ∧
      T (doConsistify e (rk4s2 e dt (doRHS e (s.tme + dt / 2) s1))).Q2 = 0 :=
    ⟨q1.1, q1.2, (total_onInner hw C.vol _ _).trans (by rw [total_mul, z1, mul_zero])⟩
  generalize doConsistify e (rk4s2 e dt (doRHS e (s.tme + dt / 2) s1)) = s2 at h2 q2 ⊢
  have z2 := rhs_zero hng hw ht hF hN hZ (s.tme + dt / 2) h2
  have h3 : Inv C I W M (doConsistify e (rk4s3 e dt (doRHS e (s.tme + dt / 2) s2))) := by
    refine inv_stage hng hw ht hF hN (s.tme + dt / 2) h2 rfl ?_
    rw [total_onInner hw, total_lin2 C.vol 1 dt s2.Q0 (doRHS e (s.tme + dt / 2) s2).dQ _ (fun _ => by simp only [doRHS]; ring), z2, q2.1]
    ring
  have q3 : T (doConsistify e (rk4s3 e dt (doRHS e (s.tme + dt / 2) s2))).Q0 = M ∧ T (doConsistify e (rk4s3 e dt (doRHS e (s.tme + dt / 2) s2))).Q1 = 0 ∧
      T (doConsistify e (rk4s3 e dt (doRHS e (s.tme + dt / 2) s2))).Q2 = 0 ∧ T (doConsistify e (rk4s3 e dt (doRHS e (s.tme + dt / 2) s2))).Q3 = 0 :=
    ⟨q2.1, q2.2.1, q2.2.2, (total_onInner hw C.vol _ _).trans (by rw [total_mul, z2, mul_zero])⟩
  generalize doConsistify e (rk4s3 e dt (doRHS e (s.tme + dt / 2) s2)) = s3 at h3 q3 ⊢
  have z3 := rhs_zero hng hw ht hF hN hZ (s.tme + dt) h3
  refine (inv_stage hng hw ht hF hN (s.tme + dt) h3 (s' := rk4s4 e dt (doRHS e (s.tme + dt) s3)) rfl ?_).congr rfl
  rw [total_onInner hw, total_lin2 C.vol 1 (dt / 6) (fun i => 1 * s3.Q0 i + (1 / 6) * (fun i => 1 * s3.Q1 i + 2 * s3.Q2 i + 2 * s3.Q3 i) i)
    (doRHS e (s.tme + dt) s3).dQ _ (fun _ => by simp only [doRHS]; ring), z3,
    total_lin2 C.vol 1 (1 / 6) _ _ _ (fun _ => rfl), total_lin3 C.vol 1 2 2 _ _ _ _ (fun _ => rfl), q3.1, q3.2.1, q3.2.2.1, q3.2.2.2]
  ring

theorem inv_maccormack {M : ℝ} (dt : ℝ) {s : St Entry (Aux S)} (h : Inv C I W M s) : Inv C I W M (maccormack e dt s) := by
  simp only [maccormack]
  have h0 : Inv C I W M { s with Q0 := s.core.Q } := h.congr rfl
  have q0 : T ({ s with Q0 := s.core.Q } : St Entry (Aux S)).Q0 = M := h.tot
  generalize ({ s with Q0 := s.core.Q } : St Entry (Aux S)) = s0 at h0 q0 ⊢
  have h1 : Inv C I W M (doConsistify e (ApEQxB dt (doRHS e s.tme s0))) := by
    refine inv_stage hng hw ht hF hN s.tme h0 rfl ?_
    rw [total_lin2 C.vol 1 dt (doRHS e s.tme s0).core.Q (doRHS e s.tme s0).dQ _ (fun _ => by ring),
      rhs_zero hng hw ht hF hN hZ _ h0, rhs_core hng hw ht hF hN _ h0]
    ring
  have q1 : T (doConsistify e (ApEQxB dt (doRHS e s.tme s0))).Q0 = M := q0
  generalize doConsistify e (ApEQxB dt (doRHS e s.tme s0)) = s1 at h1 q1 ⊢
  refine (inv_stage hng hw ht hF hN s1.titme h1 (s' := corrector e dt (doRHS e s1.titme s1)) rfl ?_).congr rfl
  rw [total_onInner hw, total_lin3 C.vol 0.5 0.5 (0.5 * dt) s1.Q0 (doRHS e s1.titme s1).core.Q (doRHS e s1.titme s1).dQ _
    (fun i => by simp only [doRHS]; ring), rhs_zero hng hw ht hF hN hZ _ h1, rhs_core hng hw ht hF hN _ h1, q1]
  ring

theorem inv_strang {M : ℝ} (hQ : EosFromQ K) (hst : ∀ dt c, (K.stiff dt c).Q l = c.Q l) (dt : ℝ) {s : St Entry (Aux S)}
    (h : Inv C I W M s) : Inv C I W M (strang e dt s) := by
  simp only [strang]
  have h1 := inv_rk3stages hng hw ht hF hN hZ (dt / 2) h
  generalize rk3stages e (dt / 2) s = a at h1 ⊢
  have h2 : Inv C I W M (doConsistify e { a with core := (env K I ng W).stiff dt a.core }) := by
    obtain ⟨⟨t0, c, hR, e0⟩, tot⟩ := h1
    have hs : Synced ng W a.core := by rw [e0]; exact consistify_sync hng hw hF hN t0 hR
    refine ⟨⟨a.titme, (env K I ng W).stiff dt a.core, ⟨Or.inl hQ, fun _ => hs.phi⟩, rfl⟩, ?_⟩
    rw [← tot]
    refine (consistify_total C hng hw _ _).trans (total_congr fun r b hb p hp => ?_)
    simp only [env, setCells]
    rw [perBlock_eq hw hb, if_pos hp, hst]
    rfl
  exact (inv_rk3stages hng hw ht hF hN hZ (dt / 2) h2).congr rfl

end

end PG.Whole
