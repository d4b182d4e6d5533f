import Verif.Whole.Kern
/-!
C91: the computed solution does not depend on how the blocks are cut into smaller blocks or distributed over ranks.
-/
noncomputable section
namespace PG.Whole
open PG.Topo PG.Halo PG.Time

variable {S : Sig}

section
variable (ng : Nat) (W' : List (List Block)) (par : Nat → Nat) (off : Nat → Pos) (I' : Inp S)

/-- equal on interior cells -/
def E0 (X' X : Entry → ℝ) : Prop :=
  ∀ r' b', Owns W' r' b' → ∀ p, InBox 0 b'.dims p → ∀ l, X' (b'.nblki, p, l) = X (par b'.nblki, p + off b'.nblki, l)
/-- equal on interior cells and physical halos -/
def EM (X' X : Entry → ℝ) : Prop :=
  ∀ r' b', Owns W' r' b' → ∀ p, Own ng b' p → ∀ l, X' (b'.nblki, p, l) = X (par b'.nblki, p + off b'.nblki, l)

/-- storage arrays and clocks agree -/
structure Side (s' s : St Entry (Aux S)) : Prop where
  Q0 : E0 W' par off s'.Q0 s.Q0
  Q1 : E0 W' par off s'.Q1 s.Q1
  Q2 : E0 W' par off s'.Q2 s.Q2
  Q3 : E0 W' par off s'.Q3 s.Q3
  Qn : E0 W' par off s'.Qn s.Qn
  Qnm1 : E0 W' par off s'.Qnm1 s.Qnm1
  dtau : E0 W' par off s'.dtau s.dtau
  dQ : EM ng W' par off s'.dQ s.dQ
  nrt : s'.nrt = s.nrt
  tme : s'.tme = s.tme
  titme : s'.titme = s.titme

/-- consistent states -/
structure Rel (s' s : St Entry (Aux S)) : Prop where
  full : Full ng W' par off I' s'.core s.core
  side : Side ng W' par off s' s

/-- states after a stage update of `Q` -/
structure RelW (K : Kernels S) (s' s : St Entry (Aux S)) : Prop where
  Q : EM ng W' par off s'.core.Q s.core.Q
  rest : EosFromQ K ∨ Same W' par off ng (fun n p => ((fun l => s'.core.q (n, p, l) : Vec), s'.core.aux.h n p))
      (fun n p => ((fun l => s.core.q (n, p, l) : Vec), s.core.aux.h n p))
  phi : Same W' par off 1 s'.core.aux.phi s.core.aux.phi
  dq : FreshPost ng W' I' ∨ Same W' par off 1 s'.core.aux.dq s.core.aux.dq
  side : Side ng W' par off s' s

/-- states after a stage update of `q` -/
structure RelP (s' s : St Entry (Aux S)) : Prop where
  q : EM ng W' par off s'.core.q s.core.q
  phi : Same W' par off 1 s'.core.aux.phi s.core.aux.phi
  dq : FreshPost ng W' I' ∨ Same W' par off 1 s'.core.aux.dq s.core.aux.dq
  side : Side ng W' par off s' s
end

variable {ng : Nat} {W' W : List (List Block)} {par : Nat → Nat} {off : Nat → Pos} {K : Kernels S} {I' I : Inp S}

theorem EM.e0 {X' X : Entry → ℝ} (h : EM ng W' par off X' X) : E0 W' par off X' X :=
  fun r' b' hb' p hp => h r' b' hb' p (Or.inl hp)

theorem Rel.cellQ (hs : Split ng W' W par off) {s' s : St Entry (Aux S)} (h : Rel ng W' par off I' s' s) :
    EM ng W' par off s'.core.Q s.core.Q := fun r' b' hb' p hp l =>
  congrFun (congrArg Cl.Q (h.full.cells r' b' hb' p (own_near hs.child hb' hp))) l
theorem Rel.cellq (hs : Split ng W' W par off) {s' s : St Entry (Aux S)} (h : Rel ng W' par off I' s' s) :
    EM ng W' par off s'.core.q s.core.q := fun r' b' hb' p hp l =>
  congrFun (congrArg Cl.q (h.full.cells r' b' hb' p (own_near hs.child hb' hp))) l
theorem Rel.rest {s' s : St Entry (Aux S)} (h : Rel ng W' par off I' s' s) :
    Same W' par off ng (fun n p => ((fun l => s'.core.q (n, p, l) : Vec), s'.core.aux.h n p))
      (fun n p => ((fun l => s.core.q (n, p, l) : Vec), s.core.aux.h n p)) := fun r' b' hb' p hp => by
  have := h.full.cells r' b' hb' p hp
  exact Prod.ext (congrArg Cl.q this) (congrArg Cl.h this)

theorem inner_in {I : Inp S} {W : List (List Block)} (hw : WellConnected W) {r : Nat} {b : Block} (hb : Owns W r b) {p : Pos} {l : Nat} :
    (env K I ng W).inner (b.nblki, p, l) = decide (InBox 0 b.dims p) := by
  simp only [env]; rw [owner_eq W hw r b hb]

theorem inner_same (hs : Split ng W' W par off) {r' : Nat} {b' : Block} (hb' : Owns W' r' b') {p : Pos} (hp : Own ng b' p) (l : Nat) :
    (env K I' ng W').inner (b'.nblki, p, l) = (env K I ng W).inner (par b'.nblki, p + off b'.nblki, l) ∧
    ((env K I' ng W').inner (b'.nblki, p, l) = true → InBox 0 b'.dims p) := by
  obtain ⟨r, b, hb, hbn, hbox⟩ := hs.inside r' b' hb'
  rw [← hbn, inner_in hs.child hb', inner_in hs.parent hb]
  refine ⟨?_, fun h => by simpa using h⟩
  rcases hp with hp | ⟨f', hf', hnone, hp⟩
  · rw [decide_eq_true hp, decide_eq_true (inside_add hbox hp)]
  · rw [decide_eq_false (halo_outside hp), decide_eq_false (halo_outside (touch_halo (touch_of_none hs hb' hb hbn hf' hnone) hbox hp))]

theorem onInner_em (hs : Split ng W' W par off) {X' X Y' Y : Entry → ℝ} (hX : EM ng W' par off X' X) (hY : E0 W' par off Y' Y) :
    EM ng W' par off (onInner (env K I' ng W') X' Y') (onInner (env K I ng W) X Y) := by
  intro r' b' hb' p hp l
  obtain ⟨h1, h2⟩ := inner_same (K := K) (I' := I') (I := I) hs hb' hp l
  unfold onInner
  rw [← h1]
  cases hi : (env K I' ng W').inner (b'.nblki, p, l)
  · simp only [Bool.false_eq_true, if_false]; exact hX r' b' hb' p hp l
  · simp only [if_true]; exact hY r' b' hb' p (h2 hi) l

theorem onInner_e0 (hs : Split ng W' W par off) {X' X Y' Y : Entry → ℝ} (hY : E0 W' par off Y' Y) :
    E0 W' par off (onInner (env K I' ng W') X' Y') (onInner (env K I ng W) X Y) := by
  intro r' b' hb' p hp l
  obtain ⟨h1, h2⟩ := inner_same (K := K) (I' := I') (I := I) hs hb' (Or.inl hp) l
  have hi : (env K I' ng W').inner (b'.nblki, p, l) = true := by rw [inner_in hs.child hb']; exact decide_eq_true hp
  unfold onInner
  rw [← h1, hi]
  simp only [if_true]; exact hY r' b' hb' p hp l

section
variable (hng : 0 < ng) (hs : Split ng W' W par off) (hK : LocalKernels ng K) (hI : SameInput ng W' W par off I' I)
include hng hs hK hI

theorem rel_rhs (t : ℝ) {s' s : St Entry (Aux S)} (h : Rel ng W' par off I' s' s) :
    Rel ng W' par off I' (doRHS (env K I' ng W') t s') (doRHS (env K I ng W) t s) := by
  obtain ⟨h1, h2⟩ := rhs_same hng hs hK hI t h.full
  exact ⟨h2, { h.side with titme := rfl, dQ := fun r' b' hb' p hp l => congrFun (h1 r' b' hb' p hp) l }⟩

theorem rel_rhs_at {t' t : ℝ} (ht : t' = t) {s' s : St Entry (Aux S)} (h : Rel ng W' par off I' s' s) :
    Rel ng W' par off I' (doRHS (env K I' ng W') t' s') (doRHS (env K I ng W) t s) := by
  rw [ht]; exact rel_rhs hng hs hK hI t h

theorem rel_consistify {s' s : St Entry (Aux S)} (h : RelW ng W' par off I' K s' s) :
    Rel ng W' par off I' (doConsistify (env K I' ng W') s') (doConsistify (env K I ng W) s) := by
  refine ⟨?_, { h.side with }⟩
  show Full ng W' par off I' (consistify K I' ng W' s'.titme s'.core) (consistify K I ng W s.titme s.core)
  rw [h.side.titme]
  exact consistify_full hng hs hK hI _ (fun r' b' hb' p hp => funext (h.Q r' b' hb' p hp)) h.rest h.phi h.dq

theorem rel_consistifyP {s' s : St Entry (Aux S)} (h : RelP ng W' par off I' s' s) :
    Rel ng W' par off I' (doConsistifyP (env K I' ng W') s') (doConsistifyP (env K I ng W) s) := by
  refine ⟨?_, { h.side with }⟩
  show Full ng W' par off I' (consistifyP K I' ng W' s'.titme s'.core) (consistifyP K I ng W s.titme s.core)
  rw [h.side.titme]
  exact consistifyP_full hng hs hK hI _ (fun r' b' hb' p hp => funext (h.q r' b' hb' p hp)) h.phi h.dq

end

/-- update of Q (and of storage) keeps everything else -/
theorem Rel.setQ {s' s : St Entry (Aux S)} (h : Rel ng W' par off I' s' s) {X' X : Entry → ℝ} (hX : EM ng W' par off X' X) :
    RelW ng W' par off I' K (s'.setQ X') (s.setQ X) :=
  ⟨hX, Or.inr h.rest, h.full.phi, h.full.dq, { h.side with }⟩

theorem Rel.setq {s' s : St Entry (Aux S)} (h : Rel ng W' par off I' s' s) {X' X : Entry → ℝ} (hX : EM ng W' par off X' X) :
    RelP ng W' par off I' (s'.setq X') (s.setq X) :=
  ⟨hX, h.full.phi, h.full.dq, { h.side with }⟩

theorem Rel.finish {s' s : St Entry (Aux S)} (h : Rel ng W' par off I' s' s) (dt : ℝ) :
    Rel ng W' par off I' (PG.Time.finish dt s') (PG.Time.finish dt s) :=
  ⟨h.full, { h.side with
    nrt := by simp only [PG.Time.finish]; rw [h.side.nrt]
    tme := by simp only [PG.Time.finish]; rw [h.side.tme]
    titme := by simp only [PG.Time.finish]; rw [h.side.tme] }⟩

/-- pointwise combination of arrays -/
theorem e0_map2 (F : ℝ → ℝ → ℝ) {A' A B' B : Entry → ℝ} (hA : E0 W' par off A' A) (hB : E0 W' par off B' B) :
    E0 W' par off (fun i => F (A' i) (B' i)) (fun i => F (A i) (B i)) := fun r' b' hb' p hp l => by
  dsimp only; rw [hA r' b' hb' p hp l, hB r' b' hb' p hp l]
theorem e0_map3 (F : ℝ → ℝ → ℝ → ℝ) {A' A B' B C' C : Entry → ℝ} (hA : E0 W' par off A' A) (hB : E0 W' par off B' B)
    (hC : E0 W' par off C' C) :
    E0 W' par off (fun i => F (A' i) (B' i) (C' i)) (fun i => F (A i) (B i) (C i)) := fun r' b' hb' p hp l => by
  dsimp only; rw [hA r' b' hb' p hp l, hB r' b' hb' p hp l, hC r' b' hb' p hp l]
theorem e0_map4 (F : ℝ → ℝ → ℝ → ℝ → ℝ) {A' A B' B C' C D' D : Entry → ℝ} (hA : E0 W' par off A' A) (hB : E0 W' par off B' B)
    (hC : E0 W' par off C' C) (hD : E0 W' par off D' D) :
    E0 W' par off (fun i => F (A' i) (B' i) (C' i) (D' i)) (fun i => F (A i) (B i) (C i) (D i)) := fun r' b' hb' p hp l => by
  dsimp only; rw [hA r' b' hb' p hp l, hB r' b' hb' p hp l, hC r' b' hb' p hp l, hD r' b' hb' p hp l]
theorem e0_map5 (F : ℝ → ℝ → ℝ → ℝ → ℝ → ℝ) {A' A B' B C' C D' D G' G : Entry → ℝ} (hA : E0 W' par off A' A) (hB : E0 W' par off B' B)
    (hC : E0 W' par off C' C) (hD : E0 W' par off D' D) (hG : E0 W' par off G' G) :
    E0 W' par off (fun i => F (A' i) (B' i) (C' i) (D' i) (G' i)) (fun i => F (A i) (B i) (C i) (D i) (G i)) := fun r' b' hb' p hp l => by
  dsimp only; rw [hA r' b' hb' p hp l, hB r' b' hb' p hp l, hC r' b' hb' p hp l, hD r' b' hb' p hp l, hG r' b' hb' p hp l]

section
variable (hs : Split ng W' W par off) {s' s : St Entry (Aux S)} (h : Rel ng W' par off I' s' s)
include hs h
local notation "e'" => env K I' ng W'
local notation "e" => env K I ng W

theorem st_ApEQxB (dt : ℝ) : RelW ng W' par off I' K (ApEQxB dt s') (ApEQxB dt s) := by
  refine h.setQ ?_
  intro r' b' hb' p hp l
  dsimp only
  rw [h.cellQ hs r' b' hb' p hp l, h.side.dQ r' b' hb' p hp l]

theorem st_rk2s1 (dt : ℝ) : RelW ng W' par off I' K (rk2s1 e' dt s') (rk2s1 e dt s) := by
  have q := h.setQ (K := K) (onInner_em (K := K) (I' := I') (I := I) hs (h.cellQ hs) (e0_map2 (fun x y => x + y * dt) (h.cellQ hs).e0 h.side.dQ.e0))
  exact { q with side := { q.side with
    Q0 := onInner_e0 hs (h.cellQ hs).e0 } }

theorem st_rk2s2 (dt : ℝ) : RelW ng W' par off I' K (rk2s2 e' dt s') (rk2s2 e dt s) := by
  have q := h.setQ (K := K) (onInner_em (K := K) (I' := I') (I := I) hs (h.cellQ hs) (e0_map3 (fun x y z => 0.5 * x + 0.5 * (y + dt * z)) h.side.Q0 (h.cellQ hs).e0 h.side.dQ.e0))
  exact q

theorem st_rk3s1 (dt : ℝ) : RelW ng W' par off I' K (rk3s1 e' dt s') (rk3s1 e dt s) := by
  have q := h.setQ (K := K) (onInner_em (K := K) (I' := I') (I := I) hs (h.cellQ hs) (e0_map2 (fun x y => x + dt * y) (h.cellQ hs).e0 h.side.dQ.e0))
  exact { q with side := { q.side with
    Q0 := onInner_e0 hs (h.cellQ hs).e0 } }

theorem st_rk3s2 (dt : ℝ) : RelW ng W' par off I' K (rk3s2 e' dt s') (rk3s2 e dt s) := by
  have q := h.setQ (K := K) (onInner_em (K := K) (I' := I') (I := I) hs (h.cellQ hs) (e0_map3 (fun x y z => 0.75 * x + 0.25 * y + 0.25 * z * dt) h.side.Q0 (h.cellQ hs).e0 h.side.dQ.e0))
  exact q

theorem st_rk3s3 (dt : ℝ) : RelW ng W' par off I' K (rk3s3 e' dt s') (rk3s3 e dt s) := by
  have q := h.setQ (K := K) (onInner_em (K := K) (I' := I') (I := I) hs (h.cellQ hs) (e0_map3 (fun x y z => (x + 2 * y + 2 * z * dt) / 3) h.side.Q0 (h.cellQ hs).e0 h.side.dQ.e0))
  exact q

theorem st_rk34s1 (dt : ℝ) : RelW ng W' par off I' K (rk34s1 e' dt s') (rk34s1 e dt s) := by
  have q := h.setQ (K := K) (onInner_em (K := K) (I' := I') (I := I) hs (h.cellQ hs) (e0_map2 (fun x y => x + 0.5 * dt * y) (h.cellQ hs).e0 h.side.dQ.e0))
  exact { q with side := { q.side with
    Q0 := onInner_e0 hs (h.cellQ hs).e0 } }

theorem st_rk34s2 (dt : ℝ) : RelW ng W' par off I' K (rk34s2 e' dt s') (rk34s2 e dt s) := by
  have q := h.setQ (K := K) (onInner_em (K := K) (I' := I') (I := I) hs (h.cellQ hs) (e0_map2 (fun x y => x + 0.5 * dt * y) (h.cellQ hs).e0 h.side.dQ.e0))
  exact q

theorem st_rk34s3 (dt : ℝ) : RelW ng W' par off I' K (rk34s3 e' dt s') (rk34s3 e dt s) := by
  have q := h.setQ (K := K) (onInner_em (K := K) (I' := I') (I := I) hs (h.cellQ hs) (e0_map3 (fun x y z => 2 / 3 * x + 1 / 3 * y + 1 / 6 * z * dt) h.side.Q0 (h.cellQ hs).e0 h.side.dQ.e0))
  exact q

theorem st_rk34s4 (dt : ℝ) : RelW ng W' par off I' K (rk34s4 e' dt s') (rk34s4 e dt s) := by
  have q := h.setQ (K := K) (onInner_em (K := K) (I' := I') (I := I) hs (h.cellQ hs) (e0_map2 (fun y z => y + 0.5 * z * dt) (h.cellQ hs).e0 h.side.dQ.e0))
  exact q

theorem st_rk4s1 (dt : ℝ) : RelW ng W' par off I' K (rk4s1 e' dt s') (rk4s1 e dt s) := by
  have q := h.setQ (K := K) (onInner_em (K := K) (I' := I') (I := I) hs (h.cellQ hs) (e0_map2 (fun x y => x + 0.5 * (dt * y)) (h.cellQ hs).e0 h.side.dQ.e0))
  exact { q with side := { q.side with
    Q0 := onInner_e0 hs (h.cellQ hs).e0
    Q1 := onInner_e0 hs (e0_map2 (fun _ y => dt * y) (h.cellQ hs).e0 h.side.dQ.e0) } }

theorem st_rk4s2 (dt : ℝ) : RelW ng W' par off I' K (rk4s2 e' dt s') (rk4s2 e dt s) := by
  have q := h.setQ (K := K) (onInner_em (K := K) (I' := I') (I := I) hs (h.cellQ hs) (e0_map2 (fun x y => x + 0.5 * (dt * y)) h.side.Q0 h.side.dQ.e0))
  exact { q with side := { q.side with
    Q2 := onInner_e0 hs (e0_map2 (fun _ y => dt * y) (h.cellQ hs).e0 h.side.dQ.e0) } }

theorem st_rk4s3 (dt : ℝ) : RelW ng W' par off I' K (rk4s3 e' dt s') (rk4s3 e dt s) := by
  have q := h.setQ (K := K) (onInner_em (K := K) (I' := I') (I := I) hs (h.cellQ hs) (e0_map2 (fun x y => x + dt * y) h.side.Q0 h.side.dQ.e0))
  exact { q with side := { q.side with
    Q3 := onInner_e0 hs (e0_map2 (fun _ y => dt * y) (h.cellQ hs).e0 h.side.dQ.e0) } }

theorem st_rk4s4 (dt : ℝ) : RelW ng W' par off I' K (rk4s4 e' dt s') (rk4s4 e dt s) := by
  have q := h.setQ (K := K) (onInner_em (K := K) (I' := I') (I := I) hs (h.cellQ hs) (e0_map5 (fun a b c d f => a + (b + 2 * c + 2 * d + dt * f) / 6) h.side.Q0 h.side.Q1 h.side.Q2 h.side.Q3 h.side.dQ.e0))
  exact q

theorem st_corrector (dt : ℝ) : RelW ng W' par off I' K (corrector e' dt s') (corrector e dt s) := by
  have q := h.setQ (K := K) (onInner_em (K := K) (I' := I') (I := I) hs (h.cellQ hs) (e0_map3 (fun x y z => 0.5 * (x + y + dt * z)) h.side.Q0 (h.cellQ hs).e0 h.side.dQ.e0))
  exact q

theorem st_DTrk3s1 : RelP ng W' par off I' (DTrk3s1 e' s') (DTrk3s1 e s) := by
  have q := h.setq (onInner_em (K := K) (I' := I') (I := I) hs (h.cellq hs)
    (e0_map3 (fun x y z => x + y * z) (h.cellq hs).e0 h.side.dtau h.side.dQ.e0))
  exact { q with side := { q.side with Q0 := onInner_e0 hs (h.cellq hs).e0 } }

theorem st_DTrk3s2 : RelP ng W' par off I' (DTrk3s2 e' s') (DTrk3s2 e s) := by
  have q := h.setq (onInner_em (K := K) (I' := I') (I := I) hs (h.cellq hs)
    (e0_map4 (fun x y z w => 0.75 * x + 0.25 * y + 0.25 * z * w) h.side.Q0 (h.cellq hs).e0 h.side.dQ.e0 h.side.dtau))
  exact q

theorem st_DTrk3s3 : RelP ng W' par off I' (DTrk3s3 e' s') (DTrk3s3 e s) := by
  have q := h.setq (onInner_em (K := K) (I' := I') (I := I) hs (h.cellq hs)
    (e0_map4 (fun x y z w => (x + 2 * y + 2 * z * w) / 3) h.side.Q0 (h.cellq hs).e0 h.side.dQ.e0 h.side.dtau))
  exact q

end

section
variable (hng : 0 < ng) (hs : Split ng W' W par off) (hK : LocalKernels ng K) (hI : SameInput ng W' W par off I' I)
include hng hs hK hI
local notation "e'" => env K I' ng W'
local notation "e" => env K I ng W

theorem rel_rk1 (dt : ℝ) {s' s : St Entry (Aux S)} (h : Rel ng W' par off I' s' s) :
    Rel ng W' par off I' (rk1 e' dt s') (rk1 e dt s) := by
  simp only [rk1]
  rw [h.side.tme]
  have c1 := rel_consistify hng hs hK hI (st_ApEQxB (K := K) hs (rel_rhs hng hs hK hI s.tme h) dt)
  exact c1.finish dt

theorem rel_rk2 (dt : ℝ) {s' s : St Entry (Aux S)} (h : Rel ng W' par off I' s' s) :
    Rel ng W' par off I' (rk2 e' dt s') (rk2 e dt s) := by
  simp only [rk2]
  rw [h.side.tme]
  have c1 := rel_consistify hng hs hK hI (st_rk2s1 (K := K) (I := I) (I' := I') hs (rel_rhs hng hs hK hI s.tme h) dt)
  have c2 := rel_consistify hng hs hK hI (st_rk2s2 (K := K) (I := I) (I' := I') hs (rel_rhs hng hs hK hI (s.tme + dt) c1) dt)
  exact c2.finish dt

theorem rel_rk3stages (dt : ℝ) {s' s : St Entry (Aux S)} (h : Rel ng W' par off I' s' s) :
    Rel ng W' par off I' (rk3stages e' dt s') (rk3stages e dt s) := by
  simp only [rk3stages]
  rw [h.side.tme]
  have c1 := rel_consistify hng hs hK hI (st_rk3s1 (K := K) (I := I) (I' := I') hs (rel_rhs hng hs hK hI s.tme h) dt)
  have c2 := rel_consistify hng hs hK hI (st_rk3s2 (K := K) (I := I) (I' := I') hs (rel_rhs hng hs hK hI (s.tme + dt) c1) dt)
  have c3 := rel_consistify hng hs hK hI (st_rk3s3 (K := K) (I := I) (I' := I') hs (rel_rhs hng hs hK hI (s.tme + dt / 2) c2) dt)
  exact c3

theorem rel_rk34 (dt : ℝ) {s' s : St Entry (Aux S)} (h : Rel ng W' par off I' s' s) :
    Rel ng W' par off I' (rk34 e' dt s') (rk34 e dt s) := by
  simp only [rk34]
  rw [h.side.tme]
  have c1 := rel_consistify hng hs hK hI (st_rk34s1 (K := K) (I := I) (I' := I') hs (rel_rhs hng hs hK hI s.tme h) dt)
  have c2 := rel_consistify hng hs hK hI (st_rk34s2 (K := K) (I := I) (I' := I') hs (rel_rhs hng hs hK hI (s.tme + dt / 2) c1) dt)
  have c3 := rel_consistify hng hs hK hI (st_rk34s3 (K := K) (I := I) (I' := I') hs (rel_rhs hng hs hK hI (s.tme + dt) c2) dt)
  have c4 := rel_consistify hng hs hK hI (st_rk34s4 (K := K) (I := I) (I' := I') hs (rel_rhs hng hs hK hI (s.tme + dt / 2) c3) dt)
  exact c4.finish dt

theorem rel_rk4 (dt : ℝ) {s' s : St Entry (Aux S)} (h : Rel ng W' par off I' s' s) :
    Rel ng W' par off I' (rk4 e' dt s') (rk4 e dt s) := by
  simp only [rk4]
  rw [h.side.tme]
  have c1 := rel_consistify hng hs hK hI (st_rk4s1 (K := K) (I := I) (I' := I') hs (rel_rhs hng hs hK hI s.tme h) dt)
  have c2 := rel_consistify hng hs hK hI (st_rk4s2 (K := K) (I := I) (I' := I') hs (rel_rhs hng hs hK hI (s.tme + dt / 2) c1) dt)
  have c3 := rel_consistify hng hs hK hI (st_rk4s3 (K := K) (I := I) (I' := I') hs (rel_rhs hng hs hK hI (s.tme + dt / 2) c2) dt)
  have c4 := rel_consistify hng hs hK hI (st_rk4s4 (K := K) (I := I) (I' := I') hs (rel_rhs hng hs hK hI (s.tme + dt) c3) dt)
  exact c4.finish dt

theorem rel_maccormack (dt : ℝ) {s' s : St Entry (Aux S)} (h : Rel ng W' par off I' s' s) :
    Rel ng W' par off I' (maccormack e' dt s') (maccormack e dt s) := by
  simp only [maccormack]
  have h0 : Rel ng W' par off I' { s' with Q0 := s'.core.Q } { s with Q0 := s.core.Q } :=
    ⟨h.full, { h.side with Q0 := (h.cellQ hs).e0 }⟩
  have c1 := rel_consistify hng hs hK hI (st_ApEQxB (K := K) hs (rel_rhs_at hng hs hK hI h.side.tme h0) dt)
  have c2 := rel_consistify hng hs hK hI (st_corrector (K := K) (I := I) (I' := I') hs (rel_rhs_at hng hs hK hI c1.side.titme c1) dt)
  exact c2.finish dt

theorem rel_strang (hQ : EosFromQ K) (dt : ℝ) {s' s : St Entry (Aux S)} (h : Rel ng W' par off I' s' s) :
    Rel ng W' par off I' (strang e' dt s') (strang e dt s) := by
  simp only [strang]
  have h1 := rel_rk3stages hng hs hK hI (dt / 2) h
  generalize rk3stages e' (dt / 2) s' = a' at *
  generalize rk3stages e (dt / 2) s = a at *
  have w : RelW ng W' par off I' K { a' with core := (env K I' ng W').stiff dt a'.core } { a with core := (env K I ng W).stiff dt a.core } := by
    refine ⟨?_, Or.inl hQ, h1.full.phi, h1.full.dq, { h1.side with }⟩
    intro r' b' hb' p hp l
    obtain ⟨r, b, hb, hbn, hbox⟩ := hs.inside r' b' hb'
    simp only [env, setCells]
    rw [← hbn, perBlock_eq hs.child hb', perBlock_eq hs.parent hb]
    have hc := h1.full.cells r' b' hb' p (own_near hs.child hb' hp)
    rw [← hbn] at hc
    rcases hp with hp | ⟨f', hf', hnone, hp⟩
    · rw [if_pos hp, if_pos (inside_add hbox hp), hc]
    · rw [if_neg (halo_outside hp), if_neg (halo_outside (touch_halo (touch_of_none hs hb' hb hbn hf' hnone) hbox hp)), hc]
  have h2 := rel_rk3stages hng hs hK hI (dt / 2) (rel_consistify hng hs hK hI w)
  exact ⟨h2.full, { h2.side with
    nrt := by rw [h2.side.nrt]
    tme := by rw [h2.side.tme]
    titme := by rw [h2.side.tme] }⟩

theorem thin_same (ht : SameThin W' W par) {r' : Nat} {b' : Block} (hb' : Owns W' r' b') {r : Nat} {b : Block} (hb : Owns W r b)
    (hbn : b.nblki = par b'.nblki) (hbox : ∀ a, 0 ≤ off b'.nblki a ∧ off b'.nblki a + top b'.dims a ≤ top b.dims a) :
    thin b'.dims = thin b.dims := by
  funext a
  unfold thin
  have := hbox a
  have := dims_top hs.child hb' a
  by_cases e1 : top b'.dims a = 0
  · rw [decide_eq_true e1, decide_eq_true (ht r' b' hb' r b hb hbn a e1)]
  · rw [decide_eq_false e1, decide_eq_false (by omega)]

theorem invert_e0 (ht : SameThin W' W par) (dt : ℝ) {c' c : State S} (h : Full ng W' par off I' c' c) {x' x : Entry → ℝ}
    (hx : E0 W' par off x' x) : E0 W' par off ((env K I' ng W').invert dt c' x') ((env K I ng W).invert dt c x) := by
  intro r' b' hb' p hp l
  obtain ⟨r, b, hb, hbn, hbox⟩ := hs.inside r' b' hb'
  have hc := h.cells r' b' hb' p (Or.inl hp)
  have hq := h.qt r' b' hb' p (Or.inl hp)
  have hd := funext fun l => hx r' b' hb' p hp l
  simp only [env]
  rw [← hbn] at hc hq hd ⊢
  rw [perBlock_eq hs.child hb', perBlock_eq hs.parent hb, thin_same hng hs hK hI ht hb' hb hbn hbox, hc, hq, hd]
  refine congrFun (hK.invert _ _ _ _ _ _ _ ?_) l
  intro d u h1 h2
  rw [hI.geo r' b' hb' _ (near_mono (by omega) (near_shift hp h1 h2)), shift_add, hbn]

theorem dtau_e0 (ht : SameThin W' W par) {c' c : State S} (h : Full ng W' par off I' c' c) :
    E0 W' par off ((env K I' ng W').dtau c') ((env K I ng W).dtau c) := by
  intro r' b' hb' p hp l
  obtain ⟨r, b, hb, hbn, hbox⟩ := hs.inside r' b' hb'
  have hc := h.cells r' b' hb' p (Or.inl hp)
  have hq := h.qt r' b' hb' p (Or.inl hp)
  simp only [env]
  rw [← hbn] at hc hq ⊢
  rw [perBlock_eq hs.child hb', perBlock_eq hs.parent hb, thin_same hng hs hK hI ht hb' hb hbn hbox, hc, hq]
  refine hK.dtau _ _ _ _ _ ?_
  intro d u h1 h2
  rw [hI.geo r' b' hb' _ (near_mono (by omega) (near_shift hp h1 h2)), shift_add, hbn]

theorem rel_dq {s' s : St Entry (Aux S)} (ht : SameThin W' W par) (dt : ℝ) (h : Rel ng W' par off I' s' s) :
    Rel ng W' par off I' (invertDQ e' dt (dQdt e' dt s')) (invertDQ e dt (dQdt e dt s)) := by
  have hd := onInner_em (K := K) (I' := I') (I := I) hs h.side.dQ
    (e0_map4 (fun x y z w => x - (3 * y - 4 * z + w) / (2 * dt)) h.side.dQ.e0 (h.cellQ hs).e0 h.side.Qn h.side.Qnm1)
  exact ⟨h.full, { h.side with dQ := onInner_em hs hd (invert_e0 hng hs hK hI ht dt h.full hd.e0) }⟩

theorem rel_pseudo {s' s : St Entry (Aux S)} (ht : SameThin W' W par) (dt : ℝ) (h : Rel ng W' par off I' s' s) :
    Rel ng W' par off I' (pseudoIter e' dt s') (pseudoIter e dt s) := by
  have h0 : Rel ng W' par off I' (doDtau e' s') (doDtau e s) :=
    ⟨h.full, { h.side with dtau := onInner_e0 hs (dtau_e0 hng hs hK hI ht h.full) }⟩
  simp only [pseudoIter]
  rw [h.side.tme]
  have c1 := rel_consistifyP hng hs hK hI (st_DTrk3s1 (K := K) (I := I) (I' := I') hs
    (rel_dq hng hs hK hI ht dt (rel_rhs hng hs hK hI s.tme h0)))
  have c2 := rel_consistifyP hng hs hK hI (st_DTrk3s2 (K := K) (I := I) (I' := I') hs
    (rel_dq hng hs hK hI ht dt (rel_rhs hng hs hK hI (s.tme + dt) c1)))
  exact rel_consistifyP hng hs hK hI (st_DTrk3s3 (K := K) (I := I) (I' := I') hs
    (rel_dq hng hs hK hI ht dt (rel_rhs hng hs hK hI (s.tme + dt / 2) c2)))

theorem rel_dual {s' s : St Entry (Aux S)} (ht : SameThin W' W par) (dt : ℝ) (h : Rel ng W' par off I' s' s) :
    Rel ng W' par off I' (dualTime e' dt s') (dualTime e dt s) := by
  have key : ∀ n : Nat, Rel ng W' par off I' ((pseudoIter e' dt)^[n] s') ((pseudoIter e dt)^[n] s) := by
    intro n
    induction n with
    | zero => exact h
    | succ n ih => rw [Function.iterate_succ_apply', Function.iterate_succ_apply']; exact rel_pseudo hng hs hK hI ht dt ih
  have h1 := key 20
  unfold dualTime
  generalize (pseudoIter e' dt)^[20] s' = a' at h1 ⊢
  generalize (pseudoIter e dt)^[20] s = a at h1 ⊢
  have h2 : Rel ng W' par off I' (PG.Time.shift a') (PG.Time.shift a) :=
    ⟨h1.full, { h1.side with Qnm1 := h1.side.Qn, Qn := (h1.cellQ hs).e0 }⟩
  exact h2.finish dt

theorem rel_step (J : Integrator) (hJ : Needs W' W par J) (hQ : J = .strang → EosFromQ K) (dt : ℝ) {s' s : St Entry (Aux S)}
    (h : Rel ng W' par off I' s' s) : Rel ng W' par off I' (step e' J dt s') (step e J dt s) := by
  cases J
  · exact rel_rk1 hng hs hK hI dt h
  · exact rel_rk2 hng hs hK hI dt h
  · exact (rel_rk3stages hng hs hK hI dt h).finish dt
  · exact rel_rk34 hng hs hK hI dt h
  · exact rel_rk4 hng hs hK hI dt h
  · exact rel_maccormack hng hs hK hI dt h
  · exact rel_strang hng hs hK hI (hQ rfl) dt h
  · exact rel_dual hng hs hK hI hJ dt h

theorem rel_run (J : Integrator) (hJ : Needs W' W par J) (hQ : J = .strang → EosFromQ K) (dts : List ℝ) {s' s : St Entry (Aux S)}
    (h : Rel ng W' par off I' s' s) : Rel ng W' par off I' (run e' J dts s') (run e J dts s) := by
  unfold run
  induction dts generalizing s' s with
  | nil => exact h
  | cons dt dts ih => exact ih (rel_step hng hs hK hI J hJ hQ dt h)

end

end PG.Whole
