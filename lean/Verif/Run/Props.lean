import Verif.Run.Model
import Mathlib.Tactic.Linarith
import Mathlib.Tactic.FieldSimp
import Mathlib.Tactic.Ring
import Mathlib.Tactic.NormNum
import Mathlib.Algebra.Order.Field.Basic
import Mathlib.Data.List.Perm.Basic
noncomputable section
namespace PG.Run

/-! ### C21 time step -/

theorem le_foldl_max (l : List ℝ) (a : ℝ) : a ≤ l.foldl max a ∧ ∀ y ∈ l, y ≤ l.foldl max a := by
  induction l generalizing a with
  | nil => simp
  | cons x l ih =>
    simp only [List.foldl_cons]
    obtain ⟨h1, h2⟩ := ih (max a x)
    refine ⟨(le_max_left _ _).trans h1, ?_⟩
    intro y hy
    rcases List.mem_cons.1 hy with rfl | hy
    · exact (le_max_right _ _).trans h1
    · exact h2 y hy

theorem foldl_max_mem (l : List ℝ) (a : ℝ) : l.foldl max a = a ∨ l.foldl max a ∈ l := by
  induction l generalizing a with
  | nil => simp
  | cons x l ih =>
    simp only [List.foldl_cons]
    rcases ih (max a x) with h | h
    · rw [h]
      rcases max_choice a x with h' | h'
      · exact Or.inl h'
      · right; rw [h']; exact List.mem_cons_self
    · exact Or.inr (List.mem_cons_of_mem _ h)

theorem foldl_max_eq {l : List ℝ} {a R : ℝ} (h1 : a ≤ R) (h2 : ∀ y ∈ l, y ≤ R) (h3 : R = a ∨ R ∈ l) : l.foldl max a = R := by
  apply le_antisymm
  · rcases foldl_max_mem l a with h | h
    · rw [h]; exact h1
    · exact h2 _ h
  · rcases h3 with h | h
    · rw [h]; exact (le_foldl_max l a).1
    · exact (le_foldl_max l a).2 _ h

/-- specification: the thickness of a cell in a direction, the distance between the centres of its two faces -/
def thickness (a : Dir) : ℝ := Real.sqrt (V3.dot (a.c1 - a.c0) (a.c1 - a.c0))

/-- the code's cell length is the thickness -/
theorem len_eq (a : Dir) : len a = thickness a := by
  unfold len thickness V3.dot
  congr 1
  show _ = (a.c1.x - a.c0.x) * (a.c1.x - a.c0.x) + (a.c1.y - a.c0.y) * (a.c1.y - a.c0.y) + (a.c1.z - a.c0.z) * (a.c1.z - a.c0.z)
  ring

/-- acoustic+convective rate of one direction as stored -/
def rate (b : Blk) (k : CellD) (d : ℕ) : ℝ := multOf (b.n d) * (speed k.vel (k.dir d) + k.c) / len (k.dir d)

/-- all rates of a block -/
def blkRates (b : Blk) : List ℝ := b.cells.flatMap fun k => [rate b k 0, rate b k 1, rate b k 2]

theorem blkMax_r (b : Blk) : (blkMax b).r = (blkRates b).foldl max lowest := by
  unfold blkMax blkRates
  have : ∀ l : List CellD, ∀ x : Acc, (l.foldl (accCell b) x).r
      = (l.flatMap fun k => [rate b k 0, rate b k 1, rate b k 2]).foldl max x.r := by
    intro l
    induction l with
    | nil => intro x; rfl
    | cons k l ih =>
      intro x
      rw [List.foldl_cons, ih, List.flatMap_cons, List.foldl_append]
      rfl
  exact this _ _

theorem cflMax_r (mb : List Blk) : (cflMax mb).r = (mb.flatMap blkRates).foldl max 0 := by
  have : ∀ (l : List Blk) (x : Acc), 0 ≤ x.r → (l.foldl (fun x b => (⟨max (blkMax b).a x.a, max (max (blkMax b).c x.c) 1e-16,
      max (blkMax b).r x.r⟩ : Acc)) x).r = (l.flatMap blkRates).foldl max x.r := by
    intro l
    induction l with
    | nil => intro x _; rfl
    | cons b l ih =>
      intro x hx
      rw [List.foldl_cons, ih _ (le_trans hx (le_max_right _ _)), List.flatMap_cons, List.foldl_append]
      congr 1
      change max (blkMax b).r x.r = _
      rw [blkMax_r]
      symm
      have hl : lowest ≤ 0 := by norm_num [lowest]
      refine foldl_max_eq (le_max_right _ _) (fun y hy => le_trans ((le_foldl_max _ _).2 y hy) (le_max_left _ _)) ?_
      rcases foldl_max_mem (blkRates b) lowest with h | h
      · left; rw [h, max_eq_right (hl.trans hx)]
      · rcases max_choice ((blkRates b).foldl max lowest) x.r with h' | h'
        · right; rw [h']; exact h
        · left; exact h'
  exact this mb ⟨0, 0, 0⟩ le_rfl

/-- all rates of all ranks -/
def allRates (ranks : List (List Blk)) : List ℝ := ranks.flatten.flatMap blkRates

theorem allreduce_r (ranks : List (List Blk)) : (allreduceMax (ranks.map cflMax)).r = (allRates ranks).foldl max 0 := by
  cases ranks with
  | nil => rfl
  | cons mb ranks =>
    simp only [List.map_cons, allreduceMax, allRates, List.flatten_cons, List.flatMap_append, List.foldl_append]
    rw [← cflMax_r]
    have h0 : 0 ≤ (cflMax mb).r := by rw [cflMax_r]; exact (le_foldl_max _ _).1
    generalize cflMax mb = x at *
    induction ranks generalizing x with
    | nil => rfl
    | cons m l ih =>
      simp only [List.map_cons, List.foldl_cons, List.flatten_cons, List.flatMap_append, List.foldl_append]
      rw [ih _ (le_trans h0 (le_max_left _ _))]
      congr 1
      change max x.r (cflMax m).r = _
      rw [cflMax_r]
      symm
      refine foldl_max_eq (le_max_left _ _) (fun y hy => le_trans ((le_foldl_max _ _).2 y hy) (le_max_right _ _)) ?_
      rcases foldl_max_mem (m.flatMap blkRates) 0 with h | h
      · left; rw [h, max_eq_left h0]
      · rcases max_choice x.r ((m.flatMap blkRates).foldl max 0) with h' | h'
        · left; exact h'
        · right; rw [h']; exact h

/-- admissible data: positive cell lengths and sound speeds -/
def Ok (ranks : List (List Blk)) : Prop :=
  ∀ mb ∈ ranks, ∀ b ∈ mb, ∀ k ∈ b.cells, 0 < k.c ∧ ∀ d < 3, 0 < thickness (k.dir d)

/-- some cell has a direction that is not flattened (a direction with two nodes is one cell thick and left out) -/
def Resolved (ranks : List (List Blk)) : Prop :=
  ∃ mb ∈ ranks, ∃ b ∈ mb, ∃ k ∈ b.cells, ∃ d < 3, b.n d ≠ 2

theorem mem_allRates {ranks : List (List Blk)} {y : ℝ} :
    y ∈ allRates ranks ↔ ∃ mb ∈ ranks, ∃ b ∈ mb, ∃ k ∈ b.cells, ∃ d < 3, y = rate b k d := by
  unfold allRates blkRates
  simp only [List.mem_flatMap, List.mem_flatten, List.mem_cons, List.not_mem_nil, or_false]
  constructor
  · rintro ⟨b, ⟨mb, h1, h2⟩, k, h3, h4⟩
    refine ⟨mb, h1, b, h2, k, h3, ?_⟩
    rcases h4 with h | h | h
    · exact ⟨0, by omega, h⟩
    · exact ⟨1, by omega, h⟩
    · exact ⟨2, by omega, h⟩
  · rintro ⟨mb, h1, b, h2, k, h3, d, h4, h5⟩
    refine ⟨b, ⟨mb, h1, h2⟩, k, h3, ?_⟩
    have : d = 0 ∨ d = 1 ∨ d = 2 := by omega
    rcases this with rfl | rfl | rfl <;> simp [h5]

theorem speed_nonneg (v : V3) (a : Dir) : 0 ≤ speed v a := Real.sqrt_nonneg _

theorem rate_of_ne {b : Blk} {k : CellD} {d : ℕ} (h : b.n d ≠ 2) : rate b k d = (speed k.vel (k.dir d) + k.c) / len (k.dir d) := by
  unfold rate multOf; rw [if_neg h, one_mul]

theorem rate_of_eq {b : Blk} {k : CellD} {d : ℕ} (h : b.n d = 2) : rate b k d = 0 := by
  unfold rate multOf; rw [if_pos h, zero_mul, zero_div]

theorem allR_pos {ranks : List (List Blk)} (ho : Ok ranks) (hr : Resolved ranks) : 0 < (allRates ranks).foldl max 0 := by
  obtain ⟨mb, h1, b, h2, k, h3, d, h4, h5⟩ := hr
  obtain ⟨hc, hl⟩ := ho mb h1 b h2 k h3
  have : 0 < rate b k d := by
    rw [rate_of_ne h5]
    have := speed_nonneg k.vel (k.dir d)
    exact div_pos (by linarith) (len_eq (k.dir d) ▸ hl d h4)
  exact lt_of_lt_of_le this ((le_foldl_max _ _).2 _ (mem_allRates.2 ⟨mb, h1, b, h2, k, h3, d, h4, rfl⟩))

/-- C21: with variable time stepping every rank obtains the same positive time step, which exceeds neither limit (for every
    resolved direction of every cell of every block of every rank), and which is the largest such step. -/
theorem C21_variable (cf : TConf) (hv : cf.varStep = true) (h1 : 0 < cf.maxCFL) (h2 : 0 < cf.maxDt)
    (ranks : List (List Blk)) (ho : Ok ranks) (hr : Resolved ranks) :
    ∃ dt, getDt cf ranks = some dt ∧ 0 < dt ∧ dt ≤ cf.maxDt ∧
      (∀ mb ∈ ranks, ∀ b ∈ mb, ∀ k ∈ b.cells, ∀ d < 3, b.n d ≠ 2 →
        dt * ((speed k.vel (k.dir d) + k.c) / thickness (k.dir d)) ≤ cf.maxCFL) ∧
      (dt = cf.maxDt ∨ ∃ mb ∈ ranks, ∃ b ∈ mb, ∃ k ∈ b.cells, ∃ d < 3, b.n d ≠ 2 ∧
        dt * ((speed k.vel (k.dir d) + k.c) / thickness (k.dir d)) = cf.maxCFL) := by
  simp only [← len_eq]
  have hR := allR_pos ho hr
  unfold getDt
  simp only [hv, if_true, allreduce_r]
  set R := (allRates ranks).foldl max 0 with hRd
  refine ⟨_, if_neg hR.ne', lt_min (div_pos h1 hR) h2, min_le_right _ _, ?_, ?_⟩
  · intro mb m1 b m2 k m3 d m4 m5
    have hle : rate b k d ≤ R := (le_foldl_max _ _).2 _ (mem_allRates.2 ⟨mb, m1, b, m2, k, m3, d, m4, rfl⟩)
    rw [← rate_of_ne m5]
    obtain ⟨hc, hl⟩ := ho mb m1 b m2 k m3
    have h0 : 0 ≤ rate b k d := by
      rw [rate_of_ne m5]
      have := speed_nonneg k.vel (k.dir d)
      exact div_nonneg (by linarith) (len_eq (k.dir d) ▸ hl d m4).le
    calc min (cf.maxCFL / R) cf.maxDt * rate b k d ≤ cf.maxCFL / R * rate b k d := mul_le_mul_of_nonneg_right (min_le_left _ _) h0
      _ ≤ cf.maxCFL / R * R := mul_le_mul_of_nonneg_left hle (div_pos h1 hR).le
      _ = cf.maxCFL := by field_simp
  · rcases min_choice (cf.maxCFL / R) cf.maxDt with h | h
    · right
      rw [h]
      rcases foldl_max_mem (allRates ranks) 0 with h' | h'
      · exact absurd h' hR.ne'
      · obtain ⟨mb, m1, b, m2, k, m3, d, m4, m5⟩ := mem_allRates.1 h'
        have hne : b.n d ≠ 2 := by
          intro he
          rw [rate_of_eq he] at m5
          exact hR.ne' m5
        refine ⟨mb, m1, b, m2, k, m3, d, m4, hne, ?_⟩
        rw [← rate_of_ne hne, ← m5, ← hRd]
        field_simp
    · exact Or.inl h

/-- C21: with fixed time stepping the step is the configured one, whatever the flow. -/
theorem C21_fixed (cf : TConf) (hv : cf.varStep = false) (ranks : List (List Blk)) : getDt cf ranks = some cf.dt := by
  simp [getDt, hv]

/-- C21: the step does not depend on how blocks are distributed over ranks, nor on the order in which ranks, blocks or
    (inside a block) cells are reduced. -/
theorem C21_distribution (cf : TConf) (ranks ranks' : List (List Blk)) (h : (allRates ranks).Perm (allRates ranks')) :
    getDt cf ranks = getDt cf ranks' := by
  unfold getDt
  simp only [allreduce_r]
  have : (allRates ranks).foldl max 0 = (allRates ranks').foldl max 0 := by
    refine foldl_max_eq (le_foldl_max _ _).1 (fun y hy => (le_foldl_max _ _).2 y (h.mem_iff.1 hy)) ?_
    rcases foldl_max_mem (allRates ranks') 0 with h' | h'
    · exact Or.inl h'
    · exact Or.inr (h.mem_iff.2 h')
  rw [this]

theorem C21_blocks_moved (cf : TConf) (ranks ranks' : List (List Blk)) (h : ranks.flatten.Perm ranks'.flatten) :
    getDt cf ranks = getDt cf ranks' :=
  C21_distribution cf ranks ranks' (h.flatMap_right _)

/-- C21 finding: if every block is one cell thick in all directions (no resolved direction) the variable step is not computed:
    the driver stops with a floating point error. -/
theorem C21_unresolved (cf : TConf) (hv : cf.varStep = true) (ranks : List (List Blk)) (hr : ¬ Resolved ranks) :
    getDt cf ranks = none := by
  unfold getDt
  simp only [hv, if_true, allreduce_r]
  rw [if_pos]
  refine foldl_max_eq le_rfl (fun y hy => ?_) (Or.inl rfl)
  obtain ⟨mb, m1, b, m2, k, m3, d, m4, m5⟩ := mem_allRates.1 hy
  rw [m5, rate_of_eq]
  by_contra hne
  exact hr ⟨mb, m1, b, m2, k, m3, d, m4, hne⟩

/-- unit cube cell moving along x -/
def exCellD : CellD := ⟨⟨3, 0, 0⟩, 2, fun _ => ⟨⟨0,0,0⟩, ⟨1,0,0⟩, ⟨1,0,0⟩, ⟨1,0,0⟩⟩⟩
example : Ok [[⟨fun _ => 5, [exCellD]⟩], []] ∧ Resolved [[⟨fun _ => 5, [exCellD]⟩], []] := by
  constructor
  · intro mb h1 b h2 k h3
    simp only [List.mem_cons, List.not_mem_nil, or_false] at h1
    rcases h1 with rfl | rfl
    · simp only [List.mem_cons, List.not_mem_nil, or_false] at h2
      subst h2
      simp only [List.mem_cons, List.not_mem_nil, or_false] at h3
      subst h3
      refine ⟨by norm_num [exCellD], fun d _ => ?_⟩
      norm_num [exCellD, ← len_eq, len]
    · simp at h2
  · exact ⟨_, List.mem_cons_self, _, List.mem_cons_self, _, List.mem_cons_self, 0, by norm_num, by norm_num⟩

/-! ### C68 the CFL rate and the true normal velocity -/

/-- mean unit normal of a direction -/
def meanN (a : Dir) : V3 := ⟨0.5 * (a.n0.x + a.n1.x), 0.5 * (a.n0.y + a.n1.y), 0.5 * (a.n0.z + a.n1.z)⟩

/-- C68 (partial): the speed used in the CFL rate bounds the velocity normal to the cell faces up to a factor √3, and equals
    its magnitude when the direction is aligned with a coordinate axis. -/
theorem C68_normal_speed_partial (v : V3) (a : Dir) :
    |V3.dot (meanN a) v| ≤ Real.sqrt 3 * speed v a ∧
    ((meanN a).y = 0 → (meanN a).z = 0 → speed v a = |V3.dot (meanN a) v|) ∧
    ((meanN a).x = 0 → (meanN a).z = 0 → speed v a = |V3.dot (meanN a) v|) ∧
    ((meanN a).x = 0 → (meanN a).y = 0 → speed v a = |V3.dot (meanN a) v|) := by
  have hs : speed v a = Real.sqrt (((meanN a).x * v.x)^2 + ((meanN a).y * v.y)^2 + ((meanN a).z * v.z)^2) := rfl
  generalize meanN a = n at *
  unfold V3.dot
  refine ⟨?_, ?_, ?_, ?_⟩
  · rw [hs, ← Real.sqrt_mul (by norm_num)]
    apply Real.le_sqrt_of_sq_le
    rw [sq_abs]
    nlinarith [sq_nonneg (n.x * v.x - n.y * v.y), sq_nonneg (n.x * v.x - n.z * v.z), sq_nonneg (n.y * v.y - n.z * v.z)]
  · intro h1 h2
    rw [hs, h1, h2]; simp [Real.sqrt_sq_eq_abs]
  · intro h1 h2
    rw [hs, h1, h2]; simp [Real.sqrt_sq_eq_abs]
  · intro h1 h2
    rw [hs, h1, h2]; simp [Real.sqrt_sq_eq_abs]

/-- C68: on an oblique direction the rate is too small: for the flow (1,1,1) through a face with normal (2,2,1)/3 the normal
    velocity is 5/3 but the code uses 1, so the true Courant number exceeds the requested limit. A defect of the code. -/
theorem C68_violated : ∃ (v : V3) (a : Dir), V3.dot (meanN a) (meanN a) = 1 ∧ speed v a = 1 ∧ |V3.dot (meanN a) v| = 5/3 := by
  refine ⟨⟨1,1,1⟩, ⟨⟨0,0,0⟩, ⟨2/3,2/3,1/3⟩, ⟨2/3,2/3,1/3⟩, ⟨2/3,2/3,1/3⟩⟩, ?_, ?_, ?_⟩
  · norm_num [V3.dot, meanN]
  · norm_num [speed]
  · norm_num [V3.dot, meanN]

/-! ### C51 NaN detection -/

theorem allFinite_zero (b : List Dbl) : allFinite b = 0 ↔ ∃ x ∈ b, isfinite x = 0 := by
  unfold allFinite
  have : ∀ (l : List Dbl) (a : ℕ), l.foldl (fun f x => min (isfinite x) f) a = 0 ↔ a = 0 ∨ ∃ x ∈ l, isfinite x = 0 := by
    intro l
    induction l with
    | nil => intro a; simp
    | cons x l ih =>
      intro a
      rw [List.foldl_cons, ih]
      simp only [List.mem_cons, exists_eq_or_imp, Nat.min_eq_zero_iff]
      tauto
  rw [this]; simp

theorem checkNan_eq (mb : List (List Dbl)) : checkNan mb ≤ 1 ∧ (checkNan mb = 1 ↔ ∃ b ∈ mb, ∃ x ∈ b, isfinite x = 0) := by
  induction mb with
  | nil => simp [checkNan]
  | cons b mb ih =>
    unfold checkNan
    split_ifs with h
    · refine ⟨le_rfl, fun _ => ?_, fun _ => rfl⟩
      obtain ⟨x, hx⟩ := (allFinite_zero b).1 h
      exact ⟨b, List.mem_cons_self, x, hx⟩
    · refine ⟨ih.1, ?_⟩
      rw [ih.2]
      constructor
      · rintro ⟨b', hb, r⟩; exact ⟨b', List.mem_cons_of_mem _ hb, r⟩
      · rintro ⟨b', hb, r⟩
        rcases List.mem_cons.1 hb with rfl | hb
        · exact absurd ((allFinite_zero b').2 r) h
        · exact ⟨b', hb, r⟩

/-- C51: the check makes every rank abort exactly when some interior conserved value of some block of some rank is NaN or
    infinite. (All ranks receive the same number, the sum of the local flags.) -/
theorem C51_check (ranks : List (List (List Dbl))) :
    0 < checkForNan ranks ↔ ∃ mb ∈ ranks, ∃ b ∈ mb, ∃ x ∈ b, ∀ r, x ≠ Dbl.fin r := by
  have hf : ∀ x, isfinite x = 0 ↔ ∀ r, x ≠ Dbl.fin r := by
    intro x; cases x <;> simp [isfinite]
  simp only [← hf]
  unfold checkForNan
  rw [Nat.pos_iff_ne_zero, ne_eq, List.sum_eq_zero_iff]
  push Not
  constructor
  · rintro ⟨y, hy, h0⟩
    obtain ⟨mb, hm, rfl⟩ := List.mem_map.1 hy
    have := checkNan_eq mb
    exact ⟨mb, hm, this.2.1 (by have := this.1; omega)⟩
  · rintro ⟨mb, hm, r⟩
    exact ⟨_, List.mem_map.2 ⟨mb, hm, rfl⟩, by rw [(checkNan_eq mb).2.2 r]; exact one_ne_zero⟩

/-- C51: the number received is at most the number of ranks, so the 32-bit sum cannot wrap on any real machine -/
theorem C51_no_wrap (ranks : List (List (List Dbl))) : checkForNan ranks ≤ ranks.length := by
  unfold checkForNan
  induction ranks with
  | nil => simp
  | cons mb l ih =>
    simp only [List.map_cons, List.sum_cons, List.length_cons]
    have := (checkNan_eq mb).1
    omega

example : 0 < checkForNan [[[.fin 1, .fin 2]], [[.fin 3], [.fin 0, .inf true]]] :=
  (C51_check _).2 ⟨_, List.mem_cons_of_mem _ List.mem_cons_self, _, List.mem_cons_of_mem _ List.mem_cons_self, .inf true,
    by simp, by simp⟩

/-! ### C52 counters -/

/-- the collection and all its blocks agree (a block's stage time may not exist yet while the collection's is still 0) -/
def Agree (m : Coll) : Prop :=
  ∀ b ∈ m.blks, b.nrt = m.nrt ∧ b.tme = m.tme ∧ (b.titme = some m.titme ∨ (b.titme = none ∧ m.titme = 0))

/-- C52: after any history of assignments and restart reads that raises no error, every block reads the same iteration, time
    and stage time as the collection. -/
theorem C52_agree (n : ℕ) (h : List Asg) (m : Coll) (hm : runAll h (Coll.new n) = some m) : Agree m := by
  have step : ∀ (a : Asg) (m m' : Coll), Agree m → a.run m = some m' → Agree m' := by
    intro a m m' hA hr
    cases a with
    | nrt v =>
      simp only [Asg.run, Option.some.injEq] at hr; subst hr
      intro b hb
      obtain ⟨b', hb', rfl⟩ := List.mem_map.1 hb
      exact ⟨rfl, (hA b' hb').2.1, (hA b' hb').2.2⟩
    | tme v =>
      simp only [Asg.run, Option.some.injEq] at hr; subst hr
      intro b hb
      obtain ⟨b', hb', rfl⟩ := List.mem_map.1 hb
      exact ⟨(hA b' hb').1, rfl, (hA b' hb').2.2⟩
    | titme v =>
      simp only [Asg.run, Option.some.injEq] at hr; subst hr
      intro b hb
      obtain ⟨b', hb', rfl⟩ := List.mem_map.1 hb
      exact ⟨(hA b' hb').1, (hA b' hb').2.1, Or.inl rfl⟩
    | readRestart f =>
      simp only [Asg.run, readCnt] at hr
      split at hr
      · simp at hr
      · rename_i b0 rest hbs
        simp only [Option.some.injEq] at hr; subst hr
        intro b hb
        simp only [setTme, setNrt, List.map_map, List.mem_map, Function.comp_apply] at hb
        obtain ⟨b', hb', rfl⟩ := hb
        rw [List.mem_mapIdx] at hb'
        obtain ⟨i, hi, rfl⟩ := hb'
        exact ⟨rfl, rfl, (hA _ (List.getElem_mem hi)).2.2⟩
    | appendBlock =>
      simp only [Asg.run, Option.some.injEq] at hr; subst hr
      exact hA
  have : ∀ (h : List Asg) (m0 m : Coll), Agree m0 → runAll h m0 = some m → Agree m := by
    intro h
    induction h with
    | nil => intro m0 m hA hr; simp only [runAll, Option.some.injEq] at hr; subst hr; exact hA
    | cons a h ih =>
      intro m0 m hA hr
      simp only [runAll] at hr
      cases ha : a.run m0 with
      | none => rw [ha] at hr; simp at hr
      | some m1 => rw [ha] at hr; exact ih m1 m (step a m0 m1 hA ha) hr
  refine this h _ m ?_ hm
  intro b hb
  rw [Coll.new] at hb
  simp only [List.mem_replicate] at hb
  rw [hb.2]
  exact ⟨rfl, rfl, Or.inr ⟨rfl, rfl⟩⟩

/-- C52: an assignment is read back from the collection and from every block, and changes nothing else. -/
theorem C52_read_back (m : Coll) :
    (∀ v, ∃ m', (Asg.nrt v).run m = some m' ∧ m'.nrt = v ∧ (∀ b ∈ m'.blks, b.nrt = v) ∧ m'.tme = m.tme ∧ m'.titme = m.titme ∧
      m'.blks.length = m.blks.length) ∧
    (∀ v, ∃ m', (Asg.tme v).run m = some m' ∧ m'.tme = v ∧ (∀ b ∈ m'.blks, b.tme = v) ∧ m'.nrt = m.nrt ∧ m'.titme = m.titme ∧
      m'.blks.length = m.blks.length) ∧
    (∀ v, ∃ m', (Asg.titme v).run m = some m' ∧ m'.titme = v ∧ (∀ b ∈ m'.blks, b.titme = some v) ∧ m'.nrt = m.nrt ∧
      m'.tme = m.tme ∧ m'.blks.length = m.blks.length) := by
  refine ⟨fun v => ⟨_, rfl, rfl, ?_, rfl, rfl, by simp [setNrt]⟩, fun v => ⟨_, rfl, rfl, ?_, rfl, rfl, by simp [setTme]⟩,
    fun v => ⟨_, rfl, rfl, ?_, rfl, rfl, by simp [setTitme]⟩⟩
  all_goals
    intro b hb
    obtain ⟨b', -, rfl⟩ := List.mem_map.1 hb
    rfl

/-- C52 finding: reading a restart sets iteration and time but not the stage time, so boundary conditions evaluated before the
    first step (in the set-up of the case) see time 0 instead of the restart time. -/
theorem C52_stage_time_violated (n : ℕ) (hn : 0 < n) (f : ℕ → ℕ × ℝ) :
    ∃ m, runAll [.readRestart f] (Coll.new n) = some m ∧ m.nrt = (f 0).1 ∧ m.tme = (f 0).2 ∧ m.titme = 0 := by
  obtain ⟨n, rfl⟩ : ∃ k, n = k + 1 := ⟨n - 1, by omega⟩
  simp only [runAll, Asg.run, readCnt, Coll.new, List.replicate_succ, List.mapIdx_cons, Option.bind_some]
  exact ⟨_, rfl, rfl, rfl, rfl⟩

example : ∃ m, runAll [.nrt 3, .readRestart fun i => (7 + i, 0.5), .titme 2] (Coll.new 2) = some m ∧ m.nrt = 7 ∧ m.titme = 2 :=
  ⟨_, rfl, rfl, rfl⟩

end PG.Run
