import Verif.Safe.Proofs
/-!
Boundary conditions, halo exchange and time integration stay inside their arrays.
-/
namespace PG.Safe
open PG.Config (Sel Solver Apply Val truthy)
open PG.BC (FType)

/-! ### specification: what a face needs -/

/-- boundary types whose kernels read target values in every run -/
def targetTypes : List FType := [.constantVelocitySubsonicInlet, .supersonicInlet, .constantMassFluxSubsonicInlet,
  .cubicSplineSubsonicInlet, .stagnationSubsonicInlet, .constantPressureSubsonicExit, .isoTNoSlipWall, .isoTSlipWall,
  .isoTMovingWall]

/-- what a face of a type must hold: target values for inlets, the constant-pressure exit and isothermal walls, in viscous runs
    also for the adiabatic moving wall; spline coefficients; rotation matrices for rotational periodicity -/
structure FaceReady (viscous : Bool) (t : FType) (x : FaceData) : Prop where
  target : t ∈ targetTypes ∨ (t = .adiabaticMovingWall ∧ viscous = true) → x.target = true
  spline : t = .cubicSplineSubsonicInlet → x.spline = true
  rotation : t = .periodicRotLow ∨ t = .periodicRotHigh → x.rotation = true

section
variable {d : Dims} {s : Sel} {fd : Fc → FaceData}

/-! ### slices -/

theorem slab_safe {e : Dir} {a b : ℤ} {accs : List Acc}
    (h : ∀ i j k, planeIx d e i j k → a ≤ normalIx e i j k → normalIx e i j k < b → ∀ x ∈ accs, x.Legal d s fd i j k) :
    (slab d e a b accs).Safe d s fd := by
  intro i j k h1 h2 h3 h4 h5 h6
  cases e <;> simp only [slab] at h1 h2 h3 h4 h5 h6 ⊢ <;> apply h <;> simp only [planeIx, normalIx, inC] <;> omega

theorem slab_alloc (z : Sized d) {e : Dir} {a b : ℤ} {accs : List Acc} (hab : a < b) (h : (slab d e a b accs).Safe d s fd) {x : Acc}
    (hx : x ∈ accs) : allocated s fd x.arr := by
  obtain ⟨z1, z2, z3, z4, z5⟩ := z
  cases e
  · exact (h a 0 0 (le_refl _) hab (le_refl _) (by simp only [slab]; omega) (le_refl _) (by simp only [slab]; omega) x hx).1
  · exact (h 0 a 0 (le_refl _) (by simp only [slab]; omega) (le_refl _) hab (le_refl _) (by simp only [slab]; omega) x hx).1
  · exact (h 0 0 a (le_refl _) (by simp only [slab]; omega) (le_refl _) (by simp only [slab]; omega) (le_refl _) hab x hx).1

/-- an access to slice `t` of a cell array, from a launch over slice `f.int` -/
theorem on_legal {f : Fc} {a : Arr} {t lo hi : ℤ} (hi' : ∀ i j k, cellIx d i j k → Inside d a i j k) (ha : allocated s fd a)
    (t0 : 0 ≤ t) (t1 : t < d.n f.dir + 2 * d.ng - 1) (l0 : 0 ≤ lo) (h1 : hi ≤ comps d a) {i j k : ℤ}
    (hp : planeIx d f.dir i j k) (hn : normalIx f.dir i j k = f.int d) : (f.on (f.int d) t a lo hi).Legal d s fd i j k := by
  refine ⟨ha, fun c hc1 hc2 => ⟨?_, ?_, hi' _ _ _ ?_⟩⟩
  · simp only [Fc.on] at hc1; omega
  · simp only [Fc.on] at hc2 ⊢; omega
  · simp only [Fc.on]
    generalize f.int d = m at *
    cases hf : f.dir <;> rw [hf] at hp hn t1 <;> simp only [planeIx, normalIx, inC, Dims.n, Dir.v, cellIx] at * <;> omega

theorem plane_legal {f : Fc} {s' t lo hi : ℤ} (ha : (fd f).target = true) (l0 : 0 ≤ lo) (h1 : hi ≤ d.ne) {i j k : ℤ}
    (hp : planeIx d f.dir i j k) : (f.on s' t (.bc f) lo hi).Legal d s fd i j k := by
  refine ⟨ha, fun c hc1 hc2 => ⟨?_, ?_, ?_⟩⟩
  · simp only [Fc.on] at hc1; omega
  · simp only [Fc.on, comps] at hc2 ⊢; omega
  · simp only [Fc.on, Inside]
    cases hf : f.dir <;> rw [hf] at hp <;> simp only [planeIx, inC, Dir.v] at * <;> omega

theorem rot_legal {f : Fc} (ha : (fd f).rotation = true) {i j k : ℤ} :
    (⟨.rot f, (0, 0, 0), 0, 9⟩ : Acc).Legal d s fd i j k :=
  ⟨ha, fun _ h1 h2 => ⟨h1, h2, trivial⟩⟩

theorem n_two (z : Sized d) (e : Dir) : 2 ≤ d.n e := by cases e; exacts [z.ni, z.nj, z.nk]

theorem int_in (z : Sized d) (f : Fc) : 0 ≤ f.int d ∧ f.int d < d.n f.dir + 2 * d.ng - 1 := by
  have := n_two z f.dir
  have := z.ng
  unfold Fc.int; split <;> omega

theorem face_in (z : Sized d) (f : Fc) : 0 ≤ f.face d ∧ f.face d < d.n f.dir + 2 * d.ng - 1 := by
  have := n_two z f.dir
  have := z.ng
  unfold Fc.face; split <;> omega

theorem halo_in (z : Sized d) (f : Fc) {g : ℕ} (hg : g < d.ng) : 0 ≤ f.haloOf d g ∧ f.haloOf d g < d.n f.dir + 2 * d.ng - 1 := by
  have := n_two z f.dir
  have hn := z.ng
  have : g = 0 ∨ (g = 1 ∧ d.ng = 2) := by omega
  unfold Fc.haloOf Fc.halo Fc.plus
  rcases this with rfl | ⟨rfl, h⟩ <;> simp only [cum] <;> split <;> simp <;> omega

theorem second_in (z : Sized d) (f : Fc) {g : ℕ} (hg : g < d.ng) : 0 ≤ f.secondOf d g ∧ f.secondOf d g < d.n f.dir + 2 * d.ng - 1 := by
  have := n_two z f.dir
  have hn := z.ng
  have : g = 0 ∨ (g = 1 ∧ d.ng = 2) := by omega
  unfold Fc.secondOf Fc.int Fc.plus
  rcases this with rfl | ⟨rfl, h⟩ <;> simp only [cum] <;> split <;> simp <;> omega

theorem rounds_safe {f : Fc} {accs : ℕ → List Acc}
    (h : ∀ g < d.ng, ∀ i j k, planeIx d f.dir i j k → normalIx f.dir i j k = f.int d → ∀ x ∈ accs g, x.Legal d s fd i j k) :
    ∀ L ∈ rounds d f accs, L.Safe d s fd := by
  intro L hL
  simp only [rounds, List.mem_map, List.mem_range] at hL
  obtain ⟨g, hg, rfl⟩ := hL
  exact slab_safe fun i j k hp h1 h2 => h g hg i j k hp (by omega)

theorem rounds_alloc (z : Sized d) {f : Fc} {accs : ℕ → List Acc} (h : ∀ L ∈ rounds d f accs, L.Safe d s fd) {x : Acc}
    (hx : x ∈ accs 0) : allocated s fd x.arr := by
  refine slab_alloc z (by omega) (h (slab d f.dir (f.int d) (f.int d + 1) (accs 0)) ?_) hx
  simp only [rounds, List.mem_map, List.mem_range]
  exact ⟨0, by have := z.ng; omega, rfl⟩

theorem haloInt_legal (z : Sized d) (f : Fc) {g : ℕ} (hg : g < d.ng) {i j k : ℤ} (hp : planeIx d f.dir i j k)
    (hn : normalIx f.dir i j k = f.int d) : ∀ x ∈ haloInt d f g, x.Legal d s fd i j k := by
  simp only [haloInt, List.forall_mem_cons, List.not_mem_nil, IsEmpty.forall_iff, implies_true, and_true]
  exact ⟨on_legal (a := .q) (fun _ _ _ h => h) trivial (int_in z f).1 (int_in z f).2 (le_refl _) (le_refl _) hp hn,
    on_legal (a := .q) (fun _ _ _ h => h) trivial (halo_in z f hg).1 (halo_in z f hg).2 (le_refl _) (le_refl _) hp hn⟩

theorem second_legal (z : Sized d) (f : Fc) {g : ℕ} (hg : g < d.ng) {i j k : ℤ} (hp : planeIx d f.dir i j k)
    (hn : normalIx f.dir i j k = f.int d) : (second d f g).Legal d s fd i j k :=
  on_legal (a := .q) (fun _ _ _ h => h) trivial (second_in z f hg).1 (second_in z f hg).2 (le_refl _) (le_refl _) hp hn

theorem normals_legal (z : Sized d) (f : Fc) (e : Dir) {i j k : ℤ} (hp : planeIx d f.dir i j k)
    (hn : normalIx f.dir i j k = f.int d) : (normals d f e).Legal d s fd i j k := by
  refine on_legal (a := .face e) (fun i j k h => ?_) trivial (face_in z f).1 (face_in z f).2 (le_refl _) (le_refl _) hp hn
  cases e <;> simp only [cellIx, inC, Inside, faceIx, inF] at * <;> omega

theorem eosHalo_safe (z : Sized d) (f : Fc) : (eosHalo d f).Safe d s fd := by
  have hn := z.ng
  have hs := z.ns
  have h2 := n_two z f.dir
  unfold eosHalo
  split <;> (
    refine slab_safe fun i j k hp h1 h3 => ?_
    simp only [eosAccs, at0, List.forall_mem_cons, List.not_mem_nil, IsEmpty.forall_iff, implies_true, and_true, Acc.Legal,
      allocated, true_and, comps, Inside, add_zero]
    have hc : cellIx d i j k := by
      generalize hm : d.n f.dir = m at *
      cases hf : f.dir <;> rw [hf] at hp h1 h3 hm <;> simp only [planeIx, normalIx, inC, Dims.n, cellIx] at * <;> omega
    refine ⟨fun c a b => ⟨a, b, hc⟩, fun c a b => ⟨a, b, hc⟩, fun c a b => ⟨a, by omega, hc⟩, fun c a b => ⟨by omega, b, hc⟩⟩)

theorem massFlux_safe (z : Sized d) (f : Fc) (ht : (fd f).target = true) : ∀ L ∈ massFluxRounds d f, L.Safe d s fd := by
  have hs := z.ns
  unfold massFluxRounds
  refine rounds_safe fun g hg i j k hp hn => ?_
  have h2 := n_two z f.dir
  have hng := z.ng
  have hg' : (g = 0 ∧ d.ng = 1) ∨ (g = 0 ∧ d.ng = 2) ∨ (g = 1 ∧ d.ng = 2) := by omega
  have hb : (0 ≤ f.halo d - f.plus * cum (d.ng - 1) + f.plus * (d.ng - 1) - f.plus * cum g ∧
      f.halo d - f.plus * cum (d.ng - 1) + f.plus * (d.ng - 1) - f.plus * cum g < d.n f.dir + 2 * d.ng - 1) ∧
      (0 ≤ f.int d + f.plus + f.plus * cum (d.ng - 1) - f.plus * (d.ng - 1) - f.plus + f.plus * cum g ∧
      f.int d + f.plus + f.plus * cum (d.ng - 1) - f.plus * (d.ng - 1) - f.plus + f.plus * cum g < d.n f.dir + 2 * d.ng - 1) := by
    unfold Fc.halo Fc.int Fc.plus
    have c0 : cum 0 = 0 := rfl
    have c1 : cum 1 = 1 := rfl
    have c0' : cum (1 - 1) = 0 := rfl
    have c1' : cum (2 - 1) = 1 := rfl
    rcases hg' with ⟨rfl, e⟩ | ⟨rfl, e⟩ | ⟨rfl, e⟩ <;> rw [e] <;> simp only [c0, c1, c0', c1'] <;> cases f.low <;> simp <;> omega
  have ne5 : 5 ≤ d.ne := by unfold Dims.ne; omega
  simp only [List.forall_mem_cons, List.not_mem_nil, IsEmpty.forall_iff, implies_true, and_true]
  refine ⟨on_legal (a := .q) (fun _ _ _ h => h) trivial hb.1.1 hb.1.2 ?_ ?_ hp hn,
    on_legal (a := .q) (fun _ _ _ h => h) trivial hb.2.1 hb.2.2 ?_ ?_ hp hn,
    on_legal (a := .Q) (fun _ _ _ h => h) trivial hb.1.1 hb.1.2 ?_ ?_ hp hn,
    on_legal (a := .Q) (fun _ _ _ h => h) trivial hb.2.1 hb.2.2 ?_ ?_ hp hn,
    plane_legal ht ?_ ?_ hp⟩ <;> (try simp only [comps]) <;> omega

theorem spline_safe (z : Sized d) (f : Fc) (ht : (fd f).target = true) (ha : (fd f).spline = true) :
    (splineRound d f).Safe d s fd := by
  obtain ⟨z1, z2, z3, z4, z5⟩ := z
  have ne5 : 5 ≤ d.ne := by unfold Dims.ne; omega
  intro i j k
  unfold splineRound
  cases hf : f.dir <;> (
    intro h1 h2 h3 h4 h5 h6
    simp only [List.forall_mem_cons, List.not_mem_nil, IsEmpty.forall_iff, implies_true, and_true, Acc.Legal, allocated, comps,
      Inside, add_zero, hf, planeIx, inC]
    refine ⟨⟨ht, fun c a b => ⟨by omega, by omega, ?_⟩⟩, ha, fun c a b => ⟨a, b, ?_⟩⟩ <;> dsimp only at h1 h2 h3 h4 h5 h6 <;> omega)

/-! ### the three groups of terms of a face -/

theorem euler_safe (z : Sized d) (f : Fc) (t : FType) {v : Bool} (hr : FaceReady v t (fd f)) : ∀ L ∈ euler d f t, L.Safe d s fd := by
  have ht : t ∈ targetTypes → (fd f).target = true := fun h => hr.target (Or.inl h)
  have base : ∀ more : ℕ → List Acc, (∀ g < d.ng, ∀ i j k, planeIx d f.dir i j k → normalIx f.dir i j k = f.int d →
      ∀ x ∈ more g, x.Legal d s fd i j k) →
      ∀ L ∈ (rounds d f fun g => haloInt d f g ++ more g), L.Safe d s fd := fun more hm =>
    rounds_safe fun g hg i j k hp hn x hx => by
      rcases List.mem_append.1 hx with h | h
      · exact haloInt_legal z f hg hp hn x h
      · exact hm g hg i j k hp hn x h
  have halo : ∀ L ∈ [eosHalo d f], L.Safe d s fd := fun L hL => by rw [List.mem_singleton.1 hL]; exact eosHalo_safe z f
  have app : ∀ {a b : List Launch}, (∀ L ∈ a, L.Safe d s fd) → (∀ L ∈ b, L.Safe d s fd) → ∀ L ∈ a ++ b, L.Safe d s fd :=
    fun ha hb L hL => (List.mem_append.1 hL).elim (ha L) (hb L)
  have ne4 : 4 ≤ d.ne := by have := z.ns; unfold Dims.ne; omega
  cases t <;> simp only [euler, List.not_mem_nil, IsEmpty.forall_iff, implies_true]
  case periodicRotLow =>
    refine base _ fun g hg i j k hp hn => ?_
    simp only [List.forall_mem_cons, List.not_mem_nil, IsEmpty.forall_iff, implies_true, and_true]
    exact ⟨on_legal (a := .Q) (fun _ _ _ h => h) trivial (halo_in z f hg).1 (halo_in z f hg).2 (le_refl _) ne4 hp hn, rot_legal (hr.rotation (by simp))⟩
  case periodicRotHigh =>
    refine base _ fun g hg i j k hp hn => ?_
    simp only [List.forall_mem_cons, List.not_mem_nil, IsEmpty.forall_iff, implies_true, and_true]
    exact ⟨on_legal (a := .Q) (fun _ _ _ h => h) trivial (halo_in z f hg).1 (halo_in z f hg).2 (le_refl _) ne4 hp hn, rot_legal (hr.rotation (by simp))⟩
  case constantVelocitySubsonicInlet =>
    refine app (base _ fun g hg i j k hp hn => ?_) halo
    simp only [List.forall_mem_cons, List.not_mem_nil, IsEmpty.forall_iff, implies_true, and_true]
    exact ⟨second_legal z f hg hp hn, plane_legal (ht (by simp [targetTypes])) (le_refl _) (le_refl _) hp⟩
  case supersonicInlet =>
    refine app (base _ fun g hg i j k hp hn => ?_) halo
    simp only [List.forall_mem_cons, List.not_mem_nil, IsEmpty.forall_iff, implies_true, and_true]
    exact ⟨second_legal z f hg hp hn, plane_legal (ht (by simp [targetTypes])) (le_refl _) (le_refl _) hp⟩
  case constantMassFluxSubsonicInlet =>
    refine app (app (base _ fun g hg i j k hp hn => ?_) halo) (massFlux_safe z f (ht (by simp [targetTypes])))
    simp only [List.forall_mem_cons, List.not_mem_nil, IsEmpty.forall_iff, implies_true, and_true]
    exact ⟨second_legal z f hg hp hn, plane_legal (ht (by simp [targetTypes])) (le_refl _) (le_refl _) hp⟩
  case cubicSplineSubsonicInlet =>
    refine app (app (fun L hL => ?_) (base _ fun g hg i j k hp hn => ?_)) halo
    · rw [List.mem_singleton.1 hL]; exact spline_safe z f (ht (by simp [targetTypes])) (hr.spline rfl)
    · simp only [List.forall_mem_cons, List.not_mem_nil, IsEmpty.forall_iff, implies_true, and_true]
      exact ⟨second_legal z f hg hp hn, plane_legal (ht (by simp [targetTypes])) (le_refl _) (le_refl _) hp⟩
  case stagnationSubsonicInlet =>
    refine app (base _ fun g hg i j k hp hn => ?_) halo
    simp only [List.forall_mem_cons, List.not_mem_nil, IsEmpty.forall_iff, implies_true, and_true]
    exact ⟨on_legal (a := .Q) (fun _ _ _ h => h) trivial (int_in z f).1 (int_in z f).2 (le_refl _) (le_refl _) hp hn,
      on_legal (a := .qh) (fun _ _ _ h => h) trivial (int_in z f).1 (int_in z f).2 (le_refl _) (by have := z.ns; simp only [comps]; omega) hp hn,
      normals_legal z f _ hp hn, plane_legal (ht (by simp [targetTypes])) (le_refl _) (le_refl _) hp⟩
  case constantPressureSubsonicExit =>
    refine app (base _ fun g hg i j k hp hn => ?_) halo
    simp only [List.forall_mem_cons, List.not_mem_nil, IsEmpty.forall_iff, implies_true, and_true]
    exact ⟨second_legal z f hg hp hn, normals_legal z f _ hp hn, plane_legal (ht (by simp [targetTypes])) (le_refl _) (le_refl _) hp⟩
  case supersonicExit =>
    refine app (base _ fun g hg i j k hp hn => ?_) halo
    simp only [List.forall_mem_cons, List.not_mem_nil, IsEmpty.forall_iff, implies_true, and_true]
    exact ⟨second_legal z f hg hp hn, normals_legal z f _ hp hn⟩
  all_goals
    refine app (base _ fun g hg i j k hp hn => ?_) halo
    simp only [List.forall_mem_cons, List.not_mem_nil, IsEmpty.forall_iff, implies_true, and_true]
    first
      | exact normals_legal z f _ hp hn
      | exact ⟨normals_legal z f _ hp hn, plane_legal (ht (by simp [targetTypes])) (le_refl _) (le_refl _) hp⟩

theorem pre_safe (z : Sized d) (f : Fc) (t : FType) (hr : FaceReady true t (fd f)) : ∀ L ∈ pre d f t, L.Safe d s fd := by
  cases t <;> simp only [pre, List.not_mem_nil, IsEmpty.forall_iff, implies_true]
  case adiabaticNoSlipWall => exact rounds_safe fun g hg i j k hp hn => haloInt_legal z f hg hp hn
  case isoTNoSlipWall => exact rounds_safe fun g hg i j k hp hn => haloInt_legal z f hg hp hn
  all_goals
    refine rounds_safe fun g hg i j k hp hn x hx => ?_
    rcases List.mem_append.1 hx with h | h
    · exact haloInt_legal z f hg hp hn x h
    · rw [List.mem_singleton.1 h]
      exact plane_legal (hr.target (by simp [targetTypes])) (le_refl _) (le_refl _) hp

theorem post_safe (z : Sized d) (hd : truthy s.diffusion = true) (f : Fc) (t : FType) {v : Bool} (hr : FaceReady v t (fd f)) :
    ∀ L ∈ post d f t, L.Safe d s fd := by
  have base : ∀ more : List Acc, (∀ i j k, ∀ x ∈ more, x.Legal d s fd i j k) → ∀ L ∈ gradSlices d f more, L.Safe d s fd := by
    intro more hm L hL
    rw [gradSlices, List.mem_singleton] at hL
    subst hL
    refine slab_safe fun i j k hp h1 h2 x hx => ?_
    have hn : normalIx f.dir i j k = f.int d := by omega
    have hng : 0 < d.ng := by have := z.ng; omega
    have h0 := halo_in z f hng
    simp only [Fc.haloOf, cum, mul_zero, sub_zero] at h0
    rcases List.mem_append.1 hx with h | h
    · simp only [List.mem_cons, List.not_mem_nil, or_false] at h
      rcases h with rfl | rfl
      · exact on_legal (a := .grad) (fun _ _ _ h => h) hd (int_in z f).1 (int_in z f).2 (le_refl _) (le_refl _) hp hn
      · exact on_legal (a := .grad) (fun _ _ _ h => h) hd h0.1 h0.2 (le_refl _) (le_refl _) hp hn
    · exact hm i j k x h
  cases t <;> simp only [post, List.not_mem_nil, IsEmpty.forall_iff, implies_true]
  case periodicRotLow =>
    refine base _ fun i j k x hx => ?_
    rw [List.mem_singleton.1 hx]; exact rot_legal (hr.rotation (by simp))
  case periodicRotHigh =>
    refine base _ fun i j k x hx => ?_
    rw [List.mem_singleton.1 hx]; exact rot_legal (hr.rotation (by simp))
  all_goals exact base _ (by simp)

/-- conversely, legal euler terms need the data -/
theorem euler_ready (z : Sized d) (f : Fc) (t : FType) (h : ∀ L ∈ euler d f t, L.Safe d s fd) :
    (t ∈ targetTypes → (fd f).target = true) ∧ (t = .cubicSplineSubsonicInlet → (fd f).spline = true) ∧
    (t = .periodicRotLow ∨ t = .periodicRotHigh → (fd f).rotation = true) := by
  have left : ∀ {a b : List Launch}, (∀ L ∈ a ++ b, L.Safe d s fd) → ∀ L ∈ a, L.Safe d s fd :=
    fun h L hL => h L (List.mem_append_left _ hL)
  have right : ∀ {a b : List Launch}, (∀ L ∈ a ++ b, L.Safe d s fd) → ∀ L ∈ b, L.Safe d s fd :=
    fun h L hL => h L (List.mem_append_right _ hL)
  refine ⟨?_, ?_, ?_⟩
  · intro ht
    simp only [targetTypes, List.mem_cons, List.not_mem_nil, or_false] at ht
    have key : ∀ accs : ℕ → List Acc, (∀ L ∈ rounds d f accs, L.Safe d s fd) → targets d f ∈ accs 0 → (fd f).target = true :=
      fun accs h hm => rounds_alloc z h hm
    rcases ht with rfl | rfl | rfl | rfl | rfl | rfl | rfl | rfl | rfl <;> simp only [euler] at h
    case inr.inr.inl => exact key _ (left (left h)) (by simp)
    case inr.inr.inr.inl => exact key _ (right (left h)) (by simp)
    all_goals exact key _ (left h) (by simp)
  · rintro rfl
    simp only [euler] at h
    have hs := h (splineRound d f) (by simp)
    obtain ⟨z1, z2, z3, z4, z5⟩ := z
    have hx := hs 0 0 0
    unfold splineRound at hx
    cases hf : f.dir <;> rw [hf] at hx <;>
      exact (hx (by simp) (by dsimp only; omega) (by simp) (by dsimp only; omega) (by simp) (by dsimp only; omega) ⟨.alphas f, (0, 0, 0), 0, 12⟩ (by simp)).1
  · have key : ∀ accs : ℕ → List Acc, (∀ L ∈ rounds d f accs, L.Safe d s fd) → ⟨.rot f, (0, 0, 0), 0, 9⟩ ∈ accs 0 →
      (fd f).rotation = true := fun accs h hm => rounds_alloc z h hm
    rintro (rfl | rfl) <;> simp only [euler] at h <;> exact key _ h (by simp)

theorem pre_ready (z : Sized d) (f : Fc) (h : ∀ L ∈ pre d f .adiabaticMovingWall, L.Safe d s fd) : (fd f).target = true := by
  simp only [pre] at h
  exact rounds_alloc z (x := targets d f) h (by simp)

/-! ### halo exchange -/

theorem comm_safe (z : Sized d) (rev : Fc → Bool) (v : CV) (ha : allocated s fd v.arr) : ∀ L ∈ comm d rev fd v, L.Safe d s fd := by
  intro L hL
  simp only [comm, List.mem_flatMap] at hL
  obtain ⟨f, -, hL⟩ := hL
  have hng := z.ng
  have hn2 := n_two z f.dir
  split at hL
  case isFalse => simp at hL
  case isTrue hnb =>
    simp only [List.mem_flatMap, List.mem_range, List.mem_cons, List.not_mem_nil, or_false] at hL
    obtain ⟨g, hg, hL⟩ := hL
    have hcell : ∀ i j k, cellIx d i j k → Inside d v.arr i j k := by cases v <;> exact fun _ _ _ h => h
    have hcb : comps d v.arr = bufComps d v := by cases v <;> rfl
    have hlay : 0 ≤ layerOf d (rev f) v g ∧ layerOf d (rev f) v g < layers d v ∧ (g : ℤ) < layers d v := by
      cases v <;> simp only [nslices] at hg <;> simp [layerOf, layers] <;> (try split) <;> omega
    have hsl : ∀ send, 0 ≤ sliceOf d f send v g ∧ sliceOf d f send v g < d.n f.dir + 2 * d.ng - 1 := by
      intro send
      cases v <;> cases send <;> cases hl : f.low <;> simp [sliceOf, hl, nslices] at hg ⊢ <;> omega
    rcases hL with rfl | rfl <;> (
      refine slab_safe fun i j k hp h1 h2 => ?_
      simp only [List.forall_mem_cons, List.not_mem_nil, IsEmpty.forall_iff, implies_true, and_true])
    · refine ⟨⟨ha, fun c a b => ⟨a, b, hcell _ _ _ ?_⟩⟩, hnb, fun c a b => ⟨a, ?_, ?_⟩⟩
      · have := hsl true
        generalize sliceOf d f true v g = m at *
        cases hf : f.dir <;> rw [hf] at hp h1 h2 this <;> simp only [planeIx, normalIx, inC, Dims.n, cellIx] at * <;> omega
      · rw [hcb] at b; exact b
      · simp only [Inside]
        generalize sliceOf d f true v g = m at *
        generalize layerOf d (rev f) v g = l at *
        generalize layers d v = y at *
        cases hf : f.dir <;> rw [hf] at hp h1 h2 <;> simp only [planeIx, normalIx, inC, Dir.v] at * <;> omega
    · refine ⟨⟨ha, fun c a b => ⟨a, b, hcell _ _ _ ?_⟩⟩, hnb, fun c a b => ⟨a, ?_, ?_⟩⟩
      · have := hsl false
        generalize sliceOf d f false v g = m at *
        cases hf : f.dir <;> rw [hf] at hp h1 h2 this <;> simp only [planeIx, normalIx, inC, Dims.n, cellIx] at * <;> omega
      · rw [hcb] at b; exact b
      · simp only [Inside]
        generalize sliceOf d f false v g = m at *
        generalize layers d v = y at *
        cases hf : f.dir <;> rw [hf] at hp h1 h2 <;> simp only [planeIx, normalIx, inC, Dir.v] at * <;> omega

end
end PG.Safe
