import Verif.Mem.Setup
import Verif.Par.Table

/-!
# C107: the same run on builds with separate device memory
-/

namespace PG.Mem

variable {V O : Type}

/-- C107 (every integrator but `strang`): whatever the kernels and Python functions compute, for every case, every
configuration and every number of steps, a build whose views live in another memory prints and writes exactly what a
build with one memory does.  Nothing is assumed of the memory before the run (`h`, `d` and `m` are arbitrary). -/
theorem C107_run_partial (c : Code V O) (g : Grid) (hg : g.Ok) (cfg : Config) (hi : cfg.integrator ≠ .strang)
    (hx : ∀ n ∈ cfg.extraVars, n ∈ geoNames ++ flowNames ++ histNames) (evals niter nrt : ℕ) (tme : V)
    (m h d : Memory V) :
    (split (simulate c g cfg evals niter nrt tme) h d).2 = (shared (simulate c g cfg evals niter nrt tme) m).2 :=
  ((Safe.seq (bootstrap_safe c cfg hg nrt tme) (loop_safe c cfg hg hi hx evals niter nrt tme)).sound
    (F := ⟨∅, ∅⟩) ⟨by simp, by simp⟩).1

/-- C107: at the end of the set-up and after every step of the run the device holds the values a one-memory build
has in every array a kernel can read, and the host holds them for the geometry. -/
theorem C107_state (c : Code V O) (g : Grid) (hg : g.Ok) (cfg : Config) (hi : cfg.integrator ≠ .strang)
    (hx : ∀ n ∈ cfg.extraVars, n ∈ geoNames ++ flowNames ++ histNames) (evals niter nrt : ℕ) (tme : V)
    (m h d : Memory V) :
    let r := split (simulate c g cfg evals niter nrt tme) h d
    let s := shared (simulate c g cfg evals niter nrt tme) m
    (∀ b ∈ g.blocks, ∀ n ∈ geoNames ++ flowNames ++ histNames, r.1.2 (bv b n) = s.1 (bv b n)) ∧
    (∀ b ∈ g.blocks, ∀ n ∈ geoNames, r.1.1 (bv b n) = s.1 (bv b n)) := by
  have := ((Safe.seq (bootstrap_safe c cfg hg nrt tme) (loop_safe c cfg hg hi hx evals niter nrt tme)).sound
    (F := ⟨∅, ∅⟩) (m := m) (h := h) (d := d) ⟨by simp, by simp⟩).2
  exact ⟨fun b hb n hn => this.2 _ (kReads_flow hb hn), fun b hb n hn => this.1 _ (.inl ⟨b, hb, n, hn, rfl⟩)⟩

/-- C107 (serial writers, as the examples use them): after `updateHostView(["q", "Q"])` of the blocks, `writeRestart`
writes the same file on both kinds of build. -/
theorem C107_serial_partial (c : Code V O) (g : Grid) (a : List V) (m h d : Memory V)
    (hd : ∀ b ∈ g.blocks, d (bv b "q") = m (bv b "q") ∧ d (bv b "Q") = m (bv b "Q")) :
    (split (each g.blocks (fun b => pullB b ["q", "Q"]) ;; writeRestart c g a) h d).2 =
      (shared (each g.blocks (fun b => pullB b ["q", "Q"]) ;; writeRestart c g a) m).2 := by
  let D : Set Var := bset g ["q", "Q"]
  have s : Safe ⟨∅, D⟩ (each g.blocks (fun b => pullB b ["q", "Q"]) ;; writeRestart c g a : Prog V O) ⟨∅, D⟩ := by
    refine Safe.seq (F' := ⟨D, D⟩) ?_ ?_
    · refine Safe.post (each_add (fun b => bvs b ["q", "Q"]) (fun _ => ∅) fun b hb H' D' hH hD => ?_) ?_ (fun v h => .inl h)
      · exact Safe.post (each_pull _ fun n hn => hD ⟨b, hb, n, hn, rfl⟩) (fun v h => h) (fun v h => h.resolve_right (by simp))
      · rintro v ⟨b, hb, n, hn, rfl⟩
        exact .inr ⟨b, hb, n, hn, rfl⟩
    · refine Safe.post (each_inv fun b hb => out_safe c _ _ ?_) (by simp) (fun v h => h)
      rintro v ⟨n, hn, rfl⟩
      exact ⟨b, hb, n, hn, rfl⟩
  refine (s.sound ⟨by simp, ?_⟩).1
  rintro v ⟨b, hb, n, hn, rfl⟩
  simp only [List.mem_cons, List.not_mem_nil, or_false] at hn
  rcases hn with rfl | rfl
  · exact (hd b hb).1
  · exact (hd b hb).2

/-! ### The footprints are those of the kernels -/

/-- Every array a kernel of `src/compute` writes is one of the flow arrays, the boundary values of a face, or an array
passed as an argument (the fluxes `iF`, `jF`, `kF`, and the arrays given to `AEQB` and `ApEQxB`). -/
theorem C107_kernel_writes : ∀ k ∈ Par.kernels, ∀ a ∈ k.acc, a.write = true →
    a.arr ∈ flowNames ∨ a.arr = "face.qBcVals" ∨ a.arr = "param" := by decide +kernel

/-- Every array a kernel reads is a species table, an array of the block, or a boundary, rotation or spline array of a
face, or an argument. -/
theorem C107_kernel_reads : ∀ k ∈ Par.kernels, ∀ a ∈ k.acc, a.arr ∈ thtrNames.map ("th." ++ ·) ∨
    a.arr ∈ geoNames ++ flowNames ++ histNames ∨ a.arr ∈ rotNames.map ("face." ++ ·) ∨ a.arr ∈ bcNames.map ("face." ++ ·) ∨
    a.arr = "face.intervalAlphas" ∨ a.arr = "param" := by decide +kernel

/-! ### Where the discipline is broken -/

open Classical in
/-- Functions that leave everything alone (or zero, if they overwrite without reading), except that the chemistry of
`strang` sets `Q` to one and the stage kernel of `rk1` sets it to two. -/
noncomputable def exCode : Code ℕ ℕ where
  act s _ R W :=
    { reads := R
      writes := W
      run := fun m v => if v ∈ W then
        if s = "stiff Q" then 1 else if s = "ApEQxB" ∧ v = bv 0 "Q" then 2 else if v ∈ R then m v else 0 else m v
      frame := fun m v h => by simp [h]
      det := fun m m' h v hv => by
        by_cases hr : v ∈ R
        · simp [hv, hr, h v hr]
        · simp [hv, hr] }
  act_reads _ _ _ _ := rfl
  act_writes _ _ _ _ := rfl
  red _ _ R := ⟨R, fun _ => 0, fun _ _ _ => rfl⟩
  red_reads _ _ _ := rfl
  out _ _ R := ⟨R, fun m => if bv 0 "Q" ∈ R then m (bv 0 "Q") else 0, fun m m' h => by
    by_cases hr : bv 0 "Q" ∈ R
    · simp [hr, h _ hr]
    · simp [hr]⟩
  out_reads _ _ _ := rfl
  plus := (· + ·)
  isPos x := decide (0 < x)
  ofNat := id

/-- One block, no connections. -/
def exGrid : Grid := ⟨[0], [], [], [], [], []⟩

theorem exGrid_ok : exGrid.Ok := by constructor <;> simp [exGrid]

/-- Inviscid, no switch. -/
def exCfg (i : Integrator) : Config :=
  ⟨false, false, i, 1, 1000, 1, 0, 1000, [], fun _ => false, fun _ => false⟩

/-- The program neither writes a file nor changes `Q` of block 0, on either side. -/
def Keeps (p : Prog ℕ ℕ) : Prop :=
  (∀ m, (shared p m).1 (bv 0 "Q") = m (bv 0 "Q") ∧ (shared p m).2 = []) ∧
  (∀ h d, (split p h d).1.1 (bv 0 "Q") = h (bv 0 "Q") ∧ (split p h d).1.2 (bv 0 "Q") = d (bv 0 "Q") ∧ (split p h d).2 = [])

theorem Keeps.skip : Keeps .skip := ⟨fun _ => ⟨rfl, rfl⟩, fun _ _ => ⟨rfl, rfl, rfl⟩⟩

theorem Keeps.seq {p q : Prog ℕ ℕ} (hp : Keeps p) (hq : Keeps q) : Keeps (p ;; q) := by
  refine ⟨fun m => ?_, fun h d => ?_⟩
  · have a := hp.1 m
    have b := hq.1 (shared p m).1
    exact ⟨b.1.trans a.1, by simp [shared, a.2, b.2]⟩
  · have a := hp.2 h d
    have b := hq.2 (split p h d).1.1 (split p h d).1.2
    exact ⟨b.1.trans a.1, b.2.1.trans a.2.1, by simp [split, a.2.2, b.2.2]⟩

theorem Keeps.each {α : Type} {l : List α} {f : α → Prog ℕ ℕ} (h : ∀ a ∈ l, Keeps (f a)) : Keeps (each l f) := by
  induction l with
  | nil => exact Keeps.skip
  | cons a l ih => exact Keeps.seq (h a (by simp)) (ih fun b hb => h b (by simp [hb]))

theorem exCode_keep {s : String} (hs : s ≠ "stiff Q") (hs' : s ≠ "ApEQxB") {R W : Set Var} (hr : bv 0 "Q" ∈ R) (a : List ℕ)
    (m : Memory ℕ) : (exCode.act s a R W).run m (bv 0 "Q") = m (bv 0 "Q") := by
  simp [exCode, hs, hs', hr]

theorem kernB_keeps {s : String} (hs : s ≠ "stiff Q") (hs' : s ≠ "ApEQxB") (a : List ℕ) (b : ℕ) :
    Keeps (kernB exCode exGrid s a b) := by
  have hr : bv 0 "Q" ∈ kReads exGrid := kReads_flow (by simp [exGrid]) (by decide)
  exact ⟨fun m => ⟨exCode_keep hs hs' hr a m, rfl⟩, fun h d => ⟨rfl, exCode_keep hs hs' hr a d, rfl⟩⟩

theorem py_keeps {s : String} {R W : Set Var} (hW : bv 0 "Q" ∉ W) (a : List ℕ) : Keeps (py exCode s a R W) :=
  ⟨fun m => ⟨(exCode.act s a R W).frame m _ (by rw [exCode.act_writes]; exact hW), rfl⟩,
    fun h d => ⟨(exCode.act s a R W).frame h _ (by rw [exCode.act_writes]; exact hW), rfl, rfl⟩⟩

theorem communicate_keeps (vs : List String) : Keeps (communicate exCode exGrid vs) := by
  refine Keeps.each fun n _ => Keeps.seq Keeps.skip (Keeps.seq (py_keeps ?_ _) Keeps.skip)
  rintro ⟨x, hx, _⟩
  simp [exGrid] at hx

theorem consistify_keeps (i : Integrator) (a : List ℕ) : Keeps (consistify exCode exGrid (exCfg i) "cons" a) := by
  refine Keeps.seq (communicate_keeps _) (Keeps.seq (Keeps.each fun b _ => ?_) Keeps.skip)
  refine Keeps.seq (kernB_keeps (by decide) (by decide) _ b) (Keeps.seq (Keeps.seq ?_ (kernB_keeps (by decide) (by decide) _ b))
    (Keeps.seq (kernB_keeps (by decide) (by decide) _ b) (Keeps.seq (kernB_keeps (by decide) (by decide) _ b)
      (kernB_keeps (by decide) (by decide) _ b))))
  exact Keeps.skip

theorem rhs_keeps (i : Integrator) (a : List ℕ) : Keeps (rhs exCode exGrid (exCfg i) a) := by
  refine Keeps.seq (Keeps.each fun b _ => ?_) (Keeps.seq Keeps.skip (Keeps.each fun b _ => kernB_keeps (by decide) (by decide) _ b))
  exact Keeps.seq (kernB_keeps (by decide) (by decide) _ b) (Keeps.seq (kernB_keeps (by decide) (by decide) _ b)
    (Keeps.seq (kernB_keeps (by decide) (by decide) _ b) (Keeps.seq (kernB_keeps (by decide) (by decide) _ b)
      (kernB_keeps (by decide) (by decide) _ b))))

theorem rkStage_keeps (i : Integrator) {s : String} (hs : s ≠ "stiff Q") (hs' : s ≠ "ApEQxB") (a : List ℕ) :
    Keeps (rkStage exCode exGrid (exCfg i) s "cons" a) :=
  Keeps.seq (rhs_keeps i a) (Keeps.seq (Keeps.each fun b _ => kernB_keeps hs hs' a b) (consistify_keeps i a))

/-- `Q` of block 0 goes from `x` to `f x` with one memory and, on the device, from `x` to `e x` with two; no output. -/
def Moves (p : Prog ℕ ℕ) (f e : ℕ → ℕ) : Prop :=
  (∀ m, (shared p m).1 (bv 0 "Q") = f (m (bv 0 "Q")) ∧ (shared p m).2 = []) ∧
  (∀ h d, (split p h d).1.2 (bv 0 "Q") = e (d (bv 0 "Q")) ∧ (split p h d).2 = [])

theorem Keeps.moves {p : Prog ℕ ℕ} (h : Keeps p) : Moves p id id :=
  ⟨fun m => h.1 m, fun x y => ⟨(h.2 x y).2.1, (h.2 x y).2.2⟩⟩

theorem Moves.seq {p q : Prog ℕ ℕ} {f e f' e' : ℕ → ℕ} (hp : Moves p f e) (hq : Moves q f' e') :
    Moves (p ;; q) (f' ∘ f) (e' ∘ e) := by
  refine ⟨fun m => ?_, fun h d => ?_⟩
  · have a := hp.1 m
    have b := hq.1 (shared p m).1
    exact ⟨b.1.trans (by rw [a.1]; rfl), by simp [shared, a.2, b.2]⟩
  · have a := hp.2 h d
    have b := hq.2 (split p h d).1.1 (split p h d).1.2
    exact ⟨b.1.trans (by rw [a.1]; rfl), by simp [split, a.2, b.2]⟩

theorem restart_out (a : List ℕ) (m h d : Memory ℕ) :
    (shared (parallelWriteRestart exCode exGrid a) m).2 = [m (bv 0 "Q")] ∧
    (split (parallelWriteRestart exCode exGrid a) h d).2 = [d (bv 0 "Q")] := by
  have e : bv 0 "Q" ∈ bvs 0 ["q", "Q"] := ⟨"Q", by simp, rfl⟩
  have n : bv 0 "Q" ≠ bv 0 "q" := by decide
  constructor <;> simp [parallelWriteRestart, exGrid, each, shared, split, pullB, exCode, e, put]

theorem stiffChem_moves (evals : ℕ) (a : List ℕ) : Moves (stiffChem exCode exGrid evals a) (fun _ => 1) id := by
  have pre : Keeps (each (List.range evals) (fun _ =>
      py exCode "stiff y" a (bvs 0 ["q", "omega"]) (bvs 0 ["q"]) ;; kernB exCode exGrid "impChem" a 0)) :=
    Keeps.each fun _ _ => Keeps.seq (py_keeps (by
      rintro ⟨n, hn, e⟩
      rw [List.mem_singleton.1 hn] at e
      exact absurd e (by decide)) a) (kernB_keeps (by decide) (by decide) a 0)
  have Qin : bv 0 "Q" ∈ bvs 0 ["Q"] := ⟨"Q", by simp, rfl⟩
  have last : Moves (py exCode "stiff Q" a (bvs 0 ["q", "omega", "Q"]) (bvs 0 ["Q"])) (fun _ => 1) id :=
    ⟨fun m => ⟨by simp [py, shared, exCode, Qin], rfl⟩, fun h d => ⟨rfl, rfl⟩⟩
  exact Moves.seq (pre.moves.seq last) Keeps.skip.moves

/-- Finding: with `strang`, the two kinds of build disagree, starting from the same contents on both sides: the
chemistry step works on the host arrays without `updateHostView` and `updateDeviceView`
(`integrators/strang.py:9-13`, `73-88`), so on a build with separate memory its result never reaches the solution.
In the example the chemistry sets `Q` to one; the restart written after the step has one with one memory and still
zero with two. -/
theorem C107_strang_violated (evals : ℕ) (a : List ℕ) :
    (shared (step exCode exGrid (exCfg .strang) evals 0 a ;; parallelWriteRestart exCode exGrid a) fun _ => 0).2 = [1] ∧
    (split (step exCode exGrid (exCfg .strang) evals 0 a ;; parallelWriteRestart exCode exGrid a) (fun _ => 0) fun _ => 0).2
      = [0] := by
  have k : ∀ s, s ≠ "stiff Q" → s ≠ "ApEQxB" → Moves (rkStage exCode exGrid (exCfg .strang) s "cons" a) id id :=
    fun s hs hs' => (rkStage_keeps _ hs hs' a).moves
  have s1 := k "rk3s1" (by decide) (by decide)
  have s2 := k "rk3s2" (by decide) (by decide)
  have s3 := k "rk3s3" (by decide) (by decide)
  have all : Moves (step exCode exGrid (exCfg .strang) evals 0 a) (fun _ => 1) id :=
    s1.seq (s2.seq (s3.seq ((stiffChem_moves evals a).seq ((consistify_keeps _ a).moves.seq (s1.seq (s2.seq s3))))))
  have x := all.1 (fun _ => 0)
  have y := all.2 (fun _ => 0) (fun _ => 0)
  refine ⟨?_, ?_⟩
  · show (shared _ _).2 ++ (shared _ _).2 = _
    rw [x.2, (restart_out a _ (fun _ => 0) (fun _ => 0)).1, x.1]; rfl
  · show (split _ _ _).2 ++ (split _ _ _).2 = _
    rw [y.2, (restart_out a (fun _ => 0) _ _).2, y.1]; rfl

/-- Finding: the serial `writeRestart` accepts a solver but writes its host arrays as they are
(`writers/writeRestart.py:91-113`): on a build with separate memory, a file written after a step (here `rk1`, which sets
`Q` to two) still has the values of before, zero.  The parallel writer, and a call of `updateHostView` first
(`C107_serial_partial`), do not have this. -/
theorem C107_serial_violated (a : List ℕ) :
    (shared (step exCode exGrid (exCfg .rk1) 0 0 a ;; writeRestart exCode exGrid a) fun _ => 0).2 = [2] ∧
    (split (step exCode exGrid (exCfg .rk1) 0 0 a ;; writeRestart exCode exGrid a) (fun _ => 0) fun _ => 0).2 = [0] := by
  have hr := rhs_keeps .rk1 a
  have hc := consistify_keeps .rk1 a
  have e : bv 0 "Q" ∈ bvs 0 ["q", "Q"] := ⟨"Q", by simp, rfl⟩
  have hw : bv 0 "Q" ∈ kWrites exGrid 0 := .inl ⟨"Q", by decide, rfl⟩
  let st := stage exCode exGrid "ApEQxB" a
  have st1 : ∀ m, (shared st m).1 (bv 0 "Q") = 2 ∧ (shared st m).2 = [] := fun m =>
    ⟨by simp [st, stage, exGrid, each, kernB, kern, shared, exCode, show bv 0 "Q" ∈ kWrites ⟨[0], [], [], [], [], []⟩ 0 from hw],
      rfl⟩
  have st2 : ∀ h d, (split st h d).1.1 = h ∧ (split st h d).2 = [] := fun h d => ⟨rfl, rfl⟩
  have w : ∀ m h d, (shared (writeRestart exCode exGrid a) m).2 = [m (bv 0 "Q")] ∧
      (split (writeRestart exCode exGrid a) h d).2 = [h (bv 0 "Q")] := by
    intro m h d
    constructor <;> simp [writeRestart, exGrid, each, shared, split, exCode, e]
  constructor
  · have a1 := hr.1 (fun _ => 0)
    have a2 := st1 (shared (rhs exCode exGrid (exCfg .rk1) a) fun _ => 0).1
    have a3 := hc.1 (shared st (shared (rhs exCode exGrid (exCfg .rk1) a) fun _ => 0).1).1
    show ((shared (rhs exCode exGrid (exCfg .rk1) a) _).2 ++ ((shared st _).2 ++ (shared (consistify _ _ _ _ _) _).2)) ++
      (shared (writeRestart exCode exGrid a) _).2 = _
    rw [(w _ (fun _ => 0) (fun _ => 0)).1, a1.2, a2.2, a3.2]
    exact congrArg (fun x => [x]) (a3.1.trans a2.1)
  · have a1 := hr.2 (fun _ => 0) (fun _ => 0)
    let r := split (rhs exCode exGrid (exCfg .rk1) a) (fun _ => 0) fun _ => 0
    have a2 := st2 r.1.1 r.1.2
    have a3 := hc.2 (split st r.1.1 r.1.2).1.1 (split st r.1.1 r.1.2).1.2
    show (r.2 ++ ((split st r.1.1 r.1.2).2 ++ (split (consistify exCode exGrid (exCfg .rk1) "cons" a)
      (split st r.1.1 r.1.2).1.1 (split st r.1.1 r.1.2).1.2).2)) ++ (split (writeRestart exCode exGrid a) _ _).2 = _
    rw [(w (fun _ => 0) _ _).2, a1.2.2, a2.2, a3.2.2]
    exact congrArg (fun x => [x]) (a3.1.trans (by rw [a2.1]; exact a1.1))

/-- The hypotheses of `C107_run_partial` hold of a case with two blocks joined along i, a periodic pair along j, a wall
and a time dependent inlet, tracing, extra arrays and the dual time integrator. -/
example : (Grid.mk [0, 1] [(0, 2), (1, 1), (0, 3), (0, 4)] [(0, 3), (0, 4)] [(0, 1), (1, 2)] [(0, 1)] [1]).Ok ∧
    (Config.mk true true .dualTime 10 100 5 50 1 ["qh", "J"] (fun _ => true) fun _ => true).integrator ≠ .strang ∧
    ∀ n ∈ ["qh", "J"], n ∈ geoNames ++ flowNames ++ histNames := by
  refine ⟨⟨by decide, by decide, by decide, by decide, by decide⟩, by decide, by decide⟩

end PG.Mem
