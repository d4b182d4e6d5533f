import Verif.IO.CrashMain
/-!
C108: what happens when the restart files are not numbered (`animateRestart: false`), and between the two halves of a dual time restart.
-/
namespace PG.IO
open PG.Text PG.Run

/-- a single rank can be stopped after any number of operations -/
theorem reach_single (d : Disk) (l l' : List TOp) :
    Reach (R := 1) ⟨d, fun _ => l ++ l'⟩ ⟨l.foldl (fun d o => o.op.apply d) d, fun _ => l'⟩ := by
  induction l generalizing d with
  | nil => exact Relation.ReflTransGen.refl
  | cons o l ih =>
    refine Relation.ReflTransGen.head ?_ (ih (o.op.apply d))
    cases hc : o.op.collective with
    | true => exact Move.all _ o (fun _ => l ++ l') (fun _ => rfl) hc
    | false =>
      have := Move.one (R := 1) ⟨d, fun _ => o :: l ++ l'⟩ 0 o (l ++ l') rfl hc
      have e : Function.update (fun _ : Fin 1 => o :: l ++ l') 0 (l ++ l') = fun _ => l ++ l' := by
        funext r
        rw [Subsingleton.elim r 0, Function.update_self]
      rw [e] at this
      exact this

/-- an output configuration -/
def plainCfg (lump animate dual : Bool) : OutCfg := ⟨"Restart".toList, "Archive".toList, lump, animate, false, [], dual⟩

/-- a restart at every step, no archive, no NaN check -/
def everyStep (dual : Bool) : LConf := ⟨1, 1000, 0, dual⟩

/-- block `j` at iteration `n`: one cell, one halo layer, every variable equal to the iteration -/
def tiny (j n : ℕ) : Blk := ⟨j, 2, 2, 2, true, 1, ["A".toList], fun _ _ _ _ => n, fun _ _ _ => 1⟩

/-- two such blocks on one rank -/
noncomputable def tinyHist (lump animate dual : Bool) : Hist :=
  { c := plainCfg lump animate dual, sp := ["A".toList], single := id, run := fun n => [[tiny 0 n, tiny 1 n]], order := fun n => [tiny 0 n, tiny 1 n],
    tme := fun n => n, qnm1 := fun n _ _ _ _ _ => (n : ℝ) - 1, extraFile := fun _ _ _ => ⟨fun _ => none, 0, 0⟩ }

/-- what a resumed run asks for -/
def tinyTarget (j : ℕ) : Target := ⟨j, 2, 2, 2, true, 1, ["A".toList]⟩

theorem tiny_ok (lump animate dual : Bool) : (tinyHist lump animate dual).Ok 1 := by
  refine ⟨fun _ => rfl, fun n => ⟨?_, ?_, ?_⟩, fun n => ?_, ⟨?_, ?_⟩, ?_⟩
  · show [0, 1].Perm [0, 1]; exact .refl _
  · intro b hb
    simp only [tinyHist, List.flatten_cons, List.flatten_nil, List.append_nil, List.mem_cons, List.not_mem_nil, or_false] at hb
    rcases hb with rfl | rfl <;> exact ⟨rfl, rfl⟩
  · show NamesOk ["A".toList]
    unfold NamesOk
    decide
  · show [tiny 0 n, tiny 1 n].Perm [tiny 0 n, tiny 1 n]; exact .refl _
  · simp [tinyHist, plainCfg]
  · show "Restart".toList ≠ "Archive".toList; decide
  · simp [tinyHist, plainCfg]

theorem tiny_prog (lump animate dual : Bool) : prog (tinyHist lump animate dual) (everyStep dual) (fun _ => false) 0 2 0 =
    (⟨.step, .sync 1⟩ :: evOps (tinyHist lump animate dual) 1 0 (.restart 1) ++ (if dual then evOps (tinyHist lump animate dual) 1 0 (.qnm1 1) else [])) ++
    (⟨.step, .sync 2⟩ :: evOps (tinyHist lump animate dual) 2 0 (.restart 2) ++ (if dual then evOps (tinyHist lump animate dual) 2 0 (.qnm1 2) else [])) := by
  cases dual <;> simp [prog, body, everyStep, evOps]

theorem start_single (K : Hist) (cf : LConf) (bad : ℕ → Bool) (niter nrt : ℕ) (d : Disk) :
    start 1 K cf bad niter nrt d = ⟨d, fun _ => prog K cf bad 0 niter nrt⟩ := by
  unfold start
  congr 1
  funext r
  rw [Subsingleton.elim r 0]
  rfl

theorem reach_start {K : Hist} {cf : LConf} {bad : ℕ → Bool} {niter nrt : ℕ} (d : Disk) {l l' : List TOp} (h : prog K cf bad 0 niter nrt = l ++ l') :
    Reach (start 1 K cf bad niter nrt d) ⟨l.foldl (fun d o => o.op.apply d) d, fun _ => l'⟩ := by
  rw [start_single, h]
  exact reach_single d l l'

theorem tiny_restart_scheduled (dual : Bool) : Ev.restart 1 ∈ simulate (everyStep dual) (fun _ => false) 2 0 := by
  cases dual <;> simp [simulate, loop, body, everyStep]

/-- the file of a lumped restart -/
theorem tiny_lumped (animate dual : Bool) (n : ℕ) : ∃ h : H5, (∀ j < 2, ∀ e ∈ blkEntries (pOpts id) (tiny j n), h e.1 = some e.2) ∧
    evOps (tinyHist true animate dual) n 0 (.restart n) =
      [⟨.restart n, .openAll (pathOf (plainCfg true animate dual) .restart n 0)⟩,
       ⟨.restart n, .closeAll (pathOf (plainCfg true animate dual) .restart n 0) (.h5 ⟨h, n, (n : ℝ)⟩)⟩] := by
  have ok := tiny_ok true animate dual
  obtain ⟨h, h1, h2⟩ := C48_parallel_file id ((tinyHist true animate dual).run n) (tinyHist true animate dual).sp (ok.proper n)
    ((tinyHist true animate dual).order n) (ok.order n)
  refine ⟨h, fun j hj => h2 (tiny j n) ?_, ?_⟩
  · show tiny j n ∈ [tiny 0 n, tiny 1 n]
    interval_cases j <;> simp
  · have hl : (tinyHist true animate dual).c.lump = true := rfl
    simp only [evOps, restartOps, hl, if_true, h1]
    rfl

/-- C108 fails without numbers (lumped): the file of the last complete restart is opened with "w" for the next one; killed there, no restart is left
    although one had been completed and a step had begun since. -/
theorem C108_overwrite_violated : ∃ (K : Hist) (cf : LConf) (s : Conf 1), K.Ok 1 ∧ K.c.animateRestart = false ∧
    Reach (start 1 K cf (fun _ => false) 2 0 fun _ => none) s ∧ Ev.restart 1 ∈ simulate cf (fun _ => false) 2 0 ∧
    Begun (start 1 K cf (fun _ => false) 2 0 fun _ => none) s 2 ∧
    ∃ junk, ∀ n t ts, readRestart K.c.restartDir K.c.lump K.c.animateRestart n (t :: ts) (s.disk.view junk) = none := by
  obtain ⟨h1, _, e1⟩ := tiny_lumped false false 1
  obtain ⟨h2, _, e2⟩ := tiny_lumped false false 2
  have hp := tiny_prog true false false
  rw [e1, e2] at hp
  have hp2 : pathOf (plainCfg true false false) .restart 2 0 = pathOf (plainCfg true false false) .restart 1 0 := rfl
  rw [hp2] at hp
  generalize hq : pathOf (plainCfg true false false) .restart 1 0 = p at *
  let l : List TOp := [⟨.step, .sync 1⟩, ⟨.restart 1, .openAll p⟩, ⟨.restart 1, .closeAll p (.h5 ⟨h1, 1, ((1 : ℕ) : ℝ)⟩)⟩, ⟨.step, .sync 2⟩,
    ⟨.restart 2, .openAll p⟩]
  let l' : List TOp := [⟨.restart 2, .closeAll p (.h5 ⟨h2, 2, ((2 : ℕ) : ℝ)⟩)⟩]
  refine ⟨tinyHist true false false, everyStep false, ⟨l.foldl (fun d o => o.op.apply d) fun _ => none, fun _ => l'⟩, tiny_ok _ _ _, rfl,
    reach_start _ (by rw [hp]; rfl), tiny_restart_scheduled false, ⟨0, ?_, ?_⟩, fun _ => none, fun n t ts => ?_⟩
  · rw [start_single]
    show _ ∈ prog _ _ _ _ _ _
    rw [hp]
    simp
  · simp [l']
  · have hv : ∀ t : Target, Disk.view (l.foldl (fun d o => o.op.apply d) fun _ => none) (fun _ => none)
        (readName "Restart".toList true false n t.num) = none := by
      intro t
      have : readName "Restart".toList true false n t.num = p := by
        rw [← hq, readName_eq, ← dataName_q]; rfl
      rw [this]
      simp [l, Op.apply, Disk.view]
    unfold readRestart
    rw [List.mapM_cons]
    have : (tinyHist true false false).c.restartDir = "Restart".toList ∧ (tinyHist true false false).c.lump = true ∧
      (tinyHist true false false).c.animateRestart = false := ⟨rfl, rfl, rfl⟩
    rw [this.1, this.2.1, this.2.2, hv]
    rfl

theorem tiny_read {j n : ℕ} {f : File} (h : ∀ e ∈ blkEntries (pOpts id) (tiny j n), f.h e.1 = some e.2) :
    ∃ q, readBlk f (tinyTarget j) = some q ∧ ∀ v < 5, q 1 1 1 v = n := by
  obtain ⟨q, r1, r2⟩ := readBlk_spec (pOpts id) (tiny j n) (tinyTarget j) (by constructor <;> simp [kept, pOpts, tiny, tinyTarget]) f
    (fun v hv => h _ (mem_entry (pOpts id) (tiny j n) hv))
  refine ⟨q, r1, fun v hv => ?_⟩
  have := r2 v (by rw [primNames_length]; simp [tiny]; exact hv) 0 0 0 (by simp [tinyTarget]) (by simp [tinyTarget]) (by simp [tinyTarget])
  simpa [roff, tinyTarget, tiny, pOpts] using this

/-- the file of one block -/
theorem tiny_single (n : ℕ) : ∃ h0 h1 : H5, (∀ e ∈ blkEntries (pOpts id) (tiny 0 n), h0 e.1 = some e.2) ∧
    (∀ e ∈ blkEntries (pOpts id) (tiny 1 n), h1 e.1 = some e.2) ∧
    evOps (tinyHist false false false) n 0 (.restart n) =
      [⟨.restart n, .opn (pathOf (plainCfg false false false) .restart n 0)⟩,
       ⟨.restart n, .close (pathOf (plainCfg false false false) .restart n 0) (.h5 ⟨h0, n, (n : ℝ)⟩)⟩,
       ⟨.restart n, .opn (pathOf (plainCfg false false false) .restart n 1)⟩,
       ⟨.restart n, .close (pathOf (plainCfg false false false) .restart n 1) (.h5 ⟨h1, n, (n : ℝ)⟩)⟩] := by
  have hn : NamesOk ["A".toList] := ((tiny_ok false false false).proper 0).names
  obtain ⟨h0, a0, b0⟩ := oneFile_spec id (b := tiny 0 n) hn ⟨rfl, rfl⟩
  obtain ⟨h1, a1, b1⟩ := oneFile_spec id (b := tiny 1 n) hn ⟨rfl, rfl⟩
  refine ⟨h0, h1, b0, b1, ?_⟩
  have hl : (tinyHist false false false).c.lump = false := rfl
  have hmine : (tinyHist false false false).mine n 0 = [tiny 0 n, tiny 1 n] := rfl
  have hsp : (tinyHist false false false).sp = ["A".toList] := rfl
  simp only [evOps, restartOps, hl, hmine, hsp, Bool.false_eq_true, if_false, List.flatMap_cons, List.flatMap_nil, a0, a1]
  rfl

/-- C108 fails without numbers (one file per block): killed between the files of two blocks, the restart that is found mixes two iterations, and it is
    read without any error: block 0 and the counters come from iteration 2, block 1 from iteration 1. -/
theorem C108_mixed_violated : ∃ (K : Hist) (cf : LConf) (s : Conf 1), K.Ok 1 ∧ K.c.animateRestart = false ∧
    Reach (start 1 K cf (fun _ => false) 2 0 fun _ => none) s ∧ Ev.restart 1 ∈ simulate cf (fun _ => false) 2 0 ∧
    Begun (start 1 K cf (fun _ => false) 2 0 fun _ => none) s 2 ∧ (∀ p, s.disk p ≠ some .torn) ∧
    ∀ junk, ∃ q0 q1, readRestart K.c.restartDir K.c.lump K.c.animateRestart 2 [tinyTarget 0, tinyTarget 1] (s.disk.view junk) = some ⟨2, 2, [q0, q1]⟩ ∧
      ∀ v < 5, q0 1 1 1 v = 2 ∧ q1 1 1 1 v = 1 := by
  obtain ⟨a0, a1, A0, A1, e1⟩ := tiny_single 1
  obtain ⟨b0, b1, B0, B1, e2⟩ := tiny_single 2
  have hp := tiny_prog false false false
  rw [e1, e2] at hp
  have hp2 : ∀ j, pathOf (plainCfg false false false) .restart 2 j = pathOf (plainCfg false false false) .restart 1 j := fun _ => rfl
  rw [hp2, hp2] at hp
  have hne : pathOf (plainCfg false false false) .restart 1 0 ≠ pathOf (plainCfg false false false) .restart 1 1 := fun h =>
    absurd ((C49_distinct_partial _ (tiny_ok false false false).sane (tiny_ok false false false).noq .restart .restart trivial trivial _ _ _ _ h).2.2 rfl)
      (by decide)
  generalize hq0 : pathOf (plainCfg false false false) .restart 1 0 = p0 at *
  generalize hq1 : pathOf (plainCfg false false false) .restart 1 1 = p1 at *
  let l : List TOp := [⟨.step, .sync 1⟩, ⟨.restart 1, .opn p0⟩, ⟨.restart 1, .close p0 (.h5 ⟨a0, 1, ((1 : ℕ) : ℝ)⟩)⟩,
    ⟨.restart 1, .opn p1⟩, ⟨.restart 1, .close p1 (.h5 ⟨a1, 1, ((1 : ℕ) : ℝ)⟩)⟩, ⟨.step, .sync 2⟩,
    ⟨.restart 2, .opn p0⟩, ⟨.restart 2, .close p0 (.h5 ⟨b0, 2, ((2 : ℕ) : ℝ)⟩)⟩]
  let l' : List TOp := [⟨.restart 2, .opn p1⟩, ⟨.restart 2, .close p1 (.h5 ⟨b1, 2, ((2 : ℕ) : ℝ)⟩)⟩]
  have hdisk : ∀ p, (l.foldl (fun d o => o.op.apply d) fun _ => none) p = if p = p0 then some (.full (.h5 ⟨b0, 2, ((2 : ℕ) : ℝ)⟩))
      else if p = p1 then some (.full (.h5 ⟨a1, 1, ((1 : ℕ) : ℝ)⟩)) else none := by
    intro p
    simp only [l, List.foldl_cons, List.foldl_nil, Op.apply, Function.update_apply]
    split_ifs <;> rfl
  refine ⟨tinyHist false false false, everyStep false, ⟨l.foldl (fun d o => o.op.apply d) fun _ => none, fun _ => l'⟩, tiny_ok _ _ _, rfl,
    reach_start _ (by rw [hp]; rfl), tiny_restart_scheduled false, ⟨0, ?_, ?_⟩, fun p => ?_, fun junk => ?_⟩
  · rw [start_single]
    show _ ∈ prog _ _ _ _ _ _
    rw [hp]
    simp
  · simp [l']
  · show (l.foldl (fun d o => o.op.apply d) fun _ => none) p ≠ _
    rw [hdisk]
    split_ifs <;> simp
  · have c : (tinyHist false false false).c.restartDir = "Restart".toList ∧ (tinyHist false false false).c.lump = false ∧
      (tinyHist false false false).c.animateRestart = false := ⟨rfl, rfl, rfl⟩
    rw [c.1, c.2.1, c.2.2]
    have v0 : Disk.view (l.foldl (fun d o => o.op.apply d) fun _ => none) junk (readName "Restart".toList false false 2 0) =
        some ⟨b0, 2, ((2 : ℕ) : ℝ)⟩ := by
      have : readName "Restart".toList false false 2 0 = p0 := by rw [← hq0, readName_eq, ← dataName_q]; rfl
      unfold Disk.view
      rw [this, hdisk, if_pos rfl]
    have v1 : Disk.view (l.foldl (fun d o => o.op.apply d) fun _ => none) junk (readName "Restart".toList false false 2 1) =
        some ⟨a1, 1, ((1 : ℕ) : ℝ)⟩ := by
      have : readName "Restart".toList false false 2 1 = p1 := by rw [← hq1, readName_eq, ← dataName_q]; rfl
      unfold Disk.view
      rw [this, hdisk, if_neg hne.symm, if_pos rfl]
    obtain ⟨q0, r0, s0⟩ := tiny_read (f := ⟨b0, 2, ((2 : ℕ) : ℝ)⟩) B0
    obtain ⟨q1, r1, s1⟩ := tiny_read (f := ⟨a1, 1, ((1 : ℕ) : ℝ)⟩) A1
    refine ⟨q0, q1, ?_, fun v hv => ⟨by simpa using s0 v hv, by simpa using s1 v hv⟩⟩
    unfold readRestart
    have t0 : (tinyTarget 0).num = 0 := rfl
    have t1 : (tinyTarget 1).num = 1 := rfl
    rw [List.mapM_cons, List.mapM_cons, List.mapM_nil]
    simp only [t0, t1, v0, v1, r0, r1, List.head?_cons, Option.bind_eq_bind, Option.bind_some, Option.pure_def]
    norm_num

/-- C108 fails without numbers (dual time): killed between the restart file and the older level, both files are complete but belong to different
    iterations; the resumed run takes the level of iteration 1 as the predecessor of iteration 2. -/
theorem C108_levels_violated : ∃ (K : Hist) (cf : LConf) (s : Conf 1), K.Ok 1 ∧ K.c.animateRestart = false ∧ K.c.dualTime = true ∧ cf.dualTime = true ∧
    Reach (start 1 K cf (fun _ => false) 2 0 fun _ => none) s ∧ (∀ p, s.disk p ≠ some .torn) ∧
    (∀ junk, ∃ q0 q1, readRestart K.c.restartDir K.c.lump K.c.animateRestart 2 [tinyTarget 0, tinyTarget 1] (s.disk.view junk) = some ⟨2, 2, [q0, q1]⟩) ∧
    ∀ junk, ∀ j < 2, s.disk.npy junk (K.c.restartDir ++ "/".toList ++ qnm1Name K.c.animateRestart 2 j) = some (K.qnm1 1 j) ∧ K.qnm1 1 j ≠ K.qnm1 2 j := by
  obtain ⟨a, A, e1⟩ := tiny_lumped false true 1
  obtain ⟨b, B, e2⟩ := tiny_lumped false true 2
  have hp := tiny_prog true false true
  rw [e1, e2] at hp
  have hq : ∀ n, evOps (tinyHist true false true) n 0 (.qnm1 n) =
      [⟨.qnm1 n, .opn (pathOf (plainCfg true false true) .qnm1 n 0)⟩,
       ⟨.qnm1 n, .close (pathOf (plainCfg true false true) .qnm1 n 0) (.npy ((tinyHist true false true).qnm1 n 0))⟩,
       ⟨.qnm1 n, .opn (pathOf (plainCfg true false true) .qnm1 n 1)⟩,
       ⟨.qnm1 n, .close (pathOf (plainCfg true false true) .qnm1 n 1) (.npy ((tinyHist true false true).qnm1 n 1))⟩] := fun n => rfl
  rw [hq, hq] at hp
  have D := C49_distinct_partial _ (tiny_ok true false true).sane (tiny_ok true false true).noq
  have n01 : pathOf (plainCfg true false true) .qnm1 1 0 ≠ pathOf (plainCfg true false true) .qnm1 1 1 := fun h =>
    absurd ((D .qnm1 .qnm1 trivial trivial _ _ _ _ h).2.2 rfl) (by decide)
  have nr : ∀ j, pathOf (plainCfg true false true) .restart 1 0 ≠ pathOf (plainCfg true false true) .qnm1 1 j := fun j h =>
    absurd (D .restart .qnm1 trivial trivial _ _ _ _ h).1 (by simp)
  have n0 := nr 0
  have n1 := nr 1
  clear nr
  have hp2 : pathOf (plainCfg true false true) .restart 2 0 = pathOf (plainCfg true false true) .restart 1 0 := rfl
  have hp3 : ∀ j, pathOf (plainCfg true false true) .qnm1 2 j = pathOf (plainCfg true false true) .qnm1 1 j := fun _ => rfl
  rw [hp2, hp3, hp3] at hp
  generalize hp' : pathOf (plainCfg true false true) .restart 1 0 = p at *
  generalize hq0 : pathOf (plainCfg true false true) .qnm1 1 0 = p0 at *
  generalize hq1 : pathOf (plainCfg true false true) .qnm1 1 1 = p1 at *
  let Q := (tinyHist true false true).qnm1
  let l : List TOp := [⟨.step, .sync 1⟩, ⟨.restart 1, .openAll p⟩, ⟨.restart 1, .closeAll p (.h5 ⟨a, 1, ((1 : ℕ) : ℝ)⟩)⟩,
    ⟨.qnm1 1, .opn p0⟩, ⟨.qnm1 1, .close p0 (.npy (Q 1 0))⟩, ⟨.qnm1 1, .opn p1⟩, ⟨.qnm1 1, .close p1 (.npy (Q 1 1))⟩, ⟨.step, .sync 2⟩,
    ⟨.restart 2, .openAll p⟩, ⟨.restart 2, .closeAll p (.h5 ⟨b, 2, ((2 : ℕ) : ℝ)⟩)⟩]
  let l' : List TOp := [⟨.qnm1 2, .opn p0⟩, ⟨.qnm1 2, .close p0 (.npy (Q 2 0))⟩, ⟨.qnm1 2, .opn p1⟩, ⟨.qnm1 2, .close p1 (.npy (Q 2 1))⟩]
  have hdisk : ∀ x, (l.foldl (fun d o => o.op.apply d) fun _ => none) x = if x = p then some (.full (.h5 ⟨b, 2, ((2 : ℕ) : ℝ)⟩))
      else if x = p1 then some (.full (.npy (Q 1 1))) else if x = p0 then some (.full (.npy (Q 1 0))) else none := by
    intro x
    simp only [l, List.foldl_cons, List.foldl_nil, Op.apply, Function.update_apply]
    split_ifs <;> rfl
  refine ⟨tinyHist true false true, everyStep true, ⟨l.foldl (fun d o => o.op.apply d) fun _ => none, fun _ => l'⟩, tiny_ok _ _ _, rfl, rfl, rfl,
    reach_start _ (by rw [hp]; rfl), fun x => ?_, fun junk => ?_, fun junk j hj => ⟨?_, ?_⟩⟩
  · show (l.foldl (fun d o => o.op.apply d) fun _ => none) x ≠ _
    rw [hdisk]
    split_ifs <;> simp
  · have c : (tinyHist true false true).c.restartDir = "Restart".toList ∧ (tinyHist true false true).c.lump = true ∧
      (tinyHist true false true).c.animateRestart = false := ⟨rfl, rfl, rfl⟩
    rw [c.1, c.2.1, c.2.2]
    have v : ∀ j, Disk.view (l.foldl (fun d o => o.op.apply d) fun _ => none) junk (readName "Restart".toList true false 2 j) =
        some ⟨b, 2, ((2 : ℕ) : ℝ)⟩ := by
      intro j
      have : readName "Restart".toList true false 2 j = p := by rw [← hp', readName_eq, ← dataName_q]; rfl
      unfold Disk.view
      rw [this, hdisk, if_pos rfl]
    obtain ⟨q0, r0, s0⟩ := tiny_read (f := ⟨b, 2, ((2 : ℕ) : ℝ)⟩) (B 0 (by decide))
    obtain ⟨q1, r1, s1⟩ := tiny_read (f := ⟨b, 2, ((2 : ℕ) : ℝ)⟩) (B 1 (by decide))
    refine ⟨q0, q1, ?_⟩
    unfold readRestart
    have t0 : (tinyTarget 0).num = 0 := rfl
    have t1 : (tinyTarget 1).num = 1 := rfl
    rw [List.mapM_cons, List.mapM_cons, List.mapM_nil]
    simp only [t0, t1, v, r0, r1, List.head?_cons, Option.bind_eq_bind, Option.bind_some, Option.pure_def]
    norm_num
  · have e : (tinyHist true false true).c.restartDir ++ "/".toList ++ qnm1Name (tinyHist true false true).c.animateRestart 2 j =
        pathOf (plainCfg true false true) .qnm1 1 j := rfl
    rw [e]
    unfold Disk.npy
    interval_cases j
    · simp only []
      rw [hq0, hdisk, if_neg n0.symm, if_neg n01, if_pos rfl]
    · simp only []
      rw [hq1, hdisk, if_neg n1.symm, if_pos rfl]
  · intro h
    have := congrFun (congrFun (congrFun (congrFun h 0) 0) 0) 0
    simp [tinyHist] at this
    norm_num at this

/-- even with numbered files the newest restart may lack its older level: killed between the two, it is read without error and the level is simply
    absent (initializeDualTime then continues with the current solution in its place, dualTime.py:136-137). The restart before it is intact
    (C108_resume_partial). -/
theorem C108_missing_level_violated : ∃ (K : Hist) (cf : LConf) (s : Conf 1), K.Ok 1 ∧ K.c.animateRestart = true ∧ K.c.dualTime = true ∧
    cf.dualTime = true ∧ Reach (start 1 K cf (fun _ => false) 2 0 fun _ => none) s ∧
    (∀ junk, ∃ q0 q1, readRestart K.c.restartDir K.c.lump K.c.animateRestart 1 [tinyTarget 0, tinyTarget 1] (s.disk.view junk) = some ⟨1, 1, [q0, q1]⟩) ∧
    ∀ junk, ∀ j, s.disk.npy junk (K.c.restartDir ++ "/".toList ++ qnm1Name K.c.animateRestart 1 j) = none := by
  obtain ⟨a, A, e1⟩ := tiny_lumped true true 1
  have hp := tiny_prog true true true
  rw [e1] at hp
  have D := C49_distinct_partial _ (tiny_ok true true true).sane (tiny_ok true true true).noq
  have nr : ∀ j, pathOf (plainCfg true true true) .restart 1 0 ≠ pathOf (plainCfg true true true) .qnm1 1 j := fun j h =>
    absurd (D .restart .qnm1 trivial trivial _ _ _ _ h).1 (by simp)
  generalize hp' : pathOf (plainCfg true true true) .restart 1 0 = p at *
  let l : List TOp := [⟨.step, .sync 1⟩, ⟨.restart 1, .openAll p⟩, ⟨.restart 1, .closeAll p (.h5 ⟨a, 1, ((1 : ℕ) : ℝ)⟩)⟩]
  have hdisk : ∀ x, (l.foldl (fun d o => o.op.apply d) fun _ => none) x = if x = p then some (.full (.h5 ⟨a, 1, ((1 : ℕ) : ℝ)⟩)) else none := by
    intro x
    simp only [l, List.foldl_cons, List.foldl_nil, Op.apply, Function.update_apply]
    split_ifs <;> rfl
  refine ⟨tinyHist true true true, everyStep true, ⟨l.foldl (fun d o => o.op.apply d) fun _ => none, fun _ => _⟩, tiny_ok _ _ _, rfl, rfl, rfl,
    reach_start (l := l) _ (by rw [hp]; rfl), fun junk => ?_, fun junk j => ?_⟩
  · have c : (tinyHist true true true).c.restartDir = "Restart".toList ∧ (tinyHist true true true).c.lump = true ∧
      (tinyHist true true true).c.animateRestart = true := ⟨rfl, rfl, rfl⟩
    rw [c.1, c.2.1, c.2.2]
    have v : ∀ j, Disk.view (l.foldl (fun d o => o.op.apply d) fun _ => none) junk (readName "Restart".toList true true 1 j) =
        some ⟨a, 1, ((1 : ℕ) : ℝ)⟩ := by
      intro j
      have : readName "Restart".toList true true 1 j = p := by rw [← hp', readName_eq, ← dataName_q]; rfl
      unfold Disk.view
      rw [this, hdisk, if_pos rfl]
    obtain ⟨q0, r0, s0⟩ := tiny_read (f := ⟨a, 1, ((1 : ℕ) : ℝ)⟩) (A 0 (by decide))
    obtain ⟨q1, r1, s1⟩ := tiny_read (f := ⟨a, 1, ((1 : ℕ) : ℝ)⟩) (A 1 (by decide))
    refine ⟨q0, q1, ?_⟩
    unfold readRestart
    have t0 : (tinyTarget 0).num = 0 := rfl
    have t1 : (tinyTarget 1).num = 1 := rfl
    rw [List.mapM_cons, List.mapM_cons, List.mapM_nil]
    simp only [t0, t1, v, r0, r1, List.head?_cons, Option.bind_eq_bind, Option.bind_some, Option.pure_def]
    norm_num
  · have e : (tinyHist true true true).c.restartDir ++ "/".toList ++ qnm1Name (tinyHist true true true).c.animateRestart 1 j =
        pathOf (plainCfg true true true) .qnm1 1 j := rfl
    rw [e]
    unfold Disk.npy
    simp only [hdisk, if_neg (nr j).symm]

/-! ### the hypotheses of the theorems can be met -/

/-- two ranks with blocks 2, 0 and 1, numbered lumped restarts, dual time, an archive with an extra array -/
noncomputable def exHist : Hist :=
  { c := ⟨"Restart".toList, "Archive".toList, true, true, true, ["Q".toList], true⟩, sp := ["O2".toList, "N2".toList], single := id, run := fun _ => exRun,
    order := fun _ => exRun.flatten, tme := fun n => n, qnm1 := fun n _ _ _ _ _ => n, extraFile := fun _ _ _ => ⟨fun _ => none, 0, 0⟩ }

theorem exHist_ok : exHist.Ok 2 := by
  refine ⟨fun _ => rfl, fun _ => exRun_proper, fun _ => .refl _, ⟨?_, ?_⟩, ?_⟩
  · show ∀ a ∈ ["Q".toList], '.' ∉ a ∧ '/' ∉ a; decide
  · show "Restart".toList ≠ "Archive".toList; decide
  · show "q".toList ∉ ["Q".toList]; decide

/-- a restart every 10 steps, an archive every 5, a NaN check every 4: after the run of 100 iterations, or if it is killed later than the beginning of
    step 57, the restart of iteration 50 is on the disk -/
example (d : Disk) (s : Conf 2) (hs : Reach (start 2 exHist ⟨10, 5, 4, true⟩ (fun _ => false) 100 0 d) s)
    (hb : Begun (start 2 exHist ⟨10, 5, 4, true⟩ (fun _ => false) 100 0 d) s 57) : OnDisk exHist s.disk true 50 := by
  refine C108_resume_partial (by decide) exHist_ok rfl rfl (by decide) hs hb (by decide) (mem_simulate.2 (.inr ⟨50, by decide, ?_, ?_⟩))
  · have : ∀ n k, performed ⟨10, 5, 4, true⟩ (fun _ => false) n k = n := fun n => by
      induction n with
      | zero => intro k; rfl
      | succ n ih => intro k; unfold performed; rw [if_neg (by simp [Detects]), ih]; omega
    rw [this]; decide
  · have : Ev.restart 50 ∈ (body ⟨10, 5, 4, true⟩ 50 ((fun _ : ℕ => false) 50)).1 := by decide
    exact this

end PG.IO
