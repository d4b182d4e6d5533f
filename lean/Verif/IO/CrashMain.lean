import Verif.IO.CrashProps
/-!
C108: theorems about numbered restart files.
-/
namespace PG.IO
open PG.Text PG.Run

theorem not_touches_of {p : Str} {l : List TOp} (h : ∀ o ∈ l, o.op.path ≠ some p) : ¬Touches p l := fun ⟨o, ho, e⟩ => h o ho e

/-- a program is tidy when its only event working on the file is -/
theorem tidy_prog {K : Hist} {cf : LConf} {bad : ℕ → Bool} {r niter nrt : ℕ} {p : Str} {x : Data} {m : ℕ} {e0 : Ev}
    (own : ∀ n e, e ∈ (body cf n (bad n)).1 → ∀ o ∈ evOps K n r e, o.op.path = some p → n = m ∧ e = e0)
    (h : Tidy p x (evOps K m r e0)) : Tidy p x (prog K cf bad r niter nrt) := by
  rw [prog_eq]
  refine Tidy.flatMap fun i _ => Tidy.flatMap fun e he => ?_
  by_cases ht : Touches p (evOps K (nrt + i + 1) r e)
  · obtain ⟨o, ho, hp⟩ := ht
    obtain ⟨h1, rfl⟩ := own _ _ he o ho hp
    rw [h1]
    exact h
  · exact Tidy.of_not ht

/-- a file whose event is over, everywhere, is complete -/
theorem complete {R : ℕ} (hR : 0 < R) {K : Hist} {cf : LConf} {bad : ℕ → Bool} {niter nrt : ℕ} {d : Disk} {s : Conf R} {p : Str} {x : Data} {m : ℕ}
    {e0 : Ev} (hs : Reach (start R K cf bad niter nrt d) s)
    (own : ∀ r n e, e ∈ (body cf n (bad n)).1 → ∀ o ∈ evOps K n r e, o.op.path = some p → n = m ∧ e = e0)
    (h : ∀ r, Tidy p x (evOps K m r e0)) (ht : ∃ r : Fin R, Touches p (evOps K m r e0))
    (hm : nrt < m ∧ m ≤ nrt + performed cf bad niter nrt) (he : e0 ∈ (body cf m (bad m)).1)
    (hf : s.finished e0) : s.disk p = some (.full x) := by
  have h0 : Settled p x (start R K cf bad niter nrt d) := by
    refine ⟨fun r => tidy_prog (own r) (h r), fun hn => ?_⟩
    obtain ⟨r, o, ho, hp⟩ := ht
    exact absurd ⟨o, mem_prog.2 ⟨m, e0, hm.1, hm.2, he, ho⟩, hp⟩ (hn r)
  refine (settled_reach hR h0 hs).2 fun r => ?_
  rintro ⟨o, ho, hp⟩
  have hmem : o ∈ prog K cf bad r niter nrt := (todo_suffix hs r).subset ho
  obtain ⟨n, e, _, _, he', ho'⟩ := mem_prog.1 hmem
  obtain ⟨_, h2⟩ := own r n e he' o ho' hp
  subst h2
  exact hf r o ho (ev_tag ho')

/-- the contents of the file of block `b` -/
theorem restart_tidy {K : Hist} {R : ℕ} (hK : K.Ok R) {m : ℕ} {b : Blk} (hb : b ∈ (K.run m).flatten) :
    ∃ h : H5, (∀ e ∈ blkEntries (pOpts id) b, h e.1 = some e.2) ∧
      (∀ r, Tidy (pathOf K.c .restart m b.num) (.h5 ⟨h, m, K.tme m⟩) (evOps K m r (.restart m))) ∧
      ∃ r : Fin R, Touches (pathOf K.c .restart m b.num) (evOps K m r (.restart m)) := by
  have hp := hK.proper m
  have D := C49_distinct_partial K.c hK.sane hK.noq
  cases hl : K.c.lump with
  | true =>
    obtain ⟨h, h1, h2⟩ := C48_parallel_file id (K.run m) K.sp hp (K.order m) (hK.order m)
    have hpath : pathOf K.c .restart m b.num = K.c.restartDir ++ "/".toList ++ dataName "q".toList true K.c.animateRestart m 0 := by
      unfold pathOf; rw [hl]; rfl
    refine ⟨h, h2 b hb, fun r => ?_, ?_⟩
    · simp only [evOps, restartOps, hl, if_true, h1, hpath]
      refine ⟨⟨trivial, fun _ => .inl rfl⟩, fun _ => .inr ⟨rfl, _, List.mem_singleton.2 rfl, rfl⟩⟩
    · obtain ⟨r, _⟩ := mem_mine hK hb
      refine ⟨r, ?_⟩
      simp only [evOps, restartOps, hl, if_true, h1, hpath]
      exact ⟨_, List.mem_cons_self, rfl⟩
  | false =>
    obtain ⟨h, h1, h2⟩ := oneFile_spec id hp.names (hp.species b hb)
    have hpath : ∀ j, pathOf K.c .restart m j = K.c.restartDir ++ "/".toList ++ dataName "q".toList false K.c.animateRestart m j := fun j => by
      unfold pathOf; rw [hl]
    refine ⟨h, h2, fun r => ?_, ?_⟩
    · simp only [evOps, restartOps, hl, Bool.false_eq_true, if_false]
      refine Tidy.flatMap fun b' hb' => ?_
      obtain ⟨h', h1', _⟩ := oneFile_spec id hp.names (hp.species b' (mine_mem hb'))
      by_cases e : b' = b
      · subst e
        rw [h1]
        refine ⟨⟨trivial, fun _ => .inl rfl⟩, fun hq => .inr ⟨rfl, _, List.mem_singleton.2 rfl, hq⟩⟩
      · refine Tidy.of_not (not_touches_of fun o ho hq => e ?_)
        rw [h1'] at ho
        have : o.op.path = some (pathOf K.c .restart m b'.num) := by
          rw [hpath]
          simp only [List.mem_cons, List.not_mem_nil, or_false] at ho
          rcases ho with rfl | rfl <;> rfl
        rw [this] at hq
        exact uniq_num hK (mine_mem hb') hb ((D .restart .restart trivial trivial _ _ _ _ (Option.some.inj hq)).2.2 hl)
    · obtain ⟨r, hr⟩ := mem_mine hK hb
      refine ⟨r, ?_⟩
      simp only [evOps, restartOps, hl, Bool.false_eq_true, if_false, hpath]
      exact ⟨_, List.mem_flatMap.2 ⟨b, hr, List.mem_cons_self⟩, rfl⟩

theorem qnm1_tidy {K : Hist} {R : ℕ} (hK : K.Ok R) {m : ℕ} {b : Blk} (hb : b ∈ (K.run m).flatten) :
    (∀ r, Tidy (pathOf K.c .qnm1 m b.num) (.npy (K.qnm1 m b.num)) (evOps K m r (.qnm1 m))) ∧
      ∃ r : Fin R, Touches (pathOf K.c .qnm1 m b.num) (evOps K m r (.qnm1 m)) := by
  have D := C49_distinct_partial K.c hK.sane hK.noq
  refine ⟨fun r => ?_, ?_⟩
  · simp only [evOps, qnm1Ops]
    refine Tidy.flatMap fun b' hb' => ?_
    by_cases e : b' = b
    · subst e
      refine ⟨⟨trivial, fun _ => .inl rfl⟩, fun hq => .inr ⟨rfl, _, List.mem_singleton.2 rfl, hq⟩⟩
    · refine Tidy.of_not (not_touches_of fun o ho hq => e ?_)
      have : o.op.path = some (pathOf K.c .qnm1 m b'.num) := by
        simp only [List.mem_cons, List.not_mem_nil, or_false] at ho
        rcases ho with rfl | rfl <;> rfl
      rw [this] at hq
      exact uniq_num hK (mine_mem hb') hb ((D .qnm1 .qnm1 trivial trivial _ _ _ _ (Option.some.inj hq)).2.2 rfl)
  · obtain ⟨r, hr⟩ := mem_mine hK hb
    refine ⟨r, ?_⟩
    simp only [evOps, qnm1Ops]
    exact ⟨_, List.mem_flatMap.2 ⟨b, hr, List.mem_cons_self⟩, rfl⟩

theorem primNames_length (sp : List Str) : (primNames sp).length = 5 + (sp.length - 1) := by simp [primNames]; omega

/-- reading complete files -/
theorem read_complete {K : Hist} {R : ℕ} (hK : K.Ok R) {m : ℕ} {d : Disk} {junk : Fs}
    (hd : ∀ b ∈ (K.run m).flatten, ∃ h : H5, (∀ e ∈ blkEntries (pOpts id) b, h e.1 = some e.2) ∧
      d (pathOf K.c .restart m b.num) = some (.full (.h5 ⟨h, m, K.tme m⟩)))
    (ts : List Target) (hts : ts ≠ []) (hm : ∀ t ∈ ts, ∃ b ∈ (K.run m).flatten, t = ⟨b.num, b.ni, b.nj, b.nk, b.solver, b.ng, b.species⟩) :
    ∃ res, readRestart K.c.restartDir K.c.lump K.c.animateRestart m ts (d.view junk) = some res ∧ res.nrt = m ∧ res.tme = K.tme m ∧
      List.Forall₂ (fun t q => ∀ b ∈ (K.run m).flatten, b.num = t.num → ∀ n < 5 + (b.species.length - 1), ∀ i j k,
        i < b.ni - 1 → j < b.nj - 1 → k < b.nk - 1 → q (i + b.ng) (j + b.ng) (k + b.ng) n = b.q (i + b.ng) (j + b.ng) (k + b.ng) n) ts res.q := by
  have hview : ∀ b ∈ (K.run m).flatten, ∃ h : H5, (∀ e ∈ blkEntries (pOpts id) b, h e.1 = some e.2) ∧
      d.view junk (readName K.c.restartDir K.c.lump K.c.animateRestart m b.num) = some ⟨h, m, K.tme m⟩ := by
    intro b hb
    obtain ⟨h, h1, h2⟩ := hd b hb
    refine ⟨h, h1, ?_⟩
    rw [readName_eq, ← dataName_q]
    unfold Disk.view
    have : K.c.restartDir ++ "/".toList ++ dataName "q".toList K.c.lump K.c.animateRestart m b.num = pathOf K.c .restart m b.num := rfl
    rw [this, h2]
  obtain ⟨qs, q1, q2⟩ := mapM_some
    (fun t => (d.view junk (readName K.c.restartDir K.c.lump K.c.animateRestart m t.num)).bind fun f => readBlk f t)
    (fun t q => ∀ b ∈ (K.run m).flatten, b.num = t.num → ∀ n < 5 + (b.species.length - 1), ∀ i j k,
        i < b.ni - 1 → j < b.nj - 1 → k < b.nk - 1 → q (i + b.ng) (j + b.ng) (k + b.ng) n = b.q (i + b.ng) (j + b.ng) (k + b.ng) n) ts (by
      intro t ht
      obtain ⟨b, hb, rfl⟩ := hm t ht
      obtain ⟨h, h1, h2⟩ := hview b hb
      have hsol := ((hK.proper m).species b hb).2
      obtain ⟨q, r1, r2⟩ := readBlk_spec (pOpts id) b ⟨b.num, b.ni, b.nj, b.nk, b.solver, b.ng, b.species⟩
        (by constructor <;> simp [kept, pOpts]) ⟨h, m, K.tme m⟩ (fun n hn => h1 _ (mem_entry (pOpts id) b hn))
      refine ⟨q, by rw [h2]; exact r1, ?_⟩
      intro b' hb' hbn n hn
      have : b' = b := uniq_num hK hb' hb hbn
      subst this
      have := r2 n (by rw [primNames_length]; exact hn)
      simpa [roff, woff, wng, pOpts, hsol] using this)
  cases ts with
  | nil => exact absurd rfl hts
  | cons t0 ts =>
    obtain ⟨b, hb, rfl⟩ := hm t0 List.mem_cons_self
    obtain ⟨h, _, h2⟩ := hview b hb
    refine ⟨⟨m, K.tme m, qs⟩, ?_, rfl, rfl, q2⟩
    unfold readRestart
    rw [q1]
    simp only [List.head?_cons, Option.bind_eq_bind, Option.bind_some]
    rw [h2]
    rfl

/-- C108: with numbered restart files, kill the run at any moment, with the ranks anywhere: every restart whose writing is over on all ranks is on
    the disk, complete and unchanged by anything written later (other restarts, archives, extra arrays, the emergency restart). -/
theorem C108_numbered_partial {R : ℕ} (hR : 0 < R) {K : Hist} (hK : K.Ok R) {cf : LConf} (hc : cf.dualTime = K.c.dualTime) (ha : K.c.animateRestart = true)
    {bad : ℕ → Bool} {niter nrt : ℕ} (hn : nrt + niter < emergencyNrt) {d : Disk} {s : Conf R} (hs : Reach (start R K cf bad niter nrt d) s)
    {m : ℕ} (hm : .restart m ∈ simulate cf bad niter nrt) (hf : s.finished (.restart m)) (hf' : s.finished (.qnm1 m)) : OnDisk K s.disk true m := by
  have hper := (performed_spec cf bad niter nrt).1
  rw [mem_simulate] at hm
  obtain hm | ⟨i, hi1, hi2, hm⟩ := hm
  · exact absurd hm (by simp)
  have hi : nrt + i = m := by
    rcases ev_cases hm with h | h | h | h | h | h | h <;> first | exact (Ev.restart.inj h).symm | (simp at h)
  rw [hi] at hm
  have hne : m ≠ emergencyNrt := by omega
  have hmod : m % cf.niterRestart = 0 := by
    rw [mem_body] at hm
    simp at hm
    exact hm
  have hrange : nrt < m ∧ m ≤ nrt + performed cf bad niter nrt := ⟨by omega, by omega⟩
  refine ⟨fun junk ts hts hmt => ?_, fun hd junk b hb => ?_⟩
  · rw [← ha]
    refine read_complete hK (fun b hb => ?_) ts hts hmt
    obtain ⟨h, h1, h2, h3⟩ := restart_tidy hK hb
    exact ⟨h, h1, complete hR hs (fun r n e he o ho hp => owner_restart hK ha hne he ho hp) h2 h3 hrange hm hf⟩
  · obtain ⟨h2, h3⟩ := qnm1_tidy hK hb
    have hq : Ev.qnm1 m ∈ (body cf m (bad m)).1 := mem_body.2 (.inr (.inl ⟨hmod, .inr ⟨by rw [hc]; exact hd, rfl⟩⟩))
    have := complete hR hs (fun r n e he o ho hp => owner_qnm1 hK ha he ho hp) h2 h3 hrange hq hf'
    unfold Disk.npy
    have e : K.c.restartDir ++ "/".toList ++ qnm1Name true m b.num = pathOf K.c .qnm1 m b.num := by unfold pathOf; rw [ha]
    rw [e, this]

/-! ### a step begun -/

/-- `y` may come after `x`: after the Allreduce of iteration `n` nothing of the restarts of earlier iterations remains -/
def Later (x y : TOp) : Prop := ∀ n m, m < n → x = ⟨.step, .sync n⟩ → y.ev ≠ .restart m ∧ y.ev ≠ .qnm1 m

theorem step_iter {K : Hist} {n n' r : ℕ} {e : Ev} (h : ⟨.step, .sync n'⟩ ∈ evOps K n r e) : n' = n := by
  have : Ev.step = e := ev_tag h
  subst this
  simpa [evOps] using h

theorem ev_iter {K : Hist} {cf : LConf} {bad : ℕ → Bool} {n r m : ℕ} {e : Ev} (he : e ∈ (body cf n (bad n)).1) {o : TOp} (h : o ∈ evOps K n r e) :
    (o.ev = .restart m → m = n) ∧ (o.ev = .qnm1 m → m = n) := by
  rw [ev_tag h]
  rcases ev_cases he with rfl | rfl | rfl | rfl | rfl | rfl | rfl <;> simp <;> exact fun h => h.symm

theorem prog_later (K : Hist) (cf : LConf) (bad : ℕ → Bool) (r niter nrt : ℕ) : (prog K cf bad r niter nrt).Pairwise Later := by
  have key : ∀ i j, i ≤ j → ∀ x ∈ (body cf (nrt + i + 1) (bad (nrt + i + 1))).1.flatMap (evOps K (nrt + i + 1) r),
      ∀ y ∈ (body cf (nrt + j + 1) (bad (nrt + j + 1))).1.flatMap (evOps K (nrt + j + 1) r), Later x y := by
    intro i j hij x hx y hy n m hm e
    obtain ⟨ex, hex, hx⟩ := List.mem_flatMap.1 hx
    obtain ⟨ey, hey, hy⟩ := List.mem_flatMap.1 hy
    subst e
    have h1 := step_iter hx
    have h2 := ev_iter (m := m) hey hy
    exact ⟨fun h => by have := h2.1 h; omega, fun h => by have := h2.2 h; omega⟩
  rw [prog_eq, List.pairwise_flatMap]
  refine ⟨fun i _ => List.pairwise_iff_getElem.2 fun a b ha hb _ => key i i le_rfl _ (List.getElem_mem ha) _ (List.getElem_mem hb), ?_⟩
  exact List.pairwise_lt_range.imp fun {a b} hab => key a b hab.le

theorem coll_append (l l' : List TOp) : coll (l ++ l') = coll l ++ coll l' := List.filter_append ..

theorem coll_flatMap {α : Type} (l : List α) (f : α → List TOp) : coll (l.flatMap f) = l.flatMap fun a => coll (f a) := by
  induction l with
  | nil => rfl
  | cons a l ih => rw [List.flatMap_cons, coll_append, ih, List.flatMap_cons]

theorem coll_restartOps (K : Hist) (ev : Ev) (dir : Str) (animate : Bool) (rnd : ℝ → ℝ) (n nrt r r' : ℕ) :
    coll (restartOps K ev dir animate rnd n nrt r) = coll (restartOps K ev dir animate rnd n nrt r') := by
  unfold restartOps
  split_ifs
  · rfl
  · have : ∀ r, coll ((K.mine n r).flatMap fun b =>
        let p := dir ++ "/".toList ++ dataName "q".toList false animate nrt b.num
        (⟨ev, .opn p⟩ : TOp) :: (match oneFile rnd K.sp b with
          | some h => [⟨ev, .close p (.h5 ⟨h, nrt, K.tme n⟩)⟩]
          | none => [])) = [] := by
      intro r
      rw [coll_flatMap, List.flatMap_eq_nil_iff]
      intro b _
      dsimp only
      split <;> rfl
    exact (this r).trans (this r').symm

theorem coll_extraOps (K : Hist) (ev : Ev) (a : Str) (n r r' : ℕ) : coll (extraOps K ev a n r) = coll (extraOps K ev a n r') := by
  unfold extraOps
  split_ifs
  · rfl
  · rw [coll_flatMap, coll_flatMap]
    exact (List.flatMap_eq_nil_iff.2 fun b _ => rfl).trans (List.flatMap_eq_nil_iff.2 fun b _ => rfl).symm

theorem coll_qnm1Ops (K : Hist) (ev : Ev) (n r : ℕ) : coll (qnm1Ops K ev n r) = [] := by
  unfold qnm1Ops
  rw [coll_flatMap]
  exact List.flatMap_eq_nil_iff.2 fun b _ => rfl

theorem coll_evOps (K : Hist) (n r r' : ℕ) (e : Ev) : coll (evOps K n r e) = coll (evOps K n r' e) := by
  cases e <;> simp only [evOps]
  · exact coll_restartOps ..
  · rw [coll_qnm1Ops, coll_qnm1Ops]
  · rw [coll_append, coll_append, coll_restartOps _ _ _ _ _ _ _ r r', coll_flatMap, coll_flatMap]
    congr 1
    exact List.flatMap_congr fun a _ => coll_extraOps ..
  · exact coll_restartOps ..

theorem coll_prog (K : Hist) (cf : LConf) (bad : ℕ → Bool) (niter nrt r r' : ℕ) :
    coll (prog K cf bad r niter nrt) = coll (prog K cf bad r' niter nrt) := by
  rw [prog_eq, prog_eq, coll_flatMap, coll_flatMap]
  refine List.flatMap_congr fun i _ => ?_
  rw [coll_flatMap, coll_flatMap]
  exact List.flatMap_congr fun e _ => coll_evOps ..

/-- once a rank has begun the step to iteration `n`, all ranks are through with the restarts of earlier iterations -/
theorem finished_of_begun {R : ℕ} {K : Hist} {cf : LConf} {bad : ℕ → Bool} {niter nrt : ℕ} {d : Disk} {s : Conf R}
    (hs : Reach (start R K cf bad niter nrt d) s) {n m : ℕ} (hb : Begun (start R K cf bad niter nrt d) s n) (hm : m < n) :
    s.finished (.restart m) ∧ s.finished (.qnm1 m) := by
  obtain ⟨r0, h1, h2⟩ := hb
  have hc := coll_reach (fun r r' => coll_prog K cf bad niter nrt r r') hs
  have mem_coll : ∀ l : List TOp, (⟨.step, .sync n⟩ : TOp) ∈ coll l ↔ (⟨.step, .sync n⟩ : TOp) ∈ l := fun l => by
    unfold coll; rw [List.mem_filter]; simp [Op.collective]
  have hall : ∀ r, (⟨.step, .sync n⟩ : TOp) ∉ s.todo r := fun r h => h2 ((mem_coll _).1 (hc r r0 ▸ (mem_coll _).2 h))
  have hin : ∀ r : Fin R, (⟨.step, .sync n⟩ : TOp) ∈ prog K cf bad r niter nrt := fun r =>
    (mem_coll _).1 (coll_prog K cf bad niter nrt r0 r ▸ (mem_coll _).2 h1)
  have key : ∀ r, ∀ o ∈ s.todo r, o.ev ≠ .restart m ∧ o.ev ≠ .qnm1 m := by
    intro r o ho
    obtain ⟨pre, hpre⟩ : s.todo r <:+ prog K cf bad r niter nrt := todo_suffix hs r
    have hx := hin r
    rw [← hpre, List.mem_append] at hx
    have hl := prog_later K cf bad r niter nrt
    rw [← hpre, List.pairwise_append] at hl
    exact hl.2.2 _ (hx.resolve_right (hall r)) o ho n m hm rfl
  exact ⟨fun r o ho => (key r o ho).1, fun r o ho => (key r o ho).2⟩

/-- C108: with numbered restart files a run killed at any moment can be resumed: as soon as any rank has begun the step to iteration `n`, every restart
    scheduled for an earlier iteration is complete on the disk - whatever the other ranks are doing, whatever the disk held before. -/
theorem C108_resume_partial {R : ℕ} (hR : 0 < R) {K : Hist} (hK : K.Ok R) {cf : LConf} (hc : cf.dualTime = K.c.dualTime) (ha : K.c.animateRestart = true)
    {bad : ℕ → Bool} {niter nrt : ℕ} (hn : nrt + niter < emergencyNrt) {d : Disk} {s : Conf R} (hs : Reach (start R K cf bad niter nrt d) s)
    {n : ℕ} (hb : Begun (start R K cf bad niter nrt d) s n) {m : ℕ} (hmn : m < n) (hm : .restart m ∈ simulate cf bad niter nrt) :
    OnDisk K s.disk true m :=
  C108_numbered_partial hR hK hc ha hn hs hm (finished_of_begun hs hb hmn).1 (finished_of_begun hs hb hmn).2

/-- C108: the output cannot hang: as long as any rank has something left to do, some rank (or all of them together) can go on. -/
theorem C108_progress {R : ℕ} {K : Hist} {cf : LConf} {bad : ℕ → Bool} {niter nrt : ℕ} {d : Disk} {s : Conf R}
    (hs : Reach (start R K cf bad niter nrt d) s) (h : ∃ r, s.todo r ≠ []) : ∃ s', Move s s' := by
  have hc := coll_reach (fun r r' => coll_prog K cf bad niter nrt r r') hs
  by_cases hx : ∃ r o rest, s.todo r = o :: rest ∧ o.op.collective = false
  · obtain ⟨r, o, rest, h1, h2⟩ := hx
    exact ⟨_, Move.one s r o rest h1 h2⟩
  · have hall : ∀ r o rest, s.todo r = o :: rest → o.op.collective = true := fun r o rest e => by
      cases hcol : o.op.collective with
      | true => rfl
      | false => exact absurd ⟨r, o, rest, e, hcol⟩ hx
    obtain ⟨r0, h0⟩ := h
    obtain ⟨o, rest, e0⟩ := List.exists_cons_of_ne_nil h0
    have hco := hall _ _ _ e0
    have key : ∀ r, ∃ rest, s.todo r = o :: rest := fun r => by
      have := hc r r0
      rw [e0] at this
      unfold coll at this
      rw [List.filter_cons_of_pos (by simp [hco])] at this
      cases e : s.todo r with
      | nil => rw [e] at this; simp at this
      | cons o' rest' =>
        rw [e, List.filter_cons_of_pos (by simp [hall _ _ _ e])] at this
        exact ⟨rest', by rw [(List.cons.inj this).1]⟩
    choose rest' hr using key
    exact ⟨_, Move.all s o rest' hr hco⟩

/-- C108: a run that is not killed leaves every restart it announced -/
theorem C108_all_done_partial {R : ℕ} (hR : 0 < R) {K : Hist} (hK : K.Ok R) {cf : LConf} (hc : cf.dualTime = K.c.dualTime) (ha : K.c.animateRestart = true)
    {bad : ℕ → Bool} {niter nrt : ℕ} (hn : nrt + niter < emergencyNrt) {d : Disk} {s : Conf R} (hs : Reach (start R K cf bad niter nrt d) s)
    (hstop : ∀ s', ¬Move s s') {m : ℕ} (hm : .restart m ∈ simulate cf bad niter nrt) : OnDisk K s.disk true m := by
  have hnil : ∀ r, s.todo r = [] := fun r => by
    by_contra h
    obtain ⟨s', hm⟩ := C108_progress hs ⟨r, h⟩
    exact hstop s' hm
  exact C108_numbered_partial hR hK hc ha hn hs hm (fun r o ho => by rw [hnil] at ho; simp at ho) (fun r o ho => by rw [hnil] at ho; simp at ho)

end PG.IO
