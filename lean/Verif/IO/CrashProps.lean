import Verif.IO.Crash
/-!
C108: proofs.
-/
namespace PG.IO
open PG.Text PG.Run

/-! ### specification -/

/-- a proper history: the same `R` ranks at every iteration, solver blocks numbered 0, 1, ... each on one rank, array names as in C49 -/
structure Hist.Ok (K : Hist) (R : ℕ) : Prop where
  ranks : ∀ n, (K.run n).length = R
  proper : ∀ n, Proper (K.run n) K.sp
  order : ∀ n, (K.order n).Perm (K.run n).flatten
  sane : Sane K.c
  noq : "q".toList ∉ K.c.extra

/-- rank `r` has nothing left to do for the output `e` -/
def Conf.finished {R : ℕ} (s : Conf R) (e : Ev) : Prop := ∀ r, ∀ o ∈ s.todo r, o.ev ≠ e

/-- between two states of the run some rank has begun the step to iteration `n`: it is past the Allreduce that precedes it -/
def Begun {R : ℕ} (s s' : Conf R) (n : ℕ) : Prop := ∃ r, ⟨.step, .sync n⟩ ∈ s.todo r ∧ ⟨.step, .sync n⟩ ∉ s'.todo r

/-- the restart of iteration `m` is on the disk: whatever the torn files hold, reading any selection of the blocks succeeds and returns the iteration,
    the time, the interior of every primitive variable; with dual time stepping the older level of every block is there too -/
def OnDisk (K : Hist) (d : Disk) (animate : Bool) (m : ℕ) : Prop :=
  (∀ (junk : Fs) (ts : List Target), ts ≠ [] → (∀ t ∈ ts, ∃ b ∈ (K.run m).flatten, t = ⟨b.num, b.ni, b.nj, b.nk, b.solver, b.ng, b.species⟩) →
    ∃ res, readRestart K.c.restartDir K.c.lump animate m ts (d.view junk) = some res ∧ res.nrt = m ∧ res.tme = K.tme m ∧
      List.Forall₂ (fun t q => ∀ b ∈ (K.run m).flatten, b.num = t.num → ∀ n < 5 + (b.species.length - 1), ∀ i j k,
        i < b.ni - 1 → j < b.nj - 1 → k < b.nk - 1 → q (i + b.ng) (j + b.ng) (k + b.ng) n = b.q (i + b.ng) (j + b.ng) (k + b.ng) n) ts res.q) ∧
  (K.c.dualTime = true → ∀ junk, ∀ b ∈ (K.run m).flatten,
    d.npy junk (K.c.restartDir ++ "/".toList ++ qnm1Name animate m b.num) = some (K.qnm1 m b.num))

/-! ### a file whose writes are over -/

/-- the file an operation works on -/
def Op.path : Op → Option Str
  | .sync _ => none
  | .openAll p => some p
  | .closeAll p _ => some p
  | .opn p => some p
  | .close p _ => some p

/-- what an operation leaves in its file -/
def Op.leaves : Op → Option Mark
  | .sync _ => none
  | .openAll _ => some .torn
  | .opn _ => some .torn
  | .closeAll _ x => some (.full x)
  | .close _ x => some (.full x)

theorem apply_at {o : Op} {p : Str} (h : o.path = some p) (d : Disk) : o.apply d p = o.leaves := by
  cases o <;> simp only [Op.path, Option.some.injEq, reduceCtorEq] at h <;> subst h <;> exact Function.update_self ..

theorem apply_ne {o : Op} {p : Str} (h : o.path ≠ some p) (d : Disk) : o.apply d p = d p := by
  cases o with
  | sync => rfl
  | openAll q => exact Function.update_of_ne (fun e => h (by rw [e]; rfl)) _ _
  | closeAll q => exact Function.update_of_ne (fun e => h (by rw [e]; rfl)) _ _
  | opn q => exact Function.update_of_ne (fun e => h (by rw [e]; rfl)) _ _
  | close q => exact Function.update_of_ne (fun e => h (by rw [e]; rfl)) _ _

/-- does a list of operations work on the file? -/
def Touches (p : Str) (l : List TOp) : Prop := ∃ o ∈ l, o.op.path = some p

/-- operations on `p` leave it torn, with more to come, or with the contents `x` -/
def Tidy (p : Str) (x : Data) : List TOp → Prop
  | [] => True
  | o :: l => Tidy p x l ∧ (o.op.path = some p → (o.op.leaves = some (.full x) ∨ (o.op.leaves = some .torn ∧ Touches p l)))

theorem touches_cons {p : Str} {o : TOp} {l : List TOp} : Touches p (o :: l) ↔ o.op.path = some p ∨ Touches p l := by
  simp [Touches]

theorem touches_append {p : Str} {l l' : List TOp} : Touches p (l ++ l') ↔ Touches p l ∨ Touches p l' := by
  simp only [Touches, List.mem_append, or_and_right, exists_or]

theorem Tidy.append {p : Str} {x : Data} : ∀ {l l' : List TOp}, Tidy p x l → Tidy p x l' → Tidy p x (l ++ l')
  | [], _, _, h' => h'
  | o :: l, _, h, h' => ⟨h.1.append h', fun e => (h.2 e).imp_right fun ⟨a, b⟩ => ⟨a, touches_append.2 (.inl b)⟩⟩

theorem Tidy.of_not {p : Str} {x : Data} : ∀ {l : List TOp}, ¬Touches p l → Tidy p x l
  | [], _ => trivial
  | _ :: _, h => ⟨Tidy.of_not fun t => h (touches_cons.2 (.inr t)), fun e => absurd (touches_cons.2 (.inl e)) h⟩

theorem Tidy.flatMap {α : Type} {p : Str} {x : Data} {l : List α} {f : α → List TOp} (h : ∀ a ∈ l, Tidy p x (f a)) : Tidy p x (l.flatMap f) := by
  induction l with
  | nil => trivial
  | cons a l ih =>
    rw [List.flatMap_cons]
    exact (h a List.mem_cons_self).append (ih fun b hb => h b (List.mem_cons_of_mem _ hb))

/-- the file is complete when nobody works on it any more -/
def Settled {R : ℕ} (p : Str) (x : Data) (s : Conf R) : Prop :=
  (∀ r, Tidy p x (s.todo r)) ∧ ((∀ r, ¬Touches p (s.todo r)) → s.disk p = some (.full x))

theorem settled_move {R : ℕ} (hR : 0 < R) {p : Str} {x : Data} {s s' : Conf R} (hs : Settled p x s) (m : Move s s') : Settled p x s' := by
  obtain ⟨h1, h2⟩ := hs
  cases m with
  | one r o rest e c =>
    have hr := h1 r
    rw [e] at hr
    refine ⟨fun r' => ?_, fun h => ?_⟩
    · by_cases e' : r' = r
      · subst e'
        show Tidy p x (Function.update s.todo r' rest r')
        rw [Function.update_self]
        exact hr.1
      · show Tidy p x (Function.update s.todo r rest r')
        rw [Function.update_of_ne e']
        exact h1 r'
    · show o.op.apply s.disk p = _
      by_cases hp : o.op.path = some p
      · rw [apply_at hp]
        refine (hr.2 hp).resolve_right fun ⟨_, t⟩ => h r ?_
        show Touches p (Function.update s.todo r rest r)
        rw [Function.update_self]
        exact t
      · rw [apply_ne hp]
        refine h2 fun r' => ?_
        by_cases e' : r' = r
        · subst e'
          rw [e, touches_cons, not_or]
          have := h r'
          simp only [Function.update_self] at this
          exact ⟨hp, this⟩
        · have := h r'
          simp only [Function.update_of_ne e'] at this
          exact this
  | all o rest e c =>
    have hr : ∀ r, Tidy p x (o :: rest r) := fun r => e r ▸ h1 r
    refine ⟨fun r => (hr r).1, fun h => ?_⟩
    show o.op.apply s.disk p = _
    by_cases hp : o.op.path = some p
    · rw [apply_at hp]
      exact ((hr ⟨0, hR⟩).2 hp).resolve_right fun ⟨_, t⟩ => h ⟨0, hR⟩ t
    · rw [apply_ne hp]
      refine h2 fun r => ?_
      rw [e, touches_cons, not_or]
      exact ⟨hp, h r⟩

theorem settled_reach {R : ℕ} (hR : 0 < R) {p : Str} {x : Data} {s s' : Conf R} (hs : Settled p x s) (m : Reach s s') : Settled p x s' := by
  induction m with
  | refl => exact hs
  | tail _ m ih => exact settled_move hR ih m

theorem todo_suffix_move {R : ℕ} {s s' : Conf R} (m : Move s s') (r : Fin R) : s'.todo r <:+ s.todo r := by
  cases m with
  | one r' o rest e c =>
    by_cases h : r = r'
    · subst h
      simp only [Function.update_self]
      rw [e]
      exact List.suffix_cons _ _
    · simp only [Function.update_of_ne h]
      exact List.suffix_refl _
  | all o rest e c =>
    show rest r <:+ _
    rw [e]
    exact List.suffix_cons _ _

theorem todo_suffix {R : ℕ} {s s' : Conf R} (m : Reach s s') (r : Fin R) : s'.todo r <:+ s.todo r := by
  induction m with
  | refl => exact List.suffix_refl _
  | tail _ m ih => exact (todo_suffix_move m r).trans ih

/-! ### the collective operations still to come are the same on all ranks -/

/-- the collective operations of a list -/
def coll (l : List TOp) : List TOp := l.filter fun o => o.op.collective

theorem coll_reach {R : ℕ} {s s' : Conf R} (h : ∀ r r', coll (s.todo r) = coll (s.todo r')) (m : Reach s s') :
    ∀ r r', coll (s'.todo r) = coll (s'.todo r') := by
  induction m with
  | refl => exact h
  | tail _ m ih =>
    cases m with
    | one r o rest e c =>
      have key : ∀ a, coll (Function.update (Conf.todo _) r rest a) = coll (Conf.todo _ a) := fun a => by
        by_cases h : a = r
        · subst h
          rw [Function.update_self, e]
          unfold coll
          rw [List.filter_cons_of_neg (by simp [c])]
        · rw [Function.update_of_ne h]
      intro a b
      show coll (Function.update (Conf.todo _) r rest a) = coll (Function.update (Conf.todo _) r rest b)
      rw [key, key]
      exact ih a b
    | all o rest e c =>
      intro a b
      have := ih a b
      rw [e, e] at this
      unfold coll at this
      rw [List.filter_cons_of_pos (by simp [c]), List.filter_cons_of_pos (by simp [c])] at this
      exact (List.cons.inj this).2

/-! ### the programs -/

theorem prog_eq (K : Hist) (cf : LConf) (bad : ℕ → Bool) (r niter nrt : ℕ) :
    prog K cf bad r niter nrt = (List.range (performed cf bad niter nrt)).flatMap fun i =>
      (body cf (nrt + i + 1) (bad (nrt + i + 1))).1.flatMap (evOps K (nrt + i + 1) r) := by
  induction niter generalizing nrt with
  | zero => rfl
  | succ n ih =>
    unfold prog performed
    by_cases h : Detects cf bad (nrt+1)
    · have hb : (body cf (nrt+1) (bad (nrt+1))).2 = false := by
        have := (body_cont cf (nrt+1) bad).not.2 (not_not.2 h)
        simpa using this
      rw [if_pos h, hb]
      simp
    · rw [if_neg h, (body_cont cf (nrt+1) bad).2 h, if_pos rfl, ih, Nat.add_comm 1, List.range_succ_eq_map, List.flatMap_cons,
        List.flatMap_map]
      simp only [Nat.add_zero, Nat.succ_eq_add_one]
      congr 1
      refine List.flatMap_congr ?_
      intro i _
      rw [show nrt + 1 + i + 1 = nrt + (i + 1) + 1 by omega]

/-- the operations of a rank are those of the events performed -/
theorem mem_prog {K : Hist} {cf : LConf} {bad : ℕ → Bool} {r niter nrt : ℕ} {o : TOp} : o ∈ prog K cf bad r niter nrt ↔
    ∃ n e, nrt < n ∧ n ≤ nrt + performed cf bad niter nrt ∧ e ∈ (body cf n (bad n)).1 ∧ o ∈ evOps K n r e := by
  rw [prog_eq]
  simp only [List.mem_flatMap, List.mem_range]
  constructor
  · rintro ⟨i, hi, e, he, ho⟩
    exact ⟨nrt + i + 1, e, by omega, by omega, he, ho⟩
  · rintro ⟨n, e, h1, h2, he, ho⟩
    refine ⟨n - nrt - 1, by omega, e, ?_⟩
    rw [show nrt + (n - nrt - 1) + 1 = n by omega]
    exact ⟨he, ho⟩

/-- what an event of iteration `n` can be -/
theorem ev_cases {cf : LConf} {n : ℕ} {bad : ℕ → Bool} {e : Ev} (h : e ∈ (body cf n (bad n)).1) :
    e = .step ∨ e = .restart n ∨ e = .qnm1 n ∨ e = .archive n ∨ e = .nanCheck n ∨ e = .emergency ∨ e = .coproc n := by
  rw [mem_body] at h; tauto

theorem restartOps_mem {K : Hist} {ev : Ev} {dir : Str} {animate : Bool} {rnd : ℝ → ℝ} {n nrt r : ℕ} {o : TOp}
    (h : o ∈ restartOps K ev dir animate rnd n nrt r) :
    o.ev = ev ∧ ∃ j, o.op.path = some (dir ++ "/".toList ++ dataName "q".toList K.c.lump animate nrt j) := by
  unfold restartOps at h
  split_ifs at h with hl
  · rw [hl]
    rcases List.mem_cons.1 h with rfl | h
    · exact ⟨rfl, 0, rfl⟩
    · split at h
      · rw [List.mem_singleton] at h; subst h; exact ⟨rfl, 0, rfl⟩
      · simp at h
  · have hl' : K.c.lump = false := by simpa using hl
    rw [hl']
    obtain ⟨b, hb, h⟩ := List.mem_flatMap.1 h
    rcases List.mem_cons.1 h with rfl | h
    · exact ⟨rfl, b.num, rfl⟩
    · split at h
      · rw [List.mem_singleton] at h; subst h; exact ⟨rfl, b.num, rfl⟩
      · simp at h

theorem extraOps_mem {K : Hist} {ev : Ev} {a : Str} {n r : ℕ} {o : TOp} (h : o ∈ extraOps K ev a n r) :
    o.ev = ev ∧ ∃ j, o.op.path = some (K.c.archiveDir ++ "/".toList ++ dataName a K.c.lump K.c.animateArchive n j) := by
  unfold extraOps at h
  split_ifs at h with hl
  · rw [hl]
    simp only [List.mem_cons, List.not_mem_nil, or_false] at h
    rcases h with rfl | rfl <;> exact ⟨rfl, 0, rfl⟩
  · have hl' : K.c.lump = false := by simpa using hl
    rw [hl']
    obtain ⟨b, hb, h⟩ := List.mem_flatMap.1 h
    simp only [List.mem_cons, List.not_mem_nil, or_false] at h
    rcases h with rfl | rfl <;> exact ⟨rfl, b.num, rfl⟩

theorem qnm1Ops_mem {K : Hist} {ev : Ev} {n r : ℕ} {o : TOp} (h : o ∈ qnm1Ops K ev n r) :
    o.ev = ev ∧ ∃ j, o.op.path = some (K.c.restartDir ++ "/".toList ++ qnm1Name K.c.animateRestart n j) := by
  unfold qnm1Ops at h
  obtain ⟨b, hb, h⟩ := List.mem_flatMap.1 h
  simp only [List.mem_cons, List.not_mem_nil, or_false] at h
  rcases h with rfl | rfl <;> exact ⟨rfl, b.num, rfl⟩

theorem ev_tag {K : Hist} {n r : ℕ} {e : Ev} {o : TOp} (h : o ∈ evOps K n r e) : o.ev = e := by
  cases e <;> simp only [evOps, List.mem_append, List.mem_singleton, List.mem_flatMap, List.not_mem_nil] at h
  · subst h; rfl
  · exact (restartOps_mem h).1
  · exact (qnm1Ops_mem h).1
  · rcases h with h | ⟨a, _, h⟩
    · exact (restartOps_mem h).1
    · exact (extraOps_mem h).1
  · subst h; rfl
  · exact (restartOps_mem h).1

/-- with numbered restart files every operation is on the file of one kind of output and one iteration -/
theorem ev_path {K : Hist} (ha : K.c.animateRestart = true) {cf : LConf} {bad : ℕ → Bool} {n r : ℕ} {e : Ev} (he : e ∈ (body cf n (bad n)).1) {o : TOp}
    (h : o ∈ evOps K n r e) {p : Str} (hp : o.op.path = some p) :
    (∃ j, e = .restart n ∧ p = pathOf K.c .restart n j) ∨ (∃ j, e = .qnm1 n ∧ p = pathOf K.c .qnm1 n j) ∨
    (∃ j, p = pathOf K.c .archive n j) ∨ (∃ a ∈ K.c.extra, ∃ j, p = pathOf K.c (.extra a) n j) ∨
    (∃ j, p = pathOf K.c .restart emergencyNrt j) := by
  rcases ev_cases he with rfl | rfl | rfl | rfl | rfl | rfl | rfl <;>
    simp only [evOps, List.mem_append, List.mem_singleton, List.mem_flatMap, List.not_mem_nil] at h
  · subst h; simp [Op.path] at hp
  · obtain ⟨_, j, hj⟩ := restartOps_mem h
    rw [hp] at hj
    exact .inl ⟨j, rfl, Option.some.inj hj⟩
  · obtain ⟨_, j, hj⟩ := qnm1Ops_mem h
    rw [hp] at hj
    exact .inr (.inl ⟨j, rfl, Option.some.inj hj⟩)
  · rcases h with h | ⟨a, hae, h⟩
    · obtain ⟨_, j, hj⟩ := restartOps_mem h
      rw [hp] at hj
      exact .inr (.inr (.inl ⟨j, Option.some.inj hj⟩))
    · obtain ⟨_, j, hj⟩ := extraOps_mem h
      rw [hp] at hj
      exact .inr (.inr (.inr (.inl ⟨a, hae, j, Option.some.inj hj⟩)))
  · subst h; simp [Op.path] at hp
  · obtain ⟨_, j, hj⟩ := restartOps_mem h
    rw [hp] at hj
    refine .inr (.inr (.inr (.inr ⟨j, ?_⟩)))
    unfold pathOf
    rw [ha]
    exact Option.some.inj hj

/-- an operation on a restart file of iteration `m` belongs to the restart of iteration `m` -/
theorem owner_restart {K : Hist} {R : ℕ} (hK : K.Ok R) (ha : K.c.animateRestart = true) {cf : LConf} {bad : ℕ → Bool} {m : ℕ} (hm : m ≠ emergencyNrt)
    {n r j : ℕ} {e : Ev} (he : e ∈ (body cf n (bad n)).1) {o : TOp} (h : o ∈ evOps K n r e) (hp : o.op.path = some (pathOf K.c .restart m j)) :
    n = m ∧ e = .restart m := by
  have D := C49_distinct_partial K.c hK.sane hK.noq
  rcases ev_path ha he h hp with ⟨j', h1, h2⟩ | ⟨j', h1, h2⟩ | ⟨j', h2⟩ | ⟨a, hae, j', h2⟩ | ⟨j', h2⟩
  · have := (D .restart .restart trivial trivial _ _ _ _ h2).2.1 ha
    subst this
    exact ⟨rfl, h1⟩
  · exact absurd (D .restart .qnm1 trivial trivial _ _ _ _ h2).1 (by simp)
  · exact absurd (D .restart .archive trivial trivial _ _ _ _ h2).1 (by simp)
  · exact absurd (D .restart (.extra a) trivial hae _ _ _ _ h2).1 (by simp)
  · exact absurd ((D .restart .restart trivial trivial _ _ _ _ h2).2.1 ha) hm

/-- the same for the older level -/
theorem owner_qnm1 {K : Hist} {R : ℕ} (hK : K.Ok R) (ha : K.c.animateRestart = true) {cf : LConf} {bad : ℕ → Bool} {m : ℕ}
    {n r j : ℕ} {e : Ev} (he : e ∈ (body cf n (bad n)).1) {o : TOp} (h : o ∈ evOps K n r e) (hp : o.op.path = some (pathOf K.c .qnm1 m j)) :
    n = m ∧ e = .qnm1 m := by
  have D := C49_distinct_partial K.c hK.sane hK.noq
  rcases ev_path ha he h hp with ⟨j', h1, h2⟩ | ⟨j', h1, h2⟩ | ⟨j', h2⟩ | ⟨a, hae, j', h2⟩ | ⟨j', h2⟩
  · exact absurd (D .qnm1 .restart trivial trivial _ _ _ _ h2).1 (by simp)
  · have := (D .qnm1 .qnm1 trivial trivial _ _ _ _ h2).2.1 ha
    subst this
    exact ⟨rfl, h1⟩
  · exact absurd (D .qnm1 .archive trivial trivial _ _ _ _ h2).1 (by simp)
  · exact absurd (D .qnm1 (.extra a) trivial hae _ _ _ _ h2).1 (by simp)
  · exact absurd (D .qnm1 .restart trivial trivial _ _ _ _ h2).1 (by simp)

/-- contents of a block's own file -/
theorem oneFile_spec (rnd : ℝ → ℝ) {sp : List Str} (hn : NamesOk sp) {b : Blk} (hb : b.species = sp ∧ b.solver = true) :
    ∃ h, oneFile rnd sp b = some h ∧ ∀ e ∈ blkEntries (pOpts rnd) b, h e.1 = some e.2 := by
  obtain ⟨s1, s2⟩ := hb
  have hw : blkWrites rnd sp b = blkEntries (pOpts rnd) b := by
    rw [← s1]; exact blkWrites_eq rnd b s2 (by rw [s1]; exact hn)
  have hk : (blkEntries (pOpts rnd) b).map Prod.fst = (allNames sp).map fun s => (resS b.num, s) := by
    rw [entries_keys, if_pos s2, s1, restart_names_eq hn.1]
  unfold oneFile
  rw [hw]
  refine put_set _ _ ?_ ?_ ?_
  · unfold zeros
    rw [List.map_map]
    exact (allNames_nodup hn).map fun x y hxy => (Prod.mk.inj hxy).2
  · rw [hk]; exact (allNames_nodup hn).map fun x y hxy => (Prod.mk.inj hxy).2
  · intro e he
    have : e.1 ∈ (blkEntries (pOpts rnd) b).map Prod.fst := List.mem_map.2 ⟨e, he, rfl⟩
    rw [hk] at this
    obtain ⟨s, hs, h⟩ := List.mem_map.1 this
    refine ⟨((resS b.num, s), List.replicate ((b.ni - 1) * (b.nj - 1) * (b.nk - 1)) 0), List.mem_map.2 ⟨s, hs, rfl⟩, h, ?_⟩
    rw [List.length_replicate]
    unfold blkEntries at he
    rw [if_pos s2] at he
    simp only [List.mem_append, List.mem_singleton, List.mem_map] at he
    rcases he with (rfl | ⟨n, _, rfl⟩) | rfl
    · exact (wdata_length rnd b _).symm
    · exact (wdata_length rnd b (fun i j k => b.q i j k n)).symm
    · exact (wdata_length rnd b _).symm

theorem mine_mem {K : Hist} {n r : ℕ} {b : Blk} (h : b ∈ K.mine n r) : b ∈ (K.run n).flatten := by
  unfold Hist.mine at h
  rw [List.getD_eq_getElem?_getD] at h
  by_cases hr : r < (K.run n).length
  · rw [List.getElem?_eq_getElem hr] at h
    exact List.mem_flatten.2 ⟨_, List.getElem_mem hr, h⟩
  · rw [List.getElem?_eq_none (by omega)] at h
    simp at h

theorem mem_mine {K : Hist} {R : ℕ} (hK : K.Ok R) {n : ℕ} {b : Blk} (h : b ∈ (K.run n).flatten) : ∃ r : Fin R, b ∈ K.mine n r := by
  obtain ⟨l, hl, hb⟩ := List.mem_flatten.1 h
  obtain ⟨i, hi, e⟩ := List.getElem_of_mem hl
  refine ⟨⟨i, by rw [← hK.ranks n]; exact hi⟩, ?_⟩
  unfold Hist.mine
  rw [List.getD_eq_getElem?_getD]
  simp only [List.getElem?_eq_getElem hi, Option.getD_some]
  rw [e]
  exact hb

theorem uniq_num {K : Hist} {R : ℕ} (hK : K.Ok R) {n : ℕ} {b b' : Blk} (h : b ∈ (K.run n).flatten) (h' : b' ∈ (K.run n).flatten) (e : b.num = b'.num) :
    b = b' :=
  List.inj_on_of_nodup_map ((hK.proper n).numbers.nodup_iff.2 List.nodup_range) h h' e

end PG.IO
