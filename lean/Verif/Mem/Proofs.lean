import Verif.Mem.Safe

/-!
# The program keeps the discipline
-/

namespace PG.Mem

variable {V O : Type} (c : Code V O) (g : Grid) (cfg : Config)

theorem py_safe {H D R W : Set Var} (s : String) (a : List V) (r : R ⊆ H) :
    Safe ⟨H, D⟩ (py c s a R W : Prog V O) ⟨H ∪ W, D \ W⟩ := by
  have := Safe.host (O := O) (F := ⟨H, D⟩) (a := c.act s a R W) (by rw [c.act_reads]; exact r)
  rwa [c.act_writes] at this

theorem kern_safe {H D R W : Set Var} (s : String) (a : List V) (r : R ⊆ D) :
    Safe ⟨H, D⟩ (kern c s a R W : Prog V O) ⟨H \ W, D ∪ W⟩ := by
  have := Safe.dev (O := O) (F := ⟨H, D⟩) (a := c.act s a R W) (by rw [c.act_reads]; exact r)
  rwa [c.act_writes] at this

theorem out_safe {H D R : Set Var} (s : String) (a : List V) (r : R ⊆ H) :
    Safe ⟨H, D⟩ (.emit (c.out s a R) : Prog V O) ⟨H, D⟩ :=
  Safe.emit (by rw [c.out_reads]; exact r)

theorem each_push {o : Owner} (ns : List String) {H D : Set Var} (h : ∀ n ∈ ns, ⟨o, .arr n⟩ ∈ H) :
    Safe ⟨H, D⟩ (each ns fun n => .push ⟨o, .arr n⟩ : Prog V O) ⟨H, D ∪ {v | ∃ n ∈ ns, v = ⟨o, .arr n⟩}⟩ := by
  have := each_add (O := O) (V := V) (H := H) (D := D) (l := ns) (f := fun n => .push ⟨o, .arr n⟩) (fun _ => ∅)
    (fun n => {⟨o, .arr n⟩}) (fun n hn H' D' hH hD => by
      simpa using Safe.push (F := ⟨H', D'⟩) (v := ⟨o, .arr n⟩) (hH (h n hn)))
  simpa using this

theorem each_pull {o : Owner} (ns : List String) {H D : Set Var} (h : ∀ n ∈ ns, ⟨o, .arr n⟩ ∈ D) :
    Safe ⟨H, D⟩ (each ns fun n => .pull ⟨o, .arr n⟩ : Prog V O) ⟨H ∪ {v | ∃ n ∈ ns, v = ⟨o, .arr n⟩}, D⟩ := by
  have := each_add (O := O) (V := V) (H := H) (D := D) (l := ns) (f := fun n => .pull ⟨o, .arr n⟩)
    (fun n => {⟨o, .arr n⟩}) (fun _ => ∅) (fun n hn H' D' hH hD => by
      simpa using Safe.pull (F := ⟨H', D'⟩) (v := ⟨o, .arr n⟩) (hD (h n hn)))
  simpa using this

/-- Not a communication buffer. -/
def Plain (v : Var) : Prop := ∃ s, v.name = .arr s

theorem commVar_safe {H D : Set Var} (var : String) (hH : ∀ v ∈ H, Plain v ∧ ∀ b, v ≠ bv b var)
    (hD : ∀ v ∈ D, Plain v) (hv : ∀ x ∈ g.conn, bv x.1 var ∈ D) :
    Safe ⟨H, D⟩ (commVar c g var) ⟨H, D⟩ := by
  let S : List (ℕ × ℕ) → Set Var := fun p => {v | ∃ x ∈ p, v = ⟨.face x.1 x.2, .send var⟩}
  let R : Set Var := {v | ∃ x ∈ g.conn, v = ⟨.face x.1 x.2, .recv var⟩}
  have pl : ∀ v ∈ H ∪ D, (∀ o s, v ≠ ⟨o, .send s⟩) ∧ (∀ o s, v ≠ ⟨o, .recv s⟩) ∧ (∀ o s, v ≠ ⟨o, .temp s⟩) := by
    intro v hv'
    obtain ⟨s, hs⟩ : Plain v := hv'.elim (fun h => (hH v h).1) (hD v)
    refine ⟨?_, ?_, ?_⟩ <;> rintro o t rfl <;> cases hs
  have first : Safe ⟨H, D⟩ (each g.conn (fun x =>
      kern c "extractSendBuffer" [] {bv x.1 var} {⟨.face x.1 x.2, .temp var⟩} ;;
      .pull ⟨.face x.1 x.2, .temp var⟩ ;;
      py c "orient" [] {⟨.face x.1 x.2, .temp var⟩} {⟨.face x.1 x.2, .send var⟩})) ⟨H ∪ S g.conn, D⟩ := by
    have := each_safe (O := O) (fun p => (⟨H ∪ S p, D⟩ : Fresh)) (f := fun x =>
      kern c "extractSendBuffer" [] {bv x.1 var} {⟨.face x.1 x.2, .temp var⟩} ;;
      .pull ⟨.face x.1 x.2, .temp var⟩ ;;
      py c "orient" [] {⟨.face x.1 x.2, .temp var⟩} {⟨.face x.1 x.2, .send var⟩}) g.conn [] ?_
    · simpa [S] using this
    intro p x q e
    have hx : x ∈ g.conn := by simp at e; simp [e]
    refine Safe.seq (kern_safe c _ _ (by rintro v rfl; exact hv x hx)) ?_
    refine Safe.seq (Safe.pull (by exact .inr rfl)) ?_
    refine (py_safe c _ _ (by rintro v rfl; exact .inr rfl)).post ?_ ?_
    · rintro v (h | ⟨y, hy, h⟩)
      · exact .inl (.inl ⟨.inl h, fun e => (pl v (.inl h)).2.2 _ _ e⟩)
      · rcases List.mem_append.1 hy with hy | hy
        · exact .inl (.inl ⟨.inr ⟨y, hy, h⟩, by rw [h]; intro e; simp at e⟩)
        · exact .inr (by rw [List.mem_singleton.1 hy] at h; exact h)
    · intro v h
      exact ⟨.inl h, fun e => (pl v (.inr h)).1 _ _ e⟩
  refine Safe.seq first ?_
  refine Safe.seq (py_safe c _ _ (by intro v h; exact .inr h)) ?_
  have last : Safe ⟨H ∪ R, D⟩ (each g.conn (fun x =>
      .push ⟨.face x.1 x.2, .recv var⟩ ;;
      kern c "placeRecvBuffer" [] {bv x.1 var, ⟨.face x.1 x.2, .recv var⟩} {bv x.1 var})) ⟨H ∪ R, D⟩ := by
    refine each_inv fun x hx => ?_
    refine Safe.seq (Safe.push (by exact .inr ⟨x, hx, rfl⟩)) ?_
    refine (kern_safe c _ _ ?_).post ?_ ?_
    · rintro v (rfl | rfl)
      · exact .inl (hv x hx)
      · exact .inr rfl
    · rintro v (h | ⟨y, hy, rfl⟩)
      · exact ⟨.inl h, fun e => (hH v h).2 _ e⟩
      · exact ⟨.inr ⟨y, hy, rfl⟩, by intro e; simp [bv] at e⟩
    · exact fun v h => .inl (.inl h)
  refine Safe.weaken ?_ ?_ last (fun v h => .inl h) (fun v h => h)
  · rintro v (h | h)
    · exact .inl (.inl h)
    · exact .inr h
  · intro v h
    refine ⟨h, ?_⟩
    rintro ⟨y, hy, rfl⟩
    exact (pl _ (.inr h)).2.1 _ _ rfl

theorem communicate_safe {H D : Set Var} (vars : List String)
    (hH : ∀ v ∈ H, Plain v ∧ ∀ n ∈ vars, ∀ b, v ≠ bv b n) (hD : ∀ v ∈ D, Plain v)
    (hv : ∀ x ∈ g.conn, ∀ n ∈ vars, bv x.1 n ∈ D) : Safe ⟨H, D⟩ (communicate c g vars) ⟨H, D⟩ :=
  each_inv fun n hn => commVar_safe c g n (fun v h => ⟨(hH v h).1, (hH v h).2 n hn⟩) hD fun x hx => hv x hx n hn

/-! ### The time loop -/

/-- Block numbers are distinct and faces belong to blocks of the case. -/
structure Grid.Ok : Prop where
  blocks : g.blocks.Nodup
  conn : ∀ x ∈ g.conn, x.1 ∈ g.blocks
  periodic : ∀ x ∈ g.periodic, x.1 ∈ g.blocks
  bcs : ∀ x ∈ g.bcs, x.1 ∈ g.blocks
  traced : ∀ b ∈ g.traced, b ∈ g.blocks

/-- Host arrays no kernel writes. -/
def Calm (H : Set Var) : Prop := ∀ v ∈ H, Plain v ∧ (∀ b, ∀ n ∈ flowNames, v ≠ bv b n) ∧
  (∀ b f, ∀ n ∈ bcNames, v ≠ fv b f n) ∧ ∀ b f, v ≠ fv b f "intervalAlphas"

variable {g}

theorem kReads_plain : ∀ v ∈ kReads g, Plain v := by
  rintro v (⟨n, _, rfl⟩ | ⟨b, _, n, _, rfl⟩ | ⟨x, _, n, _, rfl⟩ | ⟨x, _, n, _, rfl⟩ | ⟨x, _, rfl⟩) <;> exact ⟨_, rfl⟩

theorem kReads_flow {b : ℕ} (hb : b ∈ g.blocks) {n : String} (hn : n ∈ geoNames ++ flowNames ++ histNames) :
    bv b n ∈ kReads g := .inr (.inl ⟨b, hb, n, hn, rfl⟩)

theorem kernB_safe {H : Set Var} (hH : Calm H) (s : String) (a : List V) (b : ℕ) :
    Safe ⟨H, kReads g⟩ (kernB c g s a b) ⟨H, kReads g⟩ := by
  refine (kern_safe c _ _ (fun v h => h)).post ?_ (fun v h => .inl h)
  rintro v h
  refine ⟨h, ?_⟩
  rintro (⟨n, hn, rfl⟩ | ⟨x, hx, n, hn, rfl⟩)
  · exact (hH _ h).2.1 _ n hn rfl
  · exact (hH _ h).2.2.1 _ _ n hn rfl

/-- The coefficient tables of the time dependent inlets are current on the host. -/
def HasAlphas (g : Grid) (H : Set Var) : Prop := ∀ x ∈ g.spline, fv x.1 x.2 "cubicSplineAlphas" ∈ H

theorem bcFunc_safe {H : Set Var} (hH : Calm H) (ha : HasAlphas g H) (t : String) (a : List V) (b : ℕ) :
    Safe ⟨H, kReads g⟩ (bcFunc c g t a b) ⟨H, kReads g⟩ := by
  refine Safe.seq ?_ (kernB_safe c hH _ _ b)
  split
  · refine each_inv fun x hx => ?_
    have hx' : x ∈ g.spline := (List.mem_filter.1 hx).1
    refine Safe.seq (py_safe c _ _ (by rintro v rfl; exact ha x hx')) ?_
    refine (Safe.push (by exact .inr rfl)).post ?_ ?_
    · exact fun v h => .inl h
    · intro v h
      by_cases e : v = fv x.1 x.2 "intervalAlphas"
      · exact .inr e
      · exact .inl ⟨h, e⟩
  · exact Safe.skip

theorem comm_flow {H : Set Var} (hg : g.Ok) (hH : Calm H) (vars : List String) (hv : ∀ n ∈ vars, n ∈ flowNames) :
    Safe ⟨H, kReads g⟩ (communicate c g vars) ⟨H, kReads g⟩ :=
  communicate_safe c g vars (fun v h => ⟨(hH v h).1, fun n hn b => (hH v h).2.1 b n (hv n hn)⟩) kReads_plain
    fun x hx n hn => kReads_flow (hg.conn x hx) (List.mem_append_left _ (List.mem_append_right _ (hv n hn)))

theorem consistify_safe {H : Set Var} (hg : g.Ok) (hH : Calm H) (ha : HasAlphas g H) (gv : String) (a : List V) :
    Safe ⟨H, kReads g⟩ (consistify c g cfg gv a) ⟨H, kReads g⟩ := by
  refine Safe.seq (comm_flow c hg hH _ ?_) (Safe.seq (each_inv fun b _ => ?_) ?_)
  · intro n hn
    rw [List.mem_singleton.1 hn]
    split <;> decide
  · exact Safe.seq (kernB_safe c hH _ _ b) (Safe.seq (bcFunc_safe c hH ha _ _ b)
      (Safe.seq (kernB_safe c hH _ _ b) (Safe.seq (kernB_safe c hH _ _ b) (kernB_safe c hH _ _ b))))
  · split
    · exact comm_flow c hg hH _ (by decide)
    · exact Safe.skip

theorem rhs_safe {H : Set Var} (hg : g.Ok) (hH : Calm H) (ha : HasAlphas g H) (a : List V) :
    Safe ⟨H, kReads g⟩ (rhs c g cfg a) ⟨H, kReads g⟩ := by
  have k : ∀ s b, Safe ⟨H, kReads g⟩ (kernB c g s a b) ⟨H, kReads g⟩ := fun s b => kernB_safe c hH s a b
  have t : ∀ s b, Safe ⟨H, kReads g⟩ (bcFunc c g s a b) ⟨H, kReads g⟩ := fun s b => bcFunc_safe c hH ha s a b
  refine Safe.seq (each_inv fun b _ => ?_) (Safe.seq ?_ (each_inv fun b _ => k _ b))
  · exact Safe.seq (k _ b) (Safe.seq (k _ b) (Safe.seq (k _ b) (Safe.seq (k _ b) (k _ b))))
  · split
    · refine Safe.seq (each_inv fun b _ => Safe.seq (t _ b) (k _ b)) (Safe.seq (comm_flow c hg hH _ (by decide))
        (each_inv fun b _ => Safe.seq (t _ b) (Safe.seq (k _ b) (Safe.seq (k _ b) (k _ b)))))
    · exact Safe.skip

theorem rkStage_safe {H : Set Var} (hg : g.Ok) (hH : Calm H) (ha : HasAlphas g H) (s gv : String) (a : List V) :
    Safe ⟨H, kReads g⟩ (rkStage c g cfg s gv a) ⟨H, kReads g⟩ :=
  Safe.seq (rhs_safe c cfg hg hH ha a) (Safe.seq (each_inv fun b _ => kernB_safe c hH _ _ b)
    (consistify_safe c cfg hg hH ha gv a))

theorem pseudo_safe {H : Set Var} (hg : g.Ok) (hH : Calm H) (ha : HasAlphas g H) (nrt : ℕ) (a : List V) (n : ℕ) :
    Safe ⟨H, kReads g⟩ (pseudo c g cfg nrt a n) ⟨H, kReads g⟩ := by
  induction n with
  | zero => exact Safe.skip
  | succ n ih =>
    have r : ∀ s, Safe ⟨H, kReads g⟩ (rkStage c g cfg s "prims" a) ⟨H, kReads g⟩ :=
      fun s => rkStage_safe c cfg hg hH ha s _ a
    refine Safe.seq (each_inv fun b _ => kernB_safe c hH _ _ b) (Safe.seq (r _) (Safe.seq (r _) (Safe.seq (r _) ?_)))
    split
    · refine Safe.ask (by rw [c.red_reads]) fun x => Safe.seq (out_safe c _ _ (by simp)) ih
    · exact ih

/-- Host arrays current throughout the time loop: the geometry and the coefficient tables. -/
def stdH (g : Grid) : Set Var :=
  {v | (∃ b ∈ g.blocks, ∃ n ∈ geoNames, v = bv b n) ∨ (∃ x ∈ g.spline, v = fv x.1 x.2 "cubicSplineAlphas")}

theorem bv_inj {b b' : ℕ} {n n' : String} (h : bv b n = bv b' n') : b = b' ∧ n = n' := by
  simp only [bv, Var.mk.injEq, Owner.blk.injEq, Name.arr.injEq] at h
  exact h

theorem fv_inj {b b' f f' : ℕ} {n n' : String} (h : fv b f n = fv b' f' n') : n = n' := by
  simp only [fv, Var.mk.injEq, Name.arr.injEq] at h
  exact h.2

theorem geo_not_flow : ∀ n ∈ geoNames, n ∉ flowNames := by decide

theorem stdH_calm : Calm (stdH g) := by
  rintro v (⟨b, hb, n, hn, rfl⟩ | ⟨x, hx, rfl⟩)
  · exact ⟨⟨_, rfl⟩, fun b' n' hn' e => geo_not_flow n hn ((bv_inj e).2 ▸ hn'), fun b f n _ e => (by cases e),
      fun b f e => (by cases e)⟩
  · refine ⟨⟨_, rfl⟩, fun b n _ e => (by cases e), fun b f n hn e => ?_, fun b f e => ?_⟩
    · have := fv_inj e
      subst this
      revert hn
      decide
    · exact absurd (fv_inj e) (by decide)

theorem stdH_alphas : HasAlphas g (stdH g) := fun x hx => .inr ⟨x, hx, rfl⟩

/-- The standing invariant. -/
def std (g : Grid) : Fresh := ⟨stdH g, kReads g⟩

theorem step_safe (hg : g.Ok) (hi : cfg.integrator ≠ .strang) (e nrt : ℕ) (a : List V) :
    Safe (std g) (step c g cfg e nrt a) (std g) := by
  have r : ∀ s gv, Safe (std g) (rkStage c g cfg s gv a) (std g) :=
    fun s gv => rkStage_safe c cfg hg stdH_calm stdH_alphas s gv a
  unfold step
  split
  · exact r _ _
  · exact Safe.seq (r _ _) (r _ _)
  · exact Safe.seq (r _ _) (Safe.seq (r _ _) (r _ _))
  · exact Safe.seq (r _ _) (Safe.seq (r _ _) (Safe.seq (r _ _) (r _ _)))
  · exact Safe.seq (r _ _) (Safe.seq (r _ _) (Safe.seq (r _ _) (r _ _)))
  · exact Safe.seq (each_inv fun b _ => kernB_safe c stdH_calm _ _ b) (Safe.seq (r _ _) (r _ _))
  · exact absurd ‹_› hi
  · refine Safe.seq (pseudo_safe c cfg hg stdH_calm stdH_alphas nrt a 20) (each_inv fun b hb => ?_)
    have calm : ∀ n ∈ histNames, ∀ v ∈ stdH g, v ∉ ({bv b n} : Set Var) := by
      rintro n hn v (⟨b', _, n', hn', rfl⟩ | ⟨x, _, rfl⟩) e
      · have := (bv_inj e).2
        subst this
        revert hn
        exact (show ∀ m ∈ geoNames, m ∉ histNames by decide) _ hn'
      · cases e
    refine Safe.seq ((kern_safe c _ _ ?_).post (F₃ := std g) ?_ ?_) ((kern_safe c _ _ ?_).post ?_ ?_)
    · rintro v rfl; exact kReads_flow hb (by decide)
    · exact fun v h => ⟨h, calm _ (by decide) v h⟩
    · exact fun v h => .inl h
    · rintro v rfl; exact kReads_flow hb (by decide)
    · exact fun v h => ⟨h, calm _ (by decide) v h⟩
    · exact fun v h => .inl h

theorem pull_emit {b : ℕ} (hb : b ∈ g.blocks) (ns ms : List String) (s : String) (a : List V)
    (hn : ∀ n ∈ ns, n ∈ geoNames ++ flowNames ++ histNames) (hm : ∀ n ∈ ms, n ∈ ns ∨ n ∈ geoNames) :
    Safe (std g) (pullB b ns ;; .emit (c.out s a (bvs b ms)) : Prog V O) (std g) := by
  refine Safe.seq (each_pull ns fun n h => kReads_flow hb (hn n h)) ((out_safe c _ _ ?_).post ?_ fun v h => h)
  · rintro v ⟨n, h, rfl⟩
    rcases hm n h with h | h
    · exact .inr ⟨n, h, rfl⟩
    · exact .inl (.inl ⟨b, hb, n, h, rfl⟩)
  · exact fun v h => .inl h

theorem restart_safe (a : List V) : Safe (std g) (parallelWriteRestart c g a) (std g) :=
  each_inv fun b hb => pull_emit c hb _ _ _ _ (by decide) fun n h => .inl h

theorem array_safe (a : List V) (n : String) (hn : n ∈ geoNames ++ flowNames ++ histNames) :
    Safe (std g) (parallelWriteArray c g a n) (std g) :=
  each_inv fun b hb => pull_emit c hb _ _ _ _ (by simpa using hn) fun n h => .inl h

theorem outputs_safe (hx : ∀ n ∈ cfg.extraVars, n ∈ geoNames ++ flowNames ++ histNames) (nrt : ℕ) (a : List V) :
    Safe (std g) (outputs c g cfg nrt a) (std g) := by
  refine Safe.seq (F' := std g) ?_ ?_
  · split
    · refine Safe.seq (restart_safe c a) ?_
      split
      · exact each_inv fun b hb => pull_emit c hb _ _ _ _ (by decide) fun n h => .inl h
      · exact Safe.skip
    · exact Safe.skip
  · split
    · exact Safe.seq (restart_safe c a) (each_inv fun n hn => array_safe c a n (hx n hn))
    · exact Safe.skip

theorem coproc_safe (hg : g.Ok) (nrt : ℕ) (a : List V) : Safe (std g) (coproc c g cfg nrt a) (std g) := by
  refine Safe.seq (F' := std g) ?_ ?_
  · split
    · have p := each_add (V := V) (O := O) (H := stdH g) (D := kReads g) (l := g.traced)
        (f := fun b => pullB b ["q"]) (fun b => {bv b "q"}) (fun _ => ∅) (fun b hb H' D' hH hD => by
          have := each_pull (V := V) (O := O) (o := .blk b) (H := H') (D := D') ["q"] (fun n h => hD (by
            rw [List.mem_singleton.1 h]; exact kReads_flow (hg.traced b hb) (by decide)))
          refine this.post ?_ ?_
          · rintro v (h | rfl)
            · exact .inl h
            · exact .inr ⟨"q", by simp, rfl⟩
          · intro v h; simpa using h)
      refine Safe.seq p (Safe.post (each_inv fun b hb => out_safe c _ _ ?_) (fun v h => .inl h) fun v h => .inl h)
      rintro v ⟨n, hn, rfl⟩
      rw [List.mem_singleton.1 hn]
      exact .inr ⟨b, hb, rfl⟩
    · exact Safe.skip
  · split
    · exact each_inv fun b hb => pull_emit c hb _ _ _ _ (by decide) (by decide)
    · exact Safe.skip

theorem loop_safe (hg : g.Ok) (hi : cfg.integrator ≠ .strang)
    (hx : ∀ n ∈ cfg.extraVars, n ∈ geoNames ++ flowNames ++ histNames) (e n nrt : ℕ) (tme : V) :
    Safe (std g) (loop c g cfg e n nrt tme) (std g) := by
  induction n generalizing nrt tme with
  | zero => exact Safe.skip
  | succ n ih =>
    refine Safe.ask (by rw [c.red_reads]; exact fun v h => h) fun dt => ?_
    refine Safe.seq (out_safe c _ _ (by simp)) (Safe.seq (step_safe c cfg hg hi e nrt _) ?_)
    refine Safe.seq (outputs_safe c cfg hx _ _) ?_
    split
    · refine Safe.ask (by rw [c.red_reads]; exact fun v h => h) fun x => ?_
      split
      · exact Safe.seq (each_inv fun b hb => pull_emit c hb _ _ _ _ (by decide) (by decide)) (restart_safe c _)
      · exact Safe.seq (coproc_safe c cfg hg _ _) (ih _ _)
    · exact Safe.seq (coproc_safe c cfg hg _ _) (ih _ _)

end PG.Mem
