import Verif.Mem.Proofs

/-!
# The set-up keeps the discipline and reaches the invariant of the time loop
-/

namespace PG.Mem

variable {V O : Type} (c : Code V O) {g : Grid} (cfg : Config)

/-- Arrays of all blocks. -/
def bset (g : Grid) (ns : List String) : Set Var := {v | ∃ b ∈ g.blocks, ∃ n ∈ ns, v = bv b n}

/-- Species tables. -/
def tset : Set Var := {v | ∃ n ∈ thtrNames, v = ⟨.thtr, .arr n⟩}

/-- Rotation matrices. -/
def rset (g : Grid) : Set Var := {v | ∃ x ∈ g.periodic, ∃ n ∈ rotNames, v = fv x.1 x.2 n}

theorem fill_safe {H D : Set Var} (s : String) (v : Var) :
    Safe ⟨H, D⟩ (py c s [] ∅ {v} ;; .push v : Prog V O) ⟨H ∪ {v}, D ∪ {v}⟩ := by
  refine Safe.seq (py_safe c _ _ (by simp)) ((Safe.push (by exact .inr rfl)).post (fun w h => h) ?_)
  rintro w (h | h)
  · by_cases e : w = v
    · exact .inr e
    · exact .inl ⟨h, e⟩
  · exact .inr h

theorem setThtr_safe : Safe ⟨∅, ∅⟩ (setThtr c : Prog V O) ⟨∅, tset⟩ := by
  have := each_add (V := V) (O := O) (H := ∅) (D := ∅) (l := thtrNames)
    (f := fun n => py c ("thtrdat " ++ n) [] ∅ {⟨.thtr, .arr n⟩} ;; .push ⟨.thtr, .arr n⟩)
    (fun _ => ∅) (fun n => {⟨.thtr, .arr n⟩}) (fun n _ H' D' _ _ => Safe.post (F₃ := ⟨H' ∪ ∅, D' ∪ {⟨.thtr, .arr n⟩}⟩) (fill_safe c _ _)
      (fun v h => .inl (h.resolve_right (by simp))) (fun v h => h))
  exact this.post (by simp) (fun v h => .inr h)

theorem readFiles_safe : Safe ⟨∅, tset⟩ (readFiles c g) ⟨bset g (geoNames ++ ["q"]), tset⟩ := by
  have key := each_safe (V := V) (O := O)
    (fun p => (⟨{v | ∃ b ∈ p, ∃ n ∈ geoNames ++ ["q"], v = bv b n}, tset⟩ : Fresh)) (f := fun b =>
      py c "initGridArrays" [] ∅ (bvs b geoNames) ;;
      py c "readGrid" [] (bvs b coordNames) (bvs b coordNames) ;;
      py c "readRestart" [] ∅ (bvs b ["q"])) g.blocks [] ?_
  · refine Safe.weaken ?_ ?_ key ?_ ?_
    · rintro v ⟨b, hb, _⟩
      simp at hb
    · exact fun v h => h
    · exact fun v h => h
    · exact fun v h => h
  intro p b q _
  refine Safe.seq (py_safe c _ _ (by simp)) (Safe.seq (py_safe c _ _ ?_) ((py_safe c _ _ (by simp)).post ?_ ?_))
  · rintro v ⟨n, hn, rfl⟩
    exact .inr ⟨n, List.mem_append_left _ hn, rfl⟩
  · rintro v ⟨b', hb', n, hn, rfl⟩
    rcases List.mem_append.1 hb' with h | h
    · exact .inl (.inl (.inl ⟨b', h, n, hn, rfl⟩))
    · rw [List.mem_singleton.1 h]
      rcases List.mem_append.1 hn with h | h
      · exact .inl (.inl (.inr ⟨n, h, rfl⟩))
      · exact .inr ⟨n, h, rfl⟩
  · rintro v ⟨n, hn, rfl⟩
    refine ⟨⟨⟨⟨n, hn, rfl⟩, ?_⟩, ?_⟩, ?_⟩ <;> rintro ⟨m, _, e⟩ <;> cases e

theorem setComm_safe {F : Fresh} : Safe F (setComm c g) F := by
  refine each_inv fun x _ => each_inv fun n _ => ?_
  have k : ∀ v, Safe F (create c v) F := fun v => (fill_safe c "zeros" v).post (fun w h => .inl h) (fun w h => .inl h)
  exact Safe.seq (k _) (Safe.seq (k _) (k _))

/-- After `initSolverArrays`. -/
def H0 (g : Grid) : Set Var := bset g (geoNames ++ histNames) ∪ rset g

/-- After `initSolverArrays`. -/
def D0 (g : Grid) : Set Var := tset ∪ bset g (geoNames ++ flowNames ++ histNames) ∪ rset g

theorem initArrays_safe : Safe ⟨bset g (geoNames ++ ["q"]), tset⟩ (initArrays c g)
    ⟨bset g (geoNames ++ histNames), tset ∪ bset g (geoNames ++ flowNames ++ histNames)⟩ := by
  have := each_add (V := V) (O := O) (H := bset g (geoNames ++ ["q"])) (D := tset) (l := g.blocks)
    (f := fun b => pushB b geoNames ;; .push (bv b "q") ;;
      each (flowNames.filter (· ≠ "q") ++ histNames) (fun n => create c (bv b n)))
    (fun b => bvs b histNames) (fun b => bvs b (geoNames ++ flowNames ++ histNames)) ?_
  · refine this.post ?_ ?_
    · rintro v ⟨b, hb, n, hn, rfl⟩
      rcases List.mem_append.1 hn with h | h
      · exact .inl ⟨b, hb, n, List.mem_append_left _ h, rfl⟩
      · exact .inr ⟨b, hb, n, h, rfl⟩
    · rintro v (h | ⟨b, hb, n, hn, rfl⟩)
      · exact .inl h
      · exact .inr ⟨b, hb, n, hn, rfl⟩
  intro b hb H' D' hH hD
  refine Safe.seq (each_push geoNames fun n hn => hH ⟨b, hb, n, List.mem_append_left _ hn, rfl⟩)
    (Safe.seq (Safe.push (hH ⟨b, hb, "q", by simp, rfl⟩)) ?_)
  have k := each_add (V := V) (O := O) (H := H') (D := D' ∪ {v | ∃ n ∈ geoNames, v = ⟨.blk b, .arr n⟩} ∪ {bv b "q"})
    (l := flowNames.filter (· ≠ "q") ++ histNames) (f := fun n => create c (bv b n))
    (fun n => {bv b n}) (fun n => {bv b n}) (fun n _ H' D' _ _ => fill_safe c "zeros" (bv b n))
  refine k.post ?_ ?_
  · rintro v (h | ⟨n, hn, rfl⟩)
    · exact .inl h
    · exact .inr ⟨n, List.mem_append_right _ hn, rfl⟩
  · rintro v (h | ⟨n, hn, rfl⟩)
    · exact .inl (.inl (.inl h))
    · rcases List.mem_append.1 hn with h | h
      · rcases List.mem_append.1 h with h | h
        · exact .inl (.inl (.inr ⟨n, h, rfl⟩))
        · by_cases e : n = "q"
          · exact .inl (.inr (by rw [e]; rfl))
          · exact .inr ⟨n, List.mem_append_left _ (List.mem_filter.2 ⟨h, by simpa using e⟩), rfl⟩
      · exact .inr ⟨n, List.mem_append_right _ h, rfl⟩

theorem setPeriodic_safe {H D : Set Var} : Safe ⟨H, D⟩ (setPeriodic c g) ⟨H ∪ rset g, D ∪ rset g⟩ := by
  have := each_add (V := V) (O := O) (H := H) (D := D) (l := g.periodic)
    (f := fun x => each rotNames fun n => py c ("rot " ++ n) [] ∅ {fv x.1 x.2 n} ;; .push (fv x.1 x.2 n))
    (fun x => {v | ∃ n ∈ rotNames, v = fv x.1 x.2 n}) (fun x => {v | ∃ n ∈ rotNames, v = fv x.1 x.2 n})
    (fun x _ H' D' _ _ => each_add (fun n => {fv x.1 x.2 n}) (fun n => {fv x.1 x.2 n})
      (fun n _ H' D' _ _ => fill_safe c _ _))
  exact this

theorem metric_not_coord : ∀ n ∈ metricGroups.flatten ++ histNames, n ∉ coordNames := by decide

theorem geoNames_eq : geoNames = coordNames ++ metricGroups.flatten := rfl

theorem D0_plain : ∀ v ∈ D0 g, Plain v := by
  rintro v ((⟨n, _, rfl⟩ | ⟨b, _, n, _, rfl⟩) | ⟨x, _, n, _, rfl⟩) <;> exact ⟨_, rfl⟩

theorem D0_blk {b : ℕ} (hb : b ∈ g.blocks) {n : String} (hn : n ∈ geoNames) : bv b n ∈ D0 g :=
  .inl (.inr ⟨b, hb, n, List.mem_append_left _ (List.mem_append_left _ hn), rfl⟩)

theorem H0_blk {b : ℕ} (hb : b ∈ g.blocks) {n : String} (hn : n ∈ geoNames) : bv b n ∈ H0 g :=
  .inl ⟨b, hb, n, List.mem_append_left _ hn, rfl⟩

theorem unifyGrid_safe (hg : g.Ok) : Safe ⟨H0 g, D0 g⟩ (unifyGrid c g) ⟨H0 g, D0 g⟩ := by
  let M : Set Var := bset g (metricGroups.flatten ++ histNames) ∪ rset g
  let C : Set Var := bset g coordNames
  have cg : ∀ n ∈ coordNames, n ∈ geoNames := fun n h => List.mem_append_left _ h
  refine Safe.seq (F' := ⟨H0 g, D0 g⟩) (each_inv fun b hb => ?_) ?_
  · refine Safe.seq (py_safe c _ _ ?_) ((each_push coordNames ?_).post (fun v h => .inl h) ?_)
    · rintro v ⟨n, hn, rfl⟩
      exact H0_blk hb (cg n hn)
    · exact fun n hn => .inr ⟨n, hn, rfl⟩
    · intro v h
      by_cases e : v ∈ bvs b coordNames
      · exact .inr e
      · exact .inl ⟨h, e⟩
  have MC : ∀ v ∈ M, Plain v ∧ ∀ n ∈ coordNames, ∀ b, v ≠ bv b n := by
    rintro v (⟨b, _, n, hn, rfl⟩ | ⟨x, _, n, _, rfl⟩)
    · exact ⟨⟨_, rfl⟩, fun m hm b' e => metric_not_coord n hn ((bv_inj e).2 ▸ hm)⟩
    · exact ⟨⟨_, rfl⟩, fun m hm b' e => (by cases e)⟩
  have MH : M ⊆ H0 g := by
    rintro v (⟨b, hb, n, hn, rfl⟩ | h)
    · refine .inl ⟨b, hb, n, ?_, rfl⟩
      rcases List.mem_append.1 hn with h | h
      · exact List.mem_append_left _ (List.mem_append_right _ h)
      · exact List.mem_append_right _ h
    · exact .inr h
  have HM : H0 g ⊆ M ∪ C := by
    rintro v (⟨b, hb, n, hn, rfl⟩ | h)
    · rcases List.mem_append.1 hn with h | h
      · rcases List.mem_append.1 (geoNames_eq ▸ h) with h | h
        · exact .inr ⟨b, hb, n, h, rfl⟩
        · exact .inl (.inl ⟨b, hb, n, List.mem_append_left _ h, rfl⟩)
      · exact .inl (.inl ⟨b, hb, n, List.mem_append_right _ h, rfl⟩)
    · exact .inl (.inr h)
  have CD : C ⊆ D0 g := by
    rintro v ⟨b, hb, n, hn, rfl⟩
    exact D0_blk hb (cg n hn)
  have CH : C ⊆ H0 g := by
    rintro v ⟨b, hb, n, hn, rfl⟩
    exact H0_blk hb (cg n hn)
  refine Safe.seq (F' := ⟨M, D0 g⟩) ?_ ?_
  · refine Safe.weaken (F₁ := ⟨M, D0 g⟩) MH (fun v h => h) (each_inv fun _ _ => ?_) (fun v h => h) (fun v h => h)
    exact communicate_safe c g coordNames MC D0_plain fun x hx n hn => D0_blk (hg.conn x hx) (cg n hn)
  refine Safe.seq (F' := ⟨H0 g, D0 g⟩) ?_ ?_
  · refine (each_add (fun b => bvs b coordNames) (fun _ => ∅) fun b hb H' D' hH hD => ?_).post ?_ (fun v h => .inl h)
    · refine (each_pull coordNames fun n hn => hD (D0_blk hb (cg n hn))).post (fun v h => h) (by simp)
    · intro v h
      rcases HM h with h | ⟨b, hb, n, hn, rfl⟩
      · exact .inl h
      · exact .inr ⟨b, hb, n, hn, rfl⟩
  refine Safe.seq (F' := ⟨H0 g, D0 g \ C⟩) ?_ ?_
  · refine Safe.weaken (F₁ := ⟨H0 g, D0 g \ C⟩) (fun v h => h) (fun v h => h.1) (each_inv fun x hx => ?_) (fun v h => h)
      (fun v h => h)
    refine (py_safe c _ _ ?_).post (fun v h => .inl h) ?_
    · rintro v (⟨n, hn, rfl⟩ | rfl | rfl)
      · exact H0_blk (hg.periodic x hx) (cg n hn)
      · exact .inr ⟨x, hx, _, by decide, rfl⟩
      · exact .inr ⟨x, hx, _, by decide, rfl⟩
    · rintro v h
      refine ⟨h, ?_⟩
      rintro ⟨n, hn, rfl⟩
      exact h.2 ⟨x.1, hg.periodic x hx, n, hn, rfl⟩
  · refine (each_add (fun _ => ∅) (fun b => bvs b coordNames) fun b hb H' D' hH hD => ?_).post (fun v h => .inl h) ?_
    · refine (each_push coordNames fun n hn => hH (H0_blk hb (cg n hn))).post (by simp) (fun v h => h)
    · intro v h
      by_cases e : v ∈ C
      · obtain ⟨b, hb, n, hn, rfl⟩ := e
        exact .inr ⟨b, hb, n, hn, rfl⟩
      · exact .inl ⟨h, e⟩

theorem computeMetrics_safe : Safe ⟨H0 g, D0 g⟩ (computeMetrics c g) ⟨H0 g, D0 g⟩ := by
  refine each_inv fun b hb => each_inv fun ns _ => ?_
  refine Safe.seq (py_safe c _ _ ?_) ((each_push ns ?_).post (fun v h => .inl h) ?_)
  · rintro v ⟨n, hn, rfl⟩
    exact H0_blk hb hn
  · exact fun n hn => .inr ⟨n, hn, rfl⟩
  · intro v h
    by_cases e : v ∈ bvs b ns
    · exact .inr e
    · exact .inl ⟨h, e⟩

/-- Host arrays current when the set-up ends its input phase. -/
def H1 (g : Grid) : Set Var :=
  {v | (∃ b ∈ g.blocks, ∃ n ∈ geoNames ++ ["Qnm1"], v = bv b n) ∨ (∃ x ∈ g.spline, v = fv x.1 x.2 "cubicSplineAlphas")}

theorem H1_calm : Calm (H1 g) := by
  have nf : ∀ n ∈ geoNames ++ ["Qnm1"], n ∉ flowNames := by decide
  rintro v (⟨b, hb, n, hn, rfl⟩ | ⟨x, hx, rfl⟩)
  · exact ⟨⟨_, rfl⟩, fun b' n' hn' e => nf n hn ((bv_inj e).2 ▸ hn'), fun b f n _ e => (by cases e),
      fun b f e => (by cases e)⟩
  · exact stdH_calm _ (.inr ⟨x, hx, rfl⟩)

theorem H1_alphas : HasAlphas g (H1 g) := fun x hx => .inr ⟨x, hx, rfl⟩

theorem setBcs_safe (hg : g.Ok) : Safe ⟨H0 g, D0 g⟩ (setBcs c g) ⟨H1 g, kReads g⟩ := by
  let B : Set Var := {v | ∃ x ∈ g.bcs, ∃ n ∈ bcNames, v = fv x.1 x.2 n}
  refine Safe.seq (F' := ⟨H0 g, D0 g ∪ B⟩) ?_ ?_
  · refine (each_add (fun _ => ∅) (fun x : ℕ × ℕ => {v | ∃ n ∈ bcNames, v = fv x.1 x.2 n}) fun x hx H' D' hH hD => ?_).post
      (fun v h => .inl h) (fun v h => h)
    refine Safe.seq (py_safe c _ _ ?_) (Safe.seq (Safe.push (by exact .inr (.inl rfl)))
      ((Safe.push (by exact .inr (.inr rfl))).post ?_ ?_))
    · rintro v ⟨n, hn, rfl⟩
      exact hH (H0_blk (hg.bcs x hx) hn)
    · rintro v (h | h)
      · exact .inl h
      · exact absurd h (by simp)
    · rintro v h
      by_cases e : v = fv x.1 x.2 "QBcVals"
      · exact .inr e
      by_cases e' : v = fv x.1 x.2 "qBcVals"
      · exact .inl (.inr e')
      · rcases h with h | ⟨n, hn, rfl⟩
        · exact .inl (.inl ⟨h, by rintro (h | h) <;> contradiction⟩)
        · simp only [bcNames, List.mem_cons, List.not_mem_nil, or_false] at hn
          rcases hn with rfl | rfl <;> contradiction
  · have key := each_safe (V := V) (O := O) (fun p => (⟨H0 g ∪ {v | ∃ x ∈ p, v = fv x.1 x.2 "cubicSplineAlphas"},
      D0 g ∪ B ∪ {v | ∃ x ∈ p, v = fv x.1 x.2 "intervalAlphas"}⟩ : Fresh)) (f := fun x =>
      py c "cubicSplineAlphas" [] ∅ {fv x.1 x.2 "cubicSplineAlphas"} ;;
      kern c "intervalAlphas" [] ∅ {fv x.1 x.2 "intervalAlphas"}) g.spline [] ?_
    · refine Safe.weaken ?_ ?_ key ?_ ?_
      · rintro v (h | ⟨x, hx, _⟩)
        · exact h
        · simp at hx
      · rintro v (h | ⟨x, hx, _⟩)
        · exact h
        · simp at hx
      · rintro v (⟨b, hb, n, hn, rfl⟩ | ⟨x, hx, rfl⟩)
        · refine .inl (.inl ⟨b, hb, n, ?_, rfl⟩)
          revert hn
          exact (show ∀ m ∈ geoNames ++ ["Qnm1"], m ∈ geoNames ++ histNames by decide) n
        · exact .inr ⟨x, hx, rfl⟩
      · rintro v (h | h | h | h | h)
        · exact .inl (.inl (.inl (.inl h)))
        · exact .inl (.inl (.inl (.inr h)))
        · exact .inl (.inl (.inr h))
        · exact .inl (.inr h)
        · exact .inr h
    · intro p x q _
      refine Safe.seq (py_safe c _ _ (by simp)) ((kern_safe c _ _ (by simp)).post ?_ ?_)
      · have ne : ∀ v, (v ∈ H0 g ∪ {v | ∃ y ∈ p ++ [x], v = fv y.1 y.2 "cubicSplineAlphas"}) →
            v ∉ ({fv x.1 x.2 "intervalAlphas"} : Set Var) := by
          rintro v ((⟨b, _, n, _, rfl⟩ | ⟨y, _, n, hn, rfl⟩) | ⟨y, _, rfl⟩) e
          · cases e
          · have := fv_inj e
            subst this
            revert hn
            decide
          · exact absurd (fv_inj e) (by decide)
        rintro v h
        refine ⟨?_, ne v h⟩
        rcases h with h | ⟨y, hy, rfl⟩
        · exact .inl (.inl h)
        · rcases List.mem_append.1 hy with h | h
          · exact .inl (.inr ⟨y, h, rfl⟩)
          · exact .inr (by rw [List.mem_singleton.1 h]; rfl)
      · rintro v (h | ⟨y, hy, rfl⟩)
        · refine .inl ⟨.inl h, ?_⟩
          rintro rfl
          rcases h with ((⟨n, _, e⟩ | ⟨b, _, n, _, e⟩) | ⟨y, _, n, hn, e⟩) | ⟨y, _, n, hn, e⟩
          · cases e
          · cases e
          · have := fv_inj e
            subst this
            revert hn
            decide
          · have := fv_inj e
            subst this
            revert hn
            decide
        · rcases List.mem_append.1 hy with h | h
          · exact .inl ⟨.inr ⟨y, h, rfl⟩, fun e => absurd (fv_inj e) (by decide)⟩
          · exact .inr (by rw [List.mem_singleton.1 h]; rfl)

theorem initDual_safe (hg : g.Ok) (nrt : ℕ) : Safe ⟨H1 g, kReads g⟩ (initDual c g cfg nrt) (std g) := by
  have key := each_safe (V := V) (O := O) (fun p => (⟨stdH g ∪ {v | ∃ b ∈ g.blocks, b ∉ p ∧ v = bv b "Qnm1"}, kReads g⟩ : Fresh))
    (f := fun b =>
      (if nrt ≠ 0 ∧ cfg.qnm1File b then
        py c "np.load Qnm1" [] {bv b "Qnm1"} {bv b "Qnm1"} ;; pushB b ["Qnm1"]
        else kern c "AEQB" [] {bv b "Q"} {bv b "Qnm1"}) ;;
      kern c "AEQB" [] {bv b "Q"} {bv b "Qn"}) g.blocks [] ?_
  · refine Safe.weaken ?_ ?_ key ?_ ?_
    · rintro v (h | ⟨b, hb, _, rfl⟩)
      · rcases h with ⟨b, hb, n, hn, rfl⟩ | h
        · exact .inl ⟨b, hb, n, List.mem_append_left _ hn, rfl⟩
        · exact .inr h
      · exact .inl ⟨b, hb, "Qnm1", by decide, rfl⟩
    · exact fun v h => h
    · exact fun v h => .inl h
    · exact fun v h => h
  intro p b q e
  have e' : g.blocks = p ++ b :: q := by simpa using e
  have hb : b ∈ g.blocks := by simp [e']
  have hp : b ∉ p := by
    intro h
    have := hg.blocks
    rw [e', List.nodup_append] at this
    exact this.2.2 b h b (by simp) rfl
  have geo : ∀ n, n ∉ geoNames → ∀ v ∈ stdH g, v ≠ bv b n := by
    rintro n hn v (⟨b', _, m, hm, rfl⟩ | ⟨x, _, rfl⟩) e
    · exact hn ((bv_inj e).2 ▸ hm)
    · cases e
  let J : Set Var := stdH g ∪ {v | ∃ b' ∈ g.blocks, b' ∉ p ++ [b] ∧ v = bv b' "Qnm1"}
  have Jq : ∀ v ∈ J, v ≠ bv b "Qnm1" := by
    rintro v (h | ⟨b', _, h, rfl⟩) e
    · exact geo _ (by decide) v h e
    · exact h (by rw [(bv_inj e).1]; simp)
  have Jn : ∀ v ∈ J, v ≠ bv b "Qn" := by
    rintro v (h | ⟨b', _, h, rfl⟩) e
    · exact geo _ (by decide) v h e
    · exact absurd (bv_inj e).2 (by decide)
  have JJ : J ⊆ stdH g ∪ {v | ∃ b' ∈ g.blocks, b' ∉ p ∧ v = bv b' "Qnm1"} := by
    rintro v (h | ⟨b', h, h', rfl⟩)
    · exact .inl h
    · exact .inr ⟨b', h, fun h => h' (List.mem_append_left _ h), rfl⟩
  refine Safe.seq (F' := ⟨J, kReads g⟩) ?_ ((kern_safe c _ _ ?_).post ?_ (fun v h => .inl h))
  · split
    · refine Safe.seq (py_safe c _ _ ?_) ((each_push ["Qnm1"] ?_).post ?_ ?_)
      · rintro v rfl
        exact .inr ⟨b, hb, hp, rfl⟩
      · intro n hn
        rw [List.mem_singleton.1 hn]
        exact .inr rfl
      · exact fun v h => .inl (JJ h)
      · intro v h
        by_cases e : v = bv b "Qnm1"
        · exact .inr ⟨"Qnm1", by simp, e⟩
        · exact .inl ⟨h, e⟩
    · refine (kern_safe c _ _ ?_).post ?_ (fun v h => .inl h)
      · rintro v rfl; exact kReads_flow hb (by decide)
      · exact fun v h => ⟨JJ h, Jq v h⟩
  · rintro v rfl; exact kReads_flow hb (by decide)
  · exact fun v h => ⟨h, Jn v h⟩

theorem bootstrap_safe (hg : g.Ok) (nrt : ℕ) (tme : V) : Safe ⟨∅, ∅⟩ (bootstrap c g cfg nrt tme) (std g) := by
  refine Safe.seq (setThtr_safe c) (Safe.seq (readFiles_safe c) (Safe.seq (setComm_safe c) (Safe.seq (initArrays_safe c)
    (Safe.seq (setPeriodic_safe c) (Safe.seq (unifyGrid_safe c hg) (Safe.seq (computeMetrics_safe c)
    (Safe.seq (F' := ⟨H0 g, D0 g⟩) ?_ (Safe.seq (setBcs_safe c hg) (Safe.seq (F' := ⟨H1 g, kReads g⟩) ?_
    (Safe.seq (consistify_safe c cfg hg H1_calm H1_alphas _ _) ?_))))))))))
  · exact (setPeriodic_safe c).post (fun v h => .inl h) (fun v h => .inl h)
  · exact each_inv fun b _ => kernB_safe c H1_calm _ _ b
  · split
    · exact initDual_safe c cfg hg nrt
    · refine Safe.skip.post ?_ (fun v h => h)
      rintro v (⟨b, hb, n, hn, rfl⟩ | h)
      · exact .inl ⟨b, hb, n, List.mem_append_left _ hn, rfl⟩
      · exact .inr h

end PG.Mem
