import Verif.Whole.ResumeProps
/-!
C109: the theorem.
-/
noncomputable section
namespace PG.Whole
open PG.Topo PG.Halo PG.Time

variable {S : Sig} {ng : Nat} {W' W : List (List Block)} {K : Kernels S} {I : Inp S}

/-- states between steps -/
structure Good (K : Kernels S) (I : Inp S) (ng : Nat) (J : Integrator) (W : List (List Block)) (ph : Nat → Pos → S.P)
    (s : St Entry (Aux S)) : Prop where
  settled : Settled K I ng W s.core
  frozen : Frozen K W ph s.core
  level : J = .dualTime → s.Qn = s.core.Q
  first : J = .dualTime → s.nrt = 0 → s.Qnm1 = s.core.Q

/-- equal as far as a restart file tells -/
structure Alike0 (J : Integrator) (W' : List (List Block)) (s' s : St Entry (Aux S)) : Prop where
  cells : Eq0 W' 0 (cell s'.core) (cell s.core)
  nrt : s'.nrt = s.nrt
  tme : s'.tme = s.tme
  old : J = .dualTime → E0 W' id (fun _ => 0) s'.Qnm1 s.Qnm1

theorem good_init (hng : 0 < ng) (h : Legal ng W) (hQ : EosFromQ K) {J : Integrator} {ph : Nat → Pos → S.P} {s : St Entry (Aux S)}
    (hs : Frozen K W ph s.core) (file : Option (Entry → Option ℝ)) :
    Good K I ng J W ph (initDualTime file (doConsistify (env K I ng W) s)) := by
  have hc : (initDualTime file (doConsistify (env K I ng W) s)).core = consistify K I ng W s.titme s.core := by
    unfold initDualTime
    split
    · cases file <;> rfl
    · rfl
  refine ⟨?_, ?_, ?_, ?_⟩
  · rw [hc]; exact consistify_settled hng h hQ _ _
  · rw [hc]; exact finish_frozen hng h _ _ hs
  · intro _
    rw [hc]
    unfold initDualTime
    split
    · cases file <;> rfl
    · rfl
  · intro _ hn
    rw [hc]
    unfold initDualTime at hn ⊢
    split_ifs at hn ⊢ with h0
    · cases file <;> exact absurd hn h0
    · rfl

theorem good_bootstrap (hng : 0 < ng) (h : Legal ng W) (hQ : EosFromQ K) (J : Integrator) (s : St Entry (Aux S)) :
    Good K I ng J W s.core.aux.phi (bootstrap K I ng W s) := by
  unfold bootstrap
  refine good_init (ph := s.core.aux.phi) hng h hQ ?_ none
  exact ⟨fun _ => rfl, fun _ _ _ _ _ _ _ _ => rfl⟩

theorem good_resume (hng : 0 < ng) (h : Legal ng W) (hQ : EosFromQ K) (J : Integrator) (f : Saved) (r : St Entry (Aux S)) :
    Good K I ng J W r.core.aux.phi (resume K I ng W f r) := by
  unfold resume
  refine good_init (ph := r.core.aux.phi) hng h hQ ?_ _
  exact ⟨fun _ => rfl, fun _ _ _ _ _ _ _ _ => rfl⟩

theorem consistify_inside (hng : 0 < ng) (h : Legal ng W) (hQ : EosFromQ K) (t : ℝ) (c : State S) {r : Nat} {b : Block} (hb : Owns W r b)
    {p : Pos} (hp : InBox 0 b.dims p) : cell (consistify K I ng W t c) b.nblki p = K.eosC (cell c b.nblki p) := by
  have e : cell (consistify K I ng W t c) = perBlock W
      (cell ({ c with Q := fun i => exch .ccAll ng W (fun n p l => c.Q (n, p, l)) i.1 i.2.1 i.2.2 } : State S))
      (fun b => bcAll ng b (fun nf => I.euler b.nblki nf t)
        (fun p => K.eosC (cell ({ c with Q := fun i => exch .ccAll ng W (fun n p l => c.Q (n, p, l)) i.1 i.2.1 i.2.2 } : State S) b.nblki p))) := rfl
  rw [e, perBlock_eq h.conn hb, bc_inside hp]
  apply hQ
  show exch .ccAll ng W (fun n p l => c.Q (n, p, l)) b.nblki p = _
  rw [exch_un hng h.conn _ hb (interior_unexchanged h.conn hb (interior_nat (by decide) hp))]
  rfl

theorem step_nrt {ι A : Type} {e : Env ι A} (J : Integrator) (dt : ℝ) (s : St ι A) : (step e J dt s).nrt ≠ 0 := by
  cases J
  case dualTime => simp only [step, dualTime, finish]; omega
  all_goals exact Nat.succ_ne_zero _

theorem good_step (hng : 0 < ng) (h : Legal ng W) (hK : LocalKernels ng K) (hQ : EosFromQ K) {J : Integrator} {ph : Nat → Pos → S.P}
    {s : St Entry (Aux S)} (hs : Good K I ng J W ph s) (dt : ℝ) : Good K I ng J W ph (step (env K I ng W) J dt s) := by
  refine ⟨?_, step_frozen hng h J dt hs.frozen, ?_, fun _ h0 => absurd h0 (step_nrt J dt s)⟩
  · rcases step_ends (e := env K I ng W) J dt s with ⟨t, c, e⟩ | ⟨t, c, e⟩
    · rw [e]; exact consistify_settled hng h hQ t c
    · rw [e]; exact consistifyP_settled hng h hK t c
  · intro hJ
    subst hJ
    simp only [step, dualTime]
    generalize (pseudoIter (env K I ng W) dt)^[20] s = a
    rfl

theorem good_run (hng : 0 < ng) (h : Legal ng W) (hK : LocalKernels ng K) (hQ : EosFromQ K) {J : Integrator} {ph : Nat → Pos → S.P}
    (dts : List ℝ) {s : St Entry (Aux S)} (hs : Good K I ng J W ph s) : Good K I ng J W ph (run (env K I ng W) J dts s) := by
  unfold run
  induction dts generalizing s with
  | nil => exact hs
  | cons dt dts ih => exact ih (good_step hng h hK hQ hs dt)

/-- what the launch on `W''` reads back from what the solver on `W'` wrote -/
theorem load_cell (h'' : Legal ng W') (h' : Legal ng W) (hb : SameBlocks W' W) (a r : St Entry (Aux S)) {r'' : Nat} {b'' : Block}
    (hb'' : Owns W' r'' b'') {p : Pos} (hp : InBox 0 b''.dims p) (l : Nat) :
    (load (save (env K I ng W) a) r).core.q (b''.nblki, p, l) = a.core.q (b''.nblki, p, l) ∧
    ((save (env K I ng W) a).qnm1 (b''.nblki, p, l)) = some (a.Qnm1 (b''.nblki, p, l)) := by
  obtain ⟨r', b', hb', e, hd, -⟩ := hb.there r'' b'' hb''
  have hin : (env K I ng W).inner (b''.nblki, p, l) = true := by
    rw [← e, inner_in h'.conn hb', hd]; exact decide_eq_true hp
  constructor
  · simp only [load, save]; rw [hin]; rfl
  · simp only [save, qnm1File]; rw [hin]; rfl

/-- The resumed solver and a solver that went on agree in everything the next steps read. -/
theorem resume_alike (hng : 0 < ng) {W'' : List (List Block)} (h'' : Legal ng W'') (h' : Legal ng W') (h : Legal ng W)
    (hb'' : SameBlocks W'' W') (hb' : SameBlocks W' W) (hK : LocalKernels ng K) (hQ : EosFromQ K)
    (hI : LocalBC ng I) (hE : SteadyEuler ng I) (hF : FreshEuler ng W'' I) (hP : FreshPost ng W'' I) {J : Integrator}
    {a u r : St Entry (Aux S)} (hu : Good K I ng J W r.core.aux.phi u)
    (hau : Alike0 J W' a u) (ht : Trips K W u.core) (dts : List ℝ) :
    Alike0 J W'' (run (env K I ng W'') J dts (resume K I ng W'' (save (env K I ng W') a) r)) (run (env K I ng W) J dts u) := by
  have hb := hb''.trans hb'
  have hs := h''.split h hb
  have hz := good_resume (K := K) (I := I) hng h'' hQ J (save (env K I ng W') a) r
  -- interior cells
  have hcell : Eq0 W'' 0 (cell (resume K I ng W'' (save (env K I ng W') a) r).core) (cell u.core) := by
    intro rk b hbo p hp
    replace hp := near_zero hp
    obtain ⟨r1, b1, hb1, e1, hd1, -⟩ := hb''.there rk b hbo
    obtain ⟨r2, b2, hb2, e2, hd2, -⟩ := hb.there rk b hbo
    have hc : (resume K I ng W'' (save (env K I ng W') a) r).core = consistify K I ng W'' (load (save (env K I ng W') a) r).titme
        (setCells (load (save (env K I ng W') a) r).core (perBlock W'' (cell (load (save (env K I ng W') a) r).core)
          fun b p => K.eosP (cell (load (save (env K I ng W') a) r).core b.nblki p))) := by
      unfold resume initDualTime
      split <;> rfl
    have hq : K.eosP (cell (load (save (env K I ng W') a) r).core b.nblki p) = K.eosP (cell u.core b.nblki p) := by
      apply hK.eosP
      funext l
      have e := congrArg Cl.q (hau.cells r1 b1 hb1 p (Or.inl (by rw [hd1]; exact hp)))
      rw [add_zero, e1] at e
      exact (load_cell (K := K) (I := I) h'' h' hb'' a r hbo hp l).1.trans (congrFun e l)
    have h2 := ht r2 b2 hb2 p (by rw [hd2]; exact hp)
    rw [e2] at h2
    rw [hc, add_zero, consistify_inside hng h'' hQ _ _ hbo hp, cell_setCells, perBlock_eq h''.conn hbo, hq]
    exact h2
  have hfull := settled_full hng h'' h hb hK hI hE hF hP hz.settled hu.settled hcell hz.frozen hu.frozen
  -- clocks and older levels
  have hnrt : (resume K I ng W'' (save (env K I ng W') a) r).nrt = u.nrt := by
    rw [← hau.nrt]; unfold resume initDualTime; split <;> rfl
  have htme : (resume K I ng W'' (save (env K I ng W') a) r).tme = u.tme := by
    rw [← hau.tme]; unfold resume initDualTime; split <;> rfl
  have hQ0 : E0 W'' id (fun _ => 0) (resume K I ng W'' (save (env K I ng W') a) r).core.Q u.core.Q := fun rk b hbo p hp l =>
    congrFun (congrArg Cl.Q (hcell rk b hbo p (Or.inl hp))) l
  have hold : J = .dualTime → E0 W'' id (fun _ => 0) (resume K I ng W'' (save (env K I ng W') a) r).Qnm1 u.Qnm1 := by
    intro hJ
    by_cases h0 : u.nrt = 0
    · rw [hz.first hJ (hnrt.trans h0), hu.first hJ h0]; exact hQ0
    · intro rk b hbo p hp l
      obtain ⟨r1, b1, hb1, e1, hd1, -⟩ := hb''.there rk b hbo
      have e := hau.old hJ r1 b1 hb1 p (by rw [hd1]; exact hp) l
      rw [e1] at e
      rw [← e]
      have h1 : (resume K I ng W'' (save (env K I ng W') a) r).Qnm1 (b.nblki, p, l) =
          ((save (env K I ng W') a).qnm1 (b.nblki, p, l)).getD (r.Qnm1 (b.nblki, p, l)) := by
        unfold resume initDualTime
        rw [if_pos (show (doConsistify (env K I ng W'') { load (save (env K I ng W') a) r with
          core := setCells (load (save (env K I ng W') a) r).core (perBlock W'' (cell (load (save (env K I ng W') a) r).core)
          fun b p => K.eosP (cell (load (save (env K I ng W') a) r).core b.nblki p)) }).nrt ≠ 0 from by
            show a.nrt ≠ 0; rw [hau.nrt]; exact h0)]
        rfl
      rw [h1, (load_cell (K := K) (I := I) h'' h' hb'' a r hbo hp l).2]
      rfl
  generalize resume K I ng W'' (save (env K I ng W') a) r = z at *
  -- a state with the stage storage of `z` and everything else of `u`
  obtain ⟨v, hv⟩ : ∃ v : St Entry (Aux S), v = { z with
    core := u.core, nrt := u.nrt, tme := u.tme
    Qn := if J = .dualTime then u.Qn else z.Qn
    Qnm1 := if J = .dualTime then u.Qnm1 else z.Qnm1 } := ⟨_, rfl⟩
  have hvu : Alike J v u := by
    subst hv
    exact ⟨rfl, rfl, rfl, fun hJ => ⟨if_pos hJ, if_pos hJ⟩⟩
  have hrel : Rel ng W'' id (fun _ => 0) I z v := by
    have self : ∀ X : Entry → ℝ, E0 W'' id (fun _ => 0) X X := fun X rk b hbo p hp l => by rw [add_zero]; rfl
    subst hv
    refine ⟨hfull, ⟨self _, self _, self _, self _, ?_, ?_, self _, fun rk b hbo p hp l => by rw [add_zero]; rfl, hnrt, htme, rfl⟩⟩
    · by_cases hJ : J = .dualTime
      · simp only [if_pos hJ]; rw [hz.level hJ, hu.level hJ]; exact hQ0
      · simp only [if_neg hJ]; exact self _
    · by_cases hJ : J = .dualTime
      · simp only [if_pos hJ]; exact hold hJ
      · simp only [if_neg hJ]; exact self _
  have hr := rel_run hng hs hK (h.input hb hI) J (h.needs hb J) (fun _ => hQ) dts hrel
  have hl := run_alike (e := env K I ng W) J dts hvu
  refine ⟨?_, hr.side.nrt.trans hl.nrt, hr.side.tme.trans hl.tme, fun hJ => ?_⟩
  · rw [← hl.core]; exact hr.full.cells.mono (by omega)
  · rw [← (hl.levels hJ).2]; exact hr.side.Qnm1

theorem run_append {ι A : Type} (e : Env ι A) (J : Integrator) (d d' : List ℝ) (s : St ι A) :
    run e J (d ++ d') s = run e J d' (run e J d s) := List.foldl_append ..

theorem launches_alike (hng : 0 < ng) (h : Legal ng W) (hK : LocalKernels ng K) (hQ : EosFromQ K) (hI : LocalBC ng I)
    (hE : SteadyEuler ng I) (J : Integrator) {ph : Nat → Pos → S.P} : ∀ (legs : List (Leg S)) (W' : List (List Block)) (a u : St Entry (Aux S)),
    Legal ng W' → Redistributed W' W → Good K I ng J W ph u → Alike0 J W' a u →
    (∀ g ∈ legs, Legal ng g.world ∧ Redistributed g.world W ∧ FreshEuler ng g.world I ∧ FreshPost ng g.world I ∧ g.new.core.aux.phi = ph) →
    (∀ n, Trips K W (run (env K I ng W) J ((legs.flatMap Leg.dts).take n) u).core) →
    Alike0 J (launches K I ng J W' a legs).1 (launches K I ng J W' a legs).2 (run (env K I ng W) J (legs.flatMap Leg.dts) u)
  | [], W', a, u, _, _, _, hau, _, _ => hau
  | g :: gs, W', a, u, h', hb', hu, hau, hg, ht => by
    obtain ⟨hl, hbl, hF, hP, hph⟩ := hg g (List.mem_cons_self ..)
    subst hph
    have h1 := resume_alike hng hl h' h (hbl.trans hb'.symm).1 hb'.1 hK hQ hI hE hF hP hu hau (ht 0) g.dts
    rw [List.flatMap_cons, run_append]
    refine launches_alike hng h hK hQ hI hE J gs g.world _ _ hl hbl (good_run hng h hK hQ g.dts hu) h1
      (fun g' hg' => hg g' (List.mem_cons_of_mem _ hg')) ?_
    intro n
    have := ht (g.dts.length + n)
    rw [List.flatMap_cons, List.take_length_add_append, run_append] at this
    exact this

/-- C109: start a case, run any number of steps, write a restart, stop, start again from it - on any distribution of the blocks
    over ranks, any number of times. At the end every interior cell holds exactly the conserved and primitive variables, and the
    clocks show the iteration number and time, which one uninterrupted run over the same steps gives. For every legal case,
    kernel selection, integrator (dual time with the older level restored from its own file), step sizes, and contents of the
    newly created solver's arrays (halos, gradients, stage storage). Partial: boundary conditions must be steady and compute
    halos afresh, and at every stop the primitives must give back the conserved state (see `C109_inlet_time_violated`,
    `C109_round_trip_violated`). -/
theorem C109_restarts_partial (hng : 0 < ng) (h : Legal ng W) (hK : LocalKernels ng K) (hQ : EosFromQ K) (hI : LocalBC ng I)
    (hE : SteadyEuler ng I) (J : Integrator) (s : St Entry (Aux S)) (first : List ℝ) (legs : List (Leg S))
    (hlegs : ∀ g ∈ legs, Legal ng g.world ∧ Redistributed g.world W ∧ FreshEuler ng g.world I ∧ FreshPost ng g.world I ∧
      g.new.core.aux.phi = s.core.aux.phi)
    (ht : ∀ n, Trips K W (run (env K I ng W) J ((first ++ legs.flatMap Leg.dts).take n) (bootstrap K I ng W s)).core) :
    let stopped := launches K I ng J W (run (env K I ng W) J first (bootstrap K I ng W s)) legs
    let whole := run (env K I ng W) J (first ++ legs.flatMap Leg.dts) (bootstrap K I ng W s)
    stopped.2.nrt = whole.nrt ∧ stopped.2.tme = whole.tme ∧
    ∀ r b, Owns stopped.1 r b → ∀ p, InBox 0 b.dims p → ∀ l,
      stopped.2.core.Q (b.nblki, p, l) = whole.core.Q (b.nblki, p, l) ∧
      stopped.2.core.q (b.nblki, p, l) = whole.core.q (b.nblki, p, l) := by
  dsimp only
  have hu := good_run (K := K) (I := I) hng h hK hQ first (good_bootstrap hng h hQ J s)
  have self : Alike0 J W (run (env K I ng W) J first (bootstrap K I ng W s)) (run (env K I ng W) J first (bootstrap K I ng W s)) :=
    ⟨fun _ _ _ p _ => by rw [add_zero]; rfl, rfl, rfl, fun _ _ _ _ p _ l => by rw [add_zero]; rfl⟩
  have := launches_alike hng h hK hQ hI hE J legs W _ _ h (.refl W) hu self hlegs (fun n => by
    have := ht (first.length + n)
    rw [List.take_length_add_append, run_append] at this
    exact this)
  rw [run_append]
  refine ⟨this.nrt, this.tme, fun r b hb p hp l => ?_⟩
  have e := this.cells r b hb p (Or.inl hp)
  rw [add_zero] at e
  exact ⟨congrFun (congrArg Cl.Q e) l, congrFun (congrArg Cl.q e) l⟩

end PG.Whole
