import Verif.Config.Start
/-!
C35: theorems.
-/
namespace PG.Config

theorem setup_ok {env : Env} {s : Sel} {r : Solver} : setup env s = .ok r ↔
    ∃ step ng t1 t2 eos trans switch primary ap secondary sgs ch,
      integratorStep s.integrator = .ok step ∧ howManyNG s = .ok ng ∧ eosTables env s = .ok t1 ∧ transTables env s = .ok t2 ∧
      getattr boundThermo s.eos = .ok eos ∧
      transFlux s = .ok trans ∧
      getattrOpt boundSwitch s.switch = .ok switch ∧ getattr boundAdv s.primary = .ok primary ∧ primaryApply s.shock = .ok ap ∧
      secondaryFlux s.shock s.secondary = .ok secondary ∧
      sgsModel s = .ok sgs ∧ chem step s = .ok ch ∧
      r = { stepType := step, ng := ng, tables := t1 ++ t2, eos := eos, trans := trans, switch := switch,
            phiComm := decide (s.switch ≠ .none), primary := primary, applyPrimary := ap, secondary := secondary,
            applySecondary := secondaryApply s.shock, diffusion := truthy s.diffusion, sgs := sgs,
            sponge := truthy s.sponge, expChem := ch.1, impChem := ch.2.1, nChem := ch.2.2 } := by
  unfold setup
  simp only [bind_ok, pure_ok]
  constructor
  · rintro ⟨a, ha, b, hb, c, hc, d, hd, e, he, f, hf, g, hg, h, hh, i, hi, j, hj, k, hk, l, hl, rfl⟩
    exact ⟨a, b, c, d, e, f, g, h, i, j, k, l, ha, hb, hc, hd, he, hf, hg, hh, hi, hj, hk,
      hl, rfl⟩
  · rintro ⟨a, b, c, d, e, f, g, h, i, j, k, l, ha, hb, hc, hd, he, hf, hg, hh, hi, hj, hk, hl, rfl⟩
    exact ⟨a, ha, b, hb, c, hc, d, hd, e, he, f, hf, g, hg, h, hh, i, hi, j, hj, k, hk,
      l, hl, rfl⟩

theorem getattrOpt_ok {l : List String} {v : Val} {o : Option String} :
    getattrOpt l v = .ok o ↔ (v = .none ∧ o = none) ∨ ∃ n ∈ l, v = .str n ∧ o = some n := by
  unfold getattrOpt
  split_ifs with h
  · simp only [Except.ok.injEq, h, true_and, reduceCtorEq, false_and, and_false, exists_false, or_false]
    exact eq_comm
  · rw [bind_ok]
    simp only [h, false_and, false_or, getattr_ok, pure_ok]
    constructor
    · rintro ⟨n, ⟨a, b⟩, rfl⟩; exact ⟨n, b, a, rfl⟩
    · rintro ⟨n, b, a, rfl⟩; exact ⟨n, ⟨a, b⟩, rfl⟩

theorem secondaryFlux_ok {shock sec : Val} {o : Option String} :
    secondaryFlux shock sec = .ok o ↔ (sec = .none ∧ o = none) ∨ (shock ≠ .none ∧ ∃ n ∈ boundAdv, sec = .str n ∧ o = some n) := by
  unfold secondaryFlux
  split_ifs with h1 h2
  · simp only [Except.ok.injEq, h1, true_and, reduceCtorEq, false_and, and_false, exists_false, or_false]
    exact eq_comm
  · simp [h1, h2]
  · rw [bind_ok]
    simp only [h1, false_and, false_or, getattr_ok, pure_ok, ne_eq, h2, not_false_eq_true, true_and]
    constructor
    · rintro ⟨n, ⟨a, b⟩, rfl⟩; exact ⟨n, b, a, rfl⟩
    · rintro ⟨n, b, a, rfl⟩; exact ⟨n, ⟨a, b⟩, rfl⟩

theorem primaryApply_ok {shock : Val} {a : Apply} : primaryApply shock = .ok a ↔
    ((shock = .none ∨ shock = .str "artificialDissipation") ∧ a = .plain) ∨ (shock = .str "hybrid" ∧ a = .hybrid) := by
  unfold primaryApply
  split_ifs with h1 h2
  · rcases h1 with h | h <;> simp [h, eq_comm]
  · simp [h2, eq_comm]
  · push Not at h1
    simp [h1, h2]

/-- C35 (exact): a case starts (validation and solver set-up succeed) exactly for the consistent configurations: a known
    integrator, equation of state and primary scheme, one of the three flux combinations with a known switch, known transport,
    subgrid model and mechanism where used, a time step that is a number, and the species data these need. Every other
    configuration raises an error before the first step. -/
theorem C35_start_exact (env : Env) (s : Sel) : (∃ r, start env s = .ok r) ↔ Startable env s := by
  unfold start
  constructor
  · rintro ⟨r, h⟩
    obtain ⟨s', hv, hs⟩ := bind_ok.1 h
    obtain ⟨⟨dt, hdt, n, hn, rfl⟩, v1, v2, v3, v4, v5, v6, v7, v8, v9⟩ := validate_ok.1 hv
    obtain ⟨step, ng, t1, t2, eos, trans, switch, primary, ap, secondary, sgs, ch, k1, k2, k3, k4, k5, k6, k7, k8, k9, k10, k11,
      k12, -⟩ := setup_ok.1 hs
    dsimp only at k1 k5 k6 k7 k8 k9 k10 k11
    have kint := integrator_ok.1 ⟨_, k1⟩
    obtain ⟨n1, n2, n3⟩ := howManyNG_ok.1 ⟨_, k2⟩
    have n1 := advNG_ok.1 n1
    have n2 := advNG_ok.1 n2
    have n3 := subNG_ok.1 n3
    obtain ⟨e1, e2, e3, e4, e5⟩ := eosTables_ok.1 ⟨_, k3⟩
    dsimp only at n1 n2 n3 e1 e3 e4 e5
    have kc := chem_ok.1 ⟨_, k12⟩
    dsimp only at kc
    have hsw : s.switch = .none ∨ ∃ w ∈ boundSwitch, s.switch = .str w := by
      rcases getattrOpt_ok.1 k7 with ⟨a, -⟩ | ⟨w, b, a, -⟩
      · exact Or.inl a
      · exact Or.inr ⟨w, b, a⟩
    refine ⟨⟨dt, hdt⟩, kint, e1, ?_, ?_, ?_, n3, ?_, ?_, kc, ?_, ?_⟩
    · intro hi
      refine ⟨fun hc => v1 ⟨hi, by rw [hc]; decide⟩, ?_⟩
      by_contra hx
      exact v2 ⟨hi, by simpa using hx⟩
    · rcases n1 with h | h
      · exact absurd h v3
      · exact h
    · by_cases h0 : s.secondary = .none
      · have hs0 : s.shock = .none := by_contra fun hx => v6 ⟨hx, h0⟩
        have hw0 : s.switch = .none := by_contra fun hx => v8 ⟨hx, h0⟩
        exact Or.inl ⟨hs0, h0, hw0⟩
      · have hw : ∃ w ∈ boundSwitch, s.switch = .str w := by
          rcases hsw with h | h
          · exact absurd ⟨h, h0⟩ v7
          · exact h
        have hshock : s.shock ≠ .none := by
          rcases secondaryFlux_ok.1 k10 with ⟨a, -⟩ | ⟨a, -⟩
          · exact absurd a h0
          · exact a
        have hsec : ∃ a ∈ usableAdv, s.secondary = .str a := by
          rcases n2 with h | h
          · exact absurd h h0
          · exact h
        rcases primaryApply_ok.1 k9 with ⟨a | a, -⟩ | ⟨a, -⟩
        · exact absurd a hshock
        · refine Or.inr (Or.inl ⟨a, ?_, hw⟩)
          by_contra hx
          exact v4 ⟨a, by simpa using hx⟩
        · obtain ⟨x, hx, hx'⟩ := hsec
          refine Or.inr (Or.inr ⟨a, ⟨x, hx, ?_, hx'⟩, hw⟩)
          rintro rfl
          exact v5 ⟨a, by rw [hx']; simp⟩
    · intro hd
      unfold transFlux at k6; rw [if_pos hd] at k6
      obtain ⟨n, hn, -⟩ := bind_ok.1 k6
      exact ((trans_ok hd).1 ⟨⟨_, k4⟩, n, hn⟩).1
    · intro hsp
      by_contra hd
      exact v9 ⟨hsp, by simpa using hd⟩
    · revert hn
      cases s.nChem <;> simp [maxOne]
    · refine ⟨e2, e3, e4, e5, fun hd => ?_⟩
      unfold transFlux at k6; rw [if_pos hd] at k6
      obtain ⟨n, hn, -⟩ := bind_ok.1 k6
      exact ((trans_ok hd).1 ⟨⟨_, k4⟩, n, hn⟩).2
  · intro h
    obtain ⟨dt, hdt⟩ := h.dt
    obtain ⟨nn, hnn⟩ : ∃ n, maxOne s.nChem = .ok n := by
      rcases h.nChem with ⟨r, hr⟩ | ⟨b, hb⟩
      · exact ⟨_, by rw [hr]; rfl⟩
      · exact ⟨_, by rw [hb]; rfl⟩
    obtain ⟨pa, hpa, hpa'⟩ := h.primary
    obtain ⟨ee, hee, hee'⟩ := h.eos
    -- consequences of the flux combination
    have hval : ¬ (s.shock = .str "artificialDissipation" ∧ s.secondary ∉ [Val.str "scalarDissipation"]) ∧
        ¬ (s.shock = .str "hybrid" ∧ s.secondary ∈ [Val.str "scalarDissipation"]) ∧
        ¬ (s.shock ≠ .none ∧ s.secondary = .none) ∧
        ¬ (s.switch = .none ∧ s.secondary ≠ .none) ∧ ¬ (s.switch ≠ .none ∧ s.secondary = .none) ∧
        (∃ o, getattrOpt boundSwitch s.switch = .ok o) ∧ (∃ a, primaryApply s.shock = .ok a) ∧
        (∃ o, secondaryFlux s.shock s.secondary = .ok o) ∧ (s.secondary = .none ∨ ∃ a ∈ usableAdv, s.secondary = .str a) := by
      rcases h.fluxes with ⟨a, b, c⟩ | ⟨a, b, w, hw, c⟩ | ⟨a, ⟨x, hx, hne, b⟩, w, hw, c⟩
      · rw [a, b, c]
        refine ⟨by simp, by simp, by simp, by simp, by simp, ⟨_, getattrOpt_ok.2 (Or.inl ⟨rfl, rfl⟩)⟩,
          ⟨_, primaryApply_ok.2 (Or.inl ⟨Or.inl rfl, rfl⟩)⟩, ⟨_, secondaryFlux_ok.2 (Or.inl ⟨rfl, rfl⟩)⟩, Or.inl rfl⟩
      · rw [a, b, c]
        refine ⟨by simp, by simp, by simp, by simp, by simp, ⟨_, getattrOpt_ok.2 (Or.inr ⟨w, hw, rfl, rfl⟩)⟩,
          ⟨_, primaryApply_ok.2 (Or.inl ⟨Or.inr rfl, rfl⟩)⟩,
          ⟨_, secondaryFlux_ok.2 (Or.inr ⟨by simp, _, by decide, rfl, rfl⟩)⟩, Or.inr ⟨_, by decide, rfl⟩⟩
      · rw [a, b, c]
        refine ⟨by simp, by simp [hne], by simp, by simp, by simp, ⟨_, getattrOpt_ok.2 (Or.inr ⟨w, hw, rfl, rfl⟩)⟩,
          ⟨_, primaryApply_ok.2 (Or.inr ⟨rfl, rfl⟩)⟩,
          ⟨_, secondaryFlux_ok.2 (Or.inr ⟨by simp, _, usable_bound hx, rfl, rfl⟩)⟩, Or.inr ⟨_, hx, rfl⟩⟩
    obtain ⟨w1, w2, w3, w4, w5, ⟨o1, w6⟩, ⟨o2, w7⟩, ⟨o3, w8⟩, w9⟩ := hval
    have hv : validate env s = .ok { s with
        saveExtraVars := (if s.saveExtraVars = .none then Val.list [] else s.saveExtraVars), dt := .num dt, nChem := nn } := by
      refine validate_ok.2 ⟨⟨dt, hdt, nn, hnn, rfl⟩, ?_, ?_, ?_, w1, w2, w3, w4, w5, ?_⟩
      · rintro ⟨hi, hne⟩
        have := (h.dual hi).1
        simp only [List.mem_cons, List.not_mem_nil, or_false] at hee
        rcases hee with rfl | rfl | rfl
        · exact hne (by rw [hee']; simp)
        · exact hne (by rw [hee']; simp)
        · exact this hee'
      · rintro ⟨hi, ht⟩
        rw [(h.dual hi).2] at ht; exact absurd ht (by simp)
      · rw [hpa']; simp
      · rintro ⟨a, b⟩
        rw [h.sponge a] at b; exact absurd b (by simp)
    set s' : Sel := { s with
        saveExtraVars := (if s.saveExtraVars = .none then Val.list [] else s.saveExtraVars), dt := .num dt, nChem := nn } with hs'
    obtain ⟨step, hstep⟩ := (integrator_ok (v := s'.integrator)).2 h.integrator
    obtain ⟨ng, hng⟩ := (howManyNG_ok (s := s')).2 ⟨advNG_ok.2 (Or.inr h.primary), advNG_ok.2 w9, subNG_ok.2 h.subgrid⟩
    obtain ⟨t1, ht1⟩ := (eosTables_ok (env := env) (s := s')).2 ⟨h.eos, h.species.1, h.species.2.1, h.species.2.2.1,
      h.species.2.2.2.1⟩
    obtain ⟨ch, hch⟩ := (chem_ok (step := step) (s := s')).2 h.chemistry
    have heos : getattr boundThermo s'.eos = .ok ee := by
      refine getattr_ok.2 ⟨hee', ?_⟩
      simp only [List.mem_cons, List.not_mem_nil, or_false] at hee
      rcases hee with rfl | rfl | rfl <;> decide
    obtain ⟨t2, tr, ht2, htr⟩ : ∃ t2 tr, transTables env s' = .ok t2 ∧
        transFlux s' = .ok tr := by
      by_cases hd : truthy s'.diffusion = true
      · obtain ⟨⟨t2, ht2⟩, n, hn⟩ := (trans_ok (env := env) (s := s') hd).2 ⟨h.trans hd, h.species.2.2.2.2 hd⟩
        exact ⟨t2, some n, ht2, by unfold transFlux; rw [if_pos hd]; exact bind_ok.2 ⟨n, hn, rfl⟩⟩
      · exact ⟨[], none, by unfold transTables; rw [if_neg hd], by unfold transFlux; rw [if_neg hd]⟩
    obtain ⟨sg, hsg⟩ : ∃ sg, sgsModel s' = .ok sg := by
      unfold sgsModel
      by_cases hd : truthy s'.diffusion = true
      · rw [if_pos hd]
        rcases h.subgrid with a | ⟨g, hg, a⟩
        · exact ⟨_, getattrOpt_ok.2 (Or.inl ⟨a, rfl⟩)⟩
        · exact ⟨_, getattrOpt_ok.2 (Or.inr ⟨g, hg, a, rfl⟩)⟩
      · exact ⟨none, by rw [if_neg hd]⟩
    exact ⟨_, bind_ok.2 ⟨s', hv, setup_ok.2 ⟨step, ng, t1, t2, ee, tr, o1, pa, o2, o3, sg, ch, hstep, hng, ht1, ht2, heos, htr,
      w6, getattr_ok.2 ⟨hpa', usable_bound hpa⟩, w7, w8, hsg, hch, rfl⟩⟩⟩

/-! ### examples -/

/-- the entries of the default configuration -/
def dflt : Sel := ⟨.list [], .str "rk3", .num (1/1000), .bool false, .none, .str "KEPaEC", .none, .none, .bool false, .none,
  .str "cpg", .str "constantProps", .bool false, .none, .num 1, .bool false⟩

example : Sel.read fresh = .ok dflt := rfl

/-- species known completely -/
def allKnown (ns : ℕ) : Env := ⟨fun _ => none, ns, fun _ => true⟩

/-- a viscous hybrid case with dense gas and chemistry -/
def rich : Sel := ⟨.none, .str "strang", .num (1/1000), .bool true, .str "hybrid", .str "fourthOrderKEEP", .str "muscl2hllc",
  .str "vanLeer", .bool true, .str "mixedScaleModel", .str "cubic", .str "chungDenseGasUnityLewis", .bool true,
  .str "chem_CH4_O2_FFCMY", .num 4, .bool true⟩

example : (∃ r, start (allKnown 1) dflt = .ok r) ∧ (∃ r, start (allKnown 12) rich = .ok r) := ⟨⟨_, rfl⟩, ⟨_, rfl⟩⟩
example : Startable (allKnown 12) rich := (C35_start_exact _ _).1 ⟨_, rfl⟩
/-- and a rejected one: hybrid with an unknown switch -/
example : ¬ Startable (allKnown 12) { rich with switch := .str "ducros" } := fun h => by
  obtain ⟨r, hr⟩ := (C35_start_exact _ _).2 h
  cases hr

/-! ### the solver that starts -/

/-- C35 (what is set up): in a started case the functions called in each step are those the configuration names and fit
    together: the primary flux is applied in full when there is no shock handling or artificial dissipation, and through the
    switch when hybrid; a secondary flux exists exactly when there is shock handling, enters as dissipation or through the
    switch accordingly, and then the switch is computed and exchanged between blocks; transport is computed exactly when
    diffusion is solved; chemistry acts exactly once per step, in the residual for unsplit integrators and in the split
    sub-step otherwise. -/
theorem C35_solver (env : Env) (s : Sel) (r : Solver) (h : start env s = .ok r) :
    s.primary = .str r.primary ∧ s.eos = .str r.eos ∧ 1 ≤ r.ng ∧
    ((s.shock = .none ∧ r.applyPrimary = .plain ∧ r.secondary = none ∧ r.applySecondary = none ∧ r.switch = none ∧
        r.phiComm = false) ∨
     (s.shock = .str "artificialDissipation" ∧ r.applyPrimary = .plain ∧ r.secondary = some "scalarDissipation" ∧
        r.applySecondary = some .dissipation ∧ (∃ w, s.switch = .str w ∧ r.switch = some w) ∧ r.phiComm = true) ∨
     (s.shock = .str "hybrid" ∧ r.applyPrimary = .hybrid ∧
        (∃ a, s.secondary = .str a ∧ a ≠ "scalarDissipation" ∧ r.secondary = some a) ∧ r.applySecondary = some .hybrid ∧
        (∃ w, s.switch = .str w ∧ r.switch = some w) ∧ r.phiComm = true)) ∧
    r.diffusion = truthy s.diffusion ∧
    (r.diffusion = true → ∃ t, s.trans = .str t ∧ r.trans = some t) ∧ (r.diffusion = false → r.trans = none ∧ r.sgs = none) ∧
    (r.diffusion = true → (s.subgrid = .none ∧ r.sgs = none) ∨ ∃ g, s.subgrid = .str g ∧ r.sgs = some g) ∧
    (r.sponge = true → r.diffusion = true) ∧
    (truthy s.chemistry = false → r.expChem = none ∧ r.impChem = none) ∧
    (truthy s.chemistry = true → ∃ m, s.mechanism = .str m ∧
      ((r.stepType ≠ "split" ∧ r.expChem = some m ∧ r.impChem = none) ∨
       (r.stepType = "split" ∧ r.expChem = none ∧ r.impChem = some m))) := by
  have hst := (C35_start_exact env s).1 ⟨r, h⟩
  unfold start at h
  obtain ⟨s', hv, hs⟩ := bind_ok.1 h
  obtain ⟨⟨dt, hdt, n, hn, rfl⟩, v1, v2, v3, v4, v5, v6, v7, v8, v9⟩ := validate_ok.1 hv
  obtain ⟨step, ng, t1, t2, eos, trans, switch, primary, ap, secondary, sgs, ch, k1, k2, k3, k4, k5, k6, k7, k8, k9, k10, k11,
    k12, rfl⟩ := setup_ok.1 hs
  dsimp only at k1 k5 k6 k7 k8 k9 k10 k11 ⊢
  refine ⟨(getattr_ok.1 k8).1, (getattr_ok.1 k5).1, ?_, ?_, rfl, ?_, ?_, ?_, hst.sponge, ?_, ?_⟩
  · unfold howManyNG at k2
    simp only [bind_ok, pure_ok] at k2
    obtain ⟨a, -, b, -, c, -, rfl⟩ := k2
    omega
  · rcases hst.fluxes with ⟨a, b, c⟩ | ⟨a, b, w, hw, c⟩ | ⟨a, ⟨x, hx, hne, b⟩, w, hw, c⟩
    · rw [a] at k9 k10 ⊢; rw [b] at k10; rw [c] at k7 ⊢
      cases k9; cases k10; cases k7
      exact Or.inl ⟨rfl, rfl, rfl, rfl, rfl, by simp⟩
    · rw [a] at k9 k10 ⊢; rw [b] at k10; rw [c] at k7 ⊢
      cases k9; cases k10
      rcases getattrOpt_ok.1 k7 with ⟨q, -⟩ | ⟨n, -, q, rfl⟩
      · cases q
      · cases q; exact Or.inr (Or.inl ⟨rfl, rfl, rfl, rfl, ⟨_, rfl, rfl⟩, by simp⟩)
    · rw [a] at k9 k10 ⊢; rw [b] at k10 ⊢; rw [c] at k7 ⊢
      cases k9
      rcases getattrOpt_ok.1 k7 with ⟨q, -⟩ | ⟨n, -, q, rfl⟩
      · cases q
      · cases q
        rcases secondaryFlux_ok.1 k10 with ⟨q, -⟩ | ⟨-, m, -, q, rfl⟩
        · cases q
        · cases q
          exact Or.inr (Or.inr ⟨rfl, rfl, ⟨_, rfl, hne, rfl⟩, rfl, ⟨_, rfl, rfl⟩, by simp⟩)
  · intro hd
    unfold transFlux at k6; rw [if_pos hd] at k6
    obtain ⟨t, ht, h⟩ := bind_ok.1 k6
    exact ⟨t, (getattr_ok.1 ht).1, (pure_ok.1 h).symm⟩
  · intro hd
    unfold transFlux at k6; unfold sgsModel at k11; dsimp only at k6 k11; rw [if_neg (by simp [hd])] at k6 k11
    cases k6; cases k11
    exact ⟨rfl, rfl⟩
  · intro hd
    unfold sgsModel at k11; rw [if_pos hd] at k11
    rcases getattrOpt_ok.1 k11 with ⟨q, rfl⟩ | ⟨g, -, q, rfl⟩
    · exact Or.inl ⟨q, rfl⟩
    · exact Or.inr ⟨g, q, rfl⟩
  · intro hc
    unfold chem at k12
    rw [if_neg (by simp [hc])] at k12
    cases k12; exact ⟨rfl, rfl⟩
  · intro hc
    unfold chem at k12
    dsimp only at k12
    rw [if_pos hc] at k12
    obtain ⟨m, hm, h⟩ := bind_ok.1 k12
    refine ⟨m, (getattr_ok.1 hm).1, ?_⟩
    by_cases hsp : step = "split"
    · rw [if_pos hsp] at h
      have := pure_ok.1 h
      subst this
      exact Or.inr ⟨hsp, rfl, rfl⟩
    · rw [if_neg hsp] at h
      have := pure_ok.1 h
      subst this
      exact Or.inl ⟨hsp, rfl, rfl⟩

/-! ### species tables during the run -/

/-- C35 (no late failure, partial): in a started case every species table read during the run by the equation of state, the
    transport model and the chemistry was allocated, exactly when the dense-gas transport model is used only with the cubic
    equation of state and chemistry is not used with a calorically perfect gas. Neither condition is checked at start. -/
theorem C35_tables_partial (env : Env) (s : Sel) (r : Solver) (h : start env s = .ok r) :
    (∀ t ∈ runReads r, t ∈ r.tables) ↔
    (r.diffusion = true → s.trans = .str "chungDenseGasUnityLewis" → s.eos = .str "cubic") ∧
    (truthy s.chemistry = true → s.eos ≠ .str "cpg") := by
  have hsol := C35_solver env s r h
  have hst := (C35_start_exact env s).1 ⟨r, h⟩
  obtain ⟨-, he, -, -, hdf, htr, hnt, -, -, hc0, hc1⟩ := hsol
  -- the allocated tables
  obtain ⟨t1, t2, ht, ht1, ht2⟩ : ∃ t1 t2, r.tables = t1 ++ t2 ∧
      ((s.eos = .str "cpg" → t1 = ["MW", "cp0"]) ∧ (s.eos = .str "tpg" → t1 = ["MW", "NASA7"]) ∧
        (s.eos = .str "cubic" → t1 = ["MW", "NASA7", "Tcrit", "pcrit", "Vcrit", "acentric"])) ∧
      ((r.diffusion = false → t2 = []) ∧ (r.diffusion = true →
        (s.trans = .str "constantProps" → t2 = ["mu0", "kappa0"]) ∧
        (s.trans = .str "chungDenseGasUnityLewis" → t2 = ["chungA", "chungB", "redDipole"]) ∧
        (s.trans = .str "kineticTheory" ∨ s.trans = .str "kineticTheoryUnityLewis" → t2 = ["muPoly", "kappaPoly", "DijPoly"]))) := by
    unfold start at h
    obtain ⟨s', hv, hs⟩ := bind_ok.1 h
    obtain ⟨⟨dt, hdt, n, hn, rfl⟩, -⟩ := validate_ok.1 hv
    obtain ⟨step, ng, t1, t2, eos, trans, switch, primary, ap, secondary, sgs, ch, k1, k2, k3, k4, k5, k6, k7, k8, k9, k10, k11,
      k12, rfl⟩ := setup_ok.1 hs
    refine ⟨t1, t2, rfl, eosTables_eq k3, ?_, ?_⟩
    · intro hd
      unfold transTables at k4
      dsimp only at k4 hd
      rw [if_neg (by simp [hd])] at k4
      cases k4; rfl
    · intro hd
      obtain ⟨n, hb, hs⟩ := hst.trans hd
      rw [transTables_bound (n := n) (by exact hd) (by exact hs) hb] at k4
      refine ⟨fun e => ?_, fun e => ?_, fun e => ?_⟩
      · rw [hs] at e; cases e
        rw [if_pos rfl] at k4
        obtain ⟨_, _, h⟩ := bind_ok.1 k4
        exact (pure_ok.1 h).symm
      · rw [hs] at e; cases e
        rw [if_neg (by decide), if_pos rfl] at k4
        obtain ⟨_, _, h⟩ := bind_ok.1 k4
        exact (pure_ok.1 h).symm
      · have : n = "kineticTheory" ∨ n = "kineticTheoryUnityLewis" := by rw [hs] at e; simpa using e
        rw [if_neg (by rcases this with rfl | rfl <;> decide), if_neg (by rcases this with rfl | rfl <;> decide)] at k4
        obtain ⟨_, _, h⟩ := bind_ok.1 k4
        exact (pure_ok.1 h).symm
  -- chemistry reads
  have hchem : (∀ t ∈ chemReads r.expChem ++ chemReads r.impChem, t ∈ r.tables) ↔
      (truthy s.chemistry = true → "MW" ∈ r.tables ∧ "NASA7" ∈ r.tables) := by
    by_cases hc : truthy s.chemistry = true
    · obtain ⟨m, -, ⟨-, a, b⟩ | ⟨-, a, b⟩⟩ := hc1 hc <;> rw [a, b] <;> simp [chemReads, hc]
    · obtain ⟨a, b⟩ := hc0 (by simpa using hc)
      rw [a, b]; simp [chemReads, hc]
  have hsplit : (∀ t ∈ runReads r, t ∈ r.tables) ↔ (∀ t ∈ eosReads r.eos, t ∈ r.tables) ∧ (∀ t ∈ transReads r.trans, t ∈ r.tables) ∧
      (∀ t ∈ chemReads r.expChem ++ chemReads r.impChem, t ∈ r.tables) := by
    unfold runReads
    simp only [List.mem_append, or_imp, forall_and, and_assoc]
  rw [hsplit, hchem, ht]
  obtain ⟨e, hee, hee'⟩ := hst.eos
  have her : r.eos = e := by rw [he] at hee'; simpa using hee'
  rw [her]
  obtain ⟨h1, h2, h3⟩ := ht1
  have hT2 : ∃ tt : Option String, r.trans = tt ∧ ((r.diffusion = false ∧ tt = none ∧ t2 = []) ∨
      (r.diffusion = true ∧ ((s.trans = .str "constantProps" ∧ tt = some "constantProps" ∧ t2 = ["mu0", "kappa0"]) ∨
      (s.trans = .str "chungDenseGasUnityLewis" ∧ tt = some "chungDenseGasUnityLewis" ∧ t2 = ["chungA", "chungB", "redDipole"]) ∨
      (s.trans = .str "kineticTheory" ∧ tt = some "kineticTheory" ∧ t2 = ["muPoly", "kappaPoly", "DijPoly"]) ∨
      (s.trans = .str "kineticTheoryUnityLewis" ∧ tt = some "kineticTheoryUnityLewis" ∧ t2 = ["muPoly", "kappaPoly", "DijPoly"])))) := by
    refine ⟨_, rfl, ?_⟩
    by_cases hd : r.diffusion = true
    · refine Or.inr ⟨hd, ?_⟩
      obtain ⟨t, hb, hs⟩ := hst.trans (by rw [← hdf]; exact hd)
      obtain ⟨t', a, b⟩ := htr hd
      have : t' = t := by rw [hs] at a; simpa using a.symm
      subst this
      obtain ⟨q1, q2, q3⟩ := ht2.2 hd
      simp only [boundTransport, List.mem_cons, List.not_mem_nil, or_false] at hb
      rcases hb with rfl | rfl | rfl | rfl
      · exact Or.inr (Or.inr (Or.inl ⟨hs, b, q3 (Or.inl hs)⟩))
      · exact Or.inl ⟨hs, b, q1 hs⟩
      · exact Or.inr (Or.inr (Or.inr ⟨hs, b, q3 (Or.inr hs)⟩))
      · exact Or.inr (Or.inl ⟨hs, b, q2 hs⟩)
    · have hd : r.diffusion = false := by simpa using hd
      exact Or.inl ⟨hd, (hnt hd).1, ht2.1 hd⟩
  obtain ⟨tt, htt, hcase⟩ := hT2
  rw [htt]
  simp only [List.mem_cons, List.not_mem_nil, or_false] at hee
  rcases hee with rfl | rfl | rfl
  · have := h1 hee'; subst this
    rcases hcase with ⟨hd, rfl, rfl⟩ | ⟨hd, ⟨hx, rfl, rfl⟩ | ⟨hx, rfl, rfl⟩ | ⟨hx, rfl, rfl⟩ | ⟨hx, rfl, rfl⟩⟩
    · simp [eosReads, transReads, hd, hee']
    all_goals simp [eosReads, transReads, hd, hx, hee']
  · have := h2 hee'; subst this
    rcases hcase with ⟨hd, rfl, rfl⟩ | ⟨hd, ⟨hx, rfl, rfl⟩ | ⟨hx, rfl, rfl⟩ | ⟨hx, rfl, rfl⟩ | ⟨hx, rfl, rfl⟩⟩
    · simp [eosReads, transReads, hd, hee']
    all_goals simp [eosReads, transReads, hd, hx, hee']
  · have := h3 hee'; subst this
    rcases hcase with ⟨hd, rfl, rfl⟩ | ⟨hd, ⟨hx, rfl, rfl⟩ | ⟨hx, rfl, rfl⟩ | ⟨hx, rfl, rfl⟩ | ⟨hx, rfl, rfl⟩⟩
    · simp [eosReads, transReads, hd, hee']
    all_goals simp [eosReads, transReads, hd, hx, hee']

/-- C35, violated: configurations that pass validation but not the set-up (an unknown shock handler, a secondary flux without
    one, the bound scheme ausmPlusUp); and configurations that start although a kernel then reads tables that were never
    allocated (dense-gas transport with tpg, chemistry with cpg) or arrays of another number of species than the case has. -/
theorem C35_violated :
    ((∃ s', validate (allKnown 1) { rich with shock := .str "ducros" } = .ok s') ∧
      ∃ e, start (allKnown 1) { rich with shock := .str "ducros" } = .error e) ∧
    ((∃ s', validate (allKnown 1) { rich with shock := .none } = .ok s') ∧
      ∃ e, start (allKnown 1) { rich with shock := .none } = .error e) ∧
    ("ausmPlusUp" ∈ boundAdv ∧ (∃ s', validate (allKnown 1) { dflt with primary := .str "ausmPlusUp" } = .ok s') ∧
      start (allKnown 1) { dflt with primary := .str "ausmPlusUp" } = .error .key) ∧
    (∃ r, start (allKnown 12) { rich with eos := .str "tpg" } = .ok r ∧ "Tcrit" ∈ runReads r ∧ "Tcrit" ∉ r.tables) ∧
    (∃ r, start (allKnown 12) { rich with eos := .str "cpg", trans := .str "constantProps" } = .ok r ∧ "NASA7" ∈ runReads r ∧
      "NASA7" ∉ r.tables) ∧
    (∃ r, start (allKnown 1) rich = .ok r ∧ r.impChem = some "chem_CH4_O2_FFCMY" ∧ mechNs "chem_CH4_O2_FFCMY" ≠ (allKnown 1).ns) := by
  refine ⟨⟨⟨_, rfl⟩, ⟨_, rfl⟩⟩, ⟨⟨_, rfl⟩, ⟨_, rfl⟩⟩, ⟨by decide, ⟨_, rfl⟩, rfl⟩, ⟨_, rfl, by decide, by decide⟩,
    ⟨_, rfl, by decide, by decide⟩, ⟨_, rfl, rfl, by decide⟩⟩

/-- C35 (switches): entries used as switches are off exactly for `None`, `False`, `0`, the empty text and the empty list -/
theorem C35_switch_values (v : Val) :
    truthy v = false ↔ v = .none ∨ v = .bool false ∨ v = .num 0 ∨ v = .str "" ∨ v = .list [] := by
  cases v <;> simp [truthy]

/-- C35 (what is set up, continued): a started case splits its chemistry off exactly with the strang integrator and steps in
    dual time exactly with dualTime; its number of chemistry sub-steps is a number, the configured one but at least 1, and 1 when
    split chemistry is used. -/
theorem C35_integrator (env : Env) (s : Sel) (r : Solver) (h : start env s = .ok r) :
    (r.stepType = "split" ↔ s.integrator = .str "strang") ∧ (r.stepType = "dualTime" ↔ s.integrator = .str "dualTime") ∧
    ∃ n : ℚ, r.nChem = .num n ∧ 1 ≤ n ∧ (r.stepType = "split" → truthy s.chemistry = true → n = 1) ∧
      (r.stepType ≠ "split" → ∀ m, s.nChem = .num m → 1 ≤ m → n = m) := by
  have hst := (C35_start_exact env s).1 ⟨r, h⟩
  unfold start at h
  obtain ⟨s', hv, hs⟩ := bind_ok.1 h
  obtain ⟨⟨dt, hdt, n, hn, rfl⟩, -⟩ := validate_ok.1 hv
  obtain ⟨step, ng, t1, t2, eos, trans, switch, primary, ap, secondary, sgs, ch, k1, k2, k3, k4, k5, k6, k7, k8, k9, k10, k11,
    k12, rfl⟩ := setup_ok.1 hs
  dsimp only at k1 ⊢
  obtain ⟨q, rfl, hq1, hqm⟩ : ∃ q : ℚ, n = .num q ∧ 1 ≤ q ∧ ∀ m, s.nChem = .num m → 1 ≤ m → q = m := by
    revert hn
    cases hc : s.nChem <;> simp only [maxOne, Except.ok.injEq, reduceCtorEq, IsEmpty.forall_iff]
    · rintro rfl; exact ⟨1, rfl, le_rfl, by simp⟩
    · rintro rfl
      refine ⟨_, rfl, le_max_left _ _, ?_⟩
      intro m hm h1
      cases hm; exact max_eq_right h1
  refine ⟨?_, ?_, ?_⟩
  · obtain ⟨i, hi, hs⟩ := hst.integrator
    rw [hs] at k1 ⊢
    simp only [List.mem_cons, List.not_mem_nil, or_false] at hi
    rcases hi with rfl | rfl | rfl | rfl | rfl | rfl | rfl | rfl <;> cases k1 <;> simp
  · obtain ⟨i, hi, hs⟩ := hst.integrator
    rw [hs] at k1 ⊢
    simp only [List.mem_cons, List.not_mem_nil, or_false] at hi
    rcases hi with rfl | rfl | rfl | rfl | rfl | rfl | rfl | rfl <;> cases k1 <;> simp
  · unfold chem at k12
    dsimp only at k12
    by_cases hc : truthy s.chemistry = true
    · rw [if_pos hc] at k12
      obtain ⟨m, hm, h⟩ := bind_ok.1 k12
      by_cases hsp : step = "split"
      · rw [if_pos hsp] at h
        have := pure_ok.1 h
        subst this
        dsimp only
        by_cases hl : 1 < q
        · rw [if_pos hl]; exact ⟨1, rfl, le_rfl, fun _ _ => rfl, fun e => absurd hsp e⟩
        · rw [if_neg hl]; exact ⟨q, rfl, hq1, fun _ _ => le_antisymm (not_lt.1 hl) hq1, fun e => absurd hsp e⟩
      · rw [if_neg hsp] at h
        have := pure_ok.1 h
        subst this
        exact ⟨q, rfl, hq1, fun e => absurd e hsp, fun _ => hqm⟩
    · rw [if_neg hc] at k12
      cases k12
      exact ⟨q, rfl, hq1, fun _ e => absurd e hc, fun _ => hqm⟩

end PG.Config
