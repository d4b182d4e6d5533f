import Verif.Config.Dict
/-!
C35: which configurations start, and what the started solver is.
-/
namespace PG.Config

/-! ### specification -/

/-- species data needed at start -/
def SpeciesKnown (env : Env) (s : Sel) : Prop :=
  env.known "MW" = true ∧
  (s.eos = .str "cpg" → env.known "cp0" = true) ∧
  (s.eos = .str "tpg" → env.known "NASA7" = true) ∧
  (s.eos = .str "cubic" → ∀ p ∈ ["NASA7", "Tcrit", "pcrit", "Vcrit", "acentric"], env.known p = true) ∧
  (truthy s.diffusion = true →
    (s.trans = .str "constantProps" → ∀ p ∈ ["mu0", "kappa0"], env.known p = true) ∧
    (s.trans = .str "kineticTheory" ∨ s.trans = .str "kineticTheoryUnityLewis" → ∀ p ∈ kineticProps s.eos, env.known p = true) ∧
    (s.trans = .str "chungDenseGasUnityLewis" → ∀ p ∈ chungProps, env.known p = true))

/-- advective schemes with a known halo depth -/
def usableAdv : List String := ["KEEP", "KEEPpe", "KEPaEC", "centralDifference", "fourthOrderKEEP", "hllc", "rusanov",
  "muscl2hllc", "muscl2rusanov", "scalarDissipation"]

/-- the three admissible ways of combining fluxes -/
def FluxCombination (s : Sel) : Prop :=
  (s.shock = .none ∧ s.secondary = .none ∧ s.switch = .none) ∨
  (s.shock = .str "artificialDissipation" ∧ s.secondary = .str "scalarDissipation" ∧ ∃ w ∈ ["jamesonPressure", "vanAlbadaPressure", "vanLeer"], s.switch = .str w) ∨
  (s.shock = .str "hybrid" ∧ (∃ a ∈ usableAdv, a ≠ "scalarDissipation" ∧ s.secondary = .str a) ∧ ∃ w ∈ ["jamesonPressure", "vanAlbadaPressure", "vanLeer"], s.switch = .str w)

/-- the configurations a case can start with -/
structure Startable (env : Env) (s : Sel) : Prop where
  dt : ∃ r, pyFloat env s.dt = .ok r
  integrator : ∃ i ∈ ["rk1", "rk2", "maccormack", "rk3", "rk34", "rk4", "strang", "dualTime"], s.integrator = .str i
  eos : ∃ e ∈ ["cpg", "tpg", "cubic"], s.eos = .str e
  dual : s.integrator = .str "dualTime" → s.eos ≠ .str "cubic" ∧ truthy s.variableTimeStep = false
  primary : ∃ a ∈ usableAdv, s.primary = .str a
  fluxes : FluxCombination s
  subgrid : s.subgrid = .none ∨ ∃ g ∈ ["mixedScaleModel", "smagorinsky"], s.subgrid = .str g
  trans : truthy s.diffusion = true → ∃ t ∈ ["kineticTheory", "constantProps", "kineticTheoryUnityLewis", "chungDenseGasUnityLewis"], s.trans = .str t
  sponge : truthy s.sponge = true → truthy s.diffusion = true
  chemistry : truthy s.chemistry = true → ∃ m ∈ ["chem_C2H4_Air_Red22", "chem_C2H4_Air_Skeletal", "chem_CH4_O2_FFCMY", "chem_GRI30"], s.mechanism = .str m
  nChem : (∃ r, s.nChem = .num r) ∨ ∃ b, s.nChem = .bool b
  species : SpeciesKnown env s

/-! ### lemmas on the error monad -/

theorem bind_ok {α β : Type} {x : Except Err α} {f : α → Except Err β} {b : β} :
    (x >>= f) = .ok b ↔ ∃ a, x = .ok a ∧ f a = .ok b := by
  cases x with
  | error e => simp [bind, Except.bind]
  | ok a => simp [bind, Except.bind]

theorem raiseIf_ok {p : Prop} [Decidable p] {e : Err} {u : Unit} : raiseIf p e = .ok u ↔ ¬ p := by
  unfold raiseIf; split <;> simp [*]

theorem getattr_ok {l : List String} {v : Val} {n : String} : getattr l v = .ok n ↔ v = .str n ∧ n ∈ l := by
  cases v with
  | str m =>
    unfold getattr
    dsimp only
    split_ifs with h
    · simp only [Except.ok.injEq, Val.str.injEq]
      exact ⟨fun e => ⟨e, e ▸ h⟩, fun e => e.1⟩
    · simp only [Val.str.injEq, reduceCtorEq, false_iff]
      rintro ⟨rfl, h'⟩; exact h h'
  | _ => simp [getattr]

theorem need_ok {env : Env} {ps : List String} {u : Unit} : need env ps = .ok u ↔ ∀ p ∈ ps, env.known p = true := by
  unfold need
  split_ifs with h
  · exact ⟨fun _ => h, fun _ => rfl⟩
  · exact ⟨fun e => (nomatch e), fun e => absurd e h⟩

theorem pure_ok {α : Type} {a b : α} : (pure a : Except Err α) = .ok b ↔ a = b := by
  simp [pure, Except.pure]

/-- what validation accepts and returns -/
theorem validate_ok {env : Env} {s s' : Sel} : validate env s = .ok s' ↔
    (∃ r, pyFloat env s.dt = .ok r ∧ ∃ n, maxOne s.nChem = .ok n ∧
      s' = { s with saveExtraVars := (if s.saveExtraVars = .none then Val.list [] else s.saveExtraVars), dt := .num r, nChem := n }) ∧
    ¬ (s.integrator = .str "dualTime" ∧ s.eos ∉ [Val.str "cpg", Val.str "tpg"]) ∧
    ¬ (s.integrator = .str "dualTime" ∧ truthy s.variableTimeStep = true) ∧
    s.primary ≠ .none ∧
    ¬ (s.shock = .str "artificialDissipation" ∧ s.secondary ∉ [Val.str "scalarDissipation"]) ∧
    ¬ (s.shock = .str "hybrid" ∧ s.secondary ∈ [Val.str "scalarDissipation"]) ∧
    ¬ (s.shock ≠ .none ∧ s.secondary = .none) ∧
    ¬ (s.switch = .none ∧ s.secondary ≠ .none) ∧ ¬ (s.switch ≠ .none ∧ s.secondary = .none) ∧
    ¬ (truthy s.sponge = true ∧ truthy s.diffusion = false) := by
  unfold validate
  simp only [bind_ok, raiseIf_ok, pure_ok]
  constructor
  · rintro ⟨r, hr, -, h1, -, h2, -, h3, -, h4, -, h5, -, h6, -, h7, -, h8, -, h9, n, hn, rfl⟩
    exact ⟨⟨r, hr, n, hn, rfl⟩, h1, h2, h3, h4, h5, h6, h7, h8, h9⟩
  · rintro ⟨⟨r, hr, n, hn, rfl⟩, h1, h2, h3, h4, h5, h6, h7, h8, h9⟩
    exact ⟨r, hr, (), h1, (), h2, (), h3, (), h4, (), h5, (), h6, (), h7, (), h8, (), h9, n, hn, rfl⟩

theorem integrator_ok {v : Val} : (∃ t, integratorStep v = .ok t) ↔
    ∃ i ∈ ["rk1", "rk2", "maccormack", "rk3", "rk34", "rk4", "strang", "dualTime"], v = .str i := by
  constructor
  · rintro ⟨t, ht⟩
    unfold integratorStep at ht
    split at ht <;> first | (cases ht; done) | simp
  · rintro ⟨i, hi, rfl⟩
    simp only [List.mem_cons, List.not_mem_nil, or_false] at hi
    rcases hi with rfl | rfl | rfl | rfl | rfl | rfl | rfl | rfl <;> exact ⟨_, rfl⟩

theorem advNG_ok {v : Val} : (∃ t, advNG v = .ok t) ↔ v = .none ∨ ∃ a ∈ usableAdv, v = .str a := by
  constructor
  · rintro ⟨t, ht⟩
    unfold advNG at ht
    split at ht <;> first | (cases ht; done) | simp [usableAdv]
  · rintro (rfl | ⟨i, hi, rfl⟩)
    · exact ⟨_, rfl⟩
    · simp only [usableAdv, List.mem_cons, List.not_mem_nil, or_false] at hi
      rcases hi with rfl | rfl | rfl | rfl | rfl | rfl | rfl | rfl | rfl | rfl <;> exact ⟨_, rfl⟩

theorem subNG_ok {v : Val} : (∃ t, subNG v = .ok t) ↔ v = .none ∨ ∃ a ∈ boundSubgrid, v = .str a := by
  constructor
  · rintro ⟨t, ht⟩
    unfold subNG at ht
    split at ht <;> first | (cases ht; done) | simp [boundSubgrid]
  · rintro (rfl | ⟨i, hi, rfl⟩)
    · exact ⟨_, rfl⟩
    · simp only [boundSubgrid, List.mem_cons, List.not_mem_nil, or_false] at hi
      rcases hi with rfl | rfl <;> exact ⟨_, rfl⟩

theorem howManyNG_ok {s : Sel} : (∃ n, howManyNG s = .ok n) ↔
    (∃ a, advNG s.primary = .ok a) ∧ (∃ a, advNG s.secondary = .ok a) ∧ ∃ a, subNG s.subgrid = .ok a := by
  unfold howManyNG
  simp only [bind_ok, pure_ok]
  constructor
  · rintro ⟨n, a, ha, b, hb, c, hc, rfl⟩; exact ⟨⟨a, ha⟩, ⟨b, hb⟩, ⟨c, hc⟩⟩
  · rintro ⟨⟨a, ha⟩, ⟨b, hb⟩, ⟨c, hc⟩⟩; exact ⟨_, a, ha, b, hb, c, hc, rfl⟩

theorem eosTables_ok {env : Env} {s : Sel} : (∃ t, eosTables env s = .ok t) ↔
    (∃ e ∈ ["cpg", "tpg", "cubic"], s.eos = .str e) ∧ env.known "MW" = true ∧
    (s.eos = .str "cpg" → env.known "cp0" = true) ∧ (s.eos = .str "tpg" → env.known "NASA7" = true) ∧
    (s.eos = .str "cubic" → ∀ p ∈ ["NASA7", "Tcrit", "pcrit", "Vcrit", "acentric"], env.known p = true) := by
  unfold eosTables
  simp only [bind_ok, need_ok]
  constructor
  · rintro ⟨t, -, h1, h2⟩
    have hM := h1 "MW" (by simp)
    split_ifs at h2 with a b c
    · obtain ⟨_, h3, -⟩ := bind_ok.1 h2
      rw [need_ok] at h3
      exact ⟨⟨"cpg", by simp, a⟩, hM, fun _ => h3 _ (by simp), fun h => by rw [a] at h; simp at h, fun h => by rw [a] at h; simp at h⟩
    · obtain ⟨_, h3, -⟩ := bind_ok.1 h2
      rw [need_ok] at h3
      exact ⟨⟨"tpg", by simp, b⟩, hM, fun h => absurd h a, fun _ => h3 _ (by simp), fun h => by rw [b] at h; simp at h⟩
    · obtain ⟨_, h3, h4⟩ := bind_ok.1 h2
      obtain ⟨_, h5, -⟩ := bind_ok.1 h4
      rw [need_ok] at h3 h5
      refine ⟨⟨"cubic", by simp, c⟩, hM, fun h => absurd h a, fun h => absurd h b, fun _ p hp => ?_⟩
      rcases List.mem_cons.1 hp with rfl | hp
      · exact h3 _ (by simp)
      · exact h5 _ hp
  · rintro ⟨⟨e, he, hs⟩, hM, h1, h2, h3⟩
    simp only [List.mem_cons, List.not_mem_nil, or_false] at he
    rcases he with rfl | rfl | rfl
    · refine ⟨["MW", "cp0"], (), by simpa using hM, ?_⟩
      rw [if_pos hs, bind_ok]
      exact ⟨(), need_ok.2 (by simpa using h1 hs), rfl⟩
    · refine ⟨["MW", "NASA7"], (), by simpa using hM, ?_⟩
      rw [if_neg (by rw [hs]; simp), if_pos hs, bind_ok]
      exact ⟨(), need_ok.2 (by simpa using h2 hs), rfl⟩
    · refine ⟨["MW", "NASA7", "Tcrit", "pcrit", "Vcrit", "acentric"], (), by simpa using hM, ?_⟩
      rw [if_neg (by rw [hs]; simp), if_neg (by rw [hs]; simp), if_pos hs, bind_ok]
      refine ⟨(), need_ok.2 fun p hp => h3 hs p ?_, bind_ok.2 ⟨(), need_ok.2 fun p hp => h3 hs p ?_, rfl⟩⟩
      · simp at hp; simp [hp]
      · exact List.mem_cons_of_mem _ hp

/-- tables allocated for a usable equation of state -/
theorem eosTables_eq {env : Env} {s : Sel} {t : List String} (h : eosTables env s = .ok t) :
    (s.eos = .str "cpg" → t = ["MW", "cp0"]) ∧ (s.eos = .str "tpg" → t = ["MW", "NASA7"]) ∧
    (s.eos = .str "cubic" → t = ["MW", "NASA7", "Tcrit", "pcrit", "Vcrit", "acentric"]) := by
  unfold eosTables at h
  obtain ⟨_, _, h⟩ := bind_ok.1 h
  refine ⟨fun e => ?_, fun e => ?_, fun e => ?_⟩
  · rw [if_pos e] at h
    obtain ⟨_, _, h⟩ := bind_ok.1 h
    exact (pure_ok.1 h).symm
  · rw [if_neg (by rw [e]; simp), if_pos e] at h
    obtain ⟨_, _, h⟩ := bind_ok.1 h
    exact (pure_ok.1 h).symm
  · rw [if_neg (by rw [e]; simp), if_neg (by rw [e]; simp), if_pos e] at h
    obtain ⟨_, _, h⟩ := bind_ok.1 h
    obtain ⟨_, _, h⟩ := bind_ok.1 h
    exact (pure_ok.1 h).symm

theorem sub1 : hasSub "kineticTheory" "kineticTheory" := by decide
theorem sub2 : hasSub "kineticTheory" "kineticTheoryUnityLewis" := by decide
theorem sub3 : ¬ hasSub "kineticTheory" "constantProps" := by decide
theorem sub4 : ¬ hasSub "kineticTheory" "chungDenseGasUnityLewis" := by decide
theorem sub5 : hasSub "chungDenseGas" "chungDenseGasUnityLewis" := by decide

/-- transport tables of a bound transport model -/
theorem transTables_bound {env : Env} {s : Sel} {n : String} (hd : truthy s.diffusion = true) (hs : s.trans = .str n)
    (hn : n ∈ boundTransport) :
    transTables env s =
      if n = "constantProps" then (do need env ["mu0", "kappa0"]; return ["mu0", "kappa0"])
      else if n = "chungDenseGasUnityLewis" then (do need env chungProps; return ["chungA", "chungB", "redDipole"])
      else (do need env (kineticProps s.eos); return ["muPoly", "kappaPoly", "DijPoly"]) := by
  unfold transTables
  rw [if_pos hd, hs]
  simp only [boundTransport, List.mem_cons, List.not_mem_nil, or_false] at hn
  rcases hn with rfl | rfl | rfl | rfl
  · simp [sub1]
  · simp [sub3]
  · simp [sub2]
  · simp [sub4, sub5]

theorem trans_ok {env : Env} {s : Sel} (hd : truthy s.diffusion = true) :
    ((∃ t, transTables env s = .ok t) ∧ ∃ n, getattr boundTransport s.trans = .ok n) ↔
    (∃ t ∈ boundTransport, s.trans = .str t) ∧
    (s.trans = .str "constantProps" → ∀ p ∈ ["mu0", "kappa0"], env.known p = true) ∧
    (s.trans = .str "kineticTheory" ∨ s.trans = .str "kineticTheoryUnityLewis" → ∀ p ∈ kineticProps s.eos, env.known p = true) ∧
    (s.trans = .str "chungDenseGasUnityLewis" → ∀ p ∈ chungProps, env.known p = true) := by
  constructor
  · rintro ⟨⟨t, ht⟩, n, hn⟩
    obtain ⟨hs, hb⟩ := getattr_ok.1 hn
    rw [transTables_bound hd hs hb] at ht
    refine ⟨⟨n, hb, hs⟩, fun h => ?_, fun h => ?_, fun h => ?_⟩
    · rw [hs] at h; cases h
      rw [if_pos rfl] at ht
      obtain ⟨_, h, -⟩ := bind_ok.1 ht
      exact need_ok.1 h
    · have : n = "kineticTheory" ∨ n = "kineticTheoryUnityLewis" := by rw [hs] at h; simpa using h
      rw [if_neg (by rcases this with rfl | rfl <;> decide), if_neg (by rcases this with rfl | rfl <;> decide)] at ht
      obtain ⟨_, h, -⟩ := bind_ok.1 ht
      exact need_ok.1 h
    · rw [hs] at h; cases h
      rw [if_neg (by decide), if_pos rfl] at ht
      obtain ⟨_, h, -⟩ := bind_ok.1 ht
      exact need_ok.1 h
  · rintro ⟨⟨n, hb, hs⟩, h1, h2, h3⟩
    refine ⟨?_, n, getattr_ok.2 ⟨hs, hb⟩⟩
    rw [transTables_bound hd hs hb]
    split_ifs with a b
    · subst a; exact ⟨_, bind_ok.2 ⟨(), need_ok.2 (h1 hs), rfl⟩⟩
    · subst b; exact ⟨_, bind_ok.2 ⟨(), need_ok.2 (h3 hs), rfl⟩⟩
    · refine ⟨_, bind_ok.2 ⟨(), need_ok.2 (h2 ?_), rfl⟩⟩
      simp only [boundTransport, List.mem_cons, List.not_mem_nil, or_false] at hb
      rcases hb with rfl | rfl | rfl | rfl
      · exact Or.inl hs
      · exact absurd rfl a
      · exact Or.inr hs
      · exact absurd rfl b

theorem chem_ok {step : String} {s : Sel} :
    (∃ r, chem step s = .ok r) ↔ (truthy s.chemistry = true → ∃ m ∈ boundChem, s.mechanism = .str m) := by
  by_cases h : truthy s.chemistry = true
  · constructor
    · rintro ⟨r, hr⟩ _
      unfold chem at hr
      rw [if_pos h] at hr
      obtain ⟨m, hm, _⟩ := bind_ok.1 hr
      obtain ⟨a, b⟩ := getattr_ok.1 hm
      exact ⟨m, b, a⟩
    · intro hx
      obtain ⟨m, a, b⟩ := hx h
      unfold chem
      rw [if_pos h]
      by_cases h2 : step = "split"
      · exact ⟨_, bind_ok.2 ⟨m, getattr_ok.2 ⟨b, a⟩, by rw [if_pos h2]; rfl⟩⟩
      · exact ⟨_, bind_ok.2 ⟨m, getattr_ok.2 ⟨b, a⟩, by rw [if_neg h2]; rfl⟩⟩
  · exact ⟨fun _ hc => absurd hc h, fun _ => ⟨_, by unfold chem; rw [if_neg h]⟩⟩

theorem usable_bound {a : String} (h : a ∈ usableAdv) : a ∈ boundAdv := by
  simp only [usableAdv, List.mem_cons, List.not_mem_nil, or_false] at h
  rcases h with rfl | rfl | rfl | rfl | rfl | rfl | rfl | rfl | rfl | rfl <;> decide

end PG.Config
