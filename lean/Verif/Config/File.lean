import Verif.Config.Dict
import Mathlib.Algebra.Order.Field.Rat
import Mathlib.Tactic.NormNum
/-!
C95: configuration files. `writers/writeConfigFile.py`, `readers/readConfigFile.py`, and how PyYAML takes numbers.

The YAML library itself is not modelled beyond two facts about it: a document of scalars and lists of names that it dumped it
loads unchanged (a hypothesis of `C95_round_trip`), and which plain scalars it takes for numbers (`yaml`, from
`yaml/resolver.py` of PyYAML).
-/
namespace PG.Config

/-! ### writing -/

/-- `writeConfigFile` (writeConfigFile.py:31-35): every entry of every section; the order is that of the constructor
    (configFile.py:20-90), `dict` keeps it -/
def writeDoc (c : Cfg) : List (String × String × Val) :=
  defaults.flatMap fun s => s.2.filterMap fun k => match get c s.1 k.1 with
    | .ok v => some (s.1, k.1, v)
    | .error _ => none

/-! ### reading -/

/-- the assignments made by `validateConfig` (configFile.py:104-105, 113, 184-186) -/
def normal (s : Sel) : List (String × String × Val) :=
  [("io", "saveExtraVars", s.saveExtraVars), ("timeIntegration", "dt", s.dt), ("thermochem", "nChemSubSteps", s.nChem)]

/-- `readConfigFile` (readConfigFile.py:24-32), from the loaded document -/
def readConfig (env : Env) (doc : List (String × String × Val)) : Except Err Cfg := do
  let c ← fill fresh doc
  let s ← Sel.read c
  let s' ← validate env s
  fill c (normal s')

/-! ### lemmas -/

theorem readConfig_of {env : Env} {doc : List (String × String × Val)} {c0 c : Cfg} {s0 s1 : Sel} (h1 : fill fresh doc = .ok c0)
    (h2 : Sel.read c0 = .ok s0) (h3 : validate env s0 = .ok s1) (h4 : fill c0 (normal s1) = .ok c) : readConfig env doc = .ok c := by
  unfold readConfig
  simp only [bind, Except.bind, h1, h2, h3, h4]

theorem raiseIf_passed {p : Prop} [Decidable p] {e : Err} {u : Unit} (h : raiseIf p e = .ok u) : ¬ p := by
  unfold raiseIf at h
  split at h
  · cases h
  · assumption

/-- what a successful validation returns -/
theorem validate_accepted {env : Env} {s s' : Sel} (h : validate env s = .ok s') :
    ∃ dt n, s' = { s with saveExtraVars := if s.saveExtraVars = .none then .list [] else s.saveExtraVars, dt := .num dt, nChem := n } ∧
      pyFloat env s.dt = .ok dt ∧ maxOne s.nChem = .ok n ∧
      ¬ (s.integrator = .str "dualTime" ∧ s.eos ∉ [Val.str "cpg", Val.str "tpg"]) ∧
      ¬ (s.integrator = .str "dualTime" ∧ truthy s.variableTimeStep = true) ∧ ¬ (s.primary = .none) ∧
      ¬ (s.shock = .str "artificialDissipation" ∧ s.secondary ∉ [Val.str "scalarDissipation"]) ∧
      ¬ (s.shock = .str "hybrid" ∧ s.secondary ∈ [Val.str "scalarDissipation"]) ∧
      ¬ (s.shock ≠ .none ∧ s.secondary = .none) ∧ ¬ (s.switch = .none ∧ s.secondary ≠ .none) ∧
      ¬ (s.switch ≠ .none ∧ s.secondary = .none) ∧ ¬ (truthy s.sponge = true ∧ truthy s.diffusion = false) := by
  unfold validate at h
  cases h1 : pyFloat env s.dt with
  | error e => rw [h1] at h; cases h
  | ok dt =>
  rw [h1] at h
  simp only [bind, Except.bind, pure, Except.pure] at h
  split at h; · cases h
  rename_i a1; have a1 := raiseIf_passed a1
  split at h; · cases h
  rename_i a2; have a2 := raiseIf_passed a2
  split at h; · cases h
  rename_i a3; have a3 := raiseIf_passed a3
  split at h; · cases h
  rename_i a4; have a4 := raiseIf_passed a4
  split at h; · cases h
  rename_i a5; have a5 := raiseIf_passed a5
  split at h; · cases h
  rename_i a6; have a6 := raiseIf_passed a6
  split at h; · cases h
  rename_i a7; have a7 := raiseIf_passed a7
  split at h; · cases h
  rename_i a8; have a8 := raiseIf_passed a8
  split at h; · cases h
  rename_i a9; have a9 := raiseIf_passed a9
  split at h; · cases h
  rename_i n hn
  cases h
  exact ⟨dt, n, rfl, rfl, hn, a1, a2, a3, a4, a5, a6, a7, a8, a9⟩

/-- validating twice changes nothing -/
theorem validate_idem {env : Env} {s s' : Sel} (h : validate env s = .ok s') : validate env s' = .ok s' := by
  obtain ⟨dt, n, rfl, hd, hn, a1, a2, a3, a4, a5, a6, a7, a8, a9⟩ := validate_accepted h
  have hn' : maxOne n = .ok n := by
    unfold maxOne at hn
    split at hn
    · cases hn; simp [maxOne]
    · cases hn; simp [maxOne]
    · cases hn
  unfold validate raiseIf
  dsimp only
  simp only [pyFloat, if_neg a1, if_neg a2, if_neg a3, if_neg a4, if_neg a5, if_neg a6, if_neg a7, if_neg a8, if_neg a9, hn']
  simp only [bind, Except.bind, pure, Except.pure]
  congr 2
  split_ifs <;> simp_all

theorem lastIn_mem {doc : List (String × String × Val)} {s k : String} {v : Val} (h : lastIn doc s k = some v) : (s, k, v) ∈ doc := by
  induction doc with
  | nil => cases h
  | cons e r ih =>
    obtain ⟨a, b, w⟩ := e
    rw [lastIn_cons] at h
    cases hr : lastIn r s k with
    | some x =>
      rw [hr] at h
      cases h
      exact List.mem_cons_of_mem _ (ih hr)
    | none =>
      rw [hr] at h
      dsimp only at h
      split at h
      · rename_i he; cases he; cases h; exact List.mem_cons_self
      · cases h

theorem lastIn_none {doc : List (String × String × Val)} {s k : String} (h : lastIn doc s k = none) : ∀ v, (s, k, v) ∉ doc := by
  induction doc with
  | nil => intro v hv; cases hv
  | cons e r ih =>
    obtain ⟨a, b, w⟩ := e
    rw [lastIn_cons] at h
    cases hr : lastIn r s k with
    | some x => rw [hr] at h; cases h
    | none =>
      rw [hr] at h
      dsimp only at h
      split at h
      · cases h
      · rename_i hne
        intro v hv
        rcases List.mem_cons.mp hv with he | hv
        · cases he; exact hne rfl
        · exact ih hr v hv

theorem mem_writeDoc {c : Cfg} {s k : String} {v : Val} :
    (s, k, v) ∈ writeDoc c ↔ (∃ kvs, (s, kvs) ∈ defaults ∧ ∃ w, (k, w) ∈ kvs) ∧ get c s k = .ok v := by
  unfold writeDoc
  simp only [List.mem_flatMap, List.mem_filterMap]
  constructor
  · rintro ⟨⟨s', kvs⟩, hs, ⟨k', w⟩, hk, h⟩
    dsimp only at h hk
    cases hg : get c s' k' with
    | error e => rw [hg] at h; cases h
    | ok x => rw [hg] at h; cases h; exact ⟨⟨kvs, hs, w, hk⟩, hg⟩
  · rintro ⟨⟨kvs, hs, w, hk⟩, hg⟩
    exact ⟨(s, kvs), hs, (k, w), hk, by dsimp only; rw [hg]⟩

theorem assoc_mem {α : Type} {l : List (String × α)} {k : String} {v : α} (h : assoc l k = some v) : (k, v) ∈ l := by
  induction l with
  | nil => cases h
  | cons e r ih =>
    obtain ⟨a, b⟩ := e
    unfold assoc at h
    split at h
    · rename_i he; cases h; subst he; exact List.mem_cons_self
    · exact List.mem_cons_of_mem _ (ih h)

theorem get_fresh {s k : String} {v : Val} (h : get fresh s k = .ok v) : ∃ kvs, (s, kvs) ∈ defaults ∧ ∃ w, (k, w) ∈ kvs := by
  unfold get at h
  split at h
  · cases h
  · cases h
  · rename_i g m hm
    simp only [fresh, Option.map_eq_some_iff] at hm
    obtain ⟨kvs, hkvs, he⟩ := hm
    cases he
    cases ha : assoc kvs k with
    | none => rw [ha] at h; cases h
    | some w => exact ⟨kvs, assoc_mem hkvs, w, assoc_mem ha⟩

/-- reading back what was written: the same entries -/
theorem fill_writeDoc {c : Cfg} (h : SameKeys c fresh) :
    ∃ c', fill fresh (writeDoc c) = .ok c' ∧ Guarded c' ∧ SameKeys c' fresh ∧
      ∀ s k v, get c s k = .ok v → get c' s k = .ok v := by
  obtain ⟨h1, _⟩ := fill_spec fresh_guarded (writeDoc c)
  obtain ⟨c', hc, hg, hk, hget⟩ := h1 (by
    rintro ⟨s, k, v⟩ he
    obtain ⟨_, hgv⟩ := mem_writeDoc.mp he
    rw [← h.2 s]
    exact ⟨v, hgv⟩)
  refine ⟨c', hc, hg, hk, fun s k v hv => ?_⟩
  rw [hget]
  have hmem : (s, k, v) ∈ writeDoc c := by
    refine mem_writeDoc.mpr ⟨?_, hv⟩
    have : k ∈ keys c s := ⟨v, hv⟩
    rw [h.2 s] at this
    obtain ⟨w, hw⟩ := this
    exact get_fresh hw
  cases hl : lastIn (writeDoc c) s k with
  | none => exact absurd hmem (lastIn_none hl v)
  | some w =>
    have := (mem_writeDoc.mp (lastIn_mem hl)).2
    rw [hv] at this
    simpa using this.symm

theorem selRead_iff {c : Cfg} {s : Sel} : Sel.read c = .ok s ↔
    get c "io" "saveExtraVars" = .ok s.saveExtraVars ∧ get c "timeIntegration" "integrator" = .ok s.integrator ∧
    get c "timeIntegration" "dt" = .ok s.dt ∧ get c "timeIntegration" "variableTimeStep" = .ok s.variableTimeStep ∧
    get c "RHS" "shockHandling" = .ok s.shock ∧ get c "RHS" "primaryAdvFlux" = .ok s.primary ∧
    get c "RHS" "secondaryAdvFlux" = .ok s.secondary ∧ get c "RHS" "switchAdvFlux" = .ok s.switch ∧
    get c "RHS" "diffusion" = .ok s.diffusion ∧ get c "RHS" "subgrid" = .ok s.subgrid ∧
    get c "thermochem" "eos" = .ok s.eos ∧ get c "thermochem" "trans" = .ok s.trans ∧
    get c "thermochem" "chemistry" = .ok s.chemistry ∧ get c "thermochem" "mechanism" = .ok s.mechanism ∧
    get c "thermochem" "nChemSubSteps" = .ok s.nChem ∧ get c "viscousSponge" "spongeON" = .ok s.sponge := by
  constructor
  · intro h
    unfold Sel.read at h
    simp only [bind, Except.bind, pure, Except.pure] at h
    split at h; · cases h
    rename_i h1
    split at h; · cases h
    rename_i h2
    split at h; · cases h
    rename_i h3
    split at h; · cases h
    rename_i h4
    split at h; · cases h
    rename_i h5
    split at h; · cases h
    rename_i h6
    split at h; · cases h
    rename_i h7
    split at h; · cases h
    rename_i h8
    split at h; · cases h
    rename_i h9
    split at h; · cases h
    rename_i h10
    split at h; · cases h
    rename_i h11
    split at h; · cases h
    rename_i h12
    split at h; · cases h
    rename_i h13
    split at h; · cases h
    rename_i h14
    split at h; · cases h
    rename_i h15
    split at h; · cases h
    rename_i h16
    cases h
    exact ⟨h1, h2, h3, h4, h5, h6, h7, h8, h9, h10, h11, h12, h13, h14, h15, h16⟩
  · rintro ⟨h1, h2, h3, h4, h5, h6, h7, h8, h9, h10, h11, h12, h13, h14, h15, h16⟩
    unfold Sel.read
    rw [h1, h2, h3, h4, h5, h6, h7, h8, h9, h10, h11, h12, h13, h14, h15, h16]
    rfl

/-- **C95**: a configuration obtained by reading any file (or set up in a program and validated the same way), written by
    `writeConfigFile` and read again by `readConfigFile`, is accepted again and every entry has the value it had.
    `dump` and `load` stand for the YAML library. -/
theorem C95_round_trip (env : Env) {Text : Type} (dump : List (String × String × Val) → Text)
    (load : Text → List (String × String × Val)) (hyaml : ∀ d, load (dump d) = d) (doc : List (String × String × Val)) {c : Cfg}
    (h : readConfig env doc = .ok c) :
    ∃ c', readConfig env (load (dump (writeDoc c))) = .ok c' ∧ SameKeys c' c ∧ ∀ s k v, get c s k = .ok v → get c' s k = .ok v := by
  rw [hyaml]
  unfold readConfig at h
  cases h1 : fill fresh doc with
  | error e => rw [h1] at h; cases h
  | ok c0 =>
  rw [h1] at h
  cases h2 : Sel.read c0 with
  | error e => simp only [bind, Except.bind] at h; rw [h2] at h; cases h
  | ok s0 =>
  simp only [bind, Except.bind] at h
  rw [h2] at h
  dsimp only at h
  cases h3 : validate env s0 with
  | error e => rw [h3] at h; cases h
  | ok s1 =>
  rw [h3] at h
  dsimp only at h
  obtain ⟨f1, f1'⟩ := fill_spec fresh_guarded doc
  have hall : ∀ e ∈ doc, e.2.1 ∈ keys fresh e.1 := by
    by_contra hn; rw [f1' hn] at h1; cases h1
  obtain ⟨c0', hc0', g0, k0, get0⟩ := f1 hall
  rw [h1] at hc0'
  cases hc0'
  -- the three normalised entries
  obtain ⟨n1, n1'⟩ := fill_spec g0 (normal s1)
  have hn : ∀ e ∈ normal s1, e.2.1 ∈ keys c0 e.1 := by
    by_contra hn; rw [n1' hn] at h; cases h
  obtain ⟨c1, hc1, g1, k1, get1⟩ := n1 hn
  rw [h] at hc1
  cases hc1
  have ksame : SameKeys c fresh := k1.trans k0
  -- the selection of the final configuration is the validated one
  have sel : Sel.read c = .ok s1 := by
    obtain ⟨dt, n, rfl, _⟩ := validate_accepted h3
    obtain ⟨r1, r2, r3, r4, r5, r6, r7, r8, r9, r10, r11, r12, r13, r14, r15, r16⟩ := selRead_iff.mp h2
    rw [selRead_iff]
    simp only [get1]
    refine ⟨rfl, r2, rfl, r4, r5, r6, r7, r8, r9, r10, r11, r12, r13, r14, rfl, r16⟩
  obtain ⟨d, hd, gd, kd, getd⟩ := fill_writeDoc ksame
  have seld : Sel.read d = .ok s1 := by
    obtain ⟨r1, r2, r3, r4, r5, r6, r7, r8, r9, r10, r11, r12, r13, r14, r15, r16⟩ := selRead_iff.mp sel
    exact selRead_iff.mpr ⟨getd _ _ _ r1, getd _ _ _ r2, getd _ _ _ r3, getd _ _ _ r4, getd _ _ _ r5, getd _ _ _ r6,
      getd _ _ _ r7, getd _ _ _ r8, getd _ _ _ r9, getd _ _ _ r10, getd _ _ _ r11, getd _ _ _ r12, getd _ _ _ r13,
      getd _ _ _ r14, getd _ _ _ r15, getd _ _ _ r16⟩
  obtain ⟨m1, _⟩ := fill_spec gd (normal s1)
  obtain ⟨d', hd', gd', kd', getd'⟩ := m1 (fun e he => by rw [kd.2, ← k0.2]; exact hn e he)
  refine ⟨d', ?_, kd'.trans (kd.trans ⟨ksame.1.symm, fun s => (ksame.2 s).symm⟩), fun s k v hv => ?_⟩
  · unfold readConfig
    simp only [bind, Except.bind, hd, seld, validate_idem h3]
    exact hd'
  · rw [getd']
    cases hl : lastIn (normal s1) s k with
    | none => exact getd s k v hv
    | some w =>
      rw [get1, hl] at hv
      exact hv

/-- a file that sets entries, one of them to be normalised, is accepted -/
example : ∃ c, readConfig ⟨fun _ => none, 1, fun _ => true⟩
    [("RHS", "diffusion", .bool true), ("io", "saveExtraVars", .none), ("thermochem", "nChemSubSteps", .num 0)] = .ok c ∧
    get c "io" "saveExtraVars" = .ok (.list []) ∧ get c "RHS" "diffusion" = .ok (.bool true) := ⟨_, rfl, rfl, rfl⟩

/-! ### numbers in configuration files -/

/-- a number as a user may write it: sign, digits, optional fraction, optional exponent with or without a sign -/
structure Lit where
  neg : Bool
  int : List (Fin 10)
  frac : Option (List (Fin 10))
  exp : Option (Option Bool × List (Fin 10))
deriving DecidableEq

/-- value of a digit string -/
def digits (l : List (Fin 10)) : ℕ := l.foldl (fun a d => 10 * a + d.val) 0

/-- the text -/
def Lit.text (L : Lit) : String :=
  let ds (l : List (Fin 10)) : String := String.join (l.map fun d => toString d.val)
  (if L.neg then "-" else "") ++ ds L.int ++ (match L.frac with | some f => "." ++ ds f | none => "") ++
    (match L.exp with
      | some (some true, e) => "e-" ++ ds e
      | some (some false, e) => "e+" ++ ds e
      | some (none, e) => "e" ++ ds e
      | none => "")

/-- the number meant -/
def Lit.value (L : Lit) : ℚ :=
  (if L.neg then -1 else 1) * ((digits L.int : ℚ) + (match L.frac with | some f => (digits f : ℚ) / 10 ^ f.length | none => 0)) *
    (match L.exp with
      | some (some true, e) => (10 : ℚ) ^ (-(digits e : ℤ))
      | some (_, e) => (10 : ℚ) ^ (digits e : ℤ)
      | none => 1)

/-- what PyYAML makes of it: the float pattern `[-+]?[0-9][0-9_]*\.[0-9_]*([eE][-+][0-9]+)?` or, without a leading digit and
    then without a sign, `\.[0-9][0-9_]*([eE][-+][0-9]+)?`; the decimal integer pattern `[-+]?(0|[1-9][0-9_]*)`; otherwise a
    text (octal integers are left out) -/
def yaml (L : Lit) : Val :=
  let expOk := match L.exp with
    | none => true
    | some (some _, e) => !e.isEmpty
    | some (none, _) => false
  match L.frac with
  | some f => if expOk = true ∧ (L.int ≠ [] ∨ L.neg = false ∧ f ≠ []) then .num L.value else .str L.text
  | none => if L.exp = none ∧ (L.int = [0] ∨ L.int ≠ [] ∧ L.int.head? ≠ some 0) then .num L.value else .str L.text

/-- well formed: some digit, digits in the exponent -/
def Lit.Wf (L : Lit) : Prop := (L.int ≠ [] ∨ ∃ f, L.frac = some f ∧ f ≠ []) ∧ ∀ s e, L.exp = some (s, e) → e ≠ []

/-- the variable time step: `min(maxCFL / cfl, maxDt)` (mpiUtils.py:56-57); Python cannot divide or compare a text -/
def stepLimit (c : Cfg) (cfl : ℚ) : Except Err ℚ := do
  match (← get c "timeIntegration" "maxCFL"), (← get c "timeIntegration" "maxDt") with
  | .num a, .num b => .ok (min (a / cfl) b)
  | _, _ => .error .type

/-- the notations PyYAML takes for numbers: with a point, a sign in the exponent if there is one, a digit before the point
    or no minus sign; or a plain integer -/
def Lit.Plain (L : Lit) : Prop :=
  (∃ f, L.frac = some f ∧ (L.int ≠ [] ∨ L.neg = false) ∧ ∀ s e, L.exp = some (s, e) → s ≠ none) ∨
  (L.frac = none ∧ L.exp = none ∧ (L.int = [0] ∨ ∃ d r, L.int = d :: r ∧ d ≠ 0))

/-- **C95** (numbers): every number in a plain notation is read as the number it denotes -/
theorem C95_plain_number_partial (L : Lit) (hw : L.Wf) (hp : L.Plain) : yaml L = .num L.value := by
  obtain ⟨hd, he⟩ := hw
  unfold yaml
  rcases hp with ⟨f, hf, h1, h2⟩ | ⟨hf, hx, hi⟩
  · rw [hf]
    dsimp only
    rw [if_pos]
    refine ⟨?_, ?_⟩
    · cases hx : L.exp with
      | none => rfl
      | some p =>
        obtain ⟨s, e⟩ := p
        cases s with
        | none => exact absurd rfl (h2 none e hx)
        | some b =>
          have := he _ _ hx
          cases e with
          | nil => exact absurd rfl this
          | cons _ _ => rfl
    · by_cases hi : L.int = []
      · refine Or.inr ⟨h1.resolve_left (fun h => h hi), ?_⟩
        rcases hd with hd | ⟨f', hf', hne⟩
        · exact absurd hi hd
        · rw [hf] at hf'; cases hf'; exact hne
      · exact Or.inl hi
  · rw [hf]
    dsimp only
    refine if_pos ⟨hx, ?_⟩
    rcases hi with hi | ⟨d, r, hi, hd0⟩
    · exact Or.inl hi
    · exact Or.inr (by rw [hi]; simpa using hd0)

/-- **C95** (time step): in whatever notation the time step is written, the solver gets the number, provided Python's `float`
    reads the text as the number it denotes -/
theorem C95_time_step (env : Env) (L : Lit) (hf : env.parseFloat L.text = some L.value) (doc : List (String × String × Val)) {c : Cfg}
    (hdoc : lastIn doc "timeIntegration" "dt" = some (yaml L)) (h : readConfig env doc = .ok c) :
    get c "timeIntegration" "dt" = .ok (.num L.value) := by
  have hpy : pyFloat env (yaml L) = .ok L.value := by
    have : yaml L = .num L.value ∨ yaml L = .str L.text := by
      unfold yaml
      dsimp only
      split <;> split_ifs <;> simp
    rcases this with e | e
    · rw [e]; rfl
    · rw [e]; simp [pyFloat, hf]
  unfold readConfig at h
  cases h1 : fill fresh doc with
  | error e => rw [h1] at h; cases h
  | ok c0 =>
  rw [h1] at h
  cases h2 : Sel.read c0 with
  | error e => simp only [bind, Except.bind] at h; rw [h2] at h; cases h
  | ok s0 =>
  simp only [bind, Except.bind] at h
  rw [h2] at h
  dsimp only at h
  cases h3 : validate env s0 with
  | error e => rw [h3] at h; cases h
  | ok s1 =>
  rw [h3] at h
  dsimp only at h
  obtain ⟨f1, f1'⟩ := fill_spec fresh_guarded doc
  have hall : ∀ e ∈ doc, e.2.1 ∈ keys fresh e.1 := by
    by_contra hn; rw [f1' hn] at h1; cases h1
  obtain ⟨c0', hc0', g0, k0, get0⟩ := f1 hall
  rw [h1] at hc0'
  cases hc0'
  obtain ⟨n1, n1'⟩ := fill_spec g0 (normal s1)
  have hn : ∀ e ∈ normal s1, e.2.1 ∈ keys c0 e.1 := by
    by_contra hn; rw [n1' hn] at h; cases h
  obtain ⟨c1, hc1, _, _, get1⟩ := n1 hn
  rw [h] at hc1
  cases hc1
  obtain ⟨dt, n, rfl, hd, _⟩ := validate_accepted h3
  have r3 := (selRead_iff.mp h2).2.2.1
  rw [get0, hdoc] at r3
  have hsdt : yaml L = s0.dt := by simpa using r3
  have : pyFloat env s0.dt = .ok L.value := by rw [← hsdt]; exact hpy
  rw [this] at hd
  cases hd
  rw [get1]
  rfl

/-- `1e-3` -/
def oneEMinus3 : Lit := ⟨false, [1], none, some (some true, [3])⟩

/-- **C95** fails for the other numbers: a file with `dt: 1e-3`, `maxDt: 1e-3`, `variableTimeStep: true` is accepted, the
    time step is the number, but the limit is a text and the first variable time step raises TypeError -/
theorem C95_notation_violated (env : Env) (hf : env.parseFloat oneEMinus3.text = some oneEMinus3.value) :
    oneEMinus3.Wf ∧ oneEMinus3.value = 1/1000 ∧ ∃ c, readConfig env [("timeIntegration", "dt", yaml oneEMinus3),
        ("timeIntegration", "maxDt", yaml oneEMinus3), ("timeIntegration", "variableTimeStep", .bool true)] = .ok c ∧
      get c "timeIntegration" "dt" = .ok (.num (1/1000)) ∧ ∀ cfl, stepLimit c cfl = .error .type := by
  have hv : oneEMinus3.value = 1/1000 := by
    have : digits [3] = 3 := rfl
    have h1 : digits [1] = 1 := rfl
    simp only [oneEMinus3, Lit.value, this, h1]
    norm_num
  have hy : yaml oneEMinus3 = .str oneEMinus3.text := rfl
  rw [hv] at hf
  refine ⟨⟨Or.inl (by simp [oneEMinus3]), fun s e h => by cases h; simp⟩, hv, ?_⟩
  rw [hy]
  have hval : validate env ⟨.list [], .str "rk3", .str oneEMinus3.text, .bool true, .none, .str "KEPaEC", .none, .none, .bool false,
      .none, .str "cpg", .str "constantProps", .bool false, .none, .num 1, .bool false⟩ =
      .ok ⟨.list [], .str "rk3", .num (1/1000), .bool true, .none, .str "KEPaEC", .none, .none, .bool false,
        .none, .str "cpg", .str "constantProps", .bool false, .none, .num (max 1 1), .bool false⟩ := by
    unfold validate
    simp only [pyFloat, hf]
    rfl
  exact ⟨_, readConfig_of rfl rfl hval rfl, rfl, fun _ => rfl⟩

end PG.Config
