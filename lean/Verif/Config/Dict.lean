import Verif.Config.Model
/-!
C36: the key set of the configuration is fixed under item assignment and file reading; where it is not.
-/
namespace PG.Config

/-! ### specification -/

/-- section names of the object -/
def sections (c : Cfg) : Set String := {s | c.items s ≠ none}

/-- keys readable in a section -/
def keys (c : Cfg) (s : String) : Set String := {k | ∃ v, get c s k = .ok v}

/-- same section names and same keys in each -/
def SameKeys (c d : Cfg) : Prop := sections c = sections d ∧ ∀ s, keys c s = keys d s

/-! ### invariant -/

/-- every section is a frozen dictionary and so is the object -/
def Guarded (c : Cfg) : Prop := c.frozen = true ∧ ∀ s o, c.items s = some o → ∃ m, o = .dict true m

theorem fresh_guarded : Guarded fresh := by
  refine ⟨rfl, fun s o h => ?_⟩
  simp only [fresh, Option.map_eq_some_iff] at h
  obtain ⟨kv, _, rfl⟩ := h
  exact ⟨_, rfl⟩

theorem mem_keys {c : Cfg} (h : Guarded c) (s k : String) :
    k ∈ keys c s ↔ ∃ m, c.items s = some (.dict true m) ∧ m k ≠ none := by
  constructor
  · rintro ⟨v, hv⟩
    unfold get at hv
    split at hv
    · exact absurd hv (by simp)
    · exact absurd hv (by simp)
    · rename_i g m hm
      obtain ⟨m', hm'⟩ := h.2 s _ hm
      cases hm'
      refine ⟨m, hm, fun hn => ?_⟩
      rw [hn] at hv; exact absurd hv (by simp)
  · rintro ⟨m, hm, hk⟩
    obtain ⟨v, hv⟩ := Option.ne_none_iff_exists'.1 hk
    exact ⟨v, by unfold get; rw [hm]; dsimp only; rw [hv]⟩

theorem get_put_same (c : Cfg) (s k : String) (g : Bool) (m : String → Option Val) (v : Val) :
    get { c with items := put c.items s (.dict g (put m k v)) } s k = .ok v := by
  simp [get, put]

theorem get_put_other (c : Cfg) (s k : String) (g : Bool) (m : String → Option Val) (v : Val)
    (hm : c.items s = some (.dict g m)) (s' k' : String) (h : (s', k') ≠ (s, k)) :
    get { c with items := put c.items s (.dict g (put m k v)) } s' k' = get c s' k' := by
  unfold get put
  by_cases hs : s' = s
  · subst hs
    have hk : k' ≠ k := fun e => h (by rw [e])
    simp [hm, hk]
  · simp [hs]

/-- C36: an item assignment to a configuration whose key set was never tampered with succeeds exactly when the key exists;
    then the value is read back, every other entry reads as before and no key is gained or lost. Otherwise it raises KeyError
    (and the object is not changed). -/
theorem C36_assign {c : Cfg} (h : Guarded c) (s k : String) (v : Val) :
    (k ∈ keys c s → ∃ c', exec c (.setItem s k v) = .ok c' ∧ Guarded c' ∧ SameKeys c' c ∧ get c' s k = .ok v ∧
      ∀ s' k', (s', k') ≠ (s, k) → get c' s' k' = get c s' k') ∧
    (k ∉ keys c s → exec c (.setItem s k v) = .error .key) := by
  constructor
  · intro hk
    obtain ⟨m, hm, hmk⟩ := (mem_keys h s k).1 hk
    have he : exec c (.setItem s k v) = .ok { c with items := put c.items s (.dict true (put m k v)) } := by
      simp [exec, hm, guardedPut, hmk]
    have hsame := get_put_same c s k true m v
    have hoth := get_put_other c s k true m v hm
    refine ⟨_, he, ⟨h.1, fun s' o ho => ?_⟩, ⟨?_, fun s' => ?_⟩, hsame, hoth⟩
    · simp only [put] at ho
      split at ho
      · cases ho; exact ⟨_, rfl⟩
      · exact h.2 s' o ho
    · ext s'
      simp only [sections, put, Set.mem_setOf_eq]
      by_cases hs : s' = s
      · subst hs; simp [hm]
      · simp [hs]
    · ext k'
      by_cases hkk : (s', k') = (s, k)
      · cases hkk
        exact ⟨fun _ => hk, fun _ => ⟨v, hsame⟩⟩
      · simp only [keys, Set.mem_setOf_eq, hoth s' k' hkk]
  · intro hk
    rw [mem_keys h] at hk
    cases hs : c.items s with
    | none => simp [exec, hs]
    | some o =>
      obtain ⟨m, rfl⟩ := h.2 s o hs
      have : m k = none := by
        by_contra hne
        exact hk ⟨m, hs, hne⟩
      simp [exec, hs, guardedPut, this]

/-- the default configuration, an existing and a misspelt key -/
example : "dt" ∈ keys fresh "timeIntegration" ∧ "Dt" ∉ keys fresh "timeIntegration" := by
  rw [mem_keys fresh_guarded, mem_keys fresh_guarded]
  constructor
  · exact ⟨_, rfl, by decide⟩
  · rintro ⟨m, hm, hk⟩
    have : m = assoc [("integrator", Val.str "rk3"), ("dt", .num (1/1000)), ("variableTimeStep", .bool false),
      ("maxDt", .num (1/1000)), ("maxCFL", .num (1/10))] := by
      have e : fresh.items "timeIntegration" = some (.dict true (assoc [("integrator", Val.str "rk3"), ("dt", .num (1/1000)),
        ("variableTimeStep", .bool false), ("maxDt", .num (1/1000)), ("maxCFL", .num (1/10))])) := rfl
      rw [e] at hm; cases hm; rfl
    subst this
    exact hk (by decide)

/-- assigning to a new section name raises KeyError -/
theorem C36_new_section {c : Cfg} (h : Guarded c) (s : String) (o : Obj) (hs : s ∉ sections c) :
    exec c (.setSection s o) = .error .key := by
  have : c.items s = none := by simpa [sections] using hs
  simp [exec, guardedPut, h.1, this]

/-- histories of item assignments and of assignments to unknown sections -/
inductive Plain (c0 : Cfg) : Stmt → Prop
  | item (s k : String) (v : Val) : Plain c0 (.setItem s k v)
  | newSection (s : String) (o : Obj) (h : s ∉ sections c0) : Plain c0 (.setSection s o)

theorem SameKeys.trans {a b c : Cfg} (h : SameKeys a b) (h' : SameKeys b c) : SameKeys a c :=
  ⟨h.1.trans h'.1, fun s => (h.2 s).trans (h'.2 s)⟩

theorem history {c : Cfg} (h : Guarded c) (l : List Stmt) (hl : ∀ st ∈ l, Plain c st) :
    Guarded (execAll c l) ∧ SameKeys (execAll c l) c := by
  suffices H : ∀ d, Guarded d → SameKeys d c → Guarded (execAll d l) ∧ SameKeys (execAll d l) c from
    H c h ⟨rfl, fun _ => rfl⟩
  induction l with
  | nil => exact fun d hd hs => ⟨hd, hs⟩
  | cons st r ih =>
    intro d hd hs
    have ih := ih (fun x hx => hl x (List.mem_cons_of_mem _ hx))
    unfold execAll
    cases hl st List.mem_cons_self with
    | item s k v =>
      by_cases hk : k ∈ keys d s
      · obtain ⟨c', he, hg, hsk, _, _⟩ := (C36_assign hd s k v).1 hk
        rw [he]; exact ih c' hg (hsk.trans hs)
      · rw [(C36_assign hd s k v).2 hk]; exact ih d hd hs
    | newSection s o hn =>
      rw [C36_new_section hd s o (by rw [hs.1]; exact hn)]; exact ih d hd hs

/-- C36 (item assignments): after any history of item assignments `config[s][k] = v` and of assignments to section names that
    do not exist, failing or not, the configuration has exactly the section names and keys of the default configuration.
    Missing from the full statement: other statements (`update`, `setdefault`, `del`, replacing a section) are not guarded, see
    `C36_violated`. -/
theorem C36_history_partial (l : List Stmt) (hl : ∀ st ∈ l, Plain fresh st) : SameKeys (execAll fresh l) fresh :=
  (history fresh_guarded l hl).2

example : ∀ st ∈ [Stmt.setItem "RHS" "shockHandling" (.str "hybrid"), .setItem "RHS" "shock" (.str "hybrid"),
    .setSection "rhs" (.val .none)], Plain fresh st := by
  intro st h
  simp only [List.mem_cons, List.not_mem_nil, or_false] at h
  rcases h with rfl | rfl | rfl
  · exact .item _ _ _
  · exact .item _ _ _
  · exact .newSection _ _ (by simp only [sections, Set.mem_setOf_eq, not_not]; rfl)

/-- last value given to an entry by a document -/
def lastIn : List (String × String × Val) → String → String → Option Val
  | [], _, _ => none
  | (s, k, v) :: r, s', k' => match lastIn r s' k' with
    | some w => some w
    | none => if (s', k') = (s, k) then some v else none

theorem lastIn_cons (s k : String) (v : Val) (r : List (String × String × Val)) (s' k' : String) :
    lastIn ((s, k, v) :: r) s' k' = match lastIn r s' k' with
      | some w => some w
      | none => if (s', k') = (s, k) then some v else none := rfl

theorem fill_spec {c : Cfg} (h : Guarded c) (doc : List (String × String × Val)) :
    ((∀ e ∈ doc, e.2.1 ∈ keys c e.1) → ∃ c', fill c doc = .ok c' ∧ Guarded c' ∧ SameKeys c' c ∧
      ∀ s k, get c' s k = match lastIn doc s k with | some v => .ok v | none => get c s k) ∧
    (¬ (∀ e ∈ doc, e.2.1 ∈ keys c e.1) → fill c doc = .error .key) := by
  induction doc generalizing c with
  | nil => exact ⟨fun _ => ⟨c, rfl, h, ⟨rfl, fun _ => rfl⟩, fun _ _ => rfl⟩, fun hn => absurd (by simp) hn⟩
  | cons e r ih =>
    obtain ⟨s, k, v⟩ := e
    have hA := C36_assign h s k v
    unfold fill
    by_cases hk : k ∈ keys c s
    · obtain ⟨c1, he, hg, hsk, hsame, hoth⟩ := hA.1 hk
      rw [he]
      dsimp only
      have hiff : (∀ e ∈ (s, k, v) :: r, e.2.1 ∈ keys c e.1) ↔ ∀ e ∈ r, e.2.1 ∈ keys c1 e.1 := by
        simp only [List.forall_mem_cons]
        constructor
        · rintro ⟨_, h2⟩ e he; rw [hsk.2]; exact h2 e he
        · intro h2; exact ⟨hk, fun e he => by rw [← hsk.2]; exact h2 e he⟩
      rw [hiff]
      refine ⟨fun hall => ?_, (ih hg).2⟩
      obtain ⟨c2, h2, hg2, hs2, hget⟩ := (ih hg).1 hall
      refine ⟨c2, h2, hg2, hs2.trans hsk, fun s' k' => ?_⟩
      rw [hget, lastIn_cons]
      cases hl : lastIn r s' k' with
      | some w => rfl
      | none =>
        dsimp only
        split_ifs with heq
        · cases heq; exact hsame
        · exact hoth s' k' heq
    · rw [hA.2 hk]
      refine ⟨fun hall => absurd (hall _ List.mem_cons_self) hk, fun _ => rfl⟩

/-- C36 (reading a file): a document whose entries all exist in the default configuration yields a configuration with the same
    key set, in which every entry of the document reads as given (the last one if repeated) and every other entry has its
    default; a document with any unknown section or key raises KeyError. -/
theorem C36_read_file (doc : List (String × String × Val)) :
    ((∀ e ∈ doc, e.2.1 ∈ keys fresh e.1) → ∃ c, fill fresh doc = .ok c ∧ SameKeys c fresh ∧
      ∀ s k, get c s k = match lastIn doc s k with | some v => .ok v | none => get fresh s k) ∧
    (¬ (∀ e ∈ doc, e.2.1 ∈ keys fresh e.1) → fill fresh doc = .error .key) := by
  obtain ⟨h1, h2⟩ := fill_spec fresh_guarded doc
  refine ⟨fun h => ?_, h2⟩
  obtain ⟨c, a, _, b, d⟩ := h1 h
  exact ⟨c, a, b, d⟩

/-- C36 is violated by statements other than item assignment: `update` on a section or on the object adds keys silently;
    replacing a section by a plain dictionary removes its protection, after which misspelt keys are accepted; `del` removes
    keys. -/
theorem C36_violated :
    (∃ c, exec fresh (.updateItem "RHS" "shock" (.str "hybrid")) = .ok c ∧ "shock" ∈ keys c "RHS" ∧ "shock" ∉ keys fresh "RHS") ∧
    (∃ c, exec fresh (.updateSection "rhs" (.dict false (fun _ => none))) = .ok c ∧ "rhs" ∈ sections c ∧
      "rhs" ∉ sections fresh) ∧
    (∃ c d, exec fresh (.setSection "RHS" (.dict false (assoc [("diffusion", .bool true)]))) = .ok c ∧
      exec c (.setItem "RHS" "shock" (.str "hybrid")) = .ok d ∧ "shock" ∈ keys d "RHS" ∧ "subgrid" ∉ keys d "RHS") ∧
    (∃ c, exec fresh (.delItem "RHS" "subgrid") = .ok c ∧ "subgrid" ∉ keys c "RHS" ∧ "subgrid" ∈ keys fresh "RHS") := by
  refine ⟨⟨_, rfl, ⟨_, rfl⟩, ?_⟩, ⟨_, rfl, ?_, ?_⟩, ⟨_, _, rfl, rfl, ⟨_, rfl⟩, ?_⟩, ⟨_, rfl, ?_, ⟨_, rfl⟩⟩⟩
  · rintro ⟨v, hv⟩
    have : get fresh "RHS" "shock" = .error .key := rfl
    rw [this] at hv; cases hv
  · show _ ≠ none
    simp [put]
  · simp only [sections, Set.mem_setOf_eq, not_not]; rfl
  · rintro ⟨v, hv⟩; cases hv
  · rintro ⟨v, hv⟩; cases hv

/-- every entry the set-up reads exists after any plain history -/
theorem C36_set_up_can_read (l : List Stmt) (hl : ∀ st ∈ l, Plain fresh st) : ∃ s, Sel.read (execAll fresh l) = .ok s := by
  have h := (C36_history_partial l hl).2
  have key : ∀ s k, (∃ v, get fresh s k = .ok v) → ∃ v, get (execAll fresh l) s k = .ok v := fun s k hk => by
    have : k ∈ keys (execAll fresh l) s := by rw [h s]; exact hk
    exact this
  obtain ⟨v1, h1⟩ := key "io" "saveExtraVars" ⟨_, rfl⟩
  obtain ⟨v2, h2⟩ := key "timeIntegration" "integrator" ⟨_, rfl⟩
  obtain ⟨v3, h3⟩ := key "timeIntegration" "dt" ⟨_, rfl⟩
  obtain ⟨v4, h4⟩ := key "timeIntegration" "variableTimeStep" ⟨_, rfl⟩
  obtain ⟨v5, h5⟩ := key "RHS" "shockHandling" ⟨_, rfl⟩
  obtain ⟨v6, h6⟩ := key "RHS" "primaryAdvFlux" ⟨_, rfl⟩
  obtain ⟨v7, h7⟩ := key "RHS" "secondaryAdvFlux" ⟨_, rfl⟩
  obtain ⟨v8, h8⟩ := key "RHS" "switchAdvFlux" ⟨_, rfl⟩
  obtain ⟨v9, h9⟩ := key "RHS" "diffusion" ⟨_, rfl⟩
  obtain ⟨v10, h10⟩ := key "RHS" "subgrid" ⟨_, rfl⟩
  obtain ⟨v11, h11⟩ := key "thermochem" "eos" ⟨_, rfl⟩
  obtain ⟨v12, h12⟩ := key "thermochem" "trans" ⟨_, rfl⟩
  obtain ⟨v13, h13⟩ := key "thermochem" "chemistry" ⟨_, rfl⟩
  obtain ⟨v14, h14⟩ := key "thermochem" "mechanism" ⟨_, rfl⟩
  obtain ⟨v15, h15⟩ := key "thermochem" "nChemSubSteps" ⟨_, rfl⟩
  obtain ⟨v16, h16⟩ := key "viscousSponge" "spongeON" ⟨_, rfl⟩
  exact ⟨_, by unfold Sel.read; rw [h1, h2, h3, h4, h5, h6, h7, h8, h9, h10, h11, h12, h13, h14, h15, h16]; rfl⟩

end PG.Config
