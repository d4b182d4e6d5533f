import Verif.Config.File
import Mathlib.Data.List.Dedup
import Mathlib.Tactic.IntervalCases
/-!
C96: species data. `thermoTransport/findUserSpData.py`, `completeSpecies.py`, the beginning of `thtrdat.py` (lines 57-84) and
the requirement of `misc/createViewMirrorArray.py` that the data be a numpy array.

A YAML value is a number, a list of numbers, a text or null. Numbers are rationals.
-/
namespace PG.Config

inductive SpV
  | num (r : ℚ)
  | arr (l : List ℚ)
  | str (s : String)
  | null
deriving DecidableEq

/-- what stands under a species name: a mapping, or anything else (nothing at all, a number as under `Ru` in the library) -/
inductive Entry
  | map (f : String → Option SpV)
  | other

/-- a species file: top-level keys in file order -/
abbrev SpFile := List (String × Entry)

/-! ### finding the file -/

/-- findUserSpData.py:19-36: the four places in order; the first that can be opened is used -/
def findSpData (open' : String → Option SpFile) (inputDir relpath spdata : String) : Except Err SpFile :=
  match [inputDir ++ "/" ++ spdata, "./" ++ spdata, relpath ++ "/database/" ++ spdata, spdata].findSome? open' with
  | some f => .ok f
  | none => .error .value

/-- thtrdat.py:60-63, findUserSpData.py:14-16: a list of names becomes a dictionary without data, so a repeated name counts once,
    where it was first -/
def namesOnly (l : List String) : SpFile := (l.foldl (fun acc s => if s ∈ acc then acc else acc ++ [s]) []).map fun s => (s, .other)

/-! ### completing it from the library -/

/-- `d[sp][key]` -/
def look (d : String → Option Entry) (sp key : String) : Except Err SpV :=
  match d sp with
  | none => .error .key
  | some .other => .error .type
  | some (.map f) => match f key with
    | some v => .ok v
    | none => .error .key

/-- completeSpecies.py:8-28, one species: the user's value, otherwise that of the library -/
def completeOne (ref : String → Option Entry) (key : String) (sp : String × Entry) : Except Err SpV :=
  match sp.2 with
  | .map f => match f key with
    | some v => .ok v
    | none => look ref sp.1 key
  | .other => look ref sp.1 key

/-- element of the numpy array: number, row, not-a-number -/
inductive Elt
  | num (r : ℚ)
  | row (l : List ℚ)
  | nan
deriving DecidableEq

/-- what `completeSpecies` returns: a numpy array or a Python list -/
inductive Out
  | array (l : List Elt)
  | plain (l : List SpV)

/-- conversion of one element by `np.array(prop, dtype=np.float64)`: texts go through `float`, `None` becomes nan -/
def toElt (env : Env) : SpV → Except Err Elt
  | .num r => .ok (.num r)
  | .arr l => .ok (.row l)
  | .str s => match env.parseFloat s with
    | some r => .ok (.num r)
    | none => .error .value
  | .null => .ok .nan

/-- shape of an element -/
def Elt.len : Elt → Option ℕ
  | .row l => some l.length
  | _ => none

/-- completeSpecies.py:4-32: all species in the order of the user's file; a list if the first value is a text, otherwise an
    array, whose rows must have equal length; no species is an IndexError (`.value` here) -/
def complete (env : Env) (ref : String → Option Entry) (user : SpFile) (key : String) : Except Err Out := do
  let prop ← user.mapM (completeOne ref key)
  match prop with
  | [] => .error .value
  | .str _ :: _ => .ok (.plain prop)
  | p :: _ =>
    let l ← prop.mapM (toElt env)
    match toElt env p with
    | .ok e => if ∀ x ∈ l, x.len = e.len then .ok (.array l) else .error .value
    | .error e => .error e

/-- thtrdat.py:84-88 and the like with createViewMirrorArray.py:48: the numbers of a scalar property, as the kernels see them;
    a list has no `shape` -/
def table (env : Env) (ref : String → Option Entry) (user : SpFile) (key : String) : Except Err (List Elt) := do
  match ← complete env ref user key with
  | .array l => .ok l
  | .plain _ => .error .attribute

/-! ### specification -/

/-- the value the user expects: the one in the species file, otherwise that of the library -/
def wanted (ref : String → Option Entry) (user : SpFile) (key : String) (i : ℕ) : Option SpV :=
  match user[i]? with
  | none => none
  | some (name, e) =>
    match (match e with | .map f => f key | .other => none) with
    | some v => some v
    | none => match ref name with
      | some (.map f) => f key
      | _ => none

/-! ### proofs -/

theorem mapM_ok {α β : Type} {f : α → Except Err β} {l : List α} {r : List β} (h : l.mapM f = .ok r) :
    r.length = l.length ∧ ∀ (i : ℕ) (a : α), l[i]? = some a → ∃ b, r[i]? = some b ∧ f a = .ok b := by
  induction l generalizing r with
  | nil => cases h; exact ⟨rfl, fun i a h => by simp at h⟩
  | cons x xs ih =>
    rw [List.mapM_cons] at h
    cases hx : f x with
    | error e => rw [hx] at h; cases h
    | ok y =>
    rw [hx] at h
    cases hxs : xs.mapM f with
    | error e => simp only [bind, Except.bind] at h; rw [hxs] at h; cases h
    | ok ys =>
    simp only [bind, Except.bind] at h
    rw [hxs] at h
    cases h
    obtain ⟨h1, h2⟩ := ih hxs
    refine ⟨by simp [h1], fun i a ha => ?_⟩
    cases i with
    | zero => simp at ha; subst ha; exact ⟨y, rfl, hx⟩
    | succ i => simpa using h2 i a (by simpa using ha)

theorem mapM_total {α β : Type} {f : α → Except Err β} {l : List α} (h : ∀ a ∈ l, ∃ b, f a = .ok b) : ∃ r, l.mapM f = .ok r := by
  induction l with
  | nil => exact ⟨[], rfl⟩
  | cons x xs ih =>
    obtain ⟨y, hy⟩ := h x (by simp)
    obtain ⟨ys, hys⟩ := ih fun a ha => h a (by simp [ha])
    refine ⟨y :: ys, ?_⟩
    rw [List.mapM_cons, hy]
    simp only [bind, Except.bind]
    rw [hys]
    rfl

theorem completeOne_wanted {ref : String → Option Entry} {user : SpFile} {key : String} {i : ℕ} {sp : String × Entry}
    (hi : user[i]? = some sp) {v : SpV} : completeOne ref key sp = .ok v ↔ wanted ref user key i = some v := by
  obtain ⟨name, e⟩ := sp
  have hl : look ref name key = .ok v ↔ (match ref name with | some (.map f) => f key | _ => none) = some v := by
    unfold look
    cases hr : ref name with
    | none => simp
    | some e =>
      cases e with
      | other => simp
      | map f => cases hf : f key <;> simp [hf]
  unfold completeOne wanted
  rw [hi]
  cases e with
  | other => exact hl
  | map f => cases hf : f key with
    | none => simpa [hf] using hl
    | some w => simp [hf]

/-- **C96** (values): whenever the table of a property is set up, it has one entry per species of the user's file, in that
    order, and the entry is the user's number (or row of numbers) if the file gives one, otherwise the library's. -/
theorem C96_values (env : Env) (ref : String → Option Entry) (user : SpFile) (key : String) {l : List Elt}
    (h : table env ref user key = .ok l) :
    l.length = user.length ∧ ∀ i < user.length, ∃ v, wanted ref user key i = some v ∧
      (∀ r, v = .num r → l[i]? = some (.num r)) ∧ (∀ a, v = .arr a → l[i]? = some (.row a)) ∧
      (∀ s, v = .str s → ∃ r, env.parseFloat s = some r ∧ l[i]? = some (.num r)) := by
  unfold table complete at h
  cases hp : user.mapM (completeOne ref key) with
  | error e => rw [hp] at h; cases h
  | ok prop =>
  rw [hp] at h
  obtain ⟨hlen, hval⟩ := mapM_ok hp
  simp only [bind, Except.bind] at h
  cases prop with
  | nil => cases h
  | cons p ps =>
    have key' : ∀ l', (p :: ps).mapM (toElt env) = .ok l' → l' = l → l.length = user.length ∧ ∀ i < user.length,
        ∃ v, wanted ref user key i = some v ∧ (∀ r, v = .num r → l[i]? = some (.num r)) ∧ (∀ a, v = .arr a → l[i]? = some (.row a)) ∧
        (∀ s, v = .str s → ∃ r, env.parseFloat s = some r ∧ l[i]? = some (.num r)) := by
      rintro l' hl' rfl
      obtain ⟨h1, h2⟩ := mapM_ok hl'
      refine ⟨h1.trans hlen, fun i hi => ?_⟩
      obtain ⟨v, hv, hc⟩ := hval i _ (List.getElem?_eq_getElem hi)
      obtain ⟨b, hb, ht⟩ := h2 i v hv
      refine ⟨v, (completeOne_wanted (List.getElem?_eq_getElem hi)).mp hc, ?_, ?_, ?_⟩
      · rintro r rfl; cases ht; exact hb
      · rintro r rfl; cases ht; exact hb
      · rintro s rfl
        simp only [toElt] at ht
        cases hpf : env.parseFloat s with
        | none => rw [hpf] at ht; cases ht
        | some r => rw [hpf] at ht; cases ht; exact ⟨r, rfl, hb⟩
    cases hm : (p :: ps).mapM (toElt env) with
    | error e => rw [hm] at h; cases p <;> cases h
    | ok l' =>
      rw [hm] at h
      refine key' l' hm ?_
      cases p <;> simp only [toElt] at h
      · split at h
        · cases h
        · rename_i h'; split at h' <;> cases h'; cases h; rfl
      · split at h
        · cases h
        · rename_i h'; split at h' <;> cases h'; cases h; rfl
      · cases h
      · split at h
        · cases h
        · rename_i h'; split at h' <;> cases h'; cases h; rfl

/-- **C96** (completeness): data that neither the user nor the library has for some species always stops the set-up; numbers for
    every species always give a table. -/
theorem C96_missing (env : Env) (ref : String → Option Entry) (user : SpFile) (key : String) :
    ((∃ i < user.length, wanted ref user key i = none) → ∀ l, table env ref user key ≠ .ok l) ∧
    ((user ≠ [] ∧ ∀ i < user.length, ∃ r, wanted ref user key i = some (.num r)) → ∃ l, table env ref user key = .ok l) := by
  constructor
  · rintro ⟨i, hi, hn⟩ l hl
    obtain ⟨_, h⟩ := C96_values env ref user key hl
    obtain ⟨v, hv, _⟩ := h i hi
    rw [hn] at hv
    cases hv
  · rintro ⟨hne, h⟩
    have h' : ∀ sp ∈ user, ∃ r, completeOne ref key sp = .ok (.num r) := by
      intro sp hsp
      obtain ⟨i, hi, rfl⟩ := List.getElem_of_mem hsp
      obtain ⟨r, hr⟩ := h i hi
      exact ⟨r, (completeOne_wanted (List.getElem?_eq_getElem hi)).mpr hr⟩
    obtain ⟨prop, hp⟩ := mapM_total (f := completeOne ref key) (l := user) fun a ha => let ⟨r, hr⟩ := h' a ha; ⟨_, hr⟩
    obtain ⟨hlen, hval⟩ := mapM_ok hp
    have hnum : ∀ v ∈ prop, ∃ r, v = .num r := by
      intro v hv
      obtain ⟨i, hi, rfl⟩ := List.getElem_of_mem hv
      obtain ⟨b, hb, hc⟩ := hval i _ (List.getElem?_eq_getElem (hlen ▸ hi))
      obtain ⟨r, hr⟩ := h' _ (List.getElem_mem (hlen ▸ hi))
      rw [hr] at hc
      cases hc
      rw [List.getElem?_eq_getElem hi] at hb
      exact ⟨r, by simpa using hb⟩
    obtain ⟨l, hl⟩ := mapM_total (f := toElt env) (l := prop) fun a ha => by
      obtain ⟨r, rfl⟩ := hnum a ha
      exact ⟨_, rfl⟩
    obtain ⟨hlen2, hval2⟩ := mapM_ok hl
    have hlnum : ∀ x ∈ l, x.len = none := by
      intro x hx
      obtain ⟨i, hi, rfl⟩ := List.getElem_of_mem hx
      obtain ⟨b, hb, hc⟩ := hval2 i _ (List.getElem?_eq_getElem (hlen2 ▸ hi))
      obtain ⟨r, hr⟩ := hnum _ (List.getElem_mem (hlen2 ▸ hi))
      rw [hr] at hc
      cases hc
      rw [List.getElem?_eq_getElem hi] at hb
      have : l[i] = .num r := by simpa using hb
      rw [this]; rfl
    cases prop with
    | nil => simp at hlen; exact absurd hlen.symm (by simpa using hne)
    | cons p ps =>
      obtain ⟨r, rfl⟩ := hnum p (by simp)
      refine ⟨l, ?_⟩
      unfold table complete
      rw [hp]
      simp only [bind, Except.bind, toElt]
      rw [hl]
      simp only
      split
      · rename_i hx
        split at hx
        · cases hx
        · rename_i hc; exact absurd hlnum hc
      · rename_i hx
        split at hx
        · cases hx; rfl
        · rename_i hc; exact absurd hlnum hc

/-- **C96** (where the file is looked for): the file in the input directory is used if there is one, then the one in the working
    directory, then the one of the same name in the data base, then the name taken as a path; no file is an error -/
theorem C96_search (open' : String → Option SpFile) (inputDir relpath spdata : String) :
    let places := [inputDir ++ "/" ++ spdata, "./" ++ spdata, relpath ++ "/database/" ++ spdata, spdata]
    (∀ f, findSpData open' inputDir relpath spdata = .ok f ↔
      ∃ n, n < 4 ∧ (places[n]?.bind open') = some f ∧ ∀ m < n, (places[m]?.bind open') = none) ∧
    ((∀ p ∈ places, open' p = none) → findSpData open' inputDir relpath spdata = .error .value) := by
  intro places
  have e : findSpData open' inputDir relpath spdata = match places.findSome? open' with | some f => .ok f | none => .error .value := rfl
  refine ⟨fun f => ?_, fun h => ?_⟩
  · rw [e]
    simp only [places, List.findSome?]
    constructor
    · intro h
      cases h0 : open' (inputDir ++ "/" ++ spdata) with
      | some g => rw [h0] at h; cases h; exact ⟨0, by omega, by simp [h0], fun m hm => absurd hm (Nat.not_lt_zero m)⟩
      | none =>
      rw [h0] at h
      cases h1 : open' ("./" ++ spdata) with
      | some g => rw [h1] at h; cases h; exact ⟨1, by omega, by simp [h1], fun m hm => by interval_cases m; simp [h0]⟩
      | none =>
      rw [h1] at h
      cases h2 : open' (relpath ++ "/database/" ++ spdata) with
      | some g =>
        rw [h2] at h; cases h
        exact ⟨2, by omega, by simp [h2], fun m hm => by interval_cases m <;> simp [h0, h1]⟩
      | none =>
      rw [h2] at h
      cases h3 : open' spdata with
      | some g =>
        rw [h3] at h; cases h
        exact ⟨3, by omega, by simp [h3], fun m hm => by interval_cases m <;> simp [h0, h1, h2]⟩
      | none => rw [h3] at h; cases h
    · rintro ⟨n, hn, hf, hb⟩
      interval_cases n
      · have hf : open' (inputDir ++ "/" ++ spdata) = some f := by simpa using hf
        rw [hf]
      · have hf : open' ("./" ++ spdata) = some f := by simpa using hf
        have b0 : open' (inputDir ++ "/" ++ spdata) = none := by simpa using hb 0 (by omega)
        rw [b0, hf]
      · have hf : open' (relpath ++ "/database/" ++ spdata) = some f := by simpa using hf
        have b0 : open' (inputDir ++ "/" ++ spdata) = none := by simpa using hb 0 (by omega)
        have b1 : open' ("./" ++ spdata) = none := by simpa using hb 1 (by omega)
        rw [b0, b1, hf]
      · have hf : open' spdata = some f := by simpa using hf
        have b0 : open' (inputDir ++ "/" ++ spdata) = none := by simpa using hb 0 (by omega)
        have b1 : open' ("./" ++ spdata) = none := by simpa using hb 1 (by omega)
        have b2 : open' (relpath ++ "/database/" ++ spdata) = none := by simpa using hb 2 (by omega)
        rw [b0, b1, b2, hf]
  · rw [e]
    simp only [places, List.mem_cons, List.not_mem_nil, or_false, forall_eq_or_imp, forall_eq] at h
    simp only [places, List.findSome?, h]

/-- **C96** (names only): a list of names without repetition is taken as it stands -/
theorem C96_names {l : List String} (h : l.Nodup) : (namesOnly l).map Prod.fst = l := by
  have gen : ∀ (l acc : List String), (acc ++ l).Nodup →
      l.foldl (fun acc s => if s ∈ acc then acc else acc ++ [s]) acc = acc ++ l := by
    intro l
    induction l with
    | nil => intro acc _; simp
    | cons x xs ih =>
      intro acc hn
      have hx : x ∉ acc := fun hx => by
        have := List.nodup_append.mp hn
        exact this.2.2 x hx x (by simp) rfl
      rw [List.foldl_cons, if_neg hx, ih (acc ++ [x]) (by simpa using hn)]
      simp
  unfold namesOnly
  rw [gen l [] (by simpa using h), List.map_map]
  simp [Function.comp_def]

/-- **C96** is violated when the file has a property name without a value: the property becomes not-a-number although the library
    has a value, without a complaint -/
theorem C96_empty_value_violated (env : Env) : ∃ ref user,
    wanted ref user "mu0" 0 = some .null ∧ table env ref user "mu0" = .ok [.nan] ∧ look ref "Air" "mu0" = .ok (.num (18/1000000)) :=
  ⟨fun s => if s = "Air" then some (.map fun k => if k = "mu0" then some (.num (18/1000000)) else none) else none,
    [("Air", .map fun k => if k = "mu0" then some .null else none)], rfl, rfl, rfl⟩

/-- **C96** is violated by numbers YAML takes for texts (`1e-5`): the same two species with the same data are accepted in one
    order and refused in the other -/
theorem C96_notation_violated (env : Env) (hf : env.parseFloat "1e-5" = some (1/100000)) :
    let a : String × Entry := ("A", .map fun k => if k = "mu0" then some (.num (2/100000)) else none)
    let b : String × Entry := ("B", .map fun k => if k = "mu0" then some (.str "1e-5") else none)
    table env (fun _ => none) [a, b] "mu0" = .ok [.num (2/100000), .num (1/100000)] ∧
    table env (fun _ => none) [b, a] "mu0" = .error .attribute := by
  refine ⟨?_, rfl⟩
  simp only [table, complete, completeOne, List.mapM_cons, List.mapM_nil, bind, Except.bind, pure, Except.pure, if_true, toElt, hf, Elt.len]
  simp [Elt.len]

/-- user data for one species, library data for another -/
example : ∃ l, table ⟨fun _ => none, 2, fun _ => true⟩
    (fun s => if s = "O2" then some (.map fun k => if k = "MW" then some (.num 32) else none) else some .other)
    [("X", .map fun k => if k = "MW" then some (.num 7) else none), ("O2", .other)] "MW" = .ok l ∧ l = [.num 7, .num 32] :=
  ⟨_, rfl, rfl⟩

end PG.Config
