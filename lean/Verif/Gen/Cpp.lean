import Mathlib.Analysis.SpecialFunctions.Pow.Real

/-!
A reader for the straight-line C++ that `utilities/ct2pgChem.py` writes: tokens, the usual expression grammar
(`*` and `/` bind tighter than `+` and `-`, both associate to the left, unary minus binds tighter than `*`), and the value
of an expression in a store. This is part of the specification: it says what the compiler makes of the generated text.
Doubles are reals, `exp log log10 pow` are the real functions. White space is dropped, `cs[3]` and `th.MW(3)` are one
token, a literal is never negative (`-5.0` is two tokens).
-/
namespace PG.Gen

inductive Tok where
  | num (x : ℝ)
  | id (s : String)
  | ix (s : String) (n : ℕ)
  | fn (s : String)
  | plus | minus | star | slash | lp | rp | comma

inductive Ex where
  | num (x : ℝ)
  | id (s : String)
  | ix (s : String) (n : ℕ)
  | neg (e : Ex)
  | add (a b : Ex)
  | sub (a b : Ex)
  | mul (a b : Ex)
  | div (a b : Ex)
  | call (s : String) (e : Ex)
  | call2 (s : String) (a b : Ex)

abbrev Res := Option (Ex × List Tok)

/- recursive descent; the first argument bounds the number of calls -/
mutual
def pSum : ℕ → List Tok → Res
  | 0, _ => none
  | f+1, ts => (pTerm f ts).bind fun r => pSumLoop f r.1 r.2
def pSumLoop : ℕ → Ex → List Tok → Res
  | 0, _, _ => none
  | f+1, a, .plus :: ts => (pTerm f ts).bind fun r => pSumLoop f (.add a r.1) r.2
  | f+1, a, .minus :: ts => (pTerm f ts).bind fun r => pSumLoop f (.sub a r.1) r.2
  | _+1, a, ts => some (a, ts)
def pTerm : ℕ → List Tok → Res
  | 0, _ => none
  | f+1, ts => (pUn f ts).bind fun r => pTermLoop f r.1 r.2
def pTermLoop : ℕ → Ex → List Tok → Res
  | 0, _, _ => none
  | f+1, a, .star :: ts => (pUn f ts).bind fun r => pTermLoop f (.mul a r.1) r.2
  | f+1, a, .slash :: ts => (pUn f ts).bind fun r => pTermLoop f (.div a r.1) r.2
  | _+1, a, ts => some (a, ts)
def pUn : ℕ → List Tok → Res
  | 0, _ => none
  | f+1, .minus :: ts => (pUn f ts).bind fun r => some (.neg r.1, r.2)
  | _+1, .num x :: ts => some (.num x, ts)
  | _+1, .id s :: ts => some (.id s, ts)
  | _+1, .ix s n :: ts => some (.ix s n, ts)
  | f+1, .lp :: ts => (pSum f ts).bind fun r => match r.2 with
      | .rp :: ts' => some (r.1, ts')
      | _ => none
  | f+1, .fn s :: .lp :: ts => (pSum f ts).bind fun r => match r.2 with
      | .rp :: ts' => some (.call s r.1, ts')
      | .comma :: ts' => (pSum f ts').bind fun r' => match r'.2 with
          | .rp :: ts'' => some (.call2 s r.1 r'.1, ts'')
          | _ => none
      | _ => none
  | _+1, _ => none
end

/-- the text is an expression -/
def Reads (ts : List Tok) (e : Ex) : Prop := ∃ f, pSum f ts = some (e, [])

/-- scalars and arrays -/
structure Store where
  v : String → ℝ
  a : String → ℕ → ℝ

noncomputable section

/-- library functions of one argument -/
def lib (s : String) (x : ℝ) : ℝ :=
  if s = "exp" then Real.exp x else if s = "log" then Real.log x else if s = "log10" then Real.log x / Real.log 10 else 0

/-- value of an expression -/
def eval (σ : Store) : Ex → ℝ
  | .num x => x
  | .id s => σ.v s
  | .ix s n => σ.a s n
  | .neg e => -eval σ e
  | .add a b => eval σ a + eval σ b
  | .sub a b => eval σ a - eval σ b
  | .mul a b => eval σ a * eval σ b
  | .div a b => eval σ a / eval σ b
  | .call s e => lib s (eval σ e)
  | .call2 s a b => if s = "pow" then eval σ a ^ eval σ b else 0

/-- `x = e;`, `x *= e;`, `x[n] = e;` -/
inductive Stmt where
  | set (s : String) (ts : List Tok)
  | mulSet (s : String) (ts : List Tok)
  | setIx (s : String) (n : ℕ) (ts : List Tok)

def Store.put (σ : Store) (s : String) (x : ℝ) : Store := { σ with v := fun t => if t = s then x else σ.v t }
def Store.putIx (σ : Store) (s : String) (n : ℕ) (x : ℝ) : Store :=
  { σ with a := fun t m => if t = s ∧ m = n then x else σ.a t m }

/-- one statement; text that is not an expression has no step -/
inductive Step : Store → Stmt → Store → Prop
  | set {σ s ts e} : Reads ts e → Step σ (.set s ts) (σ.put s (eval σ e))
  | mulSet {σ s ts e} : Reads ts e → Step σ (.mulSet s ts) (σ.put s (σ.v s * eval σ e))
  | setIx {σ s n ts e} : Reads ts e → Step σ (.setIx s n ts) (σ.putIx s n (eval σ e))

/-- a statement sequence -/
inductive Run : Store → List Stmt → Store → Prop
  | nil {σ} : Run σ [] σ
  | cons {σ σ' σ'' s p} : Step σ s σ' → Run σ' p σ'' → Run σ (s :: p) σ''

end

/-! ### more calls allowed: same answer -/

theorem mono (f : ℕ) :
    (∀ ts r, pSum f ts = some r → pSum (f+1) ts = some r) ∧
    (∀ a ts r, pSumLoop f a ts = some r → pSumLoop (f+1) a ts = some r) ∧
    (∀ ts r, pTerm f ts = some r → pTerm (f+1) ts = some r) ∧
    (∀ a ts r, pTermLoop f a ts = some r → pTermLoop (f+1) a ts = some r) ∧
    (∀ ts r, pUn f ts = some r → pUn (f+1) ts = some r) := by
  induction f with
  | zero => refine ⟨?_, ?_, ?_, ?_, ?_⟩ <;> intros <;> simp_all [pSum, pSumLoop, pTerm, pTermLoop, pUn]
  | succ f ih =>
    obtain ⟨h1, h2, h3, h4, h5⟩ := ih
    refine ⟨?_, ?_, ?_, ?_, ?_⟩
    · intro ts r h
      simp only [pSum, Option.bind_eq_some_iff] at h ⊢
      obtain ⟨x, hx, hr⟩ := h
      exact ⟨x, h3 _ _ hx, h2 _ _ _ hr⟩
    · intro a ts r h
      rcases ts with _ | ⟨t, ts⟩
      · exact h
      · cases t with
        | plus =>
          simp only [pSumLoop, Option.bind_eq_some_iff] at h ⊢
          obtain ⟨x, hx, hr⟩ := h
          exact ⟨x, h3 _ _ hx, h2 _ _ _ hr⟩
        | minus =>
          simp only [pSumLoop, Option.bind_eq_some_iff] at h ⊢
          obtain ⟨x, hx, hr⟩ := h
          exact ⟨x, h3 _ _ hx, h2 _ _ _ hr⟩
        | _ => exact h
    · intro ts r h
      simp only [pTerm, Option.bind_eq_some_iff] at h ⊢
      obtain ⟨x, hx, hr⟩ := h
      exact ⟨x, h5 _ _ hx, h4 _ _ _ hr⟩
    · intro a ts r h
      rcases ts with _ | ⟨t, ts⟩
      · exact h
      · cases t with
        | star =>
          simp only [pTermLoop, Option.bind_eq_some_iff] at h ⊢
          obtain ⟨x, hx, hr⟩ := h
          exact ⟨x, h5 _ _ hx, h4 _ _ _ hr⟩
        | slash =>
          simp only [pTermLoop, Option.bind_eq_some_iff] at h ⊢
          obtain ⟨x, hx, hr⟩ := h
          exact ⟨x, h5 _ _ hx, h4 _ _ _ hr⟩
        | _ => exact h
    · intro ts r h
      rcases ts with _ | ⟨t, ts⟩
      · simp [pUn] at h
      · cases t with
        | minus =>
          simp only [pUn, Option.bind_eq_some_iff] at h ⊢
          obtain ⟨x, hx, hr⟩ := h
          exact ⟨x, h5 _ _ hx, hr⟩
        | lp =>
          simp only [pUn, Option.bind_eq_some_iff] at h ⊢
          obtain ⟨x, hx, hr⟩ := h
          exact ⟨x, h1 _ _ hx, hr⟩
        | fn s =>
          rcases ts with _ | ⟨u, ts⟩
          · simp [pUn] at h
          · cases u with
            | lp =>
              simp only [pUn, Option.bind_eq_some_iff] at h ⊢
              obtain ⟨x, hx, hr⟩ := h
              refine ⟨x, h1 _ _ hx, ?_⟩
              obtain ⟨a, l⟩ := x
              rcases l with _ | ⟨w, l⟩
              · simp at hr
              · cases w with
                | comma =>
                  simp only [Option.bind_eq_some_iff] at hr ⊢
                  obtain ⟨y, hy, hr⟩ := hr
                  exact ⟨y, h1 _ _ hy, hr⟩
                | _ => simpa using hr
            | _ => simp [pUn] at h
        | _ => simp_all [pUn]

theorem mono_le {f g : ℕ} (h : f ≤ g) :
    (∀ ts r, pSum f ts = some r → pSum g ts = some r) ∧
    (∀ a ts r, pSumLoop f a ts = some r → pSumLoop g a ts = some r) ∧
    (∀ ts r, pTerm f ts = some r → pTerm g ts = some r) ∧
    (∀ a ts r, pTermLoop f a ts = some r → pTermLoop g a ts = some r) ∧
    (∀ ts r, pUn f ts = some r → pUn g ts = some r) := by
  induction h with
  | refl => exact ⟨fun _ _ h => h, fun _ _ _ h => h, fun _ _ h => h, fun _ _ _ h => h, fun _ _ h => h⟩
  | step _ ih =>
    obtain ⟨h1, h2, h3, h4, h5⟩ := ih
    obtain ⟨m1, m2, m3, m4, m5⟩ := mono ‹ℕ›
    exact ⟨fun _ _ h => m1 _ _ (h1 _ _ h), fun _ _ _ h => m2 _ _ _ (h2 _ _ _ h), fun _ _ h => m3 _ _ (h3 _ _ h),
      fun _ _ _ h => m4 _ _ _ (h4 _ _ _ h), fun _ _ h => m5 _ _ (h5 _ _ h)⟩

/-- a text is read in at most one way -/
theorem Reads.unique {ts e e'} (h : Reads ts e) (h' : Reads ts e') : e = e' := by
  obtain ⟨f, hf⟩ := h
  obtain ⟨g, hg⟩ := h'
  have a := (mono_le (le_max_left f g)).1 _ _ hf
  have b := (mono_le (le_max_right f g)).1 _ _ hg
  rw [a] at b
  simpa using b

theorem Step.det {σ s a b} (h : Step σ s a) (h' : Step σ s b) : a = b := by
  cases h <;> cases h' <;> (rename_i e he e' he'; rw [he.unique he'])

theorem Run.det {σ p a b} (h : Run σ p a) (h' : Run σ p b) : a = b := by
  induction h with
  | nil => cases h'; rfl
  | cons hs _ ih => cases h' with | cons hs' hr' => cases hs.det hs'; exact ih hr'

theorem Run.append {σ σ' σ'' p p'} (h : Run σ p σ') (h' : Run σ' p' σ'') : Run σ (p ++ p') σ'' := by
  induction h with
  | nil => exact h'
  | cons hs _ ih => exact .cons hs (ih h')

/-! ### reading composite texts -/

variable {σ : Store}

/-- `ts` is read as one factor with value `v` -/
def UnV (σ : Store) (ts : List Tok) (v : ℝ) : Prop :=
  ∃ e, eval σ e = v ∧ ∀ rest, ∃ f, pUn f (ts ++ rest) = some (e, rest)

/-- `ts` is read as (the beginning of) a product with value `v` -/
def TermV (σ : Store) (ts : List Tok) (v : ℝ) : Prop :=
  ∃ e, eval σ e = v ∧ ∀ rest res, (∃ f, pTermLoop f e rest = some res) → ∃ f, pTerm f (ts ++ rest) = some res

/-- the next token does not continue a product -/
def NoMul : List Tok → Prop
  | .star :: _ => False
  | .slash :: _ => False
  | _ => True

/-- `ts` is read as (the beginning of) a sum with value `v` -/
def SumV (σ : Store) (ts : List Tok) (v : ℝ) : Prop :=
  ∃ e, eval σ e = v ∧ ∀ rest res, NoMul rest → (∃ f, pSumLoop f e rest = some res) → ∃ f, pSum f (ts ++ rest) = some res

theorem UnV.num (x : ℝ) : UnV σ [.num x] x := ⟨.num x, rfl, fun _ => ⟨1, rfl⟩⟩
theorem UnV.id (s : String) : UnV σ [.id s] (σ.v s) := ⟨.id s, rfl, fun _ => ⟨1, rfl⟩⟩
theorem UnV.ix (s : String) (n : ℕ) : UnV σ [.ix s n] (σ.a s n) := ⟨.ix s n, rfl, fun _ => ⟨1, rfl⟩⟩

theorem UnV.neg {ts v} (h : UnV σ ts v) : UnV σ (.minus :: ts) (-v) := by
  obtain ⟨e, he, h⟩ := h
  refine ⟨.neg e, by simp [eval, he], fun rest => ?_⟩
  obtain ⟨f, hf⟩ := h rest
  exact ⟨f+1, by simp [pUn, hf]⟩

theorem SumV.closed {ts v} (h : SumV σ ts v) (rest : List Tok)
    (hr : ∀ a, pSumLoop 1 a rest = some (a, rest)) (hm : NoMul rest) :
    ∃ e f, eval σ e = v ∧ pSum f (ts ++ rest) = some (e, rest) := by
  obtain ⟨e, he, h⟩ := h
  obtain ⟨f, hf⟩ := h rest (e, rest) hm ⟨1, hr e⟩
  exact ⟨e, f, he, hf⟩

/-- what a sum's reading depends on: the expression is the same whatever follows -/
theorem SumV.closed' {ts v} (h : SumV σ ts v) :
    ∃ e, eval σ e = v ∧ ∀ rest, (∀ a, pSumLoop 1 a rest = some (a, rest)) → NoMul rest → ∃ f, pSum f (ts ++ rest) = some (e, rest) := by
  obtain ⟨e, he, h⟩ := h
  exact ⟨e, he, fun rest hr hm => h rest (e, rest) hm ⟨1, hr e⟩⟩

theorem UnV.paren {ts v} (h : SumV σ ts v) : UnV σ (.lp :: (ts ++ [.rp])) v := by
  obtain ⟨e, he, h⟩ := h.closed'
  refine ⟨e, he, fun rest => ?_⟩
  obtain ⟨f, hf⟩ := h (.rp :: rest) (fun _ => rfl) trivial
  exact ⟨f+1, by simp [pUn, hf]⟩

theorem UnV.call (s : String) {ts v} (h : SumV σ ts v) : UnV σ (.fn s :: .lp :: (ts ++ [.rp])) (lib s v) := by
  obtain ⟨e, he, h⟩ := h.closed'
  refine ⟨.call s e, by simp [eval, he], fun rest => ?_⟩
  obtain ⟨f, hf⟩ := h (.rp :: rest) (fun _ => rfl) trivial
  exact ⟨f+1, by simp [pUn, hf]⟩

theorem UnV.pow {ts v us w} (h : SumV σ ts v) (h' : SumV σ us w) :
    UnV σ (.fn "pow" :: .lp :: (ts ++ .comma :: (us ++ [.rp]))) (v ^ w) := by
  obtain ⟨e, he, h⟩ := h.closed'
  obtain ⟨e', he', h'⟩ := h'.closed'
  refine ⟨.call2 "pow" e e', by simp [eval, he, he'], fun rest => ?_⟩
  obtain ⟨f, hf⟩ := h (.comma :: (us ++ .rp :: rest)) (fun _ => rfl) trivial
  obtain ⟨g, hg⟩ := h' (.rp :: rest) (fun _ => rfl) trivial
  have a := (mono_le (le_max_left f g)).1 _ _ hf
  have b := (mono_le (le_max_right f g)).1 _ _ hg
  exact ⟨max f g + 1, by simp [pUn, a, b]⟩

theorem UnV.term {ts v} (h : UnV σ ts v) : TermV σ ts v := by
  obtain ⟨e, he, h⟩ := h
  refine ⟨e, he, fun rest res ⟨g, hg⟩ => ?_⟩
  obtain ⟨f, hf⟩ := h rest
  have a := (mono_le (le_max_left f g)).2.2.2.2 _ _ hf
  have b := (mono_le (le_max_right f g)).2.2.2.1 _ _ _ hg
  exact ⟨max f g + 1, by simp [pTerm, a, b]⟩

theorem TermV.mul {ts v us w} (h : TermV σ ts v) (h' : UnV σ us w) : TermV σ (ts ++ .star :: us) (v * w) := by
  obtain ⟨e, he, h⟩ := h
  obtain ⟨e', he', h'⟩ := h'
  refine ⟨.mul e e', by simp [eval, he, he'], fun rest res ⟨g, hg⟩ => ?_⟩
  rw [List.append_assoc]
  apply h
  obtain ⟨f, hf⟩ := h' rest
  have a := (mono_le (le_max_left f g)).2.2.2.2 _ _ hf
  have b := (mono_le (le_max_right f g)).2.2.2.1 _ _ _ hg
  exact ⟨max f g + 1, by simp [pTermLoop, a, b]⟩

theorem TermV.div {ts v us w} (h : TermV σ ts v) (h' : UnV σ us w) : TermV σ (ts ++ .slash :: us) (v / w) := by
  obtain ⟨e, he, h⟩ := h
  obtain ⟨e', he', h'⟩ := h'
  refine ⟨.div e e', by simp [eval, he, he'], fun rest res ⟨g, hg⟩ => ?_⟩
  rw [List.append_assoc]
  apply h
  obtain ⟨f, hf⟩ := h' rest
  have a := (mono_le (le_max_left f g)).2.2.2.2 _ _ hf
  have b := (mono_le (le_max_right f g)).2.2.2.1 _ _ _ hg
  exact ⟨max f g + 1, by simp [pTermLoop, a, b]⟩

theorem loop_stop {e : Ex} {rest : List Tok} (h : NoMul rest) : pTermLoop 1 e rest = some (e, rest) := by
  rcases rest with _ | ⟨t, r⟩
  · rfl
  · cases t <;> first | rfl | exact h.elim

theorem TermV.sum {ts v} (h : TermV σ ts v) : SumV σ ts v := by
  obtain ⟨e, he, h⟩ := h
  refine ⟨e, he, fun rest res hm ⟨g, hg⟩ => ?_⟩
  obtain ⟨f, hf⟩ := h rest (e, rest) ⟨1, loop_stop hm⟩
  have a := (mono_le (le_max_left f g)).2.2.1 _ _ hf
  have b := (mono_le (le_max_right f g)).2.1 _ _ _ hg
  exact ⟨max f g + 1, by simp [pSum, a, b]⟩

theorem SumV.add {ts v us w} (h : SumV σ ts v) (h' : TermV σ us w) : SumV σ (ts ++ .plus :: us) (v + w) := by
  obtain ⟨e, he, h⟩ := h
  obtain ⟨e', he', h'⟩ := h'
  refine ⟨.add e e', by simp [eval, he, he'], fun rest res hm ⟨g, hg⟩ => ?_⟩
  rw [List.append_assoc]
  refine h _ _ trivial ?_
  obtain ⟨f, hf⟩ := h' rest (e', rest) ⟨1, loop_stop hm⟩
  have a := (mono_le (le_max_left f g)).2.2.1 _ _ hf
  have b := (mono_le (le_max_right f g)).2.1 _ _ _ hg
  exact ⟨max f g + 1, by simp [pSumLoop, a, b]⟩

theorem SumV.sub {ts v us w} (h : SumV σ ts v) (h' : TermV σ us w) : SumV σ (ts ++ .minus :: us) (v - w) := by
  obtain ⟨e, he, h⟩ := h
  obtain ⟨e', he', h'⟩ := h'
  refine ⟨.sub e e', by simp [eval, he, he'], fun rest res hm ⟨g, hg⟩ => ?_⟩
  rw [List.append_assoc]
  refine h _ _ trivial ?_
  obtain ⟨f, hf⟩ := h' rest (e', rest) ⟨1, loop_stop hm⟩
  have a := (mono_le (le_max_left f g)).2.2.1 _ _ hf
  have b := (mono_le (le_max_right f g)).2.1 _ _ _ hg
  exact ⟨max f g + 1, by simp [pSumLoop, a, b]⟩

/-- a text read as a sum is an expression -/
theorem SumV.reads {ts v} (h : SumV σ ts v) : ∃ e, Reads ts e ∧ eval σ e = v := by
  obtain ⟨e, he, h⟩ := h.closed'
  obtain ⟨f, hf⟩ := h [] (fun _ => rfl) trivial
  exact ⟨e, ⟨f, by simpa using hf⟩, he⟩

theorem Step.set' {s ts v} (h : SumV σ ts v) : Step σ (.set s ts) (σ.put s v) := by
  obtain ⟨e, hr, rfl⟩ := h.reads
  exact .set hr

theorem Step.mulSet' {s ts v} (h : SumV σ ts v) : Step σ (.mulSet s ts) (σ.put s (σ.v s * v)) := by
  obtain ⟨e, hr, rfl⟩ := h.reads
  exact .mulSet hr

theorem Step.setIx' {s n ts v} (h : SumV σ ts v) : Step σ (.setIx s n ts) (σ.putIx s n v) := by
  obtain ⟨e, hr, rfl⟩ := h.reads
  exact .setIx hr

end PG.Gen
