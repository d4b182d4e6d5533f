import Mathlib.Data.List.Basic
import Mathlib.Tactic.Ring
import Mathlib.Tactic.Linarith
import Mathlib.Tactic.IntervalCases
/-
Python text primitives used by the readers and writers of /repo (str(int), f"{n:06d}", int(s), str.strip, str.split(","),
str.splitlines): strings are lists of characters.
-/
namespace PG.Text

/-- the decimal digit character of `d < 10` -/
def digit (d : ℕ) : Char := Char.ofNat (48 + d)

/-- `str(n)` / `f"{n}"` for a non-negative integer -/
def decimal (n : ℕ) : List Char :=
  if h : n < 10 then [digit n] else decimal (n / 10) ++ [digit (n % 10)]
termination_by n

/-- `f"{n:0{w}d}"` for a non-negative integer: zero padded on the left to width `w`, never truncated -/
def padded (w n : ℕ) : List Char := List.replicate (w - (decimal n).length) '0' ++ decimal n

/-- white space removed by `str.strip()` and skipped by `int()` (ASCII part) -/
def isSpace (c : Char) : Bool :=
  c == ' ' || c == '\t' || c == '\n' || c == '\r' || c == Char.ofNat 11 || c == Char.ofNat 12 ||
  c == Char.ofNat 28 || c == Char.ofNat 29 || c == Char.ofNat 30 || c == Char.ofNat 31

/-- `str.strip()` -/
def strip (s : List Char) : List Char := ((s.dropWhile isSpace).reverse.dropWhile isSpace).reverse

/-- `s.split(",")`: always at least one piece -/
def splitComma : List Char → List (List Char)
  | [] => [[]]
  | c :: cs => if c = ',' then [] :: splitComma cs
      else match splitComma cs with
        | [] => [[c]]
        | p :: ps => (c :: p) :: ps

/-- line boundaries of `str.splitlines()` (ASCII part) -/
def isBreak (c : Char) : Bool :=
  c == '\n' || c == '\r' || c == Char.ofNat 11 || c == Char.ofNat 12 || c == Char.ofNat 28 || c == Char.ofNat 29 ||
  c == Char.ofNat 30

/-- line boundaries of a text file opened with universal newlines (`f.readlines()`) -/
def isNewline (c : Char) : Bool := c == '\n' || c == '\r'

/-- a line feed directly after a carriage return belongs to the same line boundary -/
def dropLF : List Char → List Char
  | [] => []
  | c :: cs => if c = '\n' then cs else c :: cs

theorem dropLF_length (s : List Char) : (dropLF s).length ≤ s.length := by
  cases s with
  | nil => simp [dropLF]
  | cons c cs => simp only [dropLF]; split <;> simp

/-- split at line boundaries; `acc` is the part of the current line already seen; the boundaries are dropped -/
def linesGo (brk : Char → Bool) : List Char → List Char → List (List Char)
  | acc, [] => if acc = [] then [] else [acc]
  | acc, c :: cs =>
      if brk c then acc :: linesGo brk [] (if c = '\r' then dropLF cs else cs)
      else linesGo brk (acc ++ [c]) cs
termination_by _ s => s.length
decreasing_by
  · split
    · have := dropLF_length cs; simp; omega
    · simp
  · simp

/-- `s.splitlines(keepends=False)` -/
def splitlines (s : List Char) : List (List Char) := linesGo isBreak [] s

/-- the lines of `f.readlines()`, line ends removed (every use strips them) -/
def readlines (s : List Char) : List (List Char) := linesGo isNewline [] s

/-- value of a decimal digit character -/
def digitVal (c : Char) : Option ℕ := if 48 ≤ c.toNat ∧ c.toNat ≤ 57 then some (c.toNat - 48) else none

/-- value of a digit string; underscores between digits are accepted, as `int()` does -/
def digitsVal : ℕ → Bool → List Char → Option ℕ
  | v, _, [] => some v
  | v, ok, c :: cs =>
      match digitVal c with
      | some d => digitsVal (10 * v + d) true cs
      | none => if c = '_' ∧ ok ∧ cs ≠ [] then digitsVal v false cs else none

/-- unsigned part: at least one character, not starting with an underscore -/
def unsigned (s : List Char) : Option ℕ := if s = [] then none else digitsVal 0 false s

/-- `int(s)`; none is the ValueError -/
def pyInt (s : List Char) : Option ℤ :=
  match strip s with
  | '-' :: r => (unsigned r).map (fun n => -(n : ℤ))
  | '+' :: r => (unsigned r).map (fun n => (n : ℤ))
  | r => (unsigned r).map (fun n => (n : ℤ))

/-! #### Facts about them -/

theorem digit_toNat {d : ℕ} (h : d < 10) : (digit d).toNat = 48 + d := by
  interval_cases d <;> decide

theorem digitVal_digit {d : ℕ} (h : d < 10) : digitVal (digit d) = some d := by
  unfold digitVal; rw [digit_toNat h]; rw [if_pos (by omega)]; simp

/-- a decimal digit character -/
def IsDigit (c : Char) : Prop := ∃ d, d < 10 ∧ c = digit d

theorem decimal_digits (n : ℕ) : ∀ c ∈ decimal n, IsDigit c := by
  induction n using Nat.strong_induction_on with
  | _ n ih =>
    rw [decimal]
    split
    · rename_i h; intro c hc; simp at hc; exact ⟨n, h, hc⟩
    · rename_i h
      intro c hc
      rw [List.mem_append] at hc
      rcases hc with hc | hc
      · exact ih _ (Nat.div_lt_self (by omega) (by norm_num)) c hc
      · simp at hc; exact ⟨n % 10, Nat.mod_lt _ (by norm_num), hc⟩

theorem decimal_ne_nil (n : ℕ) : decimal n ≠ [] := by
  rw [decimal]; split <;> simp

theorem digitsVal_append (v : ℕ) (b : Bool) (s t : List Char) (hs : ∀ c ∈ s, IsDigit c) (hn : s ≠ []) (w : ℕ)
    (h : digitsVal v b s = some w) : digitsVal v b (s ++ t) = digitsVal w true t := by
  induction s generalizing v b w with
  | nil => exact absurd rfl hn
  | cons c cs ih =>
    obtain ⟨d, hd, rfl⟩ := hs c (by simp)
    simp only [List.cons_append, digitsVal, digitVal_digit hd] at h ⊢
    by_cases hc : cs = []
    · subst hc; simp [digitsVal] at h ⊢; rw [h]
    · exact ih _ _ (fun x hx => hs x (by simp [hx])) hc _ h

theorem digitsVal_decimal (n : ℕ) (b : Bool) : digitsVal 0 b (decimal n) = some n := by
  induction n using Nat.strong_induction_on generalizing b with
  | _ n ih =>
    rw [decimal]
    split
    · rename_i h; simp [digitsVal, digitVal_digit h]
    · rename_i h
      have h1 := ih (n/10) (Nat.div_lt_self (by omega) (by norm_num)) b
      rw [digitsVal_append 0 b _ _ (decimal_digits _) (decimal_ne_nil _) _ h1]
      have : n % 10 < 10 := Nat.mod_lt _ (by norm_num)
      simp [digitsVal, digitVal_digit this]
      omega

theorem isDigit_not_space {c : Char} (h : IsDigit c) : isSpace c = false := by
  obtain ⟨d, hd, rfl⟩ := h
  interval_cases d <;> decide

theorem isDigit_not_break {c : Char} (h : IsDigit c) : isBreak c = false := by
  obtain ⟨d, hd, rfl⟩ := h
  interval_cases d <;> decide

theorem isDigit_ne {c : Char} (h : IsDigit c) : c ≠ ',' ∧ c ≠ '-' ∧ c ≠ '+' ∧ c ≠ '#' ∧ c ≠ '\r' ∧ c ≠ '.' ∧ c ≠ ' ' ∧ c ≠ '_' := by
  obtain ⟨d, hd, rfl⟩ := h
  interval_cases d <;> decide

/-- stripping removes leading spaces and leaves text with no space at its ends -/
theorem strip_pre (a b : List Char) (ha : ∀ c ∈ a, isSpace c = true) : strip (a ++ b) = strip b := by
  unfold strip
  rw [List.dropWhile_append_of_pos ha]

theorem strip_self (s : List Char) (h1 : ∀ c, s.head? = some c → isSpace c = false)
    (h2 : ∀ c, s.getLast? = some c → isSpace c = false) : strip s = s := by
  unfold strip
  have a : s.dropWhile isSpace = s := by
    cases s with
    | nil => rfl
    | cons c cs => rw [List.dropWhile_cons_of_neg]; simpa using h1 c rfl
  rw [a]
  have b : s.reverse.dropWhile isSpace = s.reverse := by
    cases hr : s.reverse with
    | nil => rfl
    | cons c cs =>
      rw [List.dropWhile_cons_of_neg]
      have : s.getLast? = some c := by
        rw [List.getLast?_eq_head?_reverse, hr]; rfl
      simpa using h2 c this
  rw [b, List.reverse_reverse]

theorem strip_post (a b : List Char) (hb : ∀ c ∈ b, isSpace c = true)
    (h2 : ∀ c, a.getLast? = some c → isSpace c = false) (h1 : ∀ c, a.head? = some c → isSpace c = false) :
    strip (a ++ b) = a := by
  by_cases ha : a = []
  · subst ha
    have := strip_pre b [] hb
    rw [List.append_nil] at this
    rw [List.nil_append, this]; rfl
  · unfold strip
    have e : (a ++ b).dropWhile isSpace = a ++ b := by
      cases a with
      | nil => exact absurd rfl ha
      | cons c cs => rw [List.cons_append, List.dropWhile_cons_of_neg]; simpa using h1 c rfl
    rw [e, List.reverse_append, List.dropWhile_append_of_pos (by simpa using hb)]
    have := strip_self a h1 h2
    unfold strip at this
    have e2 : a.dropWhile isSpace = a := by
      cases a with
      | nil => rfl
      | cons c cs => rw [List.dropWhile_cons_of_neg]; simpa using h1 c rfl
    rw [e2] at this
    exact this

theorem digits_strip (s : List Char) (h : ∀ c ∈ s, IsDigit c) : strip s = s :=
  strip_self s (fun c hc => isDigit_not_space (h c (List.mem_of_mem_head? hc)))
    (fun c hc => isDigit_not_space (h c (List.mem_of_mem_getLast? hc)))

/-- one line, no boundary inside, ended by a line feed -/
theorem linesGo_line (brk : Char → Bool) (hb : brk '\n' = true) (acc l r : List Char) (hl : ∀ c ∈ l, brk c = false) :
    linesGo brk acc (l ++ '\n' :: r) = (acc ++ l) :: linesGo brk [] r := by
  induction l generalizing acc with
  | nil =>
    rw [List.nil_append, linesGo, if_pos hb, if_neg (by decide), List.append_nil]
  | cons c cs ih =>
    rw [List.cons_append, linesGo, if_neg (by simp [hl c (by simp)]), ih _ (fun x hx => hl x (by simp [hx]))]
    simp

theorem splitComma_piece (p r : List Char) (hp : ',' ∉ p) : splitComma (p ++ ',' :: r) = p :: splitComma r := by
  induction p with
  | nil => simp [splitComma]
  | cons c cs ih =>
    have h1 : c ≠ ',' := fun h => hp (by simp [h])
    have h2 : ',' ∉ cs := fun h => hp (by simp [h])
    simp [splitComma, h1, ih h2]

/-- `int(" " * k + str(n)) == n` -/
theorem pyInt_decimal (a : List Char) (ha : ∀ c ∈ a, isSpace c = true) (n : ℕ) : pyInt (a ++ decimal n) = some (n : ℤ) := by
  unfold pyInt
  rw [strip_pre a _ ha, digits_strip _ (decimal_digits n)]
  have hu : unsigned (decimal n) = some n := by
    unfold unsigned; rw [if_neg (decimal_ne_nil n), digitsVal_decimal]
  cases hd : decimal n with
  | nil => exact absurd hd (decimal_ne_nil n)
  | cons c cs =>
    have hc : IsDigit c := decimal_digits n c (by rw [hd]; simp)
    obtain ⟨_, h1, h2, _⟩ := isDigit_ne hc
    rw [hd] at hu
    split
    · rename_i heq; simp at heq; exact absurd heq.1 h1
    · rename_i heq; simp at heq; exact absurd heq.1 h2
    · rename_i heq; rw [hu]; rfl

/-- different numbers print differently -/
theorem decimal_injective {m n : ℕ} (h : decimal m = decimal n) : m = n := by
  have h1 := digitsVal_decimal m false
  rw [h, digitsVal_decimal n] at h1
  exact (Option.some.inj h1).symm

theorem digitsVal_zeros (k v : ℕ) (s : List Char) (hv : v = 0) (b : Bool) (hs : s ≠ []) :
    ∃ b', digitsVal v b (List.replicate k '0' ++ s) = digitsVal 0 b' s := by
  subst hv
  induction k generalizing b with
  | zero => exact ⟨b, rfl⟩
  | succ k ih =>
    rw [List.replicate_succ, List.cons_append]
    have : digitVal '0' = some 0 := by decide
    simp only [digitsVal, this]
    exact ih true

theorem digitsVal_padded (w n : ℕ) (b : Bool) : digitsVal 0 b (padded w n) = some n := by
  obtain ⟨b', h⟩ := digitsVal_zeros (w - (decimal n).length) 0 (decimal n) rfl b (decimal_ne_nil n)
  unfold padded
  rw [h, digitsVal_decimal]

theorem padded_injective {w m n : ℕ} (h : padded w m = padded w n) : m = n := by
  have h1 := digitsVal_padded w m false
  rw [h, digitsVal_padded w n] at h1
  exact (Option.some.inj h1).symm

theorem padded_digits (w n : ℕ) : ∀ c ∈ padded w n, IsDigit c := by
  intro c hc
  unfold padded at hc
  rw [List.mem_append] at hc
  rcases hc with hc | hc
  · exact ⟨0, by norm_num, List.eq_of_mem_replicate hc⟩
  · exact decimal_digits n c hc

end PG.Text
