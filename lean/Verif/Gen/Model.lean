import Verif.Gen.Cpp
import Mathlib.Algebra.Order.Floor.Ring

/-!
Model of `utilities/ct2pgChem.py`: the part that writes the rates of progress and the source terms of a mechanism
(lines 69-113, 278-468). The fixed text around it (species clipping, concentrations, Gibbs energies, sub-step loop) is the
text of the three kernels modelled in `Verif.Chem.Loop` and `Verif.Chem.Model`. What Cantera hands over is a record of
real numbers; `np.float64` values are printed exactly.
-/
namespace PG.Gen

/-- an Arrhenius rate as Cantera stores it: pre-exponential factor, temperature exponent, activation energy (J/kmol) -/
structure Arr where
  A : ℝ
  b : ℝ
  E : ℝ

/-- what the tool reads of a Cantera reaction: `reaction_type`, `rate` (or `rate.high_rate`, `rate.low_rate`),
    `rate.falloff_coeffs`, `third_body.efficiency`, its columns of `reactant_stoich_coeffs` and `product_stoich_coeffs`,
    `reversible`; and the exponents of the forward rate law (`orders`; the reactant coefficients when the mechanism file
    gives none), which the tool does not read -/
structure CtRxn where
  type : String
  rate : Arr
  high : Arr
  low : Arr
  coeffs : List ℝ
  eff : ℕ → ℝ
  nuF : ℕ → ℝ
  nuB : ℕ → ℝ
  order : ℕ → ℝ
  rev : Bool

/-- the mechanism; `Ru` is `ct.gas_constant` -/
structure Ct where
  ns : ℕ
  Ru : ℝ
  rxns : List CtRxn

noncomputable section

/-- `f"{x}"` -/
def fmt (x : ℝ) : List Tok := if x < 0 then [.minus, .num (-x)] else [.num x]
/-- `f"{x:+}"` -/
def fmtS (x : ℝ) : List Tok := if x < 0 then [.minus, .num (-x)] else [.plus, .num x]

/-- Python's `int(x)`: cut off the fraction -/
def trunc (x : ℝ) : ℤ := if 0 ≤ x then ⌊x⌋ else ⌈x⌉

/-- `intOrFloat`, lines 38-44: `inl` is an int, `inr` a float -/
def intOrFloat (x : ℝ) : ℤ ⊕ ℝ := if |x - trunc x| > (10 : ℝ) ^ (-16 : ℤ) then .inr x else .inl (trunc x)

/-- its numerical value -/
def numVal : ℤ ⊕ ℝ → ℝ
  | .inl n => n
  | .inr x => x

/-- `"".join(...)` of `n` copies -/
def copies (n : ℕ) (ts : List Tok) : List Tok := (List.replicate n ts).flatten

/-- `rateConstString`, lines 47-66; the two `raise` branches cannot be reached -/
def rateConst (A : ℝ) (m : ℤ ⊕ ℝ) (Ea : ℝ) : List Tok :=
  if numVal m = 0 ∧ Ea = 0 then fmt A
  else if numVal m = 0 ∧ Ea ≠ 0 then
    [.fn "exp", .lp] ++ ([.fn "log", .lp] ++ (fmt A ++ [.rp])) ++ [.minus] ++ (.lp :: ((fmt Ea ++ [.star, .id "Tinv"]) ++ [.rp])) ++ [.rp]
  else if Ea = 0 then
    match m with
    | .inr x => [.fn "exp", .lp] ++ ([.fn "log", .lp] ++ (fmt A ++ [.rp])) ++ (fmtS x ++ [.star, .id "logT"]) ++ [.rp]
    | .inl n => if n < 0 then fmt A ++ copies n.natAbs [.star, .id "Tinv"] else fmt A ++ copies n.natAbs [.star, .id "T"]
  else
    [.fn "exp", .lp] ++ ([.fn "log", .lp] ++ (fmt A ++ [.rp])) ++ (fmtS (numVal m) ++ [.star, .id "logT"]) ++ [.minus] ++
      (.lp :: ((fmt Ea ++ [.star, .id "Tinv"]) ++ [.rp])) ++ [.rp]

/-- lines 299-305 and 453-459: one signed term, nothing for a zero coefficient -/
def item (name : String) (j : ℕ) (s : ℝ) : Option (List Tok) :=
  if s = 1 then some [.plus, .ix name j]
  else if s = -1 then some [.minus, .ix name j]
  else if s ≠ 0 then some (fmtS s ++ [.star, .ix name j])
  else none

/-- the terms of a sum, `enumerate(nu_sum)` -/
def items (name : String) (n : ℕ) (s : ℕ → ℝ) : List (List Tok) := (List.range n).filterMap fun j => item name j (s j)

/-- is the token a plus sign -/
def isPlus : Tok → Bool
  | .plus => true
  | _ => false

/-- lines 306-310, 464-467: `outString[0].replace("+", "")`, then all terms one after the other; an `IndexError` when there
    is no term -/
def joined : List (List Tok) → Except String (List Tok)
  | [] => .error "IndexError"
  | t :: ts => .ok (t.filter (fun x => !isPlus x) ++ ts.flatten)

/-- lines 312-322: `K_c` -/
def kcText (s : ℝ) : List Tok :=
  let ex : List Tok := [.fn "exp", .lp, .minus, .id "dG", .rp]
  if s ≠ 0 then
    if s = 1 then [.id "prefRuT", .star] ++ ex
    else if s = -1 then ex ++ [.slash, .id "prefRuT"]
    else [.fn "pow", .lp, .id "prefRuT", .comma] ++ fmt s ++ [.rp, .star] ++ ex
  else ex

/-- the test of lines 88-90; `isFalloff` is that of line 94 -/
def isThird (r : CtRxn) : Prop := "three-body".toList <+: r.type.toList ∨ "falloff".toList <+: r.type.toList
instance (r : CtRxn) : Decidable (isThird r) := inferInstanceAs (Decidable (_ ∨ _))
/-- see `isThird` -/
def isFalloff (r : CtRxn) : Prop := "falloff".toList <+: r.type.toList
instance (r : CtRxn) : Decidable (isFalloff r) := inferInstanceAs (Decidable (_ <+: _))

/-- `aij[i]`, lines 77, 91-92: filled only for three-body and fall-off types -/
def aij (r : CtRxn) (j : ℕ) : ℝ := if isThird r then r.eff j else 0

/-- lines 333-339: one term of `cTBC` -/
def effItem (j : ℕ) (e : ℝ) : Option (List Tok) :=
  if 0 < e then
    if e ≠ 1 then some ([.plus] ++ fmt e ++ [.star, .ix "cs" j]) else some [.plus, .ix "cs" j]
  else none

/-- lines 330-344: `cTBC = ...;`, written only if some efficiency is positive -/
def thirdText (ns : ℕ) (r : CtRxn) : Except String (List Stmt) :=
  if 0 < ((List.range ns).map (aij r)).sum then do
    let ts ← joined ((List.range ns).filterMap fun j => effItem j (aij r j))
    return [.set "cTBC" ts]
  else return []

/-- `rateConstString(A, intOrFloat(m), Ea)` with `Ea = activation_energy / Ru` (lines 95-111) -/
def rateText (Ru : ℝ) (k : Arr) : List Tok := rateConst k.A (intOrFloat k.b) (k.E / Ru)

/-- `"Pr = cTBC*k0/k_f;"` -/
def prText : Stmt := .set "Pr" [.id "cTBC", .star, .id "k0", .slash, .id "k_f"]

/-- `(x)` -/
def par (x : ℝ) : List Tok := .lp :: (fmt x ++ [.rp])

/-- `exp(-T/(x))` -/
def expT (x : ℝ) : List Tok := .fn "exp" :: .lp :: ((.minus :: .id "T" :: .slash :: par x) ++ [.rp])

/-- lines 365-376: `Fcent`, three parameters if the last coefficient is zero, otherwise four (`falloff_coeffs[3]`, an
    `IndexError` when there are only three) -/
def fcentText (c : List ℝ) : Except String (List Tok) :=
  match c[0]?, c[1]?, c[2]? with
  | some alpha, some T3, some T1 =>
    let three : List Tok := (.lp :: ((.num 1 :: .minus :: par alpha) ++ [.rp])) ++ .star :: expT T3 ++ .plus :: par alpha ++ .star :: expT T1
    if c.getLast? = some 0 then .ok three
    else match c[3]? with
      | some T2 => .ok (three ++ .plus :: (.fn "exp" :: .lp :: ((.minus :: par T2 ++ [.star, .id "Tinv"]) ++ [.rp])))
      | none => .error "IndexError"
  | _, _, _ => .error "IndexError"

/-- lines 378-396, after `Fcent`: `C`, `N`, `k0`, `Pr`, `A`, `f1`, `F_pdr`, `pmod`, `k_f *= pmod` -/
def troeText (Ru : ℝ) (low : Arr) : List Stmt :=
  [.set "C" [.minus, .num (4/10), .minus, .num (67/100), .star, .fn "log10", .lp, .id "Fcent", .rp],
   .set "N" [.num (75/100), .minus, .num (127/100), .star, .fn "log10", .lp, .id "Fcent", .rp],
   .set "k0" (rateText Ru low),
   prText,
   .set "A" [.fn "log10", .lp, .id "Pr", .rp, .plus, .id "C"],
   .set "f1" [.id "A", .slash, .lp, .id "N", .minus, .num (14/100), .star, .id "A", .rp],
   .set "F_pdr" [.fn "pow", .lp, .num 10, .comma, .fn "log10", .lp, .id "Fcent", .rp, .slash, .lp, .num 1, .plus, .id "f1", .star,
      .id "f1", .rp, .rp],
   .set "pmod" [.id "Pr", .slash, .lp, .num 1, .plus, .id "Pr", .rp, .star, .id "F_pdr"],
   .mulSet "k_f" [.id "pmod"]]

/-- lines 346-404: what is done to `k_f`, by reaction type -/
def modText (Ru : ℝ) (r : CtRxn) : Except String (List Stmt) :=
  if r.type = "three-body-Arrhenius" then .ok [.mulSet "k_f" [.id "cTBC"]]
  else if r.type = "falloff-Lindemann" then
    .ok [.set "Fcent" [.num 1], .set "k0" (rateText Ru r.low), prText,
      .set "pmod" [.id "Pr", .slash, .lp, .num 1, .plus, .id "Pr", .rp], .mulSet "k_f" [.id "pmod"]]
  else if r.type = "falloff-Troe" then do
    let f ← fcentText r.coeffs
    return .set "Fcent" f :: troeText Ru r.low
  else if r.type = "Arrhenius" then .ok []
  else .error "UnknownReactionType"

/-- lines 409-414, 421-426: ` * cs[j]` or ` * pow(cs[j],s)` for every positive coefficient -/
def powItem (j : ℕ) (s : ℝ) : List Tok :=
  if s = 1 then [.star, .ix "cs" j]
  else if 0 < s then [.star, .fn "pow", .lp, .ix "cs" j, .comma] ++ fmt s ++ [.rp]
  else []
def powText (ns : ℕ) (nu : ℕ → ℝ) : List Tok := ((List.range ns).map fun j => powItem j (nu j)).flatten

/-- lines 289-435: the block of reaction `i`. The parameters of `k_f` are those of the high-pressure limit for fall-off
    types (lines 94-111) -/
def rxnText (ns : ℕ) (Ru : ℝ) (i : ℕ) (r : CtRxn) : Except String (List Stmt) := do
  let dG ← joined (items "gbs" ns fun j => r.nuB j - r.nuF j)
  let third ← thirdText ns r
  let mod ← modText Ru r
  return [.set "k_f" (rateText Ru (if isFalloff r then r.high else r.rate)), .set "dG" dG,
      .set "K_c" (kcText ((List.range ns).map fun j => r.nuB j - r.nuF j).sum)] ++ third ++ mod ++
    [.set "q_f" (.id "k_f" :: powText ns r.nuF),
     .set "q_b" (.minus :: .id "k_f" :: .slash :: .id "K_c" :: powText ns r.nuB),
     .setIx "q" i (if r.rev then [.id "q_f", .plus, .id "q_b"] else [.id "q_f"])]

/-- lines 288-435: the loop over the reactions, numbered from `i` -/
def rxnsText (ns : ℕ) (Ru : ℝ) : ℕ → List CtRxn → Except String (List Stmt)
  | _, [] => .ok []
  | i, r :: rs => do
    let p ← rxnText ns Ru i r
    let ps ← rxnsText ns Ru (i+1) rs
    return p ++ ps

/-- lines 281-283: the temporaries -/
def prelude : List Stmt :=
  [.set "logT" [.fn "log", .lp, .id "T", .rp], .set "Tinv" [.num 1, .slash, .id "T"],
   .set "prefRuT" [.num 101325, .slash, .lp, .id "th.Ru", .star, .id "T", .rp]]

/-- net coefficient of species `n` in reaction `j` of the list -/
def net (rs : List CtRxn) (n j : ℕ) : ℝ := (rs[j]?.map fun r => r.nuB n - r.nuF n).getD 0

/-- lines 461-468: the sum in `dYdt[n]` -/
def srcSum (its : List (List Tok)) : Except String (List Tok) :=
  if its = [] then .ok [.num 0] else joined its

/-- lines 450-468: `dYdt[n] = th.MW(n) * (...);` -/
def srcText (g : Ct) (n : ℕ) : Except String Stmt := do
  let ts ← srcSum (items "q" g.rxns.length (net g.rxns n))
  return .setIx "dYdt" n (.ix "th.MW" n :: .star :: .lp :: (ts ++ [.rp]))

/-- lines 450-468: the loop over the species -/
def srcsText (g : Ct) : ℕ → Except String (List Stmt)
  | 0 => .ok []
  | n+1 => do
    let ps ← srcsText g n
    let p ← srcText g n
    return ps ++ [p]

/-- the reaction types of lines 86-113: anything else stops the tool before the file is opened -/
def Known (r : CtRxn) : Prop := isThird r ∨ r.type = "Arrhenius"
instance (r : CtRxn) : Decidable (Known r) := inferInstanceAs (Decidable (_ ∨ _))

/-- `ct2pgChem`: the statements between the concentrations and the update of `Y` -/
def generate (g : Ct) : Except String (List Stmt) :=
  if ∀ r ∈ g.rxns, Known r then do
    let a ← rxnsText g.ns g.Ru 0 g.rxns
    let b ← srcsText g g.ns
    return prelude ++ a ++ b
  else .error "UnknownReactionType"

end
end PG.Gen
