import Verif.Chem.Red22Spec
import Verif.Chem.Red22Prog

/-! Finite checks of the tables of the reduced mechanism (each is a statement about all its entries). -/
namespace PG.Chem.Red22
open Finset

/-- columns in use before the elimination -/
def L0 : Live := [] :: rows.map fun x => (x.a.map Prod.fst).filter (· ≠ 0)

/-- row `i`, numerator terms of `A<i>_<k>` -/
def row (i : ℕ) : Row := rows.getD (i - 1) noRow
def num (i k : ℕ) : List Dir := ((row i).a.lookup k).getD []

/-- terms of `DEN` of radical `k` that feed no other balance -/
def exits (k : ℕ) : List Dir := (row k).den.diff ((List.range' 1 10).flatMap fun i => num i k)

theorem chk_prog : stmtsAll L0 (parse prog) = prog := by decide +kernel
theorem chk_elim : OkAll 10 L0 (parse prog) := by decide +kernel
theorem chk_backOk : BackOk [] back := by decide +kernel
theorem chk_backFits : BackFits 10 (lastL L0 (parse prog)) back := by decide +kernel
theorem chk_live : ∀ i ∈ Icc 1 10, ∀ k ∈ Icc 1 10, k ∉ L0.getD i [] → (row i).a.lookup k = none := by decide +kernel
theorem chk_diag : ∀ i ∈ Icc 1 10, num i i = [] := by decide +kernel
theorem chk_cols : ∀ k ∈ Icc 1 10, (((List.range' 1 10).flatMap fun i => num i k) ++ exits k).Perm (row k).den := by decide +kernel
theorem chk_len : rxns.length = 206 := by decide +kernel

/-- signs of rate constants -/
def K.Pos (r : ℕ) : K → Prop
  | .arr _ => True
  | .const c => 0 < c.m
  | .scaled c r' => 0 < c.m ∧ r' < r
instance (r : ℕ) (k : K) : Decidable (k.Pos r) := by cases k <;> (simp only [K.Pos]; infer_instance)

/-- a third-body sum with weights `1 + c ≥ 0`, and `1 + c > 0` for O2 when `o2` -/
def CtbOk (l : List (ℕ × Dec)) : Prop :=
  (l.map Prod.fst).Nodup ∧ ∀ p ∈ l, p.1 < 22 ∧ p.2.e ≤ 0 ∧ -(10 : ℤ) ^ (-p.2.e).toNat ≤ p.2.m
instance (l : List (ℕ × Dec)) : Decidable (CtbOk l) := inferInstanceAs (Decidable (_ ∧ _))

/-- checks of a modification -/
def RMod.Ok : RMod → Prop
  | .none => True
  | .three l => CtbOk l
  | .lind l _ => CtbOk l
  | .troe l _ _ _ _ _ _ => CtbOk l
instance (m : RMod) : Decidable m.Ok := by cases m <;> (simp only [RMod.Ok]; infer_instance)

theorem chk_k : ∀ r < 206, (rx r).k.Pos r := by decide +kernel
theorem chk_mod : ∀ r < 206, (rx r).mod.Ok := by decide +kernel
theorem chk_range : ∀ r < 206, (∀ n ∈ (rx r).fwd, n < 22) ∧ (∀ n ∈ (rx r).bwd, n < 22) ∧ (∀ n ∈ (rx r).fx, n < 10) ∧ (∀ n ∈ (rx r).bx, n < 10) ∧
    (∀ e ∈ (rx r).prods, e < 31) ∧ (∀ e ∈ (rx r).reacs, e < 31) := by
  decide +kernel

/-- the factors `XQ` of a direction -/
def xfac (t : Dir) : List ℕ := if t.1 then (rx t.2).fx else (rx t.2).bx

theorem chk_num : ∀ i ∈ Icc 1 10, ∀ k ∈ range 11, ∀ t ∈ num i k, t.2 < 206 ∧ xfac t = if k = 0 then [] else [k - 1] := by decide +kernel
theorem chk_den : ∀ i ∈ Icc 1 10, ∀ t ∈ (row i).den, t.2 < 206 ∧ xfac t = [i - 1] := by decide +kernel

/-- production minus consumption of radical `i` in the balances is its stoichiometry, except in the directions set to zero -/
theorem chk_qss : ∀ i ∈ Icc 1 10, ∀ r ∈ range 206,
    ((true, r) ∉ zeroed → nu (rx r) (egQ (i - 1)) = (((List.range 11).flatMap fun k => num i k).count (true, r) : ℤ) - (row i).den.count (true, r)) ∧
    ((false, r) ∉ zeroed → -nu (rx r) (egQ (i - 1)) = (((List.range 11).flatMap fun k => num i k).count (false, r) : ℤ) - (row i).den.count (false, r)) := by
  decide +kernel

theorem chk_src : ∀ r ∈ range 206, ∀ n ∈ range 21, srcOf (rx r) n = nu (rx r) (egT n) := by decide +kernel
theorem chk_src_range : ∀ r ∈ range 206, ∀ p ∈ (rx r).src, p.1 < 21 := by decide +kernel
theorem chk_bal : ∀ r ∈ range 206, ∀ el ∈ range 3, ((List.range 31).map fun e => (atomsE e el : ℤ) * nu (rx r) e).sum = 0 := by decide +kernel
theorem chk_pref : ∀ r ∈ range 206, (rx r).pref = ((rx r).prods.length : ℤ) - (rx r).reacs.length := by decide +kernel
theorem chk_flags : ∀ r ∈ range 206, (rx r).fm = (rx r).bm ∧ ((rx r).fm = false → (rx r).mod = .none) := by decide +kernel
theorem chk_fwd : ∀ r ∈ range 206, (rx r).fwd.Perm (coll (rx r) ++ ((rx r).reacs.filter fun e => !isRad e).map pos) := by decide +kernel
theorem chk_bwd : ∀ r ∈ range 206, (rx r).bwd.Perm (coll (rx r) ++ ((rx r).prods.filter fun e => !isRad e).map pos) := by decide +kernel
theorem chk_fx : ∀ r ∈ range 206, (true, r) ∉ zeroed → (rx r).fx = ((rx r).reacs.filter isRad).map pos := by decide +kernel
theorem chk_bx : ∀ r ∈ range 206, (false, r) ∉ zeroed → (rx r).bx = ((rx r).prods.filter isRad).map pos := by decide +kernel
theorem chk_perm : ((List.range 21).map egT ++ (List.range 10).map egQ).Perm (List.range 31) := by decide +kernel

/-- a direction (not set to zero) that consumes a radical is a term of its `DEN` -/
theorem chk_uses : ∀ q ∈ range 10, ∀ r ∈ range 206, ∀ d : Bool, (d, r) ∉ zeroed → egQ q ∈ uses (d, r) → (d, r) ∈ (row (q + 1)).den := by decide +kernel
theorem chk_exit : ∀ q ∈ range 10, ∀ r ∈ range 206, ∀ d : Bool, (d, r) ∉ zeroed → egQ q ∈ uses (d, r) →
    (∀ e ∈ makes (d, r), isRad e = false) → (d, r) ∈ exits (q + 1) := by decide +kernel

/-- the `cs` factors of a direction -/
def cfac (t : Dir) : List ℕ := if t.1 then (rx t.2).fwd else (rx t.2).bwd

/-- the modification is positive as soon as species `s` is present -/
def RMod.PosBy (s : ℕ) : RMod → Prop
  | .none => True
  | .three l => ∀ p ∈ l, p.1 = s → 0 ≤ p.2.m
  | .lind l _ => ∀ p ∈ l, p.1 = s → 0 ≤ p.2.m
  | .troe l _ _ _ _ _ _ => ∀ p ∈ l, p.1 = s → 0 ≤ p.2.m
instance (s : ℕ) (m : RMod) : Decidable (m.PosBy s) := by cases m <;> (simp only [RMod.PosBy]; infer_instance)

/-- H2, O2, OH, H2O, CH3, CH4, CO, CO2 -/
def drainers : List ℕ := [0, 3, 4, 5, 8, 9, 10, 11]

/-- any one of these species lets the radical pool empty -/
theorem chk_drain : ∀ s ∈ drainers, ∀ q ∈ range 10, ∃ r ∈ range 206, ∃ d : Bool, (d, r) ∉ zeroed ∧ egQ q ∈ uses (d, r) ∧
    (q = 0 ∨ ∀ e ∈ makes (d, r), isRad e = false) ∧ (∀ n ∈ cfac (d, r), n = s) ∧ (rx r).mod.PosBy s := by decide +kernel

/-- every direction that consumes CH carries the concentration of a species other than C2H4 and N2 -/
theorem chk_fuel : ∀ r ∈ range 206, ∀ d : Bool, (d, r) ∉ zeroed → egQ 0 ∈ uses (d, r) → ∃ n ∈ cfac (d, r), n ∉ [14, 21] := by decide +kernel

/-- C2H4 -> H2 + H2CC -/
theorem chk_154 : (rx 154).fwd = [14] ∧ (true, 154) ∉ zeroed ∧ (rx 154).mod.PosBy 14 ∧ (rx 154).reacs = [21] ∧ (rx 154).prods = [0, 19] := by
  decide +kernel

end PG.Chem.Red22
