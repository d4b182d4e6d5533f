import Verif.Gen.Spec
import Mathlib.Tactic.Ring
import Mathlib.Tactic.FieldSimp
import Mathlib.Tactic.Linarith
import Mathlib.Algebra.Order.BigOperators.Group.Finset

/-! What the generated pieces of text evaluate to. -/
namespace PG.Gen
open Finset
variable {σ : Store}

theorem fmt_v (x : ℝ) : UnV σ (fmt x) x := by
  unfold fmt
  split
  · simpa using (UnV.num (σ := σ) (-x)).neg
  · exact .num x

theorem par_v (x : ℝ) : UnV σ (par x) x := (fmt_v x).term.sum |> UnV.paren

/-- a signed literal times a variable, appended to a sum -/
theorem fmtS_v {ts us v w} (x : ℝ) (h : SumV σ ts v) (hu : UnV σ us w) :
    SumV σ (ts ++ (fmtS x ++ .star :: us)) (v + x * w) := by
  unfold fmtS
  split
  · have := h.sub ((UnV.num (σ := σ) (-x)).term.mul hu)
    simpa using this
  · have := h.add ((UnV.num (σ := σ) x).term.mul hu)
    simpa using this

theorem copies_v {ts v s} (h : TermV σ ts v) (n : ℕ) : TermV σ (ts ++ copies n [.star, .id s]) (v * σ.v s ^ n) := by
  induction n with
  | zero => simpa [copies] using h
  | succ n ih =>
    have := ih.mul (UnV.id s)
    have e : ts ++ copies (n+1) [.star, .id s] = (ts ++ copies n [.star, .id s]) ++ .star :: [.id s] := by
      simp [copies, List.replicate_succ']
    rw [e, pow_succ, ← mul_assoc]
    exact this

/-- what the generated text relies on: the temporaries -/
structure Base (σ : Store) (T pref : ℝ) (cs g : ℕ → ℝ) : Prop where
  t : σ.v "T" = T
  tinv : σ.v "Tinv" = 1 / T
  logt : σ.v "logT" = Real.log T
  pr : σ.v "prefRuT" = pref
  c : σ.a "cs" = cs
  gb : σ.a "gbs" = g

@[simp] theorem put_v (s t : String) (x : ℝ) : (σ.put s x).v t = if t = s then x else σ.v t := rfl
@[simp] theorem put_a (s : String) (x : ℝ) : (σ.put s x).a = σ.a := rfl
@[simp] theorem putIx_v (s : String) (n : ℕ) (x : ℝ) : (σ.putIx s n x).v = σ.v := rfl
theorem putIx_a (s t : String) (n m : ℕ) (x : ℝ) :
    (σ.putIx s n x).a t m = if t = s ∧ m = n then x else σ.a t m := rfl

theorem Base.put {T pref cs g} (h : Base σ T pref cs g) (s : String) (x : ℝ)
    (hs : s ≠ "T" ∧ s ≠ "Tinv" ∧ s ≠ "logT" ∧ s ≠ "prefRuT") : Base (σ.put s x) T pref cs g := by
  obtain ⟨a, b, c, d⟩ := hs
  refine ⟨?_, ?_, ?_, ?_, h.c, h.gb⟩
  · rw [put_v, if_neg (Ne.symm a), h.t]
  · rw [put_v, if_neg (Ne.symm b), h.tinv]
  · rw [put_v, if_neg (Ne.symm c), h.logt]
  · rw [put_v, if_neg (Ne.symm d), h.pr]

theorem Base.putIx {T pref cs g} (h : Base σ T pref cs g) (s : String) (n : ℕ) (x : ℝ)
    (hs : s ≠ "cs" ∧ s ≠ "gbs") : Base (σ.putIx s n x) T pref cs g := by
  obtain ⟨a, b⟩ := hs
  refine ⟨h.t, h.tinv, h.logt, h.pr, ?_, ?_⟩
  · rw [← h.c]; funext m; rw [putIx_a, if_neg fun h => a h.1.symm]
  · rw [← h.gb]; funext m; rw [putIx_a, if_neg fun h => b h.1.symm]

theorem trunc_int (n : ℤ) : trunc (n : ℝ) = n := by unfold trunc; split <;> simp

theorem intOrFloat_int (n : ℤ) : intOrFloat (n : ℝ) = .inl n := by
  unfold intOrFloat
  rw [trunc_int, sub_self, abs_zero, if_neg]
  simp only [gt_iff_lt, not_lt]
  positivity

theorem numVal_ok {a : Arr} (h : a.Ok) : numVal (intOrFloat a.b) = a.b := by
  rcases h.1 with ⟨n, hn⟩ | h
  · rw [hn, intOrFloat_int]; rfl
  · unfold intOrFloat; rw [if_pos h]; rfl

theorem log_v (A : ℝ) : UnV σ (.fn "log" :: .lp :: (fmt A ++ [.rp])) (Real.log A) := by
  have := UnV.call (σ := σ) "log" (fmt_v A).term.sum
  simpa [lib] using this

theorem exp_v {ts v} (h : SumV σ ts v) : UnV σ (.fn "exp" :: .lp :: (ts ++ [.rp])) (Real.exp v) := by
  have := UnV.call (σ := σ) "exp" h
  simpa [lib] using this

theorem log10_v {ts v} (h : SumV σ ts v) : UnV σ (.fn "log10" :: .lp :: (ts ++ [.rp])) (lg v) := by
  have := UnV.call (σ := σ) "log10" h
  simpa [lib, lg] using this

/-- `rateConstString` -/
theorem rate_v {T pref cs g} (hb : Base σ T pref cs g) (hT : 0 < T) {a : Arr} (ha : a.Ok) (Ru : ℝ) (hR : 0 < Ru) :
    TermV σ (rateText Ru a) (a.k Ru T) := by
  have hn := numVal_ok ha
  have hE : UnV σ (.lp :: ((fmt (a.E / Ru) ++ [.star, .id "Tinv"]) ++ [.rp])) (a.E / Ru * (1 / T)) := by
    have := UnV.paren ((fmt_v (σ := σ) (a.E / Ru)).term.mul (UnV.id "Tinv")).sum
    rwa [hb.tinv] at this
  have hdiv : a.E / Ru * (1 / T) = a.E / (Ru * T) := by field_simp
  have hpow : T ^ a.b = Real.exp (a.b * Real.log T) := by rw [Real.rpow_def_of_pos hT, mul_comm]
  unfold rateText rateConst
  rw [hn]
  by_cases hEz : a.E = 0
  · have hq : a.E / Ru = 0 := by rw [hEz, zero_div]
    have hk : a.k Ru T = a.A * T ^ a.b := by simp [Arr.k, hEz]
    by_cases hbz : a.b = 0
    · rw [if_pos ⟨hbz, hq⟩, hk, hbz, Real.rpow_zero, mul_one]
      exact (fmt_v _).term
    · rw [if_neg (fun h => hbz h.1), if_neg (fun h => hbz h.1), if_pos hq, hk]
      rcases ha.1 with ⟨n, hb'⟩ | hfl
      · rw [hb', intOrFloat_int]
        show TermV σ (if n < 0 then _ else _) _
        split
        · rename_i hneg
          have := copies_v (σ := σ) (s := "Tinv") (fmt_v a.A).term n.natAbs
          rw [hb.tinv] at this
          have e : (1 / T) ^ n.natAbs = T ^ (n : ℝ) := by
            rw [Real.rpow_intCast]
            conv_rhs => rw [show n = -(n.natAbs : ℤ) by omega]
            rw [zpow_neg, zpow_natCast, one_div, inv_pow]
          rwa [e] at this
        · rename_i hneg
          have := copies_v (σ := σ) (s := "T") (fmt_v a.A).term n.natAbs
          rw [hb.t] at this
          have e : T ^ n.natAbs = T ^ (n : ℝ) := by
            rw [Real.rpow_intCast]
            conv_rhs => rw [show n = (n.natAbs : ℤ) by omega]
            rw [zpow_natCast]
          rwa [e] at this
      · have hi : intOrFloat a.b = .inr a.b := by unfold intOrFloat; rw [if_pos hfl]
        have hA : 0 < a.A := by
          rcases ha.2 with h | ⟨_, n, h⟩
          · exact h
          · rw [h, trunc_int, sub_self, abs_zero] at hfl
            exact absurd hfl (not_lt.mpr (by positivity))
        rw [hi]
        have := exp_v (fmtS_v a.b (log_v (σ := σ) a.A).term.sum (UnV.id "logT"))
        rw [hb.logt, Real.exp_add, Real.exp_log hA, ← hpow] at this
        simpa using this.term
  · have hq : a.E / Ru ≠ 0 := div_ne_zero hEz hR.ne'
    have hA : 0 < a.A := by
      rcases ha.2 with h | ⟨h, _⟩
      · exact h
      · exact absurd h hEz
    by_cases hbz : a.b = 0
    · rw [if_neg (fun h => hq h.2), if_pos ⟨hbz, hq⟩]
      have := exp_v ((log_v (σ := σ) a.A).term.sum.sub hE.term)
      have e : Real.exp (Real.log a.A - a.E / Ru * (1 / T)) = a.k Ru T := by
        rw [sub_eq_add_neg, Real.exp_add, Real.exp_log hA, hdiv, Arr.k, hbz, Real.rpow_zero, mul_one]
      rw [e] at this
      simpa using this.term
    · rw [if_neg (fun h => hbz h.1), if_neg (fun h => hbz h.1), if_neg hq]
      have := exp_v ((fmtS_v a.b (log_v (σ := σ) a.A).term.sum (UnV.id "logT")).sub hE.term)
      have e : Real.exp (Real.log a.A + a.b * σ.v "logT" - a.E / Ru * (1 / T)) = a.k Ru T := by
        rw [sub_eq_add_neg, Real.exp_add, Real.exp_add, Real.exp_log hA, hdiv, hb.logt, ← hpow, Arr.k]
      rw [e] at this
      simpa using this.term

/-! ### sums of terms -/

/-- a text that can begin a sum once its plus sign is dropped, and continue one as it is -/
def ItV (σ : Store) (ts : List Tok) (w : ℝ) : Prop :=
  TermV σ (ts.filter fun x => !isPlus x) w ∧ ∀ pre v, SumV σ pre v → SumV σ (pre ++ ts) (v + w)

theorem ItV.plus {us w} (h : TermV σ us w) (hu : us.filter (fun x => !isPlus x) = us) : ItV σ (.plus :: us) w :=
  ⟨by rw [List.filter_cons_of_neg (by simp [isPlus]), hu]; exact h, fun _ _ hp => hp.add h⟩

theorem ItV.minus {us w} (h : TermV σ us w) (h' : TermV σ (.minus :: us) (-w))
    (hu : us.filter (fun x => !isPlus x) = us) : ItV σ (.minus :: us) (-w) :=
  ⟨by rw [List.filter_cons_of_pos (by simp [isPlus]), hu]; exact h', fun pre v hp => by simpa [sub_eq_add_neg] using hp.sub h⟩

theorem item_v (name : String) (j : ℕ) (s : ℝ) :
    match item name j s with
    | some ts => ItV σ ts (s * σ.a name j)
    | none => s * σ.a name j = 0 := by
  unfold item
  by_cases h1 : s = 1
  · simp only [h1, if_true, one_mul]
    exact .plus (UnV.ix name j).term rfl
  rw [if_neg h1]
  by_cases h2 : s = -1
  · have e : s * σ.a name j = -σ.a name j := by rw [h2]; ring
    rw [if_pos h2, e]
    exact .minus (UnV.ix name j).term (UnV.ix name j).neg.term rfl
  rw [if_neg h2]
  by_cases h3 : s = 0
  · simp [h3]
  · rw [if_pos h3]
    simp only [fmtS]
    split
    · have := ItV.minus (σ := σ) ((UnV.num (-s)).term.mul (UnV.ix name j)) ((UnV.num (-s)).neg.term.mul (UnV.ix name j) |>
        fun h => by simpa using h) rfl
      simpa using this
    · exact ItV.plus (σ := σ) ((UnV.num s).term.mul (UnV.ix name j)) rfl

theorem flatten_v {α : Type} (L : List α) (f : α → Option (List Tok)) (w : α → ℝ)
    (h : ∀ j ∈ L, match f j with | some ts => ItV σ ts (w j) | none => w j = 0) {pre v} (hp : SumV σ pre v) :
    SumV σ (pre ++ (L.filterMap f).flatten) (v + (L.map w).sum) := by
  induction L generalizing pre v with
  | nil => simpa using hp
  | cons j L ih =>
    have hj := h j (by simp)
    have ih' := @ih (fun k hk => h k (by simp [hk]))
    cases hf : f j with
    | none =>
      rw [hf] at hj
      have hj : w j = 0 := hj
      simpa [hf, hj] using ih' hp
    | some ts =>
      rw [hf] at hj
      have := ih' (hj.2 _ _ hp)
      simpa [hf, add_assoc] using this

theorem joined_v {α : Type} (L : List α) (f : α → Option (List Tok)) (w : α → ℝ)
    (h : ∀ j ∈ L, match f j with | some ts => ItV σ ts (w j) | none => w j = 0) {ts}
    (hj : joined (L.filterMap f) = .ok ts) : SumV σ ts (L.map w).sum := by
  induction L with
  | nil => simp [joined] at hj
  | cons j L ih =>
    have hj0 := h j (by simp)
    have h' : ∀ k ∈ L, match f k with | some ts => ItV σ ts (w k) | none => w k = 0 := fun k hk => h k (by simp [hk])
    cases hf : f j with
    | none =>
      rw [hf] at hj0
      have hj0 : w j = 0 := hj0
      rw [List.filterMap_cons, hf] at hj
      simpa [hj0] using ih h' hj
    | some t =>
      rw [hf] at hj0
      rw [List.filterMap_cons, hf] at hj
      simp only [joined, Except.ok.injEq] at hj
      rw [← hj]
      have := flatten_v L f w h' (hj0.1.sum)
      simpa using this

theorem list_sum_range (n : ℕ) (f : ℕ → ℝ) : ((List.range n).map f).sum = ∑ j ∈ range n, f j := by
  induction n with
  | zero => rfl
  | succ n ih => rw [List.range_succ, List.map_append, List.sum_append, ih, sum_range_succ]; simp

/-- the sum of `items` -/
theorem items_v (name : String) (n : ℕ) (s : ℕ → ℝ) {ts} (hj : joined (items name n s) = .ok ts) :
    SumV σ ts (∑ j ∈ range n, s j * σ.a name j) := by
  rw [← list_sum_range]
  exact joined_v (List.range n) (fun j => item name j (s j)) _ (fun j _ => item_v name j (s j)) hj

theorem effItem_v (j : ℕ) (e : ℝ) (he : 0 ≤ e) :
    match effItem j e with
    | some ts => ItV σ ts (e * σ.a "cs" j)
    | none => e * σ.a "cs" j = 0 := by
  unfold effItem
  by_cases h0 : 0 < e
  · rw [if_pos h0]
    by_cases h1 : e = 1
    · simp only [h1, ne_eq, not_true_eq_false, if_false, one_mul]
      exact .plus (UnV.ix "cs" j).term rfl
    · rw [if_pos h1]
      have hn : ¬ e < 0 := not_lt.mpr he
      simp only [fmt, if_neg hn]
      exact ItV.plus (σ := σ) ((UnV.num e).term.mul (UnV.ix "cs" j)) rfl
  · rw [if_neg h0]
    have : e = 0 := le_antisymm (not_lt.mp h0) he
    simp [this]

/-- the product of powers, appended to a product -/
theorem powText_v (ns : ℕ) (nu : ℕ → ℝ) (hnu : ∀ j, 0 ≤ nu j) {ts v} (h : TermV σ ts v) :
    TermV σ (ts ++ powText ns nu) (v * ∏ j ∈ range ns, σ.a "cs" j ^ nu j) := by
  induction ns with
  | zero => simpa [powText] using h
  | succ n ih =>
    have e : ts ++ powText (n+1) nu = (ts ++ powText n nu) ++ powItem n (nu n) := by
      simp [powText, List.range_succ]
    rw [e, prod_range_succ, ← mul_assoc]
    unfold powItem
    by_cases h1 : nu n = 1
    · rw [if_pos h1, h1, Real.rpow_one]
      exact ih.mul (UnV.ix "cs" n)
    rw [if_neg h1]
    by_cases h0 : 0 < nu n
    · rw [if_pos h0]
      have := ih.mul (UnV.pow (UnV.ix (σ := σ) "cs" n).term.sum (fmt_v (nu n)).term.sum)
      simpa using this
    · rw [if_neg h0]
      have : nu n = 0 := le_antisymm (not_lt.mp h0) (hnu n)
      simpa [this] using ih

/-- `K_c` -/
theorem kc_v (s : ℝ) : SumV σ (kcText s) (σ.v "prefRuT" ^ s * Real.exp (-σ.v "dG")) := by
  have hex : UnV σ [.fn "exp", .lp, .minus, .id "dG", .rp] (Real.exp (-σ.v "dG")) :=
    exp_v (UnV.id (σ := σ) "dG").neg.term.sum
  unfold kcText
  by_cases h0 : s = 0
  · simp only [h0, ne_eq, not_true_eq_false, if_false, Real.rpow_zero, one_mul]
    exact hex.term.sum
  simp only [ne_eq, h0, not_false_eq_true, if_true]
  by_cases h1 : s = 1
  · rw [if_pos h1, h1, Real.rpow_one]
    exact ((UnV.id "prefRuT").term.mul hex).sum
  rw [if_neg h1]
  by_cases h2 : s = -1
  · rw [if_pos h2, h2, Real.rpow_neg_one, mul_comm, ← div_eq_mul_inv]
    exact (hex.term.div (UnV.id "prefRuT")).sum
  · rw [if_neg h2]
    have := ((UnV.pow (UnV.id (σ := σ) "prefRuT").term.sum (fmt_v s).term.sum).term.mul hex).sum
    simpa using this

end PG.Gen
