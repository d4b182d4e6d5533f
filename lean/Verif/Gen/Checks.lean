import Verif.Gen.Props
import Mathlib.Tactic.IntervalCases

/-! C94: where the conversion goes wrong, and a mechanism that meets the hypotheses. -/
namespace PG.Gen
open Finset

/-- Cantera hands over three Troe coefficients when the mechanism gives three. The tool then takes the last one, `T1`, for
    the fourth, finds it not 0 and asks for a coefficient that is not there: no file for any such mechanism -/
theorem C94_three_parameter_troe_violated (m : Ct) {r : CtRxn} (hr : r ∈ m.rxns) (ht : r.type = "falloff-Troe") {a T3 T1 : ℝ}
    (hc : r.coeffs = [a, T3, T1]) (h1 : T1 ≠ 0) (p : List Stmt) : generate m ≠ .ok p := by
  intro h
  obtain ⟨i, q, hq⟩ := generate_parts m h r hr
  obtain ⟨_, mod, hm⟩ := rxnText_parts hq
  unfold modText at hm
  rw [ht, hc, if_neg (by decide), if_neg (by decide), if_pos rfl] at hm
  simp only [fcentText, List.getElem?_cons_zero, List.getElem?_cons_succ, List.getLast?_cons_cons,
    List.getLast?_singleton, Option.some.injEq, if_neg h1] at hm
  cases hm

/-- no file for a mechanism with a reaction that has no net effect on any species -/
theorem C94_no_net_change_violated (m : Ct) {r : CtRxn} (hr : r ∈ m.rxns) (hn : ∀ j, r.nuB j = r.nuF j) (p : List Stmt) :
    generate m ≠ .ok p := by
  intro h
  obtain ⟨i, q, hq⟩ := generate_parts m h r hr
  obtain ⟨⟨ts, hts⟩, _⟩ := rxnText_parts hq
  have : items "gbs" m.ns (fun j => r.nuB j - r.nuF j) = [] := by
    unfold items
    rw [List.filterMap_eq_nil_iff]
    intro j _
    simp [item, hn]
  rw [this] at hts
  cases hts

/-- a negative pre-exponential factor (allowed for one of a pair of duplicate reactions) becomes the argument of a
    logarithm: the text never has the sign of the rate (in floating point it is not a number) -/
theorem C94_negative_factor_violated {σ : Store} {T pref cs g} (hb : Base σ T pref cs g) (hT : 0 < T) {a : Arr} {Ru : ℝ}
    (hR : 0 < Ru) (hA : a.A < 0) (hb0 : a.b = 0) (hE : a.E ≠ 0) :
    (∃ e, Reads (rateText Ru a) e ∧ 0 < eval σ e) ∧ a.k Ru T < 0 := by
  refine ⟨?_, ?_⟩
  · have hq : a.E / Ru ≠ 0 := div_ne_zero hE hR.ne'
    have hi : intOrFloat a.b = .inl 0 := by rw [hb0]; simpa using intOrFloat_int 0
    have h := exp_v ((log_v (σ := σ) a.A).term.sum.sub (UnV.paren ((fmt_v (a.E / Ru)).term.mul (UnV.id "Tinv")).sum).term)
    obtain ⟨e, he, hv⟩ := h.term.sum.reads
    refine ⟨e, ?_, by rw [hv]; exact Real.exp_pos _⟩
    unfold rateText rateConst
    rw [hi, if_neg (fun h => hq h.2), if_pos ⟨by simp [numVal], hq⟩]
    simpa using he
  · unfold Arr.k
    rw [hb0, Real.rpow_zero, mul_one]
    exact mul_neg_of_neg_of_pos hA (Real.exp_pos _)

/-- one global step `A => B` with the rate law `k [A]^(1/2)` -/
noncomputable def global : Ct where
  ns := 2
  Ru := 1
  rxns := [{ type := "Arrhenius", rate := ⟨1, 0, 0⟩, high := ⟨0, 0, 0⟩, low := ⟨0, 0, 0⟩, coeffs := [], eff := fun _ => 0,
             nuF := fun j => if j = 0 then 1 else 0, nuB := fun j => if j = 1 then 1 else 0,
             order := fun j => if j = 0 then 1/2 else 0, rev := false }]

/-- reaction orders given in the mechanism file are ignored: for the global step above the file is produced without a
    complaint and its rate is `k [A]` -/
theorem C94_orders_violated : (∀ r ∈ global.rxns, r.Ok global.ns) ∧ ∃ p, generate global = .ok p ∧
    ∀ (σ : Store) (cs g MW : ℕ → ℝ), Cell σ 1 1 cs g MW → cs 0 = 4 → ∀ σ', Run σ p σ' →
      σ'.a "q" 0 = 4 ∧ global.rxns[0].progress 2 1 1 (101325 / (1 * 1)) g cs = 2 := by
  have ok : ∀ r ∈ global.rxns, r.Ok global.ns := by
    intro r hr
    simp only [global, List.mem_singleton] at hr
    subst hr
    refine ⟨fun j => ?_, fun j => ?_, fun h => absurd rfl h, fun _ => ?_, fun h => ?_, fun h => ?_⟩
    · dsimp only; split <;> norm_num
    · dsimp only; split <;> norm_num
    · exact ⟨Or.inl ⟨0, by simp⟩, Or.inl one_pos⟩
    · exact absurd h (by decide)
    · exact absurd h (by decide)
  refine ⟨ok, ?_⟩
  obtain ⟨p, hp⟩ := C94_produces global (by
    intro r hr
    simp only [global, List.mem_singleton] at hr
    subst hr
    exact ⟨Or.inl rfl, fun h => by revert h; decide, 0, by decide, by norm_num⟩)
  refine ⟨p, hp, fun σ cs g MW hc h4 σ' hr => ?_⟩
  obtain ⟨σ'', r, hq, _⟩ := generate_run global (by norm_num [global]) ok hp one_pos hc
  cases r.det hr
  have s4 : (4 : ℝ) ^ (1/2 : ℝ) = 2 := by
    rw [show (4 : ℝ) = 2 ^ (2 : ℝ) by norm_num, ← Real.rpow_mul (by norm_num)]; norm_num
  refine ⟨?_, ?_⟩
  · rw [hq 0 (by simp [global])]
    simp [CtRxn.written, global, CtRxn.kEff, Arr.k, prod_range_succ, h4]
  · have h2 : ∏ j ∈ range 2, cs j ^ (if j = 0 then (1/2 : ℝ) else 0) = 2 := by
      rw [prod_range_succ, prod_range_one, if_pos rfl, if_neg (by decide), h4, s4, Real.rpow_zero, mul_one]
    have hk : global.rxns[0].kEff 2 1 1 cs = 1 := by simp [global, CtRxn.kEff, Arr.k]
    show global.rxns[0].kEff 2 1 1 cs * ((∏ j ∈ range 2, cs j ^ (if j = 0 then (1/2 : ℝ) else 0)) - 0) = 2
    rw [h2, hk]
    norm_num

/-- H + O2 <=> HO2 with a Troe fall-off, and the same species with a third body, a Lindemann fall-off and a plain rate -/
noncomputable def sample : Ct where
  ns := 3
  Ru := 8314
  rxns :=
    let r (ty : String) (b E : ℝ) (rev : Bool) : CtRxn :=
      { type := ty, rate := ⟨5, b, E⟩, high := ⟨7, b, E⟩, low := ⟨9, -1, 0⟩, coeffs := [1/2, 30, 90000, 90000],
        eff := fun j => if j = 1 then 2 else 1, nuF := fun j => if j = 0 ∨ j = 1 then 1 else 0,
        nuB := fun j => if j = 2 then 1 else 0, order := fun j => if j = 0 ∨ j = 1 then 1 else 0, rev := rev }
    [r "falloff-Troe" (1/2) 1000 true, r "three-body-Arrhenius" (-2) 0 true, r "falloff-Lindemann" 0 500 false,
     r "Arrhenius" (-1/3) 0 true]

theorem half_ok : (10 : ℝ) ^ (-16 : ℤ) < |(1/2 : ℝ) - trunc (1/2)| := by
  have : trunc (1/2 : ℝ) = 0 := by unfold trunc; rw [if_pos (by norm_num), Int.floor_eq_iff]; norm_num
  rw [this]; norm_num

theorem third_num_ok : (10 : ℝ) ^ (-16 : ℤ) < |(-1/3 : ℝ) - trunc (-1/3)| := by
  have : trunc (-1/3 : ℝ) = 0 := by unfold trunc; rw [if_neg (by norm_num), Int.ceil_eq_iff]; norm_num
  rw [this]; norm_num

/-- the hypotheses of `C94_source_partial`, `C94_produces` and `C94_conserves` are met by a mechanism with every reaction
    type -/
example : 0 < sample.Ru ∧ (∀ r ∈ sample.rxns, r.Ok sample.ns ∧ r.Elementary) ∧ (∃ p, generate sample = .ok p) ∧
    ∀ r ∈ sample.rxns, ∑ n ∈ range sample.ns, (if n = 0 then 1 else if n = 1 then 32 else 33 : ℝ) * r.nuB n =
      ∑ n ∈ range sample.ns, (if n = 0 then 1 else if n = 1 then 32 else 33 : ℝ) * r.nuF n := by
  have pos : ∀ (j : ℕ) (P : Prop) [Decidable P], (0 : ℝ) ≤ if P then 1 else 0 := by intros; split <;> norm_num
  have low : (⟨9, -1, 0⟩ : Arr).Ok := ⟨Or.inl ⟨-1, by simp⟩, Or.inl (by norm_num)⟩
  have h1 : ∀ A : ℝ, 0 < A → ∀ E, (⟨A, 1/2, E⟩ : Arr).Ok := fun A hA E => ⟨Or.inr half_ok, Or.inl hA⟩
  have h2 : ∀ A : ℝ, 0 < A → ∀ E, (⟨A, -2, E⟩ : Arr).Ok := fun A hA E => ⟨Or.inl ⟨-2, by simp⟩, Or.inl hA⟩
  have h3 : ∀ A : ℝ, 0 < A → ∀ E, (⟨A, 0, E⟩ : Arr).Ok := fun A hA E => ⟨Or.inl ⟨0, by simp⟩, Or.inl hA⟩
  have h4 : ∀ A : ℝ, 0 < A → ∀ E, (⟨A, -1/3, E⟩ : Arr).Ok := fun A hA E => ⟨Or.inr third_num_ok, Or.inl hA⟩
  have ef : (∀ j, (0 : ℝ) ≤ (if j = 1 then 2 else 1 : ℝ)) ∧ ∃ j < 3, (0 : ℝ) < (if j = 1 then 2 else 1 : ℝ) :=
    ⟨fun j => by split <;> norm_num, 0, by norm_num, by norm_num⟩
  refine ⟨by norm_num [sample], ?_, C94_produces sample ?_, ?_⟩
  · intro r hr
    simp only [sample, List.mem_cons, List.not_mem_nil, or_false] at hr
    rcases hr with rfl | rfl | rfl | rfl
    · exact ⟨⟨fun j => pos j _, fun j => pos j _, fun _ => ef, fun h => absurd h (by decide), fun _ => ⟨h1 7 (by norm_num) _, low⟩,
        fun _ => Or.inr rfl⟩, fun j => rfl⟩
    · exact ⟨⟨fun j => pos j _, fun j => pos j _, fun _ => ef, fun _ => h2 5 (by norm_num) _, fun h => absurd h (by decide),
        fun _ => Or.inr rfl⟩, fun j => rfl⟩
    · exact ⟨⟨fun j => pos j _, fun j => pos j _, fun _ => ef, fun h => absurd h (by decide), fun _ => ⟨h3 7 (by norm_num) _, low⟩,
        fun _ => Or.inr rfl⟩, fun j => rfl⟩
    · exact ⟨⟨fun j => pos j _, fun j => pos j _, fun _ => ef, fun _ => h4 5 (by norm_num) _, fun h => absurd h (by decide),
        fun _ => Or.inr rfl⟩, fun j => rfl⟩
  · intro r hr
    simp only [sample, List.mem_cons, List.not_mem_nil, or_false] at hr
    rcases hr with rfl | rfl | rfl | rfl
    · exact ⟨Or.inr (Or.inr (Or.inr rfl)), fun _ => rfl, 0, by decide, by norm_num⟩
    · exact ⟨Or.inr (Or.inl rfl), fun _ => rfl, 0, by decide, by norm_num⟩
    · exact ⟨Or.inr (Or.inr (Or.inl rfl)), fun _ => rfl, 0, by decide, by norm_num⟩
    · exact ⟨Or.inl rfl, fun _ => rfl, 0, by decide, by norm_num⟩
  · intro r hr
    simp only [sample, List.mem_cons, List.not_mem_nil, or_false] at hr
    rcases hr with rfl | rfl | rfl | rfl <;> norm_num [sample, sum_range_succ]

/-- every store can be made a cell -/
example (cs g MW : ℕ → ℝ) : ∃ σ : Store, Cell σ 1500 8314 cs g MW :=
  ⟨⟨fun s => if s = "T" then 1500 else 8314, fun s => if s = "cs" then cs else if s = "gbs" then g else MW⟩,
    ⟨by simp, by simp, by simp, by simp, by simp⟩⟩

end PG.Gen
