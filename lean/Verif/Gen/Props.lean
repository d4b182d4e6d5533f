import Verif.Gen.Lemmas
import Mathlib.Tactic.NormNum

/-! C94: the source a mechanism is converted to computes the mechanism's rates. -/
namespace PG.Gen
open Finset
variable {σ : Store}

theorem Run.one {σ σ' s} (h : Step σ s σ') : Run σ [s] σ' := .cons h .nil

/-- the part of a reaction block that changes `k_f` -/
theorem mod_run {T pref cs g} (hb : Base σ T pref cs g) (hT : 0 < T) {Ru} (hR : 0 < Ru) {ns} {r : CtRxn} (ok : r.Ok ns)
    (hk : σ.v "k_f" = (if isFalloff r then r.high else r.rate).k Ru T)
    (hc : r.type ≠ "Arrhenius" → σ.v "cTBC" = r.third ns cs) {p} (hp : modText Ru r = .ok p) :
    ∃ σ', Run σ p σ' ∧ Base σ' T pref cs g ∧ σ'.v "k_f" = r.kEff ns Ru T cs ∧ σ'.v "K_c" = σ.v "K_c" ∧ σ'.a = σ.a := by
  unfold modText at hp
  by_cases h3 : r.type = "three-body-Arrhenius"
  · rw [if_pos h3] at hp
    cases hp
    have hf : ¬ isFalloff r := by unfold isFalloff; rw [h3]; decide
    rw [if_neg hf] at hk
    refine ⟨_, Run.one (Step.mulSet' (UnV.id "cTBC").term.sum), hb.put _ _ (by decide), ?_, by simp, rfl⟩
    simp [hk, hc (by rw [h3]; decide), CtRxn.kEff, h3]
  rw [if_neg h3] at hp
  by_cases hL : r.type = "falloff-Lindemann"
  · rw [if_pos hL] at hp
    cases hp
    have hf : isFalloff r := by unfold isFalloff; rw [hL]; decide
    rw [if_pos hf] at hk
    have hcc := hc (by rw [hL]; decide)
    obtain ⟨okh, okl⟩ := ok.fall (Or.inl hL)
    set σ1 := σ.put "Fcent" 1 with e1
    have b1 : Base σ1 T pref cs g := hb.put _ _ (by decide)
    set σ2 := σ1.put "k0" (r.low.k Ru T) with e2
    have b2 : Base σ2 T pref cs g := b1.put _ _ (by decide)
    set σ3 := σ2.put "Pr" (σ2.v "cTBC" * σ2.v "k0" / σ2.v "k_f") with e3
    set σ4 := σ3.put "pmod" (σ3.v "Pr" / (1 + σ3.v "Pr")) with e4
    have b3 : Base σ3 T pref cs g := b2.put _ _ (by decide)
    have b4 : Base σ4 T pref cs g := b3.put _ _ (by decide)
    refine ⟨_, .cons (Step.set' (UnV.num 1).term.sum) (.cons (Step.set' (rate_v b1 hT okl Ru hR).sum)
      (.cons (σ' := σ3) (Step.set' (((UnV.id "cTBC").term.mul (UnV.id "k0")).div (UnV.id "k_f")).sum)
      (.cons (σ' := σ4) (Step.set' ((UnV.id "Pr").term.div (UnV.paren ((UnV.num 1).term.sum.add (UnV.id "Pr").term))).sum)
      (.cons (Step.mulSet' (UnV.id "pmod").term.sum) .nil)))), b4.put _ _ (by decide), ?_, ?_, rfl⟩
    · simp [e4, e3, e2, e1, hk, hcc, CtRxn.kEff, hL]
    · simp [e4, e3, e2, e1]
  rw [if_neg hL] at hp
  by_cases hTr : r.type = "falloff-Troe"
  · rw [if_pos hTr] at hp
    have hf : isFalloff r := by unfold isFalloff; rw [hTr]; decide
    rw [if_pos hf] at hk
    have hcc := hc (by rw [hTr]; decide)
    obtain ⟨okh, okl⟩ := ok.fall (Or.inr hTr)
    cases hF : fcentText r.coeffs with
    | error e => rw [hF] at hp; cases hp
    | ok ft =>
      rw [hF] at hp
      cases hp
      have hfc : SumV σ ft (centring r.coeffs T) := by
        have hex : ∀ x, UnV σ (expT x) (Real.exp (-T / x)) := fun x => by
          have := exp_v ((UnV.id (σ := σ) "T").neg.term.div (par_v x)).sum
          rw [hb.t] at this
          exact this
        have hthree : ∀ a t3 t1, SumV σ ((.lp :: ((.num 1 :: .minus :: par a) ++ [.rp])) ++ .star :: expT t3 ++ .plus :: par a ++ .star :: expT t1)
            ((1 - a) * Real.exp (-T / t3) + a * Real.exp (-T / t1)) := fun a t3 t1 => by
          have := ((UnV.paren ((UnV.num 1).term.sum.sub (par_v (σ := σ) a).term)).term.mul (hex t3)).sum.add ((par_v a).term.mul (hex t1))
          simpa using this
        rcases ok.coeffs hTr with hl | hl
        · obtain ⟨a, t3, t1, hc3⟩ := List.length_eq_three.mp hl
          rw [hc3] at hF ⊢
          simp only [fcentText, List.getElem?_cons_zero, List.getElem?_cons_succ, List.getLast?_cons_cons,
            List.getLast?_singleton] at hF
          split at hF
          · cases hF
            have := hthree a t3 t1
            simpa [centring] using this
          · simp at hF
        · rcases hcl : r.coeffs with _ | ⟨a, _ | ⟨t3, _ | ⟨t1, _ | ⟨t2, _ | ⟨x, l⟩⟩⟩⟩⟩ <;> rw [hcl] at hl <;> simp at hl
          rw [hcl] at hF
          simp only [fcentText, List.getElem?_cons_zero, List.getElem?_cons_succ, List.getLast?_cons_cons,
            List.getLast?_singleton] at hF
          split at hF
          · rename_i h0
            cases hF
            have h0 : t2 = 0 := by simpa using h0
            have := hthree a t3 t1
            simpa [centring, h0] using this
          · rename_i h0
            cases hF
            have h0 : t2 ≠ 0 := by simpa using h0
            have hx : UnV σ (.fn "exp" :: .lp :: ((.minus :: par t2 ++ [.star, .id "Tinv"]) ++ [.rp])) (Real.exp (-t2 / T)) := by
              have := exp_v ((par_v (σ := σ) t2).neg.term.mul (UnV.id "Tinv")).sum
              rw [hb.tinv] at this
              simpa [div_eq_mul_inv] using this
            have := (hthree a t3 t1).add hx.term
            simpa [centring, h0] using this
      set Fc := centring r.coeffs T with hFc
      set σ1 := σ.put "Fcent" Fc with e1
      have b1 : Base σ1 T pref cs g := hb.put _ _ (by decide)
      set σ2 := σ1.put "C" (-(4/10) - 67/100 * lg (σ1.v "Fcent")) with e2
      have b2 : Base σ2 T pref cs g := b1.put _ _ (by decide)
      set σ3 := σ2.put "N" (75/100 - 127/100 * lg (σ2.v "Fcent")) with e3
      have b3 : Base σ3 T pref cs g := b2.put _ _ (by decide)
      set σ4 := σ3.put "k0" (r.low.k Ru T) with e4
      have b4 : Base σ4 T pref cs g := b3.put _ _ (by decide)
      set σ5 := σ4.put "Pr" (σ4.v "cTBC" * σ4.v "k0" / σ4.v "k_f") with e5
      have b5 : Base σ5 T pref cs g := b4.put _ _ (by decide)
      set σ6 := σ5.put "A" (lg (σ5.v "Pr") + σ5.v "C") with e6
      have b6 : Base σ6 T pref cs g := b5.put _ _ (by decide)
      set σ7 := σ6.put "f1" (σ6.v "A" / (σ6.v "N" - 14/100 * σ6.v "A")) with e7
      have b7 : Base σ7 T pref cs g := b6.put _ _ (by decide)
      set σ8 := σ7.put "F_pdr" ((10 : ℝ) ^ (lg (σ7.v "Fcent") / (1 + σ7.v "f1" * σ7.v "f1"))) with e8
      have b8 : Base σ8 T pref cs g := b7.put _ _ (by decide)
      set σ9 := σ8.put "pmod" (σ8.v "Pr" / (1 + σ8.v "Pr") * σ8.v "F_pdr") with e9
      have b9 : Base σ9 T pref cs g := b8.put _ _ (by decide)
      refine ⟨_, .cons (σ' := σ1) (Step.set' hfc)
        (.cons (σ' := σ2) (Step.set' ((UnV.num (4/10)).neg.term.sum.sub ((UnV.num (67/100)).term.mul (log10_v (UnV.id "Fcent").term.sum))))
        (.cons (σ' := σ3) (Step.set' ((UnV.num (75/100)).term.sum.sub ((UnV.num (127/100)).term.mul (log10_v (UnV.id "Fcent").term.sum))))
        (.cons (σ' := σ4) (Step.set' (rate_v b3 hT okl Ru hR).sum)
        (.cons (σ' := σ5) (Step.set' (((UnV.id "cTBC").term.mul (UnV.id "k0")).div (UnV.id "k_f")).sum)
        (.cons (σ' := σ6) (Step.set' ((log10_v (UnV.id "Pr").term.sum).term.sum.add (UnV.id "C").term))
        (.cons (σ' := σ7) (Step.set' ((UnV.id "A").term.div (UnV.paren ((UnV.id "N").term.sum.sub
            ((UnV.num (14/100)).term.mul (UnV.id "A"))))).sum)
        (.cons (σ' := σ8) (Step.set' (UnV.pow (UnV.num 10).term.sum ((log10_v (UnV.id "Fcent").term.sum).term.div
            (UnV.paren ((UnV.num 1).term.sum.add ((UnV.id "f1").term.mul (UnV.id "f1"))))).sum).term.sum)
        (.cons (σ' := σ9) (Step.set' (((UnV.id "Pr").term.div (UnV.paren ((UnV.num 1).term.sum.add (UnV.id "Pr").term))).mul
            (UnV.id "F_pdr")).sum)
        (.cons (Step.mulSet' (UnV.id "pmod").term.sum) .nil))))))))), b9.put _ _ (by decide), ?_, ?_, rfl⟩
      · have v1 : σ9.v "k_f" = r.high.k Ru T := by simp [e9, e8, e7, e6, e5, e4, e3, e2, e1, hk]
        have vC : σ6.v "C" = -(4/10) - 67/100 * lg Fc := by simp [e6, e5, e4, e3, e2, e1]
        have vPr : σ5.v "Pr" = r.third ns cs * r.low.k Ru T / r.high.k Ru T := by simp [e5, e4, e3, e2, e1, hk, hcc]
        have vA : σ6.v "A" = lg (σ5.v "Pr") + (-(4/10) - 67/100 * lg Fc) := by simp [e6, e5, e4, e3, e2, e1]
        have vN : σ6.v "N" = 75/100 - 127/100 * lg Fc := by simp [e6, e5, e4, e3, e2, e1]
        have vf : σ7.v "f1" = σ6.v "A" / (σ6.v "N" - 14/100 * σ6.v "A") := by simp [e7]
        have vF : σ7.v "Fcent" = Fc := by simp [e7, e6, e5, e4, e3, e2, e1]
        have v8 : σ8.v "F_pdr" = (10 : ℝ) ^ (lg Fc / (1 + σ7.v "f1" * σ7.v "f1")) := by rw [e8, ← vF]; simp
        have vP8 : σ8.v "Pr" = σ5.v "Pr" := by simp [e8, e7, e6]
        have v9 : σ9.v "pmod" = σ8.v "Pr" / (1 + σ8.v "Pr") * σ8.v "F_pdr" := by rw [e9]; simp
        have hF10 : σ8.v "F_pdr" = broadening Fc (σ5.v "Pr") := by
          rw [v8, vf, vA, vN]
          unfold broadening
          norm_num
          ring_nf
        show σ9.v "k_f" * σ9.v "pmod" = _
        rw [v1, v9, vP8, hF10, vPr]
        simp [CtRxn.kEff, hTr, hFc]
      · simp [e9, e8, e7, e6, e5, e4, e3, e2, e1]
  rw [if_neg hTr] at hp
  by_cases hA : r.type = "Arrhenius"
  · rw [if_pos hA] at hp
    cases hp
    have hf : ¬ isFalloff r := by unfold isFalloff; rw [hA]; decide
    rw [if_neg hf] at hk
    exact ⟨σ, .nil, hb, by rw [hk]; simp [CtRxn.kEff, hA], rfl, rfl⟩
  · rw [if_neg hA] at hp
    cases hp

theorem third_cases {r : CtRxn} {Ru p} (hp : modText Ru r = .ok p) (h : r.type ≠ "Arrhenius") : isThird r := by
  unfold modText at hp
  unfold isThird
  by_cases h3 : r.type = "three-body-Arrhenius"
  · left; rw [h3]; decide
  rw [if_neg h3] at hp
  by_cases hL : r.type = "falloff-Lindemann"
  · right; rw [hL]; decide
  rw [if_neg hL] at hp
  by_cases hT : r.type = "falloff-Troe"
  · right; rw [hT]; decide
  rw [if_neg hT, if_neg h] at hp
  cases hp

theorem base_ok {r : CtRxn} {ns Ru p} (ok : r.Ok ns) (hp : modText Ru r = .ok p) :
    (if isFalloff r then r.high else r.rate).Ok := by
  unfold modText at hp
  by_cases h3 : r.type = "three-body-Arrhenius"
  · have : ¬ isFalloff r := by unfold isFalloff; rw [h3]; decide
    rw [if_neg this]; exact ok.rate (Or.inr h3)
  rw [if_neg h3] at hp
  by_cases hL : r.type = "falloff-Lindemann"
  · have : isFalloff r := by unfold isFalloff; rw [hL]; decide
    rw [if_pos this]; exact (ok.fall (Or.inl hL)).1
  rw [if_neg hL] at hp
  by_cases hT : r.type = "falloff-Troe"
  · have : isFalloff r := by unfold isFalloff; rw [hT]; decide
    rw [if_pos this]; exact (ok.fall (Or.inr hT)).1
  rw [if_neg hT] at hp
  by_cases hA : r.type = "Arrhenius"
  · have : ¬ isFalloff r := by unfold isFalloff; rw [hA]; decide
    rw [if_neg this]; exact ok.rate (Or.inl hA)
  · rw [if_neg hA] at hp; cases hp

/-- the forward product the text uses, with the reactant coefficients as exponents -/
noncomputable def CtRxn.written (r : CtRxn) (ns : ℕ) (Ru T pref : ℝ) (g cs : ℕ → ℝ) : ℝ :=
  r.kEff ns Ru T cs * ((∏ j ∈ range ns, cs j ^ r.nuF j) -
    if r.rev then (∏ j ∈ range ns, cs j ^ r.nuB j) / r.kc ns pref g else 0)

theorem written_eq {r : CtRxn} (h : r.Elementary) {ns Ru T pref g cs} :
    r.written ns Ru T pref g cs = r.progress ns Ru T pref g cs := by
  unfold CtRxn.written CtRxn.progress
  simp only [h _]

/-- the block of one reaction -/
theorem rxn_run {T pref cs g} (hb : Base σ T pref cs g) (hT : 0 < T) {Ru} (hR : 0 < Ru) {ns} {r : CtRxn} (ok : r.Ok ns)
    {i p} (hp : rxnText ns Ru i r = .ok p) :
    ∃ σ', Run σ p σ' ∧ Base σ' T pref cs g ∧
      σ'.a = fun t m => if t = "q" ∧ m = i then r.written ns Ru T pref g cs else σ.a t m := by
  unfold rxnText at hp
  cases hd : joined (items "gbs" ns fun j => r.nuB j - r.nuF j) with
  | error e => rw [hd] at hp; cases hp
  | ok dG =>
  rw [hd] at hp
  cases ht : thirdText ns r with
  | error e => rw [ht] at hp; cases hp
  | ok third =>
  rw [ht] at hp
  cases hm : modText Ru r with
  | error e => rw [hm] at hp; cases hp
  | ok mod =>
  rw [hm] at hp
  cases hp
  set S := ∑ j ∈ range ns, (r.nuB j - r.nuF j) with hS
  set k0 := (if isFalloff r then r.high else r.rate).k Ru T with hk0
  set G := ∑ j ∈ range ns, (r.nuB j - r.nuF j) * g j with hG
  set σ1 := σ.put "k_f" k0 with e1
  have b1 : Base σ1 T pref cs g := hb.put _ _ (by decide)
  set σ2 := σ1.put "dG" G with e2
  have b2 : Base σ2 T pref cs g := b1.put _ _ (by decide)
  set σ3 := σ2.put "K_c" (r.kc ns pref g) with e3
  have b3 : Base σ3 T pref cs g := b2.put _ _ (by decide)
  have run3 : Run σ [.set "k_f" (rateText Ru (if isFalloff r then r.high else r.rate)), .set "dG" dG,
      .set "K_c" (kcText ((List.range ns).map fun j => r.nuB j - r.nuF j).sum)] σ3 := by
    refine .cons (σ' := σ1) (Step.set' (rate_v hb hT (base_ok ok hm) Ru hR).sum) (.cons (σ' := σ2) (Step.set' ?_)
      (.cons (σ' := σ3) (Step.set' ?_) .nil))
    · have := items_v (σ := σ1) "gbs" ns _ hd
      rwa [b1.gb] at this
    · rw [list_sum_range]
      have := kc_v (σ := σ2) S
      rw [b2.pr, show σ2.v "dG" = G by simp [e2]] at this
      exact this
  have third_run : ∃ σ4, Run σ3 third σ4 ∧ Base σ4 T pref cs g ∧ σ4.a = σ.a ∧ σ4.v "k_f" = k0 ∧
      σ4.v "K_c" = r.kc ns pref g ∧ (r.type ≠ "Arrhenius" → σ4.v "cTBC" = r.third ns cs) := by
    unfold thirdText at ht
    have v3 : σ3.v "k_f" = k0 := by simp [e3, e2, e1]
    have v3c : σ3.v "K_c" = r.kc ns pref g := by simp [e3]
    split at ht
    · rename_i hpos
      cases hj : joined ((List.range ns).filterMap fun j => effItem j (aij r j)) with
      | error e => rw [hj] at ht; cases ht
      | ok ts =>
        rw [hj] at ht
        cases ht
        have hth : isThird r := by
          by_contra hn
          have : ((List.range ns).map (aij r)).sum = 0 := by
            rw [list_sum_range]
            exact sum_eq_zero fun j _ => by rw [aij, if_neg hn]
          rw [this] at hpos
          exact absurd hpos (lt_irrefl 0)
        have hne : r.type ≠ "Arrhenius" := by
          intro h; unfold isThird at hth; rw [h] at hth; revert hth; decide
        have hv : SumV σ3 ts (r.third ns cs) := by
          have := joined_v (σ := σ3) (List.range ns) (fun j => effItem j (aij r j)) (fun j => aij r j * σ3.a "cs" j)
            (fun j _ => effItem_v j (aij r j) (by simp only [aij, if_pos hth]; exact (ok.eff hne).1 j)) hj
          rw [list_sum_range, b3.c] at this
          simpa [aij, hth, CtRxn.third] using this
        exact ⟨_, Run.one (Step.set' hv), b3.put _ _ (by decide), rfl, by simp [v3], by simp [v3c], fun _ => by simp⟩
    · rename_i hpos
      cases ht
      refine ⟨σ3, .nil, b3, rfl, v3, v3c, fun hne => ?_⟩
      exfalso
      apply hpos
      have hth := third_cases hm hne
      obtain ⟨h0, j, hj, hj0⟩ := ok.eff hne
      rw [list_sum_range]
      simp only [aij, if_pos hth]
      exact sum_pos' (fun j _ => h0 j) ⟨j, mem_range.mpr hj, hj0⟩
  obtain ⟨σ4, run4, b4, a4, k4, c4, t4⟩ := third_run
  obtain ⟨σ5, run5, b5, k5, c5, a5⟩ := mod_run b4 hT hR ok k4 t4 hm
  set F := ∏ j ∈ range ns, cs j ^ r.nuF j with hF
  set B := ∏ j ∈ range ns, cs j ^ r.nuB j with hB
  set K := r.kEff ns Ru T cs with hK
  set σ6 := σ5.put "q_f" (K * F) with e6
  have b6 : Base σ6 T pref cs g := b5.put _ _ (by decide)
  set σ7 := σ6.put "q_b" (-K / r.kc ns pref g * B) with e7
  have b7 : Base σ7 T pref cs g := b6.put _ _ (by decide)
  have s6 : Step σ5 (.set "q_f" (.id "k_f" :: powText ns r.nuF)) σ6 := by
    apply Step.set'
    have := powText_v (σ := σ5) ns r.nuF ok.nuF (UnV.id "k_f").term
    rw [k5, b5.c] at this
    exact this.sum
  have s7 : Step σ6 (.set "q_b" (.minus :: .id "k_f" :: .slash :: .id "K_c" :: powText ns r.nuB)) σ7 := by
    apply Step.set'
    have := powText_v (σ := σ6) ns r.nuB ok.nuB ((UnV.id "k_f").neg.term.div (UnV.id "K_c"))
    rw [b6.c, show σ6.v "k_f" = K by simp [e6, k5], show σ6.v "K_c" = r.kc ns pref g by simp [e6, c5, c4]] at this
    exact this.sum
  have s8 : Step σ7 (.setIx "q" i (if r.rev then [.id "q_f", .plus, .id "q_b"] else [.id "q_f"]))
      (σ7.putIx "q" i (r.written ns Ru T pref g cs)) := by
    have vf : σ7.v "q_f" = K * F := by simp [e7, e6]
    have vb : σ7.v "q_b" = -K / r.kc ns pref g * B := by simp [e7]
    apply Step.setIx'
    unfold CtRxn.written
    by_cases hrev : r.rev
    · simp only [hrev, if_true]
      have := (UnV.id (σ := σ7) "q_f").term.sum.add (UnV.id "q_b").term
      rw [vf, vb] at this
      have e : K * F + -K / r.kc ns pref g * B = K * (F - B / r.kc ns pref g) := by ring
      rw [e] at this
      exact this
    · simp only [hrev, if_false, sub_zero, Bool.false_eq_true]
      have := (UnV.id (σ := σ7) "q_f").term.sum
      rwa [vf] at this
  refine ⟨_, ((run3.append run4).append run5).append (.cons s6 (.cons s7 (.cons s8 .nil))), b7.putIx _ _ _ (by decide), ?_⟩
  funext t m
  rw [putIx_a]
  have : σ7.a = σ.a := by simp [e7, e6, a5, a4]
  rw [this]

/-- all reaction blocks, numbered from `i` -/
theorem rxns_run {T pref cs g} (hT : 0 < T) {Ru} (hR : 0 < Ru) {ns} (rs : List CtRxn) (ok : ∀ r ∈ rs, r.Ok ns) :
    ∀ {σ : Store} {i p}, Base σ T pref cs g → rxnsText ns Ru i rs = .ok p →
    ∃ σ', Run σ p σ' ∧ Base σ' T pref cs g ∧
      σ'.a = fun t m => if t = "q" ∧ i ≤ m ∧ m < i + rs.length then ((rs[m - i]?).map fun r => r.written ns Ru T pref g cs).getD 0 else σ.a t m := by
  induction rs with
  | nil =>
    intro σ i p hb hp
    cases hp
    refine ⟨σ, .nil, hb, ?_⟩
    funext t m
    rw [if_neg (by simp only [List.length_nil]; omega)]
  | cons r rs ih =>
    intro σ i p hb hp
    simp only [rxnsText] at hp
    cases h1 : rxnText ns Ru i r with
    | error e => rw [h1] at hp; cases hp
    | ok p1 =>
    rw [h1] at hp
    cases h2 : rxnsText ns Ru (i+1) rs with
    | error e => rw [h2] at hp; cases hp
    | ok p2 =>
    rw [h2] at hp
    cases hp
    obtain ⟨σ1, run1, b1, a1⟩ := rxn_run hb hT hR (ok r (by simp)) h1
    obtain ⟨σ2, run2, b2, a2⟩ := ih (fun x hx => ok x (by simp [hx])) b1 h2
    refine ⟨σ2, run1.append run2, b2, ?_⟩
    rw [a2, a1]
    funext t m
    beta_reduce
    by_cases ht : t = "q"
    · by_cases hm : m = i
      · subst hm
        rw [if_neg (by omega), if_pos ⟨ht, rfl⟩, if_pos ⟨ht, le_refl _, by simp⟩]
        simp
      · by_cases hlt : i + 1 ≤ m ∧ m < i + 1 + rs.length
        · rw [if_pos ⟨ht, hlt⟩, if_pos ⟨ht, by omega, by simp only [List.length_cons]; omega⟩]
          obtain ⟨k, hk⟩ : ∃ k, m - i = k + 1 := ⟨m - i - 1, by omega⟩
          rw [hk, List.getElem?_cons_succ, show m - (i+1) = k by omega]
        · rw [if_neg (fun h => hlt h.2), if_neg (fun h => hm h.2), if_neg]
          simp only [List.length_cons]
          omega
    · simp [ht]

theorem items_ne {name n s} (h : items name n s = []) : ∀ j < n, s j = 0 := by
  intro j hj
  unfold items at h
  rw [List.filterMap_eq_nil_iff] at h
  have := h j (List.mem_range.mpr hj)
  unfold item at this
  split at this
  · cases this
  split at this
  · cases this
  split at this
  · cases this
  · rename_i h3; simpa using h3

/-- the source statements of species below `n` -/
theorem srcs_run (m : Ct) (q MW : ℕ → ℝ) : ∀ (n : ℕ) {σ : Store} {p}, σ.a "q" = q → σ.a "th.MW" = MW →
    srcsText m n = .ok p →
    ∃ σ', Run σ p σ' ∧ σ'.a "q" = q ∧ σ'.a "th.MW" = MW ∧
      ∀ k < n, σ'.a "dYdt" k = MW k * ∑ j ∈ range m.rxns.length, net m.rxns k j * q j := by
  intro n
  induction n with
  | zero => intro σ p hq hM hp; cases hp; exact ⟨σ, .nil, hq, hM, fun k hk => absurd hk (Nat.not_lt_zero k)⟩
  | succ n ih =>
    intro σ p hq hM hp
    simp only [srcsText] at hp
    cases h1 : srcsText m n with
    | error e => rw [h1] at hp; cases hp
    | ok p1 =>
    rw [h1] at hp
    cases h2 : srcText m n with
    | error e => rw [h2] at hp; cases hp
    | ok p2 =>
    rw [h2] at hp
    cases hp
    obtain ⟨σ1, run1, q1, M1, d1⟩ := ih hq hM h1
    unfold srcText at h2
    cases h3 : srcSum (items "q" m.rxns.length (net m.rxns n)) with
    | error e => rw [h3] at h2; cases h2
    | ok ts =>
    rw [h3] at h2
    cases h2
    have hs : SumV σ1 ts (∑ j ∈ range m.rxns.length, net m.rxns n j * q j) := by
      unfold srcSum at h3
      split at h3
      · rename_i hnil
        cases h3
        rw [sum_eq_zero fun j hj => by rw [items_ne hnil j (mem_range.mp hj), zero_mul]]
        exact (UnV.num 0).term.sum
      · have := items_v (σ := σ1) _ _ _ h3
        rwa [q1] at this
    have hstep := Step.setIx' (s := "dYdt") (n := n) ((UnV.ix (σ := σ1) "th.MW" n).term.mul (UnV.paren hs)).sum
    refine ⟨_, run1.append (Run.one hstep), ?_, ?_, ?_⟩
    · funext k; rw [putIx_a, if_neg (by simp), q1]
    · funext k; rw [putIx_a, if_neg (by simp), M1]
    · intro k hk
      rw [putIx_a]
      by_cases hkn : k = n
      · subst hkn; rw [if_pos ⟨rfl, rfl⟩, M1]
      · rw [if_neg (fun h => hkn h.2), d1 k (by omega)]

theorem sum_net (rs : List CtRxn) (n : ℕ) (w : CtRxn → ℝ) :
    (∑ j ∈ range rs.length, net rs n j * ((rs[j]?).map w).getD 0) = (rs.map fun r => (r.nuB n - r.nuF n) * w r).sum := by
  induction rs with
  | nil => rfl
  | cons r rs ih =>
    rw [List.length_cons, sum_range_succ']
    simp only [net, List.getElem?_cons_succ, List.getElem?_cons_zero, Option.map_some, Option.getD_some, List.map_cons,
      List.sum_cons] at ih ⊢
    rw [ih, add_comm]

theorem prelude_run {T Ru cs g MW} (hc : Cell σ T Ru cs g MW) :
    ∃ σ', Run σ prelude σ' ∧ Base σ' T (101325 / (Ru * T)) cs g ∧ σ'.a = σ.a := by
  set σ1 := σ.put "logT" (Real.log T) with e1
  set σ2 := σ1.put "Tinv" (1 / T) with e2
  set σ3 := σ2.put "prefRuT" (101325 / (Ru * T)) with e3
  refine ⟨σ3, .cons (σ' := σ1) (Step.set' ?_) (.cons (σ' := σ2) (Step.set' ?_) (.cons (σ' := σ3) (Step.set' ?_) .nil)),
    ⟨?_, ?_, ?_, ?_, hc.cs, hc.g⟩, rfl⟩
  · have := (UnV.call (σ := σ) "log" (UnV.id "T").term.sum).term.sum
    rw [hc.T] at this
    simpa [lib] using this
  · have := ((UnV.num (σ := σ1) 1).term.div (UnV.id "T")).sum
    rwa [show σ1.v "T" = T by simp [e1, hc.T]] at this
  · have := ((UnV.num (σ := σ2) 101325).term.div (UnV.paren ((UnV.id "th.Ru").term.mul (UnV.id "T")).sum)).sum
    rwa [show σ2.v "T" = T by simp [e2, e1, hc.T], show σ2.v "th.Ru" = Ru by simp [e2, e1, hc.Ru]] at this
  · simp [e3, e2, e1, hc.T]
  · simp [e3, e2]
  · simp [e3, e2, e1]
  · simp [e3]

/-- the whole text, whatever the orders -/
theorem generate_run (m : Ct) (hR : 0 < m.Ru) (ok : ∀ r ∈ m.rxns, r.Ok m.ns) {p} (hg : generate m = .ok p)
    {T Ru} {cs g MW : ℕ → ℝ} (hT : 0 < T) (hc : Cell σ T Ru cs g MW) :
    ∃ σ', Run σ p σ' ∧
      (∀ i, (h : i < m.rxns.length) → σ'.a "q" i = m.rxns[i].written m.ns m.Ru T (101325 / (Ru * T)) g cs) ∧
      ∀ n < m.ns, σ'.a "dYdt" n =
        MW n * (m.rxns.map fun r => (r.nuB n - r.nuF n) * r.written m.ns m.Ru T (101325 / (Ru * T)) g cs).sum := by
  unfold generate at hg
  split at hg
  swap
  · cases hg
  cases h1 : rxnsText m.ns m.Ru 0 m.rxns with
  | error e => rw [h1] at hg; cases hg
  | ok p1 =>
  rw [h1] at hg
  cases h2 : srcsText m m.ns with
  | error e => rw [h2] at hg; cases hg
  | ok p2 =>
  rw [h2] at hg
  cases hg
  obtain ⟨σ1, r1, b1, a1⟩ := prelude_run hc
  obtain ⟨σ2, r2, b2, a2⟩ := rxns_run hT hR m.rxns ok b1 h1
  set w := fun r : CtRxn => r.written m.ns m.Ru T (101325 / (Ru * T)) g cs with hw
  have a2' : ∀ t k, σ2.a t k = if t = "q" ∧ 0 ≤ k ∧ k < 0 + m.rxns.length then ((m.rxns[k - 0]?).map w).getD 0 else σ1.a t k :=
    fun t k => by rw [a2]
  have hM : σ2.a "th.MW" = MW := by funext k; rw [a2', if_neg (by simp), a1, hc.MW]
  obtain ⟨σ3, r3, q3, _, d3⟩ := srcs_run m (σ2.a "q") MW m.ns rfl hM h2
  refine ⟨σ3, (r1.append r2).append r3, ?_, ?_⟩
  · intro i hi
    rw [q3, a2', if_pos ⟨rfl, by omega, by omega⟩]
    simp [hi, hw]
  · intro n hn
    rw [d3 n hn, ← sum_net m.rxns n w]
    congr 1
    refine sum_congr rfl fun j hj => ?_
    have hj := mem_range.mp hj
    rw [a2', if_pos ⟨rfl, by omega, by omega⟩, Nat.sub_zero]

/-- **C94**, for mechanisms whose forward rate laws have the reactant coefficients as exponents: whenever the tool produces
    a file, the text runs on every cell, has exactly one result, and leaves in `q` the rates of progress and in `dYdt` the
    mass production rates that the law of mass action gives, whatever the temporaries contained before -/
theorem C94_source_partial (m : Ct) (hR : 0 < m.Ru) (ok : ∀ r ∈ m.rxns, r.Ok m.ns) (el : ∀ r ∈ m.rxns, r.Elementary)
    {p} (hg : generate m = .ok p) {T Ru} {cs g MW : ℕ → ℝ} (hT : 0 < T) (hc : Cell σ T Ru cs g MW) :
    (∃ σ', Run σ p σ') ∧ ∀ σ', Run σ p σ' →
      (∀ i, (h : i < m.rxns.length) → σ'.a "q" i = m.rxns[i].progress m.ns m.Ru T (101325 / (Ru * T)) g cs) ∧
      ∀ n < m.ns, σ'.a "dYdt" n = m.source MW T (101325 / (Ru * T)) g cs n := by
  obtain ⟨σ', r, hq, hd⟩ := generate_run m hR ok hg hT hc
  refine ⟨⟨σ', r⟩, fun σ'' r' => ?_⟩
  cases r.det r'
  refine ⟨fun i hi => ?_, fun n hn => ?_⟩
  · rw [hq i hi, written_eq (el _ (List.getElem_mem hi))]
  · rw [hd n hn]
    unfold Ct.source
    congr 1
    refine congrArg List.sum (List.map_congr_left fun r hr => ?_)
    rw [written_eq (el r hr)]

/-! ### when the tool produces a file -/

/-- a fall-off reaction with Troe coefficients comes with four of them (the last may be 0) -/
def CtRxn.FourTroe (r : CtRxn) : Prop := r.type = "falloff-Troe" → r.coeffs.length = 4

/-- some species is produced or consumed -/
def CtRxn.Changes (r : CtRxn) (ns : ℕ) : Prop := ∃ j < ns, r.nuB j ≠ r.nuF j

/-- the four reaction types the tool knows -/
def CtRxn.Supported (r : CtRxn) : Prop :=
  r.type = "Arrhenius" ∨ r.type = "three-body-Arrhenius" ∨ r.type = "falloff-Lindemann" ∨ r.type = "falloff-Troe"

theorem joined_ok {l} (h : l ≠ []) : ∃ ts, joined l = .ok ts := by
  cases l with
  | nil => exact absurd rfl h
  | cons t ts => exact ⟨_, rfl⟩

theorem item_none {name j s} (h : item name j s = none) : s = 0 := by
  unfold item at h
  split at h
  · cases h
  split at h
  · cases h
  split at h
  · cases h
  · rename_i h3; simpa using h3

theorem third_ok (ns : ℕ) (r : CtRxn) : ∃ p, thirdText ns r = .ok p := by
  unfold thirdText
  split
  · rename_i hpos
    obtain ⟨ts, hts⟩ : ∃ ts, joined ((List.range ns).filterMap fun j => effItem j (aij r j)) = .ok ts := by
      apply joined_ok
      intro hnil
      rw [List.filterMap_eq_nil_iff] at hnil
      apply absurd hpos
      rw [list_sum_range, not_lt]
      refine sum_nonpos fun j hj => ?_
      have := hnil j (List.mem_range.mpr (mem_range.mp hj))
      unfold effItem at this
      split at this
      · split at this <;> cases this
      · rename_i h; exact not_lt.mp h
    exact ⟨_, by rw [hts]; rfl⟩
  · exact ⟨_, rfl⟩

theorem mod_ok {Ru} {r : CtRxn} (hs : r.Supported) (h4 : r.FourTroe) : ∃ p, modText Ru r = .ok p := by
  unfold modText
  rcases hs with h | h | h | h
  · rw [h]; exact ⟨_, rfl⟩
  · rw [h]; exact ⟨_, rfl⟩
  · rw [h]; exact ⟨_, rfl⟩
  · have h4 := h4 h
    obtain ⟨f, hf⟩ : ∃ f, fcentText r.coeffs = .ok f := by
      rcases hcl : r.coeffs with _ | ⟨a, _ | ⟨t3, _ | ⟨t1, _ | ⟨t2, _ | ⟨x, l⟩⟩⟩⟩⟩ <;> rw [hcl] at h4 <;> simp at h4
      simp only [fcentText, List.getElem?_cons_zero, List.getElem?_cons_succ]
      split
      · exact ⟨_, rfl⟩
      · exact ⟨_, rfl⟩
    rw [h, if_neg (by decide), if_neg (by decide), if_pos rfl, hf]
    exact ⟨_, rfl⟩

theorem rxn_ok {ns Ru i} {r : CtRxn} (hs : r.Supported) (h4 : r.FourTroe) (hc : r.Changes ns) :
    ∃ p, rxnText ns Ru i r = .ok p := by
  obtain ⟨j, hj, hne⟩ := hc
  obtain ⟨a, ha⟩ : ∃ ts, joined (items "gbs" ns fun j => r.nuB j - r.nuF j) = .ok ts := by
    apply joined_ok
    intro hnil
    exact hne (sub_eq_zero.mp (items_ne hnil j hj))
  obtain ⟨b, hb⟩ := third_ok ns r
  obtain ⟨c, hc⟩ := mod_ok (Ru := Ru) hs h4
  unfold rxnText
  rw [ha, hb, hc]
  exact ⟨_, rfl⟩

theorem rxns_ok {ns Ru} (rs : List CtRxn) (h : ∀ r ∈ rs, r.Supported ∧ r.FourTroe ∧ r.Changes ns) :
    ∀ i, ∃ p, rxnsText ns Ru i rs = .ok p := by
  induction rs with
  | nil => exact fun i => ⟨_, rfl⟩
  | cons r rs ih =>
    intro i
    obtain ⟨h1, h2, h3⟩ := h r (by simp)
    obtain ⟨p, hp⟩ := rxn_ok (Ru := Ru) (i := i) h1 h2 h3
    obtain ⟨ps, hps⟩ := ih (fun x hx => h x (by simp [hx])) (i+1)
    simp only [rxnsText]
    rw [hp, hps]
    exact ⟨_, rfl⟩

theorem srcs_ok (m : Ct) : ∀ n, ∃ p, srcsText m n = .ok p := by
  intro n
  induction n with
  | zero => exact ⟨_, rfl⟩
  | succ n ih =>
    obtain ⟨ps, hps⟩ := ih
    obtain ⟨ts, hts⟩ : ∃ ts, srcSum (items "q" m.rxns.length (net m.rxns n)) = .ok ts := by
      unfold srcSum
      split
      · exact ⟨_, rfl⟩
      · rename_i h; exact joined_ok h
    have : ∃ p, srcText m n = .ok p := by unfold srcText; rw [hts]; exact ⟨_, rfl⟩
    obtain ⟨p, hp⟩ := this
    simp only [srcsText]
    rw [hps, hp]
    exact ⟨_, rfl⟩

theorem supported_known {r : CtRxn} (h : r.Supported) : Known r := by
  unfold Known isThird
  rcases h with h | h | h | h
  · right; exact h
  · left; left; rw [h]; decide
  · left; right; rw [h]; decide
  · left; right; rw [h]; decide

/-- **C94**: the tool produces a file for every mechanism of supported reactions that change something and whose Troe
    coefficients are four -/
theorem C94_produces (m : Ct) (h : ∀ r ∈ m.rxns, r.Supported ∧ r.FourTroe ∧ r.Changes m.ns) : ∃ p, generate m = .ok p := by
  unfold generate
  rw [if_pos fun r hr => supported_known (h r hr).1]
  obtain ⟨a, ha⟩ := rxns_ok (Ru := m.Ru) m.rxns h 0
  obtain ⟨b, hb⟩ := srcs_ok m m.ns
  rw [ha, hb]
  exact ⟨_, rfl⟩

theorem rxnText_parts {ns Ru i p} {r : CtRxn} (h : rxnText ns Ru i r = .ok p) :
    (∃ ts, joined (items "gbs" ns fun j => r.nuB j - r.nuF j) = .ok ts) ∧ ∃ q, modText Ru r = .ok q := by
  unfold rxnText at h
  cases hd : joined (items "gbs" ns fun j => r.nuB j - r.nuF j) with
  | error e => rw [hd] at h; cases h
  | ok dG =>
  rw [hd] at h
  obtain ⟨b, hb⟩ := third_ok ns r
  rw [hb] at h
  cases hm : modText Ru r with
  | error e => rw [hm] at h; cases h
  | ok mod => exact ⟨⟨_, rfl⟩, ⟨_, rfl⟩⟩

theorem generate_parts (m : Ct) {p} (h : generate m = .ok p) : ∀ r ∈ m.rxns, ∃ i q, rxnText m.ns m.Ru i r = .ok q := by
  unfold generate at h
  split at h
  swap
  · cases h
  cases h1 : rxnsText m.ns m.Ru 0 m.rxns with
  | error e => rw [h1] at h; cases h
  | ok p1 =>
    clear h
    revert h1
    generalize 0 = i
    generalize m.rxns = rs
    induction rs generalizing i p1 with
    | nil => intro _ r hr; cases hr
    | cons x xs ih =>
      intro h1 r hr
      simp only [rxnsText] at h1
      cases h2 : rxnText m.ns m.Ru i x with
      | error e => rw [h2] at h1; cases h1
      | ok a =>
      rw [h2] at h1
      cases h3 : rxnsText m.ns m.Ru (i+1) xs with
      | error e => rw [h3] at h1; cases h1
      | ok b =>
      rcases List.mem_cons.mp hr with rfl | hr
      · exact ⟨_, _, h2⟩
      · exact ih _ _ h3 r hr

/-- **C94**: a mechanism with a reaction of any other type (pressure-log, Chebyshev, SRI, chemically activated, ...) is
    refused, never converted wrongly -/
theorem C94_refuses (m : Ct) {p} (h : generate m = .ok p) : ∀ r ∈ m.rxns, r.Supported := by
  intro r hr
  obtain ⟨i, q, hq⟩ := generate_parts m h r hr
  obtain ⟨_, mod, hm⟩ := rxnText_parts hq
  by_contra hn
  unfold CtRxn.Supported at hn
  simp only [not_or] at hn
  unfold modText at hm
  rw [if_neg hn.2.1, if_neg hn.2.2.1, if_neg hn.2.2.2, if_neg hn.1] at hm
  cases hm

/-! ### conservation -/

/-- **C94**: whatever the orders, the generated source conserves every quantity the reactions conserve: if `w n` is the
    content of species `n` per mole and no reaction changes the total, the sources sum to zero; `w n = MW n` is mass,
    `w n` the number of atoms of an element is that element -/
theorem C94_conserves (m : Ct) (hR : 0 < m.Ru) (ok : ∀ r ∈ m.rxns, r.Ok m.ns) {p} (hg : generate m = .ok p)
    {T Ru} {cs g MW : ℕ → ℝ} (hT : 0 < T) (hc : Cell σ T Ru cs g MW) (hM : ∀ n < m.ns, MW n ≠ 0) (w : ℕ → ℝ)
    (hw : ∀ r ∈ m.rxns, ∑ n ∈ range m.ns, w n * r.nuB n = ∑ n ∈ range m.ns, w n * r.nuF n) {σ'} (hr : Run σ p σ') :
    ∑ n ∈ range m.ns, w n / MW n * σ'.a "dYdt" n = 0 := by
  obtain ⟨σ'', r, _, hd⟩ := generate_run m hR ok hg hT hc
  cases r.det hr
  set z := fun r : CtRxn => r.written m.ns m.Ru T (101325 / (Ru * T)) g cs with hz
  have e : ∀ n ∈ range m.ns, w n / MW n * σ'.a "dYdt" n = (m.rxns.map fun r => (w n * r.nuB n - w n * r.nuF n) * z r).sum := by
    intro n hn
    rw [hd n (mem_range.mp hn), ← mul_assoc, div_mul_cancel₀ _ (hM n (mem_range.mp hn)), ← List.sum_map_mul_left]
    refine congrArg List.sum (List.map_congr_left fun r _ => ?_)
    simp only [hz]; ring
  rw [sum_congr rfl e]
  clear e hd hg ok r hr
  clear_value z
  revert hw
  generalize m.rxns = rs
  intro hw
  induction rs with
  | nil => simp
  | cons r rs ih =>
    simp only [List.map_cons, List.sum_cons]
    rw [sum_add_distrib, ih (fun x hx => hw x (by simp [hx])), ← sum_mul, sum_sub_distrib, hw r (by simp)]
    simp

end PG.Gen
