import Verif.Safe.Covers1
import Verif.Safe.Covers2
import Verif.Safe.Covers3
import Verif.Safe.Covers4
import Verif.Safe.SourceFaces
/-!
C113 for the text of the kernels: every access in the generated table is legal in a run.
-/
namespace PG.Safe.Src
open PG.Safe
open PG.Config (Sel Solver Env Apply start truthy)
open PG.BC (FType)

section
variable {env : Env} {s : Sel} {r : Solver} {b : Site}

theorem mem_adv (d : Dims) (n : String) (e : Dir) : faceBox d e (advAccs d n e) ∈ adv d n := by
  cases e <;> simp [adv]

theorem adv_called (F : Facts env s r) (hf : Fits env r b.d) (z : Sized b.d) {n : String} (h : n ∈ called s r "advFlux") :
    ∀ L ∈ adv b.d n, L.Safe b.d s b.data := by
  simp only [called, List.mem_cons, Option.mem_toList] at h
  rcases h with rfl | h
  · exact adv_safe z F.primary fun h => hf.ng.trans (F.wide h)
  · exact adv_safe z (F.secondary n h) fun g => hf.ng.trans (F.wide2 n h g)

theorem chem_called (F : Facts env s r) (hf : Fits env r b.d) (z : Sized b.d) (hi : InputComplete env s b) {n : String}
    (h : n ∈ called s r "chemistry") : (interior b.d (chemAccs (PG.Config.mechNs n))).Safe b.d s b.data := by
  have : truthy s.chemistry = true ∧ s.mechanism = .str n := by
    simp only [called, List.mem_append, Option.mem_toList] at h
    exact h.elim (F.expl n) (F.impl n)
  exact chem_safe z this.1 (by rw [hf.ns]; exact_mod_cast hi.mechanism this.1 n this.2)

theorem trans_called (F : Facts env s r) (z : Sized b.d) {n : String} (h : n ∈ called s r "transport") :
    (whole b.d (transAccs b.d)).Safe b.d s b.data := by
  simp only [called, Option.mem_toList] at h
  exact trans_safe z (F.trans (by rw [h]; rfl))

theorem subgrid_called (F : Facts env s r) (hf : Fits env r b.d) (z : Sized b.d) {n : String} (h : n ∈ called s r "subgrid") :
    ∀ L ∈ subgrid b.d n, L.Safe b.d s b.data := by
  simp only [called] at h
  split at h
  · rename_i hd
    simp only [Option.mem_toList] at h
    exact subgrid_safe z (by rw [← F.diffusion]; exact hd) fun e => hf.ng.trans (F.sgs hd (by rw [h, e]))
  · simp at h

theorem mem_damping (d : Dims) (e : Dir) : faceBox d e ([at0 d (.flux e), at0 d (.face e)] ++
    [(Arr.qt, (0 : ℤ), 2 + d.ns), (.centre, 0, 3), (.grad, 1, d.ne), (.q, 1, d.ne), (.Q, 0, 1), (.qh, 5, d.ne + 1)].flatMap
      fun a => [⟨a.1, (0, 0, 0), a.2.1, a.2.2⟩, ⟨a.1, e.v (-1), a.2.1, a.2.2⟩]) ∈ alphaDamping d := by
  cases e <;> simp [alphaDamping]

theorem viscous_called (F : Facts env s r) {n : String} (h : n ∈ called s r "diffFlux") : truthy s.diffusion = true := by
  simp only [called] at h
  split at h
  · rename_i hd; rw [← F.diffusion]; exact hd
  · simp at h

theorem grad_called (F : Facts env s r) (z : Sized b.d) (h : "dq2FD" ∈ called s r "utils") : (dq2FD b.d).Safe b.d s b.data := by
  refine grad_safe z ?_
  rw [← F.diffusion]
  by_contra hd
  simp [called, hd] at h

theorem sponge_called (F : Facts env s r) (z : Sized b.d) (h : "viscousSponge" ∈ called s r "utils") :
    (spongeK b.d).Safe b.d s b.data := by
  refine sponge_safe z (F.sponge ?_)
  by_contra hd
  simp [called, hd] at h

end

/-- the kernels of the integrators -/
macro "src_stage" K:ident hK:ident hst:ident c:term : tactic => `(tactic| (
  simp only [$K:ident, called] at $hK:ident
  split at $hK:ident <;> rename_i hint hk <;> first
    | (exfalso; simp at hk; done)
    | (rw [hint] at $hst:ident
       exact legal_of_covers fun e => ⟨_, $hst:ident _ (by simp only [stages, List.mem_append, List.mem_cons, true_or, or_true]), $c⟩)))

/-- C113 (text of the kernels): in a case that started, whose faces hold what their types read, every access in the text of
    every kernel over cells or faces that the run calls is to an element of an allocated array, for all sizes and all work items. -/
theorem C113_source (env : Env) (s : Sel) (r : Solver) (b : Site) (h : start env s = .ok r) (hf : Fits env r b.d)
    (hi : InputComplete env s b) : ∀ K ∈ volume, K.func ∈ called s r K.dir → K.Legal b.d s b.data r.diffusion := by
  have F := facts h
  have z := sized F hf
  have hst := stages_safe z F.integrator hi.split (fun hd => by rw [← F.diffusion]; exact hd) (fun m hm => by
    obtain ⟨h1, h2⟩ := F.impl m hm
    exact ⟨h1, by rw [hf.ns]; exact_mod_cast hi.mechanism h1 m h2⟩)
  simp only [volume, List.forall_mem_cons, List.not_mem_nil, IsEmpty.forall_iff, implies_true, and_true]
  and_intros
  · intro hK
    exact legal_of_covers fun e => ⟨_, adv_called F hf z hK _ (mem_adv _ _ e), cov_v00 _ _ e z.ns⟩
  · intro hK
    exact legal_of_covers fun e => ⟨_, adv_called F hf z hK _ (mem_adv _ _ e), cov_v01 _ _ e z.ns⟩
  · intro hK
    exact legal_of_covers fun e => ⟨_, adv_called F hf z hK _ (mem_adv _ _ e), cov_v02 _ _ e z.ns⟩
  · intro hK
    exact legal_of_covers fun e => ⟨_, adv_called F hf z hK _ (mem_adv _ _ e), cov_v03 _ _ e z.ns⟩
  · intro hK
    exact legal_of_covers fun e => ⟨_, adv_called F hf z hK _ (mem_adv _ _ .i), cov_v04 _ _ e z.ns⟩
  · intro hK
    exact legal_of_covers fun e => ⟨_, adv_called F hf z hK _ (mem_adv _ _ .j), cov_v05 _ _ e z.ns⟩
  · intro hK
    exact legal_of_covers fun e => ⟨_, adv_called F hf z hK _ (mem_adv _ _ .k), cov_v06 _ _ e z.ns⟩
  · intro hK
    exact legal_of_covers fun e => ⟨_, adv_called F hf z hK _ (mem_adv _ _ e), cov_v07 _ _ e z.ns⟩
  · intro hK
    exact legal_of_covers fun e => ⟨_, adv_called F hf z hK _ (mem_adv _ _ .i), cov_v08 _ _ e z.ns⟩
  · intro hK
    exact legal_of_covers fun e => ⟨_, adv_called F hf z hK _ (mem_adv _ _ .j), cov_v09 _ _ e z.ns⟩
  · intro hK
    exact legal_of_covers fun e => ⟨_, adv_called F hf z hK _ (mem_adv _ _ .k), cov_v10 _ _ e z.ns⟩
  · intro hK
    exact legal_of_covers fun e => ⟨_, adv_called F hf z hK _ (mem_adv _ _ .i), cov_v11 _ _ e z.ns⟩
  · intro hK
    exact legal_of_covers fun e => ⟨_, adv_called F hf z hK _ (mem_adv _ _ .j), cov_v12 _ _ e z.ns⟩
  · intro hK
    exact legal_of_covers fun e => ⟨_, adv_called F hf z hK _ (mem_adv _ _ .k), cov_v13 _ _ e z.ns⟩
  · intro hK
    exact legal_of_covers fun e => ⟨_, adv_called F hf z hK _ (mem_adv _ _ e), cov_v14 _ _ e z.ns⟩
  · intro hK
    exact legal_of_covers fun e => ⟨_, adv_called F hf z hK _ (mem_adv _ _ e), cov_v15 _ _ e z.ns⟩
  · intro hK
    exact legal_of_covers fun e => ⟨_, chem_called F hf z hi hK, cov_v16 _ _ e z.ns⟩
  · intro hK
    exact legal_of_covers fun e => ⟨_, chem_called F hf z hi hK, cov_v17 _ _ e z.ns⟩
  · intro hK
    exact legal_of_covers fun e => ⟨_, chem_called F hf z hi hK, cov_v18 _ _ e z.ns⟩
  · intro hK
    exact legal_of_covers fun e => ⟨_, chem_called F hf z hi hK, cov_v19 _ _ e z.ns⟩
  · intro hK
    exact legal_of_covers fun e => ⟨_, damping_safe z (viscous_called F hK) _ (mem_damping _ e), cov_v20 _ _ e z.ns⟩
  · intro hK
    exact legal_of_covers fun e => ⟨_, subgrid_called F hf z hK _ (List.mem_singleton.2 rfl), cov_v21 _ _ e z.ns⟩
  · intro hK
    exact legal_of_covers fun e => ⟨_, subgrid_called F hf z hK _ (List.mem_singleton.2 rfl), cov_v22 _ _ e z.ns⟩
  · intro hK
    exact legal_of_covers fun e => ⟨_, switch_safe z, cov_v23 _ _ e z.ns⟩
  · intro hK
    exact legal_of_covers fun e => ⟨_, switch_safe z, cov_v24 _ _ e z.ns⟩
  · intro hK
    exact legal_of_covers fun e => ⟨_, switch_safe z, cov_v25 _ _ e z.ns⟩
  · intro hK
    exact legal_of_covers fun e => ⟨_, eos_safe z, cov_v26 _ _ e z.ns⟩
  · intro hK
    exact legal_of_covers fun e => ⟨_, eos_safe z, cov_v27 _ _ e z.ns⟩
  · intro hK
    exact legal_of_covers fun e => ⟨_, eos_safe z, cov_v28 _ _ e z.ns⟩
  · intro hK
    exact legal_of_covers fun e => ⟨_, eos_safe z, cov_v29 _ _ e z.ns⟩
  · intro hK
    exact legal_of_covers fun e => ⟨_, eos_safe z, cov_v30 _ _ e z.ns⟩
  · intro hK
    exact legal_of_covers fun e => ⟨_, eos_safe z, cov_v31 _ _ e z.ns⟩
  · intro hK
    src_stage v32 hK hst (cov_v32 b.d r.diffusion _ z.ns)
  · intro hK
    src_stage v33 hK hst (cov_v33 b.d r.diffusion _ z.ns)
  · intro hK
    src_stage v34 hK hst (cov_v34 b.d r.diffusion _ z.ns)
  · intro hK
    src_stage v35 hK hst (cov_v35 b.d r.diffusion _ z.ns)
  · intro hK
    src_stage v36 hK hst (cov_v36 b.d r.diffusion _ z.ns)
  · intro hK
    src_stage v37 hK hst (cov_v37 b.d r.diffusion _ z.ns)
  · intro hK
    src_stage v38 hK hst (cov_v38 b.d r.diffusion _ z.ns)
  · intro hK
    src_stage v39 hK hst (cov_v39 b.d r.diffusion _ z.ns)
  · intro hK
    src_stage v40 hK hst (cov_v40 b.d r.diffusion _ z.ns)
  · intro hK
    src_stage v41 hK hst (cov_v41 b.d r.diffusion _ z.ns)
  · intro hK
    src_stage v42 hK hst (cov_v42 b.d r.diffusion _ z.ns)
  · intro hK
    src_stage v43 hK hst (cov_v43 b.d r.diffusion _ z.ns)
  · intro hK
    src_stage v44 hK hst (cov_v44 b.d r.diffusion _ z.ns)
  · intro hK
    src_stage v45 hK hst (cov_v45 b.d r.diffusion _ z.ns)
  · intro hK
    src_stage v46 hK hst (cov_v46 b.d r.diffusion _ z.ns)
  · intro hK
    src_stage v47 hK hst (cov_v47 b.d r.diffusion _ z.ns)
  · intro hK
    src_stage v48 hK hst (cov_v48 b.d r.diffusion _ z.ns)
  · intro hK
    src_stage v49 hK hst (cov_v49 b.d r.diffusion _ z.ns)
  · intro hK
    src_stage v50 hK hst (cov_v50 b.d r.diffusion _ z.ns)
  · intro hK
    src_stage v51 hK hst (cov_v51 b.d r.diffusion _ z.ns)
  · intro hK
    src_stage v52 hK hst (cov_v52 b.d r.diffusion _ z.ns)
  · intro hK
    src_stage v53 hK hst (cov_v53 b.d r.diffusion _ z.ns)
  · intro hK
    exact legal_of_covers fun e => ⟨_, trans_called F z hK, cov_v54 _ _ e z.ns⟩
  · intro hK
    exact legal_of_covers fun e => ⟨_, trans_called F z hK, cov_v55 _ _ e z.ns⟩
  · intro hK
    exact legal_of_covers fun e => ⟨_, trans_called F z hK, cov_v56 _ _ e z.ns⟩
  · intro hK
    exact legal_of_covers fun e => ⟨_, trans_called F z hK, cov_v57 _ _ e z.ns⟩
  · intro hK
    exact legal_of_covers fun e => ⟨_, apply_safe z _, cov_v58 _ _ e z.ns⟩
  · intro hK
    exact legal_of_covers fun e => ⟨_, apply_safe z _, cov_v59 _ _ e z.ns⟩
  · intro hK
    exact legal_of_covers fun e => ⟨_, apply_safe z _, cov_v60 _ _ e z.ns⟩
  · intro hK
    exact legal_of_covers fun e => ⟨_, monitors_safe z _ (List.mem_cons_self ..), cov_v61 _ _ e z.ns⟩
  · intro hK
    exact legal_of_covers fun e => ⟨_, monitors_safe z _ (List.mem_cons_of_mem _ (List.mem_singleton.2 rfl)), cov_v62 _ _ e z.ns⟩
  · intro hK
    exact legal_of_covers fun e => ⟨_, grad_called F z hK, cov_v63 _ _ e z.ns⟩
  · intro hK
    exact legal_of_covers fun e => ⟨_, sponge_called F z hK, cov_v64 _ _ e z.ns⟩

/-- C113 (text of the kernels): the table leaves nothing out: every function the run calls has an entry, and so has every boundary
    type that does anything to its halo. -/
theorem C113_source_complete (env : Env) (s : Sel) (r : Solver) (h : start env s = .ok r) :
    (∀ dir, ∀ n ∈ called s r dir, ∃ K ∈ volume, K.dir = dir ∧ K.func = n) ∧
    ∀ t, t ∉ [FType.b0, .periodicTransLow, .periodicTransHigh] → ∃ K ∈ onFaces, K.For t ∧ K.terms = "euler" := by
  have hst := (PG.Config.C35_start_exact env s).1 ⟨r, h⟩
  obtain ⟨c1, c2, c3, c4, c5, c6, c7, c8, c9, c10, c11⟩ := PG.Config.C35_solver env s r h
  have F := facts h
  have mem : ∀ dir n, ((volume.map fun K => (K.dir, K.func)).contains (dir, n)) = true → ∃ K ∈ volume, K.dir = dir ∧ K.func = n := by
    intro dir n hc
    simp only [List.contains_iff_mem, List.mem_map, Prod.mk.injEq] at hc
    exact hc
  refine ⟨?_, ?_⟩
  · intro dir n hn
    have adv : ∀ a ∈ PG.Config.usableAdv, ∃ K ∈ volume, K.dir = "advFlux" ∧ K.func = a := by
      intro a ha
      apply mem
      revert a
      decide
    have sub : ∀ a ∈ ["mixedScaleModel", "smagorinsky"], ∃ K ∈ volume, K.dir = "subgrid" ∧ K.func = a := by
      intro a ha; apply mem; revert a; decide
    have swi : ∀ a ∈ ["jamesonPressure", "vanAlbadaPressure", "vanLeer"], ∃ K ∈ volume, K.dir = "switches" ∧ K.func = a := by
      intro a ha; apply mem; revert a; decide
    have the : ∀ a ∈ ["cpg", "tpg", "cubic"], ∃ K ∈ volume, K.dir = "thermo" ∧ K.func = a := by
      intro a ha; apply mem; revert a; decide
    have tra : ∀ a ∈ ["kineticTheory", "constantProps", "kineticTheoryUnityLewis", "chungDenseGasUnityLewis"],
        ∃ K ∈ volume, K.dir = "transport" ∧ K.func = a := by
      intro a ha; apply mem; revert a; decide
    have che : ∀ a ∈ ["chem_C2H4_Air_Red22", "chem_C2H4_Air_Skeletal", "chem_CH4_O2_FFCMY", "chem_GRI30"],
        ∃ K ∈ volume, K.dir = "chemistry" ∧ K.func = a := by
      intro a ha; apply mem; revert a; decide
    have uti : ∀ a ∈ ["CFLmax", "checkNan", "applyFlux", "applyHybridFlux", "applyDissipationFlux", "dq2FD", "viscousSponge"],
        ∃ K ∈ volume, K.dir = "utils" ∧ K.func = a := by
      intro a ha; apply mem; revert a; decide
    have tim : ∀ a ∈ ["rk2s1", "rk2s2", "corrector", "rk3s1", "rk3s2", "rk3s3", "rk34s1", "rk34s2", "rk34s3", "rk34s4", "rk4s1", "rk4s2",
        "rk4s3", "rk4s4", "dQdt", "localDtau", "DTrk3s1", "DTrk3s2", "DTrk3s3", "residual", "invertDQ"],
        ∃ K ∈ volume, K.dir = "timeIntegration" ∧ K.func = a := by
      intro a ha; apply mem; revert a; decide
    unfold called at hn
    split at hn
    · simp only [List.mem_cons, Option.mem_toList] at hn
      exact hn.elim (fun e => e ▸ adv _ F.primary) fun e => adv _ (F.secondary n e)
    · rw [List.mem_singleton.1 hn]
      obtain ⟨e, h1, h2⟩ := hst.eos
      rw [c2] at h2; cases h2
      exact the _ h1
    · simp only [Option.mem_toList] at hn
      have hd := F.trans (by rw [hn]; rfl)
      obtain ⟨t, h1, h2⟩ := c6 (by rw [c5]; exact hd)
      obtain ⟨t', h3, h4⟩ := hst.trans hd
      rw [h1] at h4; cases h4
      rw [h2] at hn; cases hn
      exact tra _ h3
    · simp only [Option.mem_toList] at hn
      obtain ⟨w, hw, e⟩ : ∃ w ∈ ["jamesonPressure", "vanAlbadaPressure", "vanLeer"], s.switch = .str w := by
        rcases hst.fluxes with ⟨g, -, -⟩ | ⟨-, -, g⟩ | ⟨-, -, g⟩
        · rcases c4 with ⟨-, -, -, -, e, -⟩ | ⟨e, -⟩ | ⟨e, -⟩
          · rw [e] at hn; exact absurd hn (by simp)
          · rw [e] at g; exact absurd g (by simp)
          · rw [e] at g; exact absurd g (by simp)
        · exact g
        · exact g
      have : n = w := by
        rcases c4 with ⟨-, -, -, -, e, -⟩ | ⟨-, -, -, -, ⟨w', e1, e2⟩, -⟩ | ⟨-, -, -, -, ⟨w', e1, e2⟩, -⟩
        · rw [e] at hn; exact absurd hn (by simp)
        · rw [e] at e1; cases e1; rw [hn] at e2; exact Option.some.inj e2
        · rw [e] at e1; cases e1; rw [hn] at e2; exact Option.some.inj e2
      rw [this]
      exact swi _ hw
    · split at hn
      · rename_i hd
        simp only [Option.mem_toList] at hn
        rcases c8 hd with ⟨-, e⟩ | ⟨g, e1, e2⟩
        · rw [e] at hn; exact absurd hn (by simp)
        · rw [e2] at hn; cases hn
          rcases hst.subgrid with e | ⟨g', hg, e⟩
          · rw [e] at e1; exact absurd e1 (by simp)
          · rw [e] at e1; cases e1; exact sub _ hg
      · simp at hn
    · split at hn
      · rw [List.mem_singleton.1 hn]
        exact mem _ _ (by decide)
      · simp at hn
    · simp only [List.mem_append, Option.mem_toList] at hn
      obtain ⟨h1, h2⟩ := hn.elim (F.expl n) (F.impl n)
      obtain ⟨m, h3, h4⟩ := hst.chemistry h1
      rw [h2] at h4; cases h4
      exact che _ h3
    · refine uti n ?_
      simp only [List.mem_append] at hn
      rcases hn with (hn | hn) | hn
      · revert n; decide
      · split at hn
        · rw [List.mem_singleton.1 hn]; decide
        · simp at hn
      · split at hn
        · rw [List.mem_singleton.1 hn]; decide
        · simp at hn
    · refine tim n ?_
      split at hn <;> (revert n; decide)
    · simp at hn
  · intro t ht
    cases t
    case periodicRotLow => exact ⟨f16, by simp only [onFaces, List.mem_cons, true_or, or_true], Or.inl rfl, rfl⟩
    case periodicRotHigh => exact ⟨f14, by simp only [onFaces, List.mem_cons, true_or, or_true], Or.inl rfl, rfl⟩
    case constantVelocitySubsonicInlet => exact ⟨f04, by simp only [onFaces, List.mem_cons, true_or, or_true], Or.inl rfl, rfl⟩
    case supersonicInlet => exact ⟨f07, by simp only [onFaces, List.mem_cons, true_or, or_true], Or.inl rfl, rfl⟩
    case constantMassFluxSubsonicInlet => exact ⟨f09, by simp only [onFaces, List.mem_cons, true_or, or_true], Or.inl rfl, rfl⟩
    case cubicSplineSubsonicInlet => exact ⟨f06, by simp only [onFaces, List.mem_cons, true_or, or_true], Or.inl rfl, rfl⟩
    case stagnationSubsonicInlet => exact ⟨f12, by simp only [onFaces, List.mem_cons, true_or, or_true], Or.inl rfl, rfl⟩
    case constantPressureSubsonicExit => exact ⟨f00, by simp only [onFaces, List.mem_cons, true_or, or_true], Or.inl rfl, rfl⟩
    case supersonicExit => exact ⟨f02, by simp only [onFaces, List.mem_cons, true_or, or_true], Or.inl rfl, rfl⟩
    case adiabaticNoSlipWall => exact ⟨f18, by simp only [onFaces, List.mem_cons, true_or, or_true], Or.inl rfl, rfl⟩
    case adiabaticSlipWall => exact ⟨f21, by simp only [onFaces, List.mem_cons, true_or, or_true], Or.inl rfl, rfl⟩
    case adiabaticMovingWall => exact ⟨f23, by simp only [onFaces, List.mem_cons, true_or, or_true], Or.inl rfl, rfl⟩
    case isoTNoSlipWall => exact ⟨f26, by simp only [onFaces, List.mem_cons, true_or, or_true], Or.inl rfl, rfl⟩
    case isoTSlipWall => exact ⟨f29, by simp only [onFaces, List.mem_cons, true_or, or_true], Or.inl rfl, rfl⟩
    case isoTMovingWall => exact ⟨f31, by simp only [onFaces, List.mem_cons, true_or, or_true], Or.inl rfl, rfl⟩
    all_goals exact absurd ht (by simp)

/-! ### the hypotheses can be met -/

/-- kernels that the viscous reacting hybrid case calls -/
example : ∃ r, start (PG.Config.allKnown 12) PG.Config.rich = .ok r ∧ "muscl2hllc" ∈ called PG.Config.rich r "advFlux" ∧
    "rk3s2" ∈ called PG.Config.rich r "timeIntegration" ∧ "chem_CH4_O2_FFCMY" ∈ called PG.Config.rich r "chemistry" ∧
    "mixedScaleModel" ∈ called PG.Config.rich r "subgrid" ∧ "dq2FD" ∈ called PG.Config.rich r "utils" :=
  ⟨_, rfl, by decide, by decide, by decide, by decide, by decide⟩

/-- accesses of the text that leave the block: the four-cell stencil of the fourth-order scheme with one layer -/
example (s : Sel) (fd : Fc → FaceData) : ¬ v04.Legal ⟨3, 3, 3, 1, 1⟩ s fd false := by
  intro h
  have := h .i 1 1 1 (by simp [SKernel.Item, v04]) ⟨"Q", (-2, 0, 0), 0, false, fun _ => 0, fun _ => 1⟩ (by simp [v04]) (by simp)
  obtain ⟨A, hA, -, hc⟩ := this
  simp only [arrOf, Option.some.injEq] at hA
  subst hA
  have := (hc 0 (by simp) (by simp)).2.2
  simp [Inside, cellIx, inC, Dir.v] at this

end PG.Safe.Src
