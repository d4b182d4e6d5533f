import Verif.BC.ReadBcs
/-!
C88: readBcs accepts exactly the described cases, gives every face the values of its family, and the two passes made by
bootstrapCase (periodic data first, the rest after the metrics exist) equal one.
-/
noncomputable section
namespace PG.BC
open PG.Thermo V3

theorem mapM_some {α β : Type} (f : α → Option β) (l : List α) (l' : List β) :
    l.mapM f = some l' ↔ List.Forall₂ (fun a b => f a = some b) l l' := by
  induction l generalizing l' with
  | nil => cases l' <;> simp
  | cons a l ih =>
    rw [List.mapM_cons, List.forall₂_cons_left_iff]
    cases h : f a with
    | none => simp
    | some b =>
      cases h2 : l.mapM f with
      | none =>
        simp only [Option.pure_def, Option.bind_eq_bind, Option.bind_some, Option.bind_none, reduceCtorEq, false_iff]
        rintro ⟨b', u, hb, hu, -⟩
        rw [← ih, h2] at hu
        exact absurd hu (by simp)
      | some m =>
        simp only [Option.pure_def, Option.bind_eq_bind, Option.bind_some, Option.some.injEq]
        constructor
        · rintro rfl; exact ⟨b, m, rfl, (ih m).1 h2, rfl⟩
        · rintro ⟨b', u, rfl, hu, rfl⟩
          rw [← ih, h2] at hu
          rw [Option.some.inj hu]

theorem mapM_ok {α β : Type} (f : α → Option β) (l : List α) : l.mapM f ≠ none ↔ ∀ a ∈ l, f a ≠ none := by
  induction l with
  | nil => simp
  | cons a l ih =>
    rw [List.mapM_cons, List.forall_mem_cons, ← ih]
    cases h : f a <;> cases h2 : l.mapM f <;> simp

theorem name_periodic (t : FType) : periodicType t.name = true ↔ IsPeriodic t := by
  unfold IsPeriodic periodicType
  cases t <;> decide +kernel

theorem fits_iff (s : List Char) (t : FType) :
    Fits s t ↔ ¬ (s ≠ t.name ∧ ¬ (periodicType s ∧ s.isPrefixOf t.name)) := by
  unfold Fits periodicType
  rw [List.isPrefixOf_iff_prefix, List.isPrefixOf_iff_prefix]
  constructor
  · rintro (h | ⟨r, r', h1, h2⟩) ⟨h3, h4⟩
    · exact h3 h
    · exact h4 ⟨⟨r, h1.symm⟩, ⟨r', h2.symm⟩⟩
  · intro h
    by_cases e : s = t.name
    · exact Or.inl e
    · right
      have h' : "periodic".toList <+: s ∧ s <+: t.name := by
        by_contra hc
        exact h ⟨e, hc⟩
      obtain ⟨⟨r, h1⟩, ⟨r', h2⟩⟩ := h'
      exact ⟨r, r', h1.symm, h2.symm⟩

/-- a face is described by the input -/
structure Described (F : String → Option Fam) (fs : Files) (just solver : Bool) (B : SBlock) (f : SFace) : Prop where
  without : f.bcFam = none → NeedsNothing f.bcType
  family : ∀ fam, f.bcFam = some fam → ∃ e, F fam = some e ∧ Fits e.bcType f.bcType ∧ ∀ V, e.vals = some V →
    (IsPeriodic f.bcType → V.num "periodicSpan" ≠ none ∧ V.axis ≠ none) ∧
    (¬ IsPeriodic f.bcType → just = false → solver = true → f.bcType ≠ .b0 ∧
      (TakesProfile f.bcType ∧ V.profile = true → fs.profile fam B.nblki f.face ≠ none) ∧
      (¬ (TakesProfile f.bcType ∧ V.profile = true) → ∀ k, Required f.bcType k → V.num k ≠ none) ∧
      (f.bcType = .cubicSplineSubsonicInlet → fs.alphas fam B.nblki f.face ≠ none))

theorem bind_ok {α β : Type} {x : Option α} {g : α → Option β} : (x >>= g) ≠ none ↔ ∃ a, x = some a ∧ g a ≠ none := by
  cases x <;> simp

theorem required_iff (t : FType) (P : String → Prop) :
    (∀ k, Required t k → P k) ↔ (∀ c k, key t c = some k → P k) ∧ ∀ k ∈ extraKeys t, P k := by
  unfold Required
  constructor
  · intro h; exact ⟨fun c k hk => h k (Or.inl ⟨c, hk⟩), fun k hk => h k (Or.inr hk)⟩
  · rintro ⟨h1, h2⟩ k (⟨c, hc⟩ | hk)
    · exact h1 c k hc
    · exact h2 k hk

theorem comps (P : Comp → Prop) : (∀ c, P c) ↔ P .p ∧ P .u ∧ P .v ∧ P .w ∧ P .T :=
  ⟨fun h => ⟨h _, h _, h _, h _, h _⟩, fun ⟨a, b, c, d, e⟩ x => by cases x <;> assumption⟩

theorem prep_ok (B : SBlock) (fs : Files) (fam : String) (f : SFace) (V : Vals) (hp : ¬ IsPeriodic f.bcType) :
    prep B fs fam f V ≠ none ↔ f.bcType ≠ .b0 ∧
      (TakesProfile f.bcType ∧ V.profile = true → fs.profile fam B.nblki f.face ≠ none) ∧
      (¬ (TakesProfile f.bcType ∧ V.profile = true) → ∀ k, Required f.bcType k → V.num k ≠ none) ∧
      (f.bcType = .cubicSplineSubsonicInlet → fs.alphas fam B.nblki f.face ≠ none) := by
  rw [required_iff, comps]
  cases ht : f.bcType <;> rw [ht] at hp <;>
    first
    | (exfalso; revert hp; unfold IsPeriodic; decide)
    | (simp only [prep, ht, TakesProfile, NeedsNothing, IsPeriodic, key, extraKeys]
       cases V.profile <;> simp [Option.ne_none_iff_exists'] <;> tauto)

theorem readFace_ok (F : String → Option Fam) (fs : Files) (just solver : Bool) (B : SBlock) (f : SFace) :
    readFace F fs just solver B f ≠ none ↔ Described F fs just solver B f := by
  cases hf : f.bcFam with
  | none =>
    have : readFace F fs just solver B f ≠ none ↔ NeedsNothing f.bcType := by
      simp only [readFace, hf, NeedsNothing]
      split_ifs with h <;> simp [h]
    rw [this]
    exact ⟨fun h => ⟨fun _ => h, fun fam hc => by rw [hf] at hc; exact absurd hc (by simp)⟩, fun h => h.without hf⟩
  | some fam =>
    constructor
    · intro h
      refine ⟨fun hc => by rw [hf] at hc; exact absurd hc (by simp), fun fam' hc => ?_⟩
      rw [hf] at hc
      obtain rfl := Option.some.inj hc
      simp only [readFace, hf, bind_ok] at h
      obtain ⟨e, he, h⟩ := h
      have hfit : ¬ (e.bcType ≠ f.bcType.name ∧ ¬ (periodicType e.bcType ∧ e.bcType.isPrefixOf f.bcType.name)) := by
        intro hc
        rw [if_pos hc] at h; exact h rfl
      rw [if_neg hfit] at h
      refine ⟨e, he, (fits_iff _ _).2 hfit, fun V hV => ⟨fun hp => ?_, fun hp hj hs => ?_⟩⟩
      · simp only [hV, if_pos ((name_periodic _).2 hp), setPeriodic, bind_ok] at h
        obtain ⟨s, hs, a, ha, -⟩ := h
        rw [hs, ha]; simp
      · have hn : ¬ periodicType f.bcType.name = true := fun hc => hp ((name_periodic _).1 hc)
        simp only [hV, if_neg hn, hj, hs, Bool.not_true, Bool.or_self, Bool.false_eq_true, if_false] at h
        exact (prep_ok B fs fam f V hp).1 h
    · intro h
      obtain ⟨e, he, hfit, hv⟩ := h.family fam hf
      simp only [readFace, hf, bind_ok]
      refine ⟨e, he, ?_⟩
      rw [fits_iff] at hfit
      rw [if_neg hfit]
      cases hV : e.vals with
      | none => simp
      | some V =>
        obtain ⟨h1, h2⟩ := hv V hV
        by_cases hp : IsPeriodic f.bcType
        · obtain ⟨h3, h4⟩ := h1 hp
          simp only [if_pos ((name_periodic _).2 hp), setPeriodic, bind_ok]
          obtain ⟨s, hs⟩ := Option.ne_none_iff_exists'.1 h3
          obtain ⟨a, ha⟩ := Option.ne_none_iff_exists'.1 h4
          exact ⟨s, hs, a, ha, by simp⟩
        · have hn : ¬ periodicType f.bcType.name = true := fun hc => hp ((name_periodic _).1 hc)
          simp only [if_neg hn]
          cases hj : just <;> cases hs : solver <;>
            simp only [Bool.not_true, Bool.not_false, Bool.or_self, Bool.or_true, Bool.or_false, Bool.false_eq_true, if_false, if_true,
              ne_eq, reduceCtorEq, not_false_eq_true]
          exact (prep_ok B fs fam f V hp).2 (h2 hp hj hs)

/-- C88 (acceptance): with a bcFams.yaml, reading succeeds exactly when every face of every block is described: faces without a
    family are interior, supersonic exit or plain adiabatic walls; a family exists in the file, its type fits, and if it has
    values, all those the type needs are there (span and axis for periodic faces; on the full pass the keys of the type, or
    the profile or coefficient file). Without the file everything is accepted and left alone. -/
theorem C88_accept (fs : Files) (just solver : Bool) (mb : List SBlock) :
    readBcs none fs just solver mb = some mb ∧
    ∀ F : String → Option Fam, readBcs (some F) fs just solver mb ≠ none ↔
      ∀ B ∈ mb, ∀ f ∈ B.faces, Described F fs just solver B f := by
  refine ⟨rfl, fun F => ?_⟩
  simp only [readBcs, mapM_ok]
  refine forall_congr' fun B => forall_congr' fun _ => ?_
  have : ((do let l ← B.faces.mapM (readFace F fs just solver B); some ({ B with faces := l } : SBlock)) ≠ none) ↔
      B.faces.mapM (readFace F fs just solver B) ≠ none := by
    cases B.faces.mapM (readFace F fs just solver B) <;> simp
  rw [this, mapM_ok]
  exact forall_congr' fun f => forall_congr' fun _ => readFace_ok F fs just solver B f

/-- a family named `periodicTrans` (`periodicRot`) serves exactly the two translational (rotational) face types; any other
    valid type name fits only itself -/
theorem C88_types (t : FType) :
    (Fits "periodicTrans".toList t ↔ t = .periodicTransLow ∨ t = .periodicTransHigh) ∧
    (Fits "periodicRot".toList t ↔ t = .periodicRotLow ∨ t = .periodicRotHigh) ∧
    ∀ s : FType, Fits s.name t ↔ s = t := by
  refine ⟨?_, ?_, fun s => ?_⟩ <;> rw [fits_iff] <;> unfold periodicType
  · cases t <;> decide +kernel
  · cases t <;> decide +kernel
  · cases s <;> cases t <;> decide +kernel

/-- the two directions along a face with normal direction `d`, in increasing order -/
def along1 (d : Fin 3) : Fin 3 := if d = 0 then 1 else 0
def along2 (d : Fin 3) : Fin 3 := if d = 2 then 1 else 2

/-- position (counted from zero) of the interior cell nearest to array index `x` along direction `t`: a block with `n` nodes has
    `n - 1` interior cells there, the last one at `n - 2` -/
def nearestInterior (dm : Dims) (t : Fin 3) (x : ℤ) : ℤ := max 0 (min (x - dm.ng) (dm.n t - 2))

/-- what a face of block `B` holds after a successful pass -/
structure Received (F : String → Option Fam) (fs : Files) (just solver : Bool) (B : SBlock) (f f' : SFace) : Prop where
  /-- identity, family and type never change -/
  same : f'.face = f.face ∧ f'.bcFam = f.bcFam ∧ f'.bcType = f.bcType
  /-- no family, or a family without values: nothing changes -/
  untouched : (∀ fam e, f.bcFam = some fam → F fam = some e → e.vals = none) → f' = f
  /-- periodic faces: span and normalised axis of the family, rotation matrices about the axis for rotational ones -/
  periodic : ∀ fam e V, f.bcFam = some fam → F fam = some e → e.vals = some V → IsPeriodic f.bcType →
    ∃ s a, V.num "periodicSpan" = some s ∧ V.axis = some a ∧ f'.span = some s ∧
      f'.axis = some (smul (1 / Real.sqrt (dot a a)) a) ∧ f'.bc = f.bc ∧
      ((f.bcType = .periodicRotLow ∨ f.bcType = .periodicRotHigh) →
        f'.rotUp = some (PG.BC.rotUp a s) ∧ f'.rotDown = some (PG.BC.rotDown a s))
  /-- other faces on the periodic pass, or outside the solver: nothing changes -/
  later : ¬ IsPeriodic f.bcType → (just = true ∨ solver = false) → f' = f
  /-- other faces on the full pass: target values everywhere on the face, halo cells included -/
  values : ∀ fam e V, f.bcFam = some fam → F fam = some e → e.vals = some V → ¬ IsPeriodic f.bcType → just = false →
    solver = true → ∃ v, f'.bc = some v ∧
      -- constant values: every component is the number given under its key, zero if the type has no such key;
      -- species in the order of the species list, zero if not mentioned
      (¬ (TakesProfile f.bcType ∧ V.profile = true) → ∀ c,
        (∀ x, comp (v c).q x = ((key f.bcType x).bind V.num).getD 0) ∧
        (IsInlet f.bcType → ∀ n s, n + 1 < B.species.length → B.species[n]? = some s → (v c).q.Y n = (V.num s).getD 0) ∧
        (f.bcType = .constantMassFluxSubsonicInlet → ∃ m, V.num "mDotPerUnitArea" = some m ∧
          (⟨(v c).Q.rhou, (v c).Q.rhov, (v c).Q.rhow⟩ : V3) =
            smul m (inwardNormal B.dm f.face ⟨B.nrm, v, fun _ => 0, fun _ => 0⟩ c))) ∧
      -- profiles: the value of the nearest interior cell of the face
      (TakesProfile f.bcType ∧ V.profile = true → ∃ P, fs.profile fam B.nblki f.face = some P ∧
        ((∀ t, 2 ≤ B.dm.n t) → ∀ c, v c = P (nearestInterior B.dm (along1 f.face.dir) (c (along1 f.face.dir)))
          (nearestInterior B.dm (along2 f.face.dir) (c (along2 f.face.dir)))))
  /-- spline inlets: interval length and coefficients, each stored cell of the face holding those of the nearest interior one -/
  spline : ∀ fam e V, f.bcFam = some fam → F fam = some e → e.vals = some V → just = false → solver = true →
    f.bcType = .cubicSplineSubsonicInlet → ∃ P a, fs.alphas fam B.nblki f.face = some P ∧ f'.alphas = some a ∧
      f'.intervalDt = V.num "intervalDt" ∧
      ((∀ t, 2 ≤ B.dm.n t) → ∀ k iv i j, 0 ≤ i → i < B.dm.n (along1 f.face.dir) - 1 + 2 * B.dm.ng → 0 ≤ j →
        j < B.dm.n (along2 f.face.dir) - 1 + 2 * B.dm.ng →
        a k iv (i, j) = P k iv (nearestInterior B.dm (along1 f.face.dir) i, nearestInterior B.dm (along2 f.face.dir) j))

theorem plane_along (d : Fin 3) (c : Ix) : planeIx d c = (c (along1 d), c (along2 d)) := by
  unfold planeIx along1 along2
  fin_cases d <;> rfl

theorem ext_along (dm : Dims) (d : Fin 3) : planeExt dm d = (dm.n (along1 d) - 1, dm.n (along2 d) - 1) := plane_along d _

theorem interior_along (dm : Dims) (t : Fin 3) (x : ℤ) : nearestInterior dm t x = max 0 (min (x - dm.ng) (dm.n t - 1 - 1)) := by
  unfold nearestInterior
  congr 2; ring

theorem planeExt_pos (dm : Dims) (h : ∀ t, 2 ≤ dm.n t) (d : Fin 3) : 1 ≤ (planeExt dm d).1 ∧ 1 ≤ (planeExt dm d).2 := by
  have h0 := h 0; have h1 := h 1; have h2 := h 2
  unfold planeExt planeIx
  split_ifs <;> constructor <;> dsimp only <;> omega

theorem profileVals_eq (dm : Dims) (h : ∀ t, 2 ≤ dm.n t) (f : Face) (P : ℤ → ℤ → BcVal) (c : Ix) :
    profileVals dm f P c = P (max 0 (min ((planeIx f.dir c).1 - dm.ng) ((planeExt dm f.dir).1 - 1)))
      (max 0 (min ((planeIx f.dir c).2 - dm.ng) ((planeExt dm f.dir).2 - 1))) := by
  obtain ⟨h1, h2⟩ := planeExt_pos dm h f.dir
  unfold profileVals
  dsimp only
  rw [C75_profile _ _ _ h1 h2]
  generalize (planeExt dm f.dir).1 = e1 at *
  generalize (planeExt dm f.dir).2 = e2 at *
  generalize (planeIx f.dir c).1 = i
  generalize (planeIx f.dir c).2 = j
  unfold clampIx
  rw [if_pos (by omega)]
  congr 1 <;> omega

theorem splineAlphas_eq (dm : Dims) (h : ∀ t, 2 ≤ dm.n t) (f : Face) (P : Fin 4 → ℤ → FPos → V3) (k : Fin 4) (iv i j : ℤ)
    (hi : 0 ≤ i) (hi2 : i < (planeExt dm f.dir).1 + 2 * dm.ng) (hj : 0 ≤ j) (hj2 : j < (planeExt dm f.dir).2 + 2 * dm.ng) :
    splineAlphas dm f P k iv (i, j) = P k iv (max 0 (min (i - dm.ng) ((planeExt dm f.dir).1 - 1)),
      max 0 (min (j - dm.ng) ((planeExt dm f.dir).2 - 1))) := by
  obtain ⟨h1, h2⟩ := planeExt_pos dm h f.dir
  unfold splineAlphas
  dsimp only
  rw [C75_fill _ _ _ h1 h2 _ i j hi hi2 hj hj2]
  generalize (planeExt dm f.dir).1 = e1 at *
  generalize (planeExt dm f.dir).2 = e2 at *
  unfold clampIx
  rw [if_pos (by omega)]
  congr 2 <;> omega

theorem species_eq (sp : List String) (num : String → Option ℝ) (n : ℕ) (s : String) (hn : n + 1 < sp.length)
    (hs : sp[n]? = some s) : speciesVals sp num n = (num s).getD 0 := by
  unfold speciesVals
  have : sp.dropLast[n]? = some s := by
    rw [List.getElem?_dropLast, if_pos (by omega), hs]
  rw [this]

theorem some_bind' {α β : Type} {x : Option α} {g : α → Option β} {b : β} (h : x >>= g = some b) :
    ∃ a, x = some a ∧ g a = some b := by
  cases x with
  | none => simp at h
  | some a => exact ⟨a, rfl, h⟩

theorem prep_values (B : SBlock) (fs : Files) (fam : String) (f f' : SFace) (V : Vals) (h : prep B fs fam f V = some f') :
    (f'.face = f.face ∧ f'.bcFam = f.bcFam ∧ f'.bcType = f.bcType) ∧ ∃ v, f'.bc = some v ∧
      (¬ (TakesProfile f.bcType ∧ V.profile = true) → ∀ c,
        (∀ x, comp (v c).q x = ((key f.bcType x).bind V.num).getD 0) ∧
        (IsInlet f.bcType → (v c).q.Y = speciesVals B.species V.num) ∧
        (f.bcType = .constantMassFluxSubsonicInlet → ∃ m, V.num "mDotPerUnitArea" = some m ∧
          (⟨(v c).Q.rhou, (v c).Q.rhov, (v c).Q.rhow⟩ : V3) =
            massFluxTarget f.face ⟨B.nrm, fun _ => zeroBc, fun _ => 0, fun _ => 0⟩ c (B.dm.n f.face.dir) B.dm.ng m)) ∧
      (TakesProfile f.bcType ∧ V.profile = true → ∃ P, fs.profile fam B.nblki f.face = some P ∧
        v = profileVals B.dm f.face P) := by
  have hy : ∀ t : FType, t ∈ [FType.constantVelocitySubsonicInlet, .supersonicInlet, .constantMassFluxSubsonicInlet,
      .stagnationSubsonicInlet, .constantPressureSubsonicExit, .adiabaticMovingWall, .isoTNoSlipWall, .isoTSlipWall,
      .isoTMovingWall] ↔ TakesProfile t := by
    intro t; unfold TakesProfile NeedsNothing IsPeriodic; cases t <;> decide
  by_cases hpr : TakesProfile f.bcType ∧ V.profile = true
  · obtain ⟨htp, hvp⟩ := hpr
    have h2 : prep B fs fam f V = (do
        let P ← fs.profile fam B.nblki f.face
        some { f with bc := some (profileVals B.dm f.face P) }) := by
      have := (hy _).2 htp
      simp only [List.mem_cons, List.not_mem_nil, or_false] at this
      unfold prep
      rcases this with e|e|e|e|e|e|e|e|e <;> simp only [e, hvp, if_true]
    rw [h2] at h
    obtain ⟨P, hP, h⟩ := some_bind' h
    obtain rfl := Option.some.inj h
    exact ⟨⟨rfl, rfl, rfl⟩, _, rfl, fun hc => absurd ⟨htp, hvp⟩ hc, fun _ => ⟨P, hP, rfl⟩⟩
  · have hf : TakesProfile f.bcType → V.profile = false := by
      intro ht; cases hv : V.profile
      · rfl
      · exact absurd ⟨ht, hv⟩ hpr
    unfold prep at h
    cases ht : f.bcType <;> rw [ht] at h hf hpr <;> simp only [IsInlet] <;>
      (try (rw [hf ((hy _).1 (by decide))] at h)) <;> simp only [Bool.false_eq_true, if_false] at h
    case constantVelocitySubsonicInlet =>
      obtain ⟨u, hu, h⟩ := some_bind' h
      obtain ⟨v, hv, h⟩ := some_bind' h
      obtain ⟨w, hw, h⟩ := some_bind' h
      obtain ⟨T, hT, h⟩ := some_bind' h
      obtain rfl := Option.some.inj h
      refine ⟨⟨rfl, rfl, by first | exact ht | rfl⟩, _, rfl, fun _ c => ⟨fun x => ?_, fun _ => rfl, fun hc => absurd hc (by decide)⟩, fun hc => absurd hc hpr⟩
      cases x <;> simp [key, comp, *]
    case supersonicInlet =>
      obtain ⟨p, hp, h⟩ := some_bind' h
      obtain ⟨u, hu, h⟩ := some_bind' h
      obtain ⟨v, hv, h⟩ := some_bind' h
      obtain ⟨w, hw, h⟩ := some_bind' h
      obtain ⟨T, hT, h⟩ := some_bind' h
      obtain rfl := Option.some.inj h
      refine ⟨⟨rfl, rfl, by first | exact ht | rfl⟩, _, rfl, fun _ c => ⟨fun x => ?_, fun _ => rfl, fun hc => absurd hc (by decide)⟩, fun hc => absurd hc hpr⟩
      cases x <;> simp [key, comp, *]
    case constantMassFluxSubsonicInlet =>
      obtain ⟨m, hm, h⟩ := some_bind' h
      obtain ⟨T, hT, h⟩ := some_bind' h
      obtain rfl := Option.some.inj h
      refine ⟨⟨rfl, rfl, by first | exact ht | rfl⟩, _, rfl, fun _ c => ⟨fun x => ?_, fun _ => rfl, fun _ => ⟨m, hm, rfl⟩⟩, fun hc => absurd hc hpr⟩
      cases x <;> simp [key, comp, *]
    case cubicSplineSubsonicInlet =>
      obtain ⟨T, hT, h⟩ := some_bind' h
      obtain ⟨dt, hdt, h⟩ := some_bind' h
      obtain ⟨P, hP, h⟩ := some_bind' h
      obtain rfl := Option.some.inj h
      refine ⟨⟨rfl, rfl, by first | exact ht | rfl⟩, _, rfl, fun _ c => ⟨fun x => ?_, fun _ => rfl, fun hc => absurd hc (by decide)⟩, fun hc => absurd hc hpr⟩
      cases x <;> simp [key, comp, zeroBc, *]
    case stagnationSubsonicInlet =>
      obtain ⟨p, hp, h⟩ := some_bind' h
      obtain ⟨T, hT, h⟩ := some_bind' h
      obtain rfl := Option.some.inj h
      refine ⟨⟨rfl, rfl, by first | exact ht | rfl⟩, _, rfl, fun _ c => ⟨fun x => ?_, fun _ => rfl, fun hc => absurd hc (by decide)⟩, fun hc => absurd hc hpr⟩
      cases x <;> simp [key, comp, *]
    case constantPressureSubsonicExit =>
      obtain ⟨p, hp, h⟩ := some_bind' h
      obtain rfl := Option.some.inj h
      refine ⟨⟨rfl, rfl, by first | exact ht | rfl⟩, _, rfl, fun _ c => ⟨fun x => ?_, fun hc => absurd hc (by decide), fun hc => absurd hc (by decide)⟩,
        fun hc => absurd hc hpr⟩
      cases x <;> simp [key, comp, *]
    case adiabaticMovingWall =>
      obtain ⟨u, hu, h⟩ := some_bind' h
      obtain ⟨v, hv, h⟩ := some_bind' h
      obtain ⟨w, hw, h⟩ := some_bind' h
      obtain rfl := Option.some.inj h
      refine ⟨⟨rfl, rfl, by first | exact ht | rfl⟩, _, rfl, fun _ c => ⟨fun x => ?_, fun hc => absurd hc (by decide), fun hc => absurd hc (by decide)⟩,
        fun hc => absurd hc hpr⟩
      cases x <;> simp [key, comp, *]
    case isoTMovingWall =>
      obtain ⟨u, hu, h⟩ := some_bind' h
      obtain ⟨v, hv, h⟩ := some_bind' h
      obtain ⟨w, hw, h⟩ := some_bind' h
      obtain ⟨T, hT, h⟩ := some_bind' h
      obtain rfl := Option.some.inj h
      refine ⟨⟨rfl, rfl, by first | exact ht | rfl⟩, _, rfl, fun _ c => ⟨fun x => ?_, fun hc => absurd hc (by decide), fun hc => absurd hc (by decide)⟩,
        fun hc => absurd hc hpr⟩
      cases x <;> simp [key, comp, *]
    case isoTNoSlipWall | isoTSlipWall =>
      obtain ⟨T, hT, h⟩ := some_bind' h
      obtain rfl := Option.some.inj h
      refine ⟨⟨rfl, rfl, by first | exact ht | rfl⟩, _, rfl, fun _ c => ⟨fun x => ?_, fun hc => absurd hc (by decide), fun hc => absurd hc (by decide)⟩,
        fun hc => absurd hc hpr⟩
      cases x <;> simp [key, comp, *]
    case supersonicExit | adiabaticNoSlipWall | adiabaticSlipWall =>
      obtain rfl := Option.some.inj h
      refine ⟨⟨rfl, rfl, by first | exact ht | rfl⟩, _, rfl, fun _ c => ⟨fun x => ?_, fun hc => absurd hc (by decide), fun hc => absurd hc (by decide)⟩,
        fun hc => absurd hc hpr⟩
      cases x <;> simp [key, comp, zeroBc]
    all_goals exact absurd h (by simp)

theorem readFace_received (F : String → Option Fam) (fs : Files) (just solver : Bool) (B : SBlock) (f f' : SFace)
    (h : readFace F fs just solver B f = some f') : Received F fs just solver B f f' := by
  cases hf : f.bcFam with
  | none =>
    have : f' = f := by
      simp only [readFace, hf] at h
      split_ifs at h
      exact (Option.some.inj h).symm
    subst this
    have hno : ∀ fam : String, f'.bcFam = some fam → False := fun fam hc => by rw [hf] at hc; simp at hc
    exact ⟨⟨rfl, rfl, rfl⟩, fun _ => rfl, fun fam _ _ hc => (hno fam hc).elim, fun _ _ => rfl, fun fam _ _ hc => (hno fam hc).elim,
      fun fam _ _ hc => (hno fam hc).elim⟩
  | some fam =>
    simp only [readFace, hf] at h
    obtain ⟨e, he, h⟩ := some_bind' h
    have hfit : ¬ (e.bcType ≠ f.bcType.name ∧ ¬ (periodicType e.bcType ∧ e.bcType.isPrefixOf f.bcType.name)) := by
      intro hc
      rw [if_pos hc] at h; simp at h
    rw [if_neg hfit] at h
    have huniq : ∀ fam' e', f.bcFam = some fam' → F fam' = some e' → fam' = fam ∧ e' = e := by
      intro fam' e' h1 h2
      rw [hf] at h1
      obtain rfl := Option.some.inj h1
      rw [he] at h2
      exact ⟨rfl, (Option.some.inj h2).symm⟩
    cases hV : e.vals with
    | none =>
      rw [hV] at h
      have : f' = f := (Option.some.inj h).symm
      subst this
      refine ⟨⟨rfl, rfl, rfl⟩, fun _ => rfl, fun fam' e' V h1 h2 h3 => ?_, fun _ _ => rfl, fun fam' e' V h1 h2 h3 => ?_,
        fun fam' e' V h1 h2 h3 => ?_⟩ <;>
      · rw [(huniq _ _ h1 h2).2, hV] at h3; simp at h3
    | some V =>
      rw [hV] at h
      dsimp only at h
      have hut : (∀ fam e, f.bcFam = some fam → F fam = some e → e.vals = none) → f' = f := by
        intro hc
        have := hc fam e hf he
        rw [hV] at this; simp at this
      by_cases hp : IsPeriodic f.bcType
      · rw [if_pos ((name_periodic _).2 hp)] at h
        obtain ⟨s, hs, hq0⟩ := some_bind' h
        obtain ⟨a, ha, hq⟩ := some_bind' hq0
        have hsame : f'.face = f.face ∧ f'.bcFam = f.bcFam ∧ f'.bcType = f.bcType := by
          split_ifs at hq <;> obtain rfl := Option.some.inj hq <;> exact ⟨rfl, rfl, rfl⟩
        refine ⟨hsame, hut, fun fam' e' V' h1 h2 h3 _ => ?_, fun hc => absurd hp hc, fun _ _ _ _ _ _ hc => absurd hp hc,
          fun _ _ _ _ _ _ _ _ hc => by rw [hc] at hp; simp [IsPeriodic] at hp⟩
        obtain ⟨rfl, rfl⟩ := huniq _ _ h1 h2
        rw [hV] at h3
        obtain rfl := Option.some.inj h3
        refine ⟨s, a, hs, ha, ?_⟩
        split_ifs at hq with hr
        · obtain rfl := Option.some.inj hq
          exact ⟨rfl, rfl, rfl, fun _ => ⟨rfl, rfl⟩⟩
        · obtain rfl := Option.some.inj hq
          exact ⟨rfl, rfl, rfl, fun hc => absurd hc hr⟩
      · have hn : ¬ periodicType f.bcType.name = true := fun hc => hp ((name_periodic _).1 hc)
        rw [if_neg hn] at h
        by_cases hl : (just || !solver) = true
        · rw [if_pos hl] at h
          have : f' = f := (Option.some.inj h).symm
          subst this
          refine ⟨⟨rfl, rfl, rfl⟩, fun _ => rfl, fun _ _ _ _ _ _ hc => absurd hc hp, fun _ _ => rfl, fun _ _ _ _ _ _ _ hj hs => ?_,
            fun _ _ _ _ _ _ hj hs _ => ?_⟩ <;>
          · rw [hj, hs] at hl; simp at hl
        · rw [if_neg hl] at h
          obtain ⟨hsame, v, hv, h1, h2⟩ := prep_values B fs fam f f' V h
          refine ⟨hsame, hut, fun _ _ _ _ _ _ hc => absurd hc hp, fun _ hc => ?_, fun fam' e' V' h3 h4 h5 _ _ _ => ?_,
            fun fam' e' V' h3 h4 h5 _ _ ht => ?_⟩
          · exfalso; apply hl
            rcases hc with hc | hc <;> rw [hc] <;> simp
          · obtain ⟨rfl, rfl⟩ := huniq _ _ h3 h4
            rw [hV] at h5
            obtain rfl := Option.some.inj h5
            refine ⟨v, hv, fun hc c => ?_, fun hc => ?_⟩
            · obtain ⟨h6, h7, h8⟩ := h1 hc c
              refine ⟨h6, fun hi n s hn hs => ?_, fun hm => ?_⟩
              · rw [h7 hi]; exact species_eq _ _ _ _ hn hs
              · obtain ⟨m, hm1, hm2⟩ := h8 hm
                refine ⟨m, hm1, ?_⟩
                rw [hm2, massFluxTarget_eq]; rfl
            · obtain ⟨P, hP, hv2⟩ := h2 hc
              exact ⟨P, hP, fun hd c => by
                rw [hv2, profileVals_eq B.dm hd f.face P c, plane_along, ext_along, interior_along, interior_along]⟩
          · obtain ⟨rfl, rfl⟩ := huniq _ _ h3 h4
            rw [hV] at h5
            obtain rfl := Option.some.inj h5
            simp only [prep, ht] at h
            obtain ⟨T, hT, h⟩ := some_bind' h
            obtain ⟨dt, hdt, h⟩ := some_bind' h
            obtain ⟨P, hP, h⟩ := some_bind' h
            obtain rfl := Option.some.inj h
            exact ⟨P, _, hP, rfl, hdt.symm, fun hd k iv i j a b c d => by
              rw [interior_along, interior_along]
              have := splineAlphas_eq B.dm hd f.face P k iv i j a (by rw [ext_along]; exact b) c (by rw [ext_along]; exact d)
              rw [ext_along] at this
              exact this⟩

/-- C88 (values): a successful pass gives every face of every block what its family says and changes nothing else. -/
theorem C88_values (F : String → Option Fam) (fs : Files) (just solver : Bool) (mb mb' : List SBlock)
    (h : readBcs (some F) fs just solver mb = some mb') :
    List.Forall₂ (fun B B' => B'.nblki = B.nblki ∧ B'.dm = B.dm ∧ B'.nrm = B.nrm ∧ B'.species = B.species ∧
      List.Forall₂ (Received F fs just solver B) B.faces B'.faces) mb mb' := by
  rw [readBcs, mapM_some] at h
  refine h.imp fun B B' hB => ?_
  obtain ⟨l, hl, hB⟩ := some_bind' hB
  obtain rfl := Option.some.inj hB
  refine ⟨rfl, rfl, rfl, rfl, ?_⟩
  rw [mapM_some] at hl
  exact hl.imp fun f f' hf => readFace_received F fs just solver B f f' hf

theorem readFace_again (F : String → Option Fam) (fs : Files) (solver : Bool) (B B' : SBlock) (f f1 : SFace)
    (hB : B'.nblki = B.nblki ∧ B'.dm = B.dm ∧ B'.nrm = B.nrm ∧ B'.species = B.species)
    (h : readFace F fs true solver B f = some f1) : readFace F fs false solver B' f1 = readFace F fs false solver B f := by
  have hprep : ∀ fam V, prep B' fs fam f V = prep B fs fam f V := by
    intro fam V
    obtain ⟨h1, h2, h3, h4⟩ := hB
    simp only [prep, h1, h2, h3, h4]
  have hsame : readFace F fs false solver B' f = readFace F fs false solver B f := by
    simp only [readFace, hprep]
  have hr := readFace_received F fs true solver B f f1 h
  by_cases hp : IsPeriodic f.bcType
  · cases hf : f.bcFam with
    | none => rw [hr.untouched (fun fam e hc => by rw [hf] at hc; simp at hc)]; exact hsame
    | some fam =>
      simp only [readFace, hf] at h
      obtain ⟨e, he, h⟩ := some_bind' h
      have hfit : ¬ (e.bcType ≠ f.bcType.name ∧ ¬ (periodicType e.bcType ∧ e.bcType.isPrefixOf f.bcType.name)) := by
        intro hc
        rw [if_pos hc] at h; simp at h
      rw [if_neg hfit] at h
      cases hV : e.vals with
      | none =>
        rw [hV] at h
        rw [← Option.some.inj h]; exact hsame
      | some V =>
        rw [hV] at h
        simp only [if_pos ((name_periodic _).2 hp)] at h
        obtain ⟨h1, h2, h3⟩ := hr.same
        simp only [readFace, h2, h3, hf, he, if_neg hfit, hV, if_pos ((name_periodic _).2 hp), Option.bind_eq_bind,
          Option.bind_some]
        simp only [setPeriodic, h3] at h ⊢
        obtain ⟨s, hs, h⟩ := some_bind' h
        obtain ⟨a, ha, h⟩ := some_bind' h
        simp only [hs, ha, Option.bind_eq_bind, Option.bind_some]
        split_ifs at h ⊢ <;> obtain rfl := Option.some.inj h <;> rfl
  · rw [hr.later hp (Or.inl rfl)]; exact hsame

theorem mapM_congr₂ {α β γ : Type} {g : β → Option γ} {g' : α → Option γ} {l : List α} {m : List β}
    (h : List.Forall₂ (fun a b => g b = g' a) l m) : m.mapM g = l.mapM g' := by
  induction h with
  | nil => rfl
  | cons h _ ih => rw [List.mapM_cons, List.mapM_cons, h, ih]

/-- C88 (two passes): reading the periodic data first and everything later is the same as one full reading, and the first
    pass never fails where the full one would succeed. -/
theorem C88_two_pass (file : Option (String → Option Fam)) (fs : Files) (solver : Bool) (mb : List SBlock) :
    (readBcs file fs false solver mb ≠ none → readBcs file fs true solver mb ≠ none) ∧
    ∀ mb1, readBcs file fs true solver mb = some mb1 →
      readBcs file fs false solver mb1 = readBcs file fs false solver mb := by
  cases file with
  | none => exact ⟨fun _ => by simp [readBcs], fun mb1 h => by rw [← Option.some.inj h]⟩
  | some F =>
    refine ⟨fun h => ?_, fun mb1 h => ?_⟩
    · rw [(C88_accept fs false solver mb).2] at h
      rw [(C88_accept fs true solver mb).2]
      intro B hB f hf
      obtain ⟨h1, h2⟩ := h B hB f hf
      refine ⟨h1, fun fam hfam => ?_⟩
      obtain ⟨e, he, hfit, hv⟩ := h2 fam hfam
      exact ⟨e, he, hfit, fun V hV => ⟨(hv V hV).1, fun _ hc => absurd hc (by simp)⟩⟩
    · simp only [readBcs] at h ⊢
      rw [mapM_some] at h
      apply mapM_congr₂
      refine h.imp fun B B' hB => ?_
      obtain ⟨l, hl, hB⟩ := some_bind' hB
      obtain rfl := Option.some.inj hB
      dsimp only
      have : l.mapM (readFace F fs false solver { B with faces := l }) = B.faces.mapM (readFace F fs false solver B) := by
        apply mapM_congr₂
        rw [mapM_some] at hl
        exact hl.imp fun f f' hf => readFace_again F fs solver B { B with faces := l } f f' ⟨rfl, rfl, rfl, rfl⟩ hf
      rw [this]

/-! ### from the file to the halo cells -/

/-- C88 (isothermal walls, file to halo): after the full pass, the boundary condition puts the temperature given in the family
    into every halo cell of the face, on every layer, whatever the flow. -/
theorem C88_isothermal (F : String → Option Fam) (fs : Files) (B : SBlock) (f f' : SFace)
    (hr : Received F fs false true B f f') (fam : String) (e : Fam) (V : Vals) (h1 : f.bcFam = some fam) (h2 : F fam = some e)
    (h3 : e.vals = some V) (hprof : V.profile = false) (T : ℝ) (hT : V.num "T" = some T) (k : Kind)
    (hk : (f.bcType = .isoTNoSlipWall ∧ k = .isoTNoSlipWall) ∨ (f.bcType = .isoTSlipWall ∧ k = .isoTSlipWall) ∨
      (f.bcType = .isoTMovingWall ∧ k = .isoTMovingWall))
    (hng : B.dm.ng = 1 ∨ B.dm.ng = 2) (FD : FaceData) (hFD : f'.bc = some FD.bc) {eos : Cell → Cell} (he : KeepsPrims eos)
    (b : Blk) (c : Ix) (hc : InArr B.dm c) {g : ℕ} (hg : g < B.dm.ng) (h : c f.face.dir = haloLayer B.dm f.face g)
    (hn : Unit3 (faceNormal B.dm f.face FD c)) :
    ((applyBC k B.dm f.face FD eos "euler" b).A c).q.T = T := by
  have hw : IsWall k := by rcases hk with ⟨-, rfl⟩ | ⟨-, rfl⟩ | ⟨-, rfl⟩ <;> trivial
  have hnp : ¬ IsPeriodic f.bcType := by unfold IsPeriodic; rcases hk with ⟨hk, -⟩ | ⟨hk, -⟩ | ⟨hk, -⟩ <;> rw [hk] <;> decide
  obtain ⟨v, hv, h4, -⟩ := hr.values fam e V h1 h2 h3 hnp rfl rfl
  rw [hFD] at hv
  obtain rfl := Option.some.inj hv
  have h5 := (h4 (by rw [hprof]; simp) (tan f.face c)).1 .T
  have h6 := (C32_mirror hng hw f.face FD he b c hc hg h hn).2.2.2.2
  rw [h6]
  have : (FD.bc (tan f.face c)).q.T = T := by
    change comp _ .T = T
    rw [h5]
    rcases hk with ⟨hk, -⟩ | ⟨hk, -⟩ | ⟨hk, -⟩ <;> rw [hk] <;> simp [key, hT]
  rcases hk with ⟨-, rfl⟩ | ⟨-, rfl⟩ | ⟨-, rfl⟩ <;> exact this

/-- C88 (velocity and supersonic inlets, file to halo): the velocity and temperature of the family (and the pressure for
    supersonic inlets) are in every halo cell of the face. -/
theorem C88_inlet (F : String → Option Fam) (fs : Files) (B : SBlock) (f f' : SFace)
    (hr : Received F fs false true B f f') (fam : String) (e : Fam) (V : Vals) (h1 : f.bcFam = some fam) (h2 : F fam = some e)
    (h3 : e.vals = some V) (hprof : V.profile = false) (u v w T : ℝ) (hu : V.num "u" = some u) (hv : V.num "v" = some v)
    (hw : V.num "w" = some w) (hT : V.num "T" = some T) (k : Kind)
    (hk : (f.bcType = .constantVelocitySubsonicInlet ∧ k = .constantVelocitySubsonicInlet) ∨
      (f.bcType = .supersonicInlet ∧ k = .supersonicInlet))
    (hng : B.dm.ng = 1 ∨ B.dm.ng = 2) (FD : FaceData) (hFD : f'.bc = some FD.bc) {eos : Cell → Cell} (he : KeepsPrims eos)
    (b : Blk) (c : Ix) (hc : InArr B.dm c) {g : ℕ} (hg : g < B.dm.ng) (h : c f.face.dir = haloLayer B.dm f.face g) :
    let halo := (applyBC k B.dm f.face FD eos "euler" b).A c
    halo.q.u = u ∧ halo.q.v = v ∧ halo.q.w = w ∧ halo.q.T = T ∧
      (k = .supersonicInlet → ∀ p, V.num "p" = some p → halo.q.p = p) := by
  intro halo
  have hnp : ¬ IsPeriodic f.bcType := by unfold IsPeriodic; rcases hk with ⟨hk, -⟩ | ⟨hk, -⟩ <;> rw [hk] <;> decide
  obtain ⟨vv, hvv, h4, -⟩ := hr.values fam e V h1 h2 h3 hnp rfl rfl
  rw [hFD] at hvv
  obtain rfl := Option.some.inj hvv
  have h5 := (h4 (by rw [hprof]; simp) (tan f.face c)).1
  obtain ⟨e1, e2, e3, e4, e5⟩ := C72_prescribed hng f.face FD he b c hc hg h k (by rcases hk with ⟨-, h⟩ | ⟨-, h⟩ <;> simp [h])
  have key' : ∀ x s r, key f.bcType x = some s → V.num s = some r → comp (FD.bc (tan f.face c)).q x = r := by
    intro x s r hx hs
    rw [h5 x, hx]; simp [hs]
  refine ⟨e1.trans (key' .u "u" u ?_ hu), e2.trans (key' .v "v" v ?_ hv), e3.trans (key' .w "w" w ?_ hw),
    e4.trans (key' .T "T" T ?_ hT), fun hs p hp => ?_⟩
  · rcases hk with ⟨hk, -⟩ | ⟨hk, -⟩ <;> rw [hk] <;> rfl
  · rcases hk with ⟨hk, -⟩ | ⟨hk, -⟩ <;> rw [hk] <;> rfl
  · rcases hk with ⟨hk, -⟩ | ⟨hk, -⟩ <;> rw [hk] <;> rfl
  · rcases hk with ⟨hk, -⟩ | ⟨hk, -⟩ <;> rw [hk] <;> rfl
  · rcases hk with ⟨-, hk⟩ | ⟨hk, -⟩
    · rw [hk] at hs; simp at hs
    · rw [if_pos hs] at e5
      exact e5.trans (key' .p "p" p (by rw [hk]; rfl) hp)

/-- C88 (mass flux inlets, file to stored targets): what the full pass stores is what C72 calls a prepared face, so its
    conclusions hold with the mass flow of the family. -/
theorem C88_massFlux (F : String → Option Fam) (fs : Files) (B : SBlock) (f f' : SFace)
    (hr : Received F fs false true B f f') (fam : String) (e : Fam) (V : Vals) (h1 : f.bcFam = some fam) (h2 : F fam = some e)
    (h3 : e.vals = some V) (hprof : V.profile = false) (m : ℝ) (hm : V.num "mDotPerUnitArea" = some m)
    (hk : f.bcType = .constantMassFluxSubsonicInlet) (FD : FaceData) (hFD : f'.bc = some FD.bc) (hN : FD.nrm = B.nrm) :
    PreparedMassFlux B.dm f.face FD m := by
  have hnp : ¬ IsPeriodic f.bcType := by unfold IsPeriodic; rw [hk]; decide
  obtain ⟨vv, hvv, h4, -⟩ := hr.values fam e V h1 h2 h3 hnp rfl rfl
  rw [hFD] at hvv
  obtain rfl := Option.some.inj hvv
  intro c
  obtain ⟨m', hm', h5⟩ := (h4 (by rw [hprof]; simp) (tan f.face c)).2.2 hk
  rw [hm] at hm'
  obtain rfl := Option.some.inj hm'
  rw [h5, massFluxTarget_eq]
  unfold inwardNormal faceNormal tan
  rw [hN]
  simp

/-! ### families without values -/

/-- C88 (completeness, part): after a full pass in the solver, every non-periodic face whose family has values holds target
    values. Missing: families without values, see `C88_needs_violated`. -/
theorem C88_complete_partial (F : String → Option Fam) (fs : Files) (B : SBlock) (f f' : SFace)
    (hr : Received F fs false true B f f') (fam : String) (e : Fam) (h1 : f.bcFam = some fam) (h2 : F fam = some e)
    (h3 : e.vals ≠ none) (hp : ¬ IsPeriodic f.bcType) : f'.bc ≠ none := by
  obtain ⟨V, hV⟩ := Option.ne_none_iff_exists'.1 h3
  obtain ⟨v, hv, -⟩ := hr.values fam e V h1 h2 hV hp rfl rfl
  rw [hv]; simp

/-- C88 is false for families without `bcVals`, or without any bcFams.yaml: such input is accepted (a warning is printed) for
    every boundary type, the face is left without target values, span or axis, although e.g. the isothermal wall kernel reads
    `qBcVals` (walls.cpp:431) and unification reads the span. -/
theorem C88_needs_violated (B : SBlock) (f : SFace) (fam : String) (hB : B.faces = [f]) (hf : f.bcFam = some fam)
    (hfresh : f.bc = none ∧ f.span = none) (F : String → Option Fam) (hF : F fam = some ⟨f.bcType.name, none⟩) (fs : Files)
    (file : Option (String → Option Fam)) (hfile : file = none ∨ file = some F) :
    readBcs file fs false true [B] = some [B] ∧ f ∈ B.faces ∧ f.bc = none ∧ f.span = none := by
  refine ⟨?_, by rw [hB]; simp, hfresh.1, hfresh.2⟩
  rcases hfile with rfl | rfl
  · rfl
  · have : readFace F fs false true B f = some f := by
      simp [readFace, hf, hF]
    simp only [readBcs, List.mapM_cons, List.mapM_nil, hB, this]
    simp only [Option.pure_def, Option.bind_eq_bind, Option.bind_some, ← hB]

/-! ### the hypotheses are met -/

/-- a block with an isothermal wall below, a velocity inlet above and a periodic pair, and a file describing them -/
def demoVals : Vals := ⟨fun s => if s = "T" then some 300 else if s = "u" ∨ s = "v" ∨ s = "w" then some 1
  else if s = "periodicSpan" then some 2 else none, some ⟨0, 0, 3⟩, false⟩
def demoFile : String → Option Fam := fun s =>
  if s = "wall" then some ⟨"isoTNoSlipWall".toList, some demoVals⟩
  else if s = "in" then some ⟨"constantVelocitySubsonicInlet".toList, some demoVals⟩
  else if s = "per" then some ⟨"periodicTrans".toList, some demoVals⟩ else none
def demoFace (d : Fin 3) (low : Bool) (fam : Option String) (t : FType) : SFace :=
  ⟨⟨d, low⟩, fam, t, none, none, none, none, none, none, none⟩
def demoBlock : SBlock := ⟨0, ⟨fun _ => 3, 1⟩, fun _ _ => ⟨1, 0, 0⟩, ["O2", "N2"],
  [demoFace 0 true (some "wall") .isoTNoSlipWall, demoFace 0 false (some "in") .constantVelocitySubsonicInlet,
   demoFace 1 true (some "per") .periodicTransLow, demoFace 1 false (some "per") .periodicTransHigh,
   demoFace 2 true none .adiabaticSlipWall, demoFace 2 false none .supersonicExit]⟩

example (fs : Files) : readBcs (some demoFile) fs false true [demoBlock] ≠ none := by
  have ht : Fits "periodicTrans".toList .periodicTransLow ∧ Fits "periodicTrans".toList .periodicTransHigh :=
    ⟨(C88_types _).1.2 (Or.inl rfl), (C88_types _).1.2 (Or.inr rfl)⟩
  rw [(C88_accept fs false true _).2]
  intro B hB f hf
  simp only [List.mem_cons, List.not_mem_nil, or_false] at hB
  subst hB
  simp only [demoBlock, List.mem_cons, List.not_mem_nil, or_false] at hf
  rcases hf with rfl | rfl | rfl | rfl | rfl | rfl
  · refine ⟨fun h => by simp [demoFace] at h, fun fam h => ?_⟩
    obtain rfl := Option.some.inj h
    refine ⟨_, rfl, Or.inl rfl, fun V hV => ?_⟩
    obtain rfl := Option.some.inj hV
    refine ⟨fun h => by simp [demoFace, IsPeriodic] at h, fun _ _ _ => ⟨by simp [demoFace], fun h => by simp [demoVals] at h,
      fun _ => ?_, fun h => by simp [demoFace] at h⟩⟩
    rw [required_iff, comps]
    simp [demoFace, key, extraKeys, demoVals]
  · refine ⟨fun h => by simp [demoFace] at h, fun fam h => ?_⟩
    obtain rfl := Option.some.inj h
    refine ⟨_, rfl, Or.inl rfl, fun V hV => ?_⟩
    obtain rfl := Option.some.inj hV
    refine ⟨fun h => by simp [demoFace, IsPeriodic] at h, fun _ _ _ => ⟨by simp [demoFace], fun h => by simp [demoVals] at h,
      fun _ => ?_, fun h => by simp [demoFace] at h⟩⟩
    rw [required_iff, comps]
    simp [demoFace, key, extraKeys, demoVals]
  · refine ⟨fun h => by simp [demoFace] at h, fun fam h => ?_⟩
    obtain rfl := Option.some.inj h
    refine ⟨⟨"periodicTrans".toList, some demoVals⟩, rfl, ht.1, fun V hV => ?_⟩
    obtain rfl := Option.some.inj hV
    exact ⟨fun _ => by simp [demoVals], fun h => absurd (Or.inl rfl) h⟩
  · refine ⟨fun h => by simp [demoFace] at h, fun fam h => ?_⟩
    obtain rfl := Option.some.inj h
    refine ⟨⟨"periodicTrans".toList, some demoVals⟩, rfl, ht.2, fun V hV => ?_⟩
    obtain rfl := Option.some.inj hV
    exact ⟨fun _ => by simp [demoVals], fun h => absurd (Or.inr (Or.inl rfl)) h⟩
  · exact ⟨fun _ => Or.inr (Or.inr (Or.inr rfl)), fun fam h => by simp [demoFace] at h⟩
  · exact ⟨fun _ => Or.inr (Or.inl rfl), fun fam h => by simp [demoFace] at h⟩

/-- and a file that does not mention a family is refused -/
example (fs : Files) : readBcs (some fun _ => none) fs false true [demoBlock] = none := by
  by_contra h
  have h' := (C88_accept fs false true _).2 _ |>.1 h demoBlock (by simp) _ (by simp [demoBlock]; exact Or.inl rfl)
  obtain ⟨e, he, -⟩ := h'.family "wall" rfl
  simp at he

end PG.BC
