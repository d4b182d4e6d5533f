import Verif.Flux.Props
/-
C27 (hllc, muscl, scalar dissipation), C28, C29, C31, C60.
-/
namespace PG.Flux
open V3

/-! ### C28: HLLC -/

/-- C28: supersonic flow towards the right (left signal speed not negative): exactly the left Euler flux. -/
theorem C28_supersonic_right (L R : Cell) (g : FaceG) (hL : L.Consistent) (hg : g.Valid)
    (h : L.c ≤ proj g.n L) : hllc L R g = euler L g.s := by
  unfold hllc
  simp only [if_pos (show 0 ≤ proj g.n L - L.c by linarith)]
  exact sideFlux_euler L g hL hg

/-- C28: supersonic flow towards the left (right signal speed not positive, waves ordered): exactly the right flux. -/
theorem C28_supersonic_left (L R : Cell) (g : FaceG) (hR : R.Consistent) (hg : g.Valid)
    (h : proj g.n R + R.c ≤ 0) (h1 : proj g.n L - L.c < 0) (h2 : hllcSstar L R g < 0) :
    hllc L R g = euler R g.s := by
  unfold hllc
  simp only [if_neg (show ¬ 0 ≤ proj g.n L - L.c by linarith), if_neg (fun hh : _ ∧ _ => absurd hh.2 (not_le.2 h2))]
  by_cases h3 : 0 ≤ proj g.n R + R.c
  · have h0 : proj g.n R + R.c = 0 := le_antisymm h h3
    rw [if_pos ⟨h3, h2.le⟩, h0, ← sideFlux_euler R g hR hg]
    apply mk5_ext <;> simp only [starFlux, sideFlux, zero_mul, add_zero, mk5_0, mk5_1, mk5_2, mk5_3, mk5_4, mk5_5]
    intro n; ring
  · rw [if_neg (fun hh => h3 hh.1), if_pos h]
    exact sideFlux_euler R g hR hg

/-- contact speed when pressure and normal velocity are continuous -/
theorem sstar_contact (L R : Cell) (g : FaceG) (hL : L.Consistent) (hR : R.Consistent) (hp : L.p = R.p)
    (hu : proj g.n L = proj g.n R) : hllcSstar L R g = proj g.n L := by
  have h1 : 0 < L.rho * L.c := mul_pos hL.rho_pos hL.c_pos
  have h2 : 0 < R.rho * R.c := mul_pos hR.rho_pos hR.c_pos
  unfold hllcSstar
  rw [hp, ← hu]
  have : L.rho * (proj g.n L - L.c - proj g.n L) - R.rho * (proj g.n L + R.c - proj g.n L)
      = -(L.rho * L.c + R.rho * R.c) := by ring
  simp only [this]
  rw [div_eq_iff (neg_ne_zero.2 (by positivity))]
  ring

/-- C28: across a contact (equal pressure and normal velocity, anything else different) mass, energy and species are
    exactly upwinded; momentum too when the upstream velocity is along the normal. Stationary contact: no mass, energy
    or species cross the face. -/
theorem C28_contact (L R : Cell) (g : FaceG) (hL : L.Consistent) (hR : R.Consistent) (hg : g.Valid)
    (hp : L.p = R.p) (hu : proj g.n L = proj g.n R) :
    (0 ≤ proj g.n L → hllc L R g 0 = euler L g.s 0 ∧ hllc L R g 4 = euler L g.s 4 ∧
      (∀ n, hllc L R g (n+5) = euler L g.s (n+5)) ∧ (NoShear L g.n → hllc L R g = euler L g.s)) ∧
    (proj g.n L < 0 → hllc L R g 0 = euler R g.s 0 ∧ hllc L R g 4 = euler R g.s 4 ∧
      (∀ n, hllc L R g (n+5) = euler R g.s (n+5)) ∧ (NoShear R g.n → hllc L R g = euler R g.s)) ∧
    (proj g.n L = 0 → hllc L R g 0 = 0 ∧ hllc L R g 4 = 0 ∧ ∀ n, hllc L R g (n+5) = 0) := by
  have hcL := hL.c_pos
  have hcR := hR.c_pos
  have hS := sstar_contact L R g hL hR hp hu
  have hsL := sideFlux_euler L g hL hg
  have hsR := sideFlux_euler R g hR hg
  have up : 0 ≤ proj g.n L → hllc L R g 0 = euler L g.s 0 ∧ hllc L R g 4 = euler L g.s 4 ∧
      (∀ n, hllc L R g (n+5) = euler L g.s (n+5)) ∧ (NoShear L g.n → hllc L R g = euler L g.s) := by
    intro h0
    unfold hllc
    simp only [hS]
    by_cases h1 : 0 ≤ proj g.n L - L.c
    · simp only [if_pos h1]; rw [hsL]; exact ⟨rfl, rfl, fun _ => rfl, fun _ => rfl⟩
    · simp only [if_neg h1]
      rw [if_pos ⟨by linarith, h0⟩, starFlux_same L g hL _ (by linarith), hsL]
      refine ⟨rfl, rfl, fun _ => rfl, ?_⟩
      rintro ⟨hx, hy, hz⟩
      apply mk5_ext <;> simp [← hx, ← hy, ← hz]
  refine ⟨up, ?_, ?_⟩
  · intro h0
    unfold hllc
    simp only [hS, if_neg (show ¬ 0 ≤ proj g.n L - L.c by linarith), if_neg (fun hh : _ ∧ _ => absurd hh.2 (not_le.2 h0))]
    by_cases h3 : 0 ≤ proj g.n R + R.c
    · rw [if_pos ⟨h3, h0.le⟩, hu, starFlux_same R g hR _ (by linarith), hsR]
      refine ⟨rfl, rfl, fun _ => rfl, ?_⟩
      rintro ⟨hx, hy, hz⟩
      apply mk5_ext <;> simp [← hx, ← hy, ← hz]
    · rw [if_neg (fun hh => h3 hh.1), if_pos (by linarith), hsR]
      exact ⟨rfl, rfl, fun _ => rfl, fun _ => rfl⟩
  · intro h0
    obtain ⟨a, b, c, _⟩ := up (by rw [h0])
    have hU : L.u * g.s.x + L.v * g.s.y + L.w * g.s.z = 0 := by
      have : L.u * g.s.x + L.v * g.s.y + L.w * g.s.z = g.S * proj g.n L := by
        rw [valid_x hg, valid_y hg, valid_z hg]; simp only [proj]; ring
      rw [this, h0, mul_zero]
    refine ⟨by rw [a]; simp [euler, hU], by rw [b]; simp [euler, hU], fun n => by rw [c]; simp [euler, hU]⟩

/-- a cell like `exCell` with another density -/
noncomputable def exHeavy : Cell := { exCell 0 0 0 with rho := 3, rhoe := 5, rhoE := 5, rhoY := fun _ => 3/4 }

example : (exCell 3 0 0).Consistent ∧ exFace.Valid ∧ (exCell 3 0 0).c ≤ proj exFace.n (exCell 3 0 0) := by
  refine ⟨exCell_consistent _ _ _, exFace_valid, ?_⟩
  norm_num [proj, exCell, exFace]
example : (exCell 0 0 0).Consistent ∧ exHeavy.Consistent ∧ (exCell 0 0 0).p = exHeavy.p ∧
    proj exFace.n (exCell 0 0 0) = proj exFace.n exHeavy ∧ proj exFace.n (exCell 0 0 0) = 0 := by
  refine ⟨exCell_consistent _ _ _, ?_, rfl, ?_, ?_⟩
  · constructor <;> norm_num [exHeavy, exCell]
  · norm_num [proj, exCell, exFace, exHeavy]
  · norm_num [proj, exCell, exFace]

/-! ### C27 for hllc -/

theorem sstar_rev (L R : Cell) (g : FaceG) : hllcSstar R L g.rev = -hllcSstar L R g := by
  unfold hllcSstar
  simp only [proj_rev]
  rw [← neg_div]
  congr 1 <;> ring

theorem side_rev (A : Cell) (g : FaceG) : sideFlux A g.rev = fun l => -sideFlux A g l := by
  have hsx : g.rev.s.x = -g.s.x := rfl
  have hsy : g.rev.s.y = -g.s.y := rfl
  have hsz : g.rev.s.z = -g.s.z := rfl
  have hS : g.rev.S = g.S := rfl
  apply mk5_ext <;> simp only [sideFlux, proj_rev, hsx, hsy, hsz, hS, mk5_0, mk5_1, mk5_2, mk5_3, mk5_4, mk5_5] <;>
    (try intro n) <;> ring

theorem star_rev (A : Cell) (g : FaceG) (Sk Ss : ℝ) : starFlux A g.rev (-Sk) (-Ss) = fun l => -starFlux A g Sk Ss l := by
  have hsx : g.rev.s.x = -g.s.x := rfl
  have hsy : g.rev.s.y = -g.s.y := rfl
  have hsz : g.rev.s.z = -g.s.z := rfl
  have hnx : g.rev.n.x = -g.n.x := rfl
  have hny : g.rev.n.y = -g.n.y := rfl
  have hnz : g.rev.n.z = -g.n.z := rfl
  have hS : g.rev.S = g.S := rfl
  have e1 : A.rho * (-Sk - -proj g.n A) / (-Sk - -Ss) = A.rho * (Sk - proj g.n A) / (Sk - Ss) := by
    rw [show A.rho * (-Sk - -proj g.n A) = -(A.rho * (Sk - proj g.n A)) by ring,
      show -Sk - -Ss = -(Sk - Ss) by ring, neg_div_neg_eq]
  have e2 : A.p / (A.rho * (-Sk - -proj g.n A)) = -(A.p / (A.rho * (Sk - proj g.n A))) := by
    rw [show A.rho * (-Sk - -proj g.n A) = -(A.rho * (Sk - proj g.n A)) by ring, div_neg]
  apply mk5_ext <;> simp only [starFlux, proj_rev, hsx, hsy, hsz, hnx, hny, hnz, hS, e1, e2,
    mk5_0, mk5_1, mk5_2, mk5_3, mk5_4, mk5_5] <;> (try intro n) <;> ring

theorem star_zero_speed (A : Cell) (g : FaceG) (Ss : ℝ) : starFlux A g 0 Ss = sideFlux A g := by
  apply mk5_ext <;> simp only [starFlux, sideFlux, zero_mul, add_zero, mk5_0, mk5_1, mk5_2, mk5_3, mk5_4, mk5_5]
  intro n; ring

/-- With a stationary contact the two star fluxes agree when neither side has tangential velocity. -/
theorem star_agree (L R : Cell) (g : FaceG) (hL : L.Consistent) (hR : R.Consistent) (hg : g.Valid)
    (h0 : hllcSstar L R g = 0) (hl : proj g.n L - L.c < 0) (hr : 0 < proj g.n R + R.c)
    (nL : NoShear L g.n) (nR : NoShear R g.n) :
    starFlux L g (proj g.n L - L.c) 0 = starFlux R g (proj g.n R + R.c) 0 := by
  have hrl := hL.rho_pos.ne'
  have hrr := hR.rho_pos.ne'
  have hcl := hL.c_pos
  have hcr := hR.c_pos
  have h1 : 0 < L.rho * L.c := mul_pos hL.rho_pos hL.c_pos
  have h2 : 0 < R.rho * R.c := mul_pos hR.rho_pos hR.c_pos
  set UL := proj g.n L with hUL
  set UR := proj g.n R with hUR
  have hp : R.p - L.p - L.rho * UL * L.c - R.rho * UR * R.c = 0 := by
    unfold hllcSstar at h0
    rw [div_eq_zero_iff] at h0
    rcases h0 with h | h
    · rw [← hUL, ← hUR] at h; linarith
    · exfalso; rw [← hUL, ← hUR] at h; nlinarith
  obtain ⟨ax, ay, az⟩ := nL
  obtain ⟨bx, bY, bz⟩ := nR
  rw [← hUL] at ax ay az
  rw [← hUR] at bx bY bz
  have hl' := hl.ne
  have hr' := hr.ne'
  have hlc : UL - L.c - UL = -L.c := by ring
  have hrc : UR + R.c - UR = R.c := by ring
  apply mk5_ext <;> simp only [starFlux, ← hUL, ← hUR, sub_zero, mul_zero, zero_mul, zero_sub, zero_add, hlc, hrc,
    mk5_0, mk5_1, mk5_2, mk5_3, mk5_4, mk5_5]
  · field_simp; ring
  · rw [hL.rhou, hR.rhou, ax, bx, valid_x hg]; linear_combination (-(g.S * g.n.x)) * hp
  · rw [hL.rhov, hR.rhov, ay, bY, valid_y hg]; linear_combination (-(g.S * g.n.y)) * hp
  · rw [hL.rhow, hR.rhow, az, bz, valid_z hg]; linear_combination (-(g.S * g.n.z)) * hp
  · field_simp; ring
  · intro n; rw [hL.rhoY, hR.rhoY]; field_simp; ring

/-- C27 (partial, hllc): when the three estimated waves are ordered (`S_L < S* < S_R`) and, for a stationary contact,
    no tangential velocity is present, the flux is antisymmetric. MISSING: the remaining states, for which the property
    is false of this code (`C27_hllc_violated`). -/
theorem C27_hllc_partial (L R : Cell) (g : FaceG) (hL : L.Consistent) (hR : R.Consistent) (hg : g.Valid)
    (ho1 : proj g.n L - L.c < hllcSstar L R g) (ho2 : hllcSstar L R g < proj g.n R + R.c)
    (hs : hllcSstar L R g ≠ 0 ∨ (NoShear L g.n ∧ NoShear R g.n)) (l : ℕ) :
    hllc R L g.rev l = -hllc L R g l := by
  suffices h : hllc R L g.rev = fun l => -hllc L R g l from congrFun h l
  have a1 : proj g.rev.n R - R.c = -(proj g.n R + R.c) := by rw [proj_rev]; ring
  have a2 : proj g.rev.n L + L.c = -(proj g.n L - L.c) := by rw [proj_rev]; ring
  unfold hllc
  simp only [sstar_rev, a1, a2]
  by_cases b1 : 0 ≤ proj g.n L - L.c
  · -- left supersonic
    simp only [if_pos b1]
    rw [if_neg (by linarith), if_neg (fun hh => by linarith [hh.2])]
    rcases b1.lt_or_eq with hlt | heq
    · rw [if_neg (fun hh => by linarith [hh.1]), if_pos (by linarith), side_rev]
    · rw [if_pos ⟨by linarith, by linarith⟩, star_rev, ← heq, star_zero_speed]
  · simp only [if_neg b1]
    by_cases b2 : 0 ≤ hllcSstar L R g
    · rw [if_neg (by linarith)]
      rcases b2.lt_or_eq with hlt | heq
      · rw [if_neg (fun hh => by linarith [hh.2]), if_pos ⟨by linarith, by linarith⟩, if_pos ⟨by linarith, b2⟩, star_rev]
      · rw [if_pos ⟨by linarith, by linarith⟩, if_pos ⟨by linarith, b2⟩, star_rev, ← heq]
        have hsh := hs.resolve_left (fun hh => hh heq.symm)
        rw [star_agree L R g hL hR hg heq.symm (by linarith) (by linarith) hsh.1 hsh.2]
    · by_cases b3 : 0 ≤ proj g.n R + R.c
      · rcases b3.lt_or_eq with hlt | heq
        · rw [if_neg (by linarith), if_pos ⟨by linarith, by linarith⟩, if_neg (fun hh => b2 hh.2),
            if_pos ⟨b3, by linarith⟩, star_rev]
        · rw [if_pos (by linarith), if_neg (fun hh => b2 hh.2), if_pos ⟨b3, by linarith⟩, ← heq, star_zero_speed,
            side_rev]
      · rw [if_pos (by linarith), if_neg (fun hh => b2 hh.2), if_neg (fun hh => b3 hh.1), if_pos (by linarith), side_rev]

/-- C27 is violated by hllc when two supersonic streams collide: each side of the face computes its own upstream flux,
    so two blocks sharing that face with opposite orientation disagree about the mass that crosses it. -/
theorem C27_hllc_violated :
    (exCell 3 0 0).Consistent ∧ (exCell (-4) 0 0).Consistent ∧ exFace.Valid ∧
    hllc (exCell 3 0 0) (exCell (-4) 0 0) exFace 0 = 3 ∧
    hllc (exCell (-4) 0 0) (exCell 3 0 0) exFace.rev 0 = 4 := by
  refine ⟨exCell_consistent _ _ _, exCell_consistent _ _ _, exFace_valid, ?_, ?_⟩ <;> unfold hllc <;>
    norm_num [proj, exCell, exFace, FaceG.rev, sideFlux]

/-- non-vacuity of `C27_hllc_partial`: ordered waves with a nonzero contact speed -/
example : proj exFace.n (exCell 1 0 0) - (exCell 1 0 0).c < hllcSstar (exCell 1 0 0) (exCell 1 0 0) exFace ∧
    hllcSstar (exCell 1 0 0) (exCell 1 0 0) exFace < proj exFace.n (exCell 1 0 0) + (exCell 1 0 0).c ∧
    hllcSstar (exCell 1 0 0) (exCell 1 0 0) exFace ≠ 0 := by
  rw [hllcSstar_same _ _ (exCell_consistent _ _ _)]
  norm_num [proj, exCell, exFace]

/-! ### C29 -/

theorem rusanov_dissipates (L R : Cell) (g : FaceG) (hg : g.Valid) : DissipatesWith (rusanov L R g) L R g (rusanovSpeed L R g) := by
  have hx := valid_x hg
  have hy := valid_y hg
  have hz := valid_z hg
  intro l
  suffices h : rusanov L R g = fun l => 1/2 * (eulerR L g.s l + eulerR R g.s l)
      - 1/2 * rusanovSpeed L R g * g.S * (consv R l - consv L l) from congrFun h l
  apply mk5_ext <;> (try intro n) <;>
    simp only [rusanov, eulerR, consv, proj, hx, hy, hz, mk5_0, mk5_1, mk5_2, mk5_3, mk5_4, mk5_5] <;> ring

theorem rusanovOf_dissipates (L R : Cell) (g : FaceG) (hg : g.Valid) : DissipatesWith (rusanovOf L R g) L R g (musclSpeed L R g) := by
  have hx := valid_x hg
  have hy := valid_y hg
  have hz := valid_z hg
  intro l
  suffices h : rusanovOf L R g = fun l => 1/2 * (eulerR L g.s l + eulerR R g.s l)
      - 1/2 * musclSpeed L R g * g.S * (consv R l - consv L l) from congrFun h l
  apply mk5_ext <;> (try intro n) <;>
    simp only [rusanovOf, eulerR, consv, proj, hx, hy, hz, mk5_0, mk5_1, mk5_2, mk5_3, mk5_4, mk5_5] <;> ring

/-- C29: the muscl2rusanov flux is the mean of the physical fluxes of the two reconstructed states minus dissipation with
    a speed that is at least |u_n| + c of both. -/
theorem C29_muscl_speed (LL L R RR : Cell) (g : FaceG) (hg : g.Valid) :
    let a := faceL false LL L R RR
    let b := faceR false LL L R RR
    ∃ lam, DissipatesWith (muscl2rusanov LL L R RR g) a b g lam ∧
      |proj g.n a| + a.c ≤ lam ∧ |proj g.n b| + b.c ≤ lam :=
  ⟨_, rusanovOf_dissipates _ _ g hg, le_max_left _ _, le_max_right _ _⟩

/-- C29 (partial, rusanov): the flux is the mean of the physical fluxes minus dissipation with a speed that satisfies the
    bound when the two sound speeds are equal, and in any case up to their difference. MISSING: the bound for different
    sound speeds, which this code does not satisfy. -/
theorem C29_rusanov_partial (L R : Cell) (g : FaceG) (hg : g.Valid) :
    ∃ lam, DissipatesWith (rusanov L R g) L R g lam ∧
    |proj g.n L| + L.c - |L.c - R.c| ≤ lam ∧ |proj g.n R| + R.c - |L.c - R.c| ≤ lam ∧
    (L.c = R.c → |proj g.n L| + L.c ≤ lam ∧ |proj g.n R| + R.c ≤ lam) := by
  refine ⟨rusanovSpeed L R g, rusanov_dissipates L R g hg, ?_⟩
  have h1 := le_max_left (|proj g.n L| + R.c) (|proj g.n R| + L.c)
  have h2 := le_max_right (|proj g.n L| + R.c) (|proj g.n R| + L.c)
  have h3 := le_abs_self (L.c - R.c)
  have h4 := neg_abs_le (L.c - R.c)
  unfold rusanovSpeed
  refine ⟨by linarith, by linarith, fun h => ⟨by linarith, by linarith⟩⟩

/-- right state of the counterexample: at rest, density 2, sound speed 1 -/
noncomputable def exSlow : Cell := { exCell 0 0 0 with c := 1, rho := 2, rhoY := fun n => 2 * (exCell 0 0 0).Y n }

/-- C29 is violated by rusanov: it pairs each side's velocity with the other side's sound speed. Left state at
    velocity 10 and sound speed 2, right state at rest with sound speed 1: the only dissipation speed that gives the flux
    is 11, below |u|+c = 12. -/
theorem C29_rusanov_violated :
    (exCell 10 0 0).Consistent ∧ exSlow.Consistent ∧ exFace.Valid ∧
    (∀ lam, DissipatesWith (rusanov (exCell 10 0 0) exSlow exFace) (exCell 10 0 0) exSlow exFace lam → lam = 11) ∧
    |proj exFace.n (exCell 10 0 0)| + (exCell 10 0 0).c = 12 := by
  refine ⟨exCell_consistent _ _ _, ?_, exFace_valid, fun lam h => ?_, ?_⟩
  · constructor <;> norm_num [exSlow, exCell]
  · have := h 0
    norm_num [rusanov, rusanovSpeed, proj, exFace, exCell, exSlow, eulerR, consv] at this
    linarith
  · norm_num [proj, exFace, exCell]

/-! ### C31 -/

theorem limiter_bounds (num den : ℝ) (hd : den ≠ 0) :
    0 ≤ limiter num den ∧ limiter num den ≤ max 0 (2 * (num / den)) ∧ limiter num den ≤ 2 := by
  unfold limiter
  rw [if_neg hd]
  refine ⟨le_max_left _ _, max_le_max le_rfl ((min_le_left _ _).trans (min_le_left _ _)), max_le (by norm_num) (min_le_right _ _)⟩

/-- the limited increment `½ φ(num/den) den` lies between 0 and `num` -/
theorem increment_between (num den : ℝ) :
    min 0 num ≤ 1/2 * limiter num den * den ∧ 1/2 * limiter num den * den ≤ max 0 num := by
  by_cases hd : den = 0
  · subst hd; simp
  · obtain ⟨h0, h1, _⟩ := limiter_bounds num den hd
    have hnum : num / den * den = num := div_mul_cancel₀ num hd
    rcases le_or_gt (num / den) 0 with hr | hr
    · have hz : limiter num den = 0 := by
        have : max 0 (2 * (num / den)) = 0 := max_eq_left (by linarith)
        rw [this] at h1; exact le_antisymm h1 h0
      rw [hz]; simp
    · have h2 : limiter num den ≤ 2 * (num / den) := by rwa [max_eq_right (by linarith)] at h1
      rcases lt_or_gt_of_ne hd with hneg | hpos
      · have hn : num < 0 := by
          have : num = num / den * den := hnum.symm
          rw [this]; exact mul_neg_of_pos_of_neg hr hneg
        constructor
        · rw [min_eq_right hn.le]
          nlinarith
        · rw [max_eq_left hn.le]; nlinarith
      · have hn : 0 < num := by rw [← hnum]; exact mul_pos hr hpos
        constructor
        · rw [min_eq_left hn.le]; positivity
        · rw [max_eq_right hn.le]; nlinarith

/-- C31: a variable reconstructed with its own limiter (density, velocities, internal energy; mass fractions in
    muscl2hllc) lies, on both sides of the face, between the values of the two cells at the face; no assumption on
    the data. -/
theorem C31_between_partial (f : Cell → ℝ) (LL L R RR : Cell) :
    (min (f L) (f R) ≤ musclR f LL L R RR ∧ musclR f LL L R RR ≤ max (f L) (f R)) ∧
    (min (f L) (f R) ≤ musclL f LL L R RR ∧ musclL f LL L R RR ≤ max (f L) (f R)) := by
  constructor
  · obtain ⟨h1, h2⟩ := increment_between (f R - f L) (f RR - f R)
    unfold musclR recR phiR
    rcases le_total (f L) (f R) with h | h
    · rw [min_eq_left (by linarith)] at h1
      rw [max_eq_right (by linarith)] at h2
      rw [min_eq_left h, max_eq_right h]; constructor <;> linarith
    · rw [min_eq_right (by linarith)] at h1
      rw [max_eq_left (by linarith)] at h2
      rw [min_eq_right h, max_eq_left h]; constructor <;> linarith
  · -- the left increment ½ φ(a/b) b with φ ≤ 2 lies between 0 and b
    unfold musclL recL phiL
    set b := f R - f L with hb
    have hinc : min 0 b ≤ 1/2 * limiter (f L - f LL) b * b ∧ 1/2 * limiter (f L - f LL) b * b ≤ max 0 b := by
      by_cases hd : b = 0
      · rw [hd]; simp
      · obtain ⟨h0, _, h2⟩ := limiter_bounds (f L - f LL) b hd
        rcases lt_or_gt_of_ne hd with hneg | hpos
        · rw [min_eq_right hneg.le, max_eq_left hneg.le]; constructor <;> nlinarith
        · rw [min_eq_left hpos.le, max_eq_right hpos.le]; constructor <;> nlinarith
    obtain ⟨h1, h2⟩ := hinc
    rcases le_total (f L) (f R) with h | h
    · rw [min_eq_left (by rw [hb]; linarith)] at h1
      rw [max_eq_right (by rw [hb]; linarith)] at h2
      rw [min_eq_left h, max_eq_right h]; constructor <;> linarith
    · rw [min_eq_right (by rw [hb]; linarith)] at h1
      rw [max_eq_left (by rw [hb]; linarith)] at h2
      rw [min_eq_right h, max_eq_left h]; constructor <;> linarith

/-- C31: at a local extremum the reconstruction falls back to the cell value. -/
theorem C31_extremum_partial (f : Cell → ℝ) (LL L R RR : Cell) :
    ((f R - f L) * (f RR - f R) ≤ 0 → musclR f LL L R RR = f R) ∧
    ((f L - f LL) * (f R - f L) ≤ 0 → musclL f LL L R RR = f L) := by
  have key : ∀ num den : ℝ, num * den ≤ 0 → 1/2 * limiter num den * den = 0 := by
    intro num den h
    by_cases hd : den = 0
    · rw [hd]; simp
    · have hr : num / den ≤ 0 := by
        rcases lt_or_gt_of_ne hd with h' | h'
        · exact div_nonpos_of_nonneg_of_nonpos (by nlinarith) h'.le
        · exact div_nonpos_of_nonpos_of_nonneg (by nlinarith) h'.le
      obtain ⟨h0, h1, _⟩ := limiter_bounds num den hd
      rw [max_eq_left (by linarith)] at h1
      rw [le_antisymm h1 h0]; simp
  constructor <;> intro h <;> simp only [musclR, musclL, recR, recL, phiR, phiL, key _ _ h] <;> ring

/-- C31: on data in arithmetic progression the reconstruction is the exact mid value on both sides (second order). -/
theorem C31_second_order (f : Cell → ℝ) (LL L R RR : Cell) (d : ℝ) (h1 : f L = f LL + d) (h2 : f R = f L + d)
    (h3 : f RR = f R + d) :
    musclR f LL L R RR = (f L + f R) / 2 ∧ musclL f LL L R RR = (f L + f R) / 2 := by
  have e : limiter d d * d = d := by
    by_cases hd : d = 0
    · rw [hd]; simp
    · unfold limiter; rw [if_neg hd, div_self hd]; norm_num
  have a : f R - f L = d := by linarith
  have b : f RR - f R = d := by linarith
  have c : f L - f LL = d := by linarith
  simp only [musclR, musclL, recR, recL, phiR, phiL, a, b, c]
  constructor <;> [rw [show 1/2 * limiter d d * d = 1/2 * (limiter d d * d) by ring, e];
    rw [show 1/2 * limiter d d * d = 1/2 * (limiter d d * d) by ring, e]] <;> linarith

/-- isothermal gas at rest: specific internal energy 1, density `r`, pressure `r` -/
noncomputable def exIso (r : ℝ) : Cell where
  p := r
  u := 0
  v := 0
  w := 0
  Y := fun _ => 0
  rho := r
  rhou := 0
  rhov := 0
  rhow := 0
  rhoE := r
  rhoY := fun _ => 0
  c := 1
  rhoe := r

theorem exIso_consistent (r : ℝ) (hr : 0 < r) : (exIso r).Consistent := by
  constructor <;> simp [exIso, hr]

/-- C31 is violated for the variables that reuse another variable's limiter (pressure and sound speed, and rhoY in
    muscl2rusanov): with uniform internal energy and pressures 1, 1, 1, 4 the reconstructed right pressure is -2. -/
theorem C31_pressure_violated (ownY : Bool) :
    (exIso 1).Consistent ∧ (exIso 4).Consistent ∧
    (faceR ownY (exIso 1) (exIso 1) (exIso 1) (exIso 4)).p = -2 := by
  refine ⟨exIso_consistent 1 (by norm_num), exIso_consistent 4 (by norm_num), ?_⟩
  norm_num [faceR, phiR, eInt, exIso, limiter, recR]

/-- C27 is violated by muscl2rusanov and muscl2hllc for the same reason: isothermal gas at rest with densities
    1, 1, 2, 2. The momentum flux seen from the two sides is 2 and -1. -/
theorem C27_muscl_violated :
    muscl2rusanov (exIso 1) (exIso 1) (exIso 2) (exIso 2) exFace 1 = 2 ∧
    muscl2rusanov (exIso 2) (exIso 2) (exIso 1) (exIso 1) exFace.rev 1 = -1 := by
  constructor
  · norm_num [muscl2rusanov, rusanovOf, musclSpeed, faceL, faceR, phiR, phiL, eInt, exIso, limiter, recR, recL, musclL,
      musclR, proj, exFace]
  · norm_num [muscl2rusanov, rusanovOf, musclSpeed, faceL, faceR, phiR, phiL, eInt, exIso, limiter, recR, recL, musclL,
      musclR, proj, exFace, FaceG.rev]

/-- C27 (partial, scalarDissipation): antisymmetric in the i direction, where the fourth difference uses the right
    stencil. MISSING: j and k directions, where the kernel reads cell `(i+1,j,k)`; there it is false
    (`C27_scalarDissipation_violated`). -/
theorem C27_scalarDissipation_partial (LL L R RR : Cell) (pl pr : ℝ) (g : FaceG) (l : ℕ) :
    scalarDiss RR R L LL pr pl g.rev l = -scalarDiss LL L R RR pl pr g l := by
  suffices h : scalarDiss RR R L LL pr pl g.rev = fun l => -scalarDiss LL L R RR pl pr g l from congrFun h l
  have hS : g.rev.S = g.S := rfl
  have hU : g.rev.n.x * avg R.u L.u + g.rev.n.y * avg R.v L.v + g.rev.n.z * avg R.w L.w
      = -(g.n.x * avg L.u R.u + g.n.y * avg L.v R.v + g.n.z * avg L.w R.w) := by
    simp only [FaceG.rev, avg, neg_x, neg_y, neg_z]; ring
  have hc : (1/2 * (L.c + R.c) : ℝ) = 1/2 * (R.c + L.c) := by ring
  apply mk5_ext <;> simp only [scalarDiss, hU, abs_neg, hS, hc, max_comm pl pr, mk5_0, mk5_1, mk5_2, mk5_3, mk5_4, mk5_5] <;>
    (try intro n) <;> ring

/-- C27 is violated by scalarDissipation in the j and k directions: four identical cells along j (so no dissipation is
    due), but a denser cell at `(i+1,j,k)`, give a nonzero mass flux. -/
theorem C27_scalarDissipation_violated :
    scalarDiss (exIso 1) (exIso 1) (exIso 1) (exIso 2) 0 0 exFace 0 = -(5/1000) ∧
    scalarDiss (exIso 1) (exIso 1) (exIso 1) (exIso 1) 0 0 exFace.rev 0 = 0 := by
  constructor <;> norm_num [scalarDiss, exIso, exFace, avg, FaceG.rev]

/-! ### C60 -/

/-- C60: for the KEEP fluxes (any internal energy part), seen from either cell `X` of the face, velocity times the
    convective momentum flux minus half the squared speed times the mass flux is the same quantity, mass flux times half
    the product of the two velocities, which is also exactly the kinetic energy flux contained in the energy flux: so
    the discrete kinetic energy changes only by fluxes and by pressure work. -/
theorem C60_kinetic_energy_identity (Ij : ℝ) (L R : Cell) (g : FaceG) (X : Cell) (hX : X = L ∨ X = R) :
    let F := keepWith Ij L R g
    let pf := avg L.p R.p
    X.u * (F 1 - pf * g.s.x) + X.v * (F 2 - pf * g.s.y) + X.w * (F 3 - pf * g.s.z)
      - 1/2 * (X.u ^ 2 + X.v ^ 2 + X.w ^ 2) * F 0
      = F 0 * (1/2 * (L.u * R.u + L.v * R.v + L.w * R.w)) ∧
    F 4 = Ij + F 0 * (1/2 * (L.u * R.u + L.v * R.v + L.w * R.w))
      + (L.p * (R.u * g.s.x + R.v * g.s.y + R.w * g.s.z) + R.p * (L.u * g.s.x + L.v * g.s.y + L.w * g.s.z)) / 2 := by
  rcases hX with rfl | rfl <;> constructor <;> simp [keepWith, keepK, keepP, avg] <;> ring

/-- C60: KEEP, KEEPpe and KEPaEC are of that form, and are symmetric in their two states. -/
theorem C60_members (L R : Cell) (g : FaceG) :
    (∃ I, KEEP L R g = keepWith I L R g) ∧ (∃ I, KEEPpe L R g = keepWith I L R g) ∧
    (∃ I, KEPaEC L R g = keepWith I L R g) ∧
    KEEP L R g = KEEP R L g ∧ KEEPpe L R g = KEEPpe R L g ∧ KEPaEC L R g = KEPaEC R L g := by
  refine ⟨⟨_, rfl⟩, ⟨_, rfl⟩, ⟨_, rfl⟩, ?_, ?_, ?_⟩
  · apply mk5_ext <;> simp only [KEEP, keepWith, keepC, keepU, keepK, keepP, avg, mk5_0, mk5_1, mk5_2,
      mk5_3, mk5_4, mk5_5] <;> (try intro n) <;> ring
  · apply mk5_ext <;> simp only [KEEPpe, keepWith, keepC, keepU, keepK, keepP, avg, mk5_0, mk5_1, mk5_2,
      mk5_3, mk5_4, mk5_5] <;> (try intro n) <;> ring
  · have e : ∀ x y : ℝ, 2 * (y * x) / (y + x) = 2 * (x * y) / (x + y) := by
      intro x y; rw [mul_comm y x, add_comm y x]
    apply mk5_ext <;> simp only [KEPaEC, keepWith, keepC, keepU, keepK, keepP, avg, mk5_0, mk5_1, mk5_2,
      mk5_3, mk5_4, mk5_5, e (L.rhoe / L.rho)] <;> (try intro n) <;>
      generalize 2 * (L.rhoe / L.rho * (R.rhoe / R.rho)) / (L.rhoe / L.rho + R.rhoe / R.rho) = x <;> ring

/-- C60: KEEPpe keeps pressure equilibrium: with equal pressures, velocities and volumetric internal energies on both
    sides (whatever the densities), its energy flux is the exact flux of internal energy plus pressure work plus
    the kinetic energy carried by the mass flux. -/
theorem C60_pressure_equilibrium (L R : Cell) (g : FaceG) (hp : L.p = R.p) (he : L.rhoe = R.rhoe) (hu : L.u = R.u)
    (hv : L.v = R.v) (hw : L.w = R.w) :
    KEEPpe L R g 4 = (R.rhoe + R.p) * (R.u * g.s.x + R.v * g.s.y + R.w * g.s.z)
      + 1/2 * (R.u ^ 2 + R.v ^ 2 + R.w ^ 2) * KEEPpe L R g 0 := by
  simp [KEEPpe, keepWith, keepC, keepU, keepK, keepP, avg, hp, he, hu, hv, hw]; ring

end PG.Flux
