import Verif.Whole.ConsRun
import Verif.Whole.Example
/-!
C93: global conservation. In a multi-block case whose connections are legal (any orientation, any distribution over ranks), the
volume integral of a conserved quantity changes only by what passes the unconnected faces; if nothing passes these, it is
constant over any run with any of the explicit integrators and any sequence of time steps.
-/
noncomputable section
namespace PG.Whole
open PG.Topo PG.Halo PG.Time

variable {S : Sig} {ng : Nat} {W : List (List Block)} {K : Kernels S} {I : Inp S} {l : Nat}

/-- C93 (balance): the right hand side evaluated after consistify, summed over all cells of all blocks of all ranks, is what
    enters through the unconnected faces: connected faces contribute nothing. -/
theorem C93_balance (C : Conservative ng K l) (hng : 0 < ng) (hw : WellConnected W) (ht : Thick ng W) (hF : SameFaces C I W)
    (hN : NullBC ng I W) (t t' : ℝ) (s : State S) (hR : Ready ng K W s) :
    total C.vol I W l (rhs K I ng W t (consistify K I ng W t' s)).1 = supply C I W t (consistify K I ng W t' s) :=
  rhs_total hng hw ht hF hN t (consistify_sync hng hw hF hN t' hR)

/-- C93 (closed domain): if all faces are connected, nothing is supplied. -/
theorem C93_closed (C : Conservative ng K l) (hW : Closed W) : Sealed C I W := by
  classical
  have h0 : ∀ φ : Block → Nat → Pos → ℝ, boundary W φ = 0 := by
    intro φ
    unfold boundary
    refine List.sum_eq_zero fun x hx => ?_
    obtain ⟨b, hb, rfl⟩ := List.mem_map.1 hx
    obtain ⟨r, hb⟩ := owns_flatten.1 hb
    refine Finset.sum_eq_zero fun nf hnf => ?_
    rw [Finset.mem_filter, Finset.mem_Icc] at hnf
    exact absurd (hW r b hb nf hnf.1.1 hnf.1.2) hnf.2
  intro t t' s
  unfold supply
  rw [h0, h0]
  split_ifs <;> simp

theorem inv_step {C : Conservative ng K l} (hng : 0 < ng) (hw : WellConnected W) (ht : Thick ng W) (hF : SameFaces C I W)
    (hN : NullBC ng I W) (hZ : Sealed C I W) (J : Integrator) (hJ : J ≠ .dualTime)
    (hst : J = .strang → EosFromQ K ∧ ∀ dt c, (K.stiff dt c).Q l = c.Q l) (dt : ℝ) {M : ℝ} {s : St Entry (Aux S)}
    (h : Inv C I W M s) : Inv C I W M (step (env K I ng W) J dt s) := by
  cases J with
  | rk1 => exact inv_rk1 hng hw ht hF hN hZ dt h
  | rk2 => exact inv_rk2 hng hw ht hF hN hZ dt h
  | rk3 => exact (inv_rk3stages hng hw ht hF hN hZ dt h).congr rfl
  | rk34 => exact inv_rk34 hng hw ht hF hN hZ dt h
  | rk4 => exact inv_rk4 hng hw ht hF hN hZ dt h
  | maccormack => exact inv_maccormack hng hw ht hF hN hZ dt h
  | strang => exact inv_strang hng hw ht hF hN hZ (hst rfl).1 (hst rfl).2 dt h
  | dualTime => exact absurd rfl hJ

/-- C93 (run): with any explicit integrator and any sequence of time steps the total of a conserved component stays what it was
    when the run started, if nothing passes the unconnected faces. -/
theorem C93_run (C : Conservative ng K l) (hng : 0 < ng) (hw : WellConnected W) (ht : Thick ng W) (hF : SameFaces C I W)
    (hN : NullBC ng I W) (hZ : Sealed C I W) (J : Integrator) (hJ : J ≠ .dualTime)
    (hst : J = .strang → EosFromQ K ∧ ∀ dt c, (K.stiff dt c).Q l = c.Q l) (dts : List ℝ) (s : St Entry (Aux S))
    (hs : ∃ t c, Ready ng K W c ∧ s.core = consistify K I ng W t c) :
    total C.vol I W l (run (env K I ng W) J dts s).core.Q = total C.vol I W l s.core.Q := by
  have key : ∀ (dts : List ℝ) (s' : St Entry (Aux S)), Inv C I W (total C.vol I W l s.core.Q) s' →
      Inv C I W (total C.vol I W l s.core.Q) (run (env K I ng W) J dts s') := by
    intro dts
    induction dts with
    | nil => exact fun _ h => h
    | cons dt dts ih => exact fun s' h => ih _ (inv_step hng hw ht hF hN hZ J hJ hst dt h)
  exact (key dts s ⟨hs, rfl⟩).tot

/-- C93 (budget): a forward Euler step adds `dt` times what the unconnected faces supply, sealed or not. -/
theorem C93_rk1_budget (C : Conservative ng K l) (hng : 0 < ng) (hw : WellConnected W) (ht : Thick ng W) (hF : SameFaces C I W)
    (hN : NullBC ng I W) (dt : ℝ) (s : St Entry (Aux S)) (hs : ∃ t c, Ready ng K W c ∧ s.core = consistify K I ng W t c) :
    total C.vol I W l (step (env K I ng W) .rk1 dt s).core.Q
      = total C.vol I W l s.core.Q + dt * supply C I W s.tme s.core := by
  have h : Inv C I W (total C.vol I W l s.core.Q) s := ⟨hs, rfl⟩
  have e : total C.vol I W l (step (env K I ng W) .rk1 dt s).core.Q
      = total C.vol I W l (ApEQxB dt (doRHS (env K I ng W) s.tme s)).core.Q := consistify_total C hng hw _ _
  rw [e, ← rhs_supply hng hw ht hF hN s.tme h, ← rhs_core hng hw ht hF hN s.tme h]
  rw [total_lin2 C.vol 1 dt (doRHS (env K I ng W) s.tme s).core.Q (doRHS (env K I ng W) s.tme s).dQ _ (fun _ => by
    simp only [ApEQxB, doRHS, St.setQ]; ring)]
  ring

/-! ### a closed case: two cubes on two ranks, the second one lying on its side -/

def o621 : Ori := ⟨6, 2, 1⟩
def o324 : Ori := ⟨3, 2, 4⟩
/-- the k-axis of block 1 points against the i-axis of block 0, its i-axis along the k-axis of block 0 -/
def cl0 : Block := ⟨0, ⟨3, 3, 3⟩, [⟨1, some 1, o621, 1⟩, ⟨2, some 1, o621, 1⟩, ⟨3, some 0, o123, 0⟩, ⟨4, some 0, o123, 0⟩,
  ⟨5, some 0, o123, 0⟩, ⟨6, some 0, o123, 0⟩]⟩
def cl1 : Block := ⟨1, ⟨3, 3, 3⟩, [⟨1, some 1, o123, 1⟩, ⟨2, some 1, o123, 1⟩, ⟨3, some 1, o123, 1⟩, ⟨4, some 1, o123, 1⟩,
  ⟨5, some 0, o324, 0⟩, ⟨6, some 0, o324, 0⟩]⟩
def clW : List (List Block) := [[cl0], [cl1]]

theorem ownsCl (r : Nat) (b : Block) : Owns clW r b ↔ (r = 0 ∧ b = cl0) ∨ (r = 1 ∧ b = cl1) := by
  unfold Owns clW
  rcases r with _ | _ | r <;> simp

theorem ownsCl_mem {r : Nat} {b : Block} (h : Owns clW r b) : b ∈ clW.flatten := by
  rw [ownsCl] at h
  rcases h with ⟨rfl, rfl⟩ | ⟨rfl, rfl⟩ <;> decide

theorem wellCl : WellConnected clW where
  uniq := by
    intro r r' b b' h h' e
    rw [ownsCl] at h h'
    rcases h with ⟨rfl, rfl⟩ | ⟨rfl, rfl⟩ <;>
      rcases h' with ⟨rfl, rfl⟩ | ⟨rfl, rfl⟩ <;> first | exact ⟨rfl, rfl⟩ | (exfalso; revert e; decide)
  nodup := by decide
  nface_range := by intro r b h; rw [ownsCl] at h; rcases h with ⟨rfl, rfl⟩ | ⟨rfl, rfl⟩ <;> decide
  nface_distinct := by intro r b h; rw [ownsCl] at h; rcases h with ⟨rfl, rfl⟩ | ⟨rfl, rfl⟩ <;> decide
  cells := by intro r b h; rw [ownsCl] at h; rcases h with ⟨rfl, rfl⟩ | ⟨rfl, rfl⟩ <;> decide
  conn := by
    intro r b h f hf nb hnb
    have ho : ∀ f ∈ b.faces, f.ori.Legal ∧ connOk clW b f = true := by
      rw [ownsCl] at h; rcases h with ⟨rfl, rfl⟩ | ⟨rfl, rfl⟩ <;> decide
    exact connOk_conn (ho f hf).1 (ho f hf).2 nb hnb

theorem closedCl : Closed clW := by
  intro r b h nf h1 h2
  have : nf = 1 ∨ nf = 2 ∨ nf = 3 ∨ nf = 4 ∨ nf = 5 ∨ nf = 6 := by omega
  rw [ownsCl] at h
  unfold Connected
  rcases h with ⟨rfl, rfl⟩ | ⟨rfl, rfl⟩ <;>
    rcases this with rfl | rfl | rfl | rfl | rfl | rfl <;> decide

theorem thickCl : Thick 2 clW := by
  intro r b h
  rw [ownsCl] at h
  rcases h with ⟨rfl, rfl⟩ | ⟨rfl, rfl⟩ <;> refine three ?_ ?_ ?_ <;> decide

abbrev clS : Sig := ⟨Unit, Unit, Unit, Unit, Fin 3 → Fin 3 → ℝ⟩

/-- component `l` carried by the mean of the momenta, and diffusing -/
def clK : Kernels clS where
  eosC c := ⟨c.Q, c.Q, ()⟩
  eosP c := ⟨c.q, c.q, ()⟩
  trans _ := ()
  sponge _ t := t
  sw := none
  flux1 d L := fun k => (∑ x : Fin 3, (L 0).2.1 d x * ((L (-1)).1.q (1 + x) + (L 0).1.q (1 + x))) * ((L (-1)).1.Q k + (L 0).1.Q k)
  flux2 _ _ := fun _ => 0
  apply1 _ _ lo hi x := fun k => x k + ∑ d, (lo d k - hi d k)
  apply2 _ _ _ _ x := x
  diffusion := true
  grad _ := ()
  sgs _ _ _ t := t
  fluxD d L := fun k => (∑ x : Fin 3, (L 0).2.1 d x ^ 2) * ((L (-1)).1.q k - (L 0).1.q k)
  applyD _ lo hi x := fun k => x k + ∑ d, (lo d k - hi d k)
  chem _ x := x
  stiff _ c := c
  dtau _ _ _ _ := 0
  invert _ _ _ _ _ y := y

def clC (l : Nat) : Conservative 2 clK l where
  vol _ := 1
  Γ := Fin 3 → ℝ
  neg γ := -γ
  vec d L := L 0 d
  flux γ L := (∑ x : Fin 3, γ x * ((L (-1)).1.q (1 + x) + (L 0).1.q (1 + x))) * ((L (-1)).1.Q l + (L 0).1.Q l)
  fluxV γ L := (∑ x : Fin 3, γ x ^ 2) * ((L (-1)).1.q l - (L 0).1.q l)
  adv := by intro L g _; simp only [clK, one_mul, zero_add]
  visc := by intro _ L g x _; simp only [clK, one_mul]
  congr := by
    intro γ L L' h _
    rw [h (-1) (by decide) (by decide), h 0 (by decide) (by decide)]
  congrV := by
    intro γ L L' h
    rw [h (-1) (by decide) (by decide), h 0 (by decide) (by decide)]
  turns := True
  odd := by
    intro _ γ L L' h _
    have e1 := h (-1) (by decide) (by decide)
    have e2 := h 0 (by decide) (by decide)
    norm_num at e1 e2
    rw [e1, e2]
    simp only [Fin.sum_univ_three, Pi.neg_apply]
    ring
  oddV := by
    intro _ γ L L' h
    have e1 := h (-1) (by decide) (by decide)
    have e2 := h 0 (by decide) (by decide)
    norm_num at e1 e2
    rw [e1, e2]
    simp only [Fin.sum_univ_three, Pi.neg_apply]
    ring
  chem := fun _ _ => rfl
  eos := fun _ => rfl

/-- face areas of cubes of side 1 -/
def clArea (n : Nat) (d x : Fin 3) : Int :=
  if n = 0 then (if x = d then 1 else 0) else (if d = 0 ∧ x = 2 then 1 else if d = 1 ∧ x = 1 then 1 else if d = 2 ∧ x = 0 then -1 else 0)

def clI : Inp clS where
  geo n _ := fun d x => (clArea n d x : ℝ)
  euler _ _ _ _ x k := x k
  pre _ _ _ _ x k := x k
  post _ _ _ _ x := (x (-1)).2

theorem clFaces : ∀ b ∈ clW.flatten, ∀ f ∈ b.faces, ∀ nb ∈ f.neighbor, ∀ nf' ∈ neighborNface f.nface f.ori,
    ∀ x, clArea nb (axis nf') x = if isLow f.nface = isLow nf' then - clArea b.nblki (axis f.nface) x else clArea b.nblki (axis f.nface) x := by
  decide +kernel

theorem clSame (l : Nat) : SameFaces (clC l) clI clW where
  face := by
    intro r b hb f hf nb hnb r' b' hb' hb'n nf' hnf' p p' _ _ _ _
    have h := clFaces b (ownsCl_mem hb) f hf nb hnb nf' hnf'
    subst hb'n
    simp only [faceVec, clC, clI]
    split_ifs at h ⊢ with hl
    · funext x; rw [Pi.neg_apply, h x]; push_cast; ring
    · funext x; rw [h x]
  turn := fun _ _ _ _ _ _ _ _ _ => trivial
  cell := fun _ _ _ _ _ _ _ _ _ _ _ _ _ _ _ _ => ⟨fun _ => rfl, fun _ _ _ => rfl⟩

theorem clNull : NullBC 2 clI clW := ⟨fun _ _ _ _ _ _ _ _ _ _ _ _ => rfl, fun _ _ _ _ _ _ _ _ _ _ _ _ => rfl, fun _ _ _ _ _ _ _ _ _ => rfl⟩

theorem clReady (s : State clS) : Ready 2 clK clW s := ⟨Or.inl fun c c' h => by change Cl.mk _ _ _ = Cl.mk _ _ _; rw [h],
  fun _ _ _ _ _ _ _ _ _ _ _ _ _ _ _ _ _ => rfl⟩

/-- the case meets the hypotheses: any initial state, any integrator, any time steps -/
example (l : Nat) (J : Integrator) (hJ : J ≠ .dualTime) (dts : List ℝ) (c : State clS) (s : St Entry (Aux clS))
    (hs : s.core = consistify clK clI 2 clW 0 c) :
    total (fun _ => 1) clI clW l (run (env clK clI 2 clW) J dts s).core.Q = total (fun _ => 1) clI clW l s.core.Q :=
  C93_run (clC l) (by decide) wellCl thickCl (clSame l) clNull (C93_closed _ closedCl) J hJ
    (fun _ => ⟨fun c c' h => by change Cl.mk _ _ _ = Cl.mk _ _ _; rw [h], fun _ _ => rfl⟩) dts s ⟨0, c, clReady c, hs⟩

end PG.Whole
