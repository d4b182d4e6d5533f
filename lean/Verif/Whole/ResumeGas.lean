import Verif.Whole.ResumeMain
import Verif.Thermo.Props
import Verif.Flux.Model
/-!
C109: the calorically perfect gas. Its primitives give back the conserved state as long as the gas is physical, so for it the
hypotheses about the equation of state reduce to that.
-/
noncomputable section
namespace PG.Thermo
open Finset

variable {th : Th}

theorem clipY_congr {ns : ℕ} {y z : ℕ → ℝ} (h : ∀ n < ns - 1, y n = z n) : ∀ n < ns - 1, clipY ns y n = clipY ns z n := by
  intro n hn
  simp only [clipY, hn, if_true, h n hn]

/-- the kernel reads nothing but the primitives of its species, clipped -/
theorem cpgPrims_clip {c c' : Cell} (h1 : c.q.p = c'.q.p) (h2 : c.q.u = c'.q.u) (h3 : c.q.v = c'.q.v) (h4 : c.q.w = c'.q.w)
    (h5 : c.q.T = c'.q.T) (hy : ∀ n < th.ns - 1, clipY th.ns c.q.Y n = clipY th.ns c'.q.Y n) :
    (cpgPrims th c).q.Same th.ns (cpgPrims th c').q ∧
    (cpgPrims th c).Q.Same th.ns (cpgPrims th c').Q ∧ (cpgPrims th c).qh.Same th.ns (cpgPrims th c').qh := by
  have hY : ∀ n < th.ns, localY th.ns (clipY th.ns c.q.Y) n = localY th.ns (clipY th.ns c'.q.Y) n := fun n hn => localY_congr hy hn
  obtain ⟨eR, ecp, -⟩ := mix_congr hY
  refine ⟨⟨h1, h2, h3, h4, h5, hy⟩, ⟨?_, ?_, ?_, ?_, ?_, fun n hn => ?_⟩, ⟨?_, ?_, ?_, ?_, ?_, fun n hn => ?_⟩⟩
  all_goals simp only [cpgPrims]
  all_goals first
    | (rw [if_pos hn, if_pos hn, hY n (by omega), eR, h1, h5])
    | (rw [if_pos hn, if_pos hn, h5])
    | (simp only [h1, h2, h3, h4, h5, eR, ecp])

theorem cpgPrims_congr {c c' : Cell} (h : c.q.Same th.ns c'.q) : (cpgPrims th c).q.Same th.ns (cpgPrims th c').q ∧
    (cpgPrims th c).Q.Same th.ns (cpgPrims th c').Q ∧ (cpgPrims th c).qh.Same th.ns (cpgPrims th c').qh :=
  cpgPrims_clip h.1 h.2.1 h.2.2.1 h.2.2.2.1 h.2.2.2.2.1 (clipY_congr h.2.2.2.2.2)

/-- clipping the species twice is clipping them once -/
theorem cpgPrims_cpgPrims (c : Cell) : (cpgPrims th (cpgPrims th c)).q.Same th.ns (cpgPrims th c).q ∧
    (cpgPrims th (cpgPrims th c)).Q.Same th.ns (cpgPrims th c).Q ∧ (cpgPrims th (cpgPrims th c)).qh.Same th.ns (cpgPrims th c).qh := by
  refine cpgPrims_clip rfl rfl rfl rfl rfl fun n hn => ?_
  have := clipY_unit th.ns c.q.Y n hn
  show clipY th.ns (clipY th.ns c.q.Y) n = _
  rw [clipY, if_pos hn, min_eq_left this.2, max_eq_left this.1]

/-- the kernel reads nothing but the conserved variables of its species -/
theorem cpgCons_congr {c c' : Cell} (h : c.Q.Same th.ns c'.Q) : (cpgCons th c).q.Same th.ns (cpgCons th c').q ∧
    (cpgCons th c).Q.Same th.ns (cpgCons th c').Q ∧ (cpgCons th c).qh.Same th.ns (cpgCons th c').qh := by
  obtain ⟨h1, h2, h3, h4, h5, h6⟩ := h
  have hc : ∀ n < th.ns - 1, clipRhoY th.ns c.Q.rho c.Q.rhoY n = clipRhoY th.ns c'.Q.rho c'.Q.rhoY n := by
    intro n hn
    simp only [clipRhoY, hn, if_true, h6 n hn, h1]
  have hy : ∀ n < th.ns - 1, consY th.ns c.Q n = consY th.ns c'.Q n := by
    intro n hn
    unfold consY
    rw [hc n hn, h1]
  have hY : ∀ n < th.ns, localY th.ns (consY th.ns c.Q) n = localY th.ns (consY th.ns c'.Q) n := fun n hn => localY_congr hy hn
  obtain ⟨eR, ecp, -⟩ := mix_congr hY
  refine ⟨⟨?_, ?_, ?_, ?_, ?_, fun n hn => ?_⟩, ⟨h1, h2, h3, h4, h5, fun n hn => ?_⟩, ⟨?_, ?_, ?_, ?_, ?_, fun n hn => ?_⟩⟩
  case refine_7 =>
    show consRhoY th.ns c.Q n = consRhoY th.ns c'.Q n
    unfold consRhoY
    rw [testSum_congr hy, hY n (by omega), h1, ← h1, hc n hn, h1]
  all_goals simp only [cpgCons]
  all_goals first
    | (rw [if_pos hn, if_pos hn, hY n (by omega)])
    | (rw [if_pos hn, if_pos hn]; simp only [h1, h2, h3, h4, h5, eR, ecp])
    | (simp only [h1, h2, h3, h4, h5, eR, ecp])

/-- cleaning the species twice is cleaning them once -/
theorem cpgCons_cpgCons (ht : th.Ok) (c : Cell) (hr : 0 < c.Q.rho) : (cpgCons th (cpgCons th c)).q.Same th.ns (cpgCons th c).q ∧
    (cpgCons th (cpgCons th c)).Q.Same th.ns (cpgCons th c).Q ∧ (cpgCons th (cpgCons th c)).qh.Same th.ns (cpgCons th c).qh := by
  have hu := consY_unit (ns := th.ns) hr
  have hr' : 0 < (cpgCons th c).Q.rho := hr
  have hy : ∀ n < th.ns - 1, consY th.ns (cpgCons th c).Q n = localY th.ns (consY th.ns c.Q) n := by
    intro n hn
    have e : (cpgCons th c).Q.rhoY n = localY th.ns (consY th.ns c.Q) n * c.Q.rho := consRhoY_eq hr hn
    have h0 := localY_nonneg hu (n := n) (by omega)
    have h1 := localY_le_one ht.ns hu (n := n) (by omega)
    have e2 : consY th.ns (cpgCons th c).Q n = max (min ((cpgCons th c).Q.rhoY n) c.Q.rho) 0 / c.Q.rho := by
      show clipRhoY _ _ _ _ / _ = _
      unfold clipRhoY
      rw [if_pos hn]; rfl
    rw [e2, e]
    rw [min_eq_left (by nlinarith), max_eq_left (by positivity)]
    field_simp
  have hY : ∀ n < th.ns, localY th.ns (consY th.ns (cpgCons th c).Q) n = localY th.ns (consY th.ns c.Q) n := by
    intro n hn
    rw [localY_congr hy hn, localY_localY ht.ns hu]
  obtain ⟨eR, ecp, -⟩ := mix_congr hY
  refine ⟨⟨?_, rfl, rfl, rfl, ?_, fun n hn => ?_⟩, ⟨rfl, rfl, rfl, rfl, rfl, fun n hn => ?_⟩, ⟨?_, ?_, ?_, ?_, rfl, fun n hn => ?_⟩⟩
  case refine_3 =>
    show (if n < th.ns - 1 then localY th.ns (consY th.ns (cpgCons th c).Q) n else _) = (if n < th.ns - 1 then localY th.ns (consY th.ns c.Q) n else _)
    rw [if_pos hn, if_pos hn, hY n (by omega)]
  case refine_4 =>
    show consRhoY th.ns (cpgCons th c).Q n = consRhoY th.ns c.Q n
    rw [consRhoY_eq hr' hn, consRhoY_eq hr hn, hY n (by omega)]
    rfl
  case refine_9 => simp only [cpgCons] at eR ecp ⊢; rw [if_pos hn, if_pos hn]; simp only [eR, ecp]
  all_goals (simp only [cpgCons] at eR ecp ⊢; simp only [eR, ecp])

end PG.Thermo

namespace PG.Whole
open PG.Topo PG.Halo PG.Time PG.Flux

variable {S : Sig}

/-- arrays with `qh` as the gas stores it (solverBlock.py:60-214) -/
abbrev gasS (T P D G : Type) : Sig := ⟨Thermo.Qh, T, P, D, G⟩

variable {T P D G : Type}

/-- the entries of a cell by name: q = p,u,v,w,T,Y..., Q = rho, rho u, rho v, rho w, rho E, rho Y... (compute/block_.hpp) -/
def named (c : Cl (gasS T P D G)) : Thermo.Cell :=
  ⟨⟨c.q 0, c.q 1, c.q 2, c.q 3, c.q 4, fun n => c.q (n + 5)⟩, ⟨c.Q 0, c.Q 1, c.Q 2, c.Q 3, c.Q 4, fun n => c.Q (n + 5)⟩, c.h⟩

/-- `ns - 1` stored species, as arrays (block_.hpp: ne = 5 + ns - 1) -/
def stored (ns : ℕ) (y : ℕ → ℝ) : ℕ → ℝ := fun n => if n < ns - 1 then y n else 0

/-- a cell as arrays of `ns` species; entries beyond the last one do not exist and are zero -/
def packed (ns : ℕ) (c : Thermo.Cell) : Cl (gasS T P D G) :=
  ⟨mk5 c.Q.rho c.Q.rhou c.Q.rhov c.Q.rhow c.Q.rhoE (stored ns c.Q.rhoY), mk5 c.q.p c.q.u c.q.v c.q.w c.q.T (stored ns c.q.Y),
    { c.qh with hi := fun n => if n < ns then c.qh.hi n else 0 }⟩

/-- cpg(b, ..., "cons") on one cell of the arrays (cpg.cpp:135-232) -/
def cpgC (th : Thermo.Th) (c : Cl (gasS T P D G)) : Cl (gasS T P D G) := packed th.ns (Thermo.cpgCons th (named c))
/-- cpg(b, ..., "prims") on one cell of the arrays (cpg.cpp:32-134) -/
def cpgP (th : Thermo.Th) (c : Cl (gasS T P D G)) : Cl (gasS T P D G) := packed th.ns (Thermo.cpgPrims th (named c))

/-- a physical cell: positive density, pressure, temperature; mass fractions not negative and summing to at most one -/
def Physical (ns : ℕ) (c : Cl (gasS T P D G)) : Prop := 0 < c.Q 0 ∧ (named c).q.Ok ns

theorem stored_congr {ns : ℕ} {y z : ℕ → ℝ} (h : ∀ n < ns - 1, y n = z n) : stored ns y = stored ns z := by
  funext n
  unfold stored
  split_ifs with hn
  · exact h n hn
  · rfl

theorem packed_congr {ns : ℕ} {a b : Thermo.Cell} (hq : a.q.Same ns b.q) (hQ : a.Q.Same ns b.Q) (hh : a.qh.Same ns b.qh) :
    (packed ns a : Cl (gasS T P D G)) = packed ns b := by
  obtain ⟨q1, q2, q3, q4, q5, q6⟩ := hq
  obtain ⟨Q1, Q2, Q3, Q4, Q5, Q6⟩ := hQ
  obtain ⟨h1, h2, h3, h4, h5, h6⟩ := hh
  have e : (fun n => if n < ns then a.qh.hi n else 0) = fun n => if n < ns then b.qh.hi n else 0 := by
    funext n
    split_ifs with hn
    · exact h6 n hn
    · rfl
  unfold packed
  rw [q1, q2, q3, q4, q5, stored_congr q6, Q1, Q2, Q3, Q4, Q5, stored_congr Q6, e]
  dsimp only
  rw [h1, h2, h3, h4, h5]

theorem named_packed (ns : ℕ) (a : Thermo.Cell) : (named (packed ns a : Cl (gasS T P D G))).q.Same ns a.q ∧
    (named (packed ns a : Cl (gasS T P D G))).Q.Same ns a.Q := by
  refine ⟨⟨rfl, rfl, rfl, rfl, rfl, fun n hn => ?_⟩, rfl, rfl, rfl, rfl, rfl, fun n hn => ?_⟩
  · show stored ns a.q.Y n = _
    unfold stored; rw [if_pos hn]
  · show stored ns a.Q.rhoY n = _
    unfold stored; rw [if_pos hn]

theorem Cons.Same.trans {ns : ℕ} {a b c : Thermo.Cons} (h : a.Same ns b) (h' : b.Same ns c) : a.Same ns c :=
  ⟨h.1.trans h'.1, h.2.1.trans h'.2.1, h.2.2.1.trans h'.2.2.1, h.2.2.2.1.trans h'.2.2.2.1, h.2.2.2.2.1.trans h'.2.2.2.2.1,
    fun n hn => (h.2.2.2.2.2 n hn).trans (h'.2.2.2.2.2 n hn)⟩

theorem Qh.Same.trans {ns : ℕ} {a b c : Thermo.Qh} (h : a.Same ns b) (h' : b.Same ns c) : a.Same ns c :=
  ⟨h.1.trans h'.1, h.2.1.trans h'.2.1, h.2.2.1.trans h'.2.2.1, h.2.2.2.1.trans h'.2.2.2.1, h.2.2.2.2.1.trans h'.2.2.2.2.1,
    fun n hn => (h.2.2.2.2.2 n hn).trans (h'.2.2.2.2.2 n hn)⟩

/-- the conserved state, then what the arrays hold after converting it -/
theorem cpgC_of {th : Thermo.Th} {c : Cl (gasS T P D G)} {a : Thermo.Cell} (h : (named c).Q.Same th.ns a.Q) :
    cpgC th c = packed th.ns (Thermo.cpgCons th a) := by
  obtain ⟨h1, h2, h3⟩ := Thermo.cpgCons_congr (th := th) (c := named c) (c' := a) h
  exact packed_congr h1 h2 h3

/-- C109 for one cell: whatever cell the solver's conversion left, if it is physical then writing its primitives and converting
    them back gives every entry of it -/
theorem cpg_trips {th : Thermo.Th} (ht : th.Ok) (c x : Cl (gasS T P D G)) (hc : c = cpgC th x ∨ c = cpgP th x) (hp : Physical th.ns c) :
    cpgC th (cpgP th c) = c := by
  obtain ⟨hr, hq⟩ := hp
  rcases hc with rfl | rfl
  · set g := named x
    have hr' : 0 < g.Q.rho := hr
    have hT : 0 < (Thermo.cpgCons th g).q.T := hq.T
    have hs : Thermo.Simplex th.ns (Thermo.localY th.ns (Thermo.consY th.ns g.Q)) :=
      Thermo.localY_simplex ht.ns (Thermo.consY_unit hr')
    have hcv := sub_pos.2 (Thermo.cp_gt_R ht hs)
    have he : (g.Q.rhou^2 + g.Q.rhov^2 + g.Q.rhow^2) / (2 * g.Q.rho) < g.Q.rhoE := by
      have h1 : (Thermo.cpgCons th g).q.T = (g.Q.rhoE - 0.5 * (g.Q.rhou^2 + g.Q.rhov^2 + g.Q.rhow^2) / g.Q.rho) / g.Q.rho /
        (Thermo.cpmix th (Thermo.localY th.ns (Thermo.consY th.ns g.Q)) - Thermo.Rmix th (Thermo.localY th.ns (Thermo.consY th.ns g.Q))) := rfl
      rw [h1, div_pos_iff_of_pos_right hcv, div_pos_iff_of_pos_right hr'] at hT
      have : 0.5 * (g.Q.rhou^2 + g.Q.rhov^2 + g.Q.rhow^2) / g.Q.rho = (g.Q.rhou^2 + g.Q.rhov^2 + g.Q.rhow^2) / (2 * g.Q.rho) := by
        field_simp; norm_num; ring
      linarith
    obtain ⟨-, k2, -⟩ := Thermo.cpgPrims_congr (th := th) (named_packed (T := T) (P := P) (D := D) (G := G) th.ns (Thermo.cpgCons th g)).1
    have hQ : (named (cpgP th (cpgC th x))).Q.Same th.ns (Thermo.cpgCons th g).Q :=
      Cons.Same.trans (Cons.Same.trans (named_packed th.ns _).2 k2) (Thermo.C22_cleaned ht g hr' he).1
    rw [cpgC_of hQ]
    obtain ⟨j1, j2, j3⟩ := Thermo.cpgCons_cpgCons ht g hr'
    exact packed_congr j1 j2 j3
  · set g := named x
    -- the cell after clipping
    have hn : (named (cpgP th x)).q.Same th.ns (Thermo.cpgPrims th g).q := (named_packed th.ns _).1
    have hq' : (Thermo.cpgPrims th g).q.Ok th.ns := by
      obtain ⟨a1, a2, a3⟩ := hq
      refine ⟨a1, a2, fun n hn' => ?_, ?_⟩
      · rw [← hn.2.2.2.2.2 n hn']; exact a3.1 n hn'
      · rw [← Finset.sum_congr rfl fun n hn' => hn.2.2.2.2.2 n (Finset.mem_range.1 hn')]; exact a3.2
    obtain ⟨a1, a2, a3⟩ := Thermo.cpgPrims_cpgPrims (th := th) g
    obtain ⟨-, k2, -⟩ := Thermo.cpgPrims_congr (th := th) hn
    rw [cpgC_of (c := cpgP th (cpgP th x)) (Cons.Same.trans (named_packed th.ns _).2 k2)]
    obtain ⟨j1, j2, j3⟩ := Thermo.C22_prims_cons_prims ht (Thermo.cpgPrims th g) hq'
    exact packed_congr j1 (Cons.Same.trans j3 a2) (Qh.Same.trans j2 a3)

/-- interior cells after a run are what the equation of state made of something -/
theorem run_made {ng : Nat} {W : List (List Block)} {K : Kernels S} {I : Inp S} (hng : 0 < ng) (h : Legal ng W) (hQ : EosFromQ K)
    (J : Integrator) (dts : List ℝ) (s : St Entry (Aux S)) {r : Nat} {b : Block} (hb : Owns W r b) {p : Pos} (hp : InBox 0 b.dims p) :
    ∃ x, cell (run (env K I ng W) J dts (bootstrap K I ng W s)).core b.nblki p = K.eosC x ∨
      cell (run (env K I ng W) J dts (bootstrap K I ng W s)).core b.nblki p = K.eosP x := by
  rcases List.eq_nil_or_concat dts with rfl | ⟨init, dt, rfl⟩
  · refine ⟨cell (setCells s.core (perBlock W (cell s.core) fun b p => K.eosP (cell s.core b.nblki p))) b.nblki p, Or.inl ?_⟩
    · have hc : (run (env K I ng W) J [] (bootstrap K I ng W s)).core = consistify K I ng W s.titme
          (setCells s.core (perBlock W (cell s.core) fun b p => K.eosP (cell s.core b.nblki p))) := by
        show (bootstrap K I ng W s).core = _
        unfold bootstrap initDualTime
        split <;> rfl
      rw [hc, consistify_inside hng h hQ _ _ hb hp]
  · rw [List.concat_eq_append, run_append]
    show ∃ x, cell (step _ _ _ _).core _ _ = _ ∨ _
    rcases step_ends (e := env K I ng W) J dt (run (env K I ng W) J init (bootstrap K I ng W s)) with ⟨t, c, e⟩ | ⟨t, c, e⟩
    · exact ⟨cell c b.nblki p, Or.inl (by
        show cell (step _ _ _ _).core _ _ = _
        rw [e]; exact consistify_inside hng h hQ t c hb hp)⟩
    · refine ⟨cell ({ c with q := fun i => exch .ccAll ng W (fun n p l => c.q (n, p, l)) i.1 i.2.1 i.2.2 } : State S) b.nblki p, Or.inr ?_⟩
      show cell (step _ _ _ _).core _ _ = _
      rw [e]
      have e1 : cell (consistifyP K I ng W t c) = perBlock W
          (cell ({ c with q := fun i => exch .ccAll ng W (fun n p l => c.q (n, p, l)) i.1 i.2.1 i.2.2 } : State S))
          (fun b => bcAll ng b (fun nf => I.euler b.nblki nf t)
            (fun p => K.eosP (cell ({ c with q := fun i => exch .ccAll ng W (fun n p l => c.q (n, p, l)) i.1 i.2.1 i.2.2 } : State S) b.nblki p))) := rfl
      show cell (consistifyP K I ng W t c) _ _ = _
      rw [e1, perBlock_eq h.conn hb, bc_inside hp]

theorem cpg_fromQ (th : Thermo.Th) (K : Kernels (gasS T P D G)) (hC : K.eosC = cpgC th) : EosFromQ K := by
  intro c c' h
  rw [hC, cpgC_of (a := named c') ⟨by show c.Q 0 = c'.Q 0; rw [h], by show c.Q 1 = c'.Q 1; rw [h], by show c.Q 2 = c'.Q 2; rw [h],
    by show c.Q 3 = c'.Q 3; rw [h], by show c.Q 4 = c'.Q 4; rw [h], fun n _ => by show c.Q (n + 5) = c'.Q (n + 5); rw [h]⟩]
  rfl

/-- C109 for the calorically perfect gas with any number of species: stopping and resuming any number of times, on any
    distribution of the blocks, gives exactly the uninterrupted run, as long as that run stays physical. -/
theorem C109_cpg_partial {ng : Nat} {W : List (List Block)} {K : Kernels (gasS T P D G)} {I : Inp (gasS T P D G)} (hng : 0 < ng)
    {th : Thermo.Th} (ht : th.Ok) (hC : K.eosC = cpgC th) (hP : K.eosP = cpgP th)
    (h : Legal ng W) (hK : LocalKernels ng K) (hI : LocalBC ng I)
    (hE : SteadyEuler ng I) (J : Integrator) (s : St Entry (Aux (gasS T P D G))) (first : List ℝ) (legs : List (Leg (gasS T P D G)))
    (hlegs : ∀ g ∈ legs, Legal ng g.world ∧ Redistributed g.world W ∧ FreshEuler ng g.world I ∧ FreshPost ng g.world I ∧
      g.new.core.aux.phi = s.core.aux.phi)
    (hphys : ∀ n r b, Owns W r b → ∀ p, InBox 0 b.dims p → Physical th.ns
      (cell (run (env K I ng W) J ((first ++ legs.flatMap Leg.dts).take n) (bootstrap K I ng W s)).core b.nblki p)) :
    let stopped := launches K I ng J W (run (env K I ng W) J first (bootstrap K I ng W s)) legs
    let whole := run (env K I ng W) J (first ++ legs.flatMap Leg.dts) (bootstrap K I ng W s)
    stopped.2.nrt = whole.nrt ∧ stopped.2.tme = whole.tme ∧
    ∀ r b, Owns stopped.1 r b → ∀ p, InBox 0 b.dims p → ∀ l,
      stopped.2.core.Q (b.nblki, p, l) = whole.core.Q (b.nblki, p, l) ∧
      stopped.2.core.q (b.nblki, p, l) = whole.core.q (b.nblki, p, l) := by
  have hQ := cpg_fromQ th K hC
  refine C109_restarts_partial hng h hK hQ hI hE J s first legs hlegs fun n r b hb p hp => ?_
  obtain ⟨x, hx⟩ := run_made (I := I) hng h hQ J ((first ++ legs.flatMap Leg.dts).take n) s hb hp
  rw [hC, hP] at hx ⊢
  exact cpg_trips ht _ x hx (hphys n r b hb p hp)

end PG.Whole
