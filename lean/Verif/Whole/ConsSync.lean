import Verif.Whole.ConsGeom
import Verif.Whole.Kern
/-!
C93: after consistify, and after the preparation of the diffusive fluxes, halo cells behind connections are the cells of the
connected blocks.
-/
noncomputable section
namespace PG.Whole
open PG.Topo PG.Halo PG.Time

variable {S : Sig} {ng : Nat} {W : List (List Block)} {K : Kernels S} {I : Inp S}

/-- equal on both sides of connections, `m` layers deep -/
def Alike {β : Type} (W : List (List Block)) (m : Int) (A : Nat → Pos → β) : Prop :=
  ∀ r b, Owns W r b → ∀ f ∈ b.faces, ∀ nb, f.neighbor = some nb → ∀ r' b', Owns W r' b' → b'.nblki = nb →
    ∀ p p', HaloOf m f.nface b.dims p → InBox 0 b'.dims p' → Glued .ccAll f.nface f.ori b.dims b'.dims (nat p) (nat p') →
      A b.nblki p = A nb p'

theorem Alike.mono {β : Type} {m k : Int} (h : m ≤ k) {A : Nat → Pos → β} (hA : Alike W k A) : Alike W m A :=
  fun r b hb f hf nb hnb r' b' hb' hb'n p p' hp hp' hg => hA r b hb f hf nb hnb r' b' hb' hb'n p p' (halo_mono h hp) hp' hg

theorem exch_alike {β : Type} {kind : Kind} (hk : kind ≠ .node) (hng : 0 < ng) (hw : WellConnected W) (data : Nat → Pos → β) :
    Alike W (layers kind ng) (exch kind ng W data) := by
  intro r b hb f hf nb hnb r' b' hb' hb'n p p' hp hp' hg
  rw [exch_conn hk hng hw data hb hf hnb hb' hb'n hp (fun _ _ => rfl) hg, pos_nat, ← hb'n,
    exch_un hng hw data hb' (interior_unexchanged hw hb' (interior_nat hk hp'))]

theorem bc_null {γ : Type} {m : Int} (hw : WellConnected W) {r : Nat} {b : Block} (hb : Owns W r b)
    {f : Nat → Pos → (Int → γ) → Int → γ} {A : Pos → γ} {p : Pos} {fc : Face} (hf : fc ∈ b.faces)
    (hp : HaloOf m fc.nface b.dims p) (h0 : ∀ x k, -m ≤ k → k < 0 → f fc.nface p x k = x k) :
    bcAll m b f A p = A p := by
  rw [bc_halo (n := 0) hw hb (fun a => by have := dims_top hw hb a; omega) hf hp
    (fun l l' h => by rw [h0 _ _ hp.1 hp.2.1, h0 _ _ hp.1 hp.2.1]; exact h _ hp.2.1), h0 _ _ hp.1 hp.2.1, along_dep]

/-- cells, sensor and transport properties are alike on both sides of connections -/
structure Synced (ng : Nat) (W : List (List Block)) (s : State S) : Prop where
  cells : Alike W ng (cell s)
  phi : Alike W 1 s.aux.phi
  qt : Alike W 1 s.aux.qt

theorem consistify_sync {l : Nat} {C : Conservative ng K l} (hng : 0 < ng) (hw : WellConnected W)
    (hF : SameFaces C I W) (hN : NullBC ng I W) (t : ℝ) {s : State S} (hR : Ready ng K W s) :
    Synced ng W (consistify K I ng W t s) := by
  have hcells : Alike W ng (perBlock W (cell ({ s with Q := fun i => exch .ccAll ng W (fun n p l => s.Q (n, p, l)) i.1 i.2.1 i.2.2 } : State S))
      fun b => bcAll ng b (fun nf => I.euler b.nblki nf t) (fun p => K.eosC (cell ({ s with Q := fun i => exch .ccAll ng W (fun n p l => s.Q (n, p, l)) i.1 i.2.1 i.2.2 } : State S) b.nblki p))) := by
    intro r b hb f hf nb hnb r' b' hb' hb'n p p' hp hp' hg
    have hQ := exch_alike (kind := .ccAll) (by decide) hng hw (fun n p l => s.Q (n, p, l)) r b hb f hf nb hnb r' b' hb' hb'n p p' hp hp' hg
    rw [← hb'n, perBlock_eq hw hb, perBlock_eq hw hb',
      bc_null hw hb hf hp (fun x k h1 h2 => hN.euler r b hb f hf (by rw [hnb]; simp) t p x k h1 h2), bc_inside hp', hb'n]
    rcases hR.eos with h | h
    · exact h _ _ hQ
    · obtain ⟨e1, e2⟩ := h r b hb f hf nb hnb r' b' hb' hb'n p p' hp hp' hg
      congr 1
      unfold cell at e1 e2 ⊢
      dsimp only at e1 e2 ⊢
      rw [hQ, e1, e2]
  unfold consistify finishConsistify
  dsimp only
  generalize (perBlock W (cell ({ s with Q := fun i => exch .ccAll ng W (fun n p l => s.Q (n, p, l)) i.1 i.2.1 i.2.2 } : State S))
      fun b => bcAll ng b (fun nf => I.euler b.nblki nf t) (fun p => K.eosC (cell ({ s with Q := fun i => exch .ccAll ng W (fun n p l => s.Q (n, p, l)) i.1 i.2.1 i.2.2 } : State S) b.nblki p))) = c at *
  refine ⟨hcells, ?_, ?_⟩
  · dsimp only
    cases hsw : K.sw with
    | none => exact hR.phi hsw
    | some w => exact exch_alike (kind := .ccFirst) (by decide) hng hw _
  · dsimp only
    intro r b hb f hf nb hnb r' b' hb' hb'n p p' hp hp' hg
    have h1 := hcells.mono (m := 1) (by omega) r b hb f hf nb hnb r' b' hb' hb'n p p' hp hp' hg
    have h2 := (hF.cell r b hb f hf nb hnb r' b' hb' hb'n p p' hp hp' hg).1
    rw [← hb'n] at h1 h2 ⊢
    have hn := hw.nface_range r b hb f hf
    rw [perBlock_eq hw hb, perBlock_eq (b := b') hw hb', if_pos (near_inbox (by omega) (dims_top hw hb) (Or.inr ⟨f.nface, hn, hp⟩)),
      if_pos (near_inbox (by omega) (dims_top hw hb') (Or.inl hp')), h1, h2]

theorem prepare_sync {l : Nat} {C : Conservative ng K l} (hng : 0 < ng) (hw : WellConnected W) (ht : Thick ng W)
    (hF : SameFaces C I W) (hN : NullBC ng I W) (t : ℝ) {s : State S} (hs : Synced ng W s) :
    Synced ng W (prepareDiffusion K I ng W t s) ∧ Alike W 1 (prepareDiffusion K I ng W t s).aux.dq := by
  have hcells : Alike W ng (perBlock W (cell s) fun b => bcAll ng b (fun nf => I.pre b.nblki nf t) (cell s b.nblki)) := by
    intro r b hb f hf nb hnb r' b' hb' hb'n p p' hp hp' hg
    have h1 := hs.cells r b hb f hf nb hnb r' b' hb' hb'n p p' hp hp' hg
    rw [← hb'n] at h1 ⊢
    rw [perBlock_eq hw hb, perBlock_eq hw hb',
      bc_null hw hb hf hp (fun x k h1 h2 => hN.pre r b hb f hf (by rw [hnb]; simp) t p x k h1 h2), bc_inside hp', h1]
  unfold prepareDiffusion
  dsimp only
  generalize (perBlock W (cell s) fun b => bcAll ng b (fun nf => I.pre b.nblki nf t) (cell s b.nblki)) = c at *
  have hdq1 := exch_alike (kind := .ccFirst) (by decide) hng hw (perBlock W s.aux.dq fun b p =>
    if InBox 0 b.dims p then K.grad (fun d u => (c b.nblki (shift p d u), I.geo b.nblki (shift p d u))) else s.aux.dq b.nblki p)
  generalize exch .ccFirst ng W (perBlock W s.aux.dq fun b p =>
    if InBox 0 b.dims p then K.grad (fun d u => (c b.nblki (shift p d u), I.geo b.nblki (shift p d u))) else s.aux.dq b.nblki p) = e at *
  have hdq : Alike W 1 (perBlock W e fun b p =>
      (bcAll 1 b (fun nf x l u => ((l u).1, I.post b.nblki nf t x l)) (fun x => (c b.nblki x, e b.nblki x)) p).2) := by
    intro r b hb f hf nb hnb r' b' hb' hb'n p p' hp hp' hg
    have h1 := hdq1 r b hb f hf nb hnb r' b' hb' hb'n p p' hp hp' hg
    have hpost := hN.post r b hb f hf (by rw [hnb]; simp) t p
    rw [← hb'n] at h1 ⊢
    rw [perBlock_eq hw hb, perBlock_eq (b := b') hw hb', bc_inside hp',
      bc_out1 (ng := ng) (post := fun nf x l => I.post b.nblki nf t x l) hw hb (thick_top ht hb) hf hp
        (fun x x' h => by rw [hpost, hpost, h (-1) (by omega)])]
    dsimp only
    rw [hpost]
    have hd1 : dep f.nface b.dims p = -1 := by have := hp.1; have := hp.2.1; omega
    dsimp only
    rw [← hd1, along_dep]
    exact h1
  generalize (perBlock W e fun b p =>
      (bcAll 1 b (fun nf x l u => ((l u).1, I.post b.nblki nf t x l)) (fun x => (c b.nblki x, e b.nblki x)) p).2) = g at *
  refine ⟨⟨hcells, hs.phi, ?_⟩, hdq⟩
  dsimp only
  intro r b hb f hf nb hnb r' b' hb' hb'n p p' hp hp' hg
  have h1 := hcells.mono (m := 1) (by omega) r b hb f hf nb hnb r' b' hb' hb'n p p' hp hp' hg
  have h2 := (hF.cell r b hb f hf nb hnb r' b' hb' hb'n p p' hp hp' hg).2
  have h3 := hdq r b hb f hf nb hnb r' b' hb' hb'n p p' hp hp' hg
  have h4 := hs.qt r b hb f hf nb hnb r' b' hb' hb'n p p' hp hp' hg
  rw [← hb'n] at h1 h2 h3 h4 ⊢
  have hn := hw.nface_range r b hb f hf
  rw [perBlock_eq hw hb, perBlock_eq (b := b') hw hb', if_pos (near_inbox (by omega) (dims_top hw hb) (Or.inr ⟨f.nface, hn, hp⟩)),
    if_pos (near_inbox (by omega) (dims_top hw hb') (Or.inl hp')), h1, h2, h3, h4]

/-! ### the two sides of a connected face -/

/-- cell `p'` of face `nf'` of `b'` is the cell on the other side of cell `p` of face `nf` of `b` -/
def Mate (W : List (List Block)) (x x' : Block × Nat × Pos) : Prop :=
  (∃ r, Owns W r x.1) ∧ (∃ r, Owns W r x'.1) ∧ x.2.2 ∈ faceCells x.1.dims x.2.1 ∧ x'.2.2 ∈ faceCells x'.1.dims x'.2.1 ∧
  ∃ f ∈ x.1.faces, f.nface = x.2.1 ∧ f.neighbor = some x'.1.nblki ∧ neighborNface f.nface f.ori = some x'.2.1 ∧
    (∃ f' ∈ x'.1.faces, f'.nface = x'.2.1 ∧ f'.neighbor = some x.1.nblki ∧ neighborOrientation f.ori = some f'.ori) ∧
    Glued .ccAll f.nface f.ori x.1.dims x'.1.dims (nat (along f.nface x.1.dims x.2.2 (-1))) (nat x'.2.2)

theorem along_mem {d : Dims} {nf : Nat} {p : Pos} (hp : p ∈ faceCells d nf) : along nf d p 0 = p := by
  rw [mem_faceCells] at hp; rw [← hp.2, along_dep]

theorem face_halo {d : Dims} {nf : Nat} {p : Pos} (hp : p ∈ faceCells d nf) {m t : Int} (h1 : -m ≤ t) (h2 : t < 0) :
    HaloOf m nf d (along nf d p t) := by
  rw [mem_faceCells] at hp
  refine ⟨by rw [dep_along]; exact h1, by rw [dep_along]; exact h2, fun a ha => ?_⟩
  rw [along_other ha]; exact inbox0.1 hp.1 a

theorem face_inside {d : Dims} {nf : Nat} {p : Pos} (hp : p ∈ faceCells d nf) {t : Int} (h1 : 0 ≤ t) (h2 : t ≤ top d (axis nf)) :
    InBox 0 d (along nf d p t) := by
  rw [mem_faceCells] at hp
  rw [inbox0]; intro a
  by_cases e : a = axis nf
  · subst e; unfold along; simp only [if_true]; split_ifs <;> omega
  · rw [along_other e]; exact inbox0.1 hp.1 a

theorem mate_exists (hng : 0 < ng) (hw : WellConnected W) (ht : Thick ng W) {r : Nat} {b : Block} (hb : Owns W r b) {nf : Nat}
    (hc : Connected b nf) {p : Pos} (hp : p ∈ faceCells b.dims nf) : ∃ x', Mate W (b, nf, p) x' ∧ Connected x'.1 x'.2.1 := by
  obtain ⟨f, hf, rfl, hnn⟩ := hc
  obtain ⟨nb, hnb⟩ := Option.ne_none_iff_exists'.1 hnn
  obtain ⟨hleg, b', hb', hb'n, hsz, f', hf', hf'n, e1, e2⟩ := hw.conn r b hb f hf nb hnb
  obtain ⟨r₂, b₂, c', hb₂, hb₂n, hg, hin⟩ := glued_inside' (kind := .ccAll) (by decide) hng hw ht hb hf hnb
    (face_halo hp (m := layers .ccAll ng) (t := -1) (by simp only [layers]; omega) (by omega))
  obtain ⟨-, rfl⟩ := hw.uniq _ _ _ _ hb₂ hb' (hb₂n.trans hb'n.symm)
  have hn := hw.nface_range r b hb f hf
  obtain ⟨fl, -, hconn⟩ := conn_of f.nface hn f.ori hleg _ _ e1 e2
  have hg' : Glued .ccAll f.nface f.ori b.dims b₂.dims (nat (along f.nface b.dims p (-1))) (nat (pos c')) := by
    intro i hi
    have := hg i hi
    dsimp only at this ⊢
    rw [← this, nat_lt _ (axisOf_lt _)]; rfl
  refine ⟨(b₂, f'.nface, pos c'), ⟨⟨r, hb⟩, ⟨_, hb₂⟩, hp, ?_, f, hf, rfl, by rw [hnb, hb₂n], e1, ⟨f', hf', rfl, hf'n, e2⟩, hg'⟩,
    f', hf', rfl, by rw [hf'n]; simp⟩
  rw [mem_faceCells]
  refine ⟨hin, ?_⟩
  have := glued_dep hn hconn hg'
  rw [dep_along] at this
  dsimp only
  omega

theorem mate_conn (hw : WellConnected W) {x x' : Block × Nat × Pos} (h : Mate W x x') :
    ∃ (f f' : Face) (fl : Bool × Bool × Bool), f ∈ x.1.faces ∧ f' ∈ x'.1.faces ∧ f.nface = x.2.1 ∧ f'.nface = x'.2.1 ∧
      f.neighbor = some x'.1.nblki ∧ f'.neighbor = some x.1.nblki ∧ neighborNface f.nface f.ori = some f'.nface ∧
      neighborOrientation f.ori = some f'.ori ∧ f.ori.Legal ∧ Conn f.nface f.ori f'.nface f'.ori fl ∧ SizesMatch f.nface f.ori x.1.dims x'.1.dims ∧
      (∀ t, Glued .ccAll f.nface f.ori x.1.dims x'.1.dims (nat (along x.2.1 x.1.dims x.2.2 t)) (nat (along x'.2.1 x'.1.dims x'.2.2 (-1 - t)))) ∧
      (∀ t, Glued .ccAll f'.nface f'.ori x'.1.dims x.1.dims (nat (along x'.2.1 x'.1.dims x'.2.2 t)) (nat (along x.2.1 x.1.dims x.2.2 (-1 - t)))) := by
  obtain ⟨b, nf, p⟩ := x
  obtain ⟨b', nf', p'⟩ := x'
  obtain ⟨⟨r, hb⟩, ⟨r', hb'⟩, hp, hp', f, hf, hfn, hnb, e1, ⟨f', hf', hf'n, hnb', e2⟩, hg⟩ := h
  dsimp only at *
  subst hfn hf'n
  have hn := hw.nface_range r b hb f hf
  obtain ⟨hleg, b₂, hb₂, hb₂n, hsz, -⟩ := hw.conn r b hb f hf _ hnb
  obtain ⟨-, rfl⟩ := hw.uniq _ _ _ _ hb₂ hb' hb₂n
  obtain ⟨fl, -, hconn⟩ := conn_of f.nface hn f.ori hleg _ _ e1 e2
  have hline := glued_line hn hconn hleg e2 hg
  refine ⟨f, f', fl, hf, hf', rfl, rfl, hnb, hnb', e1, e2, hleg, hconn, hsz, hline, fun t => ?_⟩
  have := glued_back hn hconn hleg e2 hsz (hline (-1 - t))
  have e : -1 - (-1 - t) = t := by omega
  rw [e] at this
  exact this

theorem mate_symm (hw : WellConnected W) {x x' : Block × Nat × Pos} (h : Mate W x x') : Mate W x' x := by
  obtain ⟨f, f', fl, hf, hf', e, e', hnb, hnb', e1, e2, hleg, hconn, hsz, l1, l2⟩ := mate_conn hw h
  obtain ⟨hb, hb', hp, hp', -⟩ := h
  refine ⟨hb', hb, hp', hp, f', hf', e', hnb', by rw [hconn.back_nf, e], ⟨f, hf, e, hnb, hconn.back_o⟩, ?_⟩
  have := l2 (-1)
  rw [← e', show (-1 : Int) - -1 = 0 by omega, along_mem hp] at this
  exact this

theorem mate_unique (hw : WellConnected W) {x y z : Block × Nat × Pos} (h : Mate W x y) (h' : Mate W x z) : y = z := by
  obtain ⟨b, nf, p⟩ := x
  obtain ⟨b1, nf1, p1⟩ := y
  obtain ⟨b2, nf2, p2⟩ := z
  obtain ⟨⟨r, hb⟩, ⟨r1, hb1⟩, hp, -, f, hf, rfl, hnb, e1, -, hg⟩ := h
  obtain ⟨-, ⟨r2, hb2⟩, -, -, g, hgf, hgn, hnb', e1', -, hg'⟩ := h'
  dsimp only at *
  obtain rfl := face_unique hw hb hgf hf hgn
  rw [hnb] at hnb'
  obtain ⟨-, rfl⟩ := hw.uniq _ _ _ _ hb1 hb2 (Option.some.inj hnb')
  rw [e1] at e1'
  obtain rfl := Option.some.inj e1'
  rw [glued_unique (hw.conn r b hb g hf _ hnb).1 hg hg']

/-- the value of a field on the line through a connected face is the same from both sides -/
theorem mate_line {β : Type} (hw : WellConnected W) {m : Int} (hm : ∀ r b, Owns W r b → ∀ a, m ≤ top b.dims a + 1) {A : Nat → Pos → β} (hA : Alike W m A)
    {x x' : Block × Nat × Pos} (h : Mate W x x') {u : Int} (h1 : -m ≤ u) (h2 : u < m) :
    A x'.1.nblki (along x'.2.1 x'.1.dims x'.2.2 u) = A x.1.nblki (along x.2.1 x.1.dims x.2.2 (-1 - u)) := by
  obtain ⟨f, f', fl, hf, hf', e, e', hnb, hnb', e1, e2, hleg, hconn, hsz, l1, l2⟩ := mate_conn hw h
  obtain ⟨⟨r, hb⟩, ⟨r', hb'⟩, hp, hp', -⟩ := h
  by_cases hu : u < 0
  · have hh := face_halo hp' (m := m) (t := u) h1 hu
    rw [← e'] at hh ⊢
    have := l2 u
    rw [← e'] at this
    exact hA r' _ hb' f' hf' _ hnb' r _ hb rfl _ _ hh (face_inside hp (by omega) (by have := hm r _ hb (axis x.2.1); omega)) this
  · have hh := face_halo hp (m := m) (t := -1 - u) (by omega) (by omega)
    rw [← e] at hh ⊢
    have := l1 (-1 - u)
    rw [← e, show -1 - (-1 - u) = u by omega] at this
    exact (hA r _ hb f hf _ hnb r' _ hb' rfl _ _ hh (face_inside hp' (by omega) (by have := hm r' _ hb' (axis x'.2.1); omega)) this).symm

end PG.Whole
