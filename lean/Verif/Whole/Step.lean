import Verif.Whole.Geom
/-!
C91: consistify and RHS on a decomposition do what they do on the undivided blocks.
-/
noncomputable section
namespace PG.Whole
open PG.Topo PG.Halo PG.Time

/-! ### one exchange -/

theorem exch_un {α : Type} {kind : Kind} {ng : Nat} (hng : 0 < ng) {W : List (List Block)} (hw : WellConnected W)
    (data : Nat → Pos → α) {r : Nat} {b : Block} (hb : Owns W r b) {p : Pos} (h : Unexchanged kind ng b (nat p)) :
    exch kind ng W data b.nblki p = data b.nblki p := by
  unfold exch
  rw [round_eq kind ng W hw _ r b hb]
  have := C05_only_halos_change kind ng hng (fun m => toArr ng (data m)) W hw r b hb (nat p) h
  rw [this, at_toArr, pos_nat]

theorem layers_kind {kind : Kind} (hk : kind ≠ .node) (ng : Nat) (hng : 0 < ng) : 1 ≤ layers kind ng ∧ layers kind ng ≤ ng := by
  rcases kind_cases hk with rfl | rfl <;> simp only [layers] <;> omega

theorem behind_halo {kind : Kind} (hk : kind ≠ .node) {ng : Nat} {nf : Nat} (hn : 1 ≤ nf ∧ nf ≤ 6) {d : Dims} {p : Pos} :
    Behind kind nf ng d (nat p) ↔ -(layers kind ng) ≤ dep nf d p ∧ dep nf d p < 0 := by
  unfold Behind; rw [depth_dep hk hn]; constructor <;> intro h <;> omega

theorem exch_conn {α : Type} {kind : Kind} (hk : kind ≠ .node) {ng : Nat} (hng : 0 < ng) {W : List (List Block)}
    (hw : WellConnected W) (data : Nat → Pos → α) {r : Nat} {b : Block} (hb : Owns W r b) {f : Face} (hf : f ∈ b.faces)
    {nb : Nat} (hnb : f.neighbor = some nb) {r' : Nat} {b' : Block} (hb' : Owns W r' b') (hb'n : b'.nblki = nb) {p : Pos}
    (h : HaloOf (layers kind ng) f.nface b.dims p) {c c' : Nat → Int} (hcp : ∀ i, i < 3 → c i = nat p i)
    (hg : Glued .ccAll f.nface f.ori b.dims b'.dims c c') :
    exch kind ng W data b.nblki p = data nb (pos c') := by
  have hn := hw.nface_range r b hb f hf
  have hg' : Glued kind f.nface f.ori b.dims b'.dims (nat p) c' := by
    rw [glued_kind hk]
    intro i hi
    have := hg i hi
    dsimp only at this ⊢
    rw [this, hcp i hi]
  unfold exch
  rw [round_eq kind ng W hw _ r b hb]
  have := exchange_correct kind ng hng (fun m => toArr ng (data m)) W hw r b hb f hf nb hnb r' b' hb' hb'n (nat p) c'
    ((behind_halo hk hn).2 ⟨h.1, h.2.1⟩) ?_ hg'
  · rw [this, at_toArr]
  · intro i hi hne
    have := h.2.2 ⟨i, hi⟩ (fun e => hne (by rw [← axis_val hn, ← e]))
    rw [← last_top hk] at this
    unfold nat; rw [dif_pos hi]; exact this

theorem face_unique {W : List (List Block)} (hw : WellConnected W) {r : Nat} {b : Block} (hb : Owns W r b) {f g : Face}
    (hf : f ∈ b.faces) (hg : g ∈ b.faces) (e : f.nface = g.nface) : f = g := by
  have hd := hw.nface_distinct r b hb
  clear hb hw
  generalize b.faces = l at *
  induction hd with
  | nil => cases hf
  | cons h _ ih =>
    rcases List.mem_cons.1 hf with hf1 | hf1 <;> rcases List.mem_cons.1 hg with hg1 | hg1
    · rw [hf1, hg1]
    · rw [hf1] at e; exact absurd e (h g hg1)
    · rw [hg1] at e; exact absurd e.symm (h f hf1)
    · exact ih hf1 hg1

theorem physical_unexchanged {kind : Kind} (hk : kind ≠ .node) {ng : Nat} {W : List (List Block)} (hw : WellConnected W) {r : Nat}
    {b : Block} (hb : Owns W r b) {f : Face} (hf : f ∈ b.faces) (hnb : f.neighbor = none) {m : Int} {p : Pos}
    (hp : HaloOf m f.nface b.dims p) : Unexchanged kind ng b (nat p) := by
  intro g hg hgn hB
  have hgr := hw.nface_range r b hb g hg
  by_cases e : g.nface = f.nface
  · rw [face_unique hw hb hg hf e] at hgn; exact hgn hnb
  · have := halo_unique (hw.nface_range r b hb f hf) hgr (Ne.symm e) (dims_top hw hb) hp
    have := ((behind_halo hk hgr).1 hB).2
    omega

/-! ### the relation between arrays of the two cases -/

section
variable (ng : Nat) (W' W : List (List Block)) (par : Nat → Nat) (off : Nat → Pos)

/-- equal on cells and the first `m` halo cells of every block of the decomposition -/
def Same {β : Type} (m : Int) (A' A : Nat → Pos → β) : Prop :=
  ∀ r' b', Owns W' r' b' → ∀ p, Near m b'.dims p → A' b'.nblki p = A (par b'.nblki) (p + off b'.nblki)

/-- interior cell or halo cell behind a face without neighbour -/
def Own (m : Int) (b : Block) (p : Pos) : Prop :=
  InBox 0 b.dims p ∨ ∃ f ∈ b.faces, f.neighbor = none ∧ HaloOf m f.nface b.dims p

/-- equal on interior cells and on halo cells behind faces without neighbour -/
def Mid {β : Type} (m : Int) (A' A : Nat → Pos → β) : Prop :=
  ∀ r' b', Owns W' r' b' → ∀ p, Own m b' p → A' b'.nblki p = A (par b'.nblki) (p + off b'.nblki)
end

variable {ng : Nat} {W' W : List (List Block)} {par : Nat → Nat} {off : Nat → Pos}

theorem own_near {m : Int} (hw : WellConnected W') {r' : Nat} {b' : Block} (hb' : Owns W' r' b') {p : Pos} (h : Own m b' p) :
    Near m b'.dims p := by
  rcases h with h | ⟨f, hf, -, h⟩
  · exact Or.inl h
  · exact Or.inr ⟨f.nface, hw.nface_range r' b' hb' f hf, h⟩

theorem Same.mid {β : Type} {m : Int} {A' A : Nat → Pos → β} (hw : WellConnected W') (h : Same W' par off m A' A) :
    Mid W' par off m A' A := fun r' b' hb' p hp => h r' b' hb' p (own_near hw hb' hp)

theorem Same.mono {β : Type} {m k : Int} (hmk : m ≤ k) {A' A : Nat → Pos → β} (h : Same W' par off k A' A) :
    Same W' par off m A' A := fun r' b' hb' p hp => h r' b' hb' p (near_mono hmk hp)

theorem near_zero {d : Dims} {p : Pos} (h : Near 0 d p) : InBox 0 d p := by
  rcases h with h | ⟨nf, -, h1, h2, -⟩
  · exact h
  · omega

theorem Mid.zero {β : Type} {m : Int} {A' A : Nat → Pos → β} (h : Mid W' par off m A' A) : Same W' par off 0 A' A :=
  fun r' b' hb' p hp => h r' b' hb' p (Or.inl (near_zero hp))

theorem Mid.mono {β : Type} {m k : Int} (hmk : m ≤ k) {A' A : Nat → Pos → β} (h : Mid W' par off k A' A) :
    Mid W' par off m A' A := fun r' b' hb' p hp => h r' b' hb' p (by
  rcases hp with hp | ⟨f, hf, hn, hp⟩
  · exact Or.inl hp
  · exact Or.inr ⟨f, hf, hn, halo_mono hmk hp⟩)

/-- the block behind a connected halo cell holds it as an interior cell -/
theorem glued_inside' {kind : Kind} (hk : kind ≠ .node) (hng : 0 < ng) (hw : WellConnected W') (ht : Thick ng W') {r' : Nat} {b' : Block}
    (hb' : Owns W' r' b') {f : Face} (hf : f ∈ b'.faces) {nb : Nat} (hnb : f.neighbor = some nb) {p : Pos}
    (hp : HaloOf (layers kind ng) f.nface b'.dims p) :
    ∃ r₂ b₂ c', Owns W' r₂ b₂ ∧ b₂.nblki = nb ∧ Glued .ccAll f.nface f.ori b'.dims b₂.dims (nat p) c' ∧ InBox 0 b₂.dims (pos c') := by
  have hn := hw.nface_range r' b' hb' f hf
  obtain ⟨hleg, b₂, hb₂, hb₂n, hsz, -⟩ := hw.conn r' b' hb' f hf nb hnb
  have hg := glued_glue kind f.nface f.ori hleg b'.dims b₂.dims (nat p)
  have hB : Behind kind f.nface ng b'.dims (nat p) := (behind_halo hk hn).2 ⟨hp.1, hp.2.1⟩
  have hlay := layers_kind hk ng hng
  have hA : InArr kind ng b'.dims (nat p) := by
    intro i hi
    have e := last_top hk b'.dims ⟨i, hi⟩
    dsimp only at e
    have := near_inbox (m := ng) (by omega) (dims_top hw hb')
      (Or.inr ⟨f.nface, hn, halo_mono hlay.2 hp⟩ : Near ng b'.dims p) ⟨i, hi⟩
    rw [e]; unfold nat; rw [dif_pos hi]; exact this
  obtain ⟨ho, -⟩ := glue_out kind ng f.nface hn f.ori hleg b'.dims b₂.dims hsz (ht _ b₂ hb₂) hng (nat p) _
    (last_nonneg kind _ (hw.cells _ _ hb') _) hB hA hg
  have h1 : outAxes kind b'.dims (nat p) ≤ 1 := by
    have hin : ∀ i, i < 3 → i ≠ normalAxis f.nface → outOne (nat p i) (last kind b'.dims i) = 0 := by
      intro i hi hne
      have := hp.2.2 ⟨i, hi⟩ (fun e => hne (by rw [← axis_val hn, ← e]))
      rw [← last_top hk] at this
      exact outOne_in (by unfold nat; rw [dif_pos hi]; exact this)
    have hle : ∀ x l : Int, outOne x l ≤ 1 := by intro x l; unfold outOne; split_ifs <;> omega
    rw [outAxes_eq]
    have a0 := hle (nat p 0) (last kind b'.dims 0)
    have a1 := hle (nat p 1) (last kind b'.dims 1)
    have a2 := hle (nat p 2) (last kind b'.dims 2)
    have : normalAxis f.nface = 0 ∨ normalAxis f.nface = 1 ∨ normalAxis f.nface = 2 := by unfold normalAxis; omega
    rcases this with e | e | e
    · have := hin 1 (by omega) (by omega); have := hin 2 (by omega) (by omega); omega
    · have := hin 0 (by omega) (by omega); have := hin 2 (by omega) (by omega); omega
    · have := hin 0 (by omega) (by omega); have := hin 1 (by omega) (by omega); omega
  exact ⟨_, b₂, _, hb₂, hb₂n, (glued_kind hk).1 hg, interior_pos hk (outAxes_zero (by omega))⟩

theorem glued_inside {kind : Kind} (hk : kind ≠ .node) (hng : 0 < ng) (hs : Split ng W' W par off) {r' : Nat} {b' : Block}
    (hb' : Owns W' r' b') {f : Face} (hf : f ∈ b'.faces) {nb : Nat} (hnb : f.neighbor = some nb) {p : Pos}
    (hp : HaloOf (layers kind ng) f.nface b'.dims p) :
    ∃ r₂ b₂ c', Owns W' r₂ b₂ ∧ b₂.nblki = nb ∧ Glued .ccAll f.nface f.ori b'.dims b₂.dims (nat p) c' ∧ InBox 0 b₂.dims (pos c') :=
  glued_inside' hk hng hs.child hs.thick hb' hf hnb hp

/-- behind a cut the next cells of the surrounding block follow -/
theorem cut_inside (hng : 0 < ng) (hs : Split ng W' W par off) {r' : Nat} {b' : Block}
    (hb' : Owns W' r' b') {r : Nat} {b : Block} (hb : Owns W r b) (hbn : b.nblki = par b'.nblki) {f : Face} (hf : f ∈ b'.faces)
    (hc : ¬ Touches f.nface b'.dims b.dims (off b'.nblki)) {p : Pos} (hp : HaloOf ng f.nface b'.dims p) :
    InBox 0 b.dims (p + off b'.nblki) := by
  obtain ⟨nb, hnb, hpar, hglue⟩ := hs.cut r' b' hb' r b hb hbn f hf hc
  obtain ⟨r₂, b₂, c', hb₂, hb₂n, hg, hin⟩ := glued_inside (kind := .ccAll) (by decide) hng hs hb' hf hnb hp
  have := hglue r₂ b₂ hb₂ hb₂n _ _ hg
  obtain ⟨r₃, b₃, hb₃, hb₃n, hbox⟩ := hs.inside r₂ b₂ hb₂
  obtain ⟨-, rfl⟩ := hs.parent.uniq _ _ _ _ hb₃ hb (by rw [hb₃n, hb₂n, hpar, hbn])
  have e : p + off b'.nblki = pos c' + off b₂.nblki := by
    rw [← pos_moved, hb₂n]
    funext a
    have := this a a.2
    unfold pos; rw [this, moved_nat _ _ _ a.2, nat_fin]
  rw [e]
  exact inside_add hbox hin

theorem exch_same_at {β : Type} {kind : Kind} (hk : kind ≠ .node) (hng : 0 < ng) (hs : Split ng W' W par off)
    {A' A : Nat → Pos → β} (h : Same W' par off 0 A' A) {r' : Nat} {b' : Block} (hb' : Owns W' r' b') {p : Pos}
    (hp : Near (layers kind ng) b'.dims p)
    (hphys : ∀ f ∈ b'.faces, f.neighbor = none → HaloOf (layers kind ng) f.nface b'.dims p →
      A' b'.nblki p = A (par b'.nblki) (p + off b'.nblki)) :
    exch kind ng W' A' b'.nblki p = exch kind ng W A (par b'.nblki) (p + off b'.nblki) := by
  obtain ⟨r, b, hb, hbn, hbox⟩ := hs.inside r' b' hb'
  have hlay := layers_kind hk ng hng
  rw [← hbn]
  rcases hp with hp | ⟨nf, hn, hp⟩
  · rw [exch_un hng hs.child A' hb' (interior_unexchanged hs.child hb' (interior_nat hk hp)),
      exch_un hng hs.parent A hb (interior_unexchanged hs.parent hb (interior_nat hk (inside_add hbox hp)))]
    rw [hbn]; exact h r' b' hb' p (Or.inl hp)
  · obtain ⟨f', hf', rfl⟩ := hs.six r' b' hb' nf hn.1 hn.2
    cases hnb : f'.neighbor with
    | none =>
      -- physical boundary in both cases
      have ht : Touches f'.nface b'.dims b.dims (off b'.nblki) := by
        apply Classical.byContradiction
        intro hc
        obtain ⟨nb, h1, -⟩ := hs.cut r' b' hb' r b hb hbn f' hf' hc
        rw [hnb] at h1; cases h1
      obtain ⟨f, hf, hfn, hnone, -⟩ := hs.outer r' b' hb' r b hb hbn f' hf' ht
      have hp2 := touch_halo ht hbox hp
      rw [← hfn] at hp2
      rw [exch_un hng hs.child A' hb' (physical_unexchanged hk hs.child hb' hf' hnb hp),
        exch_un hng hs.parent A hb (physical_unexchanged hk hs.parent hb hf (hnone hnb) hp2), hbn]
      exact hphys f' hf' hnb hp
    | some nb =>
      obtain ⟨r₂, b₂, c', hb₂, hb₂n, hg, hin⟩ := glued_inside hk hng hs hb' hf' hnb hp
      rw [exch_conn hk hng hs.child A' hb' hf' hnb hb₂ hb₂n hp (fun _ _ => rfl) hg]
      have hv := h r₂ b₂ hb₂ (pos c') (Or.inl hin)
      rw [hb₂n] at hv
      rw [hv]
      by_cases ht : Touches f'.nface b'.dims b.dims (off b'.nblki)
      · obtain ⟨f, hf, hfn, -, hconn⟩ := hs.outer r' b' hb' r b hb hbn f' hf' ht
        obtain ⟨hfnb, hgl⟩ := hconn nb hnb
        obtain ⟨r₃, b₃, hb₃, hb₃n, -⟩ := hs.inside r₂ b₂ hb₂
        rw [hb₂n] at hb₃n
        have hp2 := touch_halo ht hbox hp
        rw [← hfn] at hp2
        rw [exch_conn hk hng hs.parent A hb hf hfnb hb₃ hb₃n hp2 (moved_nat _ _) (hgl r₂ b₂ hb₂ hb₂n r₃ b₃ hb₃ hb₃n _ _ hg),
          pos_moved]
      · obtain ⟨nb2, hnb2, hpar, hgl⟩ := hs.cut r' b' hb' r b hb hbn f' hf' ht
        rw [hnb] at hnb2; cases hnb2
        have hin2 := cut_inside hng hs hb' hb hbn hf' ht (halo_mono hlay.2 hp)
        rw [exch_un hng hs.parent A hb (interior_unexchanged hs.parent hb (interior_nat hk hin2)), hbn, hpar]
        congr 1
        rw [← pos_moved]
        funext a
        unfold pos
        rw [hgl r₂ b₂ hb₂ hb₂n _ _ hg a a.2, moved_nat _ _ _ a.2, nat_fin]

theorem exch_same {β : Type} {kind : Kind} (hk : kind ≠ .node) (hng : 0 < ng) (hs : Split ng W' W par off)
    {A' A : Nat → Pos → β} (h : Mid W' par off (layers kind ng) A' A) :
    Same W' par off (layers kind ng) (exch kind ng W' A') (exch kind ng W A) := fun r' b' hb' p hp =>
  exch_same_at hk hng hs h.zero hb' hp (fun f hf hn hp => h r' b' hb' p (Or.inr ⟨f, hf, hn, hp⟩))

/-! ### boundary conditions -/

theorem bc_fold_out {γ : Type} (layers : Int) (dm : Dims) (f : Nat → Pos → (Int → γ) → Int → γ) (x : Pos) :
    ∀ (l : List Face) (A : Pos → γ), (∀ g ∈ l, ¬ (-layers ≤ dep g.nface dm x ∧ dep g.nface dm x < 0)) →
    l.foldl (fun A fc p =>
      if -layers ≤ dep fc.nface dm p ∧ dep fc.nface dm p < 0 then
        f fc.nface p (fun t => A (along fc.nface dm p t)) (dep fc.nface dm p)
      else A p) A x = A x
  | [], A, _ => rfl
  | g :: l, A, h => by
    rw [List.foldl_cons, bc_fold_out layers dm f x l _ (fun g hg => h g (List.mem_cons_of_mem _ hg)),
      if_neg (h g (List.mem_cons_self ..))]

theorem bc_inside {γ : Type} {layers : Int} {b : Block} {f : Nat → Pos → (Int → γ) → Int → γ} {A : Pos → γ} {p : Pos}
    (h : InBox 0 b.dims p) : bcAll layers b f A p = A p := by
  unfold bcAll
  apply bc_fold_out
  intro g _ hg
  have := dep_inside (nf := g.nface) h
  omega

theorem bc_halo {γ : Type} {layers : Int} {n : Int} {W : List (List Block)} (hw : WellConnected W) {r : Nat}
    {b : Block} (hb : Owns W r b) (hn : ∀ a, n ≤ top b.dims a + 1) {f : Nat → Pos → (Int → γ) → Int → γ} {A : Pos → γ} {p : Pos}
    {fc : Face} (hf : fc ∈ b.faces) (hp : HaloOf layers fc.nface b.dims p)
    (hl : ∀ l l', (∀ u, u < n → l u = l' u) → f fc.nface p l (dep fc.nface b.dims p) = f fc.nface p l' (dep fc.nface b.dims p)) :
    bcAll layers b f A p = f fc.nface p (fun t => A (along fc.nface b.dims p t)) (dep fc.nface b.dims p) := by
  have hr := hw.nface_range r b hb
  have hd := hw.nface_distinct r b hb
  obtain ⟨l1, l2, hsplit⟩ := List.append_of_mem hf
  have hne : (∀ g ∈ l1, fc.nface ≠ g.nface) ∧ (∀ g ∈ l2, fc.nface ≠ g.nface) := by
    rw [hsplit, List.pairwise_append, List.pairwise_cons] at hd
    exact ⟨fun g hg => Ne.symm (hd.2.2 g hg fc (by simp)), hd.2.1.1⟩
  have hm1 : ∀ g ∈ l1, g ∈ b.faces := fun g hg => by rw [hsplit]; simp [hg]
  have hm2 : ∀ g ∈ l2, g ∈ b.faces := fun g hg => by rw [hsplit]; simp [hg]
  unfold bcAll
  rw [hsplit, List.foldl_append, List.foldl_cons, bc_fold_out]
  · rw [if_pos ⟨hp.1, hp.2.1⟩]
    apply hl
    intro u hu
    apply bc_fold_out
    intro g hg hB
    have hgr := hr g (hm1 g hg)
    by_cases e : u < 0
    · have := halo_unique (hr fc hf) hgr (hne.1 g hg) (dims_top hw hb) (halo_along (k := -u) hp (by omega) e)
      omega
    · have := dep_inside (nf := g.nface) (inside_along hp (t := u) (by omega) (by have := hn (axis fc.nface); omega))
      omega
  · intro g hg hB
    have := halo_unique (hr fc hf) (hr g (hm2 g hg)) (hne.2 g hg) (dims_top hw hb) hp
    omega

theorem thick_top (ht : Thick ng W') {r' : Nat} {b' : Block} (hb' : Owns W' r' b') (a : Fin 3) : (ng : Int) ≤ top b'.dims a + 1 := by
  have := ht r' b' hb' a a.2
  have e : last .node b'.dims a = top b'.dims a + 1 := by
    unfold top last; dsimp only; omega
  omega

theorem bc_same {γ : Type} {layers : Int} (hlay : layers ≤ ng) (hng : 0 < ng) (hs : Split ng W' W par off) {r' : Nat} {b' : Block}
    (hb' : Owns W' r' b') {r : Nat} {b : Block} (hb : Owns W r b) (hbn : b.nblki = par b'.nblki)
    (hbox : ∀ a, 0 ≤ off b'.nblki a ∧ off b'.nblki a + top b'.dims a ≤ top b.dims a)
    {f' f : Nat → Pos → (Int → γ) → Int → γ} {A' A : Pos → γ}
    (hl' : ∀ nf p k l l', -layers ≤ k → k < 0 → (∀ u, u < (ng : Int) → l u = l' u) → f' nf p l k = f' nf p l' k)
    (hl : ∀ nf p k l l', -layers ≤ k → k < 0 → (∀ u, u < (ng : Int) → l u = l' u) → f nf p l k = f nf p l' k)
    (hin : ∀ p, InBox 0 b'.dims p → A' p = A (p + off b'.nblki))
    (hout : ∀ nf, (1 ≤ nf ∧ nf ≤ 6) → Touches nf b'.dims b.dims (off b'.nblki) → ∀ p, HaloOf layers nf b'.dims p →
      f' nf p (fun t => A' (along nf b'.dims p t)) (dep nf b'.dims p) =
        f nf (p + off b'.nblki) (fun t => A (along nf b.dims (p + off b'.nblki) t)) (dep nf b'.dims p))
    (hcut : ∀ nf, (1 ≤ nf ∧ nf ≤ 6) → ¬ Touches nf b'.dims b.dims (off b'.nblki) → ∀ p, HaloOf layers nf b'.dims p →
      f' nf p (fun t => A' (along nf b'.dims p t)) (dep nf b'.dims p) = A (p + off b'.nblki))
    {p : Pos} (hp : Near layers b'.dims p) : bcAll layers b' f' A' p = bcAll layers b f A (p + off b'.nblki) := by
  rcases hp with hp | ⟨nf, hn, hp⟩
  · rw [bc_inside hp, bc_inside (inside_add hbox hp)]; exact hin p hp
  · obtain ⟨fc', hf', rfl⟩ := hs.six r' b' hb' nf hn.1 hn.2
    have htop := thick_top hs.thick hb'
    rw [bc_halo (n := ng) hs.child hb' htop hf' hp (fun l l' h => hl' _ _ _ l l' hp.1 hp.2.1 h)]
    by_cases ht : Touches fc'.nface b'.dims b.dims (off b'.nblki)
    · obtain ⟨fc, hf, hfn, -⟩ := hs.outer r' b' hb' r b hb hbn fc' hf' ht
      have hp2 := touch_halo ht hbox hp
      rw [← hfn] at hp2
      rw [bc_halo (n := ng) hs.parent hb (fun a => by have := htop a; have := hbox a; omega) hf hp2 (fun l l' h => hl _ _ _ l l' hp2.1 hp2.2.1 h),
        hout _ hn ht p hp, hfn, touch_dep ht]
    · rw [hcut _ hn ht p hp, bc_inside (cut_inside hng hs hb' hb hbn hf' ht (halo_mono hlay hp))]

end PG.Whole
