import Verif.Interp.Main
import Verif.Interp.Props
import Verif.Setup.Props
import Verif.IO.Conn
import Mathlib.Tactic.Ring
import Mathlib.Tactic.Linarith
/-!
C112: what the interpolation utility does with the files it is given.
-/
namespace PG.Interp
open PG PG.IO PG.Text

/-! ### specification -/

/-- cell centres of the numbered source blocks, one after the other -/
noncomputable def pts (inp : Inputs) (l : List ℕ) : List V3 := l.flatMap fun m => (inp.gF[m]?).elim [] centres

/-- the values of variable `n` of the source solution in the same cells -/
noncomputable def vals (inp : Inputs) (l : List ℕ) (n : ℕ) : List ℝ := l.flatMap fun m =>
  (inp.gF[m]?).elim [] fun g => (inp.src.q[m]?).elim [] fun q => ravelC (g.ni - 1) (g.nj - 1) (g.nk - 1) fun i j k => q i j k n

/-- `v` is the value of variable `n` the interpolation gives at the point `p` from the blocks `l`: it lies between two source values, and it
    is the interpolant's own value whenever that lies between two source values -/
def Interpolated (f : Interpolant) (inp : Inputs) (l : List ℕ) (n : ℕ) (p : V3) (v : ℝ) : Prop :=
  (∃ lo ∈ vals inp l n, lo ≤ v) ∧ (∃ hi ∈ vals inp l n, v ≤ hi) ∧
  ((∃ lo ∈ vals inp l n, lo ≤ f (pts inp l) (vals inp l n) p) → (∃ hi ∈ vals inp l n, f (pts inp l) (vals inp l n) p ≤ hi) →
    v = f (pts inp l) (vals inp l n) p)

/-- `l` are blocks of the source grid (at least one), and every point of `tgt` that lies in the hull of any source block lies in the hull of
    one of them -/
structure Bounding (gF : List GRead) (tgt : List V3) (l : List ℕ) : Prop where
  ne : l ≠ []
  lt : ∀ m ∈ l, m < gF.length
  all : ∀ p ∈ tgt, ∀ b ∈ sblks gF, InHull (cube b) p → ∃ b' ∈ sblks gF, b'.num ∈ l ∧ InHull (cube b') p

/-- the grids have cells, and the numbers of blocks of grid and solution agree -/
structure Inputs.Ok (inp : Inputs) : Prop where
  src : ∀ g ∈ inp.gF, 2 ≤ g.ni ∧ 2 ≤ g.nj ∧ 2 ≤ g.nk
  len : inp.src.q.length = inp.gF.length
  tgt : inp.gT ≠ []

/-- every target block has a cell centre inside some source block -/
def Touches (inp : Inputs) : Prop := ∀ g ∈ inp.gT, ∃ p ∈ centres g, ∃ b ∈ sblks inp.gF, InHull (cube b) p

/-! ### flattening -/

theorem ravelC_length {α : Type} (a b c : ℕ) (x : ℕ → ℕ → ℕ → α) : (ravelC a b c x).length = a * b * c := by simp [ravelC]

theorem ravelC_idx {a b c i j k : ℕ} (hi : i < a) (hj : j < b) (hk : k < c) : (i * b + j) * c + k < a * b * c := by
  have h1 : i * b + j + 1 ≤ a * b := by nlinarith
  nlinarith

theorem ravelC_get {α : Type} {a b c i j k : ℕ} (x : ℕ → ℕ → ℕ → α) (hi : i < a) (hj : j < b) (hk : k < c) :
    (ravelC a b c x)[(i * b + j) * c + k]? = some (x i j k) := by
  unfold ravelC
  rw [List.getElem?_map, List.getElem?_range (ravelC_idx hi hj hk)]
  have e1 : ((i * b + j) * c + k) / c = i * b + j := by
    rw [mul_comm, Nat.mul_add_div (by omega), Nat.div_eq_of_lt hk, add_zero]
  have e2 : ((i * b + j) * c + k) % c = k := by rw [mul_comm, Nat.mul_add_mod, Nat.mod_eq_of_lt hk]
  have e3 : (i * b + j) / b = i := by rw [mul_comm, Nat.mul_add_div (by omega), Nat.div_eq_of_lt hj, add_zero]
  have e4 : (i * b + j) % b = j := by rw [mul_comm, Nat.mul_add_mod, Nat.mod_eq_of_lt hj]
  have e5 : ((i * b + j) * c + k) / (b * c) = i := by
    rw [mul_comm b c, ← Nat.div_div_eq_div_mul, e1, e3]
  simp only [Option.map_some, e1, e2, e4, e5]

/-! ### the utility as it is -/

theorem mapM_none {α β : Type} (f : α → Option β) (l : List α) (hne : l ≠ []) (h : ∀ a ∈ l, f a = none) : l.mapM f = none := by
  cases l with
  | nil => exact absurd rfl hne
  | cons a l => simp [List.mapM_cons, h a List.mem_cons_self]

theorem readGridAny_length {dir : Str} {n : ℕ} {gfs : GFs} {r : Bool × List GRead} (h : readGridAny dir n gfs = some r) :
    r.2.length = n := by
  unfold readGridAny at h
  simp only [Option.map_eq_some_iff] at h
  obtain ⟨gs, h1, rfl⟩ := h
  unfold readGrid at h1
  have := (Conn.mapM_forall2 h1).length_eq
  simpa using this.symm

/-- C112 is violated: the utility never writes anything. Whatever is on disk and whatever its arguments, unless the target grid has no block
    at all it ends in an error, because the solution arrays of the target blocks are not allocated before they are filled. -/
theorem C112_utility_violated (a : Args) (w : World) (h : w.xmf (a.toDir ++ "/g.xmf".toList) ≠ some 0) : utility a w = none := by
  unfold utility transfer
  cases hr : readAll a w with
  | none => rfl
  | some inp =>
    have hT : inp.gT ≠ [] := by
      unfold readAll at hr
      split_ifs at hr
      simp only [Option.bind_eq_bind, Option.bind_eq_some_iff, Option.pure_def, Option.some.injEq] at hr
      obtain ⟨_, _, _, _, _, _, nT, h1, gT, h2, rfl⟩ := hr
      rw [h1] at h
      have := readGridAny_length h2
      intro hc
      simp only at hc
      rw [hc] at this
      exact h (by simp [← this])
    have : newQ false a inp = none := by
      unfold newQ
      dsimp only
      by_cases hb : [] ∈ findBounds a.verbose (inp.gT.map centres) (sblks inp.gF)
      · rw [if_pos hb]
      · rw [if_neg hb, mapM_none]
        · rfl
        · cases hg : inp.gT with
          | nil => exact absurd hg hT
          | cons g gs => simp [findBounds]
        · intro e _
          cases sources inp e.2 with
          | none => rfl
          | some s =>
            simp only [Option.bind_eq_bind, Option.bind_some, fill, Bool.false_eq_true, if_false]
            cases List.mapM (fun n => blocksToBlock a.interp s n (centres e.1)) (List.range (5 + (a.species.length - 1))) <;> rfl
    simp [this]

/-! ### what it would do with the arrays allocated -/

/-- one cell of the new solution: every variable is interpolated at the cell's own centre, and the mass fractions of the cell are divided by
    a common number, one unless their sum has to be brought down to one -/
def CellOk (f : Interpolant) (inp : Inputs) (l : List ℕ) (ns : ℕ) (p : V3) (u : ℕ → ℝ) : Prop :=
  ∃ (v : ℕ → ℝ) (s : ℝ), 1 ≤ s ∧ (∀ n < 5 + (ns - 1), Interpolated f inp l n p (v n)) ∧ (∀ n < 5, u n = v n) ∧
    (∀ n, 5 ≤ n → n < 5 + (ns - 1) → u n = v n / s) ∧
    ((List.range (ns - 1)).map fun n => u (5 + n)).sum ≤ 1 ∧ (s = 1 ∨ ((List.range (ns - 1)).map fun n => u (5 + n)).sum = 1)

theorem forall₂_get {α β : Type} {R : α → β → Prop} {l : List α} {r : List β} (h : List.Forall₂ R l r) :
    ∀ {t : ℕ} {a : α}, l[t]? = some a → ∃ b, r[t]? = some b ∧ R a b := by
  induction h with
  | nil => intro t a h; simp at h
  | cons h1 _ ih =>
    intro t a h
    cases t with
    | zero => simp at h; subst h; exact ⟨_, rfl, h1⟩
    | succ t => simp at h; obtain ⟨b, h2, h3⟩ := ih h; exact ⟨b, by simpa using h2, h3⟩

theorem sblks_num (gs : List GRead) : (sblks gs).map SBlk.num = List.range gs.length := by
  unfold sblks
  rw [List.map_map]
  have : (SBlk.num ∘ fun e : GRead × ℕ => (⟨e.2, e.1.ni, e.1.nj, e.1.nk, e.1.xyz⟩ : SBlk)) = Prod.snd := rfl
  rw [this, List.range_eq_range']
  exact List.zipIdx_map_snd 0 gs

theorem sblks_ok {gs : List GRead} (h : ∀ g ∈ gs, 2 ≤ g.ni ∧ 2 ≤ g.nj ∧ 2 ≤ g.nk) : ∀ b ∈ sblks gs, b.Ok := by
  intro b hb
  unfold sblks at hb
  obtain ⟨e, he, rfl⟩ := List.mem_map.1 hb
  obtain ⟨h1, h2, h3⟩ := h e.1 (by
    obtain ⟨_, _, h⟩ := List.mem_zipIdx he
    rw [h]; exact List.getElem_mem _)
  unfold SBlk.Ok
  simp only
  omega

theorem bounds_spec (verbose : Bool) {gF : List GRead} (h : ∀ g ∈ gF, 2 ≤ g.ni ∧ 2 ≤ g.nj ∧ 2 ≤ g.nk) (tgt : List V3)
    (ht : ∃ p ∈ tgt, ∃ b ∈ sblks gF, InHull (cube b) p) :
    Bounding gF tgt (search verbose tgt (sblks gF) (tgt.map fun _ => false)) := by
  classical
  have ok := sblks_ok h
  have e : findBounds verbose [tgt] (sblks gF) = [search verbose tgt (sblks gF) (tgt.map fun _ => false)] := rfl
  have h0 := C56_empty verbose [tgt] (sblks gF) ok
  have sub : ∀ l : List ℕ, l.Sublist (((sblks gF).filter fun b => decide (∃ p ∈ tgt, InHull (cube b) p)).map SBlk.num) →
      ∀ m ∈ l, m < gF.length := by
    intro l hl m hm
    have := hl.subset hm
    rw [List.mem_map] at this
    obtain ⟨b, hb, rfl⟩ := this
    have hb := List.mem_map_of_mem (f := SBlk.num) (List.mem_filter.1 hb).1
    rw [sblks_num] at hb
    exact List.mem_range.1 hb
  rw [e] at h0
  generalize hS : search verbose tgt (sblks gF) (tgt.map fun _ => false) = S at *
  cases h0 with
  | cons h0 _ =>
    have ne : S ≠ [] := by
      intro hc
      obtain ⟨p, hp, b, hb, hin⟩ := ht
      exact h0.1 hc p hp b hb hin
    cases verbose with
    | false =>
      have h1 := C56_normal [tgt] (sblks gF) ok
      rw [e] at h1
      cases h1 with
      | cons h1 _ => exact ⟨ne, sub _ h1.1, h1.2⟩
    | true =>
      have h1 := C56_verbose [tgt] (sblks gF) ok
      rw [e] at h1
      cases h1 with
      | cons h1 _ =>
        refine ⟨ne, sub _ (by rw [h1]), fun p hp b hb hin => ⟨b, hb, ?_, hin⟩⟩
        rw [h1]
        exact List.mem_map_of_mem (List.mem_filter.2 ⟨hb, by simpa using ⟨p, hp, hin⟩⟩)

theorem sources_spec {inp : Inputs} (hlen : inp.src.q.length = inp.gF.length) : ∀ (l : List ℕ), (∀ m ∈ l, m < inp.gF.length) →
    ∃ bs, sources inp l = some bs ∧ bs.flatMap FromBlk.xc = pts inp l ∧ ∀ n, qvFrom bs n = vals inp l n := by
  intro l
  induction l with
  | nil => intro _; exact ⟨[], rfl, rfl, fun _ => rfl⟩
  | cons m l ih =>
    intro h
    obtain ⟨bs, h1, h2, h3⟩ := ih fun m' hm' => h m' (List.mem_cons_of_mem _ hm')
    have hm := h m List.mem_cons_self
    have e1 : inp.gF[m]? = some inp.gF[m] := List.getElem?_eq_getElem hm
    have e2 : inp.src.q[m]? = some (inp.src.q[m]'(by omega)) := List.getElem?_eq_getElem (by omega)
    refine ⟨fromBlk inp.gF[m] (inp.src.q[m]'(by omega)) :: bs, ?_, ?_, ?_⟩
    · unfold sources at h1 ⊢
      rw [List.mapM_cons, h1, e1, e2]
      rfl
    · simp only [List.flatMap_cons, pts, e1, Option.elim_some]
      rw [h2]
      rfl
    · intro n
      have := h3 n
      simp only [qvFrom, vals, List.flatMap_cons, e1, e2, Option.elim_some] at this ⊢
      rw [this]
      rfl

theorem vals_ne {inp : Inputs} (ok : inp.Ok) {tgt : List V3} {l : List ℕ} (hb : Bounding inp.gF tgt l) (n : ℕ) : vals inp l n ≠ [] := by
  cases l with
  | nil => exact absurd rfl hb.ne
  | cons m l =>
    have hm := hb.lt m List.mem_cons_self
    have e1 : inp.gF[m]? = some inp.gF[m] := List.getElem?_eq_getElem hm
    have e2 : inp.src.q[m]? = some (inp.src.q[m]'(by rw [ok.len]; exact hm)) := List.getElem?_eq_getElem _
    obtain ⟨h1, h2, h3⟩ := ok.src _ (List.getElem_mem hm)
    intro hc
    simp only [vals, List.flatMap_cons, e1, e2, Option.elim_some, List.append_eq_nil_iff] at hc
    have := congrArg List.length hc.1
    rw [ravelC_length, List.length_nil] at this
    have : 0 < (inp.gF[m].ni - 1) * (inp.gF[m].nj - 1) * (inp.gF[m].nk - 1) := by
      apply Nat.mul_pos (Nat.mul_pos _ _) <;> omega
    omega

theorem fill_spec (f : Interpolant) {inp : Inputs} (ok : inp.Ok) (g : GRead) (nq : ℕ) {l : List ℕ}
    (hb : Bounding inp.gF (centres g) l) {bs : List FromBlk} (h2 : bs.flatMap FromBlk.xc = pts inp l)
    (h3 : ∀ n, qvFrom bs n = vals inp l n) (q0 : Q4) :
    ∃ q, fill f bs nq g (some q0) = some q ∧ ∀ n < nq, ∀ i j k, i < g.ni - 1 → j < g.nj - 1 → k < g.nk - 1 →
      Interpolated f inp l n (Mesh.cellCentre g.xyz i j k) (q i j k n) := by
  have key : ∀ n, ∃ vs, blocksToBlock f bs n (centres g) = some vs ∧
      List.Forall₂ (fun p v => Interpolated f inp l n p v) (centres g) vs := by
    intro n
    have mem : ∀ x : ℝ, x ∈ vals inp l n ↔ ∃ b ∈ bs, x ∈ b.q n := by
      intro x; rw [← h3, qvFrom, List.mem_flatMap]
    obtain ⟨x, hx⟩ := List.exists_mem_of_ne_nil _ (vals_ne ok hb n)
    obtain ⟨b, hb1, hb2⟩ := (mem x).1 hx
    obtain ⟨vs, e1, e2⟩ := C55_no_new_extrema f bs n (centres g) ⟨b, hb1, List.ne_nil_of_mem hb2⟩
    refine ⟨vs, e1, e2.imp fun p v hv => ?_⟩
    obtain ⟨⟨b1, m1, lo, m2, l1⟩, ⟨b2, m3, hi, m4, l2⟩, hv⟩ := hv
    refine ⟨⟨lo, (mem lo).2 ⟨b1, m1, m2⟩, l1⟩, ⟨hi, (mem hi).2 ⟨b2, m3, m4⟩, l2⟩, ?_⟩
    rintro ⟨x, hx, x1⟩ ⟨y, hy, y1⟩
    obtain ⟨b3, m5, m6⟩ := (mem x).1 hx
    obtain ⟨b4, m7, m8⟩ := (mem y).1 hy
    exact hv _ (by rw [h2, h3]) ⟨b3, m5, x, m6, x1⟩ ⟨b4, m7, y, m8, y1⟩
  obtain ⟨vs, e1, e2⟩ := mapM_some (fun n => blocksToBlock f bs n (centres g))
    (fun n v => List.Forall₂ (fun p x => Interpolated f inp l n p x) (centres g) v) (List.range nq) (fun n _ => key n)
  refine ⟨_, by unfold fill; rw [e1]; rfl, fun n hn i j k hi hj hk => ?_⟩
  obtain ⟨v, v1, v2⟩ := forall₂_get e2 (List.getElem?_range hn)
  obtain ⟨x, x1, x2⟩ := forall₂_get v2 (ravelC_get (Mesh.cellCentre g.xyz) hi hj hk)
  simp only [List.getD_eq_getElem?_getD, v1, Option.getD_some, x1]
  exact x2

theorem checkSpeciesSum_spec {ns : ℕ} (hns : 1 < ns) : ∀ cs : List Setup.Cells, (∀ c ∈ cs, c ≠ []) →
    ∃ bad cs', Setup.checkSpeciesSum ns true cs = .ok (bad, cs') ∧ List.Forall₂ (fun c c' => ∀ (t : ℕ) (y : List ℝ), c[t]? = some y →
      ∃ y' s, c'[t]? = some y' ∧ 1 ≤ s ∧ y' = y.map (· / s) ∧ y'.sum ≤ 1 ∧ (s = 1 ∨ y'.sum = 1)) cs cs' := by
  intro cs
  induction cs with
  | nil => intro _; exact ⟨_, _, rfl, .nil⟩
  | cons c cs ih =>
    intro h
    obtain ⟨bad, cs', h1, h2⟩ := ih fun c' hc' => h c' (List.mem_cons_of_mem _ hc')
    obtain ⟨r, c', e1, e2, e3⟩ := Setup.C54_normalize ns hns c (h c List.mem_cons_self)
    refine ⟨_, c' :: cs', by simp only [Setup.checkSpeciesSum, e1, h1]; rfl, .cons ?_ h2⟩
    intro t y hy
    obtain ⟨ht, rfl⟩ := List.getElem?_eq_some_iff.1 hy
    have ht' : t < c'.length := by omega
    obtain ⟨g1, g2, g3⟩ := e3 t ht ht'
    by_cases hs : 1 < c[t].sum
    · exact ⟨c'[t], c[t].sum, List.getElem?_eq_getElem ht', hs.le, (g2 hs).2, g3, Or.inr (g2 hs).1⟩
    · have := g1 (not_lt.1 hs)
      refine ⟨c'[t], 1, List.getElem?_eq_getElem ht', le_refl _, ?_, g3, Or.inl rfl⟩
      rw [this]; simp

theorem newQ_spec (a : Args) {inp : Inputs} (ok : inp.Ok) (ht : Touches inp) :
    ∃ qs, newQ true a inp = some qs ∧ List.Forall₂ (fun g q => ∃ l, Bounding inp.gF (centres g) l ∧
      ∀ i j k, i < g.ni - 1 → j < g.nj - 1 → k < g.nk - 1 →
        CellOk a.interp inp l a.species.length (Mesh.cellCentre g.xyz i j k) (q i j k)) inp.gT qs := by
  have hz : ∀ g ∈ inp.gT, Bounding inp.gF (centres g) (search a.verbose (centres g) (sblks inp.gF) ((centres g).map fun _ => false)) :=
    fun g hg => bounds_spec a.verbose ok.src _ (ht g hg)
  have hne : ¬ [] ∈ findBounds a.verbose (inp.gT.map centres) (sblks inp.gF) := by
    intro hc
    unfold findBounds at hc
    rw [List.map_map, List.mem_map] at hc
    obtain ⟨g, hg, h⟩ := hc
    exact (hz g hg).ne h
  have hzip : inp.gT.zip (findBounds a.verbose (inp.gT.map centres) (sblks inp.gF)) =
      inp.gT.map fun g => (g, search a.verbose (centres g) (sblks inp.gF) ((centres g).map fun _ => false)) := by
    unfold findBounds
    rw [List.map_map]
    generalize inp.gT = gT
    induction gT with
    | nil => rfl
    | cons g gs ih => simp only [List.map_cons, List.zip_cons_cons, ih]; rfl
  obtain ⟨q1, e1, e2⟩ := mapM_some (fun g => do
      let s ← sources inp (search a.verbose (centres g) (sblks inp.gF) ((centres g).map fun _ => false))
      fill a.interp s (5 + (a.species.length - 1)) g (some fun _ _ _ _ => 0))
    (fun g q => ∃ l, Bounding inp.gF (centres g) l ∧ ∀ n < 5 + (a.species.length - 1), ∀ i j k, i < g.ni - 1 → j < g.nj - 1 → k < g.nk - 1 →
      Interpolated a.interp inp l n (Mesh.cellCentre g.xyz i j k) (q i j k n)) inp.gT (by
    intro g hg
    have hb := hz g hg
    obtain ⟨bs, b1, b2, b3⟩ := sources_spec ok.len _ hb.lt
    obtain ⟨q, q1, q2⟩ := fill_spec a.interp ok g (5 + (a.species.length - 1)) hb b2 b3 fun _ _ _ _ => 0
    exact ⟨q, by rw [b1]; exact q1, _, hb, q2⟩)
  have step1 : newQ true a inp = normalised a.species.length (inp.gT.zip q1) := by
    unfold newQ
    dsimp only
    rw [if_neg hne, hzip, List.mapM_map]
    change (List.mapM (fun g => do
      let s ← sources inp (search a.verbose (centres g) (sblks inp.gF) ((centres g).map fun _ => false))
      fill a.interp s (5 + (a.species.length - 1)) g (some fun _ _ _ _ => 0)) inp.gT).bind _ = _
    rw [e1]
    rfl
  rw [step1]
  unfold normalised
  have hgT : ∀ g ∈ inp.gT, centres g ≠ [] := by
    intro g hg hc
    obtain ⟨p, hp, _⟩ := ht g hg
    rw [hc] at hp
    exact absurd hp List.not_mem_nil
  by_cases hns : 1 < a.species.length
  · rw [if_pos hns]
    obtain ⟨bad, cs', c1, c2⟩ := checkSpeciesSum_spec hns ((inp.gT.zip q1).map fun e => cellsOf a.species.length e.1 e.2) (by
      intro c hc
      obtain ⟨e, he, rfl⟩ := List.mem_map.1 hc
      have := hgT e.1 (List.of_mem_zip he).1
      intro hc
      have h1 := congrArg List.length hc
      simp only [cellsOf, ravelC_length, List.length_nil] at h1
      apply this
      apply List.length_eq_zero_iff.1
      unfold centres
      rw [ravelC_length, h1])
    rw [c1]
    refine ⟨_, rfl, ?_⟩
    clear c1 step1 e1 hzip hne hz ht
    generalize inp.gT = gT at e2 c2 hgT ⊢
    induction e2 generalizing cs' with
    | nil => cases c2; exact .nil
    | @cons g q gs qs h1 h2 ih =>
      cases c2 with
      | @cons _ c' _ cs'' c2 c3 =>
        simp only [List.zip_cons_cons, List.zipWith_cons_cons]
        refine .cons ?_ (ih _ c3 (fun g' h => hgT g' (List.mem_cons_of_mem _ h)))
        obtain ⟨l, hb, h1⟩ := h1
        refine ⟨l, hb, fun i j k hi hj hk => ?_⟩
        obtain ⟨y', s, y1, y2, y3, y4, y5⟩ := c2 _ _ (ravelC_get _ hi hj hk)
        dsimp only at y1 y3
        have hY : ∀ n, n < a.species.length - 1 → withCells g q c' i j k (5 + n) = q i j k (5 + n) / s := by
          intro n hn
          unfold withCells
          have e : c'.getD ((i * (g.nj - 1) + j) * (g.nk - 1) + k) [] = y' := by rw [List.getD_eq_getElem?_getD, y1, Option.getD_some]
          rw [if_pos (by omega), e, y3, List.getD_eq_getElem?_getD]
          simp [List.getElem?_range hn]
        have hsum : ((List.range (a.species.length - 1)).map fun n => withCells g q c' i j k (5 + n)).sum = y'.sum := by
          rw [y3, List.map_map]
          congr 1
          exact List.map_congr_left fun n hn => hY n (List.mem_range.1 hn)
        refine ⟨fun n => q i j k n, s, y2, fun n hn => h1 n hn i j k hi hj hk, ?_, ?_, by rw [hsum]; exact y4, by rw [hsum]; exact y5⟩
        · intro n hn
          unfold withCells
          rw [if_neg (by omega)]
        · intro n h5 hn
          obtain ⟨m, rfl⟩ := Nat.exists_eq_add_of_le h5
          exact hY m (by omega)
  · rw [if_neg hns]
    refine ⟨_, rfl, ?_⟩
    have h0 : a.species.length - 1 = 0 := by omega
    have hsnd : (inp.gT.zip q1).map Prod.snd = q1 := List.map_snd_zip (by rw [e2.length_eq])
    rw [hsnd]
    refine e2.imp fun g q h => ?_
    obtain ⟨l, hb, h1⟩ := h
    refine ⟨l, hb, fun i j k hi hj hk => ⟨fun n => q i j k n, 1, le_refl _, fun n hn => h1 n hn i j k hi hj hk, fun _ _ => rfl,
      fun n h5 hn => by omega, by simp [h0], Or.inl rfl⟩⟩

/-- what writeRestart leaves alone -/
theorem writeRestart_other (o : Opts) (mb : Mb) (fs fs' : Fs) (h : writeRestart o mb fs = some fs') (s : Str)
    (hs : ∀ n, s ≠ readName o.path o.lump o.animate mb.nrt n) : fs' s = fs s := by
  unfold writeRestart at h
  cases hl : o.lump with
  | true =>
    rw [hl, if_pos rfl] at h
    simp only [Option.map_eq_some_iff] at h
    obtain ⟨x, _, rfl⟩ := h
    rw [Function.update_of_ne]
    intro hc
    apply hs 0
    rw [hc, readName_eq, hl]
  | false =>
    rw [hl, if_neg (by simp)] at h
    generalize mb.blks = bs at h
    induction bs generalizing fs with
    | nil => simp at h; rw [h]
    | cons b bs ih =>
      rw [List.foldlM_cons] at h
      simp only [Option.bind_eq_bind, Option.bind_eq_some_iff, Option.map_eq_some_iff] at h
      obtain ⟨fs1, ⟨x, _, rfl⟩, h⟩ := h
      rw [ih _ h, Function.update_of_ne]
      intro hc
      apply hs b.num
      rw [hc, readName_eq, hl]

/-- C112 with the arrays allocated (the missing call of `initRestartArrays` added): whatever grids and solution are found, if every target
    block has a cell centre inside some source block, the utility writes a restart of the target grid next to it, and reading that restart
    back in the same form gives the iteration and the time of the source and, in every cell of every block, values interpolated at the
    cell's own centre from bounding blocks of the source, with mass fractions whose sum does not exceed one; no other file changes.
    What is missing: the utility does not make that call (`C112_utility_violated`). -/
theorem C112_values_partial (a : Args) (w : World) (inp : Inputs) (hr : readAll a w = some inp) (ok : inp.Ok) (hn : NamesOk a.species)
    (ht : Touches inp) :
    ∃ fs' r, transfer true a w = some fs' ∧
      readRestart a.toDir inp.lumpT inp.animate inp.src.nrt (targets a.species inp.gT) fs' = some r ∧
      r.nrt = inp.src.nrt ∧ r.tme = inp.src.tme ∧
      (∀ (m : ℕ) (g : GRead), inp.gT[m]? = some g → ∃ (q : Q4) (l : List ℕ), r.q[m]? = some q ∧ Bounding inp.gF (centres g) l ∧
        ∀ i j k, i < g.ni - 1 → j < g.nj - 1 → k < g.nk - 1 →
          CellOk a.interp inp l a.species.length (Mesh.cellCentre g.xyz i j k) (q i j k)) ∧
      ∀ s, (∀ n, s ≠ readName a.toDir inp.lumpT inp.animate inp.src.nrt n) → fs' s = w.fs s := by
  obtain ⟨qs, h1, h2⟩ := newQ_spec a ok ht
  have hlen := h2.length_eq
  have hget : ∀ (m : ℕ) (g : GRead), inp.gT[m]? = some g → ∃ q, qs[m]? = some q ∧ (mbTo a inp qs).blks[m]? =
      some ⟨m, g.ni, g.nj, g.nk, false, 0, a.species, q, fun _ _ _ => 0⟩ := by
    intro m g hg
    obtain ⟨q, q1, _⟩ := forall₂_get h2 hg
    refine ⟨q, q1, ?_⟩
    unfold mbTo
    have hz : (inp.gT.zip qs)[m]? = some (g, q) := List.getElem?_zip_eq_some.2 ⟨hg, q1⟩
    simp only [List.getElem?_map, List.getElem?_zipIdx, hz]
    simp
  have hnums : (mbTo a inp qs).blks.map Blk.num = List.range inp.gT.length := by
    unfold mbTo
    simp only [List.map_map]
    have : (Blk.num ∘ fun e : (GRead × Q4) × ℕ =>
      (⟨e.2, e.1.1.ni, e.1.1.nj, e.1.1.nk, false, 0, a.species, e.1.2, fun _ _ _ => 0⟩ : Blk)) = Prod.snd := rfl
    rw [this, List.zipIdx_map_snd, List.length_zip, ← hlen, Nat.min_self, List.range_eq_range']
  have hspec : ∀ b ∈ (mbTo a inp qs).blks, b.species = a.species := by
    intro b hb
    unfold mbTo at hb
    obtain ⟨e, _, rfl⟩ := List.mem_map.1 hb
    rfl
  obtain ⟨fs', r, r1, r2, r3, r4, r5⟩ := roundtrip_aux ⟨a.toDir, inp.animate, inp.lumpT, false, id⟩ (mbTo a inp qs) w.fs
    (by
      intro hc
      have := congrArg List.length hnums
      rw [hc] at this
      simp at this
      exact ok.tgt (List.length_eq_zero_iff.1 this.symm))
    (by rw [hnums]; exact List.nodup_range)
    (fun b hb => by rw [hspec b hb]; exact hn)
    (targets a.species inp.gT)
    (by
      intro hc
      have := congrArg List.length hc
      simp [targets] at this
      exact ok.tgt this)
    (by
      intro t htt
      unfold targets at htt
      obtain ⟨e, he, rfl⟩ := List.mem_map.1 htt
      have hg : inp.gT[e.2]? = some e.1 := List.mem_zipIdx_iff_getElem?.1 he
      obtain ⟨q, _, hq⟩ := hget e.2 e.1 hg
      exact ⟨_, List.mem_of_getElem? hq, ⟨rfl, rfl, by simp [kept], by simp [kept], by simp [kept]⟩⟩)
  refine ⟨fs', r, ?_, r2, r3, r4, ?_, ?_⟩
  · unfold transfer
    rw [hr]
    simp only [Option.bind_eq_bind, Option.bind_some, h1]
    exact r1
  · intro m g hg
    have htm : (targets a.species inp.gT)[m]? = some ⟨m, g.ni, g.nj, g.nk, false, 0, a.species⟩ := by
      unfold targets
      simp only [List.getElem?_map, List.getElem?_zipIdx, hg]
      simp
    obtain ⟨q', x1, x2⟩ := forall₂_get r5 htm
    obtain ⟨q, y1, y2⟩ := hget m g hg
    obtain ⟨q'', z1, l, z2, z3⟩ := forall₂_get h2 hg
    rw [y1] at z1
    cases z1
    refine ⟨q', l, x1, z2, fun i j k hi hj hk => ?_⟩
    have hq : ∀ n < 5 + (a.species.length - 1), q' i j k n = q i j k n := fun n hn' => by
      have := x2 _ (List.mem_of_getElem? y2) rfl n hn' i j k hi hj hk
      simpa [roff, woff] using this
    obtain ⟨v, s, v1, v2, v3, v4, v5, v6⟩ := z3 i j k hi hj hk
    have hsum : ((List.range (a.species.length - 1)).map fun n => q' i j k (5 + n)) =
        (List.range (a.species.length - 1)).map fun n => q i j k (5 + n) :=
      List.map_congr_left fun n hn' => hq (5 + n) (by have := List.mem_range.1 hn'; omega)
    refine ⟨v, s, v1, v2, fun n h5 => by rw [hq n (by omega)]; exact v3 n h5, fun n h5 hn' => by rw [hq n hn']; exact v4 n h5 hn', ?_, ?_⟩
    · rw [hsum]; exact v5
    · rw [hsum]; exact v6
  · intro s hs
    exact writeRestart_other _ _ _ _ r1 s hs

/-- C112 (exactness): an interpolant that reproduces its data (such as the nearest value) gives at a target centre that is the centre of a
    cell of the bounding blocks exactly the source's value in that cell. -/
theorem C112_exact (f : Interpolant) (hf : ∀ (ps : List V3) (vs : List ℝ) (t : ℕ) (p : V3) (y : ℝ), ps.Nodup → ps[t]? = some p →
      vs[t]? = some y → f ps vs p = y) (inp : Inputs) (l : List ℕ) (hd : (pts inp l).Nodup) (n t : ℕ) (p : V3) (y v : ℝ)
    (hp : (pts inp l)[t]? = some p) (hy : (vals inp l n)[t]? = some y) (h : Interpolated f inp l n p v) : v = y := by
  have e := hf _ _ t p y hd hp hy
  obtain ⟨_, _, h⟩ := h
  rw [e] at h
  exact h ⟨y, List.mem_of_getElem? hy, le_refl y⟩ ⟨y, List.mem_of_getElem? hy, le_refl y⟩

/-- C112 (refusal): if some target block has no cell centre inside any source block, the utility stops with an error before it writes
    anything. -/
theorem C112_outside (init : Bool) (a : Args) (w : World) (inp : Inputs) (hr : readAll a w = some inp)
    (ok : ∀ g ∈ inp.gF, 2 ≤ g.ni ∧ 2 ≤ g.nj ∧ 2 ≤ g.nk) (g : GRead) (hg : g ∈ inp.gT)
    (ho : ∀ p ∈ centres g, ∀ b ∈ sblks inp.gF, ¬ InHull (cube b) p) : transfer init a w = none := by
  have : newQ init a inp = none := by
    unfold newQ
    dsimp only
    rw [if_pos]
    obtain ⟨t, ht⟩ := List.getElem?_of_mem (List.mem_map_of_mem (f := centres) hg)
    obtain ⟨x, x1, x2⟩ := forall₂_get (C56_empty a.verbose (inp.gT.map centres) (sblks inp.gF) (sblks_ok ok)) ht
    rw [x2.2 ho] at x1
    exact List.mem_of_getElem? x1
  unfold transfer
  rw [hr]
  simp only [Option.bind_eq_bind, Option.bind_some, this, Option.bind_none]

/-! ### finding the files -/

/-- no plain restart: neither `q.h5` nor `q.000000.h5` -/
def NoPlain (dir : Str) (fs : Fs) : Prop := ∀ l, fs (readName dir l false 0 0) = none

theorem readName_plain (dir : Str) {l : Bool} {n : ℕ} (h : l = true ∨ n = 0) : readName dir l false 0 n = readName dir l false 0 0 := by
  rcases h with rfl | rfl <;> rfl

theorem targets_cons (sp : List Str) (g : GRead) (gs : List GRead) :
    ∃ ts, targets sp (g :: gs) = ⟨0, g.ni, g.nj, g.nk, false, 0, sp⟩ :: ts := ⟨_, rfl⟩

/-- without a plain restart the number of the animated one is looked up -/
theorem readAny_animated (dir : Str) (lump : Bool) (sp : List Str) (g : GRead) (gs : List GRead) (w : World) (h : NoPlain dir w.fs) :
    readAny dir lump (targets sp (g :: gs)) w = (do
      let name ← ((w.list dir).filter fun s => "xmf".toList.isSuffixOf s).head?
      let part ← (splitDot (strip name))[1]?
      let nrt ← pyInt part
      if nrt < 0 then none
      else (readRestart dir lump true nrt.toNat (targets sp (g :: gs)) w.fs).map fun r => (true, r)) := by
  obtain ⟨ts, e⟩ := targets_cons sp g gs
  have h1 : readRestart dir lump false 0 (targets sp (g :: gs)) w.fs = none := by
    unfold readRestart
    rw [e, List.mapM_cons]
    dsimp only
    rw [h lump]
    rfl
  have h2 : notFound dir lump (targets sp (g :: gs)) w.fs = true := by
    unfold notFound
    rw [e, List.find?_cons_of_pos]
    · dsimp only
      rw [h lump]
      rfl
    · dsimp only
      rw [h lump]
      simp
  unfold readAny
  rw [h1]
  dsimp only
  rw [if_pos h2]

theorem readAny_nil (dir : Str) (lump : Bool) (sp : List Str) (w : World) : readAny dir lump (targets sp []) w = none := rfl

/-- C112 is violated for an animated restart: whether it is found depends on the order in which the operating system lists the directory. If
    the grid's own `g.xmf` comes before the restart's xmf file, the utility ends in an error, however complete the files are. -/
theorem C112_listing_violated (init : Bool) (a : Args) (w : World) (hp : NoPlain a.fromDir w.fs) (rest : List Str)
    (hl : ((w.list a.fromDir).filter fun s => "xmf".toList.isSuffixOf s) = "g.xmf".toList :: rest) : transfer init a w = none := by
  have hs : ∀ lump gs, readAny a.fromDir lump (targets a.species gs) w = none := by
    intro lump gs
    cases gs with
    | nil => rfl
    | cons g gs =>
      rw [readAny_animated _ _ _ _ _ _ hp, hl]
      have e : (splitDot (strip "g.xmf".toList))[1]? = some "xmf".toList := by decide
      have e2 : pyInt "xmf".toList = none := by decide
      simp only [List.head?_cons, Option.bind_eq_bind, Option.bind_some, e, e2, Option.bind_none]
  have : readAll a w = none := by
    unfold readAll
    split_ifs
    · rfl
    · cases w.xmf (a.fromDir ++ "/g.xmf".toList) with
      | none => rfl
      | some n =>
        cases hg : readGridAny a.fromDir n w.gfs with
        | none => simp [hg]
        | some g => simp [hg, hs]
  unfold transfer
  rw [this]
  rfl

/-- C112 is violated for mixed forms: a lumped grid with a solution in one file per block is refused (the lumped form of the solution is
    looked for, and nothing else), however complete the files are. -/
theorem C112_mixed_lump_violated (init : Bool) (a : Args) (w : World) (hg : (w.gfs (gName a.fromDir true 0)).isSome)
    (hq : w.fs (readName a.fromDir true false 0 0) = none) (hq' : ∀ nrt, w.fs (readName a.fromDir true true nrt 0) = none) :
    transfer init a w = none := by
  have hs : ∀ gs, readAny a.fromDir true (targets a.species gs) w = none := by
    intro gs
    cases gs with
    | nil => rfl
    | cons g gs =>
      obtain ⟨ts, e⟩ := targets_cons a.species g gs
      have h1 : ∀ an nrt, readRestart a.fromDir true an nrt (targets a.species (g :: gs)) w.fs = none := by
        intro an nrt
        unfold readRestart
        rw [e, List.mapM_cons]
        dsimp only
        have : w.fs (readName a.fromDir true an nrt 0) = none := by
          cases an with
          | false => exact hq
          | true => exact hq' nrt
        rw [this]
        rfl
      unfold readAny
      rw [h1]
      dsimp only
      split_ifs
      · cases ((w.list a.fromDir).filter fun s => "xmf".toList.isSuffixOf s).head? with
        | none => rfl
        | some x =>
          simp only [Option.bind_eq_bind, Option.bind_some]
          cases (splitDot (strip x))[1]? with
          | none => rfl
          | some y =>
            simp only [Option.bind_some]
            cases pyInt y with
            | none => rfl
            | some z => simp [h1]
      · rfl
  have : readAll a w = none := by
    unfold readAll
    split_ifs
    · rfl
    · cases w.xmf (a.fromDir ++ "/g.xmf".toList) with
      | none => rfl
      | some n =>
        cases hh : readGridAny a.fromDir n w.gfs with
        | none => simp [hh]
        | some g =>
          have : g.1 = true := by
            unfold readGridAny at hh
            simp only [Option.map_eq_some_iff] at hh
            obtain ⟨_, _, rfl⟩ := hh
            exact hg
          simp [hh, this, hs]
  unfold transfer
  rw [this]
  rfl

/-- the hypotheses of `C112_listing_violated`: an animated restart `q.00000007.xmf` listed after the grid -/
example : NoPlain "f".toList (fun _ => none) ∧
    (["g.xmf".toList, "q.00000007.xmf".toList, "g.h5".toList].filter fun s => "xmf".toList.isSuffixOf s) =
      "g.xmf".toList :: ["q.00000007.xmf".toList] := ⟨fun _ => rfl, by decide⟩

end PG.Interp
