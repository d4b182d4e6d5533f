import Verif.Halo.Rounds
import Verif.BC.Periodic
/-
C87: halo node coordinates behind periodic faces (/repo/src/peregrinepy/grid/unifySolverGrid.py).
`x`, `y`, `z` are exchanged separately (three arrays of reals); `gen` are the coordinates after `generateHalo` (C15).
-/
noncomputable section
namespace PG.Halo
open PG.Topo V3

/-- the `bcType`s unifySolverGrid.py:22-40 distinguishes -/
inductive PerType
  | none | transLow | transHigh | rotLow | rotHigh
deriving DecidableEq

/-- periodic data of a face: stored (normalised) axis, span and the two matrices (topologyFace.py:101-108,
    gridFace.py:25-72) -/
structure PerFace where
  type : PerType
  axis : V3
  span : ℝ
  rotUp : Fin 3 → V3
  rotDown : Fin 3 → V3

/-- what happens to the coordinates of one node (unifySolverGrid.py:28-45) -/
def PerFace.shift (p : PerFace) (v : V3) : V3 :=
  match p.type with
  | .none => v
  | .transLow => ⟨v.x - p.axis.x * p.span, v.y - p.axis.y * p.span, v.z - p.axis.z * p.span⟩
  | .transHigh => ⟨v.x + p.axis.x * p.span, v.y + p.axis.y * p.span, v.z + p.axis.z * p.span⟩
  | .rotLow => ⟨(p.rotDown 0).x * v.x + (p.rotDown 0).y * v.y + (p.rotDown 0).z * v.z,
      (p.rotDown 1).x * v.x + (p.rotDown 1).y * v.y + (p.rotDown 1).z * v.z,
      (p.rotDown 2).x * v.x + (p.rotDown 2).y * v.y + (p.rotDown 2).z * v.z⟩
  | .rotHigh => ⟨(p.rotUp 0).x * v.x + (p.rotUp 0).y * v.y + (p.rotUp 0).z * v.z,
      (p.rotUp 1).x * v.x + (p.rotUp 1).y * v.y + (p.rotUp 1).z * v.z,
      (p.rotUp 2).x * v.x + (p.rotUp 2).y * v.y + (p.rotUp 2).z * v.z⟩

/-- `s0_` of a face (solverFace.py:23-50) as indices from the front; `n` is the extent of the node array, `ni + 2 ng` -/
def s0Slices (nface : Nat) (ng n : Int) : List Int :=
  if nface = 1 ∨ nface = 3 ∨ nface = 5 then (pyRange 0 ng).reverse      -- range(ng - 1, -1, -1)
  else (pyRange (-ng) 0).map (fun i => n + i)

/-- index of a position along the axis the slices of the face are taken of (solverFace.py:27-50) -/
def sliceIndex (nface : Nat) (i j k : Int) : Int :=
  if nface = 1 ∨ nface = 2 then i else if nface = 3 ∨ nface = 4 then j else k

/-- unifySolverGrid.py:23-45: the loop over the halo layers of one periodic face, `x[:] -= ...` etc. on whole slices -/
def shiftFace (p : PerFace) (nface : Nat) (ng : Int) (d : Dims) (v : Arr3 V3) : Arr3 V3 :=
  if p.type = .none then v
  else (s0Slices nface ng (d.normal nface + 2 * ng)).foldl
    (fun v s => fun i j k => if sliceIndex nface i j k = s then p.shift (v i j k) else v i j k) v

/-- `unifySolverGrid` after `generateHalo` (unifySolverGrid.py:9-50): three exchanges of x, y and z, then the periodic
    faces of every block in the order of its face list. `per n nf` is the periodic data of face `nf` of block `n`. -/
def unify (ng : Int) (world : List (List Block)) (per : Nat → Nat → PerFace) (gen : Nat → Arr3 V3) (b : Block) : Arr3 V3 :=
  let x := rounds .node ng world 3 (fun n i j k => (gen n i j k).x) b.nblki
  let y := rounds .node ng world 3 (fun n i j k => (gen n i j k).y) b.nblki
  let z := rounds .node ng world 3 (fun n i j k => (gen n i j k).z) b.nblki
  b.faces.foldl (fun v f => shiftFace (per b.nblki f.nface) f.nface ng b.dims v) (fun i j k => ⟨x i j k, y i j k, z i j k⟩)

/-! ### lemmas -/

theorem shift_rotLow (p : PerFace) (h : p.type = .rotLow) (v : V3) : p.shift v = PG.BC.rot p.rotDown v := by
  unfold PerFace.shift; rw [h]; rfl
theorem shift_rotHigh (p : PerFace) (h : p.type = .rotHigh) (v : V3) : p.shift v = PG.BC.rot p.rotUp v := by
  unfold PerFace.shift; rw [h]; rfl
theorem shift_none (p : PerFace) (h : p.type = .none) (v : V3) : p.shift v = v := by
  unfold PerFace.shift; rw [h]
theorem shift_transLow (p : PerFace) (h : p.type = .transLow) (v : V3) : p.shift v = v - smul p.span p.axis := by
  unfold PerFace.shift; rw [h]; ext <;> simp <;> ring
theorem shift_transHigh (p : PerFace) (h : p.type = .transHigh) (v : V3) : p.shift v = v + smul p.span p.axis := by
  unfold PerFace.shift; rw [h]; ext <;> simp <;> ring

theorem foldl_slices (p : PerFace) (nface : Nat) (l : List Int) (hl : l.Nodup) (v : Arr3 V3) (i j k : Int) :
    l.foldl (fun v s => fun i j k => if sliceIndex nface i j k = s then p.shift (v i j k) else v i j k) v i j k
      = if sliceIndex nface i j k ∈ l then p.shift (v i j k) else v i j k := by
  induction l generalizing v with
  | nil => simp
  | cons s l ih =>
    rw [List.nodup_cons] at hl
    rw [List.foldl_cons, ih hl.2]
    by_cases h : sliceIndex nface i j k = s
    · have : sliceIndex nface i j k ∉ l := by rw [h]; exact hl.1
      simp [h, this, hl.1]
    · simp [h]

theorem mem_pyRange (a b x : Int) : x ∈ pyRange a b ↔ a ≤ x ∧ x < b := by
  unfold pyRange
  simp only [List.mem_map, List.mem_range]
  constructor
  · rintro ⟨t, h, rfl⟩; omega
  · rintro ⟨h1, h2⟩; exact ⟨(x - a).toNat, by omega, by omega⟩

theorem nodup_pyRange (a b : Int) : (pyRange a b).Nodup := by
  unfold pyRange
  refine List.Nodup.map (fun x y h => ?_) List.nodup_range
  have h : a + (x : Int) = a + (y : Int) := h
  omega

theorem shiftFace_at (p : PerFace) (nf : Nat) (hn : 1 ≤ nf ∧ nf ≤ 6) (ng : Nat) (d : Dims)
    (v : Arr3 V3) (c : Nat → Int) (hc : InArr .node ng d c) :
    (Behind .node nf ng d c → at' ng (shiftFace p nf ng d v) c = p.shift (at' ng v c)) ∧
    (¬ Behind .node nf ng d c → at' ng (shiftFace p nf ng d v) c = at' ng v c) := by
  classical
  have hnd : (s0Slices nf ng (d.normal nf + 2 * ng)).Nodup := by
    unfold s0Slices
    split
    · exact List.nodup_reverse.2 (nodup_pyRange _ _)
    · refine List.Nodup.map (fun x y h => ?_) (nodup_pyRange _ _)
      have h : d.normal nf + 2 * (ng : Int) + x = d.normal nf + 2 * (ng : Int) + y := h
      omega
  have hm : sliceIndex nf (c 0 + ng) (c 1 + ng) (c 2 + ng) ∈ s0Slices nf ng (d.normal nf + 2 * ng) ↔
      Behind .node nf ng d c := by
    have h0 := hc 0 (by omega)
    have h1 := hc 1 (by omega)
    have h2 := hc 2 (by omega)
    have : nf = 1 ∨ nf = 2 ∨ nf = 3 ∨ nf = 4 ∨ nf = 5 ∨ nf = 6 := by omega
    rcases this with rfl|rfl|rfl|rfl|rfl|rfl <;>
      simp [s0Slices, sliceIndex, Behind, depthBehind, isLow, normalAxis, mem_pyRange, Dims.normal, layers] <;>
      simp [last] at * <;>
      (constructor
       · first | (rintro ⟨a, h, e⟩; omega) | (intro h; omega)
       · first | (intro h; omega) | (intro h; exact ⟨_, by omega, by omega⟩)
               | (intro h; refine ⟨c 0 - d.ni - ng, ?_, ?_⟩ <;> omega)
               | (intro h; refine ⟨c 1 - d.nj - ng, ?_, ?_⟩ <;> omega)
               | (intro h; refine ⟨c 2 - d.nk - ng, ?_, ?_⟩ <;> omega))
  have key : at' ng (shiftFace p nf ng d v) c = if Behind .node nf ng d c then p.shift (at' ng v c) else at' ng v c := by
    unfold at' shiftFace
    by_cases hp : p.type = .none
    · rw [if_pos hp]; split
      · rw [shift_none p hp]
      · rfl
    · rw [if_neg hp, foldl_slices p nf _ hnd]
      by_cases hB : Behind .node nf ng d c
      · rw [if_pos (hm.2 hB), if_pos hB]
      · rw [if_neg (fun h => hB (hm.1 h)), if_neg hB]
  exact ⟨fun h => by rw [key, if_pos h], fun h => by rw [key, if_neg h]⟩

open Classical in
/-- the coordinates a node gets from its coordinates `v` after the exchanges: one transformation for each face behind which
    it lies, in the order of the face list -/
def shifts (ng : Nat) (per : Nat → PerFace) (d : Dims) (c : Nat → Int) (l : List Face) (v : V3) : V3 :=
  l.foldl (fun v f => if Behind .node f.nface ng d c then (per f.nface).shift v else v) v

/-- coordinates of a node of block `n` after the three exchanges -/
def exchanged (ng : Int) (world : List (List Block)) (gen : Nat → Arr3 V3) (n : Nat) (c : Nat → Int) : V3 :=
  ⟨at' ng (rounds .node ng world 3 (fun n i j k => (gen n i j k).x) n) c,
   at' ng (rounds .node ng world 3 (fun n i j k => (gen n i j k).y) n) c,
   at' ng (rounds .node ng world 3 (fun n i j k => (gen n i j k).z) n) c⟩

theorem foldl_shiftFace (ng : Nat) (per : Nat → PerFace) (d : Dims) (c : Nat → Int) (hc : InArr .node ng d c)
    (l : List Face) (hr : ∀ f ∈ l, 1 ≤ f.nface ∧ f.nface ≤ 6) (v : Arr3 V3) :
    at' ng (l.foldl (fun v f => shiftFace (per f.nface) f.nface ng d v) v) c = shifts ng per d c l (at' ng v c) := by
  induction l generalizing v with
  | nil => rfl
  | cons f l ih =>
    rw [List.foldl_cons, ih (fun g hg => hr g (List.mem_cons_of_mem _ hg))]
    unfold shifts
    rw [List.foldl_cons]
    congr 1
    obtain ⟨h1, h2⟩ := shiftFace_at (per f.nface) f.nface (hr f (by simp)) ng d v c hc
    split
    · next h => rw [h1 h]
    · next h => rw [h2 h]

theorem unify_at (ng : Nat) (world : List (List Block)) (hw : WellConnected world)
    (per : Nat → Nat → PerFace) (gen : Nat → Arr3 V3) (r : Nat) (b : Block) (hb : Owns world r b) (c : Nat → Int)
    (hc : InArr .node ng b.dims c) :
    at' ng (unify ng world per gen b) c = shifts ng (per b.nblki) b.dims c b.faces (exchanged ng world gen b.nblki c) := by
  unfold unify
  simp only
  rw [foldl_shiftFace ng (per b.nblki) b.dims c hc b.faces (hw.nface_range r b hb)]
  rfl

theorem shifts_none (ng : Nat) (per : Nat → PerFace) (d : Dims) (c : Nat → Int) (l : List Face)
    (h : ∀ f ∈ l, Behind .node f.nface ng d c → (per f.nface).type = .none) (v : V3) : shifts ng per d c l v = v := by
  induction l generalizing v with
  | nil => rfl
  | cons f l ih =>
    unfold shifts
    rw [List.foldl_cons]
    have := ih (fun g hg => h g (List.mem_cons_of_mem _ hg))
    unfold shifts at this
    rw [this]
    split
    · next hB => rw [shift_none _ (h f (by simp) hB)]
    · rfl

theorem shifts_append (ng : Nat) (per : Nat → PerFace) (d : Dims) (c : Nat → Int) (l1 l2 : List Face) (v : V3) :
    shifts ng per d c (l1 ++ l2) v = shifts ng per d c l2 (shifts ng per d c l1 v) := by
  unfold shifts; rw [List.foldl_append]

theorem exchanged_eq (ng : Nat) (hng : 0 < ng) (world : List (List Block)) (hw : WellConnected world)
    (ht : Thick ng world) (gen : Nat → Arr3 V3) (ext : Nat → (Nat → Int) → V3)
    (he : FieldOnGluedGrid .node ng world ext)
    (h0 : ∀ r b, Owns world r b → ∀ c, InArr .node ng b.dims c → Unexchanged .node ng b c →
      at' ng (gen b.nblki) c = ext b.nblki c) (r : Nat) (b : Block) (hb : Owns world r b) (c : Nat → Int)
    (hc : InArr .node ng b.dims c) : exchanged ng world gen b.nblki c = ext b.nblki c := by
  have key : ∀ g : V3 → ℝ, at' ng (rounds .node ng world 3 (fun n i j k => g (gen n i j k)) b.nblki) c = g (ext b.nblki c) := by
    intro g
    refine (C86_field .node ng hng world hw ht (fun n i j k => g (gen n i j k)) (fun n c => g (ext n c)) ?_ ?_).2 3 (by omega)
      r b hb c hc
    · intro r b hb f hf nb hnb r' b' hb' hb'n c c' hc hB hg
      exact congrArg g (he r b hb f hf nb hnb r' b' hb' hb'n c c' hc hB hg)
    · intro r b hb c hc hu
      exact congrArg g (h0 r b hb c hc hu)
  unfold exchanged
  ext
  · exact key V3.x
  · exact key V3.y
  · exact key V3.z

/-! ### C87 -/

/-- C87 (faces): a node behind a connected face (in-plane interior, any halo layer) gets the coordinates of the
    corresponding interior node of the neighbour, carried over by the face's periodic transformation: backward translation
    by the span along the stored axis on a low face, forward on a high face, the Down/Up matrices for rotational ones,
    nothing on interior connections. Nodes of the block itself are not changed. -/
theorem C87_face_partial (ng : Nat) (hng : 0 < ng) (world : List (List Block)) (hw : WellConnected world) (ht : Thick ng world)
    (per : Nat → Nat → PerFace) (gen : Nat → Arr3 V3) (r : Nat) (b : Block) (hb : Owns world r b) :
    (∀ c, Interior .node b.dims c → at' ng (unify ng world per gen b) c = at' ng (gen b.nblki) c) ∧
    (∀ f ∈ b.faces, ∀ nb, f.neighbor = some nb → ∀ r' b', Owns world r' b' → b'.nblki = nb → ∀ c c',
      Behind .node f.nface ng b.dims c → inPlaneInterior .node f.nface b.dims c →
      Glued .node f.nface f.ori b.dims b'.dims c c' →
      Interior .node b'.dims c' ∧
      at' ng (unify ng world per gen b) c =
        (let v := at' ng (gen nb) c'
         let p := per b.nblki f.nface
         match p.type with
         | .none => v
         | .transLow => v - smul p.span p.axis
         | .transHigh => v + smul p.span p.axis
         | .rotLow => PG.BC.rot p.rotDown v
         | .rotHigh => PG.BC.rot p.rotUp v)) := by
  constructor
  · intro c hc
    have hca : InArr .node ng b.dims c := fun i hi => by have := hc i hi; omega
    rw [unify_at ng world hw per gen r b hb c hca]
    rw [shifts_none]
    · unfold exchanged
      have hu := interior_unexchanged (ng := ng) hw hb hc
      rw [rounds_unexchanged .node ng hng world hw _ r b hb c hu, rounds_unexchanged .node ng hng world hw _ r b hb c hu,
        rounds_unexchanged .node ng hng world hw _ r b hb c hu]
      rfl
    · intro f hf hB
      exfalso
      have := hc (normalAxis f.nface) (axes_distinct f.nface (hw.nface_range r b hb f hf)).1
      unfold Behind depthBehind at hB
      cases h2 : isLow f.nface <;> simp [h2] at hB <;> omega
  · intro f hf nb hnb r' b' hb' hb'n c c' hB hpl hg
    have hfr := hw.nface_range r b hb f hf
    have hlay : layers .node ng = ng := rfl
    have hca : InArr .node ng b.dims c := by
      intro i hi
      by_cases e : i = normalAxis f.nface
      · have hB' := hB
        unfold Behind depthBehind at hB'
        have hl := last_nonneg .node b.dims (hw.cells r b hb) (normalAxis f.nface)
        rw [e]
        cases h2 : isLow f.nface <;> simp only [h2, if_true, if_false, Bool.false_eq_true] at hB' <;> omega
      · have := hpl i hi e; omega
    obtain ⟨hleg, b2, hb2, hb2n, hsz, -⟩ := hw.conn r b hb f hf nb hnb
    obtain ⟨-, rfl⟩ := hw.uniq _ _ _ _ hb2 hb' (hb2n.trans hb'n.symm)
    obtain ⟨o1, o2⟩ := glue_out .node ng f.nface hfr f.ori hleg b.dims b2.dims hsz (ht r' b2 hb')
      hng c c' (last_nonneg .node b.dims (hw.cells r b hb) _) hB hca hg
    have hout : outAxes .node b.dims c = 1 := by
      have hin : ∀ i, i < 3 → outOne (c i) (last .node b.dims i) = if i = normalAxis f.nface then 1 else 0 := by
        intro i hi
        by_cases e : i = normalAxis f.nface
        · rw [if_pos e, e]
          apply outOne_out
          unfold Behind depthBehind at hB
          have hl := last_nonneg .node b.dims (hw.cells r b hb) (normalAxis f.nface)
          cases h2 : isLow f.nface <;> simp only [h2, if_true, if_false, Bool.false_eq_true] at hB <;> omega
        · rw [if_neg e]; exact outOne_in (hpl i hi e)
      rw [outAxes_eq, hin 0 (by omega), hin 1 (by omega), hin 2 (by omega)]
      have := (axes_distinct f.nface hfr).1
      split_ifs <;> omega
    have hint : Interior .node b2.dims c' := outAxes_zero (by omega)
    refine ⟨hint, ?_⟩
    have hraw : exchanged ng world gen b.nblki c = at' ng (gen nb) c' := by
      have key : ∀ g : V3 → ℝ, at' ng (rounds .node ng world 3 (fun n i j k => g (gen n i j k)) b.nblki) c
          = g (at' ng (gen nb) c') := by
        intro g
        have h3 : rounds .node ng world 3 (fun n i j k => g (gen n i j k)) b.nblki =
            communicate .node ng (rounds .node ng world 2 (fun n i j k => g (gen n i j k))) world r b :=
          round_eq .node ng world hw _ r b hb
        rw [h3, exchange_correct .node ng hng _ world hw r b hb f hf nb hnb r' b2 hb' hb'n c c' hB hpl hg, ← hb'n]
        exact rounds_unexchanged .node ng hng world hw _ r' b2 hb' c' (interior_unexchanged hw hb' hint) 2
      unfold exchanged
      ext
      · exact key V3.x
      · exact key V3.y
      · exact key V3.z
    rw [unify_at ng world hw per gen r b hb c hca, hraw]
    obtain ⟨l1, l2, hl⟩ := List.append_of_mem hf
    have hd := hw.nface_distinct r b hb
    have hother : ∀ g ∈ b.faces, g.nface ≠ f.nface → ¬ Behind .node g.nface ng b.dims c := fun g hg2 hne =>
      behind_unique .node ng hng b.dims (hw.cells r b hb) f.nface g.nface hfr (hw.nface_range r b hb g hg2) hne c hB hpl
    rw [hl, shifts_append, shifts_none (l := l1)]
    · show shifts ng (per b.nblki) b.dims c ([f] ++ l2) _ = _
      rw [shifts_append, shifts_none (l := l2)]
      · unfold shifts
        rw [List.foldl_cons, List.foldl_nil, if_pos hB]
        simp only
        cases ht : (per b.nblki f.nface).type
        · exact shift_none _ ht _
        · exact shift_transLow _ ht _
        · exact shift_transHigh _ ht _
        · exact shift_rotLow _ ht _
        · exact shift_rotHigh _ ht _
      · intro g hg2 hBg
        refine absurd hBg (hother g (by rw [hl]; simp [hg2]) ?_)
        rw [hl, List.pairwise_append] at hd
        exact fun h => (List.pairwise_cons.1 hd.2.1).1 g hg2 h.symm
    · intro g hg2 hBg
      refine absurd hBg (hother g (by rw [hl]; simp [hg2]) ?_)
      rw [hl, List.pairwise_append] at hd
      exact hd.2.2 g hg2 f (by simp)

end PG.Halo
