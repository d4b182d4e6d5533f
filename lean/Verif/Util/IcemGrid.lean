import Verif.Util.Icem
/-!
C99, continued: coordinates, the defects, and an example mesh for `utilities/icem2pg.py`.
-/
namespace PG.Util.Icem
open PG PG.IO.Conn PG.Util

/-! ### coordinates -/

/-- lines 90-106, one block of tns3dmb.dat: `reshape((ni, nj, nk, 3), order="F")`, component `c` of node (i, j, k) -/
def fortranAt (factor : ℝ) (ni nj nk : ℕ) (flat : List ℝ) (i j k c : ℕ) : Option ℝ :=
  (flat[i + ni * (j + nj * (k + nk * c))]?).map (· * factor)

/-- lines 93, 95: `np.array_split(ints, nblks)` of 3 nblks numbers -/
def dimsAt (ints : List ℕ) (b c : ℕ) : Option ℕ := ints[3 * b + c]?

/-- a record of the file: all x, then all y, then all z, each with i fastest -/
def record (b : GridPro.Blk) : List ℝ :=
  [V3.x, V3.y, V3.z].flatMap fun (c : V3 → ℝ) => (List.range b.nk).flatMap fun k => (List.range b.nj).flatMap fun j =>
    (List.range b.ni).map fun i => c (b.x i j k)

/-- **C99** (coordinates): every component of every node of a block is found in its place, times the unit; so are the dimensions -/
theorem C99_coordinates (factor : ℝ) (b : GridPro.Blk) (i j k : ℕ) (hi : i < b.ni) (hj : j < b.nj) (hk : k < b.nk) :
    fortranAt factor b.ni b.nj b.nk (record b) i j k 0 = some ((b.x i j k).x * factor) ∧
    fortranAt factor b.ni b.nj b.nk (record b) i j k 1 = some ((b.x i j k).y * factor) ∧
    fortranAt factor b.ni b.nj b.nk (record b) i j k 2 = some ((b.x i j k).z * factor) := by
  have key : ∀ c, c < 3 → (record b)[i + b.ni * (j + b.nj * (k + b.nk * c))]? =
      ([V3.x, V3.y, V3.z][c]?).map fun (f : V3 → ℝ) => f (b.x i j k) := by
    intro c hc
    have hij : j * b.ni + i < b.nj * b.ni := by
      calc j * b.ni + i < j * b.ni + b.ni := by omega
        _ = (j + 1) * b.ni := by ring
        _ ≤ b.nj * b.ni := Nat.mul_le_mul_right _ hj
    have hijk : k * (b.nj * b.ni) + (j * b.ni + i) < b.nk * (b.nj * b.ni) := by
      calc k * (b.nj * b.ni) + (j * b.ni + i) < k * (b.nj * b.ni) + b.nj * b.ni := by omega
        _ = (k + 1) * (b.nj * b.ni) := by ring
        _ ≤ b.nk * (b.nj * b.ni) := Nat.mul_le_mul_right _ hk
    have e : i + b.ni * (j + b.nj * (k + b.nk * c)) = c * (b.nk * (b.nj * b.ni)) + (k * (b.nj * b.ni) + (j * b.ni + i)) := by ring
    unfold record
    rw [e, GridPro.getElem?_flatMap (m := b.nk * (b.nj * b.ni)) _ (fun c _ => by simp [List.length_flatMap]) hijk]
    cases hcc : ([V3.x, V3.y, V3.z] : List (V3 → ℝ))[c]? with
    | none => rfl
    | some f =>
      simp only [Option.bind_some, Option.map_some]
      rw [GridPro.getElem?_flatMap (m := b.nj * b.ni) _ (fun c _ => by simp [List.length_flatMap]) hij, List.getElem?_range hk]
      simp only [Option.bind_some]
      rw [GridPro.getElem?_flatMap (m := b.ni) _ (fun c _ => by simp) hi, List.getElem?_range hj]
      simp [hi]
  refine ⟨?_, ?_, ?_⟩ <;> unfold fortranAt
  · rw [key 0 (by omega)]; rfl
  · rw [key 1 (by omega)]; rfl
  · rw [key 2 (by omega)]; rfl

/-- **C99** (dimensions): each block gets its own three numbers -/
theorem C99_dimensions (bs : List GridPro.Blk) (n : ℕ) (b : GridPro.Blk) (h : bs[n]? = some b) :
    let ints := bs.flatMap fun b => [b.ni, b.nj, b.nk]
    dimsAt ints n 0 = some b.ni ∧ dimsAt ints n 1 = some b.nj ∧ dimsAt ints n 2 = some b.nk := by
  have key : ∀ c < 3, dimsAt (bs.flatMap fun b => [b.ni, b.nj, b.nk]) n c = [b.ni, b.nj, b.nk][c]? := by
    intro c hc
    unfold dimsAt
    rw [Nat.mul_comm, GridPro.getElem?_flatMap (m := 3) _ (fun _ _ => rfl) hc, h]
    rfl
  exact ⟨key 0 (by omega), key 1 (by omega), key 2 (by omega)⟩

/-! ### defects -/

/-- **C99** is violated by every periodic mesh: whatever else is in the file, the first periodic section with records stops the
    conversion, since `b1` is no boundary type -/
theorem C99_periodic_violated (n : ℕ) (fams : Tok → Option Tok) (domain : Tok → Option ℤ) (pre post : List Row) (b : ℤ)
    (cur adj : List Tok) (hpre : ∀ r ∈ pre, ∀ b, r ≠ .perHead b) (hc : cur ≠ []) :
    convert n fams domain (pre ++ .perHead b :: .line cur :: .line adj :: post) = none := by
  have hper : ∀ g, perStage n (pre ++ .perHead b :: .line cur :: .line adj :: post) g = none := by
    intro g
    have h0 : pre.foldlM (perStep n) (.out, g) = some (.out, g) := by
      induction pre with
      | nil => rfl
      | cons r pre ih =>
        have hr : perStep n (.out, g) r = some (.out, g) := by
          cases r with
          | perHead b => exact absurd rfl (hpre _ List.mem_cons_self b)
          | bcHead b => rfl
          | connHead b => rfl
          | line ts => rfl
        rw [List.foldlM_cons, hr]
        exact ih fun r hr => hpre r (List.mem_cons_of_mem _ hr)
    unfold perStage
    rw [List.foldlM_append, h0]
    cases cur with
    | nil => exact absurd rfl hc
    | cons t ts =>
      simp only [bind, Option.bind]
      rw [List.foldlM_cons]
      simp only [perStep, bind, Option.bind]
      cases hb : block n b with
      | none => rfl
      | some b' =>
        dsimp only
        rw [List.foldlM_cons]
        simp only [perStep, bind, Option.bind]
        rw [List.foldlM_cons]
        have : checked "b1".toList = none := by decide
        simp only [perStep, bind, Option.bind, this]
  unfold convert
  cases bcStage n fams (pre ++ .perHead b :: .line cur :: .line adj :: post) grid0 with
  | none => rfl
  | some g => simp only [bind, Option.bind, hper]

/-- **C99** is violated by twelve of the eighteen boundary types (of which thirteen are for external faces): a face with a supersonic
    inlet, say, cannot be converted -/
theorem C99_types_violated (n : ℕ) (fams : Tok → Option Tok) (domain : Tok → Option ℤ) (pre body post : List Row) (b : ℤ) (f : ℕ)
    (tag t : Tok) (ts : List Tok) (hbody : ∀ r ∈ body, ∃ t ts, r = .line (t :: ts)) (hf : fams tag = some t)
    (ht : t ∉ icemBcTypes) (hp : PatchLine tag f ts) :
    convert n fams domain (pre ++ .bcHead b :: (body ++ .line ts :: post)) = none := by
  have hline : ∀ b g, bcLine fams b g ts = none := by
    intro b g
    obtain ⟨hd, mn, mx, _, rfl⟩ := hp
    unfold bcLine
    simp only [List.getElem?_cons_zero, List.getElem?_cons_succ, bind, Option.bind, if_true, hd, if_false, hf, ht]
    split <;> rfl
  have hbd : ∀ b g, body.foldlM (bcStep n fams) (some b, g) = none ∨ ∃ g', body.foldlM (bcStep n fams) (some b, g) = some (some b, g') := by
    intro b g
    induction body generalizing g with
    | nil => exact Or.inr ⟨g, rfl⟩
    | cons r body ih =>
      obtain ⟨t, ts, rfl⟩ := hbody _ List.mem_cons_self
      rw [List.foldlM_cons]
      simp only [bcStep, bind, Option.bind]
      cases bcLine fams b g (t :: ts) with
      | none => exact Or.inl rfl
      | some g1 => exact ih (fun r hr => hbody r (List.mem_cons_of_mem _ hr)) g1
  have : bcStage n fams (pre ++ .bcHead b :: (body ++ .line ts :: post)) grid0 = none := by
    unfold bcStage
    rw [List.foldlM_append]
    cases pre.foldlM (bcStep n fams) (none, grid0) with
    | none => rfl
    | some s =>
      simp only [bind, Option.bind]
      rw [List.foldlM_cons]
      simp only [bcStep, bind, Option.bind]
      cases block n b with
      | none => rfl
      | some b' =>
        dsimp only
        rw [List.foldlM_append]
        rcases hbd b' s.2 with h | ⟨g', h⟩
        · rw [h]; rfl
        · rw [h]
          simp only [bind, Option.bind]
          rw [List.foldlM_cons]
          obtain ⟨hd, mn, mx, _, rfl⟩ := hp
          simp only [bcStep, hline, bind, Option.bind]
  unfold convert
  rw [this]; rfl

/-- the types concerned -/
example : validBcTypes.filter (fun t => decide (t ∉ icemBcTypes)) =
    ["b0", "periodicTransLow", "periodicTransHigh", "periodicRotLow", "periodicRotHigh", "supersonicInlet",
     "constantMassFluxSubsonicInlet", "cubicSplineSubsonicInlet", "stagnationSubsonicInlet", "supersonicExit", "isoTNoSlipWall",
     "isoTSlipWall"].map String.toList := by decide

/-- **C99** is violated: lines 430-436 ignore the result of the check, as in `gridPro2pg.py` -/
theorem C99_unverified_violated : ∃ mb : List VBlk, Sized mb ∧ verify mb = some false ∧ GridPro.finish (verify mb) mb = some mb :=
  GridPro.C98_unverified_violated

/-! ### a mesh: two blocks, the second turned by a quarter, all other faces walls -/

def tok (s : String) : Tok := s.toList

/-- the upper i face of block 0 is the lower j face of block 1 -/
def two : Mesh := ⟨2, fun b f => if b = 0 ∧ f = 2 then .conn 1 ⟨2, 4, 3⟩ else if b = 1 ∧ f = 3 then .conn 0 ⟨5, 1, 3⟩ else .ext (tok "WALL")⟩

def twoDomain (t : Tok) : Option ℤ := if t = tok "domain.1" then some 1 else if t = tok "domain.2" then some 2 else none

def twoFams (t : Tok) : Option Tok := if t = tok "WALL" then some (tok "adiabaticNoSlipWall") else none

/-- the ranges of a face of a block with five nodes in each direction -/
def lo (f : ℕ) (a : Fin 3) : Tok := if a = normalOf f then (if upper f then ['5'] else ['1']) else ['1']
def hi (f : ℕ) (a : Fin 3) : Tok := if a = normalOf f then (if upper f then ['5'] else ['1']) else ['5']

theorem ranges_lohi (f : ℕ) : Ranges f (lo f) (hi f) := by
  intro a
  unfold lo hi
  by_cases h : a = normalOf f
  · simp only [h, if_true, true_and]
    cases upper f <;> simp
  · simp only [h, if_false]; decide

def patch (f : ℕ) : List Tok := [tok "WALL", ['f'], lo f 0, lo f 1, lo f 2, hi f 0, hi f 1, hi f 2]

theorem patchLine (f : ℕ) : PatchLine (tok "WALL") f (patch f) := ⟨by decide, lo f, hi f, ranges_lohi f, rfl⟩

def twoRows : List (List Row) :=
  [ [.line [tok "#", tok "heading"]],
    .bcHead 0 :: ([[tok "FLUID", ['b']], patch 1, patch 3, patch 4, patch 5, patch 6].map Row.line) ++ [.line []],
    .bcHead 1 :: ([patch 1, patch 2, [tok "DEFAULT_SUBFACE", ['f']], patch 4, patch 5, patch 6].map Row.line) ++ [.line []],
    .connHead 0 :: [.line (["1", "domain.1", "i", "j", "k", "f", "5", "1", "1", "5", "5", "5"].map tok),
      .line (["2", "domain.2", "-j", "-i", "k", "f"].map tok)],
    [.line []],
    .connHead 1 :: [.line (["1", "domain.2", "-j", "i", "k", "f", "1", "1", "1", "1", "5", "5"].map tok),
      .line (["2", "domain.1", "i", "-j", "k", "f"].map tok)] ]

theorem two_file : File twoDomain two twoRows.flatten := by
  refine ⟨twoRows, rfl, ?_, ?_⟩
  · intro p hp
    simp only [twoRows, List.mem_cons, List.not_mem_nil, or_false] at hp
    rcases hp with rfl | rfl | rfl | rfl | rfl | rfl
    · exact .skip
    · refine .patches (by decide) (by decide) ?_ ?_
      · intro r hr
        simp only [List.map_cons, List.map_nil, List.mem_cons, List.not_mem_nil, or_false] at hr
        rcases hr with rfl | rfl | rfl | rfl | rfl | rfl
        · exact ⟨_, rfl, Or.inl ⟨_, _, _, rfl, Or.inl (by decide)⟩⟩
        all_goals refine ⟨_, rfl, Or.inr ⟨_, tok "WALL", ?_, ?_, ?_, patchLine _⟩⟩ <;> first | rfl | decide
      · intro f tag h1 h6 hf
        have : f = 1 ∨ f = 2 ∨ f = 3 ∨ f = 4 ∨ f = 5 ∨ f = 6 := by omega
        rcases this with rfl | rfl | rfl | rfl | rfl | rfl
        · cases hf; exact ⟨patch 1, by simp, patchLine 1⟩
        · cases hf
        · cases hf; exact ⟨patch 3, by simp, patchLine 3⟩
        · cases hf; exact ⟨patch 4, by simp, patchLine 4⟩
        · cases hf; exact ⟨patch 5, by simp, patchLine 5⟩
        · cases hf; exact ⟨patch 6, by simp, patchLine 6⟩
    · refine .patches (by decide) (by decide) ?_ ?_
      · intro r hr
        simp only [List.map_cons, List.map_nil, List.mem_cons, List.not_mem_nil, or_false] at hr
        rcases hr with rfl | rfl | rfl | rfl | rfl | rfl
        · refine ⟨_, rfl, Or.inr ⟨_, tok "WALL", ?_, ?_, ?_, patchLine _⟩⟩ <;> first | rfl | decide
        · refine ⟨_, rfl, Or.inr ⟨_, tok "WALL", ?_, ?_, ?_, patchLine _⟩⟩ <;> first | rfl | decide
        · exact ⟨_, rfl, Or.inl ⟨_, _, _, rfl, Or.inr rfl⟩⟩
        all_goals refine ⟨_, rfl, Or.inr ⟨_, tok "WALL", ?_, ?_, ?_, patchLine _⟩⟩ <;> first | rfl | decide
      · intro f tag h1 h6 hf
        have : f = 1 ∨ f = 2 ∨ f = 3 ∨ f = 4 ∨ f = 5 ∨ f = 6 := by omega
        rcases this with rfl | rfl | rfl | rfl | rfl | rfl
        · cases hf; exact ⟨patch 1, by simp, patchLine 1⟩
        · cases hf; exact ⟨patch 2, by simp, patchLine 2⟩
        · cases hf
        · cases hf; exact ⟨patch 4, by simp, patchLine 4⟩
        · cases hf; exact ⟨patch 5, by simp, patchLine 5⟩
        · cases hf; exact ⟨patch 6, by simp, patchLine 6⟩
    · refine .conns (by decide) (by decide) (.ext rfl (.conn rfl ?_ (.ext rfl (.ext rfl (.ext rfl (.ext rfl .nil))))))
      exact ⟨fun m => (false, m), lo 2, hi 2, tok "domain.2", tok "1", tok "2", tok "domain.1", [tok "f"], by decide, by decide,
        ranges_lohi 2, by decide, rfl, rfl⟩
    · exact .skip
    · refine .conns (by decide) (by decide) (.ext rfl (.ext rfl (.conn rfl ?_ (.ext rfl (.ext rfl (.ext rfl .nil))))))
      exact ⟨fun m => if m = 0 then (true, 1) else if m = 1 then (false, 0) else (false, 2), lo 3, hi 3, tok "domain.1", tok "1",
        tok "2", tok "domain.2", [tok "f"], by decide, by decide, ranges_lohi 3, by decide, rfl, rfl⟩
  · intro b h0 h1
    have h1 : b < 2 := h1
    have : b = 0 ∨ b = 1 := by omega
    rcases this with rfl | rfl
    · exact ⟨⟨_, by simp only [twoRows, List.mem_cons, List.cons_append]; right; left; rfl⟩,
        ⟨_, by simp only [twoRows, List.mem_cons]; right; right; right; left; rfl⟩⟩
    · exact ⟨⟨_, by simp only [twoRows, List.mem_cons, List.cons_append]; right; right; left; rfl⟩,
        ⟨_, by simp only [twoRows, List.mem_cons]; right; right; right; right; right; left; rfl⟩⟩

/-- the hypotheses of the theorems are met, and the second block is attached turned -/
example : ∃ g, convert 2 twoFams twoDomain twoRows.flatten = some g ∧ (g 0 2).ori = some [2, 4, 3] ∧ (g 1 3).neighbor = some 0 ∧
    (g 0 1).bcType = tok "adiabaticNoSlipWall" := by
  have legal : ∀ (b : ℤ) (f : ℕ) nb o, 0 ≤ b → b < two.n → 1 ≤ f → f ≤ 6 → two.face b f = .conn nb o → o.Legal := by
    intro b f nb o h0 h1 h2 h3 h
    simp only [two] at h
    split at h
    · cases h; decide
    · split at h
      · cases h; decide
      · cases h
  obtain ⟨g, e, h⟩ := C99_topology_partial (m := two) two_file (fams := twoFams) (by
    intro b f tag _ _ _ _ h
    simp only [two] at h
    split at h
    · cases h
    · split at h
      · cases h
      · cases h; exact ⟨tok "adiabaticNoSlipWall", by decide, by decide⟩) legal
  have h2 := h 0 2 (by decide) (by decide) (by decide) (by decide)
  have h3 := h 1 3 (by decide) (by decide) (by decide) (by decide)
  have h1 := h 0 1 (by decide) (by decide) (by decide) (by decide)
  injection h2 with h2
  injection h3 with h3
  injection h1 with h1
  exact ⟨g, e, by rw [← h2], by rw [← h3], by rw [← h1]⟩

end PG.Util.Icem
