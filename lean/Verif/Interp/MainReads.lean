import Verif.Interp.MainProps
import Verif.IO.XmfProps
/-!
C112: the files the writers leave are the ones the interpolation utility finds.
-/
namespace PG.Interp
open PG PG.IO PG.Text

/-- the grid directory `dir` of `w` is as `writeGrid` left it with the blocks `bs` numbered in order, its xmf file lists them, and before
    writing one file per block there was no lumped grid in it -/
structure GridDir (w : World) (dir : Str) (lump : Bool) (bs : List GBlk) : Prop where
  written : ∃ g0 g1, writeGrid ⟨dir, lump, false, id⟩ bs g0 = some g1 ∧ (∀ l n, w.gfs (gName dir l n) = g1 (gName dir l n)) ∧
    (lump = false → g0 (gName dir true 0) = none)
  num : bs.map GBlk.num = List.range bs.length
  ne : bs ≠ []
  xmf : w.xmf (dir ++ "/g.xmf".toList) = some bs.length

/-- the data read of a block are its nodes -/
def SameGrid (b : GBlk) (g : GRead) : Prop := (g.ni = b.ni ∧ g.nj = b.nj ∧ g.nk = b.nk) ∧ ∀ i j k, i < b.ni → j < b.nj → k < b.nk →
  g.xyz i j k = b.xyz (i + layers b.solver b.ng) (j + layers b.solver b.ng) (k + layers b.solver b.ng)

theorem gName_lump_ne (p : Str) (n : ℕ) : gName p true 0 ≠ gName p false n := by
  intro h
  unfold gName at h
  rw [if_pos rfl, if_neg (by simp), List.append_assoc, List.append_assoc] at h
  have h := List.append_cancel_left h
  have := congrArg (fun s : Str => s[3]?) h
  have e : ("/g.".toList ++ (padded 6 n ++ ".h5".toList))[3]? = (padded 6 n ++ ".h5".toList)[0]? := by
    rw [List.getElem?_append_right (by decide)]
    rfl
  rw [e] at this
  cases hp : padded 6 n with
  | nil =>
    have := padded_digits 6 n
    unfold padded at hp
    exact absurd (List.append_eq_nil_iff.1 hp).2 (decimal_ne_nil n)
  | cons c cs =>
    rw [hp] at this
    have hc : IsDigit c := padded_digits 6 n c (by rw [hp]; simp)
    have e2 : ("/g.h5".toList)[3]? = some 'h' := by decide
    rw [e2] at this
    simp at this
    obtain ⟨d, hd, rfl⟩ := hc
    interval_cases d <;> exact absurd this (by decide)

theorem writeGrid_no_lump {o : GOpts} (hl : o.lump = false) {bs : List GBlk} {g0 g1 : GFs} (h : writeGrid o bs g0 = some g1) :
    g1 (gName o.path true 0) = g0 (gName o.path true 0) := by
  unfold writeGrid at h
  rw [hl, if_neg (by simp)] at h
  induction bs generalizing g0 with
  | nil => simp at h; rw [h]
  | cons b bs ih =>
    rw [List.foldlM_cons] at h
    simp only [Option.bind_eq_bind, Option.bind_eq_some_iff, Option.map_eq_some_iff] at h
    obtain ⟨fs1, ⟨x, _, rfl⟩, h⟩ := h
    rw [ih h, Function.update_of_ne (gName_lump_ne _ _)]

theorem writeGrid_lump {o : GOpts} (hl : o.lump = true) {bs : List GBlk} {g0 g1 : GFs} (h : writeGrid o bs g0 = some g1) :
    (g1 (gName o.path true 0)).isSome := by
  unfold writeGrid at h
  rw [hl, if_pos rfl] at h
  simp only [Option.map_eq_some_iff] at h
  obtain ⟨x, _, rfl⟩ := h
  simp

/-- a written grid is found in its form and read node by node -/
theorem readGridAny_written {w : World} {dir : Str} {lump : Bool} {bs : List GBlk} (h : GridDir w dir lump bs) :
    ∃ gs, readGridAny dir bs.length w.gfs = some (lump, gs) ∧ List.Forall₂ SameGrid bs gs := by
  obtain ⟨g0, g1, h1, h2, h3⟩ := h.written
  have hl : (w.gfs (gName dir true 0)).isSome = lump := by
    rw [h2]
    cases lump with
    | true => exact writeGrid_lump (o := ⟨dir, true, false, id⟩) rfl h1
    | false =>
      rw [writeGrid_no_lump (o := ⟨dir, false, false, id⟩) rfl h1]
      dsimp only
      rw [h3 rfl]
      rfl
  have hnod : (bs.map GBlk.num).Nodup := by rw [h.num]; exact List.nodup_range
  obtain ⟨g1', rs, e1, e2, e3⟩ := C46_roundtrip ⟨dir, lump, false, id⟩ bs g0 hnod ((List.range bs.length).map fun i => ⟨i, false, 0⟩) (by
    intro t ht
    obtain ⟨i, hi, rfl⟩ := List.mem_map.1 ht
    rw [h.num]
    exact hi)
  have hg : g1' = g1 := by
    have : some g1' = some g1 := e1.symm.trans h1
    exact Option.some.inj this
  subst hg
  refine ⟨rs, ?_, ?_⟩
  · unfold readGridAny
    dsimp only
    rw [hl]
    have : readGrid dir lump ((List.range bs.length).map fun i => ⟨i, false, 0⟩) w.gfs =
        readGrid dir lump ((List.range bs.length).map fun i => ⟨i, false, 0⟩) g1' := by
      unfold readGrid
      congr 1
      funext t
      rw [h2]
    rw [this, e2]
    rfl
  · rw [List.forall₂_map_left_iff] at e3
    have hb : ∀ (i : ℕ) (b : GBlk), bs[i]? = some b → b.num = i := by
      intro i b hb
      have : (bs.map GBlk.num)[i]? = some b.num := by rw [List.getElem?_map, hb]; rfl
      rw [h.num] at this
      obtain ⟨h1, h2⟩ := List.getElem?_eq_some_iff.1 this
      simpa using h2.symm
    refine List.forall₂_iff_get.2 ⟨by simpa using e3.length_eq, fun i hi hi' => ?_⟩
    obtain ⟨r, r1, r2⟩ := forall₂_get e3 (List.getElem?_range hi)
    obtain ⟨hr', rfl⟩ := List.getElem?_eq_some_iff.1 r1
    have := r2 bs[i] (List.getElem_mem hi) (hb i _ (List.getElem?_eq_getElem hi))
    obtain ⟨⟨s1, s2, s3⟩, s4⟩ := this
    refine ⟨⟨by simpa [kept] using s1, by simpa [kept] using s2, by simpa [kept] using s3⟩, fun x y z hx hy hz => ?_⟩
    have := s4 (layers bs[i].solver bs[i].ng) (by simp [kept]) x y z (by simpa [s1, kept] using hx) (by simpa [s2, kept] using hy)
      (by simpa [s3, kept] using hz)
    simpa [layers] using this

/-- the solution in `dir` is as `writeRestart` left it -/
structure SolDir (w : World) (dir : Str) (lump animate : Bool) (bs : List GBlk) (species : List Str) (mb : Mb) : Prop where
  written : ∃ f0 f1, writeRestart ⟨dir, animate, lump, false, id⟩ mb f0 = some f1 ∧
    ∀ n, w.fs (readName dir lump animate mb.nrt n) = f1 (readName dir lump animate mb.nrt n)
  num : mb.blks.map Blk.num = List.range mb.blks.length
  species : ∀ b ∈ mb.blks, b.species = species
  sizes : List.Forall₂ (fun (B : GBlk) (b : Blk) => B.ni = b.ni ∧ B.nj = b.nj ∧ B.nk = b.nk) bs mb.blks
  /-- an animated restart is looked up only without a plain one, and by the first xmf file the directory lists -/
  found : animate = true → NoPlain dir w.fs ∧
    ∃ rest, ((w.list dir).filter fun s => "xmf".toList.isSuffixOf s) = ("q.".toList ++ padded 8 mb.nrt ++ ".xmf".toList) :: rest

theorem splitDot_plain : ∀ (s t : Str), '.' ∉ s → splitDot (s ++ '.' :: t) = s :: splitDot t
  | [], t, _ => by simp [splitDot]
  | c :: cs, t, h => by
    have hc : c ≠ '.' := fun e => h (by simp [e])
    have ih := splitDot_plain cs t fun e => h (by simp [e])
    rw [List.cons_append, splitDot, if_neg hc, ih]

theorem number_of_name (n : ℕ) : (splitDot (strip ("q.".toList ++ padded 8 n ++ ".xmf".toList)))[1]? = some (padded 8 n) := by
  have h1 : strip ("q.".toList ++ padded 8 n ++ ".xmf".toList) = "q.".toList ++ padded 8 n ++ ".xmf".toList := by
    apply strip_self
    · intro c hc
      have : ("q.".toList ++ padded 8 n ++ ".xmf".toList).head? = some 'q' := rfl
      rw [this] at hc
      cases hc
      decide
    · intro c hc
      rw [List.getLast?_append] at hc
      have : (".xmf".toList).getLast? = some 'f' := by decide
      rw [this] at hc
      simp at hc
      subst hc
      decide
  have hd : '.' ∉ padded 8 n := by
    intro hc
    obtain ⟨d, hd, he⟩ := padded_digits 8 n _ hc
    interval_cases d <;> exact absurd he (by decide)
  rw [h1]
  have h2 : "q.".toList ++ padded 8 n ++ ".xmf".toList = ['q'] ++ '.' :: (padded 8 n ++ '.' :: "xmf".toList) := by
    simp
  rw [h2, splitDot_plain _ _ (by decide), splitDot_plain _ _ hd]
  rfl

/-- C112 (what is taken as input): for grids and a solution left by the writers - grid and solution in the same form, the solution plain or
    animated, the target grid in either form - the utility takes every node of both grids and every value of the solution, the iteration
    and the time, unchanged. What is missing: an animated restart has to be listed first (`C112_listing_violated`) and the forms of grid and
    solution have to agree (`C112_mixed_lump_violated`). -/
theorem C112_reads_partial (a : Args) (w : World) (lF lT animate : Bool) (bF bT : List GBlk) (mb : Mb)
    (hF : GridDir w a.fromDir lF bF) (hT : GridDir w a.toDir lT bT) (hq : SolDir w a.fromDir lF animate bF a.species mb)
    (hn : NamesOk a.species) :
    ∃ inp, readAll a w = some inp ∧ inp.animate = animate ∧ inp.lumpT = lT ∧ inp.src.nrt = mb.nrt ∧ inp.src.tme = mb.tme ∧
      List.Forall₂ SameGrid bF inp.gF ∧ List.Forall₂ SameGrid bT inp.gT ∧
      List.Forall₂ (fun (b : Blk) (q : Q4) => ∀ n < 5 + (a.species.length - 1), ∀ i j k, i < b.ni - 1 → j < b.nj - 1 → k < b.nk - 1 →
        q i j k n = b.q (i + layers b.solver b.ng) (j + layers b.solver b.ng) (k + layers b.solver b.ng) n) mb.blks inp.src.q := by
  obtain ⟨gF, f1, f2⟩ := readGridAny_written hF
  obtain ⟨gT, t1, t2⟩ := readGridAny_written hT
  have hbl : bF.length = mb.blks.length := hq.sizes.length_eq
  have hgl : bF.length = gF.length := f2.length_eq
  obtain ⟨fs0, fs1, w1, w2⟩ := hq.written
  have hne : mb.blks ≠ [] := by
    intro hc
    rw [hc, List.length_nil] at hbl
    exact hF.ne (List.length_eq_zero_iff.1 hbl)
  obtain ⟨fs1', r, e1, e2, e3, e4, e5⟩ := roundtrip_aux ⟨a.fromDir, animate, lF, false, id⟩ mb fs0 hne
    (by rw [hq.num]; exact List.nodup_range) (fun b hb => by rw [hq.species b hb]; exact hn) (targets a.species gF)
    (by
      intro hc
      have := congrArg List.length hc
      simp [targets] at this
      rw [this, List.length_nil] at hgl
      exact hF.ne (List.length_eq_zero_iff.1 hgl))
    (by
      intro t ht
      unfold targets at ht
      obtain ⟨e, he, rfl⟩ := List.mem_map.1 ht
      have hg : gF[e.2]? = some e.1 := List.mem_zipIdx_iff_getElem?.1 he
      have hlt : e.2 < gF.length := (List.getElem?_eq_some_iff.1 hg).1
      have hB : bF[e.2]? = some (bF[e.2]'(by omega)) := List.getElem?_eq_getElem _
      obtain ⟨g', g1, s1, _⟩ := forall₂_get f2 hB
      rw [hg] at g1
      cases g1
      obtain ⟨b, b1, b2⟩ := forall₂_get hq.sizes hB
      have hnum : b.num = e.2 := by
        have : (mb.blks.map Blk.num)[e.2]? = some b.num := by rw [List.getElem?_map, b1]; rfl
        rw [hq.num] at this
        obtain ⟨h1, h2⟩ := List.getElem?_eq_some_iff.1 this
        simpa using h2.symm
      refine ⟨b, List.mem_of_getElem? b1, ⟨hnum.symm, (hq.species b (List.mem_of_getElem? b1)).symm, ?_, ?_, ?_⟩⟩
      · simp [kept, s1.1, b2.1]
      · simp [kept, s1.2.1, b2.2.1]
      · simp [kept, s1.2.2, b2.2.2])
  have hfs : fs1' = fs1 := Option.some.inj (e1.symm.trans w1)
  subst hfs
  have hread : readRestart a.fromDir lF animate mb.nrt (targets a.species gF) w.fs = some r := by
    rw [← e2]
    unfold readRestart
    congr 1
    · congr 1
      funext t
      exact congrArg (fun x : Option File => x.bind fun f => readBlk f t) (w2 t.num)
    · funext qs
      congr 1
      funext t0
      rw [w2]
  have hany : readAny a.fromDir lF (targets a.species gF) w = some (animate, r) := by
    cases animate with
    | false =>
      unfold readAny
      have : readRestart a.fromDir lF false 0 (targets a.species gF) w.fs = some r := by
        rw [← hread]
        unfold readRestart readName
        simp only [Bool.false_eq_true, if_false]
      rw [this]
    | true =>
      obtain ⟨p1, rest, p2⟩ := hq.found rfl
      cases gF with
      | nil =>
        rw [List.length_nil] at hgl
        exact absurd (List.length_eq_zero_iff.1 hgl) hF.ne
      | cons g gs =>
        rw [readAny_animated _ _ _ _ _ _ p1, p2]
        simp only [List.head?_cons, Option.bind_eq_bind, Option.bind_some, number_of_name, pyInt_padded]
        rw [if_neg (by omega), Int.toNat_natCast, hread]
        rfl
  refine ⟨⟨gF, animate, r, lT, gT⟩, ?_, rfl, rfl, e3, e4, f2, t2, ?_⟩
  · unfold readAll
    rw [if_neg hn.1, hF.xmf, hT.xmf]
    simp only [Option.bind_eq_bind, Option.bind_some, f1, t1, hany]
    rfl
  · refine List.forall₂_iff_get.2 ⟨?_, fun m hm hm' => ?_⟩
    · have := e5.length_eq
      simp only [targets, List.length_map, List.length_zipIdx] at this
      dsimp only
      omega
    · have hmg : m < gF.length := by omega
      have htm : (targets a.species gF)[m]? = some ⟨m, gF[m].ni, gF[m].nj, gF[m].nk, false, 0, a.species⟩ := by
        unfold targets
        simp only [List.getElem?_map, List.getElem?_zipIdx, List.getElem?_eq_getElem hmg]
        simp
      obtain ⟨q, q1, q2⟩ := forall₂_get e5 htm
      obtain ⟨_, rfl⟩ := List.getElem?_eq_some_iff.1 q1
      have hB : bF[m]? = some (bF[m]'(by omega)) := List.getElem?_eq_getElem _
      obtain ⟨g', g1, s1, _⟩ := forall₂_get f2 hB
      obtain ⟨_, rfl⟩ := List.getElem?_eq_some_iff.1 g1
      obtain ⟨b, b1, b2⟩ := forall₂_get hq.sizes hB
      obtain ⟨_, rfl⟩ := List.getElem?_eq_some_iff.1 b1
      have hnum : mb.blks[m].num = m := by
        have : (mb.blks.map Blk.num)[m]? = some mb.blks[m].num := by rw [List.getElem?_map, b1]; rfl
        rw [hq.num] at this
        obtain ⟨h1, h2⟩ := List.getElem?_eq_some_iff.1 this
        simpa using h2.symm
      intro n hnn i j k hi hj hk
      have hmm : mb.blks[m] ∈ mb.blks := List.getElem_mem hm
      have hi' : i < mb.blks[m].ni - 1 := hi
      have hj' : j < mb.blks[m].nj - 1 := hj
      have hk' : k < mb.blks[m].nk - 1 := hk
      have := q2 mb.blks[m] hmm hnum n (by rw [hq.species _ hmm]; exact hnn) i j k (by rw [s1.1, b2.1]; exact hi')
        (by rw [s1.2.1, b2.2.1]; exact hj') (by rw [s1.2.2, b2.2.2]; exact hk')
      rw [woff_eq] at this
      simpa [roff, kept] using this

/-! ### a concrete case: the unit cube with two species onto itself, lumped and plain -/

def exG : GBlk := ⟨0, 2, 2, 2, false, 0, fun i j k => ⟨i, j, k⟩⟩
noncomputable def exSol : Mb := ⟨7, 1, [⟨0, 2, 2, 2, false, 0, ["O2".toList, "N2".toList], fun _ _ _ n => n, fun _ _ _ => 0⟩]⟩
def exArgs (f : Interpolant) : Args := ⟨"f".toList, "t".toList, ["O2".toList, "N2".toList], f, false⟩

theorem exNames : NamesOk ["O2".toList, "N2".toList] := by
  refine ⟨by simp, by decide, by decide⟩

/-- all hypotheses of `C112_reads_partial` and `C112_values_partial` are met -/
theorem exWorld (f : Interpolant) : ∃ w : World, GridDir w "f".toList true [exG] ∧ GridDir w "t".toList true [exG] ∧
    SolDir w "f".toList true false [exG] ["O2".toList, "N2".toList] exSol ∧
    ∃ inp, readAll (exArgs f) w = some inp ∧ inp.Ok ∧ Touches inp := by
  obtain ⟨g1, _, h1, _⟩ := C46_roundtrip ⟨"f".toList, true, false, id⟩ [exG] (fun _ => none) (by simp) [] (by simp)
  obtain ⟨g2, _, h2, _⟩ := C46_roundtrip ⟨"t".toList, true, false, id⟩ [exG] g1 (by simp) [] (by simp)
  have hsp : ∀ b ∈ exSol.blks, NamesOk b.species := by
    intro b hb
    simp only [exSol, List.mem_singleton] at hb
    subst hb
    exact exNames
  obtain ⟨f1, h3, _⟩ := written ⟨"f".toList, false, true, false, id⟩ exSol (fun _ => none) (by simp [exSol]) (by simp [exSol]) hsp
  let w : World := ⟨fun _ => some 1, g2, f1, fun _ => []⟩
  have hF : GridDir w "f".toList true [exG] := by
    refine ⟨⟨_, g1, h1, ?_, by simp⟩, rfl, by simp, rfl⟩
    intro l n
    show g2 _ = _
    unfold writeGrid at h2
    rw [if_pos rfl] at h2
    simp only [Option.map_eq_some_iff] at h2
    obtain ⟨x, _, rfl⟩ := h2
    rw [Function.update_of_ne]
    cases l <;> simp [gName]
  have hT : GridDir w "t".toList true [exG] := ⟨⟨g1, g2, h2, fun _ _ => rfl, by simp⟩, rfl, by simp, rfl⟩
  have hS : SolDir w "f".toList true false [exG] ["O2".toList, "N2".toList] exSol := by
    refine ⟨⟨_, f1, h3, fun _ => rfl⟩, rfl, ?_, ?_, by simp⟩
    · intro b hb
      simp only [exSol, List.mem_singleton] at hb
      subst hb
      rfl
    · exact .cons ⟨rfl, rfl, rfl⟩ .nil
  refine ⟨w, hF, hT, hS, ?_⟩
  obtain ⟨inp, i1, _, _, _, _, i2, i3, i4⟩ := C112_reads_partial (exArgs f) w true true false [exG] [exG] exSol hF hT hS exNames
  refine ⟨inp, i1, ?_⟩
  rcases inp with ⟨gF, an, src, lT, gT⟩
  dsimp only at i2 i3 i4
  cases i2 with
  | @cons _ g _ _ a1 a2 =>
  cases a2
  cases i3 with
  | @cons _ g' _ _ b1 b2 =>
  cases b2
  obtain ⟨⟨s1, s2, s3⟩, s4⟩ := a1
  obtain ⟨⟨t1, t2, t3⟩, t4⟩ := b1
  have n1 : g.ni = 2 := s1
  have n2 : g.nj = 2 := s2
  have n3 : g.nk = 2 := s3
  have m1 : g'.ni = 2 := t1
  have m2 : g'.nj = 2 := t2
  have m3 : g'.nk = 2 := t3
  have e : ∀ i j k, i < 2 → j < 2 → k < 2 → g.xyz i j k = ⟨i, j, k⟩ := fun i j k hi hj hk => s4 i j k hi hj hk
  have e' : ∀ i j k, i < 2 → j < 2 → k < 2 → g'.xyz i j k = ⟨i, j, k⟩ := fun i j k hi hj hk => t4 i j k hi hj hk
  refine ⟨⟨?_, ?_, by simp⟩, ?_⟩
  · intro x hx
    simp only [List.mem_singleton] at hx
    subst hx
    omega
  · have := i4.length_eq
    simp [exSol] at this
    exact this.symm
  · intro x hx
    simp only [List.mem_singleton] at hx
    subst hx
    refine ⟨⟨1 / 2, 1 / 2, 1 / 2⟩, ?_, ⟨0, g.ni, g.nj, g.nk, g.xyz⟩, ?_, ?_⟩
    · unfold centres
      rw [m1, m2, m3]
      have : (ravelC 1 1 1 (Mesh.cellCentre x.xyz)) = [Mesh.cellCentre x.xyz 0 0 0] := rfl
      rw [this]
      rw [List.mem_singleton]
      unfold Mesh.cellCentre
      simp only [Nat.zero_add]
      rw [e' 0 0 0 (by omega) (by omega) (by omega), e' 0 0 1 (by omega) (by omega) (by omega), e' 0 1 0 (by omega) (by omega) (by omega),
        e' 0 1 1 (by omega) (by omega) (by omega), e' 1 0 0 (by omega) (by omega) (by omega), e' 1 0 1 (by omega) (by omega) (by omega),
        e' 1 1 0 (by omega) (by omega) (by omega), e' 1 1 1 (by omega) (by omega) (by omega)]
      ext <;> simp <;> norm_num
    · simp [sblks]
    · have : cube ⟨0, g.ni, g.nj, g.nk, g.xyz⟩ = cube exBlk := by
        unfold cube exBlk
        dsimp only
        rw [n1, n2, n3]
        have z : ∀ i j k, i ≤ 1 → j ≤ 1 → k ≤ 1 → g.xyz i j k = ⟨i, j, k⟩ := fun i j k hi hj hk => e i j k (by omega) (by omega) (by omega)
        simp [z]
      rw [this]
      exact exBlk_centre.2

end PG.Interp
