import Verif.IO.Xmf
/-! C106: proofs. -/
namespace PG.IO
open PG.Text PG

/-! ### files -/

/-- the loop over blocks with a file each -/
noncomputable def foldFiles (nm : ℕ → Str) (mk : Blk → Option H5) (nrt : ℕ) (tme : ℝ) (bs : List Blk) (fs : Fs) : Option Fs :=
  bs.foldlM (fun fs b => (mk b).map fun h => Function.update fs (nm b.num) (some ⟨h, nrt, tme⟩)) fs

theorem foldFiles_keep {nm : ℕ → Str} {mk : Blk → Option H5} {nrt : ℕ} {tme : ℝ} : ∀ (bs : List Blk) (fs fs' : Fs) (s : Str),
    (∀ b ∈ bs, nm b.num ≠ s) → foldFiles nm mk nrt tme bs fs = some fs' → fs' s = fs s := by
  intro bs
  induction bs with
  | nil => intro fs fs' s _ h; cases h; rfl
  | cons c cs ih =>
    intro fs fs' s hs h
    unfold foldFiles at h
    rw [List.foldlM_cons] at h
    cases hp : mk c with
    | none => rw [hp] at h; exact absurd h (by simp)
    | some hh =>
      rw [hp] at h
      rw [ih _ fs' s (fun b hb => hs b (List.mem_cons_of_mem _ hb)) h]
      exact Function.update_of_ne (fun hc => hs c List.mem_cons_self hc.symm) _ _

theorem foldFiles_spec {nm : ℕ → Str} (hnm : Function.Injective nm) {mk : Blk → Option H5} {P : Blk → H5 → Prop} (nrt : ℕ) (tme : ℝ) :
    ∀ (bs : List Blk) (fs : Fs), (bs.map Blk.num).Nodup → (∀ b ∈ bs, ∃ h, mk b = some h ∧ P b h) →
    ∃ fs', foldFiles nm mk nrt tme bs fs = some fs' ∧ ∀ b ∈ bs, ∃ h, fs' (nm b.num) = some ⟨h, nrt, tme⟩ ∧ P b h := by
  intro bs
  induction bs with
  | nil => intro fs _ _; exact ⟨fs, rfl, by simp⟩
  | cons b bs ih =>
    intro fs hnum hmk
    rw [List.map_cons, List.nodup_cons] at hnum
    obtain ⟨h, e1, e2⟩ := hmk b List.mem_cons_self
    obtain ⟨fs', g1, g2⟩ := ih (Function.update fs (nm b.num) (some ⟨h, nrt, tme⟩)) hnum.2 fun c hc => hmk c (List.mem_cons_of_mem _ hc)
    refine ⟨fs', ?_, ?_⟩
    · unfold foldFiles
      rw [List.foldlM_cons, e1]
      exact g1
    · intro c hc
      rcases List.mem_cons.1 hc with rfl | hc
      · refine ⟨h, ?_, e2⟩
        rw [foldFiles_keep bs _ fs' _ (fun d hd he => hnum.1 (List.mem_map.2 ⟨d, hd, hnm he⟩)) g1]
        exact Function.update_self ..
      · exact g2 c hc

theorem dataName_num_inj (stem : Str) (animate : Bool) (nrt : ℕ) : Function.Injective fun n => dataName stem false animate nrt n := by
  intro m n h
  unfold dataName at h
  simp only [Bool.false_eq_true, if_false] at h
  split_ifs at h
  · exact padded_injective (List.append_cancel_left (List.append_cancel_right h))
  · exact padded_injective (List.append_cancel_left (List.append_cancel_right h))

theorem dataName_lump (stem : Str) (animate : Bool) (nrt m n : ℕ) : dataName stem true animate nrt m = dataName stem true animate nrt n := rfl

/-- creating zeros and overwriting them -/
theorem put_set (Z E : List ((Str × Str) × List ℝ)) (hZ : (Z.map Prod.fst).Nodup) (hE : (E.map Prod.fst).Nodup)
    (h : ∀ e ∈ E, ∃ z ∈ Z, z.1 = e.1 ∧ z.2.length = e.2.length) :
    ∃ g, ((putAll (fun _ => none) Z).bind fun h => E.foldlM setData h) = some g ∧ ∀ e ∈ E, g e.1 = some e.2 := by
  obtain ⟨h0, a1, a2, _⟩ := putAll_spec Z (fun _ => none) (fun _ _ => rfl) hZ
  obtain ⟨g, b1, b2, _⟩ := setData_spec E h0 (fun e he => by
    obtain ⟨z, hz, hz1, hz2⟩ := h e he
    exact ⟨z.2, by rw [← hz1]; exact a2 z hz, hz2⟩) hE
  exact ⟨g, by rw [a1]; exact b1, b2⟩

/-- distinct blocks have distinct datasets -/
theorem flat_keys_nodup {ent : Blk → List ((Str × Str) × List ℝ)} {names : List Str} (hn : names.Nodup)
    (bs : List Blk) (he : ∀ b ∈ bs, (ent b).map Prod.fst = names.map fun s => (resS b.num, s)) (hnum : (bs.map Blk.num).Nodup) :
    ((bs.flatMap ent).map Prod.fst).Nodup := by
  rw [List.map_flatMap, List.nodup_flatMap]
  refine ⟨fun b hb => by rw [he b hb]; exact hn.map fun x y hxy => (Prod.mk.inj hxy).2, ?_⟩
  rw [List.Nodup, List.pairwise_map] at hnum
  refine hnum.imp_of_mem fun {a c} ha hc hac => ?_
  rw [Function.onFun, List.disjoint_left]
  intro x hx hy
  rw [he a ha] at hx
  rw [he c hc] at hy
  obtain ⟨s, _, rfl⟩ := List.mem_map.1 hx
  obtain ⟨s', _, h'⟩ := List.mem_map.1 hy
  exact hac (resS_injective (Prod.mk.inj h').1.symm)

/-! ### places -/

theorem digits_no_colon (w n : ℕ) : ':' ∉ padded w n := fun h => by
  obtain ⟨d, hd, e⟩ := padded_digits w n _ h
  revert e
  interval_cases d <;> decide

theorem dataName_no_colon {a : Str} (ha : ':' ∉ a) (lump animate : Bool) (nrt num : ℕ) : ':' ∉ dataName a lump animate nrt num := by
  have h1 : ':' ∉ ".h5".toList := by decide
  have h2 : ':' ∉ ".".toList := by decide
  have h3 := digits_no_colon 8 nrt
  have h4 := digits_no_colon 6 num
  unfold dataName
  split_ifs <;> simp only [List.mem_append, not_or] <;> simp only [ha, h1, h2, h3, h4, not_false_eq_true, and_self]

theorem resS_no_slash (n : ℕ) : '/' ∉ resS n := by
  unfold resS
  rw [List.mem_append, not_or]
  exact ⟨by decide, digits_no_slash 6 n⟩

theorem lastPart_append {a v : Str} (hv : '/' ∉ v) : lastPart (a ++ "/".toList ++ v) = v := by
  have e : "/".toList = ['/'] := by decide
  unfold lastPart
  rw [e, List.reverse_append, List.reverse_append]
  rw [List.takeWhile_append_of_pos (fun c hc => by
    have : c ≠ '/' := fun h => hv (by rw [← h]; exact List.mem_reverse.1 hc)
    simpa using this)]
  simp

theorem lastPart_loc {stem v : Str} (hv : '/' ∉ v) (lump animate : Bool) (nrt num : ℕ) :
    lastPart (h5Location stem v lump animate nrt num) = v := by
  rw [C49_xmf]
  exact lastPart_append hv

theorem gridLoc_eq (gridPath : Str) (lump : Bool) (num : ℕ) (c : Str) :
    gridLoc gridPath lump num c = gName gridPath lump num ++ ":/".toList ++ coordS num ++ "/".toList ++ c := by
  have h1 : "/g.h5:/coordinates_".toList = "/g.h5".toList ++ ":/".toList ++ "coordinates_".toList := by decide
  have h2 : ".h5:/coordinates_".toList = ".h5".toList ++ ":/".toList ++ "coordinates_".toList := by decide
  unfold gridLoc gName coordS
  rw [h1, h2]
  split_ifs <;> simp only [List.append_assoc]

theorem shows_of {fs : Fs} {stamp : ℕ × ℝ} {path stem v : Str} {lump animate : Bool} {nrt : ℕ} {o : Opts} {b : Blk} {x : Arr} (hs : ':' ∉ stem) {f : File} (ht : (f.nrt, f.tme) = stamp)
    (hf : fs (path ++ "/".toList ++ dataName stem lump animate nrt b.num) = some f) (hd : f.h (resS b.num, v) = some (wdata o b x)) :
    Shows fs stamp path (h5Location stem v lump animate nrt b.num) (b.nk + 2 * wng o b - 1, b.nj + 2 * wng o b - 1, b.ni + 2 * wng o b - 1) o.rnd
      (shifted (woff o b) x) := by
  refine ⟨_, _, _, f, _, C49_xmf _ _ _ _ _ _, dataName_no_colon hs _ _ _ _, resS_no_slash _, hf, ht, hd, ?_, ?_⟩
  · unfold wdata
    rw [List.length_map, ravelF_length]
    rfl
  · intro i j k hi hj hk
    unfold wdata
    rw [List.getElem?_map]
    have hlt : i + wdim o b b.ni * (j + wdim o b b.nj * k) < wdim o b b.ni * wdim o b b.nj * wdim o b b.nk := ix_lt hi hj hk
    have hg := ravelF_get (a := wdim o b b.ni) (b := wdim o b b.nj) (c := wdim o b b.nk) (fun i j k => x (i + woff o b) (j + woff o b) (k + woff o b))
      hi hj hk 0
    rw [List.getD_eq_getElem?_getD] at hg
    have hlen : i + wdim o b b.ni * (j + wdim o b b.nj * k) < (ravelF (wdim o b b.ni) (wdim o b b.nj) (wdim o b b.nk)
      (fun i j k => x (i + woff o b) (j + woff o b) (k + woff o b))).length := by rw [ravelF_length]; exact hlt
    rw [List.getElem?_eq_getElem hlen, Option.getD_some] at hg
    show Option.map o.rnd (ravelF _ _ _ _)[i + wdim o b b.ni * (j + wdim o b b.nj * k)]? = _
    rw [List.getElem?_eq_getElem hlen, hg]
    rfl

/-- an entry whose data are in the file describes the block -/
theorem describes_of {fs : Fs} {stamp : ℕ × ℝ} {path : Str} {m : Meta} {nrt : ℕ} {o : Opts} {b : Blk} {time : ℝ} {names : List Str} {vel : Bool}
    {field : Str → Arr → Prop} (hs : ':' ∉ m.stem) {f : File} (ht : (f.nrt, f.tme) = stamp)
    (hf : fs (path ++ "/".toList ++ dataName m.stem m.lump m.animate nrt b.num) = some f)
    (hd : ∀ v ∈ names, ∃ x, field v x ∧ f.h (resS b.num, v) = some (wdata o b x))
    (hv : vel = true → f.h (resS b.num, "u".toList) = some (wdata o b fun i j k => b.q i j k 1) ∧
      f.h (resS b.num, "v".toList) = some (wdata o b fun i j k => b.q i j k 2) ∧
      f.h (resS b.num, "w".toList) = some (wdata o b fun i j k => b.q i j k 3)) :
    Describes fs stamp path m.gridPath m.lump o.rnd field names vel b (wng o b) (woff o b)
      (entry m time names vel nrt b.num b.ni b.nj b.nk (wng o b)) := by
  refine ⟨rfl, rfl, ?_, ?_, ?_, ?_, ?_⟩
  · show List.Forall₂ _ _ (List.map _ _)
    simp only [List.map_cons, List.map_nil]
    exact .cons (gridLoc_eq _ _ _ _) (.cons (gridLoc_eq _ _ _ _) (.cons (gridLoc_eq _ _ _ _) .nil))
  · show List.map _ (_ ++ _) = _
    rw [List.map_append, List.map_map]
    congr 1
    · exact List.map_id _
    · cases vel <;> rfl
  · intro a ha
    rcases List.mem_append.1 ha with ha | ha
    · obtain ⟨v, _, rfl⟩ := List.mem_map.1 ha; rfl
    · cases vel with
      | false => simp at ha
      | true => simp only [if_true, List.mem_singleton] at ha; subst ha; rfl
  · intro a ha hvec
    rcases List.mem_append.1 ha with ha | ha
    · obtain ⟨v, hvn, rfl⟩ := List.mem_map.1 ha
      obtain ⟨x, hx, hdx⟩ := hd v hvn
      exact ⟨_, x, rfl, hx, shows_of hs ht hf hdx⟩
    · cases vel with
      | false => simp at ha
      | true => simp only [if_true, List.mem_singleton] at ha; subst ha; exact absurd hvec (by simp [vectorAtt])
  · intro a ha hvec
    rcases List.mem_append.1 ha with ha | ha
    · obtain ⟨v, hvn, rfl⟩ := List.mem_map.1 ha
      exact absurd hvec (by simp [scalarAtt])
    · cases vel with
      | false => simp at ha
      | true =>
        simp only [if_true, List.mem_singleton] at ha
        subst ha
        obtain ⟨h1, h2, h3⟩ := hv rfl
        exact ⟨rfl, .cons (shows_of hs ht hf h1) (.cons (shows_of hs ht hf h2) (.cons (shows_of hs ht hf h3) .nil))⟩

/-! ### restarts -/

theorem dataName_q (lump animate : Bool) (nrt num : ℕ) : dataName "q".toList lump animate nrt num = varFileName lump animate nrt num := by
  have h1 : "q.".toList = "q".toList ++ ".".toList := by decide
  have h2 : "q.h5".toList = "q".toList ++ ".h5".toList := by decide
  unfold dataName varFileName
  rw [h1, h2]

theorem lastY_eq (b : Blk) : lastY b = fun i j k => 1 - ((List.range (b.species.length - 1)).map fun n => b.q i j k (5 + n)).sum := by
  funext i j k
  unfold lastY
  split_ifs with h
  · rfl
  · rw [show b.species.length - 1 = 0 by omega]; simp

/-- every variable named is among the datasets of the block, with its meaning -/
theorem field_entry (o : Opts) (b : Blk) (hne : b.species ≠ []) {v : Str}
    (hv : v ∈ (if b.solver then ["rho".toList] else []) ++ primNames b.species ++ [b.species.getLastD []]) :
    ∃ x, FieldOf b v x ∧ ((resS b.num, v), wdata o b x) ∈ blkEntries o b := by
  simp only [List.mem_append, List.mem_singleton] at hv
  rcases hv with (hv | hv) | hv
  · cases hs : b.solver with
    | false => rw [hs] at hv; simp at hv
    | true =>
      rw [hs] at hv
      simp only [if_true, List.mem_singleton] at hv
      subst hv
      refine ⟨b.rho, Or.inl ⟨rfl, rfl⟩, ?_⟩
      unfold blkEntries
      rw [if_pos hs]
      simp
  · obtain ⟨n, hn⟩ := List.mem_iff_getElem?.1 hv
    refine ⟨fun i j k => b.q i j k n, Or.inr (Or.inl ⟨n, hn, rfl⟩), ?_⟩
    have hlt : n < (primNames b.species).length := (List.getElem?_eq_some_iff.1 hn).1
    have := mem_entry o b hlt
    rw [List.getD_eq_getElem?_getD, hn] at this
    exact this
  · refine ⟨lastY b, Or.inr (Or.inr ⟨?_, lastY_eq b⟩), ?_⟩
    · have := congrArg List.getLast? (names_eq hne)
      rw [List.getLast?_concat] at this
      rw [hv]
      exact this.symm
    · rw [hv]
      unfold blkEntries
      simp

theorem prim_uvw (sp : List Str) : "u".toList ∈ primNames sp ∧ "v".toList ∈ primNames sp ∧ "w".toList ∈ primNames sp := by
  unfold primNames
  simp

theorem uvw_entries (o : Opts) (b : Blk) :
    ((resS b.num, "u".toList), wdata o b fun i j k => b.q i j k 1) ∈ blkEntries o b ∧
    ((resS b.num, "v".toList), wdata o b fun i j k => b.q i j k 2) ∈ blkEntries o b ∧
    ((resS b.num, "w".toList), wdata o b fun i j k => b.q i j k 3) ∈ blkEntries o b := by
  have hl : 3 < (primNames b.species).length := by unfold primNames; simp
  exact ⟨mem_entry o b (n := 1) (by omega), mem_entry o b (n := 2) (by omega), mem_entry o b (n := 3) hl⟩

theorem sp_mem {sp : List Str} (hne : sp ≠ []) {s : Str} (h : s ∈ sp) : s ∈ primNames sp ++ [sp.getLastD []] := by
  rw [← names_eq hne] at h
  unfold primNames
  simp only [List.mem_append] at h ⊢
  tauto

/-- **C106 (restart).** After writing a restart the xmf file describes every block, in order, at the time of the restart: all scalars and the
    velocity resolve to the data written. -/
theorem C106_restart (o : Opts) (gridPath : Str) (mb : Mb) (fs : Fs) (hne : mb.blks ≠ []) (hnum : (mb.blks.map Blk.num).Nodup)
    (hsp : ∀ b ∈ mb.blks, NamesOk b.species) :
    ∃ fs', writeRestart o mb fs = some fs' ∧ List.Forall₂ (fun b e => e.time = mb.tme ∧
      Describes fs' (mb.nrt, mb.tme) o.path gridPath o.lump o.rnd (FieldOf b)
        ((if b.solver then ["rho".toList] else []) ++ ["p".toList, "T".toList] ++ b.species) true b (kept o.withHalo b.solver b.ng)
        (layers b.solver b.ng - kept o.withHalo b.solver b.ng) e) mb.blks (restartTree o gridPath mb) := by
  obtain ⟨fs', w1, w2⟩ := written o mb fs hne hnum hsp
  refine ⟨fs', w1, ?_⟩
  unfold restartTree
  rw [List.forall₂_map_right_iff, List.forall₂_same]
  intro b hb
  obtain ⟨f, f1, f2, f3, f4⟩ := w2 b hb
  refine ⟨rfl, ?_⟩
  rw [readName_eq, ← dataName_q] at f1
  have hg : kept o.withHalo b.solver b.ng = wng o b := by
    unfold kept layers wng; cases b.solver <;> cases o.withHalo <;> simp
  rw [← woff_eq, hg]
  have hs : b.species ≠ [] := (hsp b hb).1
  refine describes_of (m := ⟨"q".toList, gridPath, o.lump, o.animate⟩) (nrt := mb.nrt) (show ':' ∉ "q".toList by decide) (by rw [f2, f3]) f1 (fun v hv => ?_) fun _ => ?_
  · obtain ⟨x, hx, he⟩ := field_entry o b hs (v := v) (by
      simp only [List.mem_append, List.mem_cons, List.not_mem_nil, or_false] at hv
      rcases hv with (hv | hv) | hv
      · simp only [List.mem_append]; exact Or.inl (Or.inl hv)
      · simp only [List.mem_append]
        refine Or.inl (Or.inr ?_)
        unfold primNames
        rcases hv with rfl | rfl <;> simp
      · have := sp_mem hs hv
        simp only [List.mem_append] at this ⊢
        tauto)
    exact ⟨x, hx, f4 _ he⟩
  · obtain ⟨h1, h2, h3⟩ := uvw_entries o b
    exact ⟨f4 _ h1, f4 _ h2, f4 _ h3⟩

/-! ### the tree kept in memory -/

theorem pyInt_padded (w n : ℕ) : pyInt (padded w n) = some (n : ℤ) := by
  unfold pyInt
  have hne : padded w n ≠ [] := by
    unfold padded; intro h; exact decimal_ne_nil n (List.append_eq_nil_iff.1 h).2
  rw [digits_strip _ (padded_digits w n)]
  have hu : unsigned (padded w n) = some n := by
    unfold unsigned; rw [if_neg hne, digitsVal_padded]
  cases hd : padded w n with
  | nil => exact absurd hd hne
  | cons c cs =>
    have hc : IsDigit c := padded_digits w n c (by rw [hd]; simp)
    obtain ⟨_, h1, h2, _⟩ := isDigit_ne hc
    rw [hd] at hu
    split
    · rename_i heq; simp at heq; exact absurd heq.1 h1
    · rename_i heq; simp at heq; exact absurd heq.1 h2
    · rename_i heq; rw [hu]; rfl

theorem updateAtt_scalar (m : Meta) {vel : Bool} (nrt nrt0 num ni nj nk ng : ℕ) {v : Str} (hv : vel = true → v ≠ "Velocity".toList) :
    updateAtt m vel nrt num (scalarAtt m nrt0 num ni nj nk ng v) = scalarAtt m nrt num ni nj nk ng v := by
  unfold updateAtt
  rw [if_neg (fun h => hv h.1 h.2)]
  rfl

theorem updateAtt_vel (m : Meta) (nrt nrt0 num ni nj nk ng : ℕ) {vs : List Str} (hv : ∀ v ∈ vs, '/' ∉ v) :
    updateAtt m true nrt num (vectorAtt m nrt0 num ni nj nk ng "Velocity".toList vs) = vectorAtt m nrt num ni nj nk ng "Velocity".toList vs := by
  have e : (vs.map fun v => h5Location m.stem v m.lump m.animate nrt0 num).map (fun s => h5Location m.stem (lastPart s) m.lump m.animate nrt num) =
      vs.map fun v => h5Location m.stem v m.lump m.animate nrt num := by
    rw [List.map_map]
    refine List.map_congr_left fun v h => ?_
    rw [Function.comp_apply, lastPart_loc (hv v h)]
  unfold updateAtt
  rw [if_pos ⟨rfl, rfl⟩, if_pos (show (vectorAtt m nrt0 num ni nj nk ng "Velocity".toList vs).vector = true from rfl)]
  unfold vectorAtt
  rw [e]

theorem mapM_eq {α β : Type} {f : α → Option β} {g : α → β} : ∀ (l : List α), (∀ x ∈ l, f x = some (g x)) → l.mapM f = some (l.map g) := by
  intro l
  induction l with
  | nil => intro _; rfl
  | cons a l ih =>
    intro h
    rw [List.mapM_cons, h a List.mem_cons_self, ih fun x hx => h x (List.mem_cons_of_mem _ hx)]
    rfl

theorem entry_name_tail (m : Meta) (time : ℝ) (names : List Str) (vel : Bool) (nrt num ni nj nk ng : ℕ) :
    (entry m time names vel nrt num ni nj nk ng).name.tail = padded 6 num := by
  show ("B".toList ++ padded 6 num).tail = _
  rw [show "B".toList = ['B'] by decide]
  rfl

/-- **C106 (update).** Whatever was written before, the tree kept in memory, updated at step `nrt` and time `tme`, is the tree a fresh
    registration at that step and time would give. -/
theorem C106_update (m : Meta) (names : List Str) (vel : Bool) (hv : vel = true → "Velocity".toList ∉ names) (tab : List (ℕ × ℕ × ℕ))
    (nrt0 : ℕ) (time0 : ℝ) (hist : List (ℕ × ℝ)) (nrt : ℕ) (tme : ℝ) :
    (hist ++ [(nrt, tme)]).foldlM (fun t p => update m vel p.1 p.2 t) (register m time0 names vel nrt0 tab) =
      some (register m tme names vel nrt tab) := by
  have one : ∀ (nrt0 nrt : ℕ) (time0 tme : ℝ), update m vel nrt tme (register m time0 names vel nrt0 tab) =
      some (register m tme names vel nrt tab) := by
    intro nrt0 nrt time0 tme
    unfold update register
    rw [List.mapM_map]
    refine mapM_eq _ fun p _ => ?_
    show (pyInt (XBlk.name _).tail).map _ = _
    rw [entry_name_tail, pyInt_padded]
    simp only [Option.map_some, Int.toNat_natCast, Option.some.injEq]
    unfold entry
    simp only [XBlk.mk.injEq, true_and, List.map_append, List.map_map]
    congr 1
    · refine List.map_congr_left fun v hvn => ?_
      exact updateAtt_scalar m _ _ _ _ _ _ _ fun h he => hv h (he ▸ hvn)
    · cases vel with
      | false => rfl
      | true =>
        simp only [if_true, List.map_cons, List.map_nil]
        rw [updateAtt_vel m _ _ _ _ _ _ _ (by decide)]
  induction hist generalizing nrt0 time0 with
  | nil => simp [one]
  | cons p ps ih =>
    rw [List.cons_append, List.foldlM_cons, one]
    exact ih p.1 p.2

/-! ### run-time writers -/

theorem createdFor_nodup (run : Run) {names : List Str} (h : names.Nodup) : ((createdFor run names).map Prod.fst).Nodup := by
  have e : (createdFor run names).map Prod.fst = (List.range run.flatten.length).flatMap fun n => names.map fun s => (resS n, s) := by
    unfold createdFor
    rw [List.map_flatMap]
    simp only [List.map_map]
    rfl
  rw [e, List.nodup_flatMap]
  refine ⟨fun n _ => h.map fun x y hxy => (Prod.mk.inj hxy).2, ?_⟩
  refine List.nodup_range.imp ?_
  intro m n hmn
  rw [Function.onFun, List.disjoint_left]
  intro x hx hy
  obtain ⟨s, _, rfl⟩ := List.mem_map.1 hx
  obtain ⟨s', _, he⟩ := List.mem_map.1 hy
  exact hmn (resS_injective (Prod.mk.inj he).1.symm)

theorem writeRun_spec (m : Meta) (path : Str) {names : List Str} (hn : names.Nodup) {ent : Blk → List ((Str × Str) × List ℝ)} {run : Run}
    (hnum : (run.flatten.map Blk.num).Perm (List.range run.flatten.length))
    (he : ∀ b ∈ run.flatten, (ent b).map Prod.fst = names.map fun s => (resS b.num, s))
    (hl : ∀ b ∈ run.flatten, ∀ e ∈ ent b, e.2.length = (b.ni - 1) * (b.nj - 1) * (b.nk - 1)) {order : List Blk}
    (ho : order.Perm run.flatten) (nrt : ℕ) (tme : ℝ) (fs : Fs) :
    ∃ fs', writeRun m path names ent run order nrt tme fs = some fs' ∧ ∀ b ∈ run.flatten, ∃ f,
      fs' (path ++ "/".toList ++ dataName m.stem m.lump m.animate nrt b.num) = some f ∧ f.nrt = nrt ∧ f.tme = tme ∧
      ∀ e ∈ ent b, f.h e.1 = some e.2 := by
  have hnd : (order.map Blk.num).Nodup := (ho.map Blk.num).nodup_iff.2 (hnum.nodup_iff.2 List.nodup_range)
  have he' : ∀ b ∈ order, (ent b).map Prod.fst = names.map fun s => (resS b.num, s) := fun b hb => he b (ho.mem_iff.1 hb)
  have key : ∀ b ∈ order, ∀ e ∈ ent b, ∃ s ∈ names, e.1 = (resS b.num, s) := by
    intro b hb e heb
    have : e.1 ∈ (ent b).map Prod.fst := List.mem_map.2 ⟨e, heb, rfl⟩
    rw [he' b hb] at this
    obtain ⟨s, hs, h⟩ := List.mem_map.1 this
    exact ⟨s, hs, h.symm⟩
  unfold writeRun
  cases hlump : m.lump with
  | true =>
    rw [if_pos rfl]
    obtain ⟨g, g1, g2⟩ := put_set (createdFor run names) (order.flatMap ent) (createdFor_nodup run hn) (flat_keys_nodup hn order he' hnd) (by
      intro e hee
      obtain ⟨b, hb, heb⟩ := List.mem_flatMap.1 hee
      obtain ⟨s, hs, hk⟩ := key b hb e heb
      have hb' := ho.mem_iff.1 hb
      have hlt : b.num < run.flatten.length := List.mem_range.1 (hnum.mem_iff.1 (List.mem_map.2 ⟨b, hb', rfl⟩))
      refine ⟨((resS b.num, s), List.replicate (extentCC run b.num) 0), List.mem_flatMap.2 ⟨b.num, List.mem_range.2 hlt,
        List.mem_map.2 ⟨s, hs, rfl⟩⟩, hk.symm, ?_⟩
      rw [List.length_replicate, extent_eq hnum hb', hl b hb' e heb])
    rw [g1]
    refine ⟨_, rfl, fun b hb => ⟨⟨g, nrt, tme⟩, ?_, rfl, rfl, fun e heb => g2 e (List.mem_flatMap.2 ⟨b, ho.mem_iff.2 hb, heb⟩)⟩⟩
    rw [dataName_lump m.stem m.animate nrt b.num 0]
    exact Function.update_self ..
  | false =>
    rw [if_neg (by simp)]
    obtain ⟨fs', f1, f2⟩ := foldFiles_spec (nm := fun n => path ++ "/".toList ++ dataName m.stem false m.animate nrt n)
      (fun a c h => dataName_num_inj _ _ _ (List.append_cancel_left h))
      (mk := fun b => (putAll (fun _ => none) (zeros names b)).bind fun h => (ent b).foldlM setData h)
      (P := fun b h => ∀ e ∈ ent b, h e.1 = some e.2) nrt tme order fs hnd (by
        intro b hb
        refine put_set _ _ ?_ ?_ ?_
        · unfold zeros
          rw [List.map_map]
          exact hn.map fun x y hxy => (Prod.mk.inj hxy).2
        · rw [he' b hb]; exact hn.map fun x y hxy => (Prod.mk.inj hxy).2
        · intro e heb
          obtain ⟨s, hs, hk⟩ := key b hb e heb
          exact ⟨_, List.mem_map.2 ⟨s, hs, rfl⟩, hk.symm, by
            rw [List.length_replicate, hl b (ho.mem_iff.1 hb) e heb]⟩)
    refine ⟨fs', f1, fun b hb => ?_⟩
    obtain ⟨h, h1, h2⟩ := f2 b (ho.mem_iff.2 hb)
    exact ⟨_, h1, rfl, rfl, h2⟩

theorem register_get (m : Meta) (time : ℝ) (names : List Str) (vel : Bool) (nrt : ℕ) {run : Run}
    (hnum : (run.flatten.map Blk.num).Perm (List.range run.flatten.length)) {b : Blk} (hb : b ∈ run.flatten) :
    (register m time names vel nrt (table run))[b.num]? = some (entry m time names vel nrt b.num b.ni b.nj b.nk 0) := by
  unfold register
  rw [List.getElem?_map, List.getElem?_zipIdx, (C48_table run hnum).2 b hb]
  simp

theorem pOpts_wng (rnd : ℝ → ℝ) (b : Blk) : wng (pOpts rnd) b = 0 := by
  unfold wng pOpts
  cases b.solver <;> simp

theorem pOpts_woff (rnd : ℝ → ℝ) (b : Blk) : woff (pOpts rnd) b = layers b.solver b.ng := by
  rw [woff_eq]
  unfold kept pOpts layers
  cases b.solver <;> simp

theorem restart_names_eq {sp : List Str} (h : sp ≠ []) : ["rho".toList] ++ primNames sp ++ [sp.getLastD []] = allNames sp := by
  unfold allNames primNames
  conv_rhs => rw [← names_eq h]
  simp only [List.append_assoc, List.cons_append, List.nil_append]

/-- **C106 (run).** A run registers its restart metadata once, writes at any steps and times, and writes again at step `nrt` and time `tme`:
    for every distribution of the blocks over ranks and every order of writing, one file or many, the write succeeds and the xmf file saved
    has one entry per block, at the position of its number, that describes the block at that time and points to data just written. -/
theorem C106_run (m : Meta) (hm : m.stem = "q".toList) (path : Str) (rnd : ℝ → ℝ) (run : Run) (sp : List Str) (hp : Proper run sp)
    (hv : "Velocity".toList ∉ sp) (order : List Blk) (ho : order.Perm run.flatten) (nrt0 : ℕ) (time0 : ℝ) (hist : List (ℕ × ℝ)) (nrt : ℕ) (tme : ℝ)
    (fs : Fs) :
    ∃ fs' tree, writeRun m path (allNames sp) (blkWrites rnd sp) run order nrt tme fs = some fs' ∧
      (hist ++ [(nrt, tme)]).foldlM (fun t p => update m true p.1 p.2 t) (register m time0 (restartNames sp) true nrt0 (table run)) = some tree ∧
      tree.length = run.flatten.length ∧
      ∀ b ∈ run.flatten, ∃ e, tree[b.num]? = some e ∧ e.time = tme ∧
        Describes fs' (nrt, tme) path m.gridPath m.lump rnd (FieldOf b) (["rho".toList, "p".toList, "T".toList] ++ sp) true b 0 b.ng e := by
  obtain ⟨hnum, hsp, hnames⟩ := hp
  have hw : ∀ b ∈ run.flatten, blkWrites rnd sp b = blkEntries (pOpts rnd) b := by
    intro b hb
    obtain ⟨s1, s2⟩ := hsp b hb
    rw [← s1]
    exact blkWrites_eq rnd b s2 (by rw [s1]; exact hnames)
  obtain ⟨fs', w1, w2⟩ := writeRun_spec m path (allNames_nodup hnames) (ent := blkWrites rnd sp) hnum (by
      intro b hb
      obtain ⟨s1, s2⟩ := hsp b hb
      rw [hw b hb, entries_keys, if_pos s2, s1, restart_names_eq hnames.1]) (by
      intro b hb e heb
      obtain ⟨s1, s2⟩ := hsp b hb
      rw [hw b hb] at heb
      unfold blkEntries at heb
      rw [if_pos s2] at heb
      simp only [List.mem_append, List.mem_singleton, List.mem_map] at heb
      rcases heb with (rfl | ⟨n, _, rfl⟩) | rfl
      · exact wdata_length rnd b _
      · exact wdata_length rnd b (fun i j k => b.q i j k n)
      · exact wdata_length rnd b _) ho nrt tme fs
  refine ⟨fs', _, w1, C106_update m _ _ (fun _ => ?_) _ _ _ _ _ _, ?_, ?_⟩
  · unfold restartNames
    simp only [List.mem_append, not_or]
    exact ⟨by decide, hv⟩
  · unfold register
    rw [List.length_map, List.length_zipIdx, (C48_table run hnum).1]
  · intro b hb
    obtain ⟨f, f1, f2, f3, f4⟩ := w2 b hb
    obtain ⟨s1, s2⟩ := hsp b hb
    rw [hw b hb] at f4
    refine ⟨_, register_get m tme _ true nrt hnum hb, rfl, ?_⟩
    have hd := describes_of (m := m) (nrt := nrt) (o := pOpts rnd) (b := b) (time := tme) (names := restartNames sp) (vel := true)
      (field := FieldOf b) (by rw [hm]; decide) (by rw [f2, f3]) f1 (fun v hvn => by
        obtain ⟨x, hx, hxe⟩ := field_entry (pOpts rnd) b (by rw [s1]; exact hnames.1) (v := v) (by
          rw [if_pos s2, s1, restart_names_eq hnames.1]
          unfold restartNames at hvn
          unfold allNames
          simp only [List.mem_append, List.mem_cons] at hvn ⊢
          tauto)
        exact ⟨x, hx, f4 _ hxe⟩) fun _ => by
        obtain ⟨h1, h2, h3⟩ := uvw_entries (pOpts rnd) b
        exact ⟨f4 _ h1, f4 _ h2, f4 _ h3⟩
    rw [pOpts_wng, pOpts_woff] at hd
    have hng : layers b.solver b.ng = b.ng := by unfold layers; rw [s2]; rfl
    rw [hng] at hd
    exact hd

/-! ### arrays -/

theorem arrNames_nodup (a : Str) (c : Option ℕ) : (arrNames a c).Nodup := by
  cases c with
  | none => exact List.nodup_singleton _
  | some c =>
    exact List.nodup_range.map fun x y h => decimal_injective (List.append_cancel_left h)

theorem arr_keys (o : Opts) (a : Str) (c : Option ℕ) (x : ℕ → ℕ → Arr) (b : Blk) :
    (arrEntries o a c x b).map Prod.fst = (arrNames a c).map fun s => (resS b.num, s) := by
  unfold arrEntries
  rw [List.map_map]
  apply List.ext_getElem
  · simp
  · intro n h1 h2
    simp only [List.length_map, List.length_range] at h1
    simp [List.getD_eq_getElem, h1]

/-- what the name of a component means -/
def CompOf (a : Str) (comps : Option ℕ) (x : ℕ → Arr) (name : Str) (y : Arr) : Prop :=
  match comps with
  | none => name = a ∧ y = x 0
  | some c => ∃ j < c, name = a ++ "_".toList ++ decimal j ∧ y = x j

theorem arr_entry (o : Opts) (a : Str) (c : Option ℕ) (x : ℕ → ℕ → Arr) (b : Blk) {v : Str} (hv : v ∈ arrNames a c) :
    ∃ y, CompOf a c (x b.num) v y ∧ ((resS b.num, v), wdata o b y) ∈ arrEntries o a c x b := by
  obtain ⟨j, hj⟩ := List.mem_iff_getElem?.1 hv
  have hlt : j < (arrNames a c).length := (List.getElem?_eq_some_iff.1 hj).1
  refine ⟨x b.num j, ?_, ?_⟩
  · cases c with
    | none =>
      have : j = 0 := by simpa [arrNames] using hlt
      subst this
      simp only [arrNames, List.getElem?_cons_zero, Option.some.injEq] at hj
      exact ⟨hj.symm, rfl⟩
    | some c =>
      have hjc : j < c := by simpa [arrNames] using hlt
      refine ⟨j, hjc, ?_, rfl⟩
      simp only [arrNames, List.getElem?_map, List.getElem?_range hjc, Option.map_some, Option.some.injEq] at hj
      exact hj.symm
  · unfold arrEntries
    refine List.mem_map.2 ⟨j, List.mem_range.2 hlt, ?_⟩
    rw [List.getD_eq_getElem?_getD, hj]
    rfl

/-- **C106 (arrays of a run).** As `C106_run`, for the dump of an array with any number of components. -/
theorem C106_run_array (m : Meta) (hm : ':' ∉ m.stem) (path : Str) (rnd : ℝ → ℝ) (run : Run)
    (hnum : (run.flatten.map Blk.num).Perm (List.range run.flatten.length)) (comps : Option ℕ) (x : ℕ → ℕ → Arr) (order : List Blk)
    (ho : order.Perm run.flatten) (nrt0 : ℕ) (time0 : ℝ) (hist : List (ℕ × ℝ)) (nrt : ℕ) (tme : ℝ) (fs : Fs) :
    ∃ fs' tree, writeRun m path (arrNames m.stem comps) (arrEntries (pOpts rnd) m.stem comps x) run order nrt tme fs = some fs' ∧
      (hist ++ [(nrt, tme)]).foldlM (fun t p => update m false p.1 p.2 t) (register m time0 (arrNames m.stem comps) false nrt0 (table run)) =
        some tree ∧
      tree.length = run.flatten.length ∧
      ∀ b ∈ run.flatten, ∃ e, tree[b.num]? = some e ∧ e.time = tme ∧
        Describes fs' (nrt, tme) path m.gridPath m.lump rnd (CompOf m.stem comps (x b.num)) (arrNames m.stem comps) false b 0 (layers b.solver b.ng) e := by
  obtain ⟨fs', w1, w2⟩ := writeRun_spec m path (arrNames_nodup m.stem comps) (ent := arrEntries (pOpts rnd) m.stem comps x) hnum
    (fun b _ => arr_keys _ _ _ _ _) (by
      intro b _ e heb
      unfold arrEntries at heb
      obtain ⟨j, _, rfl⟩ := List.mem_map.1 heb
      exact wdata_length rnd b _) ho nrt tme fs
  refine ⟨fs', _, w1, C106_update m _ _ (fun h => absurd h (by simp)) _ _ _ _ _ _, ?_, ?_⟩
  · unfold register
    rw [List.length_map, List.length_zipIdx, (C48_table run hnum).1]
  · intro b hb
    obtain ⟨f, f1, f2, f3, f4⟩ := w2 b hb
    refine ⟨_, register_get m tme _ false nrt hnum hb, rfl, ?_⟩
    have hd := describes_of (m := m) (nrt := nrt) (o := pOpts rnd) (b := b) (time := tme) (names := arrNames m.stem comps) (vel := false)
      (field := CompOf m.stem comps (x b.num)) hm (by rw [f2, f3]) f1 (fun v hvn => by
        obtain ⟨y, hy, hye⟩ := arr_entry (pOpts rnd) m.stem comps x b hvn
        exact ⟨y, hy, f4 _ hye⟩) fun h => absurd h (by simp)
    rw [pOpts_wng, pOpts_woff] at hd
    exact hd

theorem writeArray_spec (o : Opts) (a : Str) (comps : Option ℕ) (x : ℕ → ℕ → Arr) (mb : Mb) (fs : Fs) (hnum : (mb.blks.map Blk.num).Nodup) :
    ∃ fs', writeArray o a comps x mb fs = some fs' ∧ ∀ b ∈ mb.blks, ∃ f,
      fs' (o.path ++ "/".toList ++ dataName a o.lump o.animate mb.nrt b.num) = some f ∧ f.nrt = mb.nrt ∧ f.tme = mb.tme ∧
      ∀ e ∈ arrEntries o a comps x b, f.h e.1 = some e.2 := by
  unfold writeArray
  cases hlump : o.lump with
  | true =>
    rw [if_pos rfl]
    have flat : ∀ (bs : List Blk) (h : H5), bs.foldlM (fun h b => putAll h (arrEntries o a comps x b)) h =
        putAll h (bs.flatMap (arrEntries o a comps x)) := by
      intro bs
      induction bs with
      | nil => intro h; rfl
      | cons b bs ih =>
        intro h
        rw [List.foldlM_cons, List.flatMap_cons]
        unfold putAll
        rw [List.foldlM_append]
        refine bind_congr fun h' => ?_
        exact ih h'
    obtain ⟨g, g1, g2, _⟩ := putAll_spec (mb.blks.flatMap (arrEntries o a comps x)) (fun _ => none) (fun _ _ => rfl)
      (flat_keys_nodup (arrNames_nodup a comps) _ (fun b _ => arr_keys _ _ _ _ _) hnum)
    rw [flat, g1]
    refine ⟨_, rfl, fun b hb => ⟨⟨g, mb.nrt, mb.tme⟩, ?_, rfl, rfl, fun e heb => g2 e (List.mem_flatMap.2 ⟨b, hb, heb⟩)⟩⟩
    rw [dataName_lump a o.animate mb.nrt b.num 0]
    exact Function.update_self ..
  | false =>
    rw [if_neg (by simp)]
    obtain ⟨fs', f1, f2⟩ := foldFiles_spec (nm := fun n => o.path ++ "/".toList ++ dataName a false o.animate mb.nrt n)
      (fun a c h => dataName_num_inj _ _ _ (List.append_cancel_left h))
      (mk := fun b => putAll (fun _ => none) (arrEntries o a comps x b))
      (P := fun b h => ∀ e ∈ arrEntries o a comps x b, h e.1 = some e.2) mb.nrt mb.tme mb.blks fs hnum (by
        intro b hb
        obtain ⟨h, h1, h2, _⟩ := putAll_spec (arrEntries o a comps x b) (fun _ => none) (fun _ _ => rfl) (by
          rw [arr_keys]; exact (arrNames_nodup a comps).map fun x y hxy => (Prod.mk.inj hxy).2)
        exact ⟨h, h1, h2⟩)
    refine ⟨fs', f1, fun b hb => ?_⟩
    obtain ⟨h, h1, h2⟩ := f2 b hb
    exact ⟨_, h1, rfl, rfl, h2⟩

/-- **C106 (arrays).** Except for the time (`C106_time_violated`), the xmf file written with an array describes every block, with or without
    halo, for any number of components. -/
theorem C106_array_partial (o : Opts) (a gridPath : Str) (ha : ':' ∉ a) (comps : Option ℕ) (x : ℕ → ℕ → Arr) (mb : Mb) (fs : Fs)
    (hnum : (mb.blks.map Blk.num).Nodup) :
    ∃ fs', writeArray o a comps x mb fs = some fs' ∧ List.Forall₂ (fun b e =>
      Describes fs' (mb.nrt, mb.tme) o.path gridPath o.lump o.rnd (CompOf a comps (x b.num)) (arrNames a comps) false b (kept o.withHalo b.solver b.ng)
        (layers b.solver b.ng - kept o.withHalo b.solver b.ng) e) mb.blks (arrayTree o a comps gridPath mb) := by
  obtain ⟨fs', w1, w2⟩ := writeArray_spec o a comps x mb fs hnum
  refine ⟨fs', w1, ?_⟩
  unfold arrayTree
  rw [List.forall₂_map_right_iff, List.forall₂_same]
  intro b hb
  obtain ⟨f, f1, f2, f3, f4⟩ := w2 b hb
  have hg : kept o.withHalo b.solver b.ng = wng o b := by
    unfold kept layers wng; cases b.solver <;> cases o.withHalo <;> simp
  rw [← woff_eq, hg]
  refine describes_of (m := ⟨a, gridPath, o.lump, o.animate⟩) (nrt := mb.nrt) ha (by rw [f2, f3]) f1 (fun v hvn => ?_) fun h => absurd h (by simp)
  obtain ⟨y, hy, hye⟩ := arr_entry o a comps x b hvn
  exact ⟨y, hy, f4 _ hye⟩

/-- **C106 (time of an array), violated.** The time in the xmf file written with an array is zero whatever the time of the state; it is the
    time stored with the data only at time zero. -/
theorem C106_time_violated (o : Opts) (a gridPath : Str) (comps : Option ℕ) (mb : Mb) (h : mb.tme ≠ 0) :
    ∀ e ∈ arrayTree o a comps gridPath mb, e.time ≠ mb.tme := by
  intro e he
  obtain ⟨b, _, rfl⟩ := List.mem_map.1 he
  exact fun h' => h h'.symm

/-! ### coordinates -/

theorem ravel_at (rnd : ℝ → ℝ) (a b c : ℕ) (x : Arr) {i j k : ℕ} (hi : i < a) (hj : j < b) (hk : k < c) :
    ((ravelF a b c x).map rnd)[i + a * (j + b * k)]? = some (rnd (x i j k)) := by
  have hlen : i + a * (j + b * k) < (ravelF a b c x).length := by rw [ravelF_length]; exact ix_lt hi hj hk
  have hg := ravelF_get x hi hj hk 0
  rw [List.getD_eq_getElem?_getD, List.getElem?_eq_getElem hlen, Option.getD_some] at hg
  rw [List.getElem?_map, List.getElem?_eq_getElem hlen, hg]
  rfl

/-- the part of a grid file's name after its directory -/
def gTail (lump : Bool) (n : ℕ) : Str := if lump then "/g.h5".toList else "/g.".toList ++ padded 6 n ++ ".h5".toList

theorem gName_tail (path : Str) (lump : Bool) (n : ℕ) : gName path lump n = path ++ gTail lump n := by
  unfold gName gTail
  split_ifs <;> simp only [List.append_assoc]

theorem gTail_no_colon (lump : Bool) (n : ℕ) : ':' ∉ gTail lump n := by
  have h1 : ':' ∉ "/g.h5".toList := by decide
  have h2 : ':' ∉ "/g.".toList := by decide
  have h3 : ':' ∉ ".h5".toList := by decide
  have h4 := digits_no_colon 6 n
  unfold gTail
  split_ifs
  · exact h1
  · simp only [List.mem_append, not_or]
    exact ⟨⟨h2, h4⟩, h3⟩

theorem coordS_no_slash (n : ℕ) : '/' ∉ coordS n := by
  unfold coordS
  rw [List.mem_append, not_or]
  exact ⟨by decide, digits_no_slash 6 n⟩

theorem holds_shows {o : GOpts} {f : GFile} {b : GBlk} (h : Holds o f b) {fs : GFs} (hf : fs (gName o.path o.lump b.num) = some f) (dir : Str) :
    List.Forall₂ (fun (c : V3 → ℝ) loc => ShowsNodes fs dir o.path loc (b.nk + 2 * gng o b, b.nj + 2 * gng o b, b.ni + 2 * gng o b) o.rnd
      (shifted (goff o b) fun i j k => c (b.xyz i j k))) [V3.x, V3.y, V3.z]
      (["x".toList, "y".toList, "z".toList].map (gridLoc dir o.lump b.num)) := by
  have one : ∀ (c : V3 → ℝ) (v : Str), ((coordS b.num, v), (ravelF (b.ni + 2 * gng o b) (b.nj + 2 * gng o b) (b.nk + 2 * gng o b)
      (fun i j k => c (b.xyz (i + goff o b) (j + goff o b) (k + goff o b)))).map o.rnd) ∈ gEntries o b →
      ShowsNodes fs dir o.path (gridLoc dir o.lump b.num v) (b.nk + 2 * gng o b, b.nj + 2 * gng o b, b.ni + 2 * gng o b) o.rnd
        (shifted (goff o b) fun i j k => c (b.xyz i j k)) := by
    intro c v he
    rw [gName_tail] at hf
    refine ⟨gTail o.lump b.num, coordS b.num, v, f, _, ?_, gTail_no_colon _ _, coordS_no_slash _, hf, h.2 _ he, ?_, ?_⟩
    · rw [gridLoc_eq, gName_tail]
    · rw [List.length_map, ravelF_length]
    · intro i j k hi hj hk
      exact ravel_at o.rnd _ _ _ (fun i j k => c (b.xyz (i + goff o b) (j + goff o b) (k + goff o b))) hi hj hk
  simp only [List.map_cons, List.map_nil]
  refine .cons (one _ _ ?_) (.cons (one _ _ ?_) (.cons (one _ _ ?_) .nil)) <;> simp [gEntries]

/-- **C106 (grid).** Writing a grid writes an xmf file beside it that has, for every block in order, its number, its node counts and places
    where the coordinates of its nodes lie; with or without halo, in one file or one per block. -/
theorem C106_grid (o : GOpts) (bs : List GBlk) (fs : GFs) (hnum : (bs.map GBlk.num).Nodup) :
    ∃ fs', writeGrid o bs fs = some fs' ∧ List.Forall₂ (fun b e => e.1 = "B".toList ++ padded 6 b.num ∧
      e.2.1 = (b.nk + 2 * kept o.withHalo b.solver b.ng, b.nj + 2 * kept o.withHalo b.solver b.ng, b.ni + 2 * kept o.withHalo b.solver b.ng) ∧
      List.Forall₂ (fun (c : V3 → ℝ) loc => ShowsNodes fs' ".".toList o.path loc e.2.1 o.rnd
        (shifted (layers b.solver b.ng - kept o.withHalo b.solver b.ng) fun i j k => c (b.xyz i j k))) [V3.x, V3.y, V3.z] e.2.2)
      bs (gridTree o bs) := by
  obtain ⟨fs', w1, w2⟩ := gWritten o bs fs hnum
  refine ⟨fs', w1, ?_⟩
  unfold gridTree
  rw [List.forall₂_map_right_iff, List.forall₂_same]
  intro b hb
  obtain ⟨f, f1, f2⟩ := w2 b hb
  rw [← goff_eq, ← gng_eq]
  exact ⟨rfl, rfl, holds_shows f2 f1 _⟩

/-- **C106 (coordinates).** Every entry that describes a solution block (`Describes`, from the theorems above) finds the coordinates of the
    block in the grid: for any grid holding a block of that number and size, written with the same lumping and with as many halo layers as the
    solution, when the path in the metadata names the directory the grid was written to. -/
theorem C106_coordinates (o : GOpts) (bs : List GBlk) (fs : GFs) (hnum : (bs.map GBlk.num).Nodup) :
    ∃ fs', writeGrid o bs fs = some fs' ∧ ∀ b ∈ bs, ∀ (sfs : Fs) (stamp : ℕ × ℝ) (path dir : Str) (rnd : ℝ → ℝ) (field : Str → Arr → Prop)
      (names : List Str) (vel : Bool) (sb : Blk) (off : ℕ) (e : XBlk),
      sb.num = b.num → sb.ni = b.ni → sb.nj = b.nj → sb.nk = b.nk →
      Describes sfs stamp path dir o.lump rnd field names vel sb (kept o.withHalo b.solver b.ng) off e →
      List.Forall₂ (fun (c : V3 → ℝ) loc => ShowsNodes fs' dir o.path loc e.topo o.rnd
        (shifted (layers b.solver b.ng - kept o.withHalo b.solver b.ng) fun i j k => c (b.xyz i j k))) [V3.x, V3.y, V3.z] e.coords := by
  obtain ⟨fs', w1, w2⟩ := gWritten o bs fs hnum
  refine ⟨fs', w1, ?_⟩
  intro b hb sfs stamp path dir rnd field names vel sb off e hn hi hj hk hd
  obtain ⟨f, f1, f2⟩ := w2 b hb
  have hs := holds_shows f2 f1 dir
  have hc : e.coords = ["x".toList, "y".toList, "z".toList].map (gridLoc dir o.lump b.num) := by
    have h := hd.coords
    have h' : List.Forall₂ (fun loc (c : Str) => loc = gridLoc dir o.lump b.num c) e.coords ["x".toList, "y".toList, "z".toList] := by
      refine h.flip.imp fun a c hac => ?_
      rw [hac, gridLoc_eq, hn]
    exact List.forall₂_eq_eq_eq ▸ (List.forall₂_map_right_iff.2 h')
  rw [hc, hd.topo, hi, hj, hk, ← goff_eq, ← gng_eq]
  exact hs

/-- a grid of two blocks with three halo layers, written without them -/
example (fs : GFs) : ∃ fs', writeGrid ⟨"Grid".toList, false, false, id⟩ [⟨0, 3, 4, 5, true, 3, fun i j k => ⟨i, j, k⟩⟩, ⟨4, 2, 2, 2, true, 3, fun i _ _ => ⟨i, 0, 0⟩⟩]
    fs = some fs' := by
  obtain ⟨fs', h, _⟩ := C106_grid ⟨"Grid".toList, false, false, id⟩
    [⟨0, 3, 4, 5, true, 3, fun i j k => ⟨i, j, k⟩⟩, ⟨4, 2, 2, 2, true, 3, fun i _ _ => ⟨i, 0, 0⟩⟩] fs (by simp)
  exact ⟨fs', h⟩

/-- the two-block state, written in one file without halo: the pressure of block 7 seen by a viewer -/
example (fs : Fs) : ∃ fs' e, writeRestart ⟨"out".toList, true, true, false, id⟩ exMb fs = some fs' ∧
    (restartTree ⟨"out".toList, true, true, false, id⟩ "../Grid".toList exMb)[1]? = some e ∧ e.time = 1 / 2 ∧
    e.atts.map Att.name = ["rho", "p", "T", "O2", "N2", "Velocity"].map String.toList := by
  obtain ⟨h1, h2, h3⟩ := exMb_ok
  obtain ⟨fs', a, c⟩ := C106_restart ⟨"out".toList, true, true, false, id⟩ "../Grid".toList exMb fs h1 h2 h3
  cases c with
  | cons _ c =>
    cases c with
    | cons c _ => exact ⟨fs', _, a, rfl, c.1, rfl⟩

/-- a run of two ranks that wrote at steps 10 and 20 and writes at step 30 -/
example (fs : Fs) (order : List Blk) (ho : order.Perm exRun.flatten) :
    ∃ fs' tree, writeRun ⟨"q".toList, "../Grid".toList, false, true⟩ "out".toList (allNames ["O2".toList, "N2".toList])
      (blkWrites id ["O2".toList, "N2".toList]) exRun order 30 3 fs = some fs' ∧
    [(10, 1), (20, 2), (30, 3)].foldlM (fun t p => update ⟨"q".toList, "../Grid".toList, false, true⟩ true p.1 p.2 t)
      (register ⟨"q".toList, "../Grid".toList, false, true⟩ 0 (restartNames ["O2".toList, "N2".toList]) true 0 (table exRun)) = some tree ∧
    tree.length = 3 := by
  obtain ⟨fs', t, h1, h2, h3, _⟩ := C106_run ⟨"q".toList, "../Grid".toList, false, true⟩ rfl "out".toList id exRun _ exRun_proper (by decide)
    order ho 0 0 [(10, 1), (20, 2)] 30 3 fs
  exact ⟨fs', t, h1, h2, h3⟩

/-- an array of three components and one of none of a run -/
example (fs : Fs) (x : ℕ → ℕ → Arr) (c : Option ℕ) : ∃ fs' tree,
    writeRun ⟨"Qc".toList, "../Grid".toList, true, true⟩ "out".toList (arrNames "Qc".toList c) (arrEntries (pOpts id) "Qc".toList c x) exRun
      exRun.flatten 30 3 fs = some fs' ∧
    [(30, 3)].foldlM (fun t p => update ⟨"Qc".toList, "../Grid".toList, true, true⟩ false p.1 p.2 t)
      (register ⟨"Qc".toList, "../Grid".toList, true, true⟩ 0 (arrNames "Qc".toList c) false 0 (table exRun)) = some tree := by
  obtain ⟨fs', t, h1, h2, _⟩ := C106_run_array ⟨"Qc".toList, "../Grid".toList, true, true⟩ (show ':' ∉ "Qc".toList by decide) "out".toList id exRun
    exRun_proper.numbers c x exRun.flatten (.refl _) 0 0 [] 30 3 fs
  exact ⟨fs', t, h1, h2⟩

example (fs : Fs) (x : ℕ → ℕ → Arr) : ∃ fs', writeArray ⟨"out".toList, true, false, true, id⟩ "phi".toList (some 3) x exMb fs = some fs' := by
  obtain ⟨fs', h, _⟩ := C106_array_partial ⟨"out".toList, true, false, true, id⟩ "phi".toList "../Grid".toList (by decide) (some 3) x exMb fs exMb_ok.2.1
  exact ⟨fs', h⟩

example : exMb.tme ≠ 0 := by norm_num [exMb]

end PG.IO
