import Verif.Trace.Model
import Mathlib.Tactic.Ring
import Mathlib.Tactic.Linarith
import Mathlib.Tactic.FieldSimp
import Mathlib.Tactic.NormNum
import Mathlib.Data.List.Perm.Basic
/-!
C89: the trace recorder.  C90: generation of trace points.
-/
noncomputable section
namespace PG.Trace
open PG.Text

/-! ### files touched one by one -/

/-- apply `g t` to the content of the file of every trace in turn -/
def touch (g : Tr → Option Str → Option Str) (ts : List Tr) (fs : FS) : FS :=
  ts.foldl (fun fs t => Function.update fs t.file (g t (fs t.file))) fs

theorem touch_other (g : Tr → Option Str → Option Str) (ts : List Tr) (fs : FS) (f : Str) (hf : ∀ t ∈ ts, t.file ≠ f) :
    touch g ts fs f = fs f := by
  induction ts generalizing fs with
  | nil => rfl
  | cons a l ih =>
    show touch g l (Function.update fs a.file _) f = _
    rw [ih _ (fun t ht => hf t (by simp [ht])), Function.update_of_ne (hf a (by simp)).symm]

theorem touch_mem (g : Tr → Option Str → Option Str) (ts : List Tr) (fs : FS) (hn : (ts.map Tr.file).Nodup) (t : Tr) (ht : t ∈ ts) :
    touch g ts fs t.file = g t (fs t.file) := by
  induction ts generalizing fs with
  | nil => simp at ht
  | cons a l ih =>
    rw [List.map_cons, List.nodup_cons] at hn
    show touch g l (Function.update fs a.file _) t.file = _
    rcases List.mem_cons.1 ht with rfl | h
    · rw [touch_other, Function.update_self]
      intro x hx hc
      exact hn.1 (List.mem_map.2 ⟨x, hx, hc⟩)
    · rw [ih _ hn.2 h, Function.update_of_ne]
      intro hc
      exact hn.1 (List.mem_map.2 ⟨t, h, hc⟩)

theorem initFiles_eq (ts : List Tr) (fs : FS) : initFiles ts fs = touch (fun t c => some (c.getD t.header)) ts fs := by
  unfold initFiles touch
  congr 1
  funext fs t
  cases h : fs t.file with
  | none => simp
  | some c => rw [if_neg (by simp)]; simp only [Option.getD_some]; rw [← h, Function.update_eq_self]

theorem record_eq (fmt : ℝ → Str) (n : ℕ) (ts : List Tr) (fs : FS) (s : Step) :
    record fmt n ts fs s = if s.nrt % n ≠ 0 then fs else touch (fun t c => some (c.getD [] ++ rowText fmt s t)) ts fs := rfl

/-- the steps at which a row is due -/
def due (n : ℕ) (steps : List Step) : List Step := steps.filter fun s => s.nrt % n == 0

theorem steps_file (fmt : ℝ → Str) (n : ℕ) (ts : List Tr) (hn : (ts.map Tr.file).Nodup) (t : Tr) (ht : t ∈ ts) (steps : List Step)
    (fs : FS) (c : Str) (hc : fs t.file = some c) :
    (steps.foldl (record fmt n ts) fs) t.file = some (c ++ (due n steps).flatMap fun s => rowText fmt s t) := by
  induction steps generalizing fs c with
  | nil => simp [due, hc]
  | cons s l ih =>
    rw [List.foldl_cons]
    by_cases h : s.nrt % n = 0
    · rw [ih _ (c ++ rowText fmt s t)]
      · simp [due, h]
      · rw [record_eq, if_neg (by simp [h]), touch_mem _ _ _ hn t ht, hc]; rfl
    · rw [record_eq, if_pos h, ih fs c hc]
      simp [due, h]

theorem steps_other (fmt : ℝ → Str) (n : ℕ) (ts : List Tr) (steps : List Step) (fs : FS) (f : Str) (hf : ∀ t ∈ ts, t.file ≠ f) :
    (steps.foldl (record fmt n ts) fs) f = fs f := by
  induction steps generalizing fs with
  | nil => rfl
  | cons s l ih =>
    rw [List.foldl_cons, ih, record_eq]
    split_ifs
    · rfl
    · exact touch_other _ _ _ _ hf

/-- C89 (histories; partial, see `C89_import_violated`): over any number of runs (restarts) and any steps, a trace file is what
    it was before, or its header line if it did not exist, followed by one row for every step whose number is a multiple of
    niterTrace, in order; files that belong to no trace are not touched. -/
theorem C89_history_partial (fmt : ℝ → Str) (n : ℕ) (ts : List Tr) (hn : (ts.map Tr.file).Nodup) (runs : List (List Step))
    (hr : runs ≠ []) (fs : FS) :
    (∀ t ∈ ts, (runs.foldl (session fmt n ts) fs) t.file =
      some ((fs t.file).getD t.header ++ (runs.flatten.filter fun s => s.nrt % n == 0).flatMap fun s => rowText fmt s t)) ∧
    ∀ f, (∀ t ∈ ts, t.file ≠ f) → (runs.foldl (session fmt n ts) fs) f = fs f := by
  constructor
  · intro t ht
    have key : ∀ (runs : List (List Step)) (fs : FS) (c : Str), fs t.file = some c → (runs.foldl (session fmt n ts) fs) t.file =
        some (c ++ (due n runs.flatten).flatMap fun s => rowText fmt s t) := by
      intro runs
      induction runs with
      | nil => intro fs c h; simp [due, h]
      | cons r l ih =>
        intro fs c h
        rw [List.foldl_cons, ih _ (c ++ (due n r).flatMap fun s => rowText fmt s t)]
        · simp [due]
        · refine steps_file fmt n ts hn t ht r _ c ?_
          rw [initFiles_eq, touch_mem _ _ _ hn t ht, h]; rfl
    obtain ⟨r, l, rfl⟩ := List.exists_cons_of_ne_nil hr
    rw [List.foldl_cons, key l _ ((fs t.file).getD t.header ++ (due n r).flatMap fun s => rowText fmt s t)]
    · simp [due]
    · refine steps_file fmt n ts hn t ht r _ _ ?_
      rw [initFiles_eq, touch_mem _ _ _ hn t ht]
  · intro f hf
    clear hr
    induction runs generalizing fs with
    | nil => rfl
    | cons r l ih =>
      rw [List.foldl_cons, ih]
      show (r.foldl (record fmt n ts) (initFiles ts fs)) f = _
      rw [steps_other _ _ _ _ _ _ hf, initFiles_eq, touch_other _ _ _ _ hf]

/-! ### columns -/

theorem readlines_lines (ls : List Str) (h : ∀ l ∈ ls, ∀ c ∈ l, isNewline c = false) :
    readlines (ls.flatMap (· ++ ['\n'])) = ls := by
  induction ls with
  | nil => simp [readlines, linesGo]
  | cons a l ih =>
    have : (a :: l).flatMap (· ++ ['\n']) = a ++ '\n' :: l.flatMap (· ++ ['\n']) := by simp
    rw [this]
    unfold readlines at ih ⊢
    rw [linesGo_line _ (by decide) [] a _ (h a (by simp)), ih (fun x hx => h x (by simp [hx]))]
    simp

theorem splitComma_last (p : Str) (hp : ',' ∉ p) : splitComma p = [p] := by
  induction p with
  | nil => rfl
  | cons c cs ih =>
    have h1 : c ≠ ',' := fun h => hp (by simp [h])
    have h2 : ',' ∉ cs := fun h => hp (by simp [h])
    simp [splitComma, h1, ih h2]

theorem inter_cons (sep a b : Str) (l : List Str) : sep.intercalate (a :: b :: l) = a ++ (sep ++ sep.intercalate (b :: l)) := by
  simp [List.intercalate]

theorem inter_snoc (sep : Str) (l : List Str) (a : Str) : sep.intercalate (l ++ [a]) = l.flatMap (· ++ sep) ++ a := by
  induction l with
  | nil => simp [List.intercalate]
  | cons b l ih =>
    rcases l with _ | ⟨c, l⟩
    · simp [List.intercalate]
    · rw [List.cons_append, List.cons_append, inter_cons, ← List.cons_append, ih]; simp

theorem splitComma_inter (l : List Str) (hl : l ≠ []) (h : ∀ p ∈ l, ',' ∉ p) : splitComma ([','].intercalate l) = l := by
  induction l with
  | nil => exact absurd rfl hl
  | cons a l ih =>
    rcases l with _ | ⟨b, l⟩
    · simpa [List.intercalate] using splitComma_last a (h a (by simp))
    · rw [inter_cons]
      show splitComma (a ++ ',' :: [','].intercalate (b :: l)) = _
      rw [splitComma_piece a _ (h a (by simp)), ih (by simp) (fun p hp => h p (by simp [hp]))]

theorem splitComma_inter2 (a : Str) (l : List Str) (ha : ',' ∉ a) (h : ∀ p ∈ l, ',' ∉ p) :
    splitComma ([',', ' '].intercalate (a :: l)) = a :: l.map (fun s => ' ' :: s) := by
  induction l generalizing a with
  | nil => simpa [List.intercalate] using splitComma_last a ha
  | cons b l ih =>
    rw [inter_cons]
    have e : ([',', ' '] ++ [',', ' '].intercalate (b :: l) : Str) = ',' :: [',', ' '].intercalate ((' ' :: b) :: l) := by
      rcases l with _ | ⟨c, l⟩
      · simp [List.intercalate]
      · rw [inter_cons, inter_cons]; simp
    rw [e, splitComma_piece a _ ha, ih (' ' :: b) (by simpa using h b (by simp)) (fun p hp => h p (by simp [hp]))]
    simp

/-- the columns the header announces -/
def columns (species : List Str) : List Str :=
  ["Time (s)".toList, "p [Pa]".toList, "u [m/s]".toList, "v [m/s]".toList, "w [m/s]".toList, "T [K]".toList] ++ species.dropLast

theorem header_eq (species : List Str) : header species = [',', ' '].intercalate (columns species) ++ ['\n'] := by
  unfold header columns
  by_cases h : 1 < species.length
  · rw [if_pos h]
    have hd : species.dropLast ≠ [] := by
      intro hc
      have := congrArg List.length hc
      simp at this; omega
    rw [List.getLast?_eq_some_getLast hd, Option.getD_some]
    have e := inter_snoc [',', ' '] species.dropLast.dropLast (species.dropLast.getLast hd)
    rw [List.dropLast_append_getLast hd] at e
    have e2 : (", ".toList : Str) = [',', ' '] := rfl
    rw [e2, ← e]
    obtain ⟨x, l, hx⟩ := List.exists_cons_of_ne_nil hd
    rw [hx]
    simp only [List.cons_append, List.nil_append, inter_cons]
    simp
  · rw [if_neg h]
    have : species.dropLast = [] := by
      apply List.eq_nil_of_length_eq_zero
      simp; omega
    rw [this]
    rfl

/-- text that can be a cell of the table: no comma, no line break, no spaces around it -/
def Cellish (s : Str) : Prop := ',' ∉ s ∧ (∀ c ∈ s, isNewline c = false) ∧ strip s = s

theorem mem_inter {sep : Str} {l : List Str} {c : Char} (h : c ∈ sep.intercalate l) : c ∈ sep ∨ ∃ s ∈ l, c ∈ s := by
  induction l with
  | nil => simp [List.intercalate] at h
  | cons a l ih =>
    rcases l with _ | ⟨b, l⟩
    · right; exact ⟨a, by simp, by simpa [List.intercalate] using h⟩
    · rw [inter_cons, List.mem_append, List.mem_append] at h
      rcases h with h | h | h
      · exact Or.inr ⟨a, by simp, h⟩
      · exact Or.inl h
      · rcases ih h with h | ⟨s, hs, h⟩
        · exact Or.inl h
        · exact Or.inr ⟨s, by simp only [List.mem_cons] at hs ⊢; tauto, h⟩

theorem fixed_cells : ∀ s ∈ ["Time (s)".toList, "p [Pa]".toList, "u [m/s]".toList, "v [m/s]".toList, "w [m/s]".toList, "T [K]".toList],
    (',' ∉ s ∧ (∀ c ∈ s, isNewline c = false) ∧ strip s = s) := by decide +kernel

theorem strip_space (s : Str) (h : strip s = s) : strip (' ' :: s) = s := by
  have := strip_pre [' '] s (by simp [isSpace])
  simpa [h] using this

/-- C89 (columns; partial, see `C89_import_violated`): a trace file started by the recorder reads as a table: the header names
    time, p, u, v, w, T and all species but the last, and every further line is one record: the time and the primitive
    variables of the traced cell in the same order; with one value per stored variable all lines have equally many columns. -/
theorem C89_columns_partial (fmt : ℝ → Str) (hfmt : ∀ x, ',' ∉ fmt x ∧ ∀ c ∈ fmt x, isNewline c = false) (n : ℕ) (ts : List Tr)
    (hn : (ts.map Tr.file).Nodup) (runs : List (List Step)) (hr : runs ≠ []) (fs : FS) (t : Tr) (ht : t ∈ ts) (hnew : fs t.file = none)
    (species : List Str) (hh : t.header = header species) (hsp : ∀ s ∈ species, Cellish s) :
    ∃ text, (runs.foldl (session fmt n ts) fs) t.file = some text ∧
      ∃ head rows, readlines text = head :: rows ∧
        (splitComma head).map strip = ["Time (s)".toList, "p [Pa]".toList, "u [m/s]".toList, "v [m/s]".toList, "w [m/s]".toList,
          "T [K]".toList] ++ species.dropLast ∧
        rows.map splitComma = (runs.flatten.filter fun s => s.nrt % n == 0).map
          (fun s => (s.tme :: s.q t.nblki t.i t.j t.k).map fmt) ∧
        ((∀ r ∈ runs, ∀ s ∈ r, (s.q t.nblki t.i t.j t.k).length = 5 + (species.length - 1)) →
          ∀ row ∈ rows, (splitComma row).length = (splitComma head).length) := by
  have h := (C89_history_partial fmt n ts hn runs hr fs).1 t ht
  rw [hnew, Option.getD_none, hh, header_eq] at h
  refine ⟨_, h, [',', ' '].intercalate (columns species), (due n runs.flatten).map fun s =>
    [','].intercalate ((s.tme :: s.q t.nblki t.i t.j t.k).map fmt), ?_, ?_, ?_, ?_⟩
  · have hc : ∀ s ∈ columns species, ∀ c ∈ s, isNewline c = false := by
      intro s hs
      rcases List.mem_append.1 hs with hs | hs
      · exact (fixed_cells s hs).2.1
      · exact (hsp s (List.mem_of_mem_dropLast hs)).2.1
    have := readlines_lines ([',', ' '].intercalate (columns species) :: (due n runs.flatten).map fun s =>
      [','].intercalate ((s.tme :: s.q t.nblki t.i t.j t.k).map fmt)) ?_
    · rw [← this]
      congr 1
      rw [List.flatMap_cons, List.flatMap_map]
      rfl
    · intro l hl c hcl
      rcases List.mem_cons.1 hl with rfl | hl
      · rcases mem_inter hcl with h | ⟨s, hs, h⟩
        · clear hcl; revert h c; decide
        · exact hc s hs c h
      · obtain ⟨s, -, rfl⟩ := List.mem_map.1 hl
        rcases mem_inter hcl with h | ⟨w, hw, h⟩
        · clear hcl; revert h c; decide
        · obtain ⟨x, -, rfl⟩ := List.mem_map.1 hw
          exact (hfmt x).2 c h
  · have e : columns species = "Time (s)".toList :: (["p [Pa]".toList, "u [m/s]".toList, "v [m/s]".toList, "w [m/s]".toList,
          "T [K]".toList] ++ species.dropLast) := rfl
    have hall : ∀ s ∈ columns species, ',' ∉ s ∧ strip s = s := by
      intro s hs
      rcases List.mem_append.1 hs with hs | hs
      · exact ⟨(fixed_cells s hs).1, (fixed_cells s hs).2.2⟩
      · exact ⟨(hsp s (List.mem_of_mem_dropLast hs)).1, (hsp s (List.mem_of_mem_dropLast hs)).2.2⟩
    rw [e] at hall ⊢
    rw [splitComma_inter2 _ _ (hall _ (by simp)).1 (fun p hp => (hall p (List.mem_cons_of_mem _ hp)).1), List.map_cons, List.map_map,
      (hall _ (by simp)).2]
    show _ = "Time (s)".toList :: (["p [Pa]".toList, "u [m/s]".toList, "v [m/s]".toList, "w [m/s]".toList,
          "T [K]".toList] ++ species.dropLast)
    congr 1
    generalize ["p [Pa]".toList, "u [m/s]".toList, "v [m/s]".toList, "w [m/s]".toList, "T [K]".toList] ++ species.dropLast = l at hall ⊢
    conv_rhs => rw [← List.map_id l]
    apply List.map_congr_left
    intro s hs
    exact strip_space s (hall s (List.mem_cons_of_mem _ hs)).2
  · rw [List.map_map]
    apply List.map_congr_left
    intro s _
    show splitComma _ = _
    apply splitComma_inter _ (by simp)
    intro p hp
    obtain ⟨x, -, rfl⟩ := List.mem_map.1 hp
    exact (hfmt x).1
  · intro hq row hrow
    obtain ⟨s, hs, rfl⟩ := List.mem_map.1 hrow
    rw [splitComma_inter _ (by simp) (fun p hp => by obtain ⟨x, -, rfl⟩ := List.mem_map.1 hp; exact (hfmt x).1)]
    have hall : ∀ s ∈ columns species, ',' ∉ s := by
      intro s hs
      rcases List.mem_append.1 hs with hs | hs
      · exact (fixed_cells s hs).1
      · exact (hsp s (List.mem_of_mem_dropLast hs)).1
    have e : columns species = "Time (s)".toList :: (["p [Pa]".toList, "u [m/s]".toList, "v [m/s]".toList, "w [m/s]".toList,
          "T [K]".toList] ++ species.dropLast) := rfl
    rw [e] at hall ⊢
    rw [splitComma_inter2 _ _ (hall _ (by simp)) (fun p hp => hall p (List.mem_cons_of_mem _ hp))]
    have : s ∈ runs.flatten := (List.mem_filter.1 hs).1
    obtain ⟨r, hr, hsr⟩ := List.mem_flatten.1 this
    simp [hq r hr s hsr]
    omega

/-! ### each point once -/

theorem split_perm {α β : Type} (c : α → Bool) (f : α → β) (g : α → Option β) (l : List α) :
    List.Perm (l.filterMap fun p => if c p then some (f p) else g p)
      ((l.filter c).map f ++ l.filterMap fun p => if c p then none else g p) := by
  induction l with
  | nil => simp
  | cons a l ih =>
    cases hc : c a
    · simp only [List.filterMap_cons, hc, Bool.false_eq_true, if_false, List.filter_cons]
      cases g a with
      | none => exact ih
      | some b => exact (List.Perm.cons b ih).trans (List.perm_middle.symm)
    · simp only [List.filterMap_cons, hc, if_true, List.filter_cons, List.map_cons, List.cons_append]
      exact List.Perm.cons _ ih

theorem traces_perm (path : Str) (bs : List TBlk) (hu : (bs.map TBlk.nblki).Nodup) (points : List Point) :
    List.Perm (traces path bs points)
      (points.filterMap fun p => (bs.find? fun b => p.nblki == b.nblki).map fun b => traceOf path b p) := by
  induction bs with
  | nil => simp [traces]
  | cons b bs ih =>
    rw [List.map_cons, List.nodup_cons] at hu
    have e1 : traces path (b :: bs) points = (points.filter fun p => p.nblki == b.nblki).map (traceOf path b) ++ traces path bs points := by
      simp [traces]
    have e2 : (fun p : Point => ((b :: bs).find? fun b => p.nblki == b.nblki).map fun b => traceOf path b p) =
        fun p => if p.nblki == b.nblki then some (traceOf path b p)
          else (bs.find? fun b => p.nblki == b.nblki).map fun b => traceOf path b p := by
      funext p
      rw [List.find?_cons]
      cases p.nblki == b.nblki <;> simp
    rw [e1, e2]
    refine ((ih hu.2).append_left _).trans ?_
    refine ((split_perm _ _ _ points).trans (List.Perm.append_left _ (List.Perm.of_eq ?_))).symm
    apply List.filterMap_congr
    intro p _
    cases hp : p.nblki == b.nblki
    · rw [if_neg (by simp)]
    · rw [if_pos rfl]
      symm
      rw [Option.map_eq_none_iff, List.find?_eq_none]
      intro x hx hc
      rw [beq_iff_eq] at hp hc
      exact hu.1 (List.mem_map.2 ⟨x, hx, by rw [← hc, hp]⟩)

/-- C89 (distribution over ranks; partial, see `C89_import_violated`): however the blocks are dealt out to ranks, all ranks
    together hold exactly one trace for every listed point whose block exists, reading interior cell (i, j, k) of that block
    (array index shifted by the halo depth), and none for other points. -/
theorem C89_once_partial (path : Str) (world : List (List TBlk)) (hu : (world.flatten.map TBlk.nblki).Nodup) (points : List Point) :
    List.Perm (world.flatMap fun mb => traces path mb points)
      (points.filterMap fun p => (world.flatten.find? fun b => p.nblki == b.nblki).map fun b => traceOf path b p) ∧
    ∀ b p, (traceOf path b p).nblki = b.nblki ∧ (traceOf path b p).i = p.i + b.ng ∧ (traceOf path b p).j = p.j + b.ng ∧
      (traceOf path b p).k = p.k + b.ng ∧ (traceOf path b p).header = header b.species ∧
      (traceOf path b p).file = path ++ p.tag ++ "_".toList ++ b.loc (p.i + b.ng) (p.j + b.ng) (p.k + b.ng) ++ ".csv".toList := by
  refine ⟨?_, fun b p => ⟨rfl, rfl, rfl, rfl, rfl, rfl⟩⟩
  have : (world.flatMap fun mb => traces path mb points) = traces path world.flatten points := by
    clear hu
    induction world with
    | nil => rfl
    | cons a l ih =>
      rw [List.flatMap_cons, ih]
      simp [traces]
  rw [this]
  exact traces_perm path _ hu points

/-- C89 is not available to users: switching tracing on in the configuration always fails, because the coprocessor imports a
    module name that does not exist (`tracePointCoprocesor`); only runs without tracing start. -/
theorem C89_import_violated : coprocInit coprocModules true = none ∧ coprocInit coprocModules false = some () := by
  constructor
  · unfold coprocInit coprocModules; simp
  · rfl

/-- the hypotheses of C89 are met: two points in different blocks, two runs, every second step -/
example : let b0 : TBlk := ⟨0, 1, ["O2".toList, "N2".toList], fun _ _ _ => "0_0_0".toList⟩
    let b1 : TBlk := ⟨1, 1, ["O2".toList, "N2".toList], fun _ _ _ => "1_0_0".toList⟩
    let ts := traces "T/".toList [b0, b1] [⟨1, 0, 0, 0, "a".toList⟩, ⟨0, 2, 0, 0, "a".toList⟩, ⟨7, 0, 0, 0, "b".toList⟩]
    (ts.map Tr.file).Nodup ∧ ts.length = 2 ∧ (∀ s ∈ b0.species, Cellish s) := by
  refine ⟨?_, ?_, ?_⟩
  · decide +kernel
  · decide +kernel
  · have : ∀ s ∈ ["O2".toList, "N2".toList], (',' ∉ s ∧ (∀ c ∈ s, isNewline c = false) ∧ strip s = s) := by decide +kernel
    exact this

/-! ### C90 -/

theorem linspace_eq (a b : ℝ) (n i : ℕ) (hn : 2 ≤ n) : linspace a b n i = a + (i / (n - 1 : ℝ)) * (b - a) := by
  unfold linspace
  rw [if_neg (by omega)]
  ring

/-- C90: a line of a single point is its start, and of no point is empty. -/
theorem C90_line_single (p0 p1 : V3) : createLine p0 p1 1 = [p0] ∧ createLine p0 p1 0 = [] := by
  simp [createLine, linspace]

/-- C90 (lines): `n ≥ 2` points, equally spaced, the first is p0 and the last p1. -/
theorem C90_line (p0 p1 : V3) (n : ℕ) (hn : 2 ≤ n) :
    (createLine p0 p1 n).length = n ∧
    (∀ i, i < n → (createLine p0 p1 n)[i]? = some (p0 + V3.smul ((i : ℝ) / (n - 1)) (p1 - p0))) ∧
    (createLine p0 p1 n).head? = some p0 ∧ (createLine p0 p1 n).getLast? = some p1 := by
  have h : ∀ i, i < n → (createLine p0 p1 n)[i]? = some (p0 + V3.smul ((i : ℝ) / (n - 1)) (p1 - p0)) := by
    intro i hi
    unfold createLine
    rw [List.getElem?_map, List.getElem?_range hi]
    simp only [Option.map_some, linspace_eq _ _ _ _ hn]
    congr 1
  have hl : (createLine p0 p1 n).length = n := by simp [createLine]
  refine ⟨hl, h, ?_, ?_⟩
  · rw [List.head?_eq_getElem?, h 0 (by omega)]
    congr 1
    ext <;> simp
  · rw [List.getLast?_eq_getElem?, hl, h (n - 1) (by omega)]
    congr 1
    have : ((n - 1 : ℕ) : ℝ) / (n - 1) = 1 := by
      rw [Nat.cast_sub (by omega)]
      have : (n : ℝ) - 1 ≠ 0 := by
        have : (2 : ℝ) ≤ n := by exact_mod_cast hn
        intro hc; linarith
      push_cast
      exact div_self this
    rw [this]
    ext <;> simp

theorem flat_get {α : Type} (f : ℕ → ℕ → α) (m n i j : ℕ) (hi : i < m) (hj : j < n) :
    ((List.range m).flatMap fun i => (List.range n).map (f i))[i * n + j]? = some (f i j) := by
  have hlen : ∀ m, ((List.range m).flatMap fun i => (List.range n).map (f i)).length = m * n := by
    intro m
    induction m with
    | zero => simp
    | succ m ih => rw [List.range_succ, List.flatMap_append, List.length_append, ih]; simp; ring
  induction m with
  | zero => omega
  | succ m ih =>
    rw [List.range_succ, List.flatMap_append]
    by_cases h : i < m
    · rw [List.getElem?_append_left, ih h]
      rw [hlen]
      calc i * n + j < i * n + n := by omega
        _ = (i + 1) * n := by ring
        _ ≤ m * n := Nat.mul_le_mul_right n (by omega)
    · have : i = m := by omega
      subst this
      rw [List.getElem?_append_right (by rw [hlen]; omega), hlen]
      simp [hj]

theorem plane_getElem (p0 p1 p2 : V3) (n01 n02 i j : ℕ) (hi : i < n01) (hj : j < n02) :
    (createPlane p0 p1 p2 n01 n02)[i * n02 + j]? = some (planePoint p0 p1 p2 n01 n02 i j) :=
  flat_get _ _ _ _ _ hi hj

/-- C90 (planes, part): `n01 * n02` points; with edges of length one they are the regular grid of the parallelogram with corners
    p0, p1, p2 and p1 + p2 - p0. Missing: other edge lengths, see `C90_plane_violated`. -/
theorem C90_plane_partial (p0 p1 p2 : V3) (n01 n02 : ℕ) (h1 : 2 ≤ n01) (h2 : 2 ≤ n02)
    (hu : V3.dot (p1 - p0) (p1 - p0) = 1) (hv : V3.dot (p2 - p0) (p2 - p0) = 1) :
    (createPlane p0 p1 p2 n01 n02).length = n01 * n02 ∧
    ∀ i j, i < n01 → j < n02 → (createPlane p0 p1 p2 n01 n02)[i * n02 + j]? =
      some (p0 + V3.smul ((i : ℝ) / (n01 - 1)) (p1 - p0) + V3.smul ((j : ℝ) / (n02 - 1)) (p2 - p0)) := by
  refine ⟨by simp [createPlane], fun i j hi hj => ?_⟩
  rw [plane_getElem _ _ _ _ _ _ _ hi hj]
  simp only [planePoint, hu, hv, Real.sqrt_one, linspace_eq _ _ _ _ h1, linspace_eq _ _ _ _ h2]
  congr 1
  ext <;> simp <;> ring

/-- C90 is false for planes whose edges do not have length one: the point that should be p1 lies at distance one from p0
    whatever the length of the edge, so p1 is missed. -/
theorem C90_plane_violated (p0 p1 p2 : V3) (n01 n02 : ℕ) (h1 : 2 ≤ n01) (h2 : 2 ≤ n02)
    (h0 : V3.dot (p1 - p0) (p1 - p0) ≠ 0) (hne : V3.dot (p1 - p0) (p1 - p0) ≠ 1) :
    ∃ pt, (createPlane p0 p1 p2 n01 n02)[(n01 - 1) * n02]? = some pt ∧ V3.dot (pt - p0) (pt - p0) = 1 ∧ pt ≠ p1 := by
  refine ⟨planePoint p0 p1 p2 n01 n02 (n01 - 1) 0, ?_, ?_⟩
  · have := plane_getElem p0 p1 p2 n01 n02 (n01 - 1) 0 (by omega) (by omega)
    simpa using this
  have hd : V3.dot (planePoint p0 p1 p2 n01 n02 (n01 - 1) 0 - p0) (planePoint p0 p1 p2 n01 n02 (n01 - 1) 0 - p0) = 1 := by
    have e : ((n01 - 1 : ℕ) : ℝ) / ((n01 : ℝ) - 1) = 1 := by
      rw [Nat.cast_sub (by omega)]
      have : (n01 : ℝ) - 1 ≠ 0 := by
        have : (2 : ℝ) ≤ n01 := by exact_mod_cast h1
        intro hc; linarith
      push_cast
      exact div_self this
    simp only [planePoint, linspace_eq _ _ _ _ h1, linspace_eq _ _ _ _ h2, e]
    have hpos : 0 ≤ V3.dot (p1 - p0) (p1 - p0) := by
      unfold V3.dot
      nlinarith [mul_self_nonneg (p1 - p0).x, mul_self_nonneg (p1 - p0).y, mul_self_nonneg (p1 - p0).z]
    have hs : Real.sqrt (V3.dot (p1 - p0) (p1 - p0)) ^ 2 = V3.dot (p1 - p0) (p1 - p0) := Real.sq_sqrt hpos
    have hs0 : Real.sqrt (V3.dot (p1 - p0) (p1 - p0)) ≠ 0 := by
      intro hc; rw [hc] at hs; exact h0 (by rw [← hs]; ring)
    generalize Real.sqrt (V3.dot (p1 - p0) (p1 - p0)) = l at *
    simp only [V3.dot, V3.sub_x, V3.sub_y, V3.sub_z] at hs ⊢
    simp only [Nat.cast_zero, zero_div, zero_mul, mul_zero, add_zero, one_mul, sub_zero, mul_one, add_sub_cancel_left]
    field_simp
    linarith
  exact ⟨hd, fun hc => hne (by rw [hc] at hd; exact hd)⟩

/-- the hypotheses of the plane theorems are met -/
example : let p0 : V3 := ⟨0, 0, 0⟩
    V3.dot ((⟨1, 0, 0⟩ : V3) - p0) (⟨1, 0, 0⟩ - p0) = 1 ∧
    V3.dot ((⟨2, 0, 0⟩ : V3) - p0) (⟨2, 0, 0⟩ - p0) ≠ 0 ∧ V3.dot ((⟨2, 0, 0⟩ : V3) - p0) (⟨2, 0, 0⟩ - p0) ≠ 1 := by
  norm_num [V3.dot]

theorem mem_cells (b : GBlk) (c : ℕ × ℕ × ℕ) : c ∈ cells b ↔ c.1 < b.ni ∧ c.2.1 < b.nj ∧ c.2.2 < b.nk := by
  unfold cells
  obtain ⟨i, j, k⟩ := c
  simp

theorem foldl_min (l : List ℝ) (a : ℝ) : (l.foldl min a = a ∨ l.foldl min a ∈ l) ∧ l.foldl min a ≤ a ∧ ∀ x ∈ l, l.foldl min a ≤ x := by
  induction l generalizing a with
  | nil => simp
  | cons b l ih =>
    rw [List.foldl_cons]
    obtain ⟨h1, h2, h3⟩ := ih (min a b)
    refine ⟨?_, h2.trans (min_le_left _ _), fun x hx => ?_⟩
    · rcases h1 with h | h
      · rw [h]
        rcases min_choice a b with h' | h' <;> rw [h'] <;> simp
      · right; simp [h]
    · rcases List.mem_cons.1 hx with rfl | hx
      · exact h2.trans (min_le_right _ _)
      · exact h3 x hx

/-- C90 (nearest cell): the recorded cell exists and no cell of the block has its centre closer to the point. -/
theorem C90_nearest (b : GBlk) (p : V3) (h : 0 < b.ni ∧ 0 < b.nj ∧ 0 < b.nk) :
    let c := nearest b p
    (c.1 < b.ni ∧ c.2.1 < b.nj ∧ c.2.2 < b.nk) ∧
    ∀ i j k, i < b.ni → j < b.nj → k < b.nk →
      V3.dot (b.xc c.1 c.2.1 c.2.2 - p) (b.xc c.1 c.2.1 c.2.2 - p) ≤ V3.dot (b.xc i j k - p) (b.xc i j k - p) := by
  classical
  intro c
  have hne : cells b ≠ [] := by
    intro hc
    have : ((0, 0, 0) : ℕ × ℕ × ℕ) ∈ cells b := (mem_cells b _).2 h
    rw [hc] at this; simp at this
  obtain ⟨c0, l, hl⟩ := List.exists_cons_of_ne_nil hne
  have hm := foldl_min ((cells b).map (dist b p)) (((cells b).map (dist b p)).headD 0)
  set m := ((cells b).map (dist b p)).foldl min (((cells b).map (dist b p)).headD 0) with hmdef
  have hex : ∃ c ∈ cells b, dist b p c = m := by
    rcases hm.1 with h | h
    · refine ⟨c0, by rw [hl]; simp, ?_⟩
      rw [h, hl]; simp
    · obtain ⟨c, hc, hc2⟩ := List.mem_map.1 h
      exact ⟨c, hc, hc2⟩
  have hfind : ∃ c', (cells b).find? (fun c => dist b p c = m) = some c' := by
    rw [← Option.isSome_iff_exists, List.find?_isSome]
    obtain ⟨c, hc, hd⟩ := hex
    exact ⟨c, hc, by simpa using hd⟩
  obtain ⟨c', hc'⟩ := hfind
  have hcc : c = c' := by
    show nearest b p = c'
    unfold nearest
    dsimp only
    rw [← hmdef, hc']; rfl
  have h1 := List.mem_of_find?_eq_some hc'
  have h2 := List.find?_some hc'
  simp only [decide_eq_true_eq] at h2
  rw [hcc]
  refine ⟨(mem_cells b c').1 h1, fun i j k hi hj hk => ?_⟩
  have h3 := hm.2.2 (dist b p (i, j, k)) (List.mem_map.2 ⟨_, (mem_cells b _).2 ⟨hi, hj, hk⟩, rfl⟩)
  rw [← h2] at h3
  unfold dist at h3
  dsimp only at h3
  have hnn : ∀ v : V3, 0 ≤ (v.x - p.x)^2 + (v.y - p.y)^2 + (v.z - p.z)^2 := fun v => by positivity
  have h4 := (Real.sqrt_le_sqrt_iff (hnn _)).1 h3
  simp only [V3.dot, V3.sub_x, V3.sub_y, V3.sub_z]
  nlinarith [h4]

/-- C90 (rows): the file lists, in the order of the requested points, those that lie inside some block, each with its own tag,
    the first block (in block order) that contains it and the nearest cell there; the others are left out. -/
theorem C90_rows (mb : List GBlk) (points : List V3) (tags : List Str) (hlen : tags.length = points.length) :
    generate mb points tags = (points.zip tags).filterMap fun e => (mb.find? fun b => b.inside e.1).map fun b =>
      ⟨b.nblki, (nearest b e.1).1, (nearest b e.1).2.1, (nearest b e.1).2.2, e.2⟩ := by
  have hst : ∀ (mb : List GBlk) (g : V3 → Option (ℤ × ℕ × ℕ × ℕ)), mb.foldl (search points) (points.map g) =
      points.map fun p => (g p).or ((mb.find? fun b => b.inside p).map fun b => (b.nblki, nearest b p)) := by
    intro mb
    induction mb with
    | nil => intro g; simp
    | cons b l ih =>
      intro g
      rw [List.foldl_cons]
      have : search points (points.map g) b = points.map fun p => if b.inside p then (match g p with
          | some r => some r | none => some (b.nblki, nearest b p)) else g p := by
        unfold search
        clear ih hlen
        induction points with
        | nil => rfl
        | cons a m ih => simp [ih]; cases g a <;> rfl
      rw [this, ih]
      apply List.map_congr_left
      intro p _
      rw [List.find?_cons]
      cases hb : b.inside p
      · simp
      · cases g p <;> simp
  unfold generate
  dsimp only
  rw [hst mb (fun _ => none)]
  clear hst
  induction points generalizing tags with
  | nil => simp
  | cons p l ih =>
    rcases tags with _ | ⟨t, ts⟩
    · simp at hlen
    · simp only [List.map_cons, List.zip_cons_cons, List.filterMap_cons]
      rw [ih ts (by simpa using hlen)]
      cases mb.find? fun b => b.inside p <;> simp

/-- two points, one inside a one-cell block, with tags -/
example : let b : GBlk := ⟨4, 1, 1, 1, fun _ _ _ => ⟨0, 0, 0⟩, fun _ => true⟩
    (0 < b.ni ∧ 0 < b.nj ∧ 0 < b.nk) := by simp

end PG.Trace
