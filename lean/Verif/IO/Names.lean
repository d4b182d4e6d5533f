import Verif.IO.Props
import Mathlib.Tactic.IntervalCases
/-!
C49: names of output files (`src/peregrinepy/writers/writeMetaData.py`, `writeDualTimeQnm1.py`, `src/peregrinepy/integrators/dualTime.py`,
`runPeregrine.py`).
-/
namespace PG.IO
open PG.Text

/-- getVarFileName and getOutputName with stem `q` (restart and archive) or an array name (extra variables), writeMetaData.py:145-155,
    192-196, 224-236 -/
def dataName (stem : Str) (lump animate : Bool) (nrt num : ℕ) : Str :=
  if lump then
    if animate then stem ++ ".".toList ++ padded 8 nrt ++ ".h5".toList else stem ++ ".h5".toList
  else
    if animate then stem ++ ".".toList ++ padded 8 nrt ++ ".".toList ++ padded 6 num ++ ".h5".toList
    else stem ++ ".".toList ++ padded 6 num ++ ".h5".toList

/-- getVarFileH5Location, writeMetaData.py:131-143, 209-222: where the xmf file points -/
def h5Location (stem var : Str) (lump animate : Bool) (nrt num : ℕ) : Str :=
  if lump then
    if animate then stem ++ ".".toList ++ padded 8 nrt ++ ".h5:/results_".toList ++ padded 6 num ++ "/".toList ++ var
    else stem ++ ".h5:/results_".toList ++ padded 6 num ++ "/".toList ++ var
  else
    if animate then stem ++ ".".toList ++ padded 8 nrt ++ ".".toList ++ padded 6 num ++ ".h5:/results_".toList ++ padded 6 num ++ "/".toList ++ var
    else stem ++ ".".toList ++ padded 6 num ++ ".h5:/results_".toList ++ padded 6 num ++ "/".toList ++ var

/-- writeDualTimeQnm1.py:9-13 and, reading, dualTime.py:128-131 -/
def qnm1Name (animate : Bool) (nrt num : ℕ) : Str :=
  if animate then "Qnm1.".toList ++ padded 8 nrt ++ ".".toList ++ padded 6 num ++ ".npy".toList
  else "Qnm1.".toList ++ padded 6 num ++ ".npy".toList

/-- the part of the configuration that decides on files -/
structure OutCfg where
  restartDir : Str
  archiveDir : Str
  lump : Bool
  animateRestart : Bool
  animateArchive : Bool
  extra : List Str
  dualTime : Bool

/-- what is written: the kinds of output of runPeregrine.py:68-96 -/
inductive Item
  | restart
  | qnm1
  | archive
  | extra (array : Str)

/-- path of the file holding the item for block `num` at iteration `nrt`; with lumping all blocks share it -/
def pathOf (c : OutCfg) (it : Item) (nrt num : ℕ) : Str :=
  match it with
  | .restart => c.restartDir ++ "/".toList ++ dataName "q".toList c.lump c.animateRestart nrt num
  | .qnm1 => c.restartDir ++ "/".toList ++ qnm1Name c.animateRestart nrt num
  | .archive => c.archiveDir ++ "/".toList ++ dataName "q".toList c.lump c.animateArchive nrt num
  | .extra a => c.archiveDir ++ "/".toList ++ dataName a c.lump c.animateArchive nrt num

/-! ### lemmas -/

theorem digits_no_dot (w n : ℕ) : '.' ∉ padded w n := fun h => (isDigit_ne (padded_digits w n _ h)).2.2.2.2.2.1 rfl

/-- text before the first dot is determined -/
theorem split_dot {a b r s : Str} (ha : '.' ∉ a) (hb : '.' ∉ b) (h : a ++ '.' :: r = b ++ '.' :: s) : a = b ∧ r = s := by
  induction a generalizing b with
  | nil =>
    cases b with
    | nil => exact ⟨rfl, by simpa using h⟩
    | cons c b => simp only [List.nil_append, List.cons_append, List.cons.injEq] at h; exact absurd (h.1 ▸ List.mem_cons_self) hb
  | cons c a ih =>
    cases b with
    | nil => simp only [List.nil_append, List.cons_append, List.cons.injEq] at h; exact absurd (h.1 ▸ List.mem_cons_self) ha
    | cons d b =>
      simp only [List.cons_append, List.cons.injEq] at h
      obtain ⟨h1, h2⟩ := ih (fun hc => ha (List.mem_cons_of_mem _ hc)) (fun hc => hb (List.mem_cons_of_mem _ hc)) h.2
      exact ⟨by rw [h.1, h1], h2⟩

theorem h5_ext : ".h5".toList = '.' :: "h5".toList := by decide
theorem npy_ext : ".npy".toList = '.' :: "npy".toList := by decide
theorem dot_str : ".".toList = ['.'] := by decide
theorem no_dot_h5 : '.' ∉ "h5".toList := by decide
theorem no_dot_q : '.' ∉ "q".toList := by decide

/-- the name is determined by, and determines, stem, iteration (when animated) and block (when not lumped) -/
theorem dataName_inj {a b : Str} (ha : '.' ∉ a) (hb : '.' ∉ b) {lump animate : Bool} {nrt nrt' num num' : ℕ}
    (h : dataName a lump animate nrt num = dataName b lump animate nrt' num') :
    a = b ∧ (animate = true → nrt = nrt') ∧ (lump = false → num = num') := by
  unfold dataName at h
  rw [h5_ext, dot_str] at h
  cases lump <;> cases animate <;> simp only [if_true, if_false, Bool.false_eq_true, List.append_assoc, List.cons_append,
    List.nil_append] at h
  · obtain ⟨h1, h2⟩ := split_dot ha hb h
    obtain ⟨h3, _⟩ := split_dot (digits_no_dot _ _) (digits_no_dot _ _) h2
    exact ⟨h1, fun hc => by simp at hc, fun _ => padded_injective h3⟩
  · obtain ⟨h1, h2⟩ := split_dot ha hb h
    obtain ⟨h3, h4⟩ := split_dot (digits_no_dot _ _) (digits_no_dot _ _) h2
    obtain ⟨h5, _⟩ := split_dot (digits_no_dot _ _) (digits_no_dot _ _) h4
    exact ⟨h1, fun _ => padded_injective h3, fun _ => padded_injective h5⟩
  · obtain ⟨h1, _⟩ := split_dot ha hb h
    exact ⟨h1, fun hc => by simp at hc, fun hc => by simp at hc⟩
  · obtain ⟨h1, h2⟩ := split_dot ha hb h
    obtain ⟨h3, _⟩ := split_dot (digits_no_dot _ _) (digits_no_dot _ _) h2
    exact ⟨h1, fun _ => padded_injective h3, fun hc => by simp at hc⟩

theorem qnm1_inj {animate : Bool} {nrt nrt' num num' : ℕ} (h : qnm1Name animate nrt num = qnm1Name animate nrt' num') :
    (animate = true → nrt = nrt') ∧ num = num' := by
  unfold qnm1Name at h
  rw [npy_ext, dot_str] at h
  cases animate <;> simp only [if_true, if_false, Bool.false_eq_true, List.append_assoc, List.cons_append, List.nil_append] at h
  · obtain ⟨h3, _⟩ := split_dot (digits_no_dot _ _) (digits_no_dot _ _) (List.append_cancel_left h)
    exact ⟨fun hc => by simp at hc, padded_injective h3⟩
  · obtain ⟨h3, h4⟩ := split_dot (digits_no_dot _ _) (digits_no_dot _ _) (List.append_cancel_left h)
    obtain ⟨h5, _⟩ := split_dot (digits_no_dot _ _) (digits_no_dot _ _) h4
    exact ⟨fun _ => padded_injective h3, padded_injective h5⟩

theorem dataName_stem (a : Str) (lump animate : Bool) (nrt num : ℕ) : ∃ r, dataName a lump animate nrt num = a ++ '.' :: r := by
  unfold dataName
  rw [h5_ext, dot_str]
  split_ifs <;> first
    | exact ⟨_, rfl⟩
    | (simp only [List.append_assoc, List.cons_append, List.nil_append]; exact ⟨_, rfl⟩)

theorem qnm1_stem (animate : Bool) (nrt num : ℕ) : ∃ r, qnm1Name animate nrt num = "Qnm1".toList ++ '.' :: r := by
  have : "Qnm1.".toList = "Qnm1".toList ++ ['.'] := by decide
  unfold qnm1Name
  rw [this]
  split_ifs <;> simp only [List.append_assoc, List.cons_append, List.nil_append] <;> exact ⟨_, rfl⟩

/-! ### specification -/

/-- an item of this run -/
def Item.In (c : OutCfg) : Item → Prop
  | .extra a => a ∈ c.extra
  | _ => True

/-- is the item written under a name with the iteration number? -/
def Item.animated (c : OutCfg) : Item → Bool
  | .restart => c.animateRestart
  | .qnm1 => c.animateRestart
  | .archive => c.animateArchive
  | .extra _ => c.animateArchive

/-- are all blocks in one file? -/
def Item.lumped (c : OutCfg) : Item → Bool
  | .qnm1 => false
  | _ => c.lump

/-- array names have no dot or slash (they are names of block arrays), and restarts and archives go to different directories -/
structure Sane (c : OutCfg) : Prop where
  arrays : ∀ a ∈ c.extra, '.' ∉ a ∧ '/' ∉ a
  dirs : c.restartDir ≠ c.archiveDir

theorem digits_no_slash (w n : ℕ) : '/' ∉ padded w n := fun h => by
  obtain ⟨d, hd, e⟩ := padded_digits w n _ h
  revert e
  interval_cases d <;> decide

theorem dataName_no_slash {a : Str} (ha : '/' ∉ a) (lump animate : Bool) (nrt num : ℕ) : '/' ∉ dataName a lump animate nrt num := by
  have h1 : '/' ∉ ".h5".toList := by decide
  have h2 : '/' ∉ ".".toList := by decide
  have h3 := digits_no_slash 8 nrt
  have h4 := digits_no_slash 6 num
  unfold dataName
  split_ifs <;> simp only [List.mem_append, not_or] <;> simp only [ha, h1, h2, h3, h4, not_false_eq_true, and_self]

theorem qnm1_no_slash (animate : Bool) (nrt num : ℕ) : '/' ∉ qnm1Name animate nrt num := by
  have h1 : '/' ∉ ".npy".toList := by decide
  have h2 : '/' ∉ ".".toList := by decide
  have h5 : '/' ∉ "Qnm1.".toList := by decide
  have h3 := digits_no_slash 8 nrt
  have h4 := digits_no_slash 6 num
  unfold qnm1Name
  split_ifs <;> simp only [List.mem_append, not_or] <;> simp only [h1, h2, h3, h4, h5, not_false_eq_true, and_self]

/-- the directory of a path is determined: everything before the last slash -/
theorem split_slash {a b r s : Str} (hr : '/' ∉ r) (hs : '/' ∉ s) (h : a ++ "/".toList ++ r = b ++ "/".toList ++ s) : a = b := by
  have e : "/".toList = ['/'] := by decide
  have key : ∀ (r' s' a' b' : Str), '/' ∉ r' → '/' ∉ s' → r' ++ '/' :: a' = s' ++ '/' :: b' → a' = b' := by
    intro r'
    induction r' with
    | nil =>
      intro s' a' b' _ hs' h'
      cases s' with
      | nil => simpa using h'
      | cons c s' => simp only [List.nil_append, List.cons_append, List.cons.injEq] at h'; exact absurd (h'.1 ▸ List.mem_cons_self) hs'
    | cons c r' ih =>
      intro s' a' b' hr' hs' h'
      cases s' with
      | nil => simp only [List.nil_append, List.cons_append, List.cons.injEq] at h'; exact absurd (h'.1 ▸ List.mem_cons_self) hr'
      | cons d s' =>
        simp only [List.cons_append, List.cons.injEq] at h'
        exact ih s' a' b' (fun hc => hr' (List.mem_cons_of_mem _ hc)) (fun hc => hs' (List.mem_cons_of_mem _ hc)) h'.2
  have h' := congrArg List.reverse h
  rw [e] at h'
  simp only [List.reverse_append, List.reverse_cons, List.reverse_nil, List.nil_append, List.cons_append] at h'
  have := key _ _ _ _ (fun hc => hr (List.mem_reverse.1 hc)) (fun hc => hs (List.mem_reverse.1 hc)) h'
  exact List.reverse_injective this

/-- C49: in a run whose restart and archive directories differ and whose extra variables do not include the array `q`, two files
    written - restart, previous-step state, archive or extra variable - have the same path only if they are the same kind of output,
    of the same iteration unless output without iteration numbers (overwriting) was requested, and of the same block unless blocks
    are lumped into one file; for all iteration and block numbers, also beyond the padded widths. -/
theorem C49_distinct_partial (c : OutCfg) (hc : Sane c) (hq : "q".toList ∉ c.extra) (i i' : Item) (hi : i.In c) (hi' : i'.In c)
    (nrt nrt' num num' : ℕ) (h : pathOf c i nrt num = pathOf c i' nrt' num') :
    i = i' ∧ (i.animated c = true → nrt = nrt') ∧ (i.lumped c = false → num = num') := by
  have hdq := dataName_no_slash (a := "q".toList) (by decide)
  have hqn : ∀ (l a : Bool) (n m : ℕ) (a' : Bool) (n' m' : ℕ), dataName "q".toList l a n m ≠ qnm1Name a' n' m' := by
    intro l a n m a' n' m' h
    obtain ⟨r, hr⟩ := dataName_stem "q".toList l a n m
    obtain ⟨s, hs⟩ := qnm1_stem a' n' m'
    rw [hr, hs] at h
    have := (split_dot (by decide) (by decide) h).1
    exact absurd this (by decide)
  cases i with
  | restart =>
    cases i' with
    | restart =>
      obtain ⟨_, h2, h3⟩ := dataName_inj no_dot_q no_dot_q (List.append_cancel_left h)
      exact ⟨rfl, h2, h3⟩
    | qnm1 => exact absurd (List.append_cancel_left h) (hqn _ _ _ _ _ _ _)
    | archive => exact absurd (split_slash (hdq _ _ _ _) (hdq _ _ _ _) h) hc.dirs
    | extra a => exact absurd (split_slash (hdq _ _ _ _) (dataName_no_slash (hc.arrays a hi').2 _ _ _ _) h) hc.dirs
  | qnm1 =>
    cases i' with
    | restart => exact absurd (List.append_cancel_left h).symm (hqn _ _ _ _ _ _ _)
    | qnm1 =>
      obtain ⟨h2, h3⟩ := qnm1_inj (List.append_cancel_left h)
      exact ⟨rfl, h2, fun _ => h3⟩
    | archive => exact absurd (split_slash (qnm1_no_slash _ _ _) (hdq _ _ _ _) h) hc.dirs
    | extra a => exact absurd (split_slash (qnm1_no_slash _ _ _) (dataName_no_slash (hc.arrays a hi').2 _ _ _ _) h) hc.dirs
  | archive =>
    cases i' with
    | restart => exact absurd (split_slash (hdq _ _ _ _) (hdq _ _ _ _) h).symm hc.dirs
    | qnm1 => exact absurd (split_slash (hdq _ _ _ _) (qnm1_no_slash _ _ _) h).symm hc.dirs
    | archive =>
      obtain ⟨_, h2, h3⟩ := dataName_inj no_dot_q no_dot_q (List.append_cancel_left h)
      exact ⟨rfl, h2, h3⟩
    | extra a =>
      obtain ⟨h1, _⟩ := dataName_inj no_dot_q ((hc.arrays a hi').1) (List.append_cancel_left h)
      exact absurd (h1 ▸ hi') hq
  | extra a =>
    cases i' with
    | restart => exact absurd (split_slash (dataName_no_slash (hc.arrays a hi).2 _ _ _ _) (hdq _ _ _ _) h).symm hc.dirs
    | qnm1 => exact absurd (split_slash (dataName_no_slash (hc.arrays a hi).2 _ _ _ _) (qnm1_no_slash _ _ _) h).symm hc.dirs
    | archive =>
      obtain ⟨h1, _⟩ := dataName_inj ((hc.arrays a hi).1) no_dot_q (List.append_cancel_left h)
      exact absurd (h1 ▸ hi) hq
    | extra b =>
      obtain ⟨h1, h2, h3⟩ := dataName_inj ((hc.arrays a hi).1) ((hc.arrays b hi').1) (List.append_cancel_left h)
      exact ⟨by rw [h1], h2, h3⟩

/-- C49, violated without these conditions: listing `q` among the extra variables makes its file the archive file of the same
    iteration, and using one directory for restarts and archives makes the single-precision archive the restart file, for every
    iteration and block. -/
theorem C49_collision_violated (c : OutCfg) (nrt num : ℕ) :
    pathOf c (.extra "q".toList) nrt num = pathOf c .archive nrt num ∧
    (c.restartDir = c.archiveDir → c.animateRestart = c.animateArchive → pathOf c .restart nrt num = pathOf c .archive nrt num) := by
  refine ⟨rfl, fun h1 h2 => ?_⟩
  simp only [pathOf, h1, h2]

/-- C49 (names read): the restart and grid readers open exactly the files the writers create, for the same options. -/
theorem C49_read_names (c : OutCfg) (nrt num : ℕ) :
    readName c.restartDir c.lump c.animateRestart nrt num = pathOf c .restart nrt num := by
  rw [readName_eq]
  unfold pathOf dataName varFileName
  have h1 : "q.".toList = "q".toList ++ ".".toList := by decide
  have h2 : "q.h5".toList = "q".toList ++ ".h5".toList := by decide
  rw [h1, h2]

/-- C49 (xmf): the location of a variable named in the xmf file is the file the data was written to, the group of the block and the
    variable. -/
theorem C49_xmf (stem var : Str) (lump animate : Bool) (nrt num : ℕ) :
    h5Location stem var lump animate nrt num =
      dataName stem lump animate nrt num ++ ":/".toList ++ resS num ++ "/".toList ++ var := by
  have h : ".h5:/results_".toList = ".h5".toList ++ ":/".toList ++ "results_".toList := by decide
  unfold h5Location dataName resS
  rw [h]
  split_ifs <;> simp only [List.append_assoc]

/-- a run with two extra variables; its directories satisfy `Sane` -/
example : Sane ⟨"./Restart".toList, "./Archive".toList, false, true, true, ["Q".toList, "phi".toList], true⟩ := by
  refine ⟨?_, ?_⟩
  · intro a ha
    simp only [List.mem_cons, List.not_mem_nil, or_false] at ha
    rcases ha with rfl | rfl <;> decide
  · decide

end PG.IO
