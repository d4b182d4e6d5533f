import Verif.Setup.Model
import Mathlib.Data.List.Nodup
import Mathlib.Data.List.Perm.Subperm
import Mathlib.Data.Real.Archimedean
import Mathlib.Tactic.NormNum
/-
C39 (assignment file), C53 (block lists), C54 (species sums).
-/
namespace PG.Setup
open PG.Text

/-! ### C53: block lists -/

theorem find_nblki {α} (mb : List (Blk α)) (hd : (blockList mb).Nodup) (b : Blk α) (hb : b ∈ mb) :
    mb.find? (fun x => x.nblki = b.nblki) = some b := by
  induction mb with
  | nil => simp at hb
  | cons x xs ih =>
    simp only [blockList, List.map_cons, List.nodup_cons] at hd
    rcases List.mem_cons.1 hb with rfl | hb
    · simp
    · have : x.nblki ≠ b.nblki := fun h => hd.1 (by rw [h]; exact List.mem_map_of_mem hb)
      rw [List.find?_cons_of_neg (by simpa using this)]
      exact ih hd.2 hb

/-- C53 (partial): with distinct block numbers, `getBlock(n)` returns the block numbered `n` in whatever order the blocks
    are, and None if there is none, whenever `n` is smaller than the number of blocks. MISSING: block numbers not smaller
    than the number of blocks (any rank of a parallel run), where the code raises: `C53_getBlock_violated`. -/
theorem C53_getBlock_partial {α} (mb : List (Blk α)) (hd : (blockList mb).Nodup) (n : ℕ) (hn : n < mb.length) :
    (∀ b ∈ mb, b.nblki = n → getBlock mb n = .ok (some b)) ∧
    ((∀ b ∈ mb, b.nblki ≠ n) → getBlock mb n = .ok none) := by
  unfold getBlock
  rw [List.getElem?_eq_getElem hn]
  constructor
  · intro b hb he
    subst he
    simp only
    split
    · rename_i h
      have h1 := find_nblki mb hd b hb
      have h2 := find_nblki mb hd (mb[b.nblki]) (List.getElem_mem hn)
      rw [h, h1] at h2
      rw [← h2]
    · rw [find_nblki mb hd b hb]
  · intro h
    simp only
    rw [if_neg (h _ (List.getElem_mem hn)), List.find?_eq_none.2 (by simpa using h)]

/-- For the list the constructor builds, and any list numbered 0..n-1 in any order, the restriction is vacuous. -/
theorem C53_getBlock_complete {α} (mb : List (Blk α)) (hp : (blockList mb).Perm (List.range mb.length)) (b : Blk α)
    (hb : b ∈ mb) : getBlock mb b.nblki = .ok (some b) := by
  have hd : (blockList mb).Nodup := hp.nodup_iff.2 List.nodup_range
  have : b.nblki ∈ List.range mb.length := hp.mem_iff.1 (List.mem_map_of_mem hb)
  exact (C53_getBlock_partial mb hd b.nblki (List.mem_range.1 this)).1 b hb rfl

/-- C53 is violated: a rank that owns blocks 3 and 5 cannot get block 5 by its number. In general the call raises for every
    present block whose number is not smaller than the number of blocks on the rank. -/
theorem C53_getBlock_violated {α} (mb : List (Blk α)) (b : Blk α) (_ : b ∈ mb) (h : mb.length ≤ b.nblki) :
    getBlock mb b.nblki = .error .indexError := by
  unfold getBlock
  rw [List.getElem?_eq_none h]

example : getBlock [(⟨3, ()⟩ : Blk Unit), ⟨5, ()⟩] 5 = .error .indexError :=
  C53_getBlock_violated [⟨3, ()⟩, ⟨5, ()⟩] ⟨5, ()⟩ (by simp) (by simp)

example : getBlock [(⟨1, ()⟩ : Blk Unit), ⟨2, ()⟩, ⟨0, ()⟩] 0 = .ok (some ⟨0, ()⟩) :=
  C53_getBlock_complete [(⟨1, ()⟩ : Blk Unit), ⟨2, ()⟩, ⟨0, ()⟩] (by decide) ⟨0, ()⟩ (by simp)

theorem foldl_max_ge {α} (mb : List (Blk α)) (m : ℕ) :
    m ≤ mb.foldl (fun m b => if b.nblki > m then b.nblki else m) m ∧
    ∀ b ∈ mb, b.nblki ≤ mb.foldl (fun m b => if b.nblki > m then b.nblki else m) m := by
  induction mb generalizing m with
  | nil => simp
  | cons x xs ih =>
    simp only [List.foldl_cons]
    obtain ⟨h1, h2⟩ := ih (if x.nblki > m then x.nblki else m)
    have hm : m ≤ (if x.nblki > m then x.nblki else m) ∧ x.nblki ≤ (if x.nblki > m then x.nblki else m) := by
      split <;> omega
    refine ⟨hm.1.trans h1, ?_⟩
    intro b hb
    rcases List.mem_cons.1 hb with rfl | hb
    · exact hm.2.trans h1
    · exact h2 b hb

/-- `k` successive calls of appendBlock -/
def appendTimes {α} (t : MbType) (mk : ℕ → α) : ℕ → List (Blk α) → Except Exn (List (Blk α))
  | 0, mb => .ok mb
  | k+1, mb => do appendTimes t mk k (← appendBlock t mk mb)

/-- C53: one append keeps all blocks in place and adds one whose number is larger than every number in the list (and built
    by the class constructor for that number). -/
theorem C53_append {α} (t : MbType) (mk : ℕ → α) (mb mb' : List (Blk α)) (h : appendBlock t mk mb = .ok mb') :
    ∃ n, mb' = mb ++ [⟨n, mk n⟩] ∧ (∀ b ∈ mb, b.nblki < n) ∧ t ≠ .restart ∧ t ≠ .solver := by
  unfold appendBlock at h
  split at h
  · cases h
  · rename_i ht
    simp only [not_or] at ht
    cases mb with
    | nil => simp at h
    | cons x xs =>
      simp only [Except.ok.injEq] at h
      refine ⟨_, h.symm, ?_, ht⟩
      intro b hb
      have := (foldl_max_ge (x :: xs) 0).2 b hb
      omega

/-- C53: any number of appends keeps the original blocks as a prefix and all block numbers distinct. -/
theorem C53_append_history {α} (t : MbType) (mk : ℕ → α) (k : ℕ) (mb mb' : List (Blk α))
    (hd : (blockList mb).Nodup) (h : appendTimes t mk k mb = .ok mb') :
    (blockList mb').Nodup ∧ mb <+: mb' ∧ mb'.length = mb.length + k := by
  induction k generalizing mb with
  | zero => simp only [appendTimes, Except.ok.injEq] at h; subst h; exact ⟨hd, List.prefix_rfl, rfl⟩
  | succ k ih =>
    simp only [appendTimes] at h
    cases ha : appendBlock t mk mb with
    | error e => rw [ha] at h; cases h
    | ok m =>
      rw [ha] at h
      obtain ⟨n, rfl, hn, -⟩ := C53_append t mk mb m ha
      have hd' : (blockList (mb ++ [⟨n, mk n⟩])).Nodup := by
        unfold blockList
        rw [List.map_append, List.nodup_append]
        refine ⟨hd, by simp, ?_⟩
        intro a ha b hb
        obtain ⟨x, hx, rfl⟩ := List.mem_map.1 ha
        simp at hb; subst hb
        exact (hn x hx).ne
      obtain ⟨i1, i2, i3⟩ := ih _ hd' h
      refine ⟨i1, (List.prefix_append mb _).trans i2, ?_⟩
      rw [i3]; simp; omega

/-- C53: appending to a non-empty grid or topology never fails, and numbered 0..n-1 stays numbered 0..n. -/
theorem C53_append_numbering {α} (t : MbType) (ht : t = .topology ∨ t = .grid) (mk : ℕ → α) (mb : List (Blk α))
    (h0 : mb ≠ []) (hp : (blockList mb).Perm (List.range mb.length)) :
    appendBlock t mk mb = .ok (mb ++ [⟨mb.length, mk mb.length⟩]) := by
  have hmax : mb.foldl (fun m b => if b.nblki > m then b.nblki else m) 0 + 1 = mb.length := by
    have hpos : 0 < mb.length := List.length_pos_iff.2 h0
    apply le_antisymm
    · have key : ∀ (l : List (Blk α)) (m N : ℕ), m ≤ N → (∀ b ∈ l, b.nblki ≤ N) →
        l.foldl (fun m b => if b.nblki > m then b.nblki else m) m ≤ N := by
        intro l
        induction l with
        | nil => intro m N h _; simpa
        | cons x xs ih =>
          intro m N hm hb
          rw [List.foldl_cons]
          apply ih
          · split
            · exact hb x (by simp)
            · exact hm
          · intro b hb'; exact hb b (by simp [hb'])
      have := key mb 0 (mb.length - 1) (by omega) (by
        intro b hb
        have : b.nblki ∈ List.range mb.length := hp.mem_iff.1 (List.mem_map_of_mem hb)
        have := List.mem_range.1 this
        omega)
      omega
    · have : mb.length - 1 ∈ blockList mb := hp.mem_iff.2 (List.mem_range.2 (by omega))
      obtain ⟨b, hb, he⟩ := List.mem_map.1 this
      have := (foldl_max_ge mb 0).2 b hb
      omega
  unfold appendBlock
  rw [if_neg (by rcases ht with rfl | rfl <;> simp)]
  simp only [hmax]

example : appendTimes .grid (fun _ => ()) 2 [⟨7, ()⟩, ⟨0, ()⟩] = .ok [⟨7, ()⟩, ⟨0, ()⟩, ⟨8, ()⟩, ⟨9, ()⟩] := rfl

/-! ### C54: species sums -/

theorem foldl_max_lt (l : List ℝ) (s : ℝ) : 1 < l.foldl max s ↔ ∃ x ∈ s :: l, 1 < x := by
  induction l generalizing s with
  | nil => simp
  | cons y ys ih =>
    rw [List.foldl_cons, ih]
    simp only [List.mem_cons, exists_eq_or_imp, lt_max_iff]
    tauto

/-- C54: for a block with at least two species and at least one cell, the check returns False iff the stored fractions of
    some cell sum to more than one; without `normalize` nothing is changed. -/
theorem C54_verify_partial (ns : ℕ) (hns : 1 < ns) (nrm : Bool) (c : Cells) (hc : c ≠ []) :
    ∃ r c', verifySpeciesSum ns nrm c = .ok (r, c') ∧
      (r = some false ↔ ∃ y ∈ c, 1 < y.sum) ∧ (nrm = false → c' = c) := by
  unfold verifySpeciesSum
  rw [if_neg (not_not.2 hns)]
  cases c with
  | nil => exact absurd rfl hc
  | cons y ys =>
    simp only [List.map_cons]
    by_cases h : 1 < (ys.map List.sum).foldl max y.sum
    · simp only [h, if_true]
      refine ⟨_, _, rfl, ?_, fun e => by rw [e]; rfl⟩
      rw [foldl_max_lt] at h
      simp only [true_iff]
      obtain ⟨x, hx, h1⟩ := h
      rw [← List.map_cons (f := List.sum)] at hx
      obtain ⟨z, hz, rfl⟩ := List.mem_map.1 hx
      exact ⟨z, hz, h1⟩
    · simp only [h, if_false]
      refine ⟨_, _, rfl, ?_, fun _ => rfl⟩
      rw [foldl_max_lt, ← List.map_cons (f := List.sum)] at h
      constructor
      · intro e; cases e
      · rintro ⟨z, hz, h1⟩; exact absurd ⟨z.sum, List.mem_map_of_mem hz, h1⟩ h

theorem sum_div (y : List ℝ) (s : ℝ) : (y.map (· / s)).sum = y.sum / s := by
  induction y with
  | nil => simp
  | cons a as ih => simp [ih]; ring

/-- C54: normalising keeps the number of cells, leaves every good cell as it was, and divides each bad cell by its sum:
    the sum becomes exactly one and the proportions are kept. -/
theorem C54_normalize (ns : ℕ) (hns : 1 < ns) (c : Cells) (hc : c ≠ []) :
    ∃ r c', verifySpeciesSum ns true c = .ok (r, c') ∧ c'.length = c.length ∧
      ∀ k (hk : k < c.length) (hk' : k < c'.length),
        (c[k].sum ≤ 1 → c'[k] = c[k]) ∧ (1 < c[k].sum → c'[k].sum = 1 ∧ c'[k] = c[k].map (· / c[k].sum)) ∧
        c'[k].sum ≤ 1 := by
  have key : ∀ y : List ℝ, (y.sum ≤ 1 → (if 1 < y.sum then y.map (· / y.sum) else y) = y) ∧
      (1 < y.sum → (if 1 < y.sum then y.map (· / y.sum) else y).sum = 1 ∧
        (if 1 < y.sum then y.map (· / y.sum) else y) = y.map (· / y.sum)) ∧
      (if 1 < y.sum then y.map (· / y.sum) else y).sum ≤ 1 := by
    intro y
    have h1 : 1 < y.sum → (y.map (· / y.sum)).sum = 1 := fun h => by rw [sum_div, div_self (by linarith)]
    refine ⟨fun h => by rw [if_neg (not_lt.2 h)], fun h => by rw [if_pos h]; exact ⟨h1 h, rfl⟩, ?_⟩
    split
    · rename_i h; exact (h1 h).le
    · rename_i h; exact not_lt.1 h
  unfold verifySpeciesSum
  rw [if_neg (not_not.2 hns)]
  cases c with
  | nil => exact absurd rfl hc
  | cons y ys =>
    simp only [List.map_cons]
    by_cases h : 1 < (ys.map List.sum).foldl max y.sum
    · simp only [h, if_true]
      refine ⟨_, _, rfl, by simp, ?_⟩
      intro k hk hk'
      have e : ∀ (c' : Cells) (_ : c' = (y :: ys).map (fun y : List ℝ => if 1 < y.sum then y.map (· / y.sum) else y))
          (hk' : k < c'.length), c'[k] = if 1 < (y :: ys)[k].sum then (y :: ys)[k].map (· / (y :: ys)[k].sum)
            else (y :: ys)[k] := by
        intro c' hc' hk'; subst hc'; rw [List.getElem_map]
      rw [e _ (List.map_cons ..).symm hk']
      exact key _
    · simp only [h, if_false]
      refine ⟨_, _, rfl, rfl, ?_⟩
      intro k hk hk'
      have hg : (y :: ys)[k].sum ≤ 1 := by
        rw [foldl_max_lt, ← List.map_cons (f := List.sum)] at h
        exact not_lt.1 fun h1 => h ⟨_, List.mem_map_of_mem (List.getElem_mem hk), h1⟩
      exact ⟨fun _ => rfl, fun h1 => absurd hg (not_le.2 h1), hg⟩

/-- C54 is violated: whatever the data, even with every cell exactly right, the whole-domain check reports a problem as
    soon as there is a block (verifySpeciesSum returns None, not True, for a good block). -/
theorem C54_report_violated (ns : ℕ) (hns : 1 < ns) (nrm : Bool) (bs : List Cells) (hb : bs ≠ [])
    (hc : ∀ c ∈ bs, c ≠ []) : ∃ bs', checkSpeciesSum ns nrm bs = .ok (true, bs') := by
  have total : ∀ bs : List Cells, (∀ c ∈ bs, c ≠ []) → ∃ r, checkSpeciesSum ns nrm bs = .ok r := by
    intro bs
    induction bs with
    | nil => intro _; exact ⟨_, rfl⟩
    | cons c cs ih =>
      intro h
      obtain ⟨r, c', h1, -⟩ := C54_verify_partial ns hns nrm c (h c (by simp))
      obtain ⟨r2, h2⟩ := ih (fun x hx => h x (by simp [hx]))
      exact ⟨_, by simp only [checkSpeciesSum, h1, h2]; rfl⟩
  cases bs with
  | nil => exact absurd rfl hb
  | cons c cs =>
    obtain ⟨r, c', h1, h2, -⟩ := C54_verify_partial ns hns nrm c (hc c (by simp))
    obtain ⟨⟨bad, cs'⟩, h3⟩ := total cs (fun x hx => hc x (by simp [hx]))
    have hr : r = some false ∨ r = none := by
      unfold verifySpeciesSum at h1
      rw [if_neg (not_not.2 hns)] at h1
      cases c with
      | nil => exact absurd rfl (hc [] (by simp))
      | cons y ys =>
        simp only [List.map_cons] at h1
        split at h1 <;> (simp only [Except.ok.injEq, Prod.mk.injEq] at h1)
        · exact .inl h1.1.symm
        · exact .inr h1.1.symm
    refine ⟨c' :: cs', ?_⟩
    simp only [checkSpeciesSum, h1, h3]
    rcases hr with rfl | rfl <;> rfl

/-- the defect on a concrete good field: one cell with fractions 0.3 and 0.2 -/
example : ∃ bs', checkSpeciesSum 3 false [[[0.3, 0.2]]] = .ok (true, bs') :=
  C54_report_violated 3 (by norm_num) false _ (by simp) (by simp)

/-! ### C39: blocksForProcs.inp -/

/-- the text of one group without its line end -/
def lineOf (g : List ℕ) : List Char := g.flatMap (fun n => decimal n ++ [',', ' '])

/-- the same with the blank moved in front of each number but the first -/
theorem lineOf_cons (n : ℕ) (ns : List ℕ) :
    lineOf (n :: ns) = decimal n ++ ',' :: (ns.flatMap (fun m => ' ' :: decimal m ++ [','])) ++ [' '] := by
  induction ns generalizing n with
  | nil => simp [lineOf]
  | cons m ms ih =>
    have := ih m
    unfold lineOf at *
    rw [List.flatMap_cons, this]
    simp

theorem lineOf_chars (g : List ℕ) : ∀ c ∈ lineOf g, IsDigit c ∨ c = ',' ∨ c = ' ' := by
  intro c hc
  unfold lineOf at hc
  obtain ⟨n, _, h⟩ := List.mem_flatMap.1 hc
  rcases List.mem_append.1 h with h | h
  · exact .inl (decimal_digits n c h)
  · simp at h; exact .inr h

theorem strip_lineOf (n : ℕ) (ns : List ℕ) :
    strip (lineOf (n :: ns)) = decimal n ++ ',' :: (ns.flatMap (fun m => ' ' :: decimal m ++ [','])) := by
  rw [lineOf_cons]
  apply strip_post
  · intro c hc; simp at hc; subst hc; decide
  · intro c hc
    have : ∀ (l : List ℕ) (a : List Char) , (a ++ ',' :: l.flatMap (fun m => ' ' :: decimal m ++ [','])).getLast? = some ',' := by
      intro l
      induction l with
      | nil => intro a; simp
      | cons x xs ih =>
        intro a
        have h := ih (a ++ ',' :: ' ' :: decimal x)
        rw [List.flatMap_cons]
        simpa using h
    rw [this] at hc
    cases hc; decide
  · intro c hc
    rw [List.head?_append_of_ne_nil _ (decimal_ne_nil n)] at hc
    exact isDigit_not_space (decimal_digits n c (List.mem_of_mem_head? hc))

theorem digits_nocomma {s : List Char} (h : ∀ c ∈ s, IsDigit c) : ',' ∉ s := fun hc => (isDigit_ne (h _ hc)).1 rfl

theorem splitComma_rest (ns : List ℕ) :
    splitComma (ns.flatMap (fun m => ' ' :: decimal m ++ [','])) = ns.map (fun m => ' ' :: decimal m) ++ [[]] := by
  induction ns with
  | nil => rfl
  | cons m ms ih =>
    rw [List.flatMap_cons]
    have : (' ' :: decimal m ++ [',']) ++ ms.flatMap (fun m => ' ' :: decimal m ++ [','])
        = (' ' :: decimal m) ++ ',' :: ms.flatMap (fun m => ' ' :: decimal m ++ [',']) := by simp
    rw [this, splitComma_piece, ih]
    · simp
    · intro h
      rcases List.mem_cons.1 h with h | h
      · exact absurd h (by decide)
      · exact digits_nocomma (decimal_digits m) h

theorem mapM_pyInt (ns : List ℕ) : (ns.map (fun m => ' ' :: decimal m)).mapM pyInt = some (ns.map (fun m : ℕ => (m : ℤ))) := by
  induction ns with
  | nil => rfl
  | cons m ms ih =>
    have h : pyInt (' ' :: decimal m) = some (m : ℤ) := pyInt_decimal [' '] (by decide) m
    simp [List.mapM_cons, h, ih]

theorem parseLine_lineOf (g : List ℕ) : parseLine (lineOf g) = some (g.map (fun m : ℕ => (m : ℤ))) := by
  cases g with
  | nil => rfl
  | cons n ns =>
    unfold parseLine
    rw [strip_lineOf, splitComma_piece _ _ (digits_nocomma (decimal_digits n)), splitComma_rest]
    have e : (decimal n :: (ns.map (fun m => ' ' :: decimal m) ++ [[]])).getLast? = some [] := by
      rw [← List.cons_append, List.getLast?_append]; simp
    simp only [e, if_true]
    rw [← List.cons_append, List.dropLast_concat]
    have h : pyInt (decimal n) = some (n : ℤ) := pyInt_decimal [] (by simp) n
    rw [List.mapM_cons, h, mapM_pyInt]
    rfl

theorem not_comment (g : List ℕ) : isComment (lineOf g) = false := by
  cases g with
  | nil => rfl
  | cons n ns =>
    unfold isComment
    rw [strip_lineOf, List.head?_append_of_ne_nil _ (decimal_ne_nil n)]
    cases hd : decimal n with
    | nil => exact absurd hd (decimal_ne_nil n)
    | cons c cs =>
      have := (isDigit_ne (decimal_digits n c (by rw [hd]; simp))).2.2.2.1
      simpa using this

theorem lines_write (brk : Char → Bool) (hb : brk '\n' = true) (hd : ∀ c, IsDigit c → brk c = false)
    (hc : brk ',' = false) (hs : brk ' ' = false) (gs : List (List ℕ)) :
    linesGo brk [] (writeGroups gs) = gs.map lineOf := by
  induction gs with
  | nil => simp [writeGroups, linesGo]
  | cons g gs ih =>
    unfold writeGroups at *
    rw [List.flatMap_cons, List.append_assoc]
    have h := linesGo_line brk hb [] (lineOf g)
      (gs.flatMap (fun g => g.flatMap (fun n => decimal n ++ [',', ' ']) ++ ['\n'])) (by
      intro c h
      rcases lineOf_chars g c h with h | h | h
      · exact hd c h
      · rw [h]; exact hc
      · rw [h]; exact hs)
    unfold lineOf at h
    rw [List.map_cons, ← ih]
    simpa [lineOf] using h

theorem parseLines_map (gs : List (List ℕ)) :
    parseLines (gs.map lineOf) = some (gs.map (fun g => g.map (fun m : ℕ => (m : ℤ)))) := by
  unfold parseLines
  have : (gs.map lineOf).filter (fun l => !isComment l) = gs.map lineOf := by
    rw [List.filter_eq_self]
    intro l hl
    obtain ⟨g, _, rfl⟩ := List.mem_map.1 hl
    simp [not_comment]
  rw [this]
  induction gs with
  | nil => rfl
  | cons g gs ih => simp [List.mapM_cons, parseLine_lineOf, ih (by
      rw [List.filter_eq_self]
      intro l hl
      obtain ⟨g, _, rfl⟩ := List.mem_map.1 hl
      simp [not_comment])]

/-- C39: both readers return exactly the lists the load balancer wrote. -/
theorem C39_roundtrip (parallel : Bool) (gs : List (List ℕ)) :
    readGroups parallel (writeGroups gs) = some (gs.map (fun g => g.map (fun m : ℕ => (m : ℤ)))) := by
  unfold readGroups
  cases parallel
  · simp only [Bool.false_eq_true, if_false]
    rw [readlines, lines_write _ (by decide) _ (by decide) (by decide), parseLines_map]
    rintro c ⟨d, hd, rfl⟩
    interval_cases d <;> decide
  · simp only [if_true]
    rw [splitlines, lines_write _ (by decide) (fun c h => isDigit_not_break h) (by decide) (by decide), parseLines_map]

/-- C39: a comment line anywhere at a line start (any text without a line boundary whose first non-blank is `#`) is
    ignored by both readers. -/
theorem C39_comment (parallel : Bool) (gs : List (List ℕ)) (cm rest : List Char)
    (hc : ∀ c ∈ cm, isBreak c = false) (hh : (strip cm).head? = some '#') :
    readGroups parallel (writeGroups gs ++ (cm ++ '\n' :: rest)) = readGroups parallel (writeGroups gs ++ rest) := by
  have gen : ∀ (brk : Char → Bool) (hb : brk '\n' = true) (hd : ∀ c, IsDigit c → brk c = false)
      (_ : brk ',' = false) (_ : brk ' ' = false) (_ : ∀ c ∈ cm, brk c = false),
      parseLines (linesGo brk [] (writeGroups gs ++ (cm ++ '\n' :: rest)))
        = parseLines (linesGo brk [] (writeGroups gs ++ rest)) := by
    intro brk hb hd hc1 hs1 hcm
    have split : ∀ (gs : List (List ℕ)) (r : List Char),
        linesGo brk [] (writeGroups gs ++ r) = gs.map lineOf ++ linesGo brk [] r := by
      intro gs r
      induction gs with
      | nil => rfl
      | cons g gs ih =>
        have h := linesGo_line brk hb [] (lineOf g) (writeGroups gs ++ r) (by
          intro c h
          rcases lineOf_chars g c h with h | h | h
          · exact hd c h
          · rw [h]; exact hc1
          · rw [h]; exact hs1)
        rw [List.map_cons, List.cons_append, ← ih]
        rw [List.nil_append] at h
        rw [← h]
        simp [writeGroups, lineOf]
    rw [split, split, linesGo_line brk hb [] cm rest hcm, List.nil_append]
    have : isComment cm = true := by unfold isComment; rw [hh]; rfl
    unfold parseLines
    simp [List.filter_append, List.filter_cons, this]
  unfold readGroups
  cases parallel
  · simp only [Bool.false_eq_true, if_false]
    apply gen _ (by decide) _ (by decide) (by decide)
    · intro c h
      have := hc c h
      unfold isBreak at this
      unfold isNewline
      simp only [Bool.or_eq_false_iff] at this ⊢
      exact ⟨this.1.1.1.1.1.1, this.1.1.1.1.1.2⟩
    · rintro c ⟨d, hd, rfl⟩
      interval_cases d <;> decide
  · simp only [if_true]
    exact gen _ (by decide) (fun c h => isDigit_not_break h) (by decide) (by decide) hc

example : readGroups true ("# two ranks\n0, 12, \n3,1\n".toList) = some [[0, 12], [3, 1]] := by
  simp [readGroups, splitlines, linesGo, isBreak]
  decide

end PG.Setup
