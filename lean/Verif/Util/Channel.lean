import Mathlib.Data.Real.Archimedean
import Mathlib.Algebra.Order.Floor.Ring
import Mathlib.Algebra.Order.Field.GeomSum
import Mathlib.Algebra.Order.Archimedean.Real.Basic
import Mathlib.Tactic.Linarith
import Mathlib.Tactic.Ring
import Mathlib.Tactic.FieldSimp
import Mathlib.Tactic.Positivity
import Mathlib.Tactic.NormNum
import Mathlib.Tactic.LinearCombination
/-!
C97: the wall-normal coordinates of `utilities/boundaryLayerGrid.py`.

Numbers are reals. `none` stands for a failed assertion, an exception or a loop that never ends.
-/
namespace PG.Util.Channel

noncomputable section
open Classical

/-- the `while` loop of `ptsWithGR` (boundaryLayerGrid.py:60-62): `acc` are the points found so far, latest first after `y` -/
def climb (stop gr : ℝ) (acc : List ℝ) (y dY : ℝ) : Option (List ℝ × ℝ) :=
  if y < stop then climb stop gr (y :: acc) (y + dY) (dY * gr) else some (acc, y)
partial_fixpoint

/-- `ptsWithGR` (boundaryLayerGrid.py:53-69) -/
def ptsWithGR (start stop gr startDy : ℝ) : Option (List ℝ) :=
  if stop > start ∧ start > 0 ∧ gr > 1 then do
    let (acc, y) ← climb stop gr [] start (startDy * gr)
    match acc with
    | [] => none
    | y2 :: _ =>
      let pts := if |y - stop| > |y2 - stop| then acc.reverse else (y :: acc).reverse
      some (pts.map fun p => start + (p - start) / (stop - start) * stop)
  else none

/-- the `while` loop of `growToDy` (boundaryLayerGrid.py:79-81) -/
def widen (endDy gr : ℝ) (acc : List ℝ) (y dY : ℝ) : Option (List ℝ) :=
  if dY < endDy then widen endDy gr (y :: acc) (y + dY) (dY * gr) else some (y :: acc).reverse
partial_fixpoint

/-- `growToDy` (boundaryLayerGrid.py:72-83) -/
def growToDy (startDy endDy gr : ℝ) : Option (List ℝ) :=
  if startDy > 0 ∧ startDy < endDy ∧ gr > 1 then widen endDy gr [] 0 (startDy * gr) else none

/-- `np.linspace(a, b, n)` -/
def linspace (a b : ℝ) (n : ℤ) : Option (List ℝ) :=
  if n < 0 then none
  else some ((List.range n.toNat).map fun i : ℕ => if n = 1 then a else a + i * ((b - a) / (n - 1)))

/-- Python `int()` of a float: towards zero -/
def toInt (x : ℝ) : ℤ := if 0 ≤ x then ⌊x⌋ else ⌈x⌉

/-- the input file (boundaryLayerGrid.py:24-50), with the defaults filled in -/
structure Inp where
  /-- domainType: channel (else bl) -/
  channel : Bool
  delta : ℝ
  yHeight : ℝ
  viscosity : ℝ
  ReTau : ℝ
  nVSL : ℤ
  buffGR : ℝ
  logGR : ℝ
  dYplusCore : ℝ

/-- lines 117-121 -/
def Inp.yp1 (p : Inp) : ℝ := p.viscosity / (p.ReTau * p.viscosity / p.delta)

/-- lines 160-163 -/
def Inp.endYplus (p : Inp) : ℝ := if p.channel then p.delta / p.yp1 else p.yHeight / p.yp1

/-- the pieces of the wall-normal distribution in wall units (lines 125-167): viscous sub-layer, buffer layer, log layer, core -/
structure Layers where
  vsl : List ℝ
  buff : List ℝ
  log : List ℝ
  core : List ℝ

/-- lines 125-167 -/
def layers (p : Inp) : Option Layers :=
  if p.nVSL > 2 ∧ p.buffGR > 1 then do
    let vsl ← linspace 0 5 p.nVSL
    let d1 ← (do some ((← vsl.reverse[0]?) - (← vsl.reverse[1]?)))
    let buff ← ptsWithGR 5 30 p.buffGR d1
    let top ← buff.reverse[0]?
    let d2 ← (do some (top - (← buff.reverse[1]?)))
    let g ← growToDy d2 p.dYplusCore p.logGR
    let log := g.map (top + ·)
    let e ← log.reverse[0]?
    let core ← linspace e p.endYplus (toInt ((p.endYplus - e) / p.dYplusCore))
    some ⟨vsl, buff, log, core⟩
  else none

/-- line 170: the pieces without the repeated points -/
def Layers.total (l : Layers) : List ℝ := l.vsl ++ (l.buff.drop 1).dropLast ++ l.log.dropLast ++ l.core

/-- lines 172-175 -/
def mirror (ys : List ℝ) : Option (List ℝ) := do
  let top ← ys.reverse[0]?
  some (ys ++ (ys.reverse.map (2 * top - ·)).drop 1)

/-- the wall-normal coordinates of the grid (line 192) -/
def wallNormal (p : Inp) : Option (List ℝ) := do
  let l ← layers p
  let ys ← if p.channel then mirror l.total else some l.total
  some (ys.map (· * p.yp1))

/-! ### the loops -/

/-- point `n` of a geometric progression of steps -/
def pt (start d gr : ℝ) (n : ℕ) : ℝ := start + d * ∑ k ∈ Finset.range n, gr ^ k

theorem pt_succ (start d gr : ℝ) (n : ℕ) : pt start d gr (n+1) = pt start d gr n + d * gr ^ n := by
  unfold pt; rw [Finset.sum_range_succ]; ring

theorem pt_shift (start d gr : ℝ) (n : ℕ) : pt (start + d) (d * gr) gr n = pt start d gr (n+1) := by
  unfold pt; rw [Finset.sum_range_succ', Finset.mul_sum, mul_add, Finset.mul_sum]
  have : ∑ i ∈ Finset.range n, d * gr * gr ^ i = ∑ k ∈ Finset.range n, d * gr ^ (k+1) :=
    Finset.sum_congr rfl fun k _ => by ring
  rw [this]; ring

theorem pt_unbounded {d gr : ℝ} (start stop : ℝ) (hd : 0 < d) (hg : 1 < gr) : ∃ n, stop ≤ pt start d gr n := by
  obtain ⟨n, hn⟩ := exists_nat_gt ((stop - start) / d)
  refine ⟨n, ?_⟩
  have h1 : (n : ℝ) ≤ ∑ k ∈ Finset.range n, gr ^ k := by
    have : ∑ k ∈ Finset.range n, (1 : ℝ) ≤ ∑ k ∈ Finset.range n, gr ^ k := Finset.sum_le_sum fun k _ => one_le_pow₀ hg.le
    simpa using this
  unfold pt
  rw [div_lt_iff₀ hd] at hn
  nlinarith

theorem pt_lt {start d gr : ℝ} (hd : 0 < d) (hg : 1 < gr) (n : ℕ) : pt start d gr n < pt start d gr (n+1) := by
  rw [pt_succ]; have : 0 < d * gr ^ n := by positivity
  linarith

/-- the loop stops at the first point at or past the end -/
theorem climb_eq {stop gr : ℝ} (n : ℕ) : ∀ (acc : List ℝ) (y d : ℝ), (∀ m < n, pt y d gr m < stop) → stop ≤ pt y d gr n →
    climb stop gr acc y d = some (((List.range n).map (pt y d gr)).reverse ++ acc, pt y d gr n) := by
  induction n with
  | zero =>
    intro acc y d _ h
    have e : pt y d gr 0 = y := by simp [pt]
    rw [climb, if_neg (by rw [← e]; exact not_lt.mpr h)]
    simp [e]
  | succ n ih =>
    intro acc y d h1 h2
    have e : pt y d gr 0 = y := by simp [pt]
    rw [climb, if_pos (by rw [← e]; exact h1 0 (by omega)), ih _ _ _ (fun m hm => by rw [pt_shift]; exact h1 _ (by omega))
      (by rw [pt_shift]; exact h2)]
    rw [pt_shift, List.range_succ_eq_map, List.map_cons, List.map_map, List.reverse_cons, e]
    have : (pt (y + d) (d * gr) gr) = (pt y d gr ∘ Nat.succ) := by funext n; exact pt_shift _ _ _ _
    rw [this]
    simp

theorem climb_some {stop gr y d : ℝ} (hd : 0 < d) (hg : 1 < gr) (hy : y < stop) :
    ∃ n, 0 < n ∧ (∀ m < n, pt y d gr m < stop) ∧ stop ≤ pt y d gr n ∧
      ∀ acc, climb stop gr acc y d = some (((List.range n).map (pt y d gr)).reverse ++ acc, pt y d gr n) := by
  have hex := pt_unbounded y stop hd hg
  refine ⟨Nat.find hex, ?_, fun m hm => not_le.mp (Nat.find_min hex hm), Nat.find_spec hex, fun acc =>
    climb_eq _ _ _ _ (fun m hm => not_le.mp (Nat.find_min hex hm)) (Nat.find_spec hex)⟩
  rw [Nat.find_pos]
  simpa [pt] using hy

/-- `growToDy`'s loop: stops at the first step that is long enough -/
theorem widen_eq {endDy gr : ℝ} (n : ℕ) : ∀ (acc : List ℝ) (y d : ℝ), (∀ m < n, d * gr ^ m < endDy) → endDy ≤ d * gr ^ n →
    widen endDy gr acc y d = some (acc.reverse ++ (List.range (n+1)).map (pt y d gr)) := by
  induction n with
  | zero =>
    intro acc y d _ h
    rw [widen, if_neg (by simpa using h)]
    simp [pt]
  | succ n ih =>
    intro acc y d h1 h2
    rw [widen, if_pos (by simpa using h1 0 (by omega)),
      ih _ _ _ (fun m hm => by rw [mul_assoc, ← pow_succ']; exact h1 _ (by omega)) (by rw [mul_assoc, ← pow_succ']; exact h2)]
    have : (pt (y + d) (d * gr) gr) = (pt y d gr ∘ Nat.succ) := by funext n; exact pt_shift _ _ _ _
    rw [this, List.range_succ_eq_map (n := n+1), List.map_cons, List.map_map]
    simp [pt]

theorem widen_some {endDy gr d : ℝ} (hd : 0 < d) (hg : 1 < gr) :
    ∃ n, (∀ m < n, d * gr ^ m < endDy) ∧ endDy ≤ d * gr ^ n ∧
      ∀ acc y, widen endDy gr acc y d = some (acc.reverse ++ (List.range (n+1)).map (pt y d gr)) := by
  have hex : ∃ n, endDy ≤ d * gr ^ n := by
    obtain ⟨n, hn⟩ := pow_unbounded_of_one_lt (endDy / d) hg
    exact ⟨n, by rw [div_lt_iff₀ hd] at hn; linarith⟩
  exact ⟨Nat.find hex, fun m hm => not_le.mp (Nat.find_min hex hm), Nat.find_spec hex, fun acc y =>
    widen_eq _ _ _ _ (fun m hm => not_le.mp (Nat.find_min hex hm)) (Nat.find_spec hex)⟩

/-- the points of `ptsWithGR`, in closed form -/
theorem ptsWithGR_eq {start stop gr d : ℝ} (hs : 0 < start) (h : start < stop) (hg : 1 < gr) (hd : 0 < d) :
    ∃ n, 0 < n ∧ (∀ m < n, pt start (d * gr) gr m < stop) ∧ stop ≤ pt start (d * gr) gr n ∧
      ptsWithGR start stop gr d = some ((List.range (if |pt start (d * gr) gr n - stop| > |pt start (d * gr) gr (n-1) - stop|
        then n else n + 1)).map fun m => pt start (d * gr * (stop / (stop - start))) gr m) := by
  obtain ⟨n, hn, h1, h2, h3⟩ := climb_some (stop := stop) (y := start) (d := d * gr) (gr := gr) (by positivity) hg h
  refine ⟨n, hn, h1, h2, ?_⟩
  unfold ptsWithGR
  rw [if_pos ⟨h, hs, hg⟩, h3]
  obtain ⟨k, rfl⟩ : ∃ k, n = k + 1 := ⟨n-1, by omega⟩
  have hne : stop - start ≠ 0 := by linarith
  have key : ∀ m, start + (pt start (d * gr) gr m - start) / (stop - start) * stop = pt start (d * gr * (stop / (stop - start))) gr m := by
    intro m; unfold pt; field_simp; ring
  simp only [bind, Option.bind, List.append_nil]
  rw [List.range_succ, List.map_append, List.reverse_append]
  simp only [List.map_cons, List.map_nil, List.reverse_cons, List.reverse_nil, List.nil_append, List.cons_append,
    Nat.add_sub_cancel]
  split
  · rw [← List.map_reverse] 
    simp [key, List.range_succ]
  · simp [key, List.range_succ]

/-! ### specification -/

/-- the list increases strictly, starts with `a` and ends with `b` -/
def Run (a b : ℝ) (l : List ℝ) : Prop := l.Pairwise (· < ·) ∧ l.head? = some a ∧ l.getLast? = some b

/-! ### proofs -/

theorem Run.ne {a b : ℝ} {l : List ℝ} (h : Run a b l) : l ≠ [] := by
  rintro rfl; simp [Run] at h

theorem Run.join {a b c : ℝ} {l m : List ℝ} (h : Run a b l) (g : Run b c m) : Run a c (l.dropLast ++ m) := by
  obtain ⟨h1, h2, h3⟩ := h
  obtain ⟨g1, g2, g3⟩ := g
  obtain ⟨l', rfl⟩ : ∃ l', l = l' ++ [b] := by
    rw [List.getLast?_eq_some_iff] at h3; exact h3
  obtain ⟨m', rfl⟩ : ∃ m', m = b :: m' := by
    cases m with
    | nil => simp at g2
    | cons x m' => simp at g2; exact ⟨m', by rw [g2]⟩
  rw [List.dropLast_concat]
  rw [List.pairwise_append] at h1
  obtain ⟨p1, _, p2⟩ := h1
  have p2' : ∀ x ∈ l', x < b := fun x hx => p2 x hx b (by simp)
  refine ⟨?_, ?_, ?_⟩
  · rw [List.pairwise_append]
    refine ⟨p1, g1, fun x hx y hy => ?_⟩
    rcases List.mem_cons.mp hy with rfl | hy
    · exact p2' x hx
    · exact lt_trans (p2' x hx) ((List.pairwise_cons.mp g1).1 y hy)
  · cases l' with
    | nil => simpa using h2
    | cons x l'' => simpa using h2
  · rw [List.getLast?_append, g3]; rfl

theorem Run.range {f : ℕ → ℝ} (n : ℕ) (hf : ∀ i < n, f i < f (i+1)) : Run (f 0) (f n) ((List.range (n+1)).map f) := by
  induction n with
  | zero => simp [Run]
  | succ n ih =>
    have h := ih fun i hi => hf i (by omega)
    have g : Run (f n) (f (n+1)) [f n, f (n+1)] := by
      simp [Run, hf n (by omega)]
    have := h.join g
    rw [List.range_succ, List.map_append, List.map_cons, List.map_nil, List.dropLast_concat] at this
    rw [List.range_succ, List.range_succ]
    simpa using this

theorem Run.mirror {a b : ℝ} {l : List ℝ} (h : Run a b l) : Run b (2 * b - a) (l.reverse.map (2 * b - ·)) := by
  obtain ⟨h1, h2, h3⟩ := h
  refine ⟨?_, ?_, ?_⟩
  · rw [List.pairwise_map, List.pairwise_reverse]
    exact h1.imp fun hxy => by linarith
  · rw [List.head?_map, List.head?_reverse, h3]; simp; ring
  · rw [List.getLast?_map, List.getLast?_reverse, h2]; rfl

theorem Run.scale {a b c : ℝ} (hc : 0 < c) {l : List ℝ} (h : Run a b l) : Run (a * c) (b * c) (l.map (· * c)) := by
  obtain ⟨h1, h2, h3⟩ := h
  refine ⟨?_, ?_, ?_⟩
  · rw [List.pairwise_map]
    exact h1.imp fun hxy => mul_lt_mul_of_pos_right hxy hc
  · rw [List.head?_map, h2]; rfl
  · rw [List.getLast?_map, h3]; rfl

theorem linspace_run {a b : ℝ} (h : a < b) {n : ℤ} (hn : 2 ≤ n) {l : List ℝ} (hl : linspace a b n = some l) : Run a b l := by
  obtain ⟨k, rfl⟩ : ∃ k : ℕ, n = k + 2 := ⟨(n-2).toNat, by omega⟩
  unfold linspace at hl
  rw [if_neg (by omega)] at hl
  cases hl
  have e : ((k : ℤ) + 2).toNat = (k + 1) + 1 := by omega
  have hne : ((k : ℤ) + 2) ≠ 1 := by omega
  simp only [hne, if_false, e]
  have hk : (0 : ℝ) < (k : ℝ) + 1 := by positivity
  have e2 : (((k : ℤ) + 2 : ℤ) : ℝ) - 1 = (k : ℝ) + 1 := by push_cast; ring
  rw [e2]
  have := Run.range (f := fun i : ℕ => a + (i : ℝ) * ((b - a) / ((k : ℝ) + 1))) (k+1) (fun i _ => by
    have : 0 < (b - a) / ((k : ℝ) + 1) := div_pos (by linarith) hk
    push_cast
    linarith)
  have e3 : a + ((k + 1 : ℕ) : ℝ) * ((b - a) / ((k : ℝ) + 1)) = b := by push_cast; field_simp; ring
  rw [e3] at this
  simpa using this

theorem linspace_length {a b : ℝ} {n : ℤ} {l : List ℝ} (hl : linspace a b n = some l) : (l.length : ℤ) = n := by
  unfold linspace at hl
  split at hl
  · cases hl
  · cases hl; rw [List.length_map, List.length_range]; omega

theorem linspace_get {a b : ℝ} {n : ℤ} (hn : 2 ≤ n) {l : List ℝ} (hl : linspace a b n = some l) {i : ℕ} (hi : (i : ℤ) < n) :
    l[i]? = some (a + i * ((b - a) / (n - 1))) := by
  unfold linspace at hl
  rw [if_neg (by omega)] at hl
  cases hl
  have hne : n ≠ 1 := by omega
  rw [List.getElem?_map, List.getElem?_range (by omega)]
  simp [hne]

/-- what the pieces look like whenever they are produced -/
theorem layers_eq {p : Inp} {l : Layers} (h : layers p = some l) :
    2 < p.nVSL ∧ 1 < p.buffGR ∧ 1 < p.logGR ∧ linspace 0 5 p.nVSL = some l.vsl ∧
    ∃ K M : ℕ, l.buff = (List.range (K+2)).map (pt 5 (5 / (p.nVSL - 1) * p.buffGR * (30 / 25)) p.buffGR) ∧
    ∃ top d2 : ℝ, top = pt 5 (5 / (p.nVSL - 1) * p.buffGR * (30 / 25)) p.buffGR (K+1) ∧
      d2 = 5 / (p.nVSL - 1) * p.buffGR * (30 / 25) * p.buffGR ^ K ∧ 0 < d2 ∧ d2 < p.dYplusCore ∧
      l.log = (List.range (M+1)).map (pt top (d2 * p.logGR) p.logGR) ∧
      linspace (pt top (d2 * p.logGR) p.logGR M) p.endYplus
        (toInt ((p.endYplus - pt top (d2 * p.logGR) p.logGR M) / p.dYplusCore)) = some l.core := by
  unfold layers at h
  split at h
  case isFalse => cases h
  case isTrue hc =>
  obtain ⟨hv, hb⟩ := hc
  simp only [bind, Option.bind] at h
  cases hvsl : linspace 0 5 p.nVSL with
  | none => rw [hvsl] at h; cases h
  | some vsl =>
  rw [hvsl] at h
  dsimp only at h
  have hlen := linspace_length hvsl
  have r0 : vsl.reverse[0]? = some 5 := by
    rw [List.getElem?_reverse (by omega), linspace_get (by omega) hvsl (by omega)]
    have : ((vsl.length - 1 - 0 : ℕ) : ℝ) = (p.nVSL : ℝ) - 1 := by
      rw [← hlen]; push_cast [Nat.sub_zero]; rw [Nat.cast_sub (by omega)]; simp
    rw [this]
    have : (p.nVSL : ℝ) - 1 ≠ 0 := by
      have : (2 : ℝ) < p.nVSL := by exact_mod_cast hv
      linarith
    field_simp; simp
  have r1 : vsl.reverse[1]? = some (5 - 5 / ((p.nVSL : ℝ) - 1)) := by
    rw [List.getElem?_reverse (by omega), linspace_get (by omega) hvsl (by omega)]
    have : ((vsl.length - 1 - 1 : ℕ) : ℝ) = (p.nVSL : ℝ) - 2 := by
      rw [← hlen]; rw [Nat.sub_sub, Nat.cast_sub (by omega)]; push_cast; ring
    rw [this]
    have : (p.nVSL : ℝ) - 1 ≠ 0 := by
      have : (2 : ℝ) < p.nVSL := by exact_mod_cast hv
      linarith
    congr 1; field_simp; ring
  rw [r0, r1] at h
  dsimp only at h
  have hd1 : (0 : ℝ) < 5 / ((p.nVSL : ℝ) - 1) := by
    have : (2 : ℝ) < p.nVSL := by exact_mod_cast hv
    exact div_pos (by norm_num) (by linarith)
  have e5 : (5 : ℝ) - (5 - 5 / ((p.nVSL : ℝ) - 1)) = 5 / ((p.nVSL : ℝ) - 1) := by ring
  rw [e5] at h
  obtain ⟨n, hn, _, _, hpts⟩ := ptsWithGR_eq (start := 5) (stop := 30) (gr := p.buffGR) (d := 5 / ((p.nVSL : ℝ) - 1)) (by norm_num)
    (by norm_num) hb hd1
  have e25 : (30 : ℝ) / (30 - 5) = 30 / 25 := by norm_num
  rw [e25] at hpts
  set D := 5 / ((p.nVSL : ℝ) - 1) * p.buffGR * (30 / 25) with hD
  have hDpos : 0 < D := by positivity
  rw [hpts] at h
  dsimp only at h
  set L := (if |pt 5 (5 / ((p.nVSL : ℝ) - 1) * p.buffGR) p.buffGR n - 30| > |pt 5 (5 / ((p.nVSL : ℝ) - 1) * p.buffGR) p.buffGR (n-1) - 30|
        then n else n + 1) with hL
  have hL1 : 1 ≤ L := by rw [hL]; split <;> omega
  obtain ⟨K1, hK1⟩ : ∃ K, L = K + 1 := ⟨L - 1, by omega⟩
  rw [hK1] at h
  have q0 : ((List.range (K1+1)).map (fun m => pt 5 D p.buffGR m)).reverse[0]? = some (pt 5 D p.buffGR K1) := by
    rw [List.range_succ]; simp
  rw [q0] at h
  dsimp only at h
  cases K1 with
  | zero => simp at h
  | succ K =>
  have q1 : ((List.range (K+1+1)).map (fun m => pt 5 D p.buffGR m)).reverse[1]? = some (pt 5 D p.buffGR K) := by
    rw [List.range_succ, List.range_succ]; simp
  rw [q1] at h
  dsimp only at h
  have ed2 : pt 5 D p.buffGR (K+1) - pt 5 D p.buffGR K = D * p.buffGR ^ K := by rw [pt_succ]; ring
  rw [ed2] at h
  have hd2 : 0 < D * p.buffGR ^ K := by positivity
  unfold growToDy at h
  by_cases hg : D * p.buffGR ^ K > 0 ∧ D * p.buffGR ^ K < p.dYplusCore ∧ p.logGR > 1
  case neg => rw [if_neg hg] at h; cases h
  rw [if_pos hg] at h
  obtain ⟨M, _, _, hw⟩ := widen_some (endDy := p.dYplusCore) (gr := p.logGR) (d := D * p.buffGR ^ K * p.logGR)
    (by have := hg.2.2; positivity) hg.2.2
  rw [hw] at h
  dsimp only at h
  have elog : ((List.reverse [] ++ (List.range (M+1)).map (pt 0 (D * p.buffGR ^ K * p.logGR) p.logGR)).map
      (pt 5 D p.buffGR (K+1) + ·)) = (List.range (M+1)).map (pt (pt 5 D p.buffGR (K+1)) (D * p.buffGR ^ K * p.logGR) p.logGR) := by
    rw [List.reverse_nil, List.nil_append, List.map_map]
    apply List.map_congr_left
    intro m _
    simp [pt]
  rw [elog] at h
  have s0 : ((List.range (M+1)).map (pt (pt 5 D p.buffGR (K+1)) (D * p.buffGR ^ K * p.logGR) p.logGR)).reverse[0]? =
      some (pt (pt 5 D p.buffGR (K+1)) (D * p.buffGR ^ K * p.logGR) p.logGR M) := by
    rw [List.range_succ]; simp
  rw [s0] at h
  dsimp only at h
  cases hcore : linspace (pt (pt 5 D p.buffGR (K+1)) (D * p.buffGR ^ K * p.logGR) p.logGR M) p.endYplus
      (toInt ((p.endYplus - pt (pt 5 D p.buffGR (K+1)) (D * p.buffGR ^ K * p.logGR) p.logGR M) / p.dYplusCore)) with
  | none => rw [hcore] at h; cases h
  | some core =>
  rw [hcore] at h
  cases h
  exact ⟨hv, hb, hg.2.2, rfl, K, M, rfl, _, _, rfl, rfl, hd2, hg.2.1, rfl, hcore⟩

theorem toInt_le {x : ℝ} (h : 2 ≤ toInt x) : (toInt x : ℝ) ≤ x := by
  unfold toInt at h ⊢
  split
  · exact Int.floor_le x
  · rename_i hx
    rw [if_neg hx] at h
    have : ⌈x⌉ ≤ 0 := by rw [Int.ceil_le]; push_cast; linarith
    omega

/-- the pieces joined, when the core has two points -/
theorem total_run {p : Inp} {l : Layers} (h : layers p = some l) (hroom : 2 ≤ l.core.length) :
    Run 0 p.endYplus l.total ∧ l.total[1]? = some (5 / ((p.nVSL : ℝ) - 1)) := by
  obtain ⟨hv, hb, hg, hvsl, K, M, hbuff, top, d2, htop, hd2, hd2p, hd2c, hlog, hcore⟩ := layers_eq h
  have hvR : (2 : ℝ) < p.nVSL := by exact_mod_cast hv
  have hd1 : (0 : ℝ) < 5 / ((p.nVSL : ℝ) - 1) := div_pos (by norm_num) (by linarith)
  have hD : 0 < 5 / ((p.nVSL : ℝ) - 1) * p.buffGR * (30 / 25) := by positivity
  have r1 : Run 0 5 l.vsl := linspace_run (by norm_num) (by omega) hvsl
  have r2 : Run 5 top l.buff := by
    have := Run.range (f := pt 5 (5 / (p.nVSL - 1) * p.buffGR * (30 / 25)) p.buffGR) (K+1) fun i _ => pt_lt hD hb i
    rw [← htop] at this
    rw [hbuff]
    simpa [pt] using this
  have r3 : Run top (pt top (d2 * p.logGR) p.logGR M) l.log := by
    have := Run.range (f := pt top (d2 * p.logGR) p.logGR) M fun i _ => pt_lt (by positivity) hg i
    rw [hlog]
    simpa [pt] using this
  set e := pt top (d2 * p.logGR) p.logGR M with he
  have hlen := linspace_length hcore
  have hn : 2 ≤ toInt ((p.endYplus - e) / p.dYplusCore) := by omega
  have hlt : e < p.endYplus := by
    have h1 := toInt_le hn
    have h2 : (2 : ℝ) ≤ (toInt ((p.endYplus - e) / p.dYplusCore) : ℝ) := by exact_mod_cast hn
    have h3 : 0 < p.dYplusCore := by linarith
    have h4 : (2 : ℝ) ≤ (p.endYplus - e) / p.dYplusCore := by linarith
    rw [le_div_iff₀ h3] at h4
    linarith
  have r4 : Run e p.endYplus l.core := linspace_run hlt hn hcore
  have etot : l.total = (((l.vsl.dropLast ++ l.buff).dropLast ++ l.log).dropLast ++ l.core) := by
    obtain ⟨b', hb'⟩ : ∃ b', l.buff = 5 :: b' := by
      have := r2.2.1
      cases hbf : l.buff with
      | nil => rw [hbf] at this; cases this
      | cons x b' => rw [hbf] at this; cases this; exact ⟨b', rfl⟩
    have hb'ne : b' ≠ [] := by
      intro hb0
      have : l.buff.length = K + 2 := by rw [hbuff]; simp
      rw [hb', hb0] at this; simp at this
    obtain ⟨v', hv'⟩ : ∃ v', l.vsl = v' ++ [5] := by
      have := r1.2.2; rw [List.getLast?_eq_some_iff] at this; exact this
    have hlne := r3.ne
    unfold Layers.total
    rw [List.dropLast_append_of_ne_nil hlne]
    rw [hb', hv', List.dropLast_concat, List.drop_one, List.tail_cons]
    rw [List.dropLast_append_of_ne_nil (by simp), List.dropLast_cons_of_ne_nil hb'ne]
    simp
  refine ⟨by rw [etot]; exact ((r1.join r2).join r3).join r4, ?_⟩
  have hvl := linspace_length hvsl
  have g1 := linspace_get (by omega) hvsl (i := 1) (by omega)
  unfold Layers.total
  rw [List.append_assoc, List.append_assoc, List.getElem?_append_left (by omega), g1]
  congr 1; push_cast; ring

theorem yp1_eq {p : Inp} (hn : 0 < p.viscosity) (hR : 0 < p.ReTau) (hd : 0 < p.delta) : p.yp1 = p.delta / p.ReTau := by
  unfold Inp.yp1; field_simp

theorem mirror_eq {a b : ℝ} {l : List ℝ} (h : Run a b l) :
    mirror l = some (l.dropLast ++ l.reverse.map (2 * b - ·)) := by
  unfold mirror
  have h3 := h.2.2
  obtain ⟨l', rfl⟩ : ∃ l', l = l' ++ [b] := by rw [List.getLast?_eq_some_iff] at h3; exact h3
  simp only [List.reverse_append, List.reverse_cons, List.reverse_nil, List.nil_append, List.cons_append, bind, Option.bind,
    List.getElem?_cons_zero, List.map_cons, List.drop_one, List.tail_cons, List.dropLast_concat]
  have : (2 * b - b) = b := by ring
  rw [this]; simp

/-- **C97**: if the core keeps two points, the wall-normal coordinates start on the wall, increase strictly, end at twice `delta`
    for a channel and at `yHeight` (in metres) otherwise; the first step is that of the viscous sub-layer, 5/(nVSL-1) wall
    units; a channel is symmetric -/
theorem C97_wall_normal_partial {p : Inp} (hd : 0 < p.delta) (hn : 0 < p.viscosity) (hR : 0 < p.ReTau) {ys : List ℝ}
    (h : wallNormal p = some ys) (hroom : ∀ l, layers p = some l → 2 ≤ l.core.length) :
    ys.Pairwise (· < ·) ∧ ys.head? = some 0 ∧ ys.getLast? = some (if p.channel then 2 * p.delta else p.yHeight) ∧
    ys[1]? = some (5 / ((p.nVSL : ℝ) - 1) * (p.delta / p.ReTau)) ∧
    (p.channel = true → ys.reverse = ys.map (2 * p.delta - ·)) := by
  unfold wallNormal at h
  cases hl : layers p with
  | none => rw [hl] at h; cases h
  | some l =>
  rw [hl] at h
  simp only [bind, Option.bind] at h
  obtain ⟨hrun, h1⟩ := total_run hl (hroom l hl)
  have hyp := yp1_eq hn hR hd
  have hpos : 0 < p.yp1 := by rw [hyp]; positivity
  have h2len : 2 ≤ l.total.length := by
    have := List.getElem?_eq_some_iff.mp h1
    obtain ⟨hlt, _⟩ := this; omega
  by_cases hc : p.channel = true
  · rw [if_pos hc, mirror_eq hrun] at h
    cases h
    have e1 : p.endYplus * p.yp1 = p.delta := by
      unfold Inp.endYplus; rw [if_pos hc]; field_simp
    obtain ⟨g1, g2, g3⟩ := (hrun.join hrun.mirror).scale hpos
    refine ⟨g1, by simpa using g2, ?_, ?_, fun _ => ?_⟩
    · rw [g3, if_pos hc]; congr 1; linear_combination 2 * e1
    · rw [List.getElem?_map]
      have : (l.total.dropLast ++ l.total.reverse.map (2 * p.endYplus - ·))[1]? = some (5 / ((p.nVSL : ℝ) - 1)) := by
        by_cases h3 : 3 ≤ l.total.length
        · rw [List.getElem?_append_left (by simp; omega), List.getElem?_dropLast, if_pos (by omega), h1]
        · have h2' : l.total.length = 2 := by omega
          rw [List.getElem?_append_right (by simp; omega)]
          have : l.total.dropLast.length = 1 := by simp; omega
          rw [this, Nat.sub_self, List.getElem?_map, List.getElem?_reverse (by omega), h2']
          rw [h1]
          have : p.endYplus = 5 / ((p.nVSL : ℝ) - 1) := by
            have := hrun.2.2
            rw [List.getLast?_eq_getElem?, h2', h1] at this
            simpa using this.symm
          simp [this]; ring
      rw [this, hyp]; rfl
    · have h3 := hrun.2.2
      obtain ⟨l', hl'⟩ : ∃ l', l.total = l' ++ [p.endYplus] := by rw [List.getLast?_eq_some_iff] at h3; exact h3
      rw [hl']
      simp only [List.dropLast_concat, List.reverse_append, List.reverse_cons, List.reverse_nil, List.nil_append,
        List.cons_append, List.map_cons, List.map_append, List.map_reverse, List.map_map, List.reverse_reverse, List.append_assoc]
      have ea : ∀ x : ℝ, 2 * p.delta - (2 * p.endYplus - x) * p.yp1 = x * p.yp1 := fun x => by linear_combination -2 * e1
      have eb : ∀ x : ℝ, 2 * p.delta - x * p.yp1 = (2 * p.endYplus - x) * p.yp1 := fun x => by linear_combination -2 * e1
      congr 1
      · apply List.map_congr_left; intro x _; simp [eb]
      · congr 1
        · linear_combination 2 * e1
        · congr 1
          apply List.map_congr_left; intro x _; simp [ea]
  · rw [if_neg hc] at h
    cases h
    have e1 : p.endYplus * p.yp1 = p.yHeight := by
      unfold Inp.endYplus; rw [if_neg hc]; field_simp
    obtain ⟨g1, g2, g3⟩ := hrun.scale hpos
    refine ⟨g1, by simpa using g2, ?_, ?_, fun h => absurd h hc⟩
    · rw [g3, if_neg hc, e1]
    · rw [List.getElem?_map, h1, hyp]; rfl

/-- **C97** (growth): inside the buffer layer each step is `buffGR` times the one before, inside the log layer `logGR` times,
    also from the buffer layer to the log layer; the log layer starts where the buffer layer ends and the core where the log
    layer ends -/
theorem C97_growth_partial {p : Inp} {l : Layers} (h : layers p = some l) :
    (∀ i a b c, l.buff[i]? = some a → l.buff[i+1]? = some b → l.buff[i+2]? = some c → c - b = p.buffGR * (b - a)) ∧
    (∀ i a b c, l.log[i]? = some a → l.log[i+1]? = some b → l.log[i+2]? = some c → c - b = p.logGR * (b - a)) ∧
    (∀ a b c d, l.buff.reverse[1]? = some a → l.buff.reverse[0]? = some b → l.log[0]? = some c → l.log[1]? = some d →
      b = c ∧ d - c = p.logGR * (b - a)) ∧
    (∀ a b, l.log.getLast? = some a → l.core.head? = some b → a = b) := by
  obtain ⟨hv, hb, hg, hvsl, K, M, hbuff, top, d2, htop, hd2, hd2p, hd2c, hlog, hcore⟩ := layers_eq h
  have get : ∀ (n : ℕ) (f : ℕ → ℝ) (i : ℕ) (a : ℝ), ((List.range n).map f)[i]? = some a → i < n ∧ a = f i := by
    intro n f i a h
    rw [List.getElem?_map] at h
    by_cases hi : i < n
    · rw [List.getElem?_range hi] at h; exact ⟨hi, by simpa using h.symm⟩
    · rw [List.getElem?_eq_none (by simpa using hi)] at h; cases h
  refine ⟨?_, ?_, ?_, ?_⟩
  · intro i a b c ha hb' hc
    rw [hbuff] at ha hb' hc
    rw [(get _ _ _ _ ha).2, (get _ _ _ _ hb').2, (get _ _ _ _ hc).2, pt_succ, pt_succ]; ring
  · intro i a b c ha hb' hc
    rw [hlog] at ha hb' hc
    rw [(get _ _ _ _ ha).2, (get _ _ _ _ hb').2, (get _ _ _ _ hc).2, pt_succ, pt_succ]; ring
  · intro a b c d ha hb' hc hd
    rw [hlog] at hc hd
    have hc' := (get _ _ _ _ hc).2
    have hd' := (get _ _ _ _ hd).2
    have q0 : l.buff.reverse[0]? = some top := by
      rw [hbuff, List.range_succ]; simp [htop]
    have q1 : l.buff.reverse[1]? = some (pt 5 (5 / (p.nVSL - 1) * p.buffGR * (30 / 25)) p.buffGR K) := by
      rw [hbuff, List.range_succ, List.range_succ]; simp
    rw [q0] at hb'
    rw [q1] at ha
    cases hb'; cases ha
    rw [pt_succ] at hd' htop
    rw [← hd2] at htop
    have e0 : pt top (d2 * p.logGR) p.logGR 0 = top := by simp [pt]
    rw [e0] at hc' hd'
    refine ⟨hc'.symm, ?_⟩
    rw [hd', hc', pow_zero, htop]
    ring
  · intro a b ha hb'
    have : l.log.getLast? = some (pt top (d2 * p.logGR) p.logGR M) := by
      rw [hlog, List.range_succ]; simp
    rw [this] at ha
    cases ha
    set n := toInt ((p.endYplus - pt top (d2 * p.logGR) p.logGR M) / p.dYplusCore) with hn
    unfold linspace at hcore
    split at hcore
    · cases hcore
    · have hcore := Option.some.inj hcore
      rw [← hcore, List.head?_eq_getElem?] at hb'
      obtain ⟨_, e⟩ := get _ _ _ _ hb'
      rw [e]; split <;> simp

/-- **C97** (the loops end): the points of a layer are always produced -/
theorem C97_ends {start stop gr d e : ℝ} (hs : 0 < start) (h : start < stop) (hg : 1 < gr) (hd : 0 < d) (he : d < e) :
    (∃ l, ptsWithGR start stop gr d = some l) ∧ ∃ l, growToDy d e gr = some l := by
  obtain ⟨n, _, _, _, h1⟩ := ptsWithGR_eq hs h hg hd
  obtain ⟨m, _, _, h2⟩ := widen_some (endDy := e) (gr := gr) (d := d * gr) (by positivity) hg
  exact ⟨⟨_, h1⟩, _, by unfold growToDy; rw [if_pos ⟨hd, he, hg⟩, h2]⟩

/-! ### a case -/

/-- channel or boundary layer of half height 1 (viscosity 1), seven points in the sub-layer, ratio 2, core spacing 20 -/
def sample (channel : Bool) (delta ReTau yHeight : ℝ) : Inp :=
  ⟨channel, delta, yHeight, 1, ReTau, 7, 2, 2, 20⟩

theorem sample_layers (c : Bool) (delta R H : ℝ) : ∀ core,
    linspace 35 (sample c delta R H).endYplus (toInt (((sample c delta R H).endYplus - 35) / 20)) = some core →
    layers (sample c delta R H) = some ⟨[0, 5/6, 10/6, 15/6, 20/6, 25/6, 5], [5, 7, 11, 19, 35], [35], core⟩ := by
  intro core hcore
  have h1 : linspace 0 5 7 = some [0, 5/6, 10/6, 15/6, 20/6, 25/6, 5] := by
    simp only [linspace, show ¬ ((7 : ℤ) < 0) by omega, if_false, show ¬ ((7 : ℤ) = 1) by omega, show (7 : ℤ).toNat = 7 by rfl]
    simp only [List.range_succ, List.range_zero]
    norm_num
  have hc : climb 30 2 [] 5 (5/6 * 2) = some ([50/3, 10, 20/3, 5], 30) := by
    rw [climb_eq 4 _ _ _ (by
      intro m hm
      have : m = 0 ∨ m = 1 ∨ m = 2 ∨ m = 3 := by omega
      rcases this with rfl | rfl | rfl | rfl <;> norm_num [pt, Finset.sum_range_succ]) (by norm_num [pt, Finset.sum_range_succ])]
    simp only [List.range_succ, List.range_zero]
    norm_num [pt, Finset.sum_range_succ]
  have h2 : ptsWithGR 5 30 2 (5/6) = some [5, 7, 11, 19, 35] := by
    unfold ptsWithGR
    rw [if_pos (by norm_num), hc]
    norm_num
  have h3 : growToDy 16 20 2 = some [0] := by
    unfold growToDy
    rw [if_pos (by norm_num), widen, if_neg (by norm_num)]
    simp
  unfold layers
  rw [if_pos (show (sample c delta R H).nVSL > 2 ∧ (sample c delta R H).buffGR > 1 from ⟨by norm_num [sample], by norm_num [sample]⟩)]
  rw [show linspace 0 5 (sample c delta R H).nVSL = some [0, 5/6, 10/6, 15/6, 20/6, 25/6, 5] from h1]
  rw [show (sample c delta R H).buffGR = 2 from rfl, show (sample c delta R H).logGR = 2 from rfl,
    show (sample c delta R H).dYplusCore = 20 from rfl]
  norm_num [h2, h3, hcore]

/-- the hypotheses of the theorems can be met: a channel with friction Reynolds number 100 -/
example : ∃ l ys, layers (sample true 1 100 0) = some l ∧ 2 ≤ l.core.length ∧ wallNormal (sample true 1 100 0) = some ys := by
  have he : (sample true 1 100 0).endYplus = 100 := by norm_num [Inp.endYplus, Inp.yp1, sample]
  have hn : toInt ((100 - 35 : ℝ) / 20) = 3 := by
    unfold toInt; rw [if_pos (by norm_num)]; rw [Int.floor_eq_iff]; norm_num
  obtain ⟨core, hcore⟩ : ∃ core, linspace 35 100 3 = some core := ⟨_, by unfold linspace; rw [if_neg (by omega)]⟩
  have hl := sample_layers true 1 100 0 core (by rw [he, hn]; exact hcore)
  have hlen := linspace_length hcore
  have hlen' : 2 ≤ core.length := by omega
  have hr := total_run hl hlen'
  have hw : ∃ ys, wallNormal (sample true 1 100 0) = some ys := by
    unfold wallNormal
    rw [hl]
    simp only [bind, Option.bind]
    rw [if_pos (show (sample true 1 100 0).channel = true from rfl), mirror_eq hr.1]
    exact ⟨_, rfl⟩
  exact ⟨_, hw.choose, hl, hlen', hw.choose_spec⟩

/-- **C97** is violated at low Reynolds numbers: with less than twice the core spacing left above the log layer the core has no
    points and the layers below lose theirs; the channel of half height 1 is 0.76 high instead of 2 -/
theorem C97_height_violated : ∃ p : Inp, p.channel = true ∧ 0 < p.delta ∧ 0 < p.viscosity ∧ 0 < p.ReTau ∧ ∃ ys,
    wallNormal p = some ys ∧ ys.getLast? = some (38 / 50) ∧ 2 * p.delta = 2 := by
  refine ⟨sample true 1 50 0, rfl, by norm_num [sample], by norm_num [sample], by norm_num [sample], ?_⟩
  have he : (sample true 1 50 0).endYplus = 50 := by norm_num [Inp.endYplus, Inp.yp1, sample]
  have hn : toInt ((50 - 35 : ℝ) / 20) = 0 := by
    unfold toInt; rw [if_pos (by norm_num)]; rw [Int.floor_eq_iff]; norm_num
  have hl := sample_layers true 1 50 0 [] (by rw [he, hn]; simp [linspace])
  have hy : (sample true 1 50 0).yp1 = 1/50 := by norm_num [Inp.yp1, sample]
  refine ⟨[0, 5/6, 10/6, 15/6, 20/6, 25/6, 5, 7, 11, 19, 27, 31, 33, 38 - 25/6, 38 - 20/6, 38 - 15/6, 38 - 10/6, 38 - 5/6, 38].map
    (· * (1/50)), ?_, ?_, by norm_num [sample]⟩
  · unfold wallNormal
    rw [hl]
    simp only [bind, Option.bind]
    rw [if_pos (show (sample true 1 50 0).channel = true from rfl), hy]
    simp only [Layers.total, mirror]
    norm_num
  · norm_num

/-- **C97** is violated by every boundary layer (not channel) whose thickness is not one metre: the height is given in units of
    `delta` (input template, line 31) but taken in metres -/
theorem C97_units_violated {p : Inp} (hd : 0 < p.delta) (hn : 0 < p.viscosity) (hR : 0 < p.ReTau) {ys : List ℝ}
    (h : wallNormal p = some ys) (hroom : ∀ l, layers p = some l → 2 ≤ l.core.length) (hbl : p.channel = false) (h1 : p.delta ≠ 1)
    (h0 : p.yHeight ≠ 0) : ys.getLast? ≠ some (p.yHeight * p.delta) := by
  rw [(C97_wall_normal_partial hd hn hR h hroom).2.2.1, hbl]
  intro e
  have e := Option.some.inj e
  simp only [Bool.false_eq_true, if_false] at e
  have : p.yHeight * (p.delta - 1) = 0 := by linarith
  rcases mul_eq_zero.mp this with h | h
  · exact h0 h
  · exact h1 (by linarith)

example : ∃ l ys, (sample false 2 100 3).channel = false ∧ layers (sample false 2 100 3) = some l ∧ 2 ≤ l.core.length ∧
    wallNormal (sample false 2 100 3) = some ys := by
  have he : (sample false 2 100 3).endYplus = 150 := by norm_num [Inp.endYplus, Inp.yp1, sample]
  have hn : toInt ((150 - 35 : ℝ) / 20) = 5 := by
    unfold toInt; rw [if_pos (by norm_num)]; rw [Int.floor_eq_iff]; norm_num
  obtain ⟨core, hcore⟩ : ∃ core, linspace 35 150 5 = some core := ⟨_, by unfold linspace; rw [if_neg (by omega)]⟩
  have hl := sample_layers false 2 100 3 core (by rw [he, hn]; exact hcore)
  have hlen := linspace_length hcore
  have hw : ∃ ys, wallNormal (sample false 2 100 3) = some ys := by
    unfold wallNormal
    rw [hl]
    simp only [bind, Option.bind]
    rw [if_neg (show ¬ (sample false 2 100 3).channel = true by simp [sample])]
    exact ⟨_, rfl⟩
  exact ⟨_, hw.choose, rfl, hl, by simp only; omega, hw.choose_spec⟩

/-- **C97** is violated by every grid: the core is coarser than the resolution asked for -/
theorem C97_resolution_violated {p : Inp} {l : Layers} (h : layers p = some l) (hroom : 2 ≤ l.core.length) :
    ∀ i a b, l.core[i]? = some a → l.core[i+1]? = some b → p.dYplusCore < b - a := by
  obtain ⟨hv, hb, hg, hvsl, K, M, hbuff, top, d2, htop, hd2, hd2p, hd2c, hlog, hcore⟩ := layers_eq h
  set e := pt top (d2 * p.logGR) p.logGR M with he
  have hlen := linspace_length hcore
  set n := toInt ((p.endYplus - e) / p.dYplusCore) with hnn
  have hn : 2 ≤ n := by omega
  have hle := toInt_le hn
  have h3 : 0 < p.dYplusCore := by linarith
  rw [← hnn, le_div_iff₀ h3] at hle
  have hnR : (2 : ℝ) ≤ n := by exact_mod_cast hn
  intro i a b ha hb'
  have hi : i + 1 < l.core.length := by
    obtain ⟨h, _⟩ := List.getElem?_eq_some_iff.mp hb'; exact h
  rw [linspace_get hn hcore (by omega)] at ha hb'
  cases ha; cases hb'
  have : e + ((i+1 : ℕ) : ℝ) * ((p.endYplus - e) / (n - 1)) - (e + i * ((p.endYplus - e) / (n - 1))) = (p.endYplus - e) / (n - 1) := by
    push_cast; ring
  rw [this, lt_div_iff₀ (by linarith)]
  nlinarith

/-- **C97** is violated in the buffer layer, which is to end at 30 wall units: the points are stretched from 30 to 35 units, and the
    first step is 2.4 times the one below instead of 2 -/
theorem C97_buffer_violated : ∃ p : Inp, ∃ l, layers p = some l ∧ p.buffGR = 2 ∧ l.buff.getLast? = some 35 ∧
    ∃ a b c, l.vsl.reverse[1]? = some a ∧ l.buff[0]? = some b ∧ l.buff[1]? = some c ∧ c - b = 12/5 * (b - a) := by
  have he : (sample true 1 100 0).endYplus = 100 := by norm_num [Inp.endYplus, Inp.yp1, sample]
  have hn : toInt ((100 - 35 : ℝ) / 20) = 3 := by
    unfold toInt; rw [if_pos (by norm_num)]; rw [Int.floor_eq_iff]; norm_num
  obtain ⟨core, hcore⟩ : ∃ core, linspace 35 100 3 = some core := ⟨_, by unfold linspace; rw [if_neg (by omega)]⟩
  have hl := sample_layers true 1 100 0 core (by rw [he, hn]; exact hcore)
  exact ⟨_, _, hl, rfl, rfl, 25/6, 5, 7, rfl, rfl, rfl, by norm_num⟩

end

end PG.Util.Channel
