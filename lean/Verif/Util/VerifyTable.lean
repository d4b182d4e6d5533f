import Verif.Topo.Props
import Mathlib.Tactic.IntervalCases
/-!
Table facts about carrying the corners of a block face to the neighbour and back (used for C59).
-/
namespace PG.Util
open PG PG.Topo

/-! ### corners -/

/-- which of my axes runs along axis `j` of the neighbour -/
def axisFrom (o : Ori) (j : ℕ) : ℕ := if axisOf (o.get 0) = j then 0 else if axisOf (o.get 1) = j then 1 else 2

/-- corners of blocks as bits (high end or low end of each axis), carried to the neighbour -/
def carry (nf : ℕ) (o : Ori) (v : ℕ → Bool) (j : ℕ) : Bool :=
  if axisFrom o j = normalAxis nf then !(isLow nf == reversed (o.get (axisFrom o j)))
  else xor (v (axisFrom o j)) (reversed (o.get (axisFrom o j)))

def bits (x y z : Bool) : ℕ → Bool
  | 0 => x | 1 => y | _ => z

theorem axisFrom_eq {o : Ori} (ho : o.Legal) {i : ℕ} (hi : i < 3) : axisFrom o (axisOf (o.get i)) = i := by
  obtain ⟨_, _, _, h1, h2, h3⟩ := ho
  unfold axisFrom
  interval_cases i
  · rw [if_pos rfl]
  · rw [if_neg (show ¬ axisOf (o.get 0) = axisOf (o.get 1) from h1), if_pos rfl]
  · rw [if_neg (show ¬ axisOf (o.get 0) = axisOf (o.get 2) from h2), if_neg (show ¬ axisOf (o.get 1) = axisOf (o.get 2) from h3)]

/-- the 48 legal orientations -/
def legals : List Ori :=
  [1, 2, 3, 4, 5, 6].flatMap fun a => [1, 2, 3, 4, 5, 6].flatMap fun b =>
    if axisOf a = axisOf b then [] else [1, 2, 3, 4, 5, 6].flatMap fun c =>
      if axisOf a = axisOf c ∨ axisOf b = axisOf c then [] else [⟨a, b, c⟩]

theorem mem_legals : ∀ a b c : Fin 6, (⟨a.val + 1, b.val + 1, c.val + 1⟩ : Ori).Legal → (⟨a.val + 1, b.val + 1, c.val + 1⟩ : Ori) ∈ legals := by
  decide +kernel

/-- does `o'` carry the corners of face `nf`, carried to the neighbour by `o`, back? -/
def goesBack (nf nf' : ℕ) (o o' : Ori) : Bool :=
  [bits false false false, bits false false true, bits false true false, bits false true true, bits true false false,
   bits true false true, bits true true false, bits true true true].all fun v =>
    !(v (normalAxis nf) == !isLow nf) || [0, 1, 2].all fun j => carry nf' o' (carry nf o v) j == v j

theorem corner_table : ([1, 2, 3, 4, 5, 6].all fun nf => legals.all fun o => legals.all fun o' =>
    (neighborNface nf o).all (fun nf' => !goesBack nf nf' o o' || neighborOrientation o == some o')) = true := by
  decide +kernel

/-- an orientation that carries the corners of the shared face back to themselves is the neighbour's orientation -/
theorem corner_identity : ∀ n a b c p q r : Fin 6, (⟨a.val + 1, b.val + 1, c.val + 1⟩ : Ori).Legal →
    (⟨p.val + 1, q.val + 1, r.val + 1⟩ : Ori).Legal →
    (neighborNface (n.val + 1) ⟨a.val + 1, b.val + 1, c.val + 1⟩).all (fun nf' =>
      !([bits false false false, bits false false true, bits false true false, bits false true true, bits true false false,
         bits true false true, bits true true false, bits true true true].all fun v =>
        !(v (normalAxis (n.val + 1)) == !isLow (n.val + 1)) ||
        [0, 1, 2].all fun j => carry nf' ⟨p.val + 1, q.val + 1, r.val + 1⟩ (carry (n.val + 1) ⟨a.val + 1, b.val + 1, c.val + 1⟩ v) j == v j) ||
      neighborOrientation ⟨a.val + 1, b.val + 1, c.val + 1⟩ == some ⟨p.val + 1, q.val + 1, r.val + 1⟩) = true := by
  intro n a b c p q r h1 h2
  have hn : n.val + 1 ∈ [1, 2, 3, 4, 5, 6] := by revert n; decide
  exact List.all_eq_true.1 (List.all_eq_true.1 (List.all_eq_true.1 corner_table _ hn) _ (mem_legals a b c h1)) _ (mem_legals p q r h2)

end PG.Util
