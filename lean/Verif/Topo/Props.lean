import Verif.Topo.Lemmas
/-
C01. Orientations and neighbour face numbers.
-/
namespace PG.Topo

/-- C01 (a): for every legal orientation the neighbour's orientation is computed without error, is legal, and is the
    inverse index map: if my axis `i` runs along the neighbour's axis `p`, then the neighbour's axis `p` runs along
    my axis `i`, with the same sense of direction. -/
theorem C01_neighborOrientation_inverse (o : Ori) (ho : o.Legal) :
    ∃ o', neighborOrientation o = some o' ∧ o'.Legal ∧
      ∀ i, i < 3 → axisOf (o'.get (axisOf (o.get i))) = i ∧
        reversed (o'.get (axisOf (o.get i))) = reversed (o.get i) := by
  refine legal_cases (fun o => ∃ o', neighborOrientation o = some o' ∧ o'.Legal ∧
      ∀ i, i < 3 → axisOf (o'.get (axisOf (o.get i))) = i ∧
        reversed (o'.get (axisOf (o.get i))) = reversed (o.get i)) ?_ o ho
  have key : ∀ a : Fin 6, ∀ b : Fin 6, ∀ c : Fin 6,
      (⟨a.val+1, b.val+1, c.val+1⟩ : Ori).Legal →
      (neighborOrientation ⟨a.val+1, b.val+1, c.val+1⟩).any (fun o' => decide (o'.Legal ∧ ∀ i : Fin 3,
          axisOf (o'.get (axisOf ((⟨a.val+1, b.val+1, c.val+1⟩ : Ori).get i))) = i ∧
          reversed (o'.get (axisOf ((⟨a.val+1, b.val+1, c.val+1⟩ : Ori).get i)))
            = reversed ((⟨a.val+1, b.val+1, c.val+1⟩ : Ori).get i))) = true := by
    decide +kernel
  intro a b c h
  obtain ⟨o', h1, h2⟩ := (Option.any_eq_true _ _).1 (key a b c h)
  have h3 := of_decide_eq_true h2
  exact ⟨o', h1, h3.1, fun i hi => h3.2 ⟨i, hi⟩⟩

example : (⟨5, 1, 3⟩ : Ori).Legal ∧ neighborOrientation ⟨5, 1, 3⟩ = some ⟨2, 4, 3⟩ := by decide

/-- C01 (b): taking the neighbour's orientation twice gives the original orientation back. -/
theorem C01_neighborOrientation_involutive (o : Ori) (ho : o.Legal) :
    (neighborOrientation o).bind neighborOrientation = some o := by
  refine legal_cases (fun o => (neighborOrientation o).bind neighborOrientation = some o) ?_ o ho
  decide +kernel

/-- C01 (c): for every legal face number and orientation the neighbour's face number is computed without error, is a
    face 1..6, is normal to the neighbour axis my normal axis runs along, is on the opposite end if the axes are
    aligned and on the same end if they are counter-aligned, and the neighbour computes my face number back. -/
theorem C01_neighborNface (nface : Nat) (hn : 1 ≤ nface ∧ nface ≤ 6) (o : Ori) (ho : o.Legal) :
    ∃ nf', neighborNface nface o = some nf' ∧ 1 ≤ nf' ∧ nf' ≤ 6 ∧
      normalAxis nf' = axisOf (o.get (normalAxis nface)) ∧
      (isLow nf' = (isLow nface == reversed (o.get (normalAxis nface)))) ∧
      ∃ o', neighborOrientation o = some o' ∧ neighborNface nf' o' = some nface := by
  have key : ∀ n : Fin 6, ∀ a : Fin 6, ∀ b : Fin 6, ∀ c : Fin 6,
      (⟨a.val+1, b.val+1, c.val+1⟩ : Ori).Legal →
      (neighborNface (n.val+1) ⟨a.val+1, b.val+1, c.val+1⟩).any (fun nf' =>
        (neighborOrientation ⟨a.val+1, b.val+1, c.val+1⟩).any (fun o' => decide (1 ≤ nf' ∧ nf' ≤ 6 ∧
          normalAxis nf' = axisOf ((⟨a.val+1, b.val+1, c.val+1⟩ : Ori).get (normalAxis (n.val+1))) ∧
          (isLow nf' = (isLow (n.val+1) ==
            reversed ((⟨a.val+1, b.val+1, c.val+1⟩ : Ori).get (normalAxis (n.val+1))))) ∧
          neighborNface nf' o' = some (n.val+1)))) = true := by
    decide +kernel
  obtain ⟨n, rfl⟩ : ∃ n, nface = n + 1 := ⟨nface - 1, by omega⟩
  refine legal_cases (fun o => ∃ nf', neighborNface (n+1) o = some nf' ∧ 1 ≤ nf' ∧ nf' ≤ 6 ∧
      normalAxis nf' = axisOf (o.get (normalAxis (n+1))) ∧
      (isLow nf' = (isLow (n+1) == reversed (o.get (normalAxis (n+1))))) ∧
      ∃ o', neighborOrientation o = some o' ∧ neighborNface nf' o' = some (n+1)) ?_ o ho
  intro a b c h
  obtain ⟨nf', h1, h2⟩ := (Option.any_eq_true _ _).1 (key ⟨n, by omega⟩ a b c h)
  obtain ⟨o', h3, h4⟩ := (Option.any_eq_true _ _).1 h2
  obtain ⟨p1, p2, p3, p4, p5⟩ := of_decide_eq_true h4
  exact ⟨nf', h1, p1, p2, p3, p4, o', h3, p5⟩

example : neighborNface 4 ⟨5, 1, 3⟩ = some 1 ∧ neighborNface 1 ⟨2, 4, 3⟩ = some 4 := by decide

end PG.Topo
