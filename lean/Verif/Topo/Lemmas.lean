import Verif.Topo.Spec
namespace PG.Topo

/-- Induction principle: to prove something of all legal orientations, prove it for the 48 of them. -/
theorem legal_cases (P : Ori → Prop)
    (h : ∀ a : Fin 6, ∀ b : Fin 6, ∀ c : Fin 6,
      (⟨a.val+1, b.val+1, c.val+1⟩ : Ori).Legal → P ⟨a.val+1, b.val+1, c.val+1⟩) :
    ∀ o : Ori, o.Legal → P o := by
  intro o ho
  obtain ⟨d0, d1, d2⟩ := o
  have ho' := ho
  obtain ⟨⟨h0, h0'⟩, ⟨h1, h1'⟩, ⟨h2, h2'⟩, _⟩ := ho'
  simp only at h0 h0' h1 h1' h2 h2'
  have := h ⟨d0-1, by omega⟩ ⟨d1-1, by omega⟩ ⟨d2-1, by omega⟩
  simp only [Nat.sub_add_cancel h0, Nat.sub_add_cancel h1, Nat.sub_add_cancel h2] at this
  exact this ho

end PG.Topo
