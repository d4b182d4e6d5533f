import Verif.Mem.Model
import Mathlib.Tactic.Tauto

/-!
# A discipline under which two memories behave like one

`Fresh` lists the arrays whose host side (`h`) and device side (`d`) hold the current value.  `Safe F p F'` says
that `p` reads only current values if it starts with `F`, and leaves `F'`.
-/

namespace PG.Mem

variable {V O : Type}

/-- Arrays current on the host and on the device. -/
structure Fresh where
  h : Set Var
  d : Set Var

/-- `Safe F p F'` -/
inductive Safe : Fresh → Prog V O → Fresh → Prop
  | skip {F} : Safe F .skip F
  | host {F} {a : Act V} (r : a.reads ⊆ F.h) : Safe F (.host a) ⟨F.h ∪ a.writes, F.d \ a.writes⟩
  | dev {F} {a : Act V} (r : a.reads ⊆ F.d) : Safe F (.dev a) ⟨F.h \ a.writes, F.d ∪ a.writes⟩
  | push {F} {v : Var} (r : v ∈ F.h) : Safe F (.push v) ⟨F.h, F.d ∪ {v}⟩
  | pull {F} {v : Var} (r : v ∈ F.d) : Safe F (.pull v) ⟨F.h ∪ {v}, F.d⟩
  | emit {F} {l : Look V O} (r : l.reads ⊆ F.h) : Safe F (.emit l) F
  | ask {F F'} {l : Look V V} {k : V → Prog V O} (r : l.reads ⊆ F.d) (s : ∀ x, Safe F (k x) F') : Safe F (.ask l k) F'
  | seq {F F' F''} {p q : Prog V O} (s : Safe F p F') (t : Safe F' q F'') : Safe F (.seq p q) F''
  | weaken {F F₁ F₂ F₃} {p : Prog V O} (hh : F₁.h ⊆ F.h) (hd : F₁.d ⊆ F.d) (s : Safe F₁ p F₂) (kh : F₃.h ⊆ F₂.h)
      (kd : F₃.d ⊆ F₂.d) : Safe F p F₃

/-- The two memories agree with the one memory on the current arrays. -/
def Agree (F : Fresh) (m h d : Memory V) : Prop := (∀ v ∈ F.h, h v = m v) ∧ (∀ v ∈ F.d, d v = m v)

theorem act_agree (a : Act V) {S : Set Var} {m x : Memory V} (r : a.reads ⊆ S) (hx : ∀ v ∈ S, x v = m v) :
    ∀ v ∈ S ∪ a.writes, a.run x v = a.run m v := by
  intro v hv
  by_cases hw : v ∈ a.writes
  · exact a.det x m (fun w hw => hx w (r hw)) v hw
  · rw [a.frame x v hw, a.frame m v hw]
    exact hx v (hv.resolve_right hw)

/-- Safe programs give the same outputs with one memory and with two. -/
theorem Safe.sound {F F' : Fresh} {p : Prog V O} (s : Safe F p F') : ∀ {m h d : Memory V}, Agree F m h d →
    (split p h d).2 = (shared p m).2 ∧ Agree F' (shared p m).1 (split p h d).1.1 (split p h d).1.2 := by
  induction s with
  | skip => intro m h d A; exact ⟨rfl, A⟩
  | @host F a r =>
    intro m h d A
    refine ⟨rfl, act_agree a r A.1, ?_⟩
    rintro v ⟨hv, hw⟩
    show d v = a.run m v
    rw [a.frame m v hw, A.2 v hv]
  | @dev F a r =>
    intro m h d A
    refine ⟨rfl, ?_, act_agree a r A.2⟩
    rintro v ⟨hv, hw⟩
    show h v = a.run m v
    rw [a.frame m v hw, A.1 v hv]
  | @push F v r =>
    intro m h d A
    refine ⟨rfl, A.1, ?_⟩
    intro w hw
    show put d v (h v) w = m w
    by_cases e : w = v
    · subst e; simp [put, A.1 w r]
    · simp only [put, e, if_false]; exact A.2 w (hw.resolve_right e)
  | @pull F v r =>
    intro m h d A
    refine ⟨rfl, ?_, A.2⟩
    intro w hw
    show put h v (d v) w = m w
    by_cases e : w = v
    · subst e; simp [put, A.2 w r]
    · simp only [put, e, if_false]; exact A.1 w (hw.resolve_right e)
  | @emit F l r =>
    intro m h d A
    refine ⟨?_, A⟩
    show [l.val h] = [l.val m]
    rw [l.det h m fun v hv => A.1 v (r hv)]
  | @ask F F' l k r s ih =>
    intro m h d A
    have e : l.val d = l.val m := l.det d m fun v hv => A.2 v (r hv)
    show (split (k (l.val d)) h d).2 = (shared (k (l.val m)) m).2 ∧
      Agree F' (shared (k (l.val m)) m).1 (split (k (l.val d)) h d).1.1 (split (k (l.val d)) h d).1.2
    rw [e]
    exact ih (l.val m) A
  | @seq F F' F'' p q s t ihs iht =>
    intro m h d A
    obtain ⟨e, B⟩ := ihs A
    obtain ⟨e', C⟩ := iht B
    refine ⟨?_, C⟩
    show (split p h d).2 ++ _ = (shared p m).2 ++ _
    rw [e, e']
  | weaken hh hd s kh kd ih =>
    intro m h d A
    obtain ⟨e, B⟩ := ih ⟨fun v hv => A.1 v (hh hv), fun v hv => A.2 v (hd hv)⟩
    exact ⟨e, fun v hv => B.1 v (kh hv), fun v hv => B.2 v (kd hv)⟩

/-! ### Rules used for the program -/

theorem Safe.post {F F₂ F₃ : Fresh} {p : Prog V O} (s : Safe F p F₂) (kh : F₃.h ⊆ F₂.h) (kd : F₃.d ⊆ F₂.d) :
    Safe F p F₃ := .weaken (fun _ h => h) (fun _ h => h) s kh kd

theorem each_safe {α : Type} (J : List α → Fresh) {f : α → Prog V O} (l : List α) (pre : List α)
    (s : ∀ p a q, pre ++ l = p ++ a :: q → Safe (J p) (f a) (J (p ++ [a]))) : Safe (J pre) (each l f) (J (pre ++ l)) := by
  induction l generalizing pre with
  | nil => simpa [each] using Safe.skip
  | cons a l ih =>
    refine Safe.seq (s pre a l rfl) ?_
    have := ih (pre ++ [a]) (fun p b q e => s p b q (by rw [← e]; simp))
    rw [List.append_assoc] at this
    exact this

/-- A loop whose body keeps an invariant. -/
theorem each_inv {α : Type} {F : Fresh} {f : α → Prog V O} {l : List α} (s : ∀ a ∈ l, Safe F (f a) F) :
    Safe F (each l f) F := by
  have := each_safe (fun _ => F) (f := f) l [] (fun p a q e => s a (by simp at e; simp [e]))
  simpa using this

/-- A loop each pass of which makes more arrays current. -/
theorem each_add {α : Type} {H D : Set Var} (A B : α → Set Var) {f : α → Prog V O} {l : List α}
    (s : ∀ a ∈ l, ∀ H' D', H ⊆ H' → D ⊆ D' → Safe ⟨H', D'⟩ (f a) ⟨H' ∪ A a, D' ∪ B a⟩) :
    Safe ⟨H, D⟩ (each l f) ⟨H ∪ {v | ∃ a ∈ l, v ∈ A a}, D ∪ {v | ∃ a ∈ l, v ∈ B a}⟩ := by
  have := each_safe (fun p => (⟨H ∪ {v | ∃ a ∈ p, v ∈ A a}, D ∪ {v | ∃ a ∈ p, v ∈ B a}⟩ : Fresh)) (f := f) l []
    (fun p a q e => by
      refine (s a (by simp at e; simp [e]) _ _ (fun v h => .inl h) (fun v h => .inl h)).post ?_ ?_
      · rintro v (h | ⟨x, hx, h⟩)
        · exact .inl (.inl h)
        · rcases List.mem_append.1 hx with hx | hx
          · exact .inl (.inr ⟨x, hx, h⟩)
          · exact .inr (by simpa [List.mem_singleton.1 hx] using h)
      · rintro v (h | ⟨x, hx, h⟩)
        · exact .inl (.inl h)
        · rcases List.mem_append.1 hx with hx | hx
          · exact .inl (.inr ⟨x, hx, h⟩)
          · exact .inr (by simpa [List.mem_singleton.1 hx] using h))
  simpa using this

end PG.Mem
