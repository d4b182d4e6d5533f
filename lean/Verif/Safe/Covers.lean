import Verif.Safe.Source
/-!
One theorem for each entry of the generated table: its accesses are among those of the launch in `Safe.Model` that stands for it.
-/
namespace PG.Safe.Src
open PG.Safe

open Lean in
/-- compare the accesses of a table entry with a footprint -/
macro "cov" K:ident : tactic => `(tactic| (
  refine ⟨?_, ?_⟩
  · intro i j k h
    simp only [SKernel.Item, $K:ident, callBox, reduceIte, String.reduceEq, stageK, apply, dq2FD, switchK, spongeK, faceBox, interior,
      whole, ringed, Dir.v, Int.add_zero] at h ⊢
    omega
  · simp only [$K:ident, List.forall_mem_cons, List.not_mem_nil, IsEmpty.forall_iff, implies_true, and_true, Bool.false_eq_true]
    simp only [forall_const, forall_true_left, reduceIte, if_true, if_false, Bool.false_eq_true, arrOf, Option.some.injEq,
      exists_eq_left', stageK, apply, dq2FD, switchK, spongeK, faceBox, interior, whole, ringed, advAccs, cross,
      chemAccs, eosAccs, transAccs, fluxDiff, switchAcc, at0, comps, Dims.ne, lengths, List.map_cons, List.map_nil,
      List.flatMap_cons, List.flatMap_nil, List.cons_append, List.nil_append, List.append_assoc, List.append_nil, Dir.v,
      List.mem_cons, List.not_mem_nil, or_false, exists_eq_or_imp, exists_eq_left, Arr.face.injEq, Arr.flux.injEq, Arr.stage.injEq,
      reduceCtorEq, OfNat.zero_ne_ofNat, OfNat.ofNat_ne_zero, false_and, and_false, false_or, true_and, and_true, exists_false, Prod.mk.injEq,
      Int.add_zero, Int.zero_add, Int.reduceAdd, Int.reduceNeg, Int.reduceMul, Int.reduceSub, Int.reduceEq, Nat.reduceEqDiff, zero_ne_one, one_ne_zero, true_or, or_true, IsEmpty.forall_iff,
      implies_true, forall_const, PG.Config.mechNs, Nat.cast_ofNat]
    try ((repeat' apply And.intro) <;> (intros; first | trivial | omega))))

end PG.Safe.Src
