import Verif.Text.FluxProps
/-!
C115: the schemes that use four cells.
-/
namespace PG.Text
open PG.Flux

macro "three4" "[" ds:Lean.Parser.Tactic.simpLemma,* "]" : tactic =>
  `(tactic| (
    intro b hb
    refine ⟨?_, ?_, ?_⟩ <;> intro i j k F m <;> revert m <;> refine leaves_of hb ?_ ?_ ?_ ?_ ?_ (fun n hn => ?_) (fun n hn => ?_)
    rotate_left 5
    · simp [$ds,*, set, mk5_species, sp1, sp2, sp3, sp4, cell, avg, proj, hn, faceI, faceJ, faceK] <;> ring
    · simp [$ds,*, set, hn, sp1, sp2, sp3, sp4]
    rotate_left 5
    · simp [$ds,*, set, mk5_species, sp1, sp2, sp3, sp4, cell, avg, proj, hn, faceI, faceJ, faceK] <;> ring
    · simp [$ds,*, set, hn, sp1, sp2, sp3, sp4]
    rotate_left 5
    · simp [$ds,*, set, mk5_species, sp1, sp2, sp3, sp4, cell, avg, proj, hn, faceI, faceJ, faceK] <;> ring
    · simp [$ds,*, set, hn, sp1, sp2, sp3, sp4]
    all_goals simp [$ds,*, set, mk5, cell, avg, proj, faceI, faceJ, faceK] <;> ring))

set_option maxHeartbeats 1600000 in
/-- C115 (fourthOrderKEEP) -/
theorem C115_fourthOrderKEEP : FourCell fourthKEEP fourthOrderKEEP_iF fourthOrderKEEP_jF fourthOrderKEEP_kF := by
  three4 [fourthOrderKEEP_iF, fourthOrderKEEP_jF, fourthOrderKEEP_kF, fourthKEEP, four]

end PG.Text
