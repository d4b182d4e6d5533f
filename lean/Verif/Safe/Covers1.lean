import Verif.Safe.Covers
/-!
One theorem for each entry of the generated table: its accesses are among those of the launch in `Safe.Model` that stands for it.
-/
namespace PG.Safe.Src
open PG.Safe

theorem cov_v00 (d : Dims) (v : Bool) (e : Dir) (hn : 1 ≤ d.ns) : Covers d v v00 e
    (faceBox d e (advAccs d "KEEP" e)) := by
  cases e <;> cov v00

theorem cov_v01 (d : Dims) (v : Bool) (e : Dir) (hn : 1 ≤ d.ns) : Covers d v v01 e
    (faceBox d e (advAccs d "KEEPpe" e)) := by
  cases e <;> cov v01

theorem cov_v02 (d : Dims) (v : Bool) (e : Dir) (hn : 1 ≤ d.ns) : Covers d v v02 e
    (faceBox d e (advAccs d "KEPaEC" e)) := by
  cases e <;> cov v02

theorem cov_v03 (d : Dims) (v : Bool) (e : Dir) (hn : 1 ≤ d.ns) : Covers d v v03 e
    (faceBox d e (advAccs d "centralDifference" e)) := by
  cases e <;> cov v03

theorem cov_v04 (d : Dims) (v : Bool) (e : Dir) (hn : 1 ≤ d.ns) : Covers d v v04 e
    (faceBox d .i (advAccs d "fourthOrderKEEP" .i)) := by
  cases e <;> cov v04

theorem cov_v05 (d : Dims) (v : Bool) (e : Dir) (hn : 1 ≤ d.ns) : Covers d v v05 e
    (faceBox d .j (advAccs d "fourthOrderKEEP" .j)) := by
  cases e <;> cov v05

theorem cov_v06 (d : Dims) (v : Bool) (e : Dir) (hn : 1 ≤ d.ns) : Covers d v v06 e
    (faceBox d .k (advAccs d "fourthOrderKEEP" .k)) := by
  cases e <;> cov v06

end PG.Safe.Src
