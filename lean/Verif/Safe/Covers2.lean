import Verif.Safe.Covers
/-!
One theorem for each entry of the generated table: its accesses are among those of the launch in `Safe.Model` that stands for it.
-/
namespace PG.Safe.Src
open PG.Safe

theorem cov_v07 (d : Dims) (v : Bool) (e : Dir) (hn : 1 ≤ d.ns) : Covers d v v07 e
    (faceBox d e (advAccs d "hllc" e)) := by
  cases e <;> cov v07

theorem cov_v08 (d : Dims) (v : Bool) (e : Dir) (hn : 1 ≤ d.ns) : Covers d v v08 e
    (faceBox d .i (advAccs d "muscl2hllc" .i)) := by
  cases e <;> cov v08

theorem cov_v09 (d : Dims) (v : Bool) (e : Dir) (hn : 1 ≤ d.ns) : Covers d v v09 e
    (faceBox d .j (advAccs d "muscl2hllc" .j)) := by
  cases e <;> cov v09

theorem cov_v10 (d : Dims) (v : Bool) (e : Dir) (hn : 1 ≤ d.ns) : Covers d v v10 e
    (faceBox d .k (advAccs d "muscl2hllc" .k)) := by
  cases e <;> cov v10

theorem cov_v11 (d : Dims) (v : Bool) (e : Dir) (hn : 1 ≤ d.ns) : Covers d v v11 e
    (faceBox d .i (advAccs d "muscl2rusanov" .i)) := by
  cases e <;> cov v11

theorem cov_v12 (d : Dims) (v : Bool) (e : Dir) (hn : 1 ≤ d.ns) : Covers d v v12 e
    (faceBox d .j (advAccs d "muscl2rusanov" .j)) := by
  cases e <;> cov v12

theorem cov_v13 (d : Dims) (v : Bool) (e : Dir) (hn : 1 ≤ d.ns) : Covers d v v13 e
    (faceBox d .k (advAccs d "muscl2rusanov" .k)) := by
  cases e <;> cov v13

theorem cov_v14 (d : Dims) (v : Bool) (e : Dir) (hn : 1 ≤ d.ns) : Covers d v v14 e
    (faceBox d e (advAccs d "rusanov" e)) := by
  cases e <;> cov v14

theorem cov_v15 (d : Dims) (v : Bool) (e : Dir) (hn : 1 ≤ d.ns) : Covers d v v15 e
    (faceBox d e (advAccs d "scalarDissipation" e)) := by
  cases e <;> cov v15

theorem cov_v16 (d : Dims) (v : Bool) (e : Dir) (hn : 1 ≤ d.ns) : Covers d v v16 e
    (interior d (chemAccs (PG.Config.mechNs "chem_C2H4_Air_Red22"))) := by
  cases e <;> cov v16

theorem cov_v17 (d : Dims) (v : Bool) (e : Dir) (hn : 1 ≤ d.ns) : Covers d v v17 e
    (interior d (chemAccs (PG.Config.mechNs "chem_C2H4_Air_Skeletal"))) := by
  cases e <;> cov v17

theorem cov_v18 (d : Dims) (v : Bool) (e : Dir) (hn : 1 ≤ d.ns) : Covers d v v18 e
    (interior d (chemAccs (PG.Config.mechNs "chem_CH4_O2_FFCMY"))) := by
  cases e <;> cov v18

theorem cov_v19 (d : Dims) (v : Bool) (e : Dir) (hn : 1 ≤ d.ns) : Covers d v v19 e
    (interior d (chemAccs (PG.Config.mechNs "chem_GRI30"))) := by
  cases e <;> cov v19

theorem cov_v20 (d : Dims) (v : Bool) (e : Dir) (hn : 1 ≤ d.ns) : Covers d v v20 e
    (faceBox d e ([at0 d (.flux e), at0 d (.face e)] ++
    [(Arr.qt, (0 : ℤ), 2 + d.ns), (.centre, 0, 3), (.grad, 1, d.ne), (.q, 1, d.ne), (.Q, 0, 1), (.qh, 5, d.ne + 1)].flatMap
      fun a => [⟨a.1, (0, 0, 0), a.2.1, a.2.2⟩, ⟨a.1, e.v (-1), a.2.1, a.2.2⟩])) := by
  cases e <;> cov v20

end PG.Safe.Src
