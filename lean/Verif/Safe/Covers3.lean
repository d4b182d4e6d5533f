import Verif.Safe.Covers
/-!
One theorem for each entry of the generated table: its accesses are among those of the launch in `Safe.Model` that stands for it.
-/
namespace PG.Safe.Src
open PG.Safe

theorem cov_v21 (d : Dims) (v : Bool) (e : Dir) (hn : 1 ≤ d.ns) : Covers d v v21 e
    (ringed d ([⟨.q, (0, 0, 0), 1, 4⟩, ⟨.grad, (0, 0, 0), 1, 4⟩, at0 d .J, ⟨.Q, (0, 0, 0), 0, 1⟩,
      ⟨.qh, (0, 0, 0), 1, 2⟩, ⟨.qt, (0, 0, 0), 0, 2⟩, ⟨.qt, (0, 0, 0), 2, 2 + (d.ne - 5) + 1⟩] ++ cross .q 1 4)) := by
  cases e <;> cov v21

theorem cov_v22 (d : Dims) (v : Bool) (e : Dir) (hn : 1 ≤ d.ns) : Covers d v v22 e
    (ringed d [⟨.grad, (0, 0, 0), 1, 4⟩, at0 d .J, ⟨.Q, (0, 0, 0), 0, 1⟩, ⟨.qh, (0, 0, 0), 1, 2⟩,
      ⟨.qt, (0, 0, 0), 0, 2⟩, ⟨.qt, (0, 0, 0), 2, 2 + (d.ne - 5) + 1⟩]) := by
  cases e <;> cov v22

theorem cov_v23 (d : Dims) (v : Bool) (e : Dir) (hn : 1 ≤ d.ns) : Covers d v v23 e
    (switchK d) := by
  cases e <;> cov v23

theorem cov_v24 (d : Dims) (v : Bool) (e : Dir) (hn : 1 ≤ d.ns) : Covers d v v24 e
    (switchK d) := by
  cases e <;> cov v24

theorem cov_v25 (d : Dims) (v : Bool) (e : Dir) (hn : 1 ≤ d.ns) : Covers d v v25 e
    (switchK d) := by
  cases e <;> cov v25

theorem cov_v26 (d : Dims) (v : Bool) (e : Dir) (hn : 1 ≤ d.ns) : Covers d v v26 e
    (whole d (eosAccs d)) := by
  cases e <;> cov v26

theorem cov_v27 (d : Dims) (v : Bool) (e : Dir) (hn : 1 ≤ d.ns) : Covers d v v27 e
    (whole d (eosAccs d)) := by
  cases e <;> cov v27

theorem cov_v28 (d : Dims) (v : Bool) (e : Dir) (hn : 1 ≤ d.ns) : Covers d v v28 e
    (whole d (eosAccs d)) := by
  cases e <;> cov v28

theorem cov_v29 (d : Dims) (v : Bool) (e : Dir) (hn : 1 ≤ d.ns) : Covers d v v29 e
    (whole d (eosAccs d)) := by
  cases e <;> cov v29

theorem cov_v30 (d : Dims) (v : Bool) (e : Dir) (hn : 1 ≤ d.ns) : Covers d v v30 e
    (whole d (eosAccs d)) := by
  cases e <;> cov v30

theorem cov_v31 (d : Dims) (v : Bool) (e : Dir) (hn : 1 ≤ d.ns) : Covers d v v31 e
    (whole d (eosAccs d)) := by
  cases e <;> cov v31

theorem cov_v32 (d : Dims) (v : Bool) (e : Dir) (hn : 1 ≤ d.ns) : Covers d v v32 e
    (stageK d [.dQ, .Q, .Qn, .Qnm1]) := by
  cases e <;> cov v32

theorem cov_v33 (d : Dims) (v : Bool) (e : Dir) (hn : 1 ≤ d.ns) : Covers d v v33 e
    (interior d (lengths d ++ [⟨.q, (0, 0, 0), 1, 4⟩, ⟨.qh, (0, 0, 0), 3, 4⟩, at0 d .dtau] ++
      (if v then [⟨.qt, (0, 0, 0), 0, 1⟩, ⟨.Q, (0, 0, 0), 0, 1⟩] else []))) := by
  cases v <;> cases e <;> cov v33

theorem cov_v34 (d : Dims) (v : Bool) (e : Dir) (hn : 1 ≤ d.ns) : Covers d v v34 e
    (stageK d [.stage 0, .q, .dtau, .dQ]) := by
  cases e <;> cov v34

theorem cov_v35 (d : Dims) (v : Bool) (e : Dir) (hn : 1 ≤ d.ns) : Covers d v v35 e
    (stageK d [.stage 0, .q, .dtau, .dQ]) := by
  cases e <;> cov v35

theorem cov_v36 (d : Dims) (v : Bool) (e : Dir) (hn : 1 ≤ d.ns) : Covers d v v36 e
    (stageK d [.stage 0, .q, .dtau, .dQ]) := by
  cases e <;> cov v36

theorem cov_v37 (d : Dims) (v : Bool) (e : Dir) (hn : 1 ≤ d.ns) : Covers d v v37 e
    (stageK d [.q, .stage 0]) := by
  cases e <;> cov v37

theorem cov_v38 (d : Dims) (v : Bool) (e : Dir) (hn : 1 ≤ d.ns) : Covers d v v38 e
    (stageK d [.q, .stage 0]) := by
  cases e <;> cov v38

theorem cov_v39 (d : Dims) (v : Bool) (e : Dir) (hn : 1 ≤ d.ns) : Covers d v v39 e
    (interior d ([⟨.q, (0, 0, 0), 0, 5 + (d.ns - 1)⟩, ⟨.Q, (0, 0, 0), 0, 1⟩, ⟨.qh, (0, 0, 0), 1, 4⟩,
      ⟨.qh, (0, 0, 0), 5, d.ne + 1⟩, at0 d .dtau, at0 d .dQ] ++ (if v then lengths d ++ [⟨.qt, (0, 0, 0), 0, 1⟩] else []))) := by
  cases v <;> cases e <;> cov v39

theorem cov_v40 (d : Dims) (v : Bool) (e : Dir) (hn : 1 ≤ d.ns) : Covers d v v40 e
    (stageK d [.stage 0, .Q, .dQ]) := by
  cases e <;> cov v40

theorem cov_v41 (d : Dims) (v : Bool) (e : Dir) (hn : 1 ≤ d.ns) : Covers d v v41 e
    (stageK d [.stage 0, .Q, .dQ]) := by
  cases e <;> cov v41

theorem cov_v42 (d : Dims) (v : Bool) (e : Dir) (hn : 1 ≤ d.ns) : Covers d v v42 e
    (stageK d [.stage 0, .Q, .dQ]) := by
  cases e <;> cov v42

theorem cov_v43 (d : Dims) (v : Bool) (e : Dir) (hn : 1 ≤ d.ns) : Covers d v v43 e
    (stageK d [.stage 0, .Q, .dQ]) := by
  cases e <;> cov v43

end PG.Safe.Src
