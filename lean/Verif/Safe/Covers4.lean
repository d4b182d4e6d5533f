import Verif.Safe.Covers
/-!
One theorem for each entry of the generated table: its accesses are among those of the launch in `Safe.Model` that stands for it.
-/
namespace PG.Safe.Src
open PG.Safe

theorem cov_v44 (d : Dims) (v : Bool) (e : Dir) (hn : 1 ≤ d.ns) : Covers d v v44 e
    (stageK d [.stage 0, .Q, .dQ]) := by
  cases e <;> cov v44

theorem cov_v45 (d : Dims) (v : Bool) (e : Dir) (hn : 1 ≤ d.ns) : Covers d v v45 e
    (stageK d [.stage 0, .Q, .dQ]) := by
  cases e <;> cov v45

theorem cov_v46 (d : Dims) (v : Bool) (e : Dir) (hn : 1 ≤ d.ns) : Covers d v v46 e
    (stageK d [.stage 0, .Q, .dQ]) := by
  cases e <;> cov v46

theorem cov_v47 (d : Dims) (v : Bool) (e : Dir) (hn : 1 ≤ d.ns) : Covers d v v47 e
    (stageK d [.stage 0, .Q, .dQ]) := by
  cases e <;> cov v47

theorem cov_v48 (d : Dims) (v : Bool) (e : Dir) (hn : 1 ≤ d.ns) : Covers d v v48 e
    (stageK d [.stage 0, .Q, .dQ]) := by
  cases e <;> cov v48

theorem cov_v49 (d : Dims) (v : Bool) (e : Dir) (hn : 1 ≤ d.ns) : Covers d v v49 e
    (stageK d [.stage 0, .Q, .dQ]) := by
  cases e <;> cov v49

theorem cov_v50 (d : Dims) (v : Bool) (e : Dir) (hn : 1 ≤ d.ns) : Covers d v v50 e
    (stageK d [.stage 0, .stage 1, .Q, .dQ]) := by
  cases e <;> cov v50

theorem cov_v51 (d : Dims) (v : Bool) (e : Dir) (hn : 1 ≤ d.ns) : Covers d v v51 e
    (stageK d [.stage 2, .stage 0, .Q, .dQ]) := by
  cases e <;> cov v51

theorem cov_v52 (d : Dims) (v : Bool) (e : Dir) (hn : 1 ≤ d.ns) : Covers d v v52 e
    (stageK d [.stage 3, .stage 0, .Q, .dQ]) := by
  cases e <;> cov v52

theorem cov_v53 (d : Dims) (v : Bool) (e : Dir) (hn : 1 ≤ d.ns) : Covers d v v53 e
    (stageK d [.stage 0, .stage 1, .stage 2, .stage 3, .Q, .dQ]) := by
  cases e <;> cov v53

theorem cov_v54 (d : Dims) (v : Bool) (e : Dir) (hn : 1 ≤ d.ns) : Covers d v v54 e
    (whole d (transAccs d)) := by
  cases e <;> cov v54

theorem cov_v55 (d : Dims) (v : Bool) (e : Dir) (hn : 1 ≤ d.ns) : Covers d v v55 e
    (whole d (transAccs d)) := by
  cases e <;> cov v55

theorem cov_v56 (d : Dims) (v : Bool) (e : Dir) (hn : 1 ≤ d.ns) : Covers d v v56 e
    (whole d (transAccs d)) := by
  cases e <;> cov v56

theorem cov_v57 (d : Dims) (v : Bool) (e : Dir) (hn : 1 ≤ d.ns) : Covers d v v57 e
    (whole d (transAccs d)) := by
  cases e <;> cov v57

theorem cov_v58 (d : Dims) (v : Bool) (e : Dir) (hn : 1 ≤ d.ns) : Covers d v v58 e
    (apply d .plain) := by
  cases e <;> cov v58

theorem cov_v59 (d : Dims) (v : Bool) (e : Dir) (hn : 1 ≤ d.ns) : Covers d v v59 e
    (apply d .hybrid) := by
  cases e <;> cov v59

theorem cov_v60 (d : Dims) (v : Bool) (e : Dir) (hn : 1 ≤ d.ns) : Covers d v v60 e
    (apply d .dissipation) := by
  cases e <;> cov v60

theorem cov_v61 (d : Dims) (v : Bool) (e : Dir) (hn : 1 ≤ d.ns) : Covers d v v61 e
    (interior d (lengths d ++ [⟨.q, (0, 0, 0), 1, 4⟩, ⟨.qh, (0, 0, 0), 3, 4⟩])) := by
  cases e <;> cov v61

theorem cov_v62 (d : Dims) (v : Bool) (e : Dir) (hn : 1 ≤ d.ns) : Covers d v v62 e
    (interior d [at0 d .Q]) := by
  cases e <;> cov v62

theorem cov_v63 (d : Dims) (v : Bool) (e : Dir) (hn : 1 ≤ d.ns) : Covers d v v63 e
    (dq2FD d) := by
  cases e <;> cov v63

theorem cov_v64 (d : Dims) (v : Bool) (e : Dir) (hn : 1 ≤ d.ns) : Covers d v v64 e
    (spongeK d) := by
  cases e <;> cov v64

end PG.Safe.Src
