import Mathlib.Data.Real.Basic
/-
Generated by tools/mktext2.py from the text of the stage kernels; do not edit. Each definition is one iteration of the loop of a kernel: what it
does to the values at its index (i,j,k,l). The translation fails on a kernel that touches another index or has another range than the interior.
-/
namespace PG.Text.Stage

/-- the values at one index of the arrays of a block that the stage kernels use (block_.hpp) -/
structure V where
  Q : ℝ
  q : ℝ
  Q0 : ℝ
  Q1 : ℝ
  Q2 : ℝ
  Q3 : ℝ
  Qn : ℝ
  Qnm1 : ℝ
  dQ : ℝ
  dtau : ℝ

/-- timeIntegration/rk2Stages.cpp:5-18 -/
noncomputable def rk2s1 (dt : ℝ) (v : V) : V :=
  let v : V := { v with Q0 := v.Q }
  let v : V := { v with Q := (v.Q + (v.dQ * dt)) }
  v

/-- timeIntegration/rk2Stages.cpp:23-32 -/
noncomputable def rk2s2 (dt : ℝ) (v : V) : V :=
  let v : V := { v with Q := (((1 / 2) * v.Q0) + ((1 / 2) * (v.Q + (dt * v.dQ)))) }
  v

/-- timeIntegration/rk3Stages.cpp:5-18 -/
noncomputable def rk3s1 (dt : ℝ) (v : V) : V :=
  let v : V := { v with Q0 := v.Q }
  let v : V := { v with Q := (v.Q + (dt * v.dQ)) }
  v

/-- timeIntegration/rk3Stages.cpp:20-32 -/
noncomputable def rk3s2 (dt : ℝ) (v : V) : V :=
  let v : V := { v with Q := ((((3 / 4) * v.Q0) + ((1 / 4) * v.Q)) + (((1 / 4) * v.dQ) * dt)) }
  v

/-- timeIntegration/rk3Stages.cpp:34-47 -/
noncomputable def rk3s3 (dt : ℝ) (v : V) : V :=
  let v : V := { v with Q := (((v.Q0 + (2 * v.Q)) + ((2 * v.dQ) * dt)) / 3) }
  v

/-- timeIntegration/rk34Stages.cpp:5-18 -/
noncomputable def rk34s1 (dt : ℝ) (v : V) : V :=
  let v : V := { v with Q0 := v.Q }
  let v : V := { v with Q := (v.Q + (((1 / 2) * dt) * v.dQ)) }
  v

/-- timeIntegration/rk34Stages.cpp:20-31 -/
noncomputable def rk34s2 (dt : ℝ) (v : V) : V :=
  let v : V := { v with Q := (v.Q + (((1 / 2) * dt) * v.dQ)) }
  v

/-- timeIntegration/rk34Stages.cpp:33-46 -/
noncomputable def rk34s3 (dt : ℝ) (v : V) : V :=
  let v : V := { v with Q := ((((2 / 3) * v.Q0) + ((1 / 3) * v.Q)) + (((1 / 6) * v.dQ) * dt)) }
  v

/-- timeIntegration/rk34Stages.cpp:48-59 -/
noncomputable def rk34s4 (dt : ℝ) (v : V) : V :=
  let v : V := { v with Q := (v.Q + (((1 / 2) * v.dQ) * dt)) }
  v

/-- timeIntegration/rk4Stages.cpp:5-19 -/
noncomputable def rk4s1 (dt : ℝ) (v : V) : V :=
  let v : V := { v with Q0 := v.Q }
  let v : V := { v with Q1 := (dt * v.dQ) }
  let v : V := { v with Q := (v.Q0 + ((1 / 2) * v.Q1)) }
  v

/-- timeIntegration/rk4Stages.cpp:21-33 -/
noncomputable def rk4s2 (dt : ℝ) (v : V) : V :=
  let v : V := { v with Q2 := (dt * v.dQ) }
  let v : V := { v with Q := (v.Q0 + ((1 / 2) * v.Q2)) }
  v

/-- timeIntegration/rk4Stages.cpp:35-47 -/
noncomputable def rk4s3 (dt : ℝ) (v : V) : V :=
  let v : V := { v with Q3 := (dt * v.dQ) }
  let v : V := { v with Q := (v.Q0 + v.Q3) }
  v

/-- timeIntegration/rk4Stages.cpp:49-63 -/
noncomputable def rk4s4 (dt : ℝ) (v : V) : V :=
  let v : V := { v with Q := (v.Q0 + ((((v.Q1 + (2 * v.Q2)) + (2 * v.Q3)) + (dt * v.dQ)) / 6)) }
  v

/-- timeIntegration/maccormackStages.cpp:5-17 -/
noncomputable def corrector (dt : ℝ) (v : V) : V :=
  let v : V := { v with Q := ((1 / 2) * ((v.Q0 + v.Q) + (dt * v.dQ))) }
  v

/-- timeIntegration/dualTime.cpp:21-34 -/
noncomputable def dQdt (dt : ℝ) (v : V) : V :=
  let v : V := { v with dQ := (v.dQ - ((((3 * v.Q) - (4 * v.Qn)) + v.Qnm1) / (2 * dt))) }
  v

/-- timeIntegration/dualTime.cpp:107-120 -/
noncomputable def DTrk3s1 (_dt : ℝ) (v : V) : V :=
  let v : V := { v with Q0 := v.q }
  let v : V := { v with q := (v.q + (v.dtau * v.dQ)) }
  v

/-- timeIntegration/dualTime.cpp:122-134 -/
noncomputable def DTrk3s2 (_dt : ℝ) (v : V) : V :=
  let v : V := { v with q := ((((3 / 4) * v.Q0) + ((1 / 4) * v.q)) + (((1 / 4) * v.dQ) * v.dtau)) }
  v

/-- timeIntegration/dualTime.cpp:136-149 -/
noncomputable def DTrk3s3 (_dt : ℝ) (v : V) : V :=
  let v : V := { v with q := (((v.Q0 + (2 * v.q)) + ((2 * v.dQ) * v.dtau)) / 3) }
  v

end PG.Text.Stage
