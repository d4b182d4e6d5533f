import Mathlib.Analysis.Real.Sqrt
/-
Generated by tools/mktext4.py from the text of cpg.cpp; do not edit. Each definition is one iteration of a loop: from the components that the
arrays q, Q, qh hold at its cell, and whatever the local array Y holds, to what they hold afterwards.
-/
namespace PG.Text.Thermo

/-- species data read by the kernels (thtrdat_.hpp) -/
structure ThB where
  ns : ℕ
  Ru : ℝ
  MW : ℕ → ℝ
  cp0 : ℕ → ℝ

/-- store into one component -/
def upd (f : ℕ → ℝ) (c : ℕ) (x : ℝ) : ℕ → ℝ := fun m => if m = c then x else f m

/-- thermo/cpg.cpp:33-132 -/
noncomputable def cpg_prims (th : ThB) (q Q qh Y : ℕ → ℝ) : (ℕ → ℝ) × (ℕ → ℝ) × (ℕ → ℝ) :=
  let p : ℝ := (q 0)
  let u : ℝ := (q 1)
  let v : ℝ := (q 2)
  let w : ℝ := (q 3)
  let T : ℝ := (q 4)
  let Y : ℕ → ℝ := upd Y (th.ns - 1) 1
  let testSum : ℝ := 0
  let st : (ℕ → ℝ) × (ℕ → ℝ) × (ℝ) := (List.range (th.ns - 1)).foldl (fun (st : (ℕ → ℝ) × (ℕ → ℝ) × (ℝ)) (n : ℕ) =>
      let q : ℕ → ℝ := st.1
      let Y : ℕ → ℝ := st.2.1
      let testSum : ℝ := st.2.2
      let q : ℕ → ℝ := upd q (5 + n) (max (min (q (5 + n)) 1) 0)
      let Y : ℕ → ℝ := upd Y n (q (5 + n))
      let Y : ℕ → ℝ := upd Y (th.ns - 1) ((Y (th.ns - 1)) - (Y n))
      let testSum : ℝ := (testSum + (Y n))
      (q, Y, testSum)) (q, Y, testSum)
  let q : ℕ → ℝ := st.1
  let Y : ℕ → ℝ := st.2.1
  let testSum : ℝ := st.2.2
  let st : (ℕ → ℝ) := if testSum > 1 then
      let Y : ℕ → ℝ := upd Y (th.ns - 1) 0
      let st : (ℕ → ℝ) := (List.range (th.ns - 1)).foldl (fun (st : (ℕ → ℝ)) (n : ℕ) =>
          let Y : ℕ → ℝ := st
          let Y : ℕ → ℝ := upd Y n ((Y n) / testSum)
          Y) Y
      let Y : ℕ → ℝ := st
      Y
    else Y
  let Y : ℕ → ℝ := st
  let Rmix : ℝ := 0
  let cp : ℝ := 0
  let st : (ℝ) × (ℝ) := (List.range ((th.ns - 1) + 1)).foldl (fun (st : (ℝ) × (ℝ)) (n : ℕ) =>
      let Rmix : ℝ := st.1
      let cp : ℝ := st.2
      let Rmix : ℝ := (Rmix + ((Y n) / (th.MW n)))
      let cp : ℝ := (cp + ((Y n) * (th.cp0 n)))
      (Rmix, cp)) (Rmix, cp)
  let Rmix : ℝ := st.1
  let cp : ℝ := st.2
  let Rmix : ℝ := (Rmix * th.Ru)
  let h : ℝ := (cp * T)
  let gamma : ℝ := (cp / (cp - Rmix))
  let c : ℝ := (Real.sqrt ((gamma * Rmix) * T))
  let rho : ℝ := (p / (Rmix * T))
  let rhou : ℝ := (rho * u)
  let rhov : ℝ := (rho * v)
  let rhow : ℝ := (rho * w)
  let tke : ℝ := (((1 / 2) * (((u ^ 2) + (v ^ 2)) + (w ^ 2))) * rho)
  let e : ℝ := (h - (p / rho))
  let rhoE : ℝ := ((rho * e) + tke)
  let Q : ℕ → ℝ := upd Q 0 rho
  let Q : ℕ → ℝ := upd Q 1 rhou
  let Q : ℕ → ℝ := upd Q 2 rhov
  let Q : ℕ → ℝ := upd Q 3 rhow
  let Q : ℕ → ℝ := upd Q 4 rhoE
  let st : (ℕ → ℝ) := (List.range (th.ns - 1)).foldl (fun (st : (ℕ → ℝ)) (n : ℕ) =>
      let Q : ℕ → ℝ := st
      let Q : ℕ → ℝ := upd Q (5 + n) ((Y n) * rho)
      Q) Q
  let Q : ℕ → ℝ := st
  let qh : ℕ → ℝ := upd qh 0 gamma
  let qh : ℕ → ℝ := upd qh 1 cp
  let qh : ℕ → ℝ := upd qh 2 (rho * h)
  let qh : ℕ → ℝ := upd qh 3 c
  let qh : ℕ → ℝ := upd qh 4 (rho * e)
  let st : (ℕ → ℝ) := (List.range ((th.ns - 1) + 1)).foldl (fun (st : (ℕ → ℝ)) (n : ℕ) =>
      let qh : ℕ → ℝ := st
      let qh : ℕ → ℝ := upd qh (5 + n) (T * (th.cp0 n))
      qh) qh
  let qh : ℕ → ℝ := st
  (q, Q, qh)

/-- thermo/cpg.cpp:136-230 -/
noncomputable def cpg_cons (th : ThB) (q Q qh Y : ℕ → ℝ) : (ℕ → ℝ) × (ℕ → ℝ) × (ℕ → ℝ) :=
  let rho : ℝ := (Q 0)
  let rhou : ℝ := (Q 1)
  let rhov : ℝ := (Q 2)
  let rhow : ℝ := (Q 3)
  let rhoE : ℝ := (Q 4)
  let tke : ℝ := (((1 / 2) * (((rhou ^ 2) + (rhov ^ 2)) + (rhow ^ 2))) / rho)
  let Y : ℕ → ℝ := upd Y (th.ns - 1) 1
  let testSum : ℝ := 0
  let st : (ℕ → ℝ) × (ℕ → ℝ) × (ℝ) := (List.range (th.ns - 1)).foldl (fun (st : (ℕ → ℝ) × (ℕ → ℝ) × (ℝ)) (n : ℕ) =>
      let Q : ℕ → ℝ := st.1
      let Y : ℕ → ℝ := st.2.1
      let testSum : ℝ := st.2.2
      let Q : ℕ → ℝ := upd Q (5 + n) (max (min (Q (5 + n)) (Q 0)) 0)
      let Y : ℕ → ℝ := upd Y n ((Q (5 + n)) / (Q 0))
      let Y : ℕ → ℝ := upd Y (th.ns - 1) ((Y (th.ns - 1)) - (Y n))
      let testSum : ℝ := (testSum + (Y n))
      (Q, Y, testSum)) (Q, Y, testSum)
  let Q : ℕ → ℝ := st.1
  let Y : ℕ → ℝ := st.2.1
  let testSum : ℝ := st.2.2
  let st : (ℕ → ℝ) × (ℕ → ℝ) := if testSum > 1 then
      let Y : ℕ → ℝ := upd Y (th.ns - 1) 0
      let st : (ℕ → ℝ) × (ℕ → ℝ) := (List.range (th.ns - 1)).foldl (fun (st : (ℕ → ℝ) × (ℕ → ℝ)) (n : ℕ) =>
          let Y : ℕ → ℝ := st.1
          let Q : ℕ → ℝ := st.2
          let Y : ℕ → ℝ := upd Y n ((Y n) / testSum)
          let Q : ℕ → ℝ := upd Q (5 + n) ((Y n) * (Q 0))
          (Y, Q)) (Y, Q)
      let Y : ℕ → ℝ := st.1
      let Q : ℕ → ℝ := st.2
      (Y, Q)
    else (Y, Q)
  let Y : ℕ → ℝ := st.1
  let Q : ℕ → ℝ := st.2
  let e : ℝ := ((rhoE - tke) / rho)
  let Rmix : ℝ := 0
  let cp : ℝ := 0
  let st : (ℝ) × (ℝ) := (List.range ((th.ns - 1) + 1)).foldl (fun (st : (ℝ) × (ℝ)) (n : ℕ) =>
      let Rmix : ℝ := st.1
      let cp : ℝ := st.2
      let Rmix : ℝ := (Rmix + ((Y n) / (th.MW n)))
      let cp : ℝ := (cp + ((Y n) * (th.cp0 n)))
      (Rmix, cp)) (Rmix, cp)
  let Rmix : ℝ := st.1
  let cp : ℝ := st.2
  let Rmix : ℝ := (Rmix * th.Ru)
  let T : ℝ := (e / (cp - Rmix))
  let p : ℝ := ((rho * Rmix) * T)
  let h : ℝ := (e + (p / rho))
  let gamma : ℝ := (cp / (cp - Rmix))
  let c : ℝ := (Real.sqrt ((gamma * Rmix) * T))
  let q : ℕ → ℝ := upd q 0 p
  let q : ℕ → ℝ := upd q 1 (rhou / rho)
  let q : ℕ → ℝ := upd q 2 (rhov / rho)
  let q : ℕ → ℝ := upd q 3 (rhow / rho)
  let q : ℕ → ℝ := upd q 4 T
  let st : (ℕ → ℝ) := (List.range (th.ns - 1)).foldl (fun (st : (ℕ → ℝ)) (n : ℕ) =>
      let q : ℕ → ℝ := st
      let q : ℕ → ℝ := upd q (5 + n) (Y n)
      q) q
  let q : ℕ → ℝ := st
  let qh : ℕ → ℝ := upd qh 0 gamma
  let qh : ℕ → ℝ := upd qh 1 cp
  let qh : ℕ → ℝ := upd qh 2 (rho * h)
  let qh : ℕ → ℝ := upd qh 3 c
  let qh : ℕ → ℝ := upd qh 4 (rho * e)
  let st : (ℕ → ℝ) := (List.range ((th.ns - 1) + 1)).foldl (fun (st : (ℕ → ℝ)) (n : ℕ) =>
      let qh : ℕ → ℝ := st
      let qh : ℕ → ℝ := upd qh (5 + n) (T * (th.cp0 n))
      qh) qh
  let qh : ℕ → ℝ := st
  (q, Q, qh)

end PG.Text.Thermo
