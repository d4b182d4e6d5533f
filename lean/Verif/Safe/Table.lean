import Verif.Safe.Model
/-!
# The elements the kernels of `src/compute` address

Generated by `tools/mksource.py` from the text of `/repo/src/compute`: one entry for each `KOKKOS_LAMBDA` that a run can launch,
with the Python submodule it belongs to (the directory), its file and line, the C++ function, the index box where it is written
out (`none` where it comes from `getRange3`) and every access to an array of the block: the array, the offset from the work
index (`o`), the multiple of the face direction (`m`, for `i - iMod, j - jMod, k - kMod`), whether it is under `if (viscous)`, and a half-open range of components
`lo ns ≤ c < hi ns` (loops over components are replaced by their range, adjacent ranges merged; the names xc, yc, zc and so on
are numbered as components of one array). Kernels of the boundary conditions name the slice by the index variable given to
`getFaceSlice`. Left out: `ausmPlusUp`, `myKEEP`, `diffusiveFlux`, `dq4FD` (not reachable in a run), `axpby`, `sendRecvBuffer`
(arrays passed from Python), the set-up of the metrics, the species tables and kernel-private scratch arrays.
-/

namespace PG.Safe.Src
open PG.Safe (Dims Dir)

/-- an access in the text of a kernel (see the head of this file) -/
structure SAcc where
  arr : String
  o : ℤ × ℤ × ℤ
  m : ℤ
  viscous : Bool
  lo : ℤ → ℤ
  hi : ℤ → ℤ

/-- a kernel over cells or faces of a block (see the head of this file) -/
structure SKernel where
  dir : String
  file : String
  line : ℕ
  func : String
  box : Option (Dims → Dir → List ℤ)
  acc : List SAcc

/-- an access in the text of a kernel of a boundary condition (see the head of this file) -/
structure FAcc where
  arr : String
  slice : String
  lo : ℤ → ℤ
  hi : ℤ → ℤ

/-- a kernel over a slice parallel to a face (see the head of this file) -/
structure FKernel where
  file : String
  line : ℕ
  func : String
  terms : String
  acc : List FAcc

/-- `src/compute/advFlux/KEEP.cpp:16-77`, `KEEP` -/
def v00 : SKernel where
  dir := "advFlux"
  file := "advFlux/KEEP.cpp"
  line := 16
  func := "KEEP"
  box := some fun d e => [d.ng, d.ni + d.ng - 1 + (e.v 1).1, d.ng, d.nj + d.ng - 1 + (e.v 1).2.1, d.ng, d.nk + d.ng - 1 + (e.v 1).2.2]
  acc := [⟨"q", (0, 0, 0), 0, false, fun _ => 5, fun ns => ns + 4⟩,
    ⟨"q", (0, 0, 0), 0, false, fun _ => 0, fun _ => 4⟩,
    ⟨"q", (0, 0, 0), -1, false, fun _ => 5, fun ns => ns + 4⟩,
    ⟨"q", (0, 0, 0), -1, false, fun _ => 0, fun _ => 4⟩,
    ⟨"face", (0, 0, 0), 0, false, fun _ => 4, fun _ => 7⟩,
    ⟨"Q", (0, 0, 0), 0, false, fun _ => 0, fun _ => 1⟩,
    ⟨"Q", (0, 0, 0), -1, false, fun _ => 0, fun _ => 1⟩,
    ⟨"flux", (0, 0, 0), 0, false, fun _ => 0, fun ns => ns + 4⟩,
    ⟨"qh", (0, 0, 0), 0, false, fun _ => 4, fun _ => 5⟩,
    ⟨"qh", (0, 0, 0), -1, false, fun _ => 4, fun _ => 5⟩]

/-- `src/compute/advFlux/KEEPpe.cpp:16-76`, `KEEPpe` -/
def v01 : SKernel where
  dir := "advFlux"
  file := "advFlux/KEEPpe.cpp"
  line := 16
  func := "KEEPpe"
  box := some fun d e => [d.ng, d.ni + d.ng - 1 + (e.v 1).1, d.ng, d.nj + d.ng - 1 + (e.v 1).2.1, d.ng, d.nk + d.ng - 1 + (e.v 1).2.2]
  acc := [⟨"q", (0, 0, 0), 0, false, fun _ => 5, fun ns => ns + 4⟩,
    ⟨"q", (0, 0, 0), 0, false, fun _ => 0, fun _ => 4⟩,
    ⟨"q", (0, 0, 0), -1, false, fun _ => 5, fun ns => ns + 4⟩,
    ⟨"q", (0, 0, 0), -1, false, fun _ => 0, fun _ => 4⟩,
    ⟨"face", (0, 0, 0), 0, false, fun _ => 4, fun _ => 7⟩,
    ⟨"Q", (0, 0, 0), 0, false, fun _ => 0, fun _ => 1⟩,
    ⟨"Q", (0, 0, 0), -1, false, fun _ => 0, fun _ => 1⟩,
    ⟨"flux", (0, 0, 0), 0, false, fun _ => 0, fun ns => ns + 4⟩,
    ⟨"qh", (0, 0, 0), 0, false, fun _ => 4, fun _ => 5⟩,
    ⟨"qh", (0, 0, 0), -1, false, fun _ => 4, fun _ => 5⟩]

/-- `src/compute/advFlux/KEPaEC.cpp:15-77`, `KEPaEC` -/
def v02 : SKernel where
  dir := "advFlux"
  file := "advFlux/KEPaEC.cpp"
  line := 15
  func := "KEPaEC"
  box := some fun d e => [d.ng, d.ni + d.ng - 1 + (e.v 1).1, d.ng, d.nj + d.ng - 1 + (e.v 1).2.1, d.ng, d.nk + d.ng - 1 + (e.v 1).2.2]
  acc := [⟨"q", (0, 0, 0), 0, false, fun _ => 5, fun ns => ns + 4⟩,
    ⟨"q", (0, 0, 0), 0, false, fun _ => 0, fun _ => 4⟩,
    ⟨"q", (0, 0, 0), -1, false, fun _ => 5, fun ns => ns + 4⟩,
    ⟨"q", (0, 0, 0), -1, false, fun _ => 0, fun _ => 4⟩,
    ⟨"face", (0, 0, 0), 0, false, fun _ => 4, fun _ => 7⟩,
    ⟨"Q", (0, 0, 0), 0, false, fun _ => 0, fun _ => 1⟩,
    ⟨"Q", (0, 0, 0), -1, false, fun _ => 0, fun _ => 1⟩,
    ⟨"flux", (0, 0, 0), 0, false, fun _ => 0, fun ns => ns + 4⟩,
    ⟨"qh", (0, 0, 0), 0, false, fun _ => 4, fun _ => 5⟩,
    ⟨"qh", (0, 0, 0), -1, false, fun _ => 4, fun _ => 5⟩]

/-- `src/compute/advFlux/centralDifference.cpp:17-70`, `centralDifference` -/
def v03 : SKernel where
  dir := "advFlux"
  file := "advFlux/centralDifference.cpp"
  line := 17
  func := "centralDifference"
  box := some fun d e => [d.ng, d.ni + d.ng - 1 + (e.v 1).1, d.ng, d.nj + d.ng - 1 + (e.v 1).2.1, d.ng, d.nk + d.ng - 1 + (e.v 1).2.2]
  acc := [⟨"q", (0, 0, 0), 0, false, fun _ => 0, fun _ => 4⟩,
    ⟨"q", (0, 0, 0), -1, false, fun _ => 0, fun _ => 4⟩,
    ⟨"face", (0, 0, 0), 0, false, fun _ => 4, fun _ => 7⟩,
    ⟨"Q", (0, 0, 0), 0, false, fun _ => 1, fun ns => ns + 4⟩,
    ⟨"Q", (0, 0, 0), -1, false, fun _ => 1, fun ns => ns + 4⟩,
    ⟨"flux", (0, 0, 0), 0, false, fun _ => 0, fun ns => ns + 4⟩]

/-- `src/compute/advFlux/fourthOrderKEEP.cpp:21-180`, `fourthOrderKEEP` -/
def v04 : SKernel where
  dir := "advFlux"
  file := "advFlux/fourthOrderKEEP.cpp"
  line := 21
  func := "fourthOrderKEEP"
  box := some fun d _ => [d.ng, d.ni + d.ng, d.ng, d.nj + d.ng - 1, d.ng, d.nk + d.ng - 1]
  acc := [⟨"q", (0, 0, 0), 0, false, fun _ => 5, fun ns => ns + 4⟩,
    ⟨"q", (0, 0, 0), 0, false, fun _ => 0, fun _ => 4⟩,
    ⟨"q", (1, 0, 0), 0, false, fun _ => 5, fun ns => ns + 4⟩,
    ⟨"q", (1, 0, 0), 0, false, fun _ => 0, fun _ => 4⟩,
    ⟨"q", (-1, 0, 0), 0, false, fun _ => 5, fun ns => ns + 4⟩,
    ⟨"q", (-1, 0, 0), 0, false, fun _ => 0, fun _ => 4⟩,
    ⟨"q", (-2, 0, 0), 0, false, fun _ => 5, fun ns => ns + 4⟩,
    ⟨"q", (-2, 0, 0), 0, false, fun _ => 0, fun _ => 4⟩,
    ⟨"facei", (0, 0, 0), 0, false, fun _ => 4, fun _ => 7⟩,
    ⟨"Q", (0, 0, 0), 0, false, fun _ => 0, fun _ => 1⟩,
    ⟨"Q", (1, 0, 0), 0, false, fun _ => 0, fun _ => 1⟩,
    ⟨"Q", (-1, 0, 0), 0, false, fun _ => 0, fun _ => 1⟩,
    ⟨"Q", (-2, 0, 0), 0, false, fun _ => 0, fun _ => 1⟩,
    ⟨"fluxi", (0, 0, 0), 0, false, fun _ => 0, fun ns => ns + 4⟩,
    ⟨"qh", (0, 0, 0), 0, false, fun _ => 4, fun _ => 5⟩,
    ⟨"qh", (1, 0, 0), 0, false, fun _ => 4, fun _ => 5⟩,
    ⟨"qh", (-1, 0, 0), 0, false, fun _ => 4, fun _ => 5⟩,
    ⟨"qh", (-2, 0, 0), 0, false, fun _ => 4, fun _ => 5⟩]

/-- `src/compute/advFlux/fourthOrderKEEP.cpp:189-348`, `fourthOrderKEEP` -/
def v05 : SKernel where
  dir := "advFlux"
  file := "advFlux/fourthOrderKEEP.cpp"
  line := 189
  func := "fourthOrderKEEP"
  box := some fun d _ => [d.ng, d.ni + d.ng - 1, d.ng, d.nj + d.ng, d.ng, d.nk + d.ng - 1]
  acc := [⟨"q", (0, 0, 0), 0, false, fun _ => 5, fun ns => ns + 4⟩,
    ⟨"q", (0, 0, 0), 0, false, fun _ => 0, fun _ => 4⟩,
    ⟨"q", (0, 1, 0), 0, false, fun _ => 5, fun ns => ns + 4⟩,
    ⟨"q", (0, 1, 0), 0, false, fun _ => 0, fun _ => 4⟩,
    ⟨"q", (0, -1, 0), 0, false, fun _ => 5, fun ns => ns + 4⟩,
    ⟨"q", (0, -1, 0), 0, false, fun _ => 0, fun _ => 4⟩,
    ⟨"q", (0, -2, 0), 0, false, fun _ => 5, fun ns => ns + 4⟩,
    ⟨"q", (0, -2, 0), 0, false, fun _ => 0, fun _ => 4⟩,
    ⟨"facej", (0, 0, 0), 0, false, fun _ => 4, fun _ => 7⟩,
    ⟨"Q", (0, 0, 0), 0, false, fun _ => 0, fun _ => 1⟩,
    ⟨"Q", (0, 1, 0), 0, false, fun _ => 0, fun _ => 1⟩,
    ⟨"Q", (0, -1, 0), 0, false, fun _ => 0, fun _ => 1⟩,
    ⟨"Q", (0, -2, 0), 0, false, fun _ => 0, fun _ => 1⟩,
    ⟨"fluxj", (0, 0, 0), 0, false, fun _ => 0, fun ns => ns + 4⟩,
    ⟨"qh", (0, 0, 0), 0, false, fun _ => 4, fun _ => 5⟩,
    ⟨"qh", (0, 1, 0), 0, false, fun _ => 4, fun _ => 5⟩,
    ⟨"qh", (0, -1, 0), 0, false, fun _ => 4, fun _ => 5⟩,
    ⟨"qh", (0, -2, 0), 0, false, fun _ => 4, fun _ => 5⟩]

/-- `src/compute/advFlux/fourthOrderKEEP.cpp:357-516`, `fourthOrderKEEP` -/
def v06 : SKernel where
  dir := "advFlux"
  file := "advFlux/fourthOrderKEEP.cpp"
  line := 357
  func := "fourthOrderKEEP"
  box := some fun d _ => [d.ng, d.ni + d.ng - 1, d.ng, d.nj + d.ng - 1, d.ng, d.nk + d.ng]
  acc := [⟨"q", (0, 0, 0), 0, false, fun _ => 5, fun ns => ns + 4⟩,
    ⟨"q", (0, 0, 0), 0, false, fun _ => 0, fun _ => 4⟩,
    ⟨"q", (0, 0, 1), 0, false, fun _ => 5, fun ns => ns + 4⟩,
    ⟨"q", (0, 0, 1), 0, false, fun _ => 0, fun _ => 4⟩,
    ⟨"q", (0, 0, -1), 0, false, fun _ => 5, fun ns => ns + 4⟩,
    ⟨"q", (0, 0, -1), 0, false, fun _ => 0, fun _ => 4⟩,
    ⟨"q", (0, 0, -2), 0, false, fun _ => 5, fun ns => ns + 4⟩,
    ⟨"q", (0, 0, -2), 0, false, fun _ => 0, fun _ => 4⟩,
    ⟨"facek", (0, 0, 0), 0, false, fun _ => 4, fun _ => 7⟩,
    ⟨"Q", (0, 0, 0), 0, false, fun _ => 0, fun _ => 1⟩,
    ⟨"Q", (0, 0, 1), 0, false, fun _ => 0, fun _ => 1⟩,
    ⟨"Q", (0, 0, -1), 0, false, fun _ => 0, fun _ => 1⟩,
    ⟨"Q", (0, 0, -2), 0, false, fun _ => 0, fun _ => 1⟩,
    ⟨"fluxk", (0, 0, 0), 0, false, fun _ => 0, fun ns => ns + 4⟩,
    ⟨"qh", (0, 0, 0), 0, false, fun _ => 4, fun _ => 5⟩,
    ⟨"qh", (0, 0, 1), 0, false, fun _ => 4, fun _ => 5⟩,
    ⟨"qh", (0, 0, -1), 0, false, fun _ => 4, fun _ => 5⟩,
    ⟨"qh", (0, 0, -2), 0, false, fun _ => 4, fun _ => 5⟩]

/-- `src/compute/advFlux/hllc.cpp:19-148`, `hllc` -/
def v07 : SKernel where
  dir := "advFlux"
  file := "advFlux/hllc.cpp"
  line := 19
  func := "hllc"
  box := some fun d e => [d.ng, d.ni + d.ng - 1 + (e.v 1).1, d.ng, d.nj + d.ng - 1 + (e.v 1).2.1, d.ng, d.nk + d.ng - 1 + (e.v 1).2.2]
  acc := [⟨"q", (0, 0, 0), 0, false, fun _ => 5, fun ns => ns + 4⟩,
    ⟨"q", (0, 0, 0), 0, false, fun _ => 0, fun _ => 4⟩,
    ⟨"q", (0, 0, 0), -1, false, fun _ => 5, fun ns => ns + 4⟩,
    ⟨"q", (0, 0, 0), -1, false, fun _ => 0, fun _ => 4⟩,
    ⟨"face", (0, 0, 0), 0, false, fun _ => 3, fun _ => 10⟩,
    ⟨"Q", (0, 0, 0), 0, false, fun _ => 0, fun ns => ns + 4⟩,
    ⟨"Q", (0, 0, 0), -1, false, fun _ => 0, fun ns => ns + 4⟩,
    ⟨"qh", (0, 0, 0), 0, false, fun _ => 3, fun _ => 4⟩,
    ⟨"qh", (0, 0, 0), -1, false, fun _ => 3, fun _ => 4⟩,
    ⟨"flux", (0, 0, 0), 0, false, fun _ => 0, fun ns => ns + 4⟩]

/-- `src/compute/advFlux/muscl2hllc.cpp:32-260`, `muscl2hllc` -/
def v08 : SKernel where
  dir := "advFlux"
  file := "advFlux/muscl2hllc.cpp"
  line := 32
  func := "muscl2hllc"
  box := some fun d _ => [d.ng, d.ni + d.ng, d.ng, d.nj + d.ng - 1, d.ng, d.nk + d.ng - 1]
  acc := [⟨"Q", (0, 0, 0), 0, false, fun _ => 0, fun _ => 1⟩,
    ⟨"Q", (-1, 0, 0), 0, false, fun _ => 0, fun _ => 1⟩,
    ⟨"Q", (-2, 0, 0), 0, false, fun _ => 0, fun _ => 1⟩,
    ⟨"Q", (1, 0, 0), 0, false, fun _ => 0, fun _ => 1⟩,
    ⟨"q", (0, 0, 0), 0, false, fun _ => 5, fun ns => ns + 4⟩,
    ⟨"q", (0, 0, 0), 0, false, fun _ => 0, fun _ => 4⟩,
    ⟨"q", (-1, 0, 0), 0, false, fun _ => 5, fun ns => ns + 4⟩,
    ⟨"q", (-1, 0, 0), 0, false, fun _ => 0, fun _ => 4⟩,
    ⟨"q", (-2, 0, 0), 0, false, fun _ => 5, fun ns => ns + 4⟩,
    ⟨"q", (-2, 0, 0), 0, false, fun _ => 1, fun _ => 4⟩,
    ⟨"q", (1, 0, 0), 0, false, fun _ => 5, fun ns => ns + 4⟩,
    ⟨"q", (1, 0, 0), 0, false, fun _ => 0, fun _ => 4⟩,
    ⟨"facei", (0, 0, 0), 0, false, fun _ => 3, fun _ => 10⟩,
    ⟨"qh", (0, 0, 0), 0, false, fun _ => 3, fun _ => 5⟩,
    ⟨"qh", (-1, 0, 0), 0, false, fun _ => 3, fun _ => 5⟩,
    ⟨"qh", (-2, 0, 0), 0, false, fun _ => 4, fun _ => 5⟩,
    ⟨"qh", (1, 0, 0), 0, false, fun _ => 3, fun _ => 5⟩,
    ⟨"fluxi", (0, 0, 0), 0, false, fun _ => 0, fun ns => ns + 4⟩]

/-- `src/compute/advFlux/muscl2hllc.cpp:269-497`, `muscl2hllc` -/
def v09 : SKernel where
  dir := "advFlux"
  file := "advFlux/muscl2hllc.cpp"
  line := 269
  func := "muscl2hllc"
  box := some fun d _ => [d.ng, d.ni + d.ng - 1, d.ng, d.nj + d.ng, d.ng, d.nk + d.ng - 1]
  acc := [⟨"Q", (0, 0, 0), 0, false, fun _ => 0, fun _ => 1⟩,
    ⟨"Q", (0, -1, 0), 0, false, fun _ => 0, fun _ => 1⟩,
    ⟨"Q", (0, -2, 0), 0, false, fun _ => 0, fun _ => 1⟩,
    ⟨"Q", (0, 1, 0), 0, false, fun _ => 0, fun _ => 1⟩,
    ⟨"q", (0, 0, 0), 0, false, fun _ => 5, fun ns => ns + 4⟩,
    ⟨"q", (0, 0, 0), 0, false, fun _ => 0, fun _ => 4⟩,
    ⟨"q", (0, -1, 0), 0, false, fun _ => 5, fun ns => ns + 4⟩,
    ⟨"q", (0, -1, 0), 0, false, fun _ => 0, fun _ => 4⟩,
    ⟨"q", (0, -2, 0), 0, false, fun _ => 5, fun ns => ns + 4⟩,
    ⟨"q", (0, -2, 0), 0, false, fun _ => 1, fun _ => 4⟩,
    ⟨"q", (0, 1, 0), 0, false, fun _ => 5, fun ns => ns + 4⟩,
    ⟨"q", (0, 1, 0), 0, false, fun _ => 0, fun _ => 4⟩,
    ⟨"facej", (0, 0, 0), 0, false, fun _ => 3, fun _ => 10⟩,
    ⟨"qh", (0, 0, 0), 0, false, fun _ => 3, fun _ => 5⟩,
    ⟨"qh", (0, -1, 0), 0, false, fun _ => 3, fun _ => 5⟩,
    ⟨"qh", (0, -2, 0), 0, false, fun _ => 4, fun _ => 5⟩,
    ⟨"qh", (0, 1, 0), 0, false, fun _ => 3, fun _ => 5⟩,
    ⟨"fluxj", (0, 0, 0), 0, false, fun _ => 0, fun ns => ns + 4⟩]

/-- `src/compute/advFlux/muscl2hllc.cpp:505-733`, `muscl2hllc` -/
def v10 : SKernel where
  dir := "advFlux"
  file := "advFlux/muscl2hllc.cpp"
  line := 505
  func := "muscl2hllc"
  box := some fun d _ => [d.ng, d.ni + d.ng - 1, d.ng, d.nj + d.ng - 1, d.ng, d.nk + d.ng]
  acc := [⟨"Q", (0, 0, 0), 0, false, fun _ => 0, fun _ => 1⟩,
    ⟨"Q", (0, 0, -1), 0, false, fun _ => 0, fun _ => 1⟩,
    ⟨"Q", (0, 0, -2), 0, false, fun _ => 0, fun _ => 1⟩,
    ⟨"Q", (0, 0, 1), 0, false, fun _ => 0, fun _ => 1⟩,
    ⟨"q", (0, 0, 0), 0, false, fun _ => 5, fun ns => ns + 4⟩,
    ⟨"q", (0, 0, 0), 0, false, fun _ => 0, fun _ => 4⟩,
    ⟨"q", (0, 0, -1), 0, false, fun _ => 5, fun ns => ns + 4⟩,
    ⟨"q", (0, 0, -1), 0, false, fun _ => 0, fun _ => 4⟩,
    ⟨"q", (0, 0, -2), 0, false, fun _ => 5, fun ns => ns + 4⟩,
    ⟨"q", (0, 0, -2), 0, false, fun _ => 1, fun _ => 4⟩,
    ⟨"q", (0, 0, 1), 0, false, fun _ => 5, fun ns => ns + 4⟩,
    ⟨"q", (0, 0, 1), 0, false, fun _ => 0, fun _ => 4⟩,
    ⟨"facek", (0, 0, 0), 0, false, fun _ => 3, fun _ => 10⟩,
    ⟨"qh", (0, 0, 0), 0, false, fun _ => 3, fun _ => 5⟩,
    ⟨"qh", (0, 0, -1), 0, false, fun _ => 3, fun _ => 5⟩,
    ⟨"qh", (0, 0, -2), 0, false, fun _ => 4, fun _ => 5⟩,
    ⟨"qh", (0, 0, 1), 0, false, fun _ => 3, fun _ => 5⟩,
    ⟨"fluxk", (0, 0, 0), 0, false, fun _ => 0, fun ns => ns + 4⟩]

/-- `src/compute/advFlux/muscl2rusanov.cpp:33-178`, `muscl2rusanov` -/
def v11 : SKernel where
  dir := "advFlux"
  file := "advFlux/muscl2rusanov.cpp"
  line := 33
  func := "muscl2rusanov"
  box := some fun d _ => [d.ng, d.ni + d.ng, d.ng, d.nj + d.ng - 1, d.ng, d.nk + d.ng - 1]
  acc := [⟨"Q", (0, 0, 0), 0, false, fun _ => 0, fun _ => 1⟩,
    ⟨"Q", (0, 0, 0), 0, false, fun _ => 5, fun ns => ns + 4⟩,
    ⟨"Q", (-1, 0, 0), 0, false, fun _ => 0, fun _ => 1⟩,
    ⟨"Q", (-1, 0, 0), 0, false, fun _ => 5, fun ns => ns + 4⟩,
    ⟨"Q", (-2, 0, 0), 0, false, fun _ => 0, fun _ => 1⟩,
    ⟨"Q", (1, 0, 0), 0, false, fun _ => 0, fun _ => 1⟩,
    ⟨"Q", (1, 0, 0), 0, false, fun _ => 5, fun ns => ns + 4⟩,
    ⟨"q", (0, 0, 0), 0, false, fun _ => 0, fun _ => 4⟩,
    ⟨"q", (-1, 0, 0), 0, false, fun _ => 0, fun _ => 4⟩,
    ⟨"q", (-2, 0, 0), 0, false, fun _ => 1, fun _ => 4⟩,
    ⟨"q", (1, 0, 0), 0, false, fun _ => 0, fun _ => 4⟩,
    ⟨"facei", (0, 0, 0), 0, false, fun _ => 3, fun _ => 10⟩,
    ⟨"qh", (0, 0, 0), 0, false, fun _ => 3, fun _ => 5⟩,
    ⟨"qh", (-1, 0, 0), 0, false, fun _ => 3, fun _ => 5⟩,
    ⟨"qh", (-2, 0, 0), 0, false, fun _ => 4, fun _ => 5⟩,
    ⟨"qh", (1, 0, 0), 0, false, fun _ => 3, fun _ => 5⟩,
    ⟨"fluxi", (0, 0, 0), 0, false, fun _ => 0, fun ns => ns + 4⟩]

/-- `src/compute/advFlux/muscl2rusanov.cpp:187-332`, `muscl2rusanov` -/
def v12 : SKernel where
  dir := "advFlux"
  file := "advFlux/muscl2rusanov.cpp"
  line := 187
  func := "muscl2rusanov"
  box := some fun d _ => [d.ng, d.ni + d.ng - 1, d.ng, d.nj + d.ng, d.ng, d.nk + d.ng - 1]
  acc := [⟨"Q", (0, 0, 0), 0, false, fun _ => 0, fun _ => 1⟩,
    ⟨"Q", (0, 0, 0), 0, false, fun _ => 5, fun ns => ns + 4⟩,
    ⟨"Q", (0, -1, 0), 0, false, fun _ => 0, fun _ => 1⟩,
    ⟨"Q", (0, -1, 0), 0, false, fun _ => 5, fun ns => ns + 4⟩,
    ⟨"Q", (0, -2, 0), 0, false, fun _ => 0, fun _ => 1⟩,
    ⟨"Q", (0, 1, 0), 0, false, fun _ => 0, fun _ => 1⟩,
    ⟨"Q", (0, 1, 0), 0, false, fun _ => 5, fun ns => ns + 4⟩,
    ⟨"q", (0, 0, 0), 0, false, fun _ => 0, fun _ => 4⟩,
    ⟨"q", (0, -1, 0), 0, false, fun _ => 0, fun _ => 4⟩,
    ⟨"q", (0, -2, 0), 0, false, fun _ => 1, fun _ => 4⟩,
    ⟨"q", (0, 1, 0), 0, false, fun _ => 0, fun _ => 4⟩,
    ⟨"facej", (0, 0, 0), 0, false, fun _ => 3, fun _ => 10⟩,
    ⟨"qh", (0, 0, 0), 0, false, fun _ => 3, fun _ => 5⟩,
    ⟨"qh", (0, -1, 0), 0, false, fun _ => 3, fun _ => 5⟩,
    ⟨"qh", (0, -2, 0), 0, false, fun _ => 4, fun _ => 5⟩,
    ⟨"qh", (0, 1, 0), 0, false, fun _ => 3, fun _ => 5⟩,
    ⟨"fluxj", (0, 0, 0), 0, false, fun _ => 0, fun ns => ns + 4⟩]

/-- `src/compute/advFlux/muscl2rusanov.cpp:340-485`, `muscl2rusanov` -/
def v13 : SKernel where
  dir := "advFlux"
  file := "advFlux/muscl2rusanov.cpp"
  line := 340
  func := "muscl2rusanov"
  box := some fun d _ => [d.ng, d.ni + d.ng - 1, d.ng, d.nj + d.ng - 1, d.ng, d.nk + d.ng]
  acc := [⟨"Q", (0, 0, 0), 0, false, fun _ => 0, fun _ => 1⟩,
    ⟨"Q", (0, 0, 0), 0, false, fun _ => 5, fun ns => ns + 4⟩,
    ⟨"Q", (0, 0, -1), 0, false, fun _ => 0, fun _ => 1⟩,
    ⟨"Q", (0, 0, -1), 0, false, fun _ => 5, fun ns => ns + 4⟩,
    ⟨"Q", (0, 0, -2), 0, false, fun _ => 0, fun _ => 1⟩,
    ⟨"Q", (0, 0, 1), 0, false, fun _ => 0, fun _ => 1⟩,
    ⟨"Q", (0, 0, 1), 0, false, fun _ => 5, fun ns => ns + 4⟩,
    ⟨"q", (0, 0, 0), 0, false, fun _ => 0, fun _ => 4⟩,
    ⟨"q", (0, 0, -1), 0, false, fun _ => 0, fun _ => 4⟩,
    ⟨"q", (0, 0, -2), 0, false, fun _ => 1, fun _ => 4⟩,
    ⟨"q", (0, 0, 1), 0, false, fun _ => 0, fun _ => 4⟩,
    ⟨"facek", (0, 0, 0), 0, false, fun _ => 3, fun _ => 10⟩,
    ⟨"qh", (0, 0, 0), 0, false, fun _ => 3, fun _ => 5⟩,
    ⟨"qh", (0, 0, -1), 0, false, fun _ => 3, fun _ => 5⟩,
    ⟨"qh", (0, 0, -2), 0, false, fun _ => 4, fun _ => 5⟩,
    ⟨"qh", (0, 0, 1), 0, false, fun _ => 3, fun _ => 5⟩,
    ⟨"fluxk", (0, 0, 0), 0, false, fun _ => 0, fun ns => ns + 4⟩]

/-- `src/compute/advFlux/rusanov.cpp:18-87`, `rusanov` -/
def v14 : SKernel where
  dir := "advFlux"
  file := "advFlux/rusanov.cpp"
  line := 18
  func := "rusanov"
  box := some fun d e => [d.ng, d.ni + d.ng - 1 + (e.v 1).1, d.ng, d.nj + d.ng - 1 + (e.v 1).2.1, d.ng, d.nk + d.ng - 1 + (e.v 1).2.2]
  acc := [⟨"q", (0, 0, 0), 0, false, fun _ => 0, fun _ => 4⟩,
    ⟨"q", (0, 0, 0), -1, false, fun _ => 0, fun _ => 4⟩,
    ⟨"face", (0, 0, 0), 0, false, fun _ => 3, fun _ => 10⟩,
    ⟨"Q", (0, 0, 0), 0, false, fun _ => 0, fun _ => 1⟩,
    ⟨"Q", (0, 0, 0), 0, false, fun _ => 4, fun ns => ns + 4⟩,
    ⟨"Q", (0, 0, 0), -1, false, fun _ => 0, fun _ => 1⟩,
    ⟨"Q", (0, 0, 0), -1, false, fun _ => 4, fun ns => ns + 4⟩,
    ⟨"qh", (0, 0, 0), 0, false, fun _ => 3, fun _ => 4⟩,
    ⟨"qh", (0, 0, 0), -1, false, fun _ => 3, fun _ => 4⟩,
    ⟨"flux", (0, 0, 0), 0, false, fun _ => 0, fun ns => ns + 4⟩]

/-- `src/compute/advFlux/scalarDissipation.cpp:23-103`, `scalarDissipation` -/
def v15 : SKernel where
  dir := "advFlux"
  file := "advFlux/scalarDissipation.cpp"
  line := 23
  func := "scalarDissipation"
  box := some fun d e => [d.ng, d.ni + d.ng - 1 + (e.v 1).1, d.ng, d.nj + d.ng - 1 + (e.v 1).2.1, d.ng, d.nk + d.ng - 1 + (e.v 1).2.2]
  acc := [⟨"phi", (0, 0, 0), 0, false, fun _ => 0, fun _ => 3⟩,
    ⟨"phi", (0, 0, 0), -1, false, fun _ => 0, fun _ => 3⟩,
    ⟨"q", (0, 0, 0), 0, false, fun _ => 1, fun _ => 4⟩,
    ⟨"q", (0, 0, 0), -1, false, fun _ => 1, fun _ => 4⟩,
    ⟨"face", (0, 0, 0), 0, false, fun _ => 3, fun _ => 4⟩,
    ⟨"face", (0, 0, 0), 0, false, fun _ => 7, fun _ => 10⟩,
    ⟨"qh", (0, 0, 0), 0, false, fun _ => 3, fun _ => 4⟩,
    ⟨"qh", (0, 0, 0), -1, false, fun _ => 3, fun _ => 4⟩,
    ⟨"Q", (0, 0, 0), 0, false, fun _ => 0, fun ns => ns + 4⟩,
    ⟨"Q", (0, 0, 0), -1, false, fun _ => 0, fun ns => ns + 4⟩,
    ⟨"Q", (1, 0, 0), 0, false, fun _ => 0, fun ns => ns + 4⟩,
    ⟨"Q", (0, 0, 0), -2, false, fun _ => 0, fun ns => ns + 4⟩,
    ⟨"flux", (0, 0, 0), 0, false, fun _ => 0, fun ns => ns + 4⟩]

/-- `src/compute/chemistry/chem_C2H4_Air_Red22.cpp:59-3085`, `chem_C2H4_Air_Red22` -/
def v16 : SKernel where
  dir := "chemistry"
  file := "chemistry/chem_C2H4_Air_Red22.cpp"
  line := 59
  func := "chem_C2H4_Air_Red22"
  box := none
  acc := [⟨"q", (0, 0, 0), 0, false, fun _ => 0, fun _ => 1⟩,
    ⟨"q", (0, 0, 0), 0, false, fun _ => 4, fun _ => 26⟩,
    ⟨"Q", (0, 0, 0), 0, false, fun _ => 0, fun _ => 1⟩,
    ⟨"Q", (0, 0, 0), 0, false, fun _ => 5, fun _ => 26⟩,
    ⟨"dQ", (0, 0, 0), 0, false, fun _ => 5, fun _ => 26⟩,
    ⟨"omega", (0, 0, 0), 0, false, fun _ => 0, fun _ => 22⟩]

/-- `src/compute/chemistry/chem_C2H4_Air_Skeletal.cpp:69-2557`, `chem_C2H4_Air_Skeletal` -/
def v17 : SKernel where
  dir := "chemistry"
  file := "chemistry/chem_C2H4_Air_Skeletal.cpp"
  line := 69
  func := "chem_C2H4_Air_Skeletal"
  box := none
  acc := [⟨"q", (0, 0, 0), 0, false, fun _ => 4, fun _ => 36⟩,
    ⟨"Q", (0, 0, 0), 0, false, fun _ => 0, fun _ => 1⟩,
    ⟨"Q", (0, 0, 0), 0, false, fun _ => 5, fun _ => 36⟩,
    ⟨"dQ", (0, 0, 0), 0, false, fun _ => 5, fun _ => 36⟩,
    ⟨"omega", (0, 0, 0), 0, false, fun _ => 0, fun _ => 32⟩]

/-- `src/compute/chemistry/chem_CH4_O2_FFCMY.cpp:49-615`, `chem_CH4_O2_FFCMY` -/
def v18 : SKernel where
  dir := "chemistry"
  file := "chemistry/chem_CH4_O2_FFCMY.cpp"
  line := 49
  func := "chem_CH4_O2_FFCMY"
  box := none
  acc := [⟨"q", (0, 0, 0), 0, false, fun _ => 4, fun _ => 16⟩,
    ⟨"Q", (0, 0, 0), 0, false, fun _ => 0, fun _ => 1⟩,
    ⟨"Q", (0, 0, 0), 0, false, fun _ => 5, fun _ => 16⟩,
    ⟨"dQ", (0, 0, 0), 0, false, fun _ => 5, fun _ => 16⟩,
    ⟨"omega", (0, 0, 0), 0, false, fun _ => 0, fun _ => 12⟩]

/-- `src/compute/chemistry/chem_GRI30.cpp:86-3992`, `chem_GRI30` -/
def v19 : SKernel where
  dir := "chemistry"
  file := "chemistry/chem_GRI30.cpp"
  line := 86
  func := "chem_GRI30"
  box := none
  acc := [⟨"q", (0, 0, 0), 0, false, fun _ => 4, fun _ => 57⟩,
    ⟨"Q", (0, 0, 0), 0, false, fun _ => 0, fun _ => 1⟩,
    ⟨"Q", (0, 0, 0), 0, false, fun _ => 5, fun _ => 57⟩,
    ⟨"dQ", (0, 0, 0), 0, false, fun _ => 5, fun _ => 57⟩,
    ⟨"omega", (0, 0, 0), 0, false, fun _ => 0, fun _ => 53⟩]

/-- `src/compute/diffFlux/alphaDampingFlux.cpp:35-236`, `alphaDampingFlux` -/
def v20 : SKernel where
  dir := "diffFlux"
  file := "diffFlux/alphaDampingFlux.cpp"
  line := 35
  func := "alphaDampingFlux"
  box := some fun d e => [d.ng, d.ni + d.ng - 1 + (e.v 1).1, d.ng, d.nj + d.ng - 1 + (e.v 1).2.1, d.ng, d.nk + d.ng - 1 + (e.v 1).2.2]
  acc := [⟨"qt", (0, 0, 0), 0, false, fun ns => ns + 1, fun ns => ns + 2⟩,
    ⟨"qt", (0, 0, 0), 0, false, fun _ => 0, fun ns => ns + 1⟩,
    ⟨"qt", (0, 0, 0), -1, false, fun ns => ns + 1, fun ns => ns + 2⟩,
    ⟨"qt", (0, 0, 0), -1, false, fun _ => 0, fun ns => ns + 1⟩,
    ⟨"flux", (0, 0, 0), 0, false, fun _ => 0, fun ns => ns + 4⟩,
    ⟨"centre", (0, 0, 0), 0, false, fun _ => 0, fun _ => 3⟩,
    ⟨"centre", (0, 0, 0), -1, false, fun _ => 0, fun _ => 3⟩,
    ⟨"face", (0, 0, 0), 0, false, fun _ => 0, fun _ => 3⟩,
    ⟨"face", (0, 0, 0), 0, false, fun _ => 4, fun _ => 10⟩,
    ⟨"grad", (0, 0, 0), -1, false, fun _ => 1, fun ns => ns + 4⟩,
    ⟨"q", (0, 0, 0), -1, false, fun _ => 1, fun ns => ns + 4⟩,
    ⟨"grad", (0, 0, 0), 0, false, fun _ => 1, fun ns => ns + 4⟩,
    ⟨"q", (0, 0, 0), 0, false, fun _ => 1, fun ns => ns + 4⟩,
    ⟨"Q", (0, 0, 0), 0, false, fun _ => 0, fun _ => 1⟩,
    ⟨"Q", (0, 0, 0), -1, false, fun _ => 0, fun _ => 1⟩,
    ⟨"qh", (0, 0, 0), 0, false, fun _ => 5, fun ns => ns + 4⟩,
    ⟨"qh", (0, 0, 0), 0, false, fun ns => ns + 4, fun ns => ns + 5⟩,
    ⟨"qh", (0, 0, 0), -1, false, fun _ => 5, fun ns => ns + 4⟩,
    ⟨"qh", (0, 0, 0), -1, false, fun ns => ns + 4, fun ns => ns + 5⟩]

/-- `src/compute/subgrid/mixedScaleModel.cpp:23-104`, `mixedScaleModel` -/
def v21 : SKernel where
  dir := "subgrid"
  file := "subgrid/mixedScaleModel.cpp"
  line := 23
  func := "mixedScaleModel"
  box := some fun d _ => [d.ng - 1, d.ni + d.ng, d.ng - 1, d.nj + d.ng, d.ng - 1, d.nk + d.ng]
  acc := [⟨"q", (0, 0, 0), 0, false, fun _ => 1, fun _ => 4⟩,
    ⟨"grad", (0, 0, 0), 0, false, fun _ => 1, fun _ => 4⟩,
    ⟨"q", (-1, 0, 0), 0, false, fun _ => 1, fun _ => 4⟩,
    ⟨"q", (1, 0, 0), 0, false, fun _ => 1, fun _ => 4⟩,
    ⟨"q", (0, -1, 0), 0, false, fun _ => 1, fun _ => 4⟩,
    ⟨"q", (0, 1, 0), 0, false, fun _ => 1, fun _ => 4⟩,
    ⟨"q", (0, 0, -1), 0, false, fun _ => 1, fun _ => 4⟩,
    ⟨"q", (0, 0, 1), 0, false, fun _ => 1, fun _ => 4⟩,
    ⟨"J", (0, 0, 0), 0, false, fun _ => 0, fun _ => 1⟩,
    ⟨"Q", (0, 0, 0), 0, false, fun _ => 0, fun _ => 1⟩,
    ⟨"qt", (0, 0, 0), 0, false, fun _ => 0, fun ns => ns + 2⟩,
    ⟨"qh", (0, 0, 0), 0, false, fun _ => 1, fun _ => 2⟩]

/-- `src/compute/subgrid/smagorinsky.cpp:23-76`, `smagorinsky` -/
def v22 : SKernel where
  dir := "subgrid"
  file := "subgrid/smagorinsky.cpp"
  line := 23
  func := "smagorinsky"
  box := some fun d _ => [d.ng - 1, d.ni + d.ng, d.ng - 1, d.nj + d.ng, d.ng - 1, d.nk + d.ng]
  acc := [⟨"grad", (0, 0, 0), 0, false, fun _ => 1, fun _ => 4⟩,
    ⟨"J", (0, 0, 0), 0, false, fun _ => 0, fun _ => 1⟩,
    ⟨"Q", (0, 0, 0), 0, false, fun _ => 0, fun _ => 1⟩,
    ⟨"qt", (0, 0, 0), 0, false, fun _ => 0, fun ns => ns + 2⟩,
    ⟨"qh", (0, 0, 0), 0, false, fun _ => 1, fun _ => 2⟩]

/-- `src/compute/switches/jameson.cpp:14-34`, `jamesonPressure` -/
def v23 : SKernel where
  dir := "switches"
  file := "switches/jameson.cpp"
  line := 14
  func := "jamesonPressure"
  box := some fun d _ => [d.ng, d.ni + d.ng - 1, d.ng, d.nj + d.ng - 1, d.ng, d.nk + d.ng - 1]
  acc := [⟨"q", (0, 0, 0), 0, false, fun _ => 0, fun _ => 1⟩,
    ⟨"q", (1, 0, 0), 0, false, fun _ => 0, fun _ => 1⟩,
    ⟨"q", (-1, 0, 0), 0, false, fun _ => 0, fun _ => 1⟩,
    ⟨"q", (0, 1, 0), 0, false, fun _ => 0, fun _ => 1⟩,
    ⟨"q", (0, -1, 0), 0, false, fun _ => 0, fun _ => 1⟩,
    ⟨"q", (0, 0, 1), 0, false, fun _ => 0, fun _ => 1⟩,
    ⟨"q", (0, 0, -1), 0, false, fun _ => 0, fun _ => 1⟩,
    ⟨"phi", (0, 0, 0), 0, false, fun _ => 0, fun _ => 3⟩]

/-- `src/compute/switches/vanAlbada.cpp:14-34`, `vanAlbadaPressure` -/
def v24 : SKernel where
  dir := "switches"
  file := "switches/vanAlbada.cpp"
  line := 14
  func := "vanAlbadaPressure"
  box := some fun d _ => [d.ng, d.ni + d.ng - 1, d.ng, d.nj + d.ng - 1, d.ng, d.nk + d.ng - 1]
  acc := [⟨"q", (0, 0, 0), 0, false, fun _ => 0, fun _ => 1⟩,
    ⟨"q", (1, 0, 0), 0, false, fun _ => 0, fun _ => 1⟩,
    ⟨"q", (-1, 0, 0), 0, false, fun _ => 0, fun _ => 1⟩,
    ⟨"q", (0, 1, 0), 0, false, fun _ => 0, fun _ => 1⟩,
    ⟨"q", (0, -1, 0), 0, false, fun _ => 0, fun _ => 1⟩,
    ⟨"q", (0, 0, 1), 0, false, fun _ => 0, fun _ => 1⟩,
    ⟨"q", (0, 0, -1), 0, false, fun _ => 0, fun _ => 1⟩,
    ⟨"phi", (0, 0, 0), 0, false, fun _ => 0, fun _ => 3⟩]

/-- `src/compute/switches/vanLeer.cpp:14-42`, `vanLeer` -/
def v25 : SKernel where
  dir := "switches"
  file := "switches/vanLeer.cpp"
  line := 14
  func := "vanLeer"
  box := some fun d _ => [d.ng, d.ni + d.ng - 1, d.ng, d.nj + d.ng - 1, d.ng, d.nk + d.ng - 1]
  acc := [⟨"q", (0, 0, 0), 0, false, fun _ => 0, fun _ => 1⟩,
    ⟨"q", (1, 0, 0), 0, false, fun _ => 0, fun _ => 1⟩,
    ⟨"q", (-1, 0, 0), 0, false, fun _ => 0, fun _ => 1⟩,
    ⟨"q", (0, 1, 0), 0, false, fun _ => 0, fun _ => 1⟩,
    ⟨"q", (0, -1, 0), 0, false, fun _ => 0, fun _ => 1⟩,
    ⟨"q", (0, 0, 1), 0, false, fun _ => 0, fun _ => 1⟩,
    ⟨"q", (0, 0, -1), 0, false, fun _ => 0, fun _ => 1⟩,
    ⟨"phi", (0, 0, 0), 0, false, fun _ => 0, fun _ => 3⟩]

/-- `src/compute/thermo/cpg.cpp:35-134`, `cpg` -/
def v26 : SKernel where
  dir := "thermo"
  file := "thermo/cpg.cpp"
  line := 35
  func := "cpg"
  box := none
  acc := [⟨"q", (0, 0, 0), 0, false, fun _ => 0, fun ns => ns + 4⟩,
    ⟨"Q", (0, 0, 0), 0, false, fun _ => 0, fun ns => ns + 4⟩,
    ⟨"qh", (0, 0, 0), 0, false, fun _ => 0, fun ns => ns + 5⟩]

/-- `src/compute/thermo/cpg.cpp:138-232`, `cpg` -/
def v27 : SKernel where
  dir := "thermo"
  file := "thermo/cpg.cpp"
  line := 138
  func := "cpg"
  box := none
  acc := [⟨"Q", (0, 0, 0), 0, false, fun _ => 0, fun ns => ns + 4⟩,
    ⟨"q", (0, 0, 0), 0, false, fun _ => 0, fun ns => ns + 4⟩,
    ⟨"qh", (0, 0, 0), 0, false, fun _ => 0, fun ns => ns + 5⟩]

/-- `src/compute/thermo/cubic.cpp:78-354`, `cubic` -/
def v28 : SKernel where
  dir := "thermo"
  file := "thermo/cubic.cpp"
  line := 78
  func := "cubic"
  box := none
  acc := [⟨"q", (0, 0, 0), 0, false, fun _ => 0, fun ns => ns + 4⟩,
    ⟨"Q", (0, 0, 0), 0, false, fun _ => 0, fun ns => ns + 4⟩,
    ⟨"qh", (0, 0, 0), 0, false, fun _ => 0, fun ns => ns + 5⟩]

/-- `src/compute/thermo/cubic.cpp:360-653`, `cubic` -/
def v29 : SKernel where
  dir := "thermo"
  file := "thermo/cubic.cpp"
  line := 360
  func := "cubic"
  box := none
  acc := [⟨"Q", (0, 0, 0), 0, false, fun _ => 0, fun ns => ns + 4⟩,
    ⟨"q", (0, 0, 0), 0, false, fun _ => 0, fun ns => ns + 4⟩,
    ⟨"qh", (0, 0, 0), 0, false, fun _ => 0, fun ns => ns + 5⟩]

/-- `src/compute/thermo/tpg.cpp:38-169`, `tpg` -/
def v30 : SKernel where
  dir := "thermo"
  file := "thermo/tpg.cpp"
  line := 38
  func := "tpg"
  box := none
  acc := [⟨"q", (0, 0, 0), 0, false, fun _ => 0, fun ns => ns + 4⟩,
    ⟨"Q", (0, 0, 0), 0, false, fun _ => 0, fun ns => ns + 4⟩,
    ⟨"qh", (0, 0, 0), 0, false, fun _ => 0, fun ns => ns + 5⟩]

/-- `src/compute/thermo/tpg.cpp:175-313`, `tpg` -/
def v31 : SKernel where
  dir := "thermo"
  file := "thermo/tpg.cpp"
  line := 175
  func := "tpg"
  box := none
  acc := [⟨"Q", (0, 0, 0), 0, false, fun _ => 0, fun ns => ns + 4⟩,
    ⟨"q", (0, 0, 0), 0, false, fun _ => 0, fun ns => ns + 4⟩,
    ⟨"qh", (0, 0, 0), 0, false, fun _ => 0, fun ns => ns + 5⟩]

/-- `src/compute/timeIntegration/dualTime.cpp:29-33`, `dQdt` -/
def v32 : SKernel where
  dir := "timeIntegration"
  file := "timeIntegration/dualTime.cpp"
  line := 29
  func := "dQdt"
  box := some fun d _ => [d.ng, d.ni + d.ng - 1, d.ng, d.nj + d.ng - 1, d.ng, d.nk + d.ng - 1]
  acc := [⟨"dQ", (0, 0, 0), 0, false, fun _ => 0, fun ns => ns + 4⟩,
    ⟨"Q", (0, 0, 0), 0, false, fun _ => 0, fun ns => ns + 4⟩,
    ⟨"Qn", (0, 0, 0), 0, false, fun _ => 0, fun ns => ns + 4⟩,
    ⟨"Qnm1", (0, 0, 0), 0, false, fun _ => 0, fun ns => ns + 4⟩]

/-- `src/compute/timeIntegration/dualTime.cpp:57-104`, `localDtau` -/
def v33 : SKernel where
  dir := "timeIntegration"
  file := "timeIntegration/dualTime.cpp"
  line := 57
  func := "localDtau"
  box := some fun d _ => [d.ng, d.ni + d.ng - 1, d.ng, d.nj + d.ng - 1, d.ng, d.nk + d.ng - 1]
  acc := [⟨"facei", (1, 0, 0), 0, false, fun _ => 0, fun _ => 3⟩,
    ⟨"facei", (1, 0, 0), 0, false, fun _ => 7, fun _ => 10⟩,
    ⟨"facei", (0, 0, 0), 0, false, fun _ => 0, fun _ => 3⟩,
    ⟨"facei", (0, 0, 0), 0, false, fun _ => 7, fun _ => 10⟩,
    ⟨"facej", (0, 1, 0), 0, false, fun _ => 0, fun _ => 3⟩,
    ⟨"facej", (0, 1, 0), 0, false, fun _ => 7, fun _ => 10⟩,
    ⟨"facej", (0, 0, 0), 0, false, fun _ => 0, fun _ => 3⟩,
    ⟨"facej", (0, 0, 0), 0, false, fun _ => 7, fun _ => 10⟩,
    ⟨"facek", (0, 0, 1), 0, false, fun _ => 0, fun _ => 3⟩,
    ⟨"facek", (0, 0, 1), 0, false, fun _ => 7, fun _ => 10⟩,
    ⟨"facek", (0, 0, 0), 0, false, fun _ => 0, fun _ => 3⟩,
    ⟨"facek", (0, 0, 0), 0, false, fun _ => 7, fun _ => 10⟩,
    ⟨"q", (0, 0, 0), 0, false, fun _ => 1, fun _ => 4⟩,
    ⟨"qh", (0, 0, 0), 0, false, fun _ => 3, fun _ => 4⟩,
    ⟨"qt", (0, 0, 0), 0, true, fun _ => 0, fun _ => 1⟩,
    ⟨"Q", (0, 0, 0), 0, true, fun _ => 0, fun _ => 1⟩,
    ⟨"dtau", (0, 0, 0), 0, false, fun _ => 0, fun _ => 1⟩]

/-- `src/compute/timeIntegration/dualTime.cpp:115-119`, `DTrk3s1` -/
def v34 : SKernel where
  dir := "timeIntegration"
  file := "timeIntegration/dualTime.cpp"
  line := 115
  func := "DTrk3s1"
  box := some fun d _ => [d.ng, d.ni + d.ng - 1, d.ng, d.nj + d.ng - 1, d.ng, d.nk + d.ng - 1]
  acc := [⟨"Q0", (0, 0, 0), 0, false, fun _ => 0, fun ns => ns + 4⟩,
    ⟨"q", (0, 0, 0), 0, false, fun _ => 0, fun ns => ns + 4⟩,
    ⟨"dtau", (0, 0, 0), 0, false, fun _ => 0, fun _ => 1⟩,
    ⟨"dQ", (0, 0, 0), 0, false, fun _ => 0, fun ns => ns + 4⟩]

/-- `src/compute/timeIntegration/dualTime.cpp:130-133`, `DTrk3s2` -/
def v35 : SKernel where
  dir := "timeIntegration"
  file := "timeIntegration/dualTime.cpp"
  line := 130
  func := "DTrk3s2"
  box := some fun d _ => [d.ng, d.ni + d.ng - 1, d.ng, d.nj + d.ng - 1, d.ng, d.nk + d.ng - 1]
  acc := [⟨"q", (0, 0, 0), 0, false, fun _ => 0, fun ns => ns + 4⟩,
    ⟨"Q0", (0, 0, 0), 0, false, fun _ => 0, fun ns => ns + 4⟩,
    ⟨"dQ", (0, 0, 0), 0, false, fun _ => 0, fun ns => ns + 4⟩,
    ⟨"dtau", (0, 0, 0), 0, false, fun _ => 0, fun _ => 1⟩]

/-- `src/compute/timeIntegration/dualTime.cpp:144-148`, `DTrk3s3` -/
def v36 : SKernel where
  dir := "timeIntegration"
  file := "timeIntegration/dualTime.cpp"
  line := 144
  func := "DTrk3s3"
  box := some fun d _ => [d.ng, d.ni + d.ng - 1, d.ng, d.nj + d.ng - 1, d.ng, d.nk + d.ng - 1]
  acc := [⟨"q", (0, 0, 0), 0, false, fun _ => 0, fun ns => ns + 4⟩,
    ⟨"Q0", (0, 0, 0), 0, false, fun _ => 0, fun ns => ns + 4⟩,
    ⟨"dQ", (0, 0, 0), 0, false, fun _ => 0, fun ns => ns + 4⟩,
    ⟨"dtau", (0, 0, 0), 0, false, fun _ => 0, fun _ => 1⟩]

/-- `src/compute/timeIntegration/dualTime.cpp:173-204`, `residual` -/
def v37 : SKernel where
  dir := "timeIntegration"
  file := "timeIntegration/dualTime.cpp"
  line := 173
  func := "residual"
  box := some fun d _ => [d.ng, d.ni + d.ng - 1, d.ng, d.nj + d.ng - 1, d.ng, d.nk + d.ng - 1]
  acc := [⟨"q", (0, 0, 0), 0, false, fun _ => 0, fun _ => 5⟩,
    ⟨"Q0", (0, 0, 0), 0, false, fun _ => 0, fun _ => 5⟩]

/-- `src/compute/timeIntegration/dualTime.cpp:229-235`, `residual` -/
def v38 : SKernel where
  dir := "timeIntegration"
  file := "timeIntegration/dualTime.cpp"
  line := 229
  func := "residual"
  box := some fun d _ => [d.ng, d.ni + d.ng - 1, d.ng, d.nj + d.ng - 1, d.ng, d.nk + d.ng - 1]
  acc := [⟨"q", (0, 0, 0), 0, false, fun _ => 5, fun ns => ns + 4⟩,
    ⟨"Q0", (0, 0, 0), 0, false, fun _ => 5, fun ns => ns + 4⟩]

/-- `src/compute/timeIntegration/dualTime.cpp:310-593`, `invertDQ` -/
def v39 : SKernel where
  dir := "timeIntegration"
  file := "timeIntegration/dualTime.cpp"
  line := 310
  func := "invertDQ"
  box := some fun d _ => [d.ng, d.ni + d.ng - 1, d.ng, d.nj + d.ng - 1, d.ng, d.nk + d.ng - 1]
  acc := [⟨"q", (0, 0, 0), 0, false, fun _ => 0, fun ns => ns + 4⟩,
    ⟨"Q", (0, 0, 0), 0, false, fun _ => 0, fun _ => 1⟩,
    ⟨"qh", (0, 0, 0), 0, false, fun _ => 5, fun ns => ns + 4⟩,
    ⟨"qh", (0, 0, 0), 0, false, fun ns => ns + 4, fun ns => ns + 5⟩,
    ⟨"qh", (0, 0, 0), 0, false, fun _ => 1, fun _ => 4⟩,
    ⟨"dtau", (0, 0, 0), 0, false, fun _ => 0, fun _ => 1⟩,
    ⟨"facei", (1, 0, 0), 0, true, fun _ => 0, fun _ => 3⟩,
    ⟨"facei", (0, 0, 0), 0, true, fun _ => 0, fun _ => 3⟩,
    ⟨"facej", (0, 1, 0), 0, true, fun _ => 0, fun _ => 3⟩,
    ⟨"facej", (0, 0, 0), 0, true, fun _ => 0, fun _ => 3⟩,
    ⟨"facek", (0, 0, 1), 0, true, fun _ => 0, fun _ => 3⟩,
    ⟨"facek", (0, 0, 0), 0, true, fun _ => 0, fun _ => 3⟩,
    ⟨"qt", (0, 0, 0), 0, true, fun _ => 0, fun _ => 1⟩,
    ⟨"Q", (0, 0, 0), 0, true, fun _ => 0, fun _ => 1⟩,
    ⟨"dQ", (0, 0, 0), 0, false, fun _ => 0, fun ns => ns + 4⟩]

/-- `src/compute/timeIntegration/maccormackStages.cpp:13-16`, `corrector` -/
def v40 : SKernel where
  dir := "timeIntegration"
  file := "timeIntegration/maccormackStages.cpp"
  line := 13
  func := "corrector"
  box := some fun d _ => [d.ng, d.ni + d.ng - 1, d.ng, d.nj + d.ng - 1, d.ng, d.nk + d.ng - 1]
  acc := [⟨"Q", (0, 0, 0), 0, false, fun _ => 0, fun ns => ns + 4⟩,
    ⟨"Q0", (0, 0, 0), 0, false, fun _ => 0, fun ns => ns + 4⟩,
    ⟨"dQ", (0, 0, 0), 0, false, fun _ => 0, fun ns => ns + 4⟩]

/-- `src/compute/timeIntegration/rk2Stages.cpp:13-17`, `rk2s1` -/
def v41 : SKernel where
  dir := "timeIntegration"
  file := "timeIntegration/rk2Stages.cpp"
  line := 13
  func := "rk2s1"
  box := some fun d _ => [d.ng, d.ni + d.ng - 1, d.ng, d.nj + d.ng - 1, d.ng, d.nk + d.ng - 1]
  acc := [⟨"Q0", (0, 0, 0), 0, false, fun _ => 0, fun ns => ns + 4⟩,
    ⟨"Q", (0, 0, 0), 0, false, fun _ => 0, fun ns => ns + 4⟩,
    ⟨"dQ", (0, 0, 0), 0, false, fun _ => 0, fun ns => ns + 4⟩]

/-- `src/compute/timeIntegration/rk2Stages.cpp:28-31`, `rk2s2` -/
def v42 : SKernel where
  dir := "timeIntegration"
  file := "timeIntegration/rk2Stages.cpp"
  line := 28
  func := "rk2s2"
  box := some fun d _ => [d.ng, d.ni + d.ng - 1, d.ng, d.nj + d.ng - 1, d.ng, d.nk + d.ng - 1]
  acc := [⟨"Q", (0, 0, 0), 0, false, fun _ => 0, fun ns => ns + 4⟩,
    ⟨"Q0", (0, 0, 0), 0, false, fun _ => 0, fun ns => ns + 4⟩,
    ⟨"dQ", (0, 0, 0), 0, false, fun _ => 0, fun ns => ns + 4⟩]

/-- `src/compute/timeIntegration/rk34Stages.cpp:13-17`, `rk34s1` -/
def v43 : SKernel where
  dir := "timeIntegration"
  file := "timeIntegration/rk34Stages.cpp"
  line := 13
  func := "rk34s1"
  box := some fun d _ => [d.ng, d.ni + d.ng - 1, d.ng, d.nj + d.ng - 1, d.ng, d.nk + d.ng - 1]
  acc := [⟨"Q0", (0, 0, 0), 0, false, fun _ => 0, fun ns => ns + 4⟩,
    ⟨"Q", (0, 0, 0), 0, false, fun _ => 0, fun ns => ns + 4⟩,
    ⟨"dQ", (0, 0, 0), 0, false, fun _ => 0, fun ns => ns + 4⟩]

/-- `src/compute/timeIntegration/rk34Stages.cpp:28-30`, `rk34s2` -/
def v44 : SKernel where
  dir := "timeIntegration"
  file := "timeIntegration/rk34Stages.cpp"
  line := 28
  func := "rk34s2"
  box := some fun d _ => [d.ng, d.ni + d.ng - 1, d.ng, d.nj + d.ng - 1, d.ng, d.nk + d.ng - 1]
  acc := [⟨"Q", (0, 0, 0), 0, false, fun _ => 0, fun ns => ns + 4⟩,
    ⟨"dQ", (0, 0, 0), 0, false, fun _ => 0, fun ns => ns + 4⟩]

/-- `src/compute/timeIntegration/rk34Stages.cpp:41-45`, `rk34s3` -/
def v45 : SKernel where
  dir := "timeIntegration"
  file := "timeIntegration/rk34Stages.cpp"
  line := 41
  func := "rk34s3"
  box := some fun d _ => [d.ng, d.ni + d.ng - 1, d.ng, d.nj + d.ng - 1, d.ng, d.nk + d.ng - 1]
  acc := [⟨"Q", (0, 0, 0), 0, false, fun _ => 0, fun ns => ns + 4⟩,
    ⟨"Q0", (0, 0, 0), 0, false, fun _ => 0, fun ns => ns + 4⟩,
    ⟨"dQ", (0, 0, 0), 0, false, fun _ => 0, fun ns => ns + 4⟩]

/-- `src/compute/timeIntegration/rk34Stages.cpp:56-58`, `rk34s4` -/
def v46 : SKernel where
  dir := "timeIntegration"
  file := "timeIntegration/rk34Stages.cpp"
  line := 56
  func := "rk34s4"
  box := some fun d _ => [d.ng, d.ni + d.ng - 1, d.ng, d.nj + d.ng - 1, d.ng, d.nk + d.ng - 1]
  acc := [⟨"Q", (0, 0, 0), 0, false, fun _ => 0, fun ns => ns + 4⟩,
    ⟨"dQ", (0, 0, 0), 0, false, fun _ => 0, fun ns => ns + 4⟩]

/-- `src/compute/timeIntegration/rk3Stages.cpp:13-17`, `rk3s1` -/
def v47 : SKernel where
  dir := "timeIntegration"
  file := "timeIntegration/rk3Stages.cpp"
  line := 13
  func := "rk3s1"
  box := some fun d _ => [d.ng, d.ni + d.ng - 1, d.ng, d.nj + d.ng - 1, d.ng, d.nk + d.ng - 1]
  acc := [⟨"Q0", (0, 0, 0), 0, false, fun _ => 0, fun ns => ns + 4⟩,
    ⟨"Q", (0, 0, 0), 0, false, fun _ => 0, fun ns => ns + 4⟩,
    ⟨"dQ", (0, 0, 0), 0, false, fun _ => 0, fun ns => ns + 4⟩]

/-- `src/compute/timeIntegration/rk3Stages.cpp:28-31`, `rk3s2` -/
def v48 : SKernel where
  dir := "timeIntegration"
  file := "timeIntegration/rk3Stages.cpp"
  line := 28
  func := "rk3s2"
  box := some fun d _ => [d.ng, d.ni + d.ng - 1, d.ng, d.nj + d.ng - 1, d.ng, d.nk + d.ng - 1]
  acc := [⟨"Q", (0, 0, 0), 0, false, fun _ => 0, fun ns => ns + 4⟩,
    ⟨"Q0", (0, 0, 0), 0, false, fun _ => 0, fun ns => ns + 4⟩,
    ⟨"dQ", (0, 0, 0), 0, false, fun _ => 0, fun ns => ns + 4⟩]

/-- `src/compute/timeIntegration/rk3Stages.cpp:42-46`, `rk3s3` -/
def v49 : SKernel where
  dir := "timeIntegration"
  file := "timeIntegration/rk3Stages.cpp"
  line := 42
  func := "rk3s3"
  box := some fun d _ => [d.ng, d.ni + d.ng - 1, d.ng, d.nj + d.ng - 1, d.ng, d.nk + d.ng - 1]
  acc := [⟨"Q", (0, 0, 0), 0, false, fun _ => 0, fun ns => ns + 4⟩,
    ⟨"Q0", (0, 0, 0), 0, false, fun _ => 0, fun ns => ns + 4⟩,
    ⟨"dQ", (0, 0, 0), 0, false, fun _ => 0, fun ns => ns + 4⟩]

/-- `src/compute/timeIntegration/rk4Stages.cpp:13-18`, `rk4s1` -/
def v50 : SKernel where
  dir := "timeIntegration"
  file := "timeIntegration/rk4Stages.cpp"
  line := 13
  func := "rk4s1"
  box := some fun d _ => [d.ng, d.ni + d.ng - 1, d.ng, d.nj + d.ng - 1, d.ng, d.nk + d.ng - 1]
  acc := [⟨"Q0", (0, 0, 0), 0, false, fun _ => 0, fun ns => ns + 4⟩,
    ⟨"Q", (0, 0, 0), 0, false, fun _ => 0, fun ns => ns + 4⟩,
    ⟨"Q1", (0, 0, 0), 0, false, fun _ => 0, fun ns => ns + 4⟩,
    ⟨"dQ", (0, 0, 0), 0, false, fun _ => 0, fun ns => ns + 4⟩]

/-- `src/compute/timeIntegration/rk4Stages.cpp:29-32`, `rk4s2` -/
def v51 : SKernel where
  dir := "timeIntegration"
  file := "timeIntegration/rk4Stages.cpp"
  line := 29
  func := "rk4s2"
  box := some fun d _ => [d.ng, d.ni + d.ng - 1, d.ng, d.nj + d.ng - 1, d.ng, d.nk + d.ng - 1]
  acc := [⟨"Q2", (0, 0, 0), 0, false, fun _ => 0, fun ns => ns + 4⟩,
    ⟨"dQ", (0, 0, 0), 0, false, fun _ => 0, fun ns => ns + 4⟩,
    ⟨"Q", (0, 0, 0), 0, false, fun _ => 0, fun ns => ns + 4⟩,
    ⟨"Q0", (0, 0, 0), 0, false, fun _ => 0, fun ns => ns + 4⟩]

/-- `src/compute/timeIntegration/rk4Stages.cpp:43-46`, `rk4s3` -/
def v52 : SKernel where
  dir := "timeIntegration"
  file := "timeIntegration/rk4Stages.cpp"
  line := 43
  func := "rk4s3"
  box := some fun d _ => [d.ng, d.ni + d.ng - 1, d.ng, d.nj + d.ng - 1, d.ng, d.nk + d.ng - 1]
  acc := [⟨"Q3", (0, 0, 0), 0, false, fun _ => 0, fun ns => ns + 4⟩,
    ⟨"dQ", (0, 0, 0), 0, false, fun _ => 0, fun ns => ns + 4⟩,
    ⟨"Q", (0, 0, 0), 0, false, fun _ => 0, fun ns => ns + 4⟩,
    ⟨"Q0", (0, 0, 0), 0, false, fun _ => 0, fun ns => ns + 4⟩]

/-- `src/compute/timeIntegration/rk4Stages.cpp:57-62`, `rk4s4` -/
def v53 : SKernel where
  dir := "timeIntegration"
  file := "timeIntegration/rk4Stages.cpp"
  line := 57
  func := "rk4s4"
  box := some fun d _ => [d.ng, d.ni + d.ng - 1, d.ng, d.nj + d.ng - 1, d.ng, d.nk + d.ng - 1]
  acc := [⟨"Q", (0, 0, 0), 0, false, fun _ => 0, fun ns => ns + 4⟩,
    ⟨"Q0", (0, 0, 0), 0, false, fun _ => 0, fun ns => ns + 4⟩,
    ⟨"Q1", (0, 0, 0), 0, false, fun _ => 0, fun ns => ns + 4⟩,
    ⟨"Q2", (0, 0, 0), 0, false, fun _ => 0, fun ns => ns + 4⟩,
    ⟨"Q3", (0, 0, 0), 0, false, fun _ => 0, fun ns => ns + 4⟩,
    ⟨"dQ", (0, 0, 0), 0, false, fun _ => 0, fun ns => ns + 4⟩]

/-- `src/compute/transport/chungDenseGasUnityLewis.cpp:53-215`, `chungDenseGasUnityLewis` -/
def v54 : SKernel where
  dir := "transport"
  file := "transport/chungDenseGasUnityLewis.cpp"
  line := 53
  func := "chungDenseGasUnityLewis"
  box := none
  acc := [⟨"q", (0, 0, 0), 0, false, fun _ => 4, fun ns => ns + 4⟩,
    ⟨"Q", (0, 0, 0), 0, false, fun _ => 0, fun _ => 1⟩,
    ⟨"qh", (0, 0, 0), 0, false, fun _ => 0, fun _ => 2⟩,
    ⟨"qt", (0, 0, 0), 0, false, fun _ => 0, fun ns => ns + 2⟩]

/-- `src/compute/transport/constantProps.cpp:32-101`, `constantProps` -/
def v55 : SKernel where
  dir := "transport"
  file := "transport/constantProps.cpp"
  line := 32
  func := "constantProps"
  box := none
  acc := [⟨"q", (0, 0, 0), 0, false, fun _ => 5, fun ns => ns + 4⟩,
    ⟨"qt", (0, 0, 0), 0, false, fun _ => 0, fun ns => ns + 2⟩,
    ⟨"Q", (0, 0, 0), 0, false, fun _ => 0, fun _ => 1⟩,
    ⟨"qh", (0, 0, 0), 0, false, fun _ => 1, fun _ => 2⟩]

/-- `src/compute/transport/kineticTheory.cpp:46-186`, `kineticTheory` -/
def v56 : SKernel where
  dir := "transport"
  file := "transport/kineticTheory.cpp"
  line := 46
  func := "kineticTheory"
  box := none
  acc := [⟨"q", (0, 0, 0), 0, false, fun _ => 0, fun _ => 1⟩,
    ⟨"q", (0, 0, 0), 0, false, fun _ => 4, fun ns => ns + 4⟩,
    ⟨"qt", (0, 0, 0), 0, false, fun _ => 0, fun ns => ns + 2⟩]

/-- `src/compute/transport/kineticTheoryUnityLewis.cpp:41-135`, `kineticTheoryUnityLewis` -/
def v57 : SKernel where
  dir := "transport"
  file := "transport/kineticTheoryUnityLewis.cpp"
  line := 41
  func := "kineticTheoryUnityLewis"
  box := none
  acc := [⟨"q", (0, 0, 0), 0, false, fun _ => 4, fun ns => ns + 4⟩,
    ⟨"qt", (0, 0, 0), 0, false, fun _ => 0, fun ns => ns + 2⟩,
    ⟨"Q", (0, 0, 0), 0, false, fun _ => 0, fun _ => 1⟩,
    ⟨"qh", (0, 0, 0), 0, false, fun _ => 1, fun _ => 2⟩]

/-- `src/compute/utils/applyFluxes.cpp:15-24`, `applyFlux` -/
def v58 : SKernel where
  dir := "utils"
  file := "utils/applyFluxes.cpp"
  line := 15
  func := "applyFlux"
  box := some fun d _ => [d.ng, d.ni + d.ng - 1, d.ng, d.nj + d.ng - 1, d.ng, d.nk + d.ng - 1]
  acc := [⟨"dQ", (0, 0, 0), 0, false, fun _ => 0, fun ns => ns + 4⟩,
    ⟨"fluxi", (0, 0, 0), 0, false, fun _ => 0, fun ns => ns + 4⟩,
    ⟨"fluxj", (0, 0, 0), 0, false, fun _ => 0, fun ns => ns + 4⟩,
    ⟨"fluxk", (0, 0, 0), 0, false, fun _ => 0, fun ns => ns + 4⟩,
    ⟨"J", (0, 0, 0), 0, false, fun _ => 0, fun _ => 1⟩,
    ⟨"fluxi", (1, 0, 0), 0, false, fun _ => 0, fun ns => ns + 4⟩,
    ⟨"fluxj", (0, 1, 0), 0, false, fun _ => 0, fun ns => ns + 4⟩,
    ⟨"fluxk", (0, 0, 1), 0, false, fun _ => 0, fun ns => ns + 4⟩]

/-- `src/compute/utils/applyFluxes.cpp:36-61`, `applyHybridFlux` -/
def v59 : SKernel where
  dir := "utils"
  file := "utils/applyFluxes.cpp"
  line := 36
  func := "applyHybridFlux"
  box := some fun d _ => [d.ng, d.ni + d.ng - 1, d.ng, d.nj + d.ng - 1, d.ng, d.nk + d.ng - 1]
  acc := [⟨"phi", (0, 0, 0), 0, false, fun _ => 0, fun _ => 3⟩,
    ⟨"phi", (-1, 0, 0), 0, false, fun _ => 0, fun _ => 1⟩,
    ⟨"phi", (1, 0, 0), 0, false, fun _ => 0, fun _ => 1⟩,
    ⟨"phi", (0, -1, 0), 0, false, fun _ => 1, fun _ => 2⟩,
    ⟨"phi", (0, 1, 0), 0, false, fun _ => 1, fun _ => 2⟩,
    ⟨"phi", (0, 0, -1), 0, false, fun _ => 2, fun _ => 3⟩,
    ⟨"phi", (0, 0, 1), 0, false, fun _ => 2, fun _ => 3⟩,
    ⟨"dQ", (0, 0, 0), 0, false, fun _ => 0, fun ns => ns + 4⟩,
    ⟨"fluxi", (0, 0, 0), 0, false, fun _ => 0, fun ns => ns + 4⟩,
    ⟨"fluxj", (0, 0, 0), 0, false, fun _ => 0, fun ns => ns + 4⟩,
    ⟨"fluxk", (0, 0, 0), 0, false, fun _ => 0, fun ns => ns + 4⟩,
    ⟨"J", (0, 0, 0), 0, false, fun _ => 0, fun _ => 1⟩,
    ⟨"fluxi", (1, 0, 0), 0, false, fun _ => 0, fun ns => ns + 4⟩,
    ⟨"fluxj", (0, 1, 0), 0, false, fun _ => 0, fun ns => ns + 4⟩,
    ⟨"fluxk", (0, 0, 1), 0, false, fun _ => 0, fun ns => ns + 4⟩]

/-- `src/compute/utils/applyFluxes.cpp:73-82`, `applyDissipationFlux` -/
def v60 : SKernel where
  dir := "utils"
  file := "utils/applyFluxes.cpp"
  line := 73
  func := "applyDissipationFlux"
  box := some fun d _ => [d.ng, d.ni + d.ng - 1, d.ng, d.nj + d.ng - 1, d.ng, d.nk + d.ng - 1]
  acc := [⟨"dQ", (0, 0, 0), 0, false, fun _ => 0, fun ns => ns + 4⟩,
    ⟨"fluxi", (0, 0, 0), 0, false, fun _ => 0, fun ns => ns + 4⟩,
    ⟨"fluxj", (0, 0, 0), 0, false, fun _ => 0, fun ns => ns + 4⟩,
    ⟨"fluxk", (0, 0, 0), 0, false, fun _ => 0, fun ns => ns + 4⟩,
    ⟨"J", (0, 0, 0), 0, false, fun _ => 0, fun _ => 1⟩,
    ⟨"fluxi", (1, 0, 0), 0, false, fun _ => 0, fun ns => ns + 4⟩,
    ⟨"fluxj", (0, 1, 0), 0, false, fun _ => 0, fun ns => ns + 4⟩,
    ⟨"fluxk", (0, 0, 1), 0, false, fun _ => 0, fun ns => ns + 4⟩]

/-- `src/compute/utils/cfl.cpp:35-80`, `CFLmax` -/
def v61 : SKernel where
  dir := "utils"
  file := "utils/cfl.cpp"
  line := 35
  func := "CFLmax"
  box := some fun d _ => [d.ng, d.ni + d.ng - 1, d.ng, d.nj + d.ng - 1, d.ng, d.nk + d.ng - 1]
  acc := [⟨"facei", (1, 0, 0), 0, false, fun _ => 0, fun _ => 3⟩,
    ⟨"facei", (1, 0, 0), 0, false, fun _ => 7, fun _ => 10⟩,
    ⟨"facei", (0, 0, 0), 0, false, fun _ => 0, fun _ => 3⟩,
    ⟨"facei", (0, 0, 0), 0, false, fun _ => 7, fun _ => 10⟩,
    ⟨"facej", (0, 1, 0), 0, false, fun _ => 0, fun _ => 3⟩,
    ⟨"facej", (0, 1, 0), 0, false, fun _ => 7, fun _ => 10⟩,
    ⟨"facej", (0, 0, 0), 0, false, fun _ => 0, fun _ => 3⟩,
    ⟨"facej", (0, 0, 0), 0, false, fun _ => 7, fun _ => 10⟩,
    ⟨"facek", (0, 0, 1), 0, false, fun _ => 0, fun _ => 3⟩,
    ⟨"facek", (0, 0, 1), 0, false, fun _ => 7, fun _ => 10⟩,
    ⟨"facek", (0, 0, 0), 0, false, fun _ => 0, fun _ => 3⟩,
    ⟨"facek", (0, 0, 0), 0, false, fun _ => 7, fun _ => 10⟩,
    ⟨"q", (0, 0, 0), 0, false, fun _ => 1, fun _ => 4⟩,
    ⟨"qh", (0, 0, 0), 0, false, fun _ => 3, fun _ => 4⟩]

/-- `src/compute/utils/checkNan.cpp:20-23`, `checkNan` -/
def v62 : SKernel where
  dir := "utils"
  file := "utils/checkNan.cpp"
  line := 20
  func := "checkNan"
  box := some fun d _ => [d.ng, d.ni + d.ng - 1, d.ng, d.nj + d.ng - 1, d.ng, d.nk + d.ng - 1]
  acc := [⟨"Q", (0, 0, 0), 0, false, fun _ => 0, fun ns => ns + 4⟩]

/-- `src/compute/utils/dq2FD.cpp:16-29`, `dq2FD` -/
def v63 : SKernel where
  dir := "utils"
  file := "utils/dq2FD.cpp"
  line := 16
  func := "dq2FD"
  box := some fun d _ => [d.ng, d.ni + d.ng - 1, d.ng, d.nj + d.ng - 1, d.ng, d.nk + d.ng - 1]
  acc := [⟨"q", (1, 0, 0), 0, false, fun _ => 0, fun ns => ns + 4⟩,
    ⟨"q", (-1, 0, 0), 0, false, fun _ => 0, fun ns => ns + 4⟩,
    ⟨"q", (0, 1, 0), 0, false, fun _ => 0, fun ns => ns + 4⟩,
    ⟨"q", (0, -1, 0), 0, false, fun _ => 0, fun ns => ns + 4⟩,
    ⟨"q", (0, 0, 1), 0, false, fun _ => 0, fun ns => ns + 4⟩,
    ⟨"q", (0, 0, -1), 0, false, fun _ => 0, fun ns => ns + 4⟩,
    ⟨"grad", (0, 0, 0), 0, false, fun _ => 0, fun ns => ns + 4⟩,
    ⟨"metric", (0, 0, 0), 0, false, fun _ => 0, fun _ => 9⟩]

/-- `src/compute/utils/viscousSponge.cpp:12-38`, `viscousSponge` -/
def v64 : SKernel where
  dir := "utils"
  file := "utils/viscousSponge.cpp"
  line := 12
  func := "viscousSponge"
  box := some fun d _ => [d.ng - 1, d.ni + d.ng, d.ng - 1, d.nj + d.ng, d.ng - 1, d.nk + d.ng]
  acc := [⟨"centre", (0, 0, 0), 0, false, fun _ => 0, fun _ => 3⟩,
    ⟨"qt", (0, 0, 0), 0, false, fun _ => 0, fun _ => 1⟩]

/-- `src/compute/boundaryConditions/exits.cpp:57-80`, `constantPressureSubsonicExit` -/
def f00 : FKernel where
  file := "boundaryConditions/exits.cpp"
  line := 57
  func := "constantPressureSubsonicExit"
  terms := "euler"
  acc := [⟨"q", "firstHaloIdx", fun _ => 0, fun ns => ns + 4⟩,
    ⟨"bc", "target", fun _ => 0, fun _ => 1⟩,
    ⟨"q", "firstInteriorCellIdx", fun _ => 1, fun ns => ns + 4⟩,
    ⟨"normal", "blockFaceIdx", fun _ => 7, fun _ => 10⟩,
    ⟨"q", "secondInteriorCellIdx", fun _ => 1, fun _ => 4⟩]

/-- `src/compute/boundaryConditions/exits.cpp:102-107`, `constantPressureSubsonicExit` -/
def f01 : FKernel where
  file := "boundaryConditions/exits.cpp"
  line := 102
  func := "constantPressureSubsonicExit"
  terms := "postDqDxyz"
  acc := [⟨"grad", "firstHaloIdx", fun _ => 0, fun ns => ns + 4⟩,
    ⟨"grad", "firstInteriorCellIdx", fun _ => 0, fun ns => ns + 4⟩]

/-- `src/compute/boundaryConditions/exits.cpp:161-188`, `supersonicExit` -/
def f02 : FKernel where
  file := "boundaryConditions/exits.cpp"
  line := 161
  func := "supersonicExit"
  terms := "euler"
  acc := [⟨"q", "firstHaloIdx", fun _ => 0, fun ns => ns + 4⟩,
    ⟨"q", "firstInteriorCellIdx", fun _ => 0, fun ns => ns + 4⟩,
    ⟨"q", "secondInteriorCellIdx", fun _ => 0, fun ns => ns + 4⟩,
    ⟨"normal", "blockFaceIdx", fun _ => 7, fun _ => 10⟩]

/-- `src/compute/boundaryConditions/exits.cpp:210-215`, `supersonicExit` -/
def f03 : FKernel where
  file := "boundaryConditions/exits.cpp"
  line := 210
  func := "supersonicExit"
  terms := "postDqDxyz"
  acc := [⟨"grad", "firstHaloIdx", fun _ => 0, fun ns => ns + 4⟩,
    ⟨"grad", "firstInteriorCellIdx", fun _ => 0, fun ns => ns + 4⟩]

/-- `src/compute/boundaryConditions/inlets.cpp:36-52`, `constantVelocitySubsonicInlet` -/
def f04 : FKernel where
  file := "boundaryConditions/inlets.cpp"
  line := 36
  func := "constantVelocitySubsonicInlet"
  terms := "euler"
  acc := [⟨"q", "firstHaloIdx", fun _ => 0, fun ns => ns + 4⟩,
    ⟨"q", "firstInteriorCellIdx", fun _ => 0, fun _ => 1⟩,
    ⟨"q", "secondInteriorCellIdx", fun _ => 0, fun _ => 1⟩,
    ⟨"bc", "target", fun _ => 1, fun ns => ns + 4⟩]

/-- `src/compute/boundaryConditions/inlets.cpp:74-79`, `constantVelocitySubsonicInlet` -/
def f05 : FKernel where
  file := "boundaryConditions/inlets.cpp"
  line := 74
  func := "constantVelocitySubsonicInlet"
  terms := "postDqDxyz"
  acc := [⟨"grad", "firstHaloIdx", fun _ => 0, fun ns => ns + 4⟩,
    ⟨"grad", "firstInteriorCellIdx", fun _ => 0, fun ns => ns + 4⟩]

/-- `src/compute/boundaryConditions/inlets.cpp:134-149`, `cubicSplineSubsonicInlet` -/
def f06 : FKernel where
  file := "boundaryConditions/inlets.cpp"
  line := 134
  func := "cubicSplineSubsonicInlet"
  terms := "euler"
  acc := [⟨"bc", "target", fun _ => 1, fun _ => 4⟩,
    ⟨"alphas", "target", fun _ => 0, fun _ => 12⟩]

/-- `src/compute/boundaryConditions/inlets.cpp:186-189`, `supersonicInlet` -/
def f07 : FKernel where
  file := "boundaryConditions/inlets.cpp"
  line := 186
  func := "supersonicInlet"
  terms := "euler"
  acc := [⟨"q", "firstHaloIdx", fun _ => 0, fun ns => ns + 4⟩,
    ⟨"bc", "target", fun _ => 0, fun ns => ns + 4⟩]

/-- `src/compute/boundaryConditions/inlets.cpp:211-216`, `supersonicInlet` -/
def f08 : FKernel where
  file := "boundaryConditions/inlets.cpp"
  line := 211
  func := "supersonicInlet"
  terms := "postDqDxyz"
  acc := [⟨"grad", "firstHaloIdx", fun _ => 0, fun ns => ns + 4⟩,
    ⟨"grad", "firstInteriorCellIdx", fun _ => 0, fun ns => ns + 4⟩]

/-- `src/compute/boundaryConditions/inlets.cpp:247-263`, `constantMassFluxSubsonicInlet` -/
def f09 : FKernel where
  file := "boundaryConditions/inlets.cpp"
  line := 247
  func := "constantMassFluxSubsonicInlet"
  terms := "euler"
  acc := [⟨"q", "firstHaloIdx", fun _ => 0, fun ns => ns + 4⟩,
    ⟨"q", "firstInteriorCellIdx", fun _ => 0, fun _ => 1⟩,
    ⟨"q", "secondInteriorCellIdx", fun _ => 0, fun _ => 1⟩,
    ⟨"bc", "target", fun _ => 4, fun ns => ns + 4⟩]

/-- `src/compute/boundaryConditions/inlets.cpp:291-320`, `constantMassFluxSubsonicInlet` -/
def f10 : FKernel where
  file := "boundaryConditions/inlets.cpp"
  line := 291
  func := "constantMassFluxSubsonicInlet"
  terms := "euler"
  acc := [⟨"bc", "target", fun _ => 1, fun _ => 4⟩,
    ⟨"q", "firstHaloIdx", fun _ => 1, fun _ => 4⟩,
    ⟨"Q", "firstHaloIdx", fun _ => 0, fun _ => 5⟩,
    ⟨"Q", "secondInteriorCellIdx", fun _ => 0, fun _ => 1⟩,
    ⟨"q", "secondInteriorCellIdx", fun _ => 1, fun _ => 4⟩]

/-- `src/compute/boundaryConditions/inlets.cpp:341-346`, `constantMassFluxSubsonicInlet` -/
def f11 : FKernel where
  file := "boundaryConditions/inlets.cpp"
  line := 341
  func := "constantMassFluxSubsonicInlet"
  terms := "postDqDxyz"
  acc := [⟨"grad", "firstHaloIdx", fun _ => 0, fun ns => ns + 4⟩,
    ⟨"grad", "firstInteriorCellIdx", fun _ => 0, fun ns => ns + 4⟩]

/-- `src/compute/boundaryConditions/inlets.cpp:386-432`, `stagnationSubsonicInlet` -/
def f12 : FKernel where
  file := "boundaryConditions/inlets.cpp"
  line := 386
  func := "stagnationSubsonicInlet"
  terms := "euler"
  acc := [⟨"qh", "firstInteriorCellIdx", fun _ => 0, fun _ => 1⟩,
    ⟨"qh", "firstInteriorCellIdx", fun _ => 3, fun _ => 4⟩,
    ⟨"q", "firstInteriorCellIdx", fun _ => 1, fun _ => 4⟩,
    ⟨"normali", "blockFaceIdx", fun _ => 7, fun _ => 10⟩,
    ⟨"q", "firstHaloIdx", fun _ => 0, fun ns => ns + 4⟩,
    ⟨"bc", "target", fun _ => 0, fun _ => 1⟩,
    ⟨"bc", "target", fun _ => 4, fun ns => ns + 4⟩]

/-- `src/compute/boundaryConditions/inlets.cpp:455-460`, `stagnationSubsonicInlet` -/
def f13 : FKernel where
  file := "boundaryConditions/inlets.cpp"
  line := 455
  func := "stagnationSubsonicInlet"
  terms := "postDqDxyz"
  acc := [⟨"grad", "firstHaloIdx", fun _ => 0, fun ns => ns + 4⟩,
    ⟨"grad", "firstInteriorCellIdx", fun _ => 0, fun ns => ns + 4⟩]

/-- `src/compute/boundaryConditions/periodics.cpp:33-58`, `periodicRotHigh` -/
def f14 : FKernel where
  file := "boundaryConditions/periodics.cpp"
  line := 33
  func := "periodicRotHigh"
  terms := "euler"
  acc := [⟨"q", "firstHaloIdx", fun _ => 1, fun _ => 4⟩,
    ⟨"rot", "target", fun _ => 0, fun _ => 9⟩,
    ⟨"Q", "firstHaloIdx", fun _ => 0, fun _ => 4⟩]

/-- `src/compute/boundaryConditions/periodics.cpp:73-92`, `periodicRotHigh` -/
def f15 : FKernel where
  file := "boundaryConditions/periodics.cpp"
  line := 73
  func := "periodicRotHigh"
  terms := "postDqDxyz"
  acc := [⟨"grad", "firstHaloIdx", fun _ => 0, fun ns => ns + 4⟩,
    ⟨"rot", "target", fun _ => 0, fun _ => 9⟩]

/-- `src/compute/boundaryConditions/periodics.cpp:120-145`, `periodicRotLow` -/
def f16 : FKernel where
  file := "boundaryConditions/periodics.cpp"
  line := 120
  func := "periodicRotLow"
  terms := "euler"
  acc := [⟨"q", "firstHaloIdx", fun _ => 1, fun _ => 4⟩,
    ⟨"rot", "target", fun _ => 0, fun _ => 9⟩,
    ⟨"Q", "firstHaloIdx", fun _ => 0, fun _ => 4⟩]

/-- `src/compute/boundaryConditions/periodics.cpp:160-179`, `periodicRotLow` -/
def f17 : FKernel where
  file := "boundaryConditions/periodics.cpp"
  line := 160
  func := "periodicRotLow"
  terms := "postDqDxyz"
  acc := [⟨"grad", "firstHaloIdx", fun _ => 0, fun ns => ns + 4⟩,
    ⟨"rot", "target", fun _ => 0, fun _ => 9⟩]

/-- `src/compute/boundaryConditions/walls.cpp:62-79`, `adiabaticNoSlipWall` -/
def f18 : FKernel where
  file := "boundaryConditions/walls.cpp"
  line := 62
  func := "adiabaticNoSlipWall"
  terms := "euler"
  acc := [⟨"q", "firstHaloIdx", fun _ => 0, fun ns => ns + 4⟩,
    ⟨"q", "firstInteriorCellIdx", fun _ => 0, fun ns => ns + 4⟩,
    ⟨"normal", "blockFaceIdx", fun _ => 7, fun _ => 10⟩]

/-- `src/compute/boundaryConditions/walls.cpp:94-99`, `adiabaticNoSlipWall` -/
def f19 : FKernel where
  file := "boundaryConditions/walls.cpp"
  line := 94
  func := "adiabaticNoSlipWall"
  terms := "preDqDxyz"
  acc := [⟨"q", "firstHaloIdx", fun _ => 1, fun _ => 4⟩,
    ⟨"q", "firstInteriorCellIdx", fun _ => 1, fun _ => 4⟩]

/-- `src/compute/boundaryConditions/walls.cpp:118-146`, `adiabaticNoSlipWall` -/
def f20 : FKernel where
  file := "boundaryConditions/walls.cpp"
  line := 118
  func := "adiabaticNoSlipWall"
  terms := "postDqDxyz"
  acc := [⟨"grad", "firstHaloIdx", fun _ => 0, fun ns => ns + 4⟩,
    ⟨"grad", "firstInteriorCellIdx", fun _ => 0, fun ns => ns + 4⟩]

/-- `src/compute/boundaryConditions/walls.cpp:195-212`, `adiabaticSlipWall` -/
def f21 : FKernel where
  file := "boundaryConditions/walls.cpp"
  line := 195
  func := "adiabaticSlipWall"
  terms := "euler"
  acc := [⟨"q", "firstHaloIdx", fun _ => 0, fun ns => ns + 4⟩,
    ⟨"q", "firstInteriorCellIdx", fun _ => 0, fun ns => ns + 4⟩,
    ⟨"normal", "blockFaceIdx", fun _ => 7, fun _ => 10⟩]

/-- `src/compute/boundaryConditions/walls.cpp:234-239`, `adiabaticSlipWall` -/
def f22 : FKernel where
  file := "boundaryConditions/walls.cpp"
  line := 234
  func := "adiabaticSlipWall"
  terms := "postDqDxyz"
  acc := [⟨"grad", "firstHaloIdx", fun _ => 0, fun ns => ns + 4⟩,
    ⟨"grad", "firstInteriorCellIdx", fun _ => 0, fun ns => ns + 4⟩]

/-- `src/compute/boundaryConditions/walls.cpp:288-305`, `adiabaticMovingWall` -/
def f23 : FKernel where
  file := "boundaryConditions/walls.cpp"
  line := 288
  func := "adiabaticMovingWall"
  terms := "euler"
  acc := [⟨"q", "firstHaloIdx", fun _ => 0, fun ns => ns + 4⟩,
    ⟨"q", "firstInteriorCellIdx", fun _ => 0, fun ns => ns + 4⟩,
    ⟨"normal", "blockFaceIdx", fun _ => 7, fun _ => 10⟩]

/-- `src/compute/boundaryConditions/walls.cpp:319-324`, `adiabaticMovingWall` -/
def f24 : FKernel where
  file := "boundaryConditions/walls.cpp"
  line := 319
  func := "adiabaticMovingWall"
  terms := "preDqDxyz"
  acc := [⟨"q", "firstHaloIdx", fun _ => 1, fun _ => 4⟩,
    ⟨"bc", "target", fun _ => 1, fun _ => 4⟩,
    ⟨"q", "firstInteriorCellIdx", fun _ => 1, fun _ => 4⟩]

/-- `src/compute/boundaryConditions/walls.cpp:342-370`, `adiabaticMovingWall` -/
def f25 : FKernel where
  file := "boundaryConditions/walls.cpp"
  line := 342
  func := "adiabaticMovingWall"
  terms := "postDqDxyz"
  acc := [⟨"grad", "firstHaloIdx", fun _ => 0, fun ns => ns + 4⟩,
    ⟨"grad", "firstInteriorCellIdx", fun _ => 0, fun ns => ns + 4⟩]

/-- `src/compute/boundaryConditions/walls.cpp:419-436`, `isoTNoSlipWall` -/
def f26 : FKernel where
  file := "boundaryConditions/walls.cpp"
  line := 419
  func := "isoTNoSlipWall"
  terms := "euler"
  acc := [⟨"q", "firstHaloIdx", fun _ => 0, fun ns => ns + 4⟩,
    ⟨"q", "firstInteriorCellIdx", fun _ => 5, fun ns => ns + 4⟩,
    ⟨"q", "firstInteriorCellIdx", fun _ => 0, fun _ => 4⟩,
    ⟨"normal", "blockFaceIdx", fun _ => 7, fun _ => 10⟩,
    ⟨"bc", "target", fun _ => 4, fun _ => 5⟩]

/-- `src/compute/boundaryConditions/walls.cpp:451-456`, `isoTNoSlipWall` -/
def f27 : FKernel where
  file := "boundaryConditions/walls.cpp"
  line := 451
  func := "isoTNoSlipWall"
  terms := "preDqDxyz"
  acc := [⟨"q", "firstHaloIdx", fun _ => 1, fun _ => 4⟩,
    ⟨"q", "firstInteriorCellIdx", fun _ => 1, fun _ => 4⟩]

/-- `src/compute/boundaryConditions/walls.cpp:474-501`, `isoTNoSlipWall` -/
def f28 : FKernel where
  file := "boundaryConditions/walls.cpp"
  line := 474
  func := "isoTNoSlipWall"
  terms := "postDqDxyz"
  acc := [⟨"grad", "firstHaloIdx", fun _ => 0, fun ns => ns + 4⟩,
    ⟨"grad", "firstInteriorCellIdx", fun _ => 0, fun ns => ns + 4⟩]

/-- `src/compute/boundaryConditions/walls.cpp:550-567`, `isoTSlipWall` -/
def f29 : FKernel where
  file := "boundaryConditions/walls.cpp"
  line := 550
  func := "isoTSlipWall"
  terms := "euler"
  acc := [⟨"q", "firstHaloIdx", fun _ => 0, fun ns => ns + 4⟩,
    ⟨"q", "firstInteriorCellIdx", fun _ => 5, fun ns => ns + 4⟩,
    ⟨"q", "firstInteriorCellIdx", fun _ => 0, fun _ => 4⟩,
    ⟨"normal", "blockFaceIdx", fun _ => 7, fun _ => 10⟩,
    ⟨"bc", "target", fun _ => 4, fun _ => 5⟩]

/-- `src/compute/boundaryConditions/walls.cpp:587-616`, `isoTSlipWall` -/
def f30 : FKernel where
  file := "boundaryConditions/walls.cpp"
  line := 587
  func := "isoTSlipWall"
  terms := "postDqDxyz"
  acc := [⟨"grad", "firstHaloIdx", fun _ => 0, fun ns => ns + 4⟩,
    ⟨"grad", "firstInteriorCellIdx", fun _ => 0, fun ns => ns + 4⟩]

/-- `src/compute/boundaryConditions/walls.cpp:665-682`, `isoTMovingWall` -/
def f31 : FKernel where
  file := "boundaryConditions/walls.cpp"
  line := 665
  func := "isoTMovingWall"
  terms := "euler"
  acc := [⟨"q", "firstHaloIdx", fun _ => 0, fun ns => ns + 4⟩,
    ⟨"q", "firstInteriorCellIdx", fun _ => 5, fun ns => ns + 4⟩,
    ⟨"q", "firstInteriorCellIdx", fun _ => 0, fun _ => 4⟩,
    ⟨"normal", "blockFaceIdx", fun _ => 7, fun _ => 10⟩,
    ⟨"bc", "target", fun _ => 4, fun _ => 5⟩]

/-- `src/compute/boundaryConditions/walls.cpp:697-702`, `isoTMovingWall` -/
def f32 : FKernel where
  file := "boundaryConditions/walls.cpp"
  line := 697
  func := "isoTMovingWall"
  terms := "preDqDxyz"
  acc := [⟨"q", "firstHaloIdx", fun _ => 1, fun _ => 4⟩,
    ⟨"bc", "target", fun _ => 1, fun _ => 4⟩,
    ⟨"q", "firstInteriorCellIdx", fun _ => 1, fun _ => 4⟩]

/-- `src/compute/boundaryConditions/walls.cpp:720-746`, `isoTMovingWall` -/
def f33 : FKernel where
  file := "boundaryConditions/walls.cpp"
  line := 720
  func := "isoTMovingWall"
  terms := "postDqDxyz"
  acc := [⟨"grad", "firstHaloIdx", fun _ => 0, fun ns => ns + 4⟩,
    ⟨"grad", "firstInteriorCellIdx", fun _ => 0, fun ns => ns + 4⟩]

/-- every kernel over cells or faces that a run can launch -/
def volume : List SKernel := [v00, v01, v02, v03, v04, v05, v06, v07, v08, v09, v10, v11, v12, v13, v14, v15, v16, v17, v18,
  v19, v20, v21, v22, v23, v24, v25, v26, v27, v28, v29, v30, v31, v32, v33, v34, v35, v36, v37, v38, v39, v40, v41, v42, v43,
  v44, v45, v46, v47, v48, v49, v50, v51, v52, v53, v54, v55, v56, v57, v58, v59, v60, v61, v62, v63, v64]

/-- every kernel of the boundary conditions -/
def onFaces : List FKernel := [f00, f01, f02, f03, f04, f05, f06, f07, f08, f09, f10, f11, f12, f13, f14, f15, f16, f17, f18,
  f19, f20, f21, f22, f23, f24, f25, f26, f27, f28, f29, f30, f31, f32, f33]

end PG.Safe.Src
