/-!
# The parallel kernels of `src/compute` and what they access

Generated by `tools/mkfootprint.py` from the text of `/repo/src/compute`: one entry for each
`KOKKOS_LAMBDA`, with the file and lines, the C++ function, the number of work indices, and every access to a
shared array (or to a face slice of one, or to an array passed as an argument, called `param`): the name of the
array, the offset from the work index in each direction (`none` where the index is not the work index plus a
constant), and whether it is written.  Later indices (species, variable, plane of a slice) are left free.
Constant tables of the gas (`th.`) and of the boundary (`face.`) are included.  Scratch arrays handed out by
`UniqueToken` are private to a work item while it runs and are not listed (their stale contents are C77).
-/

namespace PG.Par

/-- An access to a shared array: the array, the offset from each work index, and whether it is written
(the listing of `src/compute`, see the head of this file). -/
structure Access where
  arr : String
  offs : List (Option Int)
  write : Bool
deriving DecidableEq

/-- A parallel kernel: where it is, how many work indices it has, and its accesses
(the listing of `src/compute`, see the head of this file). -/
structure Kernel where
  file : String
  line : Nat
  func : String
  dim : Nat
  reduce : Bool
  acc : List Access

/-- `src/compute/advFlux/KEEP.cpp:16-77`, `computeFlux` -/
def k00 : Kernel where
  file := "src/compute/advFlux/KEEP.cpp"
  line := 16
  func := "computeFlux"
  dim := 3
  reduce := false
  acc := [⟨"q", [some 0, some 0, some 0], false⟩,
    ⟨"q", [none, none, none], false⟩,
    ⟨"param", [some 0, some 0, some 0], false⟩,
    ⟨"Q", [some 0, some 0, some 0], false⟩,
    ⟨"Q", [none, none, none], false⟩,
    ⟨"param", [some 0, some 0, some 0], true⟩,
    ⟨"qh", [some 0, some 0, some 0], false⟩,
    ⟨"qh", [none, none, none], false⟩]

/-- `src/compute/advFlux/KEEPpe.cpp:16-76`, `computeFlux` -/
def k01 : Kernel where
  file := "src/compute/advFlux/KEEPpe.cpp"
  line := 16
  func := "computeFlux"
  dim := 3
  reduce := false
  acc := [⟨"q", [some 0, some 0, some 0], false⟩,
    ⟨"q", [none, none, none], false⟩,
    ⟨"param", [some 0, some 0, some 0], false⟩,
    ⟨"Q", [some 0, some 0, some 0], false⟩,
    ⟨"Q", [none, none, none], false⟩,
    ⟨"param", [some 0, some 0, some 0], true⟩,
    ⟨"qh", [some 0, some 0, some 0], false⟩,
    ⟨"qh", [none, none, none], false⟩]

/-- `src/compute/advFlux/KEPaEC.cpp:15-77`, `computeFlux` -/
def k02 : Kernel where
  file := "src/compute/advFlux/KEPaEC.cpp"
  line := 15
  func := "computeFlux"
  dim := 3
  reduce := false
  acc := [⟨"q", [some 0, some 0, some 0], false⟩,
    ⟨"q", [none, none, none], false⟩,
    ⟨"param", [some 0, some 0, some 0], false⟩,
    ⟨"Q", [some 0, some 0, some 0], false⟩,
    ⟨"Q", [none, none, none], false⟩,
    ⟨"param", [some 0, some 0, some 0], true⟩,
    ⟨"qh", [some 0, some 0, some 0], false⟩,
    ⟨"qh", [none, none, none], false⟩]

/-- `src/compute/advFlux/ausmPlusUp.cpp:19-117`, `computeFlux` -/
def k03 : Kernel where
  file := "src/compute/advFlux/ausmPlusUp.cpp"
  line := 19
  func := "computeFlux"
  dim := 3
  reduce := false
  acc := [⟨"q", [some 0, some 0, some 0], false⟩,
    ⟨"q", [none, none, none], false⟩,
    ⟨"param", [some 0, some 0, some 0], false⟩,
    ⟨"Q", [some 0, some 0, some 0], false⟩,
    ⟨"Q", [none, none, none], false⟩,
    ⟨"qh", [some 0, some 0, some 0], false⟩,
    ⟨"qh", [none, none, none], false⟩,
    ⟨"param", [some 0, some 0, some 0], true⟩]

/-- `src/compute/advFlux/centralDifference.cpp:17-70`, `computeFlux` -/
def k04 : Kernel where
  file := "src/compute/advFlux/centralDifference.cpp"
  line := 17
  func := "computeFlux"
  dim := 3
  reduce := false
  acc := [⟨"q", [some 0, some 0, some 0], false⟩,
    ⟨"q", [none, none, none], false⟩,
    ⟨"param", [some 0, some 0, some 0], false⟩,
    ⟨"Q", [some 0, some 0, some 0], false⟩,
    ⟨"Q", [none, none, none], false⟩,
    ⟨"param", [some 0, some 0, some 0], true⟩]

/-- `src/compute/advFlux/fourthOrderKEEP.cpp:21-180`, `fourthOrderKEEP` -/
def k05 : Kernel where
  file := "src/compute/advFlux/fourthOrderKEEP.cpp"
  line := 21
  func := "fourthOrderKEEP"
  dim := 3
  reduce := false
  acc := [⟨"q", [none, some 0, some 0], false⟩,
    ⟨"isx", [some 0, some 0, some 0], false⟩,
    ⟨"isy", [some 0, some 0, some 0], false⟩,
    ⟨"isz", [some 0, some 0, some 0], false⟩,
    ⟨"Q", [none, some 0, some 0], false⟩,
    ⟨"iF", [some 0, some 0, some 0], true⟩,
    ⟨"qh", [none, some 0, some 0], false⟩]

/-- `src/compute/advFlux/fourthOrderKEEP.cpp:189-348`, `fourthOrderKEEP` -/
def k06 : Kernel where
  file := "src/compute/advFlux/fourthOrderKEEP.cpp"
  line := 189
  func := "fourthOrderKEEP"
  dim := 3
  reduce := false
  acc := [⟨"q", [some 0, none, some 0], false⟩,
    ⟨"jsx", [some 0, some 0, some 0], false⟩,
    ⟨"jsy", [some 0, some 0, some 0], false⟩,
    ⟨"jsz", [some 0, some 0, some 0], false⟩,
    ⟨"Q", [some 0, none, some 0], false⟩,
    ⟨"jF", [some 0, some 0, some 0], true⟩,
    ⟨"qh", [some 0, none, some 0], false⟩]

/-- `src/compute/advFlux/fourthOrderKEEP.cpp:357-516`, `fourthOrderKEEP` -/
def k07 : Kernel where
  file := "src/compute/advFlux/fourthOrderKEEP.cpp"
  line := 357
  func := "fourthOrderKEEP"
  dim := 3
  reduce := false
  acc := [⟨"q", [some 0, some 0, none], false⟩,
    ⟨"ksx", [some 0, some 0, some 0], false⟩,
    ⟨"ksy", [some 0, some 0, some 0], false⟩,
    ⟨"ksz", [some 0, some 0, some 0], false⟩,
    ⟨"Q", [some 0, some 0, none], false⟩,
    ⟨"kF", [some 0, some 0, some 0], true⟩,
    ⟨"qh", [some 0, some 0, none], false⟩]

/-- `src/compute/advFlux/hllc.cpp:19-148`, `computeFlux` -/
def k08 : Kernel where
  file := "src/compute/advFlux/hllc.cpp"
  line := 19
  func := "computeFlux"
  dim := 3
  reduce := false
  acc := [⟨"q", [some 0, some 0, some 0], false⟩,
    ⟨"q", [none, none, none], false⟩,
    ⟨"param", [some 0, some 0, some 0], false⟩,
    ⟨"Q", [some 0, some 0, some 0], false⟩,
    ⟨"Q", [none, none, none], false⟩,
    ⟨"qh", [some 0, some 0, some 0], false⟩,
    ⟨"qh", [none, none, none], false⟩,
    ⟨"param", [some 0, some 0, some 0], true⟩]

/-- `src/compute/advFlux/muscl2hllc.cpp:32-260`, `muscl2hllc` -/
def k09 : Kernel where
  file := "src/compute/advFlux/muscl2hllc.cpp"
  line := 32
  func := "muscl2hllc"
  dim := 3
  reduce := false
  acc := [⟨"Q", [some 0, some 0, some 0], false⟩,
    ⟨"Q", [some (-1), some 0, some 0], false⟩,
    ⟨"Q", [some (-2), some 0, some 0], false⟩,
    ⟨"Q", [some 1, some 0, some 0], false⟩,
    ⟨"q", [some 0, some 0, some 0], false⟩,
    ⟨"q", [some (-1), some 0, some 0], false⟩,
    ⟨"q", [some (-2), some 0, some 0], false⟩,
    ⟨"q", [some 1, some 0, some 0], false⟩,
    ⟨"inx", [some 0, some 0, some 0], false⟩,
    ⟨"iny", [some 0, some 0, some 0], false⟩,
    ⟨"inz", [some 0, some 0, some 0], false⟩,
    ⟨"qh", [some 0, some 0, some 0], false⟩,
    ⟨"qh", [some (-1), some 0, some 0], false⟩,
    ⟨"qh", [some (-2), some 0, some 0], false⟩,
    ⟨"qh", [some 1, some 0, some 0], false⟩,
    ⟨"iF", [some 0, some 0, some 0], true⟩,
    ⟨"iS", [some 0, some 0, some 0], false⟩,
    ⟨"isx", [some 0, some 0, some 0], false⟩,
    ⟨"isy", [some 0, some 0, some 0], false⟩,
    ⟨"isz", [some 0, some 0, some 0], false⟩]

/-- `src/compute/advFlux/muscl2hllc.cpp:269-497`, `muscl2hllc` -/
def k10 : Kernel where
  file := "src/compute/advFlux/muscl2hllc.cpp"
  line := 269
  func := "muscl2hllc"
  dim := 3
  reduce := false
  acc := [⟨"Q", [some 0, some 0, some 0], false⟩,
    ⟨"Q", [some 0, some (-1), some 0], false⟩,
    ⟨"Q", [some 0, some (-2), some 0], false⟩,
    ⟨"Q", [some 0, some 1, some 0], false⟩,
    ⟨"q", [some 0, some 0, some 0], false⟩,
    ⟨"q", [some 0, some (-1), some 0], false⟩,
    ⟨"q", [some 0, some (-2), some 0], false⟩,
    ⟨"q", [some 0, some 1, some 0], false⟩,
    ⟨"jnx", [some 0, some 0, some 0], false⟩,
    ⟨"jny", [some 0, some 0, some 0], false⟩,
    ⟨"jnz", [some 0, some 0, some 0], false⟩,
    ⟨"qh", [some 0, some 0, some 0], false⟩,
    ⟨"qh", [some 0, some (-1), some 0], false⟩,
    ⟨"qh", [some 0, some (-2), some 0], false⟩,
    ⟨"qh", [some 0, some 1, some 0], false⟩,
    ⟨"jF", [some 0, some 0, some 0], true⟩,
    ⟨"jS", [some 0, some 0, some 0], false⟩,
    ⟨"jsx", [some 0, some 0, some 0], false⟩,
    ⟨"jsy", [some 0, some 0, some 0], false⟩,
    ⟨"jsz", [some 0, some 0, some 0], false⟩]

/-- `src/compute/advFlux/muscl2hllc.cpp:505-733`, `muscl2hllc` -/
def k11 : Kernel where
  file := "src/compute/advFlux/muscl2hllc.cpp"
  line := 505
  func := "muscl2hllc"
  dim := 3
  reduce := false
  acc := [⟨"Q", [some 0, some 0, some 0], false⟩,
    ⟨"Q", [some 0, some 0, some (-1)], false⟩,
    ⟨"Q", [some 0, some 0, some (-2)], false⟩,
    ⟨"Q", [some 0, some 0, some 1], false⟩,
    ⟨"q", [some 0, some 0, some 0], false⟩,
    ⟨"q", [some 0, some 0, some (-1)], false⟩,
    ⟨"q", [some 0, some 0, some (-2)], false⟩,
    ⟨"q", [some 0, some 0, some 1], false⟩,
    ⟨"knx", [some 0, some 0, some 0], false⟩,
    ⟨"kny", [some 0, some 0, some 0], false⟩,
    ⟨"knz", [some 0, some 0, some 0], false⟩,
    ⟨"qh", [some 0, some 0, some 0], false⟩,
    ⟨"qh", [some 0, some 0, some (-1)], false⟩,
    ⟨"qh", [some 0, some 0, some (-2)], false⟩,
    ⟨"qh", [some 0, some 0, some 1], false⟩,
    ⟨"kF", [some 0, some 0, some 0], true⟩,
    ⟨"kS", [some 0, some 0, some 0], false⟩,
    ⟨"ksx", [some 0, some 0, some 0], false⟩,
    ⟨"ksy", [some 0, some 0, some 0], false⟩,
    ⟨"ksz", [some 0, some 0, some 0], false⟩]

/-- `src/compute/advFlux/muscl2rusanov.cpp:33-178`, `muscl2rusanov` -/
def k12 : Kernel where
  file := "src/compute/advFlux/muscl2rusanov.cpp"
  line := 33
  func := "muscl2rusanov"
  dim := 3
  reduce := false
  acc := [⟨"Q", [some 0, some 0, some 0], false⟩,
    ⟨"Q", [some (-1), some 0, some 0], false⟩,
    ⟨"Q", [some (-2), some 0, some 0], false⟩,
    ⟨"Q", [some 1, some 0, some 0], false⟩,
    ⟨"q", [some 0, some 0, some 0], false⟩,
    ⟨"q", [some (-1), some 0, some 0], false⟩,
    ⟨"q", [some (-2), some 0, some 0], false⟩,
    ⟨"q", [some 1, some 0, some 0], false⟩,
    ⟨"inx", [some 0, some 0, some 0], false⟩,
    ⟨"iny", [some 0, some 0, some 0], false⟩,
    ⟨"inz", [some 0, some 0, some 0], false⟩,
    ⟨"qh", [some 0, some 0, some 0], false⟩,
    ⟨"qh", [some (-1), some 0, some 0], false⟩,
    ⟨"qh", [some (-2), some 0, some 0], false⟩,
    ⟨"qh", [some 1, some 0, some 0], false⟩,
    ⟨"iS", [some 0, some 0, some 0], false⟩,
    ⟨"iF", [some 0, some 0, some 0], true⟩,
    ⟨"isx", [some 0, some 0, some 0], false⟩,
    ⟨"isy", [some 0, some 0, some 0], false⟩,
    ⟨"isz", [some 0, some 0, some 0], false⟩]

/-- `src/compute/advFlux/muscl2rusanov.cpp:187-332`, `muscl2rusanov` -/
def k13 : Kernel where
  file := "src/compute/advFlux/muscl2rusanov.cpp"
  line := 187
  func := "muscl2rusanov"
  dim := 3
  reduce := false
  acc := [⟨"Q", [some 0, some 0, some 0], false⟩,
    ⟨"Q", [some 0, some (-1), some 0], false⟩,
    ⟨"Q", [some 0, some (-2), some 0], false⟩,
    ⟨"Q", [some 0, some 1, some 0], false⟩,
    ⟨"q", [some 0, some 0, some 0], false⟩,
    ⟨"q", [some 0, some (-1), some 0], false⟩,
    ⟨"q", [some 0, some (-2), some 0], false⟩,
    ⟨"q", [some 0, some 1, some 0], false⟩,
    ⟨"jnx", [some 0, some 0, some 0], false⟩,
    ⟨"jny", [some 0, some 0, some 0], false⟩,
    ⟨"jnz", [some 0, some 0, some 0], false⟩,
    ⟨"qh", [some 0, some 0, some 0], false⟩,
    ⟨"qh", [some 0, some (-1), some 0], false⟩,
    ⟨"qh", [some 0, some (-2), some 0], false⟩,
    ⟨"qh", [some 0, some 1, some 0], false⟩,
    ⟨"jS", [some 0, some 0, some 0], false⟩,
    ⟨"jF", [some 0, some 0, some 0], true⟩,
    ⟨"jsx", [some 0, some 0, some 0], false⟩,
    ⟨"jsy", [some 0, some 0, some 0], false⟩,
    ⟨"jsz", [some 0, some 0, some 0], false⟩]

/-- `src/compute/advFlux/muscl2rusanov.cpp:340-485`, `muscl2rusanov` -/
def k14 : Kernel where
  file := "src/compute/advFlux/muscl2rusanov.cpp"
  line := 340
  func := "muscl2rusanov"
  dim := 3
  reduce := false
  acc := [⟨"Q", [some 0, some 0, some 0], false⟩,
    ⟨"Q", [some 0, some 0, some (-1)], false⟩,
    ⟨"Q", [some 0, some 0, some (-2)], false⟩,
    ⟨"Q", [some 0, some 0, some 1], false⟩,
    ⟨"q", [some 0, some 0, some 0], false⟩,
    ⟨"q", [some 0, some 0, some (-1)], false⟩,
    ⟨"q", [some 0, some 0, some (-2)], false⟩,
    ⟨"q", [some 0, some 0, some 1], false⟩,
    ⟨"knx", [some 0, some 0, some 0], false⟩,
    ⟨"kny", [some 0, some 0, some 0], false⟩,
    ⟨"knz", [some 0, some 0, some 0], false⟩,
    ⟨"qh", [some 0, some 0, some 0], false⟩,
    ⟨"qh", [some 0, some 0, some (-1)], false⟩,
    ⟨"qh", [some 0, some 0, some (-2)], false⟩,
    ⟨"qh", [some 0, some 0, some 1], false⟩,
    ⟨"kS", [some 0, some 0, some 0], false⟩,
    ⟨"kF", [some 0, some 0, some 0], true⟩,
    ⟨"ksx", [some 0, some 0, some 0], false⟩,
    ⟨"ksy", [some 0, some 0, some 0], false⟩,
    ⟨"ksz", [some 0, some 0, some 0], false⟩]

/-- `src/compute/advFlux/myKEEP.cpp:17-133`, `computeFlux` -/
def k15 : Kernel where
  file := "src/compute/advFlux/myKEEP.cpp"
  line := 17
  func := "computeFlux"
  dim := 3
  reduce := false
  acc := [⟨"q", [some 0, some 0, some 0], false⟩,
    ⟨"q", [none, none, none], false⟩,
    ⟨"param", [some 0, some 0, some 0], false⟩,
    ⟨"Q", [some 0, some 0, some 0], false⟩,
    ⟨"Q", [none, none, none], false⟩,
    ⟨"param", [some 0, some 0, some 0], true⟩,
    ⟨"qh", [some 0, some 0, some 0], false⟩,
    ⟨"qh", [none, none, none], false⟩]

/-- `src/compute/advFlux/rusanov.cpp:18-87`, `computeFlux` -/
def k16 : Kernel where
  file := "src/compute/advFlux/rusanov.cpp"
  line := 18
  func := "computeFlux"
  dim := 3
  reduce := false
  acc := [⟨"q", [some 0, some 0, some 0], false⟩,
    ⟨"q", [none, none, none], false⟩,
    ⟨"param", [some 0, some 0, some 0], false⟩,
    ⟨"Q", [some 0, some 0, some 0], false⟩,
    ⟨"Q", [none, none, none], false⟩,
    ⟨"qh", [some 0, some 0, some 0], false⟩,
    ⟨"qh", [none, none, none], false⟩,
    ⟨"param", [some 0, some 0, some 0], true⟩]

/-- `src/compute/advFlux/scalarDissipation.cpp:23-103`, `computeFlux` -/
def k17 : Kernel where
  file := "src/compute/advFlux/scalarDissipation.cpp"
  line := 23
  func := "computeFlux"
  dim := 3
  reduce := false
  acc := [⟨"phi", [some 0, some 0, some 0], false⟩,
    ⟨"phi", [none, none, none], false⟩,
    ⟨"q", [some 0, some 0, some 0], false⟩,
    ⟨"q", [none, none, none], false⟩,
    ⟨"param", [some 0, some 0, some 0], false⟩,
    ⟨"qh", [some 0, some 0, some 0], false⟩,
    ⟨"qh", [none, none, none], false⟩,
    ⟨"Q", [some 0, some 0, some 0], false⟩,
    ⟨"Q", [none, none, none], false⟩,
    ⟨"Q", [some 1, some 0, some 0], false⟩,
    ⟨"param", [some 0, some 0, some 0], true⟩]

/-- `src/compute/boundaryConditions/exits.cpp:57-80`, `constantPressureSubsonicExit` -/
def k18 : Kernel where
  file := "src/compute/boundaryConditions/exits.cpp"
  line := 57
  func := "constantPressureSubsonicExit"
  dim := 2
  reduce := false
  acc := [⟨"q", [some 0, some 0], true⟩,
    ⟨"face.qBcVals", [some 0, some 0], false⟩,
    ⟨"q", [some 0, some 0], false⟩,
    ⟨"knx", [some 0, some 0], false⟩,
    ⟨"kny", [some 0, some 0], false⟩,
    ⟨"knz", [some 0, some 0], false⟩]

/-- `src/compute/boundaryConditions/exits.cpp:102-107`, `constantPressureSubsonicExit` -/
def k19 : Kernel where
  file := "src/compute/boundaryConditions/exits.cpp"
  line := 102
  func := "constantPressureSubsonicExit"
  dim := 3
  reduce := false
  acc := [⟨"dqdx", [some 0, some 0, some 0], true⟩,
    ⟨"dqdx", [some 0, some 0, some 0], false⟩,
    ⟨"dqdy", [some 0, some 0, some 0], true⟩,
    ⟨"dqdy", [some 0, some 0, some 0], false⟩,
    ⟨"dqdz", [some 0, some 0, some 0], true⟩,
    ⟨"dqdz", [some 0, some 0, some 0], false⟩]

/-- `src/compute/boundaryConditions/exits.cpp:161-188`, `supersonicExit` -/
def k20 : Kernel where
  file := "src/compute/boundaryConditions/exits.cpp"
  line := 161
  func := "supersonicExit"
  dim := 2
  reduce := false
  acc := [⟨"q", [some 0, some 0], true⟩,
    ⟨"q", [some 0, some 0], false⟩,
    ⟨"knx", [some 0, some 0], false⟩,
    ⟨"kny", [some 0, some 0], false⟩,
    ⟨"knz", [some 0, some 0], false⟩]

/-- `src/compute/boundaryConditions/exits.cpp:210-215`, `supersonicExit` -/
def k21 : Kernel where
  file := "src/compute/boundaryConditions/exits.cpp"
  line := 210
  func := "supersonicExit"
  dim := 3
  reduce := false
  acc := [⟨"dqdx", [some 0, some 0, some 0], true⟩,
    ⟨"dqdx", [some 0, some 0, some 0], false⟩,
    ⟨"dqdy", [some 0, some 0, some 0], true⟩,
    ⟨"dqdy", [some 0, some 0, some 0], false⟩,
    ⟨"dqdz", [some 0, some 0, some 0], true⟩,
    ⟨"dqdz", [some 0, some 0, some 0], false⟩]

/-- `src/compute/boundaryConditions/inlets.cpp:36-52`, `constantVelocitySubsonicInlet` -/
def k22 : Kernel where
  file := "src/compute/boundaryConditions/inlets.cpp"
  line := 36
  func := "constantVelocitySubsonicInlet"
  dim := 2
  reduce := false
  acc := [⟨"q", [some 0, some 0], true⟩,
    ⟨"q", [some 0, some 0], false⟩,
    ⟨"face.qBcVals", [some 0, some 0], false⟩]

/-- `src/compute/boundaryConditions/inlets.cpp:74-79`, `constantVelocitySubsonicInlet` -/
def k23 : Kernel where
  file := "src/compute/boundaryConditions/inlets.cpp"
  line := 74
  func := "constantVelocitySubsonicInlet"
  dim := 3
  reduce := false
  acc := [⟨"dqdx", [some 0, some 0, some 0], true⟩,
    ⟨"dqdx", [some 0, some 0, some 0], false⟩,
    ⟨"dqdy", [some 0, some 0, some 0], true⟩,
    ⟨"dqdy", [some 0, some 0, some 0], false⟩,
    ⟨"dqdz", [some 0, some 0, some 0], true⟩,
    ⟨"dqdz", [some 0, some 0, some 0], false⟩]

/-- `src/compute/boundaryConditions/inlets.cpp:134-149`, `cubicSplineSubsonicInlet` -/
def k24 : Kernel where
  file := "src/compute/boundaryConditions/inlets.cpp"
  line := 134
  func := "cubicSplineSubsonicInlet"
  dim := 2
  reduce := false
  acc := [⟨"face.qBcVals", [some 0, some 0], true⟩,
    ⟨"face.intervalAlphas", [none, none], false⟩]

/-- `src/compute/boundaryConditions/inlets.cpp:186-189`, `supersonicInlet` -/
def k25 : Kernel where
  file := "src/compute/boundaryConditions/inlets.cpp"
  line := 186
  func := "supersonicInlet"
  dim := 3
  reduce := false
  acc := [⟨"q", [some 0, some 0, some 0], true⟩,
    ⟨"face.qBcVals", [some 0, some 0, some 0], false⟩]

/-- `src/compute/boundaryConditions/inlets.cpp:211-216`, `supersonicInlet` -/
def k26 : Kernel where
  file := "src/compute/boundaryConditions/inlets.cpp"
  line := 211
  func := "supersonicInlet"
  dim := 3
  reduce := false
  acc := [⟨"dqdx", [some 0, some 0, some 0], true⟩,
    ⟨"dqdx", [some 0, some 0, some 0], false⟩,
    ⟨"dqdy", [some 0, some 0, some 0], true⟩,
    ⟨"dqdy", [some 0, some 0, some 0], false⟩,
    ⟨"dqdz", [some 0, some 0, some 0], true⟩,
    ⟨"dqdz", [some 0, some 0, some 0], false⟩]

/-- `src/compute/boundaryConditions/inlets.cpp:247-263`, `constantMassFluxSubsonicInlet` -/
def k27 : Kernel where
  file := "src/compute/boundaryConditions/inlets.cpp"
  line := 247
  func := "constantMassFluxSubsonicInlet"
  dim := 2
  reduce := false
  acc := [⟨"q", [some 0, some 0], true⟩,
    ⟨"q", [some 0, some 0], false⟩,
    ⟨"face.qBcVals", [some 0, some 0], false⟩]

/-- `src/compute/boundaryConditions/inlets.cpp:291-320`, `constantMassFluxSubsonicInlet` -/
def k28 : Kernel where
  file := "src/compute/boundaryConditions/inlets.cpp"
  line := 291
  func := "constantMassFluxSubsonicInlet"
  dim := 2
  reduce := false
  acc := [⟨"face.QBcVals", [some 0, some 0], false⟩,
    ⟨"q", [some 0, some 0], true⟩,
    ⟨"Q", [some 0, some 0], false⟩,
    ⟨"q", [some 0, some 0], false⟩,
    ⟨"Q", [some 0, some 0], true⟩]

/-- `src/compute/boundaryConditions/inlets.cpp:341-346`, `constantMassFluxSubsonicInlet` -/
def k29 : Kernel where
  file := "src/compute/boundaryConditions/inlets.cpp"
  line := 341
  func := "constantMassFluxSubsonicInlet"
  dim := 3
  reduce := false
  acc := [⟨"dqdx", [some 0, some 0, some 0], true⟩,
    ⟨"dqdx", [some 0, some 0, some 0], false⟩,
    ⟨"dqdy", [some 0, some 0, some 0], true⟩,
    ⟨"dqdy", [some 0, some 0, some 0], false⟩,
    ⟨"dqdz", [some 0, some 0, some 0], true⟩,
    ⟨"dqdz", [some 0, some 0, some 0], false⟩]

/-- `src/compute/boundaryConditions/inlets.cpp:386-432`, `stagnationSubsonicInlet` -/
def k30 : Kernel where
  file := "src/compute/boundaryConditions/inlets.cpp"
  line := 386
  func := "stagnationSubsonicInlet"
  dim := 2
  reduce := false
  acc := [⟨"qh", [some 0, some 0], false⟩,
    ⟨"q", [some 0, some 0], false⟩,
    ⟨"inx", [some 0, some 0], false⟩,
    ⟨"iny", [some 0, some 0], false⟩,
    ⟨"inz", [some 0, some 0], false⟩,
    ⟨"q", [some 0, some 0], true⟩,
    ⟨"face.qBcVals", [some 0, some 0], false⟩]

/-- `src/compute/boundaryConditions/inlets.cpp:455-460`, `stagnationSubsonicInlet` -/
def k31 : Kernel where
  file := "src/compute/boundaryConditions/inlets.cpp"
  line := 455
  func := "stagnationSubsonicInlet"
  dim := 3
  reduce := false
  acc := [⟨"dqdx", [some 0, some 0, some 0], true⟩,
    ⟨"dqdx", [some 0, some 0, some 0], false⟩,
    ⟨"dqdy", [some 0, some 0, some 0], true⟩,
    ⟨"dqdy", [some 0, some 0, some 0], false⟩,
    ⟨"dqdz", [some 0, some 0, some 0], true⟩,
    ⟨"dqdz", [some 0, some 0, some 0], false⟩]

/-- `src/compute/boundaryConditions/periodics.cpp:33-58`, `periodicRotHigh` -/
def k32 : Kernel where
  file := "src/compute/boundaryConditions/periodics.cpp"
  line := 33
  func := "periodicRotHigh"
  dim := 2
  reduce := false
  acc := [⟨"q", [some 0, some 0], false⟩,
    ⟨"face.periodicRotMatrixUp", [none, none], false⟩,
    ⟨"q", [some 0, some 0], true⟩,
    ⟨"Q", [some 0, some 0], true⟩,
    ⟨"Q", [some 0, some 0], false⟩]

/-- `src/compute/boundaryConditions/periodics.cpp:73-92`, `periodicRotHigh` -/
def k33 : Kernel where
  file := "src/compute/boundaryConditions/periodics.cpp"
  line := 73
  func := "periodicRotHigh"
  dim := 3
  reduce := false
  acc := [⟨"dqdx", [some 0, some 0, some 0], false⟩,
    ⟨"dqdy", [some 0, some 0, some 0], false⟩,
    ⟨"dqdz", [some 0, some 0, some 0], false⟩,
    ⟨"face.periodicRotMatrixUp", [none, none, none], false⟩,
    ⟨"dqdx", [some 0, some 0, some 0], true⟩,
    ⟨"dqdy", [some 0, some 0, some 0], true⟩,
    ⟨"dqdz", [some 0, some 0, some 0], true⟩]

/-- `src/compute/boundaryConditions/periodics.cpp:120-145`, `periodicRotLow` -/
def k34 : Kernel where
  file := "src/compute/boundaryConditions/periodics.cpp"
  line := 120
  func := "periodicRotLow"
  dim := 2
  reduce := false
  acc := [⟨"q", [some 0, some 0], false⟩,
    ⟨"face.periodicRotMatrixDown", [none, none], false⟩,
    ⟨"q", [some 0, some 0], true⟩,
    ⟨"Q", [some 0, some 0], true⟩,
    ⟨"Q", [some 0, some 0], false⟩]

/-- `src/compute/boundaryConditions/periodics.cpp:160-179`, `periodicRotLow` -/
def k35 : Kernel where
  file := "src/compute/boundaryConditions/periodics.cpp"
  line := 160
  func := "periodicRotLow"
  dim := 3
  reduce := false
  acc := [⟨"dqdx", [some 0, some 0, some 0], false⟩,
    ⟨"dqdy", [some 0, some 0, some 0], false⟩,
    ⟨"dqdz", [some 0, some 0, some 0], false⟩,
    ⟨"face.periodicRotMatrixDown", [none, none, none], false⟩,
    ⟨"dqdx", [some 0, some 0, some 0], true⟩,
    ⟨"dqdy", [some 0, some 0, some 0], true⟩,
    ⟨"dqdz", [some 0, some 0, some 0], true⟩]

/-- `src/compute/boundaryConditions/walls.cpp:62-79`, `adiabaticNoSlipWall` -/
def k36 : Kernel where
  file := "src/compute/boundaryConditions/walls.cpp"
  line := 62
  func := "adiabaticNoSlipWall"
  dim := 2
  reduce := false
  acc := [⟨"q", [some 0, some 0], true⟩,
    ⟨"q", [some 0, some 0], false⟩,
    ⟨"knx", [some 0, some 0], false⟩,
    ⟨"kny", [some 0, some 0], false⟩,
    ⟨"knz", [some 0, some 0], false⟩]

/-- `src/compute/boundaryConditions/walls.cpp:94-99`, `adiabaticNoSlipWall` -/
def k37 : Kernel where
  file := "src/compute/boundaryConditions/walls.cpp"
  line := 94
  func := "adiabaticNoSlipWall"
  dim := 2
  reduce := false
  acc := [⟨"q", [some 0, some 0], true⟩,
    ⟨"q", [some 0, some 0], false⟩]

/-- `src/compute/boundaryConditions/walls.cpp:118-146`, `adiabaticNoSlipWall` -/
def k38 : Kernel where
  file := "src/compute/boundaryConditions/walls.cpp"
  line := 118
  func := "adiabaticNoSlipWall"
  dim := 2
  reduce := false
  acc := [⟨"dqdx", [some 0, some 0], true⟩,
    ⟨"dqdx", [some 0, some 0], false⟩,
    ⟨"dqdy", [some 0, some 0], true⟩,
    ⟨"dqdy", [some 0, some 0], false⟩,
    ⟨"dqdz", [some 0, some 0], true⟩,
    ⟨"dqdz", [some 0, some 0], false⟩]

/-- `src/compute/boundaryConditions/walls.cpp:195-212`, `adiabaticSlipWall` -/
def k39 : Kernel where
  file := "src/compute/boundaryConditions/walls.cpp"
  line := 195
  func := "adiabaticSlipWall"
  dim := 2
  reduce := false
  acc := [⟨"q", [some 0, some 0], true⟩,
    ⟨"q", [some 0, some 0], false⟩,
    ⟨"knx", [some 0, some 0], false⟩,
    ⟨"kny", [some 0, some 0], false⟩,
    ⟨"knz", [some 0, some 0], false⟩]

/-- `src/compute/boundaryConditions/walls.cpp:234-239`, `adiabaticSlipWall` -/
def k40 : Kernel where
  file := "src/compute/boundaryConditions/walls.cpp"
  line := 234
  func := "adiabaticSlipWall"
  dim := 3
  reduce := false
  acc := [⟨"dqdx", [some 0, some 0, some 0], true⟩,
    ⟨"dqdx", [some 0, some 0, some 0], false⟩,
    ⟨"dqdy", [some 0, some 0, some 0], true⟩,
    ⟨"dqdy", [some 0, some 0, some 0], false⟩,
    ⟨"dqdz", [some 0, some 0, some 0], true⟩,
    ⟨"dqdz", [some 0, some 0, some 0], false⟩]

/-- `src/compute/boundaryConditions/walls.cpp:288-305`, `adiabaticMovingWall` -/
def k41 : Kernel where
  file := "src/compute/boundaryConditions/walls.cpp"
  line := 288
  func := "adiabaticMovingWall"
  dim := 2
  reduce := false
  acc := [⟨"q", [some 0, some 0], true⟩,
    ⟨"q", [some 0, some 0], false⟩,
    ⟨"knx", [some 0, some 0], false⟩,
    ⟨"kny", [some 0, some 0], false⟩,
    ⟨"knz", [some 0, some 0], false⟩]

/-- `src/compute/boundaryConditions/walls.cpp:319-324`, `adiabaticMovingWall` -/
def k42 : Kernel where
  file := "src/compute/boundaryConditions/walls.cpp"
  line := 319
  func := "adiabaticMovingWall"
  dim := 2
  reduce := false
  acc := [⟨"q", [some 0, some 0], true⟩,
    ⟨"face.qBcVals", [some 0, some 0], false⟩,
    ⟨"q", [some 0, some 0], false⟩]

/-- `src/compute/boundaryConditions/walls.cpp:342-370`, `adiabaticMovingWall` -/
def k43 : Kernel where
  file := "src/compute/boundaryConditions/walls.cpp"
  line := 342
  func := "adiabaticMovingWall"
  dim := 2
  reduce := false
  acc := [⟨"dqdx", [some 0, some 0], true⟩,
    ⟨"dqdx", [some 0, some 0], false⟩,
    ⟨"dqdy", [some 0, some 0], true⟩,
    ⟨"dqdy", [some 0, some 0], false⟩,
    ⟨"dqdz", [some 0, some 0], true⟩,
    ⟨"dqdz", [some 0, some 0], false⟩]

/-- `src/compute/boundaryConditions/walls.cpp:419-436`, `isoTNoSlipWall` -/
def k44 : Kernel where
  file := "src/compute/boundaryConditions/walls.cpp"
  line := 419
  func := "isoTNoSlipWall"
  dim := 2
  reduce := false
  acc := [⟨"q", [some 0, some 0], true⟩,
    ⟨"q", [some 0, some 0], false⟩,
    ⟨"knx", [some 0, some 0], false⟩,
    ⟨"kny", [some 0, some 0], false⟩,
    ⟨"knz", [some 0, some 0], false⟩,
    ⟨"face.qBcVals", [some 0, some 0], false⟩]

/-- `src/compute/boundaryConditions/walls.cpp:451-456`, `isoTNoSlipWall` -/
def k45 : Kernel where
  file := "src/compute/boundaryConditions/walls.cpp"
  line := 451
  func := "isoTNoSlipWall"
  dim := 2
  reduce := false
  acc := [⟨"q", [some 0, some 0], true⟩,
    ⟨"q", [some 0, some 0], false⟩]

/-- `src/compute/boundaryConditions/walls.cpp:474-501`, `isoTNoSlipWall` -/
def k46 : Kernel where
  file := "src/compute/boundaryConditions/walls.cpp"
  line := 474
  func := "isoTNoSlipWall"
  dim := 2
  reduce := false
  acc := [⟨"dqdx", [some 0, some 0], true⟩,
    ⟨"dqdx", [some 0, some 0], false⟩,
    ⟨"dqdy", [some 0, some 0], true⟩,
    ⟨"dqdy", [some 0, some 0], false⟩,
    ⟨"dqdz", [some 0, some 0], true⟩,
    ⟨"dqdz", [some 0, some 0], false⟩]

/-- `src/compute/boundaryConditions/walls.cpp:550-567`, `isoTSlipWall` -/
def k47 : Kernel where
  file := "src/compute/boundaryConditions/walls.cpp"
  line := 550
  func := "isoTSlipWall"
  dim := 2
  reduce := false
  acc := [⟨"q", [some 0, some 0], true⟩,
    ⟨"q", [some 0, some 0], false⟩,
    ⟨"knx", [some 0, some 0], false⟩,
    ⟨"kny", [some 0, some 0], false⟩,
    ⟨"knz", [some 0, some 0], false⟩,
    ⟨"face.qBcVals", [some 0, some 0], false⟩]

/-- `src/compute/boundaryConditions/walls.cpp:587-616`, `isoTSlipWall` -/
def k48 : Kernel where
  file := "src/compute/boundaryConditions/walls.cpp"
  line := 587
  func := "isoTSlipWall"
  dim := 2
  reduce := false
  acc := [⟨"dqdx", [some 0, some 0], true⟩,
    ⟨"dqdx", [some 0, some 0], false⟩,
    ⟨"dqdy", [some 0, some 0], true⟩,
    ⟨"dqdy", [some 0, some 0], false⟩,
    ⟨"dqdz", [some 0, some 0], true⟩,
    ⟨"dqdz", [some 0, some 0], false⟩]

/-- `src/compute/boundaryConditions/walls.cpp:665-682`, `isoTMovingWall` -/
def k49 : Kernel where
  file := "src/compute/boundaryConditions/walls.cpp"
  line := 665
  func := "isoTMovingWall"
  dim := 2
  reduce := false
  acc := [⟨"q", [some 0, some 0], true⟩,
    ⟨"q", [some 0, some 0], false⟩,
    ⟨"knx", [some 0, some 0], false⟩,
    ⟨"kny", [some 0, some 0], false⟩,
    ⟨"knz", [some 0, some 0], false⟩,
    ⟨"face.qBcVals", [some 0, some 0], false⟩]

/-- `src/compute/boundaryConditions/walls.cpp:697-702`, `isoTMovingWall` -/
def k50 : Kernel where
  file := "src/compute/boundaryConditions/walls.cpp"
  line := 697
  func := "isoTMovingWall"
  dim := 2
  reduce := false
  acc := [⟨"q", [some 0, some 0], true⟩,
    ⟨"face.qBcVals", [some 0, some 0], false⟩,
    ⟨"q", [some 0, some 0], false⟩]

/-- `src/compute/boundaryConditions/walls.cpp:720-746`, `isoTMovingWall` -/
def k51 : Kernel where
  file := "src/compute/boundaryConditions/walls.cpp"
  line := 720
  func := "isoTMovingWall"
  dim := 2
  reduce := false
  acc := [⟨"dqdx", [some 0, some 0], true⟩,
    ⟨"dqdx", [some 0, some 0], false⟩,
    ⟨"dqdy", [some 0, some 0], true⟩,
    ⟨"dqdy", [some 0, some 0], false⟩,
    ⟨"dqdz", [some 0, some 0], true⟩,
    ⟨"dqdz", [some 0, some 0], false⟩]

/-- `src/compute/chemistry/chem_C2H4_Air_Red22.cpp:59-3085`, `chem_C2H4_Air_Red22` -/
def k52 : Kernel where
  file := "src/compute/chemistry/chem_C2H4_Air_Red22.cpp"
  line := 59
  func := "chem_C2H4_Air_Red22"
  dim := 3
  reduce := false
  acc := [⟨"q", [some 0, some 0, some 0], false⟩,
    ⟨"Q", [some 0, some 0, some 0], false⟩,
    ⟨"th.NASA7", [none, none, none], false⟩,
    ⟨"th.MW", [none, none, none], false⟩,
    ⟨"dQ", [some 0, some 0, some 0], true⟩,
    ⟨"omega", [some 0, some 0, some 0], true⟩]

/-- `src/compute/chemistry/chem_C2H4_Air_Skeletal.cpp:69-2557`, `chem_C2H4_Air_Skeletal` -/
def k53 : Kernel where
  file := "src/compute/chemistry/chem_C2H4_Air_Skeletal.cpp"
  line := 69
  func := "chem_C2H4_Air_Skeletal"
  dim := 3
  reduce := false
  acc := [⟨"q", [some 0, some 0, some 0], false⟩,
    ⟨"Q", [some 0, some 0, some 0], false⟩,
    ⟨"th.MW", [none, none, none], false⟩,
    ⟨"th.NASA7", [none, none, none], false⟩,
    ⟨"dQ", [some 0, some 0, some 0], true⟩,
    ⟨"omega", [some 0, some 0, some 0], true⟩]

/-- `src/compute/chemistry/chem_CH4_O2_FFCMY.cpp:49-615`, `chem_CH4_O2_FFCMY` -/
def k54 : Kernel where
  file := "src/compute/chemistry/chem_CH4_O2_FFCMY.cpp"
  line := 49
  func := "chem_CH4_O2_FFCMY"
  dim := 3
  reduce := false
  acc := [⟨"q", [some 0, some 0, some 0], false⟩,
    ⟨"Q", [some 0, some 0, some 0], false⟩,
    ⟨"th.MW", [none, none, none], false⟩,
    ⟨"th.NASA7", [none, none, none], false⟩,
    ⟨"dQ", [some 0, some 0, some 0], true⟩,
    ⟨"omega", [some 0, some 0, some 0], true⟩]

/-- `src/compute/chemistry/chem_GRI30.cpp:86-3992`, `chem_GRI30` -/
def k55 : Kernel where
  file := "src/compute/chemistry/chem_GRI30.cpp"
  line := 86
  func := "chem_GRI30"
  dim := 3
  reduce := false
  acc := [⟨"q", [some 0, some 0, some 0], false⟩,
    ⟨"Q", [some 0, some 0, some 0], false⟩,
    ⟨"th.MW", [none, none, none], false⟩,
    ⟨"th.NASA7", [none, none, none], false⟩,
    ⟨"dQ", [some 0, some 0, some 0], true⟩,
    ⟨"omega", [some 0, some 0, some 0], true⟩]

/-- `src/compute/diffFlux/alphaDampingFlux.cpp:35-236`, `computeFlux` -/
def k56 : Kernel where
  file := "src/compute/diffFlux/alphaDampingFlux.cpp"
  line := 35
  func := "computeFlux"
  dim := 3
  reduce := false
  acc := [⟨"qt", [some 0, some 0, some 0], false⟩,
    ⟨"qt", [none, none, none], false⟩,
    ⟨"param", [some 0, some 0, some 0], true⟩,
    ⟨"xc", [some 0, some 0, some 0], false⟩,
    ⟨"xc", [none, none, none], false⟩,
    ⟨"yc", [some 0, some 0, some 0], false⟩,
    ⟨"yc", [none, none, none], false⟩,
    ⟨"zc", [some 0, some 0, some 0], false⟩,
    ⟨"zc", [none, none, none], false⟩,
    ⟨"param", [some 0, some 0, some 0], false⟩,
    ⟨"dqdx", [none, none, none], false⟩,
    ⟨"dqdy", [none, none, none], false⟩,
    ⟨"dqdz", [none, none, none], false⟩,
    ⟨"q", [none, none, none], false⟩,
    ⟨"dqdx", [some 0, some 0, some 0], false⟩,
    ⟨"dqdy", [some 0, some 0, some 0], false⟩,
    ⟨"dqdz", [some 0, some 0, some 0], false⟩,
    ⟨"q", [some 0, some 0, some 0], false⟩,
    ⟨"Q", [some 0, some 0, some 0], false⟩,
    ⟨"Q", [none, none, none], false⟩,
    ⟨"qh", [some 0, some 0, some 0], false⟩,
    ⟨"qh", [none, none, none], false⟩]

/-- `src/compute/diffFlux/diffusiveFlux.cpp:23-151`, `computeFlux` -/
def k57 : Kernel where
  file := "src/compute/diffFlux/diffusiveFlux.cpp"
  line := 23
  func := "computeFlux"
  dim := 3
  reduce := false
  acc := [⟨"qt", [some 0, some 0, some 0], false⟩,
    ⟨"qt", [none, none, none], false⟩,
    ⟨"param", [some 0, some 0, some 0], true⟩,
    ⟨"dqdx", [some 0, some 0, some 0], false⟩,
    ⟨"dqdx", [none, none, none], false⟩,
    ⟨"dqdy", [some 0, some 0, some 0], false⟩,
    ⟨"dqdy", [none, none, none], false⟩,
    ⟨"dqdz", [some 0, some 0, some 0], false⟩,
    ⟨"dqdz", [none, none, none], false⟩,
    ⟨"param", [some 0, some 0, some 0], false⟩,
    ⟨"q", [some 0, some 0, some 0], false⟩,
    ⟨"q", [none, none, none], false⟩,
    ⟨"Q", [some 0, some 0, some 0], false⟩,
    ⟨"Q", [none, none, none], false⟩,
    ⟨"qh", [some 0, some 0, some 0], false⟩,
    ⟨"qh", [none, none, none], false⟩]

/-- `src/compute/subgrid/mixedScaleModel.cpp:23-104`, `mixedScaleModel` -/
def k58 : Kernel where
  file := "src/compute/subgrid/mixedScaleModel.cpp"
  line := 23
  func := "mixedScaleModel"
  dim := 3
  reduce := false
  acc := [⟨"q", [some 0, some 0, some 0], false⟩,
    ⟨"dqdx", [some 0, some 0, some 0], false⟩,
    ⟨"dqdy", [some 0, some 0, some 0], false⟩,
    ⟨"dqdz", [some 0, some 0, some 0], false⟩,
    ⟨"q", [some (-1), some 0, some 0], false⟩,
    ⟨"q", [some 1, some 0, some 0], false⟩,
    ⟨"q", [some 0, some (-1), some 0], false⟩,
    ⟨"q", [some 0, some 1, some 0], false⟩,
    ⟨"q", [some 0, some 0, some (-1)], false⟩,
    ⟨"q", [some 0, some 0, some 1], false⟩,
    ⟨"J", [some 0, some 0, some 0], false⟩,
    ⟨"Q", [some 0, some 0, some 0], false⟩,
    ⟨"qt", [some 0, some 0, some 0], true⟩,
    ⟨"qh", [some 0, some 0, some 0], false⟩]

/-- `src/compute/subgrid/smagorinsky.cpp:23-76`, `smagorinsky` -/
def k59 : Kernel where
  file := "src/compute/subgrid/smagorinsky.cpp"
  line := 23
  func := "smagorinsky"
  dim := 3
  reduce := false
  acc := [⟨"dqdx", [some 0, some 0, some 0], false⟩,
    ⟨"dqdy", [some 0, some 0, some 0], false⟩,
    ⟨"dqdz", [some 0, some 0, some 0], false⟩,
    ⟨"J", [some 0, some 0, some 0], false⟩,
    ⟨"Q", [some 0, some 0, some 0], false⟩,
    ⟨"qt", [some 0, some 0, some 0], true⟩,
    ⟨"qh", [some 0, some 0, some 0], false⟩]

/-- `src/compute/switches/jameson.cpp:14-34`, `jamesonPressure` -/
def k60 : Kernel where
  file := "src/compute/switches/jameson.cpp"
  line := 14
  func := "jamesonPressure"
  dim := 3
  reduce := false
  acc := [⟨"q", [some 0, some 0, some 0], false⟩,
    ⟨"q", [some 1, some 0, some 0], false⟩,
    ⟨"q", [some (-1), some 0, some 0], false⟩,
    ⟨"q", [some 0, some 1, some 0], false⟩,
    ⟨"q", [some 0, some (-1), some 0], false⟩,
    ⟨"q", [some 0, some 0, some 1], false⟩,
    ⟨"q", [some 0, some 0, some (-1)], false⟩,
    ⟨"phi", [some 0, some 0, some 0], true⟩]

/-- `src/compute/switches/vanAlbada.cpp:14-34`, `vanAlbadaPressure` -/
def k61 : Kernel where
  file := "src/compute/switches/vanAlbada.cpp"
  line := 14
  func := "vanAlbadaPressure"
  dim := 3
  reduce := false
  acc := [⟨"q", [some 0, some 0, some 0], false⟩,
    ⟨"q", [some 1, some 0, some 0], false⟩,
    ⟨"q", [some (-1), some 0, some 0], false⟩,
    ⟨"q", [some 0, some 1, some 0], false⟩,
    ⟨"q", [some 0, some (-1), some 0], false⟩,
    ⟨"q", [some 0, some 0, some 1], false⟩,
    ⟨"q", [some 0, some 0, some (-1)], false⟩,
    ⟨"phi", [some 0, some 0, some 0], true⟩]

/-- `src/compute/switches/vanLeer.cpp:14-42`, `vanLeer` -/
def k62 : Kernel where
  file := "src/compute/switches/vanLeer.cpp"
  line := 14
  func := "vanLeer"
  dim := 3
  reduce := false
  acc := [⟨"q", [some 0, some 0, some 0], false⟩,
    ⟨"q", [some 1, some 0, some 0], false⟩,
    ⟨"q", [some (-1), some 0, some 0], false⟩,
    ⟨"q", [some 0, some 1, some 0], false⟩,
    ⟨"q", [some 0, some (-1), some 0], false⟩,
    ⟨"q", [some 0, some 0, some 1], false⟩,
    ⟨"q", [some 0, some 0, some (-1)], false⟩,
    ⟨"phi", [some 0, some 0, some 0], true⟩]

/-- `src/compute/thermo/cpg.cpp:35-134`, `cpg` -/
def k63 : Kernel where
  file := "src/compute/thermo/cpg.cpp"
  line := 35
  func := "cpg"
  dim := 3
  reduce := false
  acc := [⟨"q", [some 0, some 0, some 0], false⟩,
    ⟨"q", [some 0, some 0, some 0], true⟩,
    ⟨"th.MW", [none, none, none], false⟩,
    ⟨"th.cp0", [none, none, none], false⟩,
    ⟨"Q", [some 0, some 0, some 0], true⟩,
    ⟨"qh", [some 0, some 0, some 0], true⟩]

/-- `src/compute/thermo/cpg.cpp:138-232`, `cpg` -/
def k64 : Kernel where
  file := "src/compute/thermo/cpg.cpp"
  line := 138
  func := "cpg"
  dim := 3
  reduce := false
  acc := [⟨"Q", [some 0, some 0, some 0], false⟩,
    ⟨"Q", [some 0, some 0, some 0], true⟩,
    ⟨"th.MW", [none, none, none], false⟩,
    ⟨"th.cp0", [none, none, none], false⟩,
    ⟨"q", [some 0, some 0, some 0], true⟩,
    ⟨"qh", [some 0, some 0, some 0], true⟩]

/-- `src/compute/thermo/cubic.cpp:78-354`, `cubic` -/
def k65 : Kernel where
  file := "src/compute/thermo/cubic.cpp"
  line := 78
  func := "cubic"
  dim := 3
  reduce := false
  acc := [⟨"q", [some 0, some 0, some 0], false⟩,
    ⟨"q", [some 0, some 0, some 0], true⟩,
    ⟨"th.MW", [none, none, none], false⟩,
    ⟨"th.Tcrit", [none, none, none], false⟩,
    ⟨"th.acentric", [none, none, none], false⟩,
    ⟨"th.pcrit", [none, none, none], false⟩,
    ⟨"th.NASA7", [none, none, none], false⟩,
    ⟨"Q", [some 0, some 0, some 0], true⟩,
    ⟨"qh", [some 0, some 0, some 0], true⟩]

/-- `src/compute/thermo/cubic.cpp:360-653`, `cubic` -/
def k66 : Kernel where
  file := "src/compute/thermo/cubic.cpp"
  line := 360
  func := "cubic"
  dim := 3
  reduce := false
  acc := [⟨"Q", [some 0, some 0, some 0], false⟩,
    ⟨"Q", [some 0, some 0, some 0], true⟩,
    ⟨"th.MW", [none, none, none], false⟩,
    ⟨"q", [some 0, some 0, some 0], false⟩,
    ⟨"th.Tcrit", [none, none, none], false⟩,
    ⟨"th.acentric", [none, none, none], false⟩,
    ⟨"th.pcrit", [none, none, none], false⟩,
    ⟨"th.NASA7", [none, none, none], false⟩,
    ⟨"q", [some 0, some 0, some 0], true⟩,
    ⟨"qh", [some 0, some 0, some 0], true⟩]

/-- `src/compute/thermo/tpg.cpp:38-169`, `tpg` -/
def k67 : Kernel where
  file := "src/compute/thermo/tpg.cpp"
  line := 38
  func := "tpg"
  dim := 3
  reduce := false
  acc := [⟨"q", [some 0, some 0, some 0], false⟩,
    ⟨"q", [some 0, some 0, some 0], true⟩,
    ⟨"th.MW", [none, none, none], false⟩,
    ⟨"th.NASA7", [none, none, none], false⟩,
    ⟨"Q", [some 0, some 0, some 0], true⟩,
    ⟨"qh", [some 0, some 0, some 0], true⟩]

/-- `src/compute/thermo/tpg.cpp:175-313`, `tpg` -/
def k68 : Kernel where
  file := "src/compute/thermo/tpg.cpp"
  line := 175
  func := "tpg"
  dim := 3
  reduce := false
  acc := [⟨"Q", [some 0, some 0, some 0], false⟩,
    ⟨"Q", [some 0, some 0, some 0], true⟩,
    ⟨"th.MW", [none, none, none], false⟩,
    ⟨"q", [some 0, some 0, some 0], false⟩,
    ⟨"th.NASA7", [none, none, none], false⟩,
    ⟨"q", [some 0, some 0, some 0], true⟩,
    ⟨"qh", [some 0, some 0, some 0], true⟩]

/-- `src/compute/timeIntegration/dualTime.cpp:29-33`, `dQdt` -/
def k69 : Kernel where
  file := "src/compute/timeIntegration/dualTime.cpp"
  line := 29
  func := "dQdt"
  dim := 4
  reduce := false
  acc := [⟨"dQ", [some 0, some 0, some 0, some 0], true⟩,
    ⟨"Q", [some 0, some 0, some 0, some 0], false⟩,
    ⟨"Qn", [some 0, some 0, some 0, some 0], false⟩,
    ⟨"Qnm1", [some 0, some 0, some 0, some 0], false⟩]

/-- `src/compute/timeIntegration/dualTime.cpp:57-104`, `localDtau` -/
def k70 : Kernel where
  file := "src/compute/timeIntegration/dualTime.cpp"
  line := 57
  func := "localDtau"
  dim := 3
  reduce := false
  acc := [⟨"ixc", [some 1, some 0, some 0], false⟩,
    ⟨"ixc", [some 0, some 0, some 0], false⟩,
    ⟨"iyc", [some 1, some 0, some 0], false⟩,
    ⟨"iyc", [some 0, some 0, some 0], false⟩,
    ⟨"izc", [some 1, some 0, some 0], false⟩,
    ⟨"izc", [some 0, some 0, some 0], false⟩,
    ⟨"jxc", [some 0, some 1, some 0], false⟩,
    ⟨"jxc", [some 0, some 0, some 0], false⟩,
    ⟨"jyc", [some 0, some 1, some 0], false⟩,
    ⟨"jyc", [some 0, some 0, some 0], false⟩,
    ⟨"jzc", [some 0, some 1, some 0], false⟩,
    ⟨"jzc", [some 0, some 0, some 0], false⟩,
    ⟨"kxc", [some 0, some 0, some 1], false⟩,
    ⟨"kxc", [some 0, some 0, some 0], false⟩,
    ⟨"kyc", [some 0, some 0, some 1], false⟩,
    ⟨"kyc", [some 0, some 0, some 0], false⟩,
    ⟨"kzc", [some 0, some 0, some 1], false⟩,
    ⟨"kzc", [some 0, some 0, some 0], false⟩,
    ⟨"q", [some 0, some 0, some 0], false⟩,
    ⟨"inx", [some 0, some 0, some 0], false⟩,
    ⟨"inx", [some 1, some 0, some 0], false⟩,
    ⟨"iny", [some 0, some 0, some 0], false⟩,
    ⟨"iny", [some 1, some 0, some 0], false⟩,
    ⟨"inz", [some 0, some 0, some 0], false⟩,
    ⟨"inz", [some 1, some 0, some 0], false⟩,
    ⟨"jnx", [some 0, some 0, some 0], false⟩,
    ⟨"jnx", [some 0, some 1, some 0], false⟩,
    ⟨"jny", [some 0, some 0, some 0], false⟩,
    ⟨"jny", [some 0, some 1, some 0], false⟩,
    ⟨"jnz", [some 0, some 0, some 0], false⟩,
    ⟨"jnz", [some 0, some 1, some 0], false⟩,
    ⟨"knx", [some 0, some 0, some 0], false⟩,
    ⟨"knx", [some 0, some 0, some 1], false⟩,
    ⟨"kny", [some 0, some 0, some 0], false⟩,
    ⟨"kny", [some 0, some 0, some 1], false⟩,
    ⟨"knz", [some 0, some 0, some 0], false⟩,
    ⟨"knz", [some 0, some 0, some 1], false⟩,
    ⟨"qh", [some 0, some 0, some 0], false⟩,
    ⟨"qt", [some 0, some 0, some 0], false⟩,
    ⟨"Q", [some 0, some 0, some 0], false⟩,
    ⟨"dtau", [some 0, some 0, some 0], true⟩]

/-- `src/compute/timeIntegration/dualTime.cpp:115-119`, `DTrk3s1` -/
def k71 : Kernel where
  file := "src/compute/timeIntegration/dualTime.cpp"
  line := 115
  func := "DTrk3s1"
  dim := 4
  reduce := false
  acc := [⟨"Q0", [some 0, some 0, some 0, some 0], true⟩,
    ⟨"q", [some 0, some 0, some 0, some 0], false⟩,
    ⟨"q", [some 0, some 0, some 0, some 0], true⟩,
    ⟨"dtau", [some 0, some 0, some 0, none], false⟩,
    ⟨"dQ", [some 0, some 0, some 0, some 0], false⟩]

/-- `src/compute/timeIntegration/dualTime.cpp:130-133`, `DTrk3s2` -/
def k72 : Kernel where
  file := "src/compute/timeIntegration/dualTime.cpp"
  line := 130
  func := "DTrk3s2"
  dim := 4
  reduce := false
  acc := [⟨"q", [some 0, some 0, some 0, some 0], true⟩,
    ⟨"Q0", [some 0, some 0, some 0, some 0], false⟩,
    ⟨"q", [some 0, some 0, some 0, some 0], false⟩,
    ⟨"dQ", [some 0, some 0, some 0, some 0], false⟩,
    ⟨"dtau", [some 0, some 0, some 0, none], false⟩]

/-- `src/compute/timeIntegration/dualTime.cpp:144-148`, `DTrk3s3` -/
def k73 : Kernel where
  file := "src/compute/timeIntegration/dualTime.cpp"
  line := 144
  func := "DTrk3s3"
  dim := 4
  reduce := false
  acc := [⟨"q", [some 0, some 0, some 0, some 0], true⟩,
    ⟨"Q0", [some 0, some 0, some 0, some 0], false⟩,
    ⟨"q", [some 0, some 0, some 0, some 0], false⟩,
    ⟨"dQ", [some 0, some 0, some 0, some 0], false⟩,
    ⟨"dtau", [some 0, some 0, some 0, none], false⟩]

/-- `src/compute/timeIntegration/dualTime.cpp:173-204`, `residual` -/
def k74 : Kernel where
  file := "src/compute/timeIntegration/dualTime.cpp"
  line := 173
  func := "residual"
  dim := 3
  reduce := true
  acc := [⟨"q", [some 0, some 0, some 0], false⟩,
    ⟨"Q0", [some 0, some 0, some 0], false⟩]

/-- `src/compute/timeIntegration/dualTime.cpp:229-235`, `residual` -/
def k75 : Kernel where
  file := "src/compute/timeIntegration/dualTime.cpp"
  line := 229
  func := "residual"
  dim := 3
  reduce := true
  acc := [⟨"q", [some 0, some 0, some 0], false⟩,
    ⟨"Q0", [some 0, some 0, some 0], false⟩]

/-- `src/compute/timeIntegration/dualTime.cpp:310-593`, `invertDQ` -/
def k76 : Kernel where
  file := "src/compute/timeIntegration/dualTime.cpp"
  line := 310
  func := "invertDQ"
  dim := 3
  reduce := false
  acc := [⟨"q", [some 0, some 0, some 0], true⟩,
    ⟨"q", [some 0, some 0, some 0], false⟩,
    ⟨"Q", [some 0, some 0, some 0], false⟩,
    ⟨"qh", [some 0, some 0, some 0], false⟩,
    ⟨"th.MW", [none, none, none], false⟩,
    ⟨"dtau", [some 0, some 0, some 0], false⟩,
    ⟨"ixc", [some 1, some 0, some 0], false⟩,
    ⟨"ixc", [some 0, some 0, some 0], false⟩,
    ⟨"iyc", [some 1, some 0, some 0], false⟩,
    ⟨"iyc", [some 0, some 0, some 0], false⟩,
    ⟨"izc", [some 1, some 0, some 0], false⟩,
    ⟨"izc", [some 0, some 0, some 0], false⟩,
    ⟨"jxc", [some 0, some 1, some 0], false⟩,
    ⟨"jxc", [some 0, some 0, some 0], false⟩,
    ⟨"jyc", [some 0, some 1, some 0], false⟩,
    ⟨"jyc", [some 0, some 0, some 0], false⟩,
    ⟨"jzc", [some 0, some 1, some 0], false⟩,
    ⟨"jzc", [some 0, some 0, some 0], false⟩,
    ⟨"kxc", [some 0, some 0, some 1], false⟩,
    ⟨"kxc", [some 0, some 0, some 0], false⟩,
    ⟨"kyc", [some 0, some 0, some 1], false⟩,
    ⟨"kyc", [some 0, some 0, some 0], false⟩,
    ⟨"kzc", [some 0, some 0, some 1], false⟩,
    ⟨"kzc", [some 0, some 0, some 0], false⟩,
    ⟨"qt", [some 0, some 0, some 0], false⟩,
    ⟨"dQ", [some 0, some 0, some 0], false⟩,
    ⟨"dQ", [some 0, some 0, some 0], true⟩]

/-- `src/compute/timeIntegration/maccormackStages.cpp:13-16`, `corrector` -/
def k77 : Kernel where
  file := "src/compute/timeIntegration/maccormackStages.cpp"
  line := 13
  func := "corrector"
  dim := 4
  reduce := false
  acc := [⟨"Q", [some 0, some 0, some 0, some 0], true⟩,
    ⟨"Q0", [some 0, some 0, some 0, some 0], false⟩,
    ⟨"Q", [some 0, some 0, some 0, some 0], false⟩,
    ⟨"dQ", [some 0, some 0, some 0, some 0], false⟩]

/-- `src/compute/timeIntegration/rk2Stages.cpp:13-17`, `rk2s1` -/
def k78 : Kernel where
  file := "src/compute/timeIntegration/rk2Stages.cpp"
  line := 13
  func := "rk2s1"
  dim := 4
  reduce := false
  acc := [⟨"Q0", [some 0, some 0, some 0, some 0], true⟩,
    ⟨"Q", [some 0, some 0, some 0, some 0], false⟩,
    ⟨"Q", [some 0, some 0, some 0, some 0], true⟩,
    ⟨"dQ", [some 0, some 0, some 0, some 0], false⟩]

/-- `src/compute/timeIntegration/rk2Stages.cpp:28-31`, `rk2s2` -/
def k79 : Kernel where
  file := "src/compute/timeIntegration/rk2Stages.cpp"
  line := 28
  func := "rk2s2"
  dim := 4
  reduce := false
  acc := [⟨"Q", [some 0, some 0, some 0, some 0], true⟩,
    ⟨"Q0", [some 0, some 0, some 0, some 0], false⟩,
    ⟨"Q", [some 0, some 0, some 0, some 0], false⟩,
    ⟨"dQ", [some 0, some 0, some 0, some 0], false⟩]

/-- `src/compute/timeIntegration/rk34Stages.cpp:13-17`, `rk34s1` -/
def k80 : Kernel where
  file := "src/compute/timeIntegration/rk34Stages.cpp"
  line := 13
  func := "rk34s1"
  dim := 4
  reduce := false
  acc := [⟨"Q0", [some 0, some 0, some 0, some 0], true⟩,
    ⟨"Q", [some 0, some 0, some 0, some 0], false⟩,
    ⟨"Q", [some 0, some 0, some 0, some 0], true⟩,
    ⟨"dQ", [some 0, some 0, some 0, some 0], false⟩]

/-- `src/compute/timeIntegration/rk34Stages.cpp:28-30`, `rk34s2` -/
def k81 : Kernel where
  file := "src/compute/timeIntegration/rk34Stages.cpp"
  line := 28
  func := "rk34s2"
  dim := 4
  reduce := false
  acc := [⟨"Q", [some 0, some 0, some 0, some 0], true⟩,
    ⟨"Q", [some 0, some 0, some 0, some 0], false⟩,
    ⟨"dQ", [some 0, some 0, some 0, some 0], false⟩]

/-- `src/compute/timeIntegration/rk34Stages.cpp:41-45`, `rk34s3` -/
def k82 : Kernel where
  file := "src/compute/timeIntegration/rk34Stages.cpp"
  line := 41
  func := "rk34s3"
  dim := 4
  reduce := false
  acc := [⟨"Q", [some 0, some 0, some 0, some 0], true⟩,
    ⟨"Q0", [some 0, some 0, some 0, some 0], false⟩,
    ⟨"Q", [some 0, some 0, some 0, some 0], false⟩,
    ⟨"dQ", [some 0, some 0, some 0, some 0], false⟩]

/-- `src/compute/timeIntegration/rk34Stages.cpp:56-58`, `rk34s4` -/
def k83 : Kernel where
  file := "src/compute/timeIntegration/rk34Stages.cpp"
  line := 56
  func := "rk34s4"
  dim := 4
  reduce := false
  acc := [⟨"Q", [some 0, some 0, some 0, some 0], true⟩,
    ⟨"Q", [some 0, some 0, some 0, some 0], false⟩,
    ⟨"dQ", [some 0, some 0, some 0, some 0], false⟩]

/-- `src/compute/timeIntegration/rk3Stages.cpp:13-17`, `rk3s1` -/
def k84 : Kernel where
  file := "src/compute/timeIntegration/rk3Stages.cpp"
  line := 13
  func := "rk3s1"
  dim := 4
  reduce := false
  acc := [⟨"Q0", [some 0, some 0, some 0, some 0], true⟩,
    ⟨"Q", [some 0, some 0, some 0, some 0], false⟩,
    ⟨"Q", [some 0, some 0, some 0, some 0], true⟩,
    ⟨"dQ", [some 0, some 0, some 0, some 0], false⟩]

/-- `src/compute/timeIntegration/rk3Stages.cpp:28-31`, `rk3s2` -/
def k85 : Kernel where
  file := "src/compute/timeIntegration/rk3Stages.cpp"
  line := 28
  func := "rk3s2"
  dim := 4
  reduce := false
  acc := [⟨"Q", [some 0, some 0, some 0, some 0], true⟩,
    ⟨"Q0", [some 0, some 0, some 0, some 0], false⟩,
    ⟨"Q", [some 0, some 0, some 0, some 0], false⟩,
    ⟨"dQ", [some 0, some 0, some 0, some 0], false⟩]

/-- `src/compute/timeIntegration/rk3Stages.cpp:42-46`, `rk3s3` -/
def k86 : Kernel where
  file := "src/compute/timeIntegration/rk3Stages.cpp"
  line := 42
  func := "rk3s3"
  dim := 4
  reduce := false
  acc := [⟨"Q", [some 0, some 0, some 0, some 0], true⟩,
    ⟨"Q0", [some 0, some 0, some 0, some 0], false⟩,
    ⟨"Q", [some 0, some 0, some 0, some 0], false⟩,
    ⟨"dQ", [some 0, some 0, some 0, some 0], false⟩]

/-- `src/compute/timeIntegration/rk4Stages.cpp:13-18`, `rk4s1` -/
def k87 : Kernel where
  file := "src/compute/timeIntegration/rk4Stages.cpp"
  line := 13
  func := "rk4s1"
  dim := 4
  reduce := false
  acc := [⟨"Q0", [some 0, some 0, some 0, some 0], true⟩,
    ⟨"Q", [some 0, some 0, some 0, some 0], false⟩,
    ⟨"Q1", [some 0, some 0, some 0, some 0], true⟩,
    ⟨"dQ", [some 0, some 0, some 0, some 0], false⟩,
    ⟨"Q", [some 0, some 0, some 0, some 0], true⟩,
    ⟨"Q0", [some 0, some 0, some 0, some 0], false⟩,
    ⟨"Q1", [some 0, some 0, some 0, some 0], false⟩]

/-- `src/compute/timeIntegration/rk4Stages.cpp:29-32`, `rk4s2` -/
def k88 : Kernel where
  file := "src/compute/timeIntegration/rk4Stages.cpp"
  line := 29
  func := "rk4s2"
  dim := 4
  reduce := false
  acc := [⟨"Q2", [some 0, some 0, some 0, some 0], true⟩,
    ⟨"dQ", [some 0, some 0, some 0, some 0], false⟩,
    ⟨"Q", [some 0, some 0, some 0, some 0], true⟩,
    ⟨"Q0", [some 0, some 0, some 0, some 0], false⟩,
    ⟨"Q2", [some 0, some 0, some 0, some 0], false⟩]

/-- `src/compute/timeIntegration/rk4Stages.cpp:43-46`, `rk4s3` -/
def k89 : Kernel where
  file := "src/compute/timeIntegration/rk4Stages.cpp"
  line := 43
  func := "rk4s3"
  dim := 4
  reduce := false
  acc := [⟨"Q3", [some 0, some 0, some 0, some 0], true⟩,
    ⟨"dQ", [some 0, some 0, some 0, some 0], false⟩,
    ⟨"Q", [some 0, some 0, some 0, some 0], true⟩,
    ⟨"Q0", [some 0, some 0, some 0, some 0], false⟩,
    ⟨"Q3", [some 0, some 0, some 0, some 0], false⟩]

/-- `src/compute/timeIntegration/rk4Stages.cpp:57-62`, `rk4s4` -/
def k90 : Kernel where
  file := "src/compute/timeIntegration/rk4Stages.cpp"
  line := 57
  func := "rk4s4"
  dim := 4
  reduce := false
  acc := [⟨"Q", [some 0, some 0, some 0, some 0], true⟩,
    ⟨"Q0", [some 0, some 0, some 0, some 0], false⟩,
    ⟨"Q1", [some 0, some 0, some 0, some 0], false⟩,
    ⟨"Q2", [some 0, some 0, some 0, some 0], false⟩,
    ⟨"Q3", [some 0, some 0, some 0, some 0], false⟩,
    ⟨"dQ", [some 0, some 0, some 0, some 0], false⟩]

/-- `src/compute/transport/chungDenseGasUnityLewis.cpp:53-215`, `chungDenseGasUnityLewis` -/
def k91 : Kernel where
  file := "src/compute/transport/chungDenseGasUnityLewis.cpp"
  line := 53
  func := "chungDenseGasUnityLewis"
  dim := 3
  reduce := false
  acc := [⟨"q", [some 0, some 0, some 0], false⟩,
    ⟨"th.MW", [none, none, none], false⟩,
    ⟨"th.Vcrit", [none, none, none], false⟩,
    ⟨"th.Tcrit", [none, none, none], false⟩,
    ⟨"th.acentric", [none, none, none], false⟩,
    ⟨"th.redDipole", [none, none, none], false⟩,
    ⟨"th.chungA", [none, none, none], false⟩,
    ⟨"Q", [some 0, some 0, some 0], false⟩,
    ⟨"qh", [some 0, some 0, some 0], false⟩,
    ⟨"th.chungB", [none, none, none], false⟩,
    ⟨"qt", [some 0, some 0, some 0], true⟩]

/-- `src/compute/transport/constantProps.cpp:32-101`, `constantProps` -/
def k92 : Kernel where
  file := "src/compute/transport/constantProps.cpp"
  line := 32
  func := "constantProps"
  dim := 3
  reduce := false
  acc := [⟨"q", [some 0, some 0, some 0], false⟩,
    ⟨"th.MW", [none, none, none], false⟩,
    ⟨"th.mu0", [none, none, none], false⟩,
    ⟨"th.kappa0", [none, none, none], false⟩,
    ⟨"qt", [some 0, some 0, some 0], true⟩,
    ⟨"Q", [some 0, some 0, some 0], false⟩,
    ⟨"qh", [some 0, some 0, some 0], false⟩]

/-- `src/compute/transport/kineticTheory.cpp:46-186`, `kineticTheory` -/
def k93 : Kernel where
  file := "src/compute/transport/kineticTheory.cpp"
  line := 46
  func := "kineticTheory"
  dim := 3
  reduce := false
  acc := [⟨"q", [some 0, some 0, some 0], false⟩,
    ⟨"th.MW", [none, none, none], false⟩,
    ⟨"th.muPoly", [none, none, none], false⟩,
    ⟨"th.kappaPoly", [none, none, none], false⟩,
    ⟨"th.DijPoly", [none, none, none], false⟩,
    ⟨"qt", [some 0, some 0, some 0], true⟩]

/-- `src/compute/transport/kineticTheoryUnityLewis.cpp:41-135`, `kineticTheoryUnityLewis` -/
def k94 : Kernel where
  file := "src/compute/transport/kineticTheoryUnityLewis.cpp"
  line := 41
  func := "kineticTheoryUnityLewis"
  dim := 3
  reduce := false
  acc := [⟨"q", [some 0, some 0, some 0], false⟩,
    ⟨"th.MW", [none, none, none], false⟩,
    ⟨"th.muPoly", [none, none, none], false⟩,
    ⟨"th.kappaPoly", [none, none, none], false⟩,
    ⟨"qt", [some 0, some 0, some 0], true⟩,
    ⟨"Q", [some 0, some 0, some 0], false⟩,
    ⟨"qh", [some 0, some 0, some 0], false⟩]

/-- `src/compute/utils/applyFluxes.cpp:15-24`, `applyFlux` -/
def k95 : Kernel where
  file := "src/compute/utils/applyFluxes.cpp"
  line := 15
  func := "applyFlux"
  dim := 4
  reduce := false
  acc := [⟨"dQ", [some 0, some 0, some 0, some 0], true⟩,
    ⟨"iF", [some 0, some 0, some 0, some 0], false⟩,
    ⟨"jF", [some 0, some 0, some 0, some 0], false⟩,
    ⟨"kF", [some 0, some 0, some 0, some 0], false⟩,
    ⟨"J", [some 0, some 0, some 0, none], false⟩,
    ⟨"iF", [some 1, some 0, some 0, some 0], false⟩,
    ⟨"jF", [some 0, some 1, some 0, some 0], false⟩,
    ⟨"kF", [some 0, some 0, some 1, some 0], false⟩]

/-- `src/compute/utils/applyFluxes.cpp:36-61`, `applyHybridFlux` -/
def k96 : Kernel where
  file := "src/compute/utils/applyFluxes.cpp"
  line := 36
  func := "applyHybridFlux"
  dim := 4
  reduce := false
  acc := [⟨"phi", [some 0, some 0, some 0, none], false⟩,
    ⟨"phi", [some (-1), some 0, some 0, none], false⟩,
    ⟨"phi", [some 1, some 0, some 0, none], false⟩,
    ⟨"phi", [some 0, some (-1), some 0, none], false⟩,
    ⟨"phi", [some 0, some 1, some 0, none], false⟩,
    ⟨"phi", [some 0, some 0, some (-1), none], false⟩,
    ⟨"phi", [some 0, some 0, some 1, none], false⟩,
    ⟨"dQ", [some 0, some 0, some 0, some 0], true⟩,
    ⟨"iF", [some 0, some 0, some 0, some 0], false⟩,
    ⟨"jF", [some 0, some 0, some 0, some 0], false⟩,
    ⟨"kF", [some 0, some 0, some 0, some 0], false⟩,
    ⟨"J", [some 0, some 0, some 0, none], false⟩,
    ⟨"iF", [some 1, some 0, some 0, some 0], false⟩,
    ⟨"jF", [some 0, some 1, some 0, some 0], false⟩,
    ⟨"kF", [some 0, some 0, some 1, some 0], false⟩]

/-- `src/compute/utils/applyFluxes.cpp:73-82`, `applyDissipationFlux` -/
def k97 : Kernel where
  file := "src/compute/utils/applyFluxes.cpp"
  line := 73
  func := "applyDissipationFlux"
  dim := 4
  reduce := false
  acc := [⟨"dQ", [some 0, some 0, some 0, some 0], true⟩,
    ⟨"iF", [some 0, some 0, some 0, some 0], false⟩,
    ⟨"jF", [some 0, some 0, some 0, some 0], false⟩,
    ⟨"kF", [some 0, some 0, some 0, some 0], false⟩,
    ⟨"J", [some 0, some 0, some 0, none], false⟩,
    ⟨"iF", [some 1, some 0, some 0, some 0], false⟩,
    ⟨"jF", [some 0, some 1, some 0, some 0], false⟩,
    ⟨"kF", [some 0, some 0, some 1, some 0], false⟩]

/-- `src/compute/utils/axpby.cpp:29-31`, `AEQB` -/
def k98 : Kernel where
  file := "src/compute/utils/axpby.cpp"
  line := 29
  func := "AEQB"
  dim := 4
  reduce := false
  acc := [⟨"param", [some 0, some 0, some 0, some 0], true⟩,
    ⟨"param", [some 0, some 0, some 0, some 0], false⟩]

/-- `src/compute/utils/axpby.cpp:45-47`, `ApEQxB` -/
def k99 : Kernel where
  file := "src/compute/utils/axpby.cpp"
  line := 45
  func := "ApEQxB"
  dim := 4
  reduce := false
  acc := [⟨"param", [some 0, some 0, some 0, some 0], true⟩,
    ⟨"param", [some 0, some 0, some 0, some 0], false⟩]

/-- `src/compute/utils/axpby.cpp:61-63`, `AEQxB` -/
def k100 : Kernel where
  file := "src/compute/utils/axpby.cpp"
  line := 61
  func := "AEQxB"
  dim := 4
  reduce := false
  acc := [⟨"param", [some 0, some 0, some 0, some 0], true⟩,
    ⟨"param", [some 0, some 0, some 0, some 0], false⟩]

/-- `src/compute/utils/axpby.cpp:78-80`, `CEQxApyB` -/
def k101 : Kernel where
  file := "src/compute/utils/axpby.cpp"
  line := 78
  func := "CEQxApyB"
  dim := 4
  reduce := false
  acc := [⟨"param", [some 0, some 0, some 0, some 0], true⟩,
    ⟨"param", [some 0, some 0, some 0, some 0], false⟩]

/-- `src/compute/utils/cfl.cpp:35-80`, `CFLmax` -/
def k102 : Kernel where
  file := "src/compute/utils/cfl.cpp"
  line := 35
  func := "CFLmax"
  dim := 3
  reduce := true
  acc := [⟨"ixc", [some 1, some 0, some 0], false⟩,
    ⟨"ixc", [some 0, some 0, some 0], false⟩,
    ⟨"iyc", [some 1, some 0, some 0], false⟩,
    ⟨"iyc", [some 0, some 0, some 0], false⟩,
    ⟨"izc", [some 1, some 0, some 0], false⟩,
    ⟨"izc", [some 0, some 0, some 0], false⟩,
    ⟨"jxc", [some 0, some 1, some 0], false⟩,
    ⟨"jxc", [some 0, some 0, some 0], false⟩,
    ⟨"jyc", [some 0, some 1, some 0], false⟩,
    ⟨"jyc", [some 0, some 0, some 0], false⟩,
    ⟨"jzc", [some 0, some 1, some 0], false⟩,
    ⟨"jzc", [some 0, some 0, some 0], false⟩,
    ⟨"kxc", [some 0, some 0, some 1], false⟩,
    ⟨"kxc", [some 0, some 0, some 0], false⟩,
    ⟨"kyc", [some 0, some 0, some 1], false⟩,
    ⟨"kyc", [some 0, some 0, some 0], false⟩,
    ⟨"kzc", [some 0, some 0, some 1], false⟩,
    ⟨"kzc", [some 0, some 0, some 0], false⟩,
    ⟨"q", [some 0, some 0, some 0], false⟩,
    ⟨"inx", [some 0, some 0, some 0], false⟩,
    ⟨"inx", [some 1, some 0, some 0], false⟩,
    ⟨"iny", [some 0, some 0, some 0], false⟩,
    ⟨"iny", [some 1, some 0, some 0], false⟩,
    ⟨"inz", [some 0, some 0, some 0], false⟩,
    ⟨"inz", [some 1, some 0, some 0], false⟩,
    ⟨"jnx", [some 0, some 0, some 0], false⟩,
    ⟨"jnx", [some 0, some 1, some 0], false⟩,
    ⟨"jny", [some 0, some 0, some 0], false⟩,
    ⟨"jny", [some 0, some 1, some 0], false⟩,
    ⟨"jnz", [some 0, some 0, some 0], false⟩,
    ⟨"jnz", [some 0, some 1, some 0], false⟩,
    ⟨"knx", [some 0, some 0, some 0], false⟩,
    ⟨"knx", [some 0, some 0, some 1], false⟩,
    ⟨"kny", [some 0, some 0, some 0], false⟩,
    ⟨"kny", [some 0, some 0, some 1], false⟩,
    ⟨"knz", [some 0, some 0, some 0], false⟩,
    ⟨"knz", [some 0, some 0, some 1], false⟩,
    ⟨"qh", [some 0, some 0, some 0], false⟩]

/-- `src/compute/utils/checkNan.cpp:20-23`, `checkNan` -/
def k103 : Kernel where
  file := "src/compute/utils/checkNan.cpp"
  line := 20
  func := "checkNan"
  dim := 4
  reduce := true
  acc := [⟨"Q", [some 0, some 0, some 0, some 0], false⟩]

/-- `src/compute/utils/dq2FD.cpp:16-29`, `dq2FD` -/
def k104 : Kernel where
  file := "src/compute/utils/dq2FD.cpp"
  line := 16
  func := "dq2FD"
  dim := 4
  reduce := false
  acc := [⟨"q", [some 1, some 0, some 0, some 0], false⟩,
    ⟨"q", [some (-1), some 0, some 0, some 0], false⟩,
    ⟨"q", [some 0, some 1, some 0, some 0], false⟩,
    ⟨"q", [some 0, some (-1), some 0, some 0], false⟩,
    ⟨"q", [some 0, some 0, some 1, some 0], false⟩,
    ⟨"q", [some 0, some 0, some (-1), some 0], false⟩,
    ⟨"dqdx", [some 0, some 0, some 0, some 0], true⟩,
    ⟨"dEdx", [some 0, some 0, some 0, none], false⟩,
    ⟨"dNdx", [some 0, some 0, some 0, none], false⟩,
    ⟨"dCdx", [some 0, some 0, some 0, none], false⟩,
    ⟨"dqdy", [some 0, some 0, some 0, some 0], true⟩,
    ⟨"dEdy", [some 0, some 0, some 0, none], false⟩,
    ⟨"dNdy", [some 0, some 0, some 0, none], false⟩,
    ⟨"dCdy", [some 0, some 0, some 0, none], false⟩,
    ⟨"dqdz", [some 0, some 0, some 0, some 0], true⟩,
    ⟨"dEdz", [some 0, some 0, some 0, none], false⟩,
    ⟨"dNdz", [some 0, some 0, some 0, none], false⟩,
    ⟨"dCdz", [some 0, some 0, some 0, none], false⟩]

/-- `src/compute/utils/dq4FD.cpp:15-37`, `dq4FD` -/
def k105 : Kernel where
  file := "src/compute/utils/dq4FD.cpp"
  line := 15
  func := "dq4FD"
  dim := 4
  reduce := false
  acc := [⟨"q", [some 2, some 0, some 0, some 0], false⟩,
    ⟨"q", [some 1, some 0, some 0, some 0], false⟩,
    ⟨"q", [some (-1), some 0, some 0, some 0], false⟩,
    ⟨"q", [some (-2), some 0, some 0, some 0], false⟩,
    ⟨"q", [some 0, some 2, some 0, some 0], false⟩,
    ⟨"q", [some 0, some 1, some 0, some 0], false⟩,
    ⟨"q", [some 0, some (-1), some 0, some 0], false⟩,
    ⟨"q", [some 0, some (-2), some 0, some 0], false⟩,
    ⟨"q", [some 0, some 0, some 2, some 0], false⟩,
    ⟨"q", [some 0, some 0, some 1, some 0], false⟩,
    ⟨"q", [some 0, some 0, some (-1), some 0], false⟩,
    ⟨"q", [some 0, some 0, some (-2), some 0], false⟩,
    ⟨"dqdx", [some 0, some 0, some 0, some 0], true⟩,
    ⟨"dEdx", [some 0, some 0, some 0, none], false⟩,
    ⟨"dNdx", [some 0, some 0, some 0, none], false⟩,
    ⟨"dCdx", [some 0, some 0, some 0, none], false⟩,
    ⟨"dqdy", [some 0, some 0, some 0, some 0], true⟩,
    ⟨"dEdy", [some 0, some 0, some 0, none], false⟩,
    ⟨"dNdy", [some 0, some 0, some 0, none], false⟩,
    ⟨"dCdy", [some 0, some 0, some 0, none], false⟩,
    ⟨"dqdz", [some 0, some 0, some 0, some 0], true⟩,
    ⟨"dEdz", [some 0, some 0, some 0, none], false⟩,
    ⟨"dNdz", [some 0, some 0, some 0, none], false⟩,
    ⟨"dCdz", [some 0, some 0, some 0, none], false⟩]

/-- `src/compute/utils/viscousSponge.cpp:12-38`, `viscousSponge` -/
def k106 : Kernel where
  file := "src/compute/utils/viscousSponge.cpp"
  line := 12
  func := "viscousSponge"
  dim := 3
  reduce := false
  acc := [⟨"xc", [some 0, some 0, some 0], false⟩,
    ⟨"yc", [some 0, some 0, some 0], false⟩,
    ⟨"zc", [some 0, some 0, some 0], false⟩,
    ⟨"qt", [some 0, some 0, some 0], true⟩]

/-- Every parallel kernel of `src/compute`. -/
def kernels : List Kernel := [k00, k01, k02, k03, k04, k05, k06, k07, k08, k09, k10, k11, k12, k13, k14, k15, k16, k17, k18, k19, k20, k21, k22, k23, k24, k25, k26, k27, k28, k29, k30, k31, k32, k33, k34, k35, k36, k37, k38, k39, k40, k41, k42, k43, k44, k45, k46, k47, k48, k49, k50, k51, k52, k53, k54, k55, k56, k57, k58, k59, k60, k61, k62, k63, k64, k65, k66, k67, k68, k69, k70, k71, k72, k73, k74, k75, k76, k77, k78, k79, k80, k81, k82, k83, k84, k85, k86, k87, k88, k89, k90, k91, k92, k93, k94, k95, k96, k97, k98, k99, k100, k101, k102, k103, k104, k105, k106]

end PG.Par
