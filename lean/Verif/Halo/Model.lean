import Verif.Topo.Model
/-
Model of the block-to-block halo exchange:
  /repo/src/peregrinepy/multiBlock/solverFace.py  (_setOrientFunc, _setCommBuffers)
  /repo/src/peregrinepy/mpiComm/communicate.py    (communicate)
  /repo/src/compute/utils/sendRecvBuffer.cpp      (extractSendBuffer, placeRecvBuffer)
  /repo/src/compute/rangeMap.cpp                  (getFaceSlice)

`α` is the type of what is stored at one array position (a number for x,y,z; the vector of components for the
cell-centred arrays: the component axis is carried along untouched by every operation here).
-/
namespace PG.Halo
open PG.Topo

variable {α : Type}

/-- A block array indexed by (i,j,k), halos included, 0-based as in the code. -/
abbrev Arr3 (α : Type) := Int → Int → Int → α

/-- A 2-d numpy array with its shape. -/
structure Arr2 (α : Type) where
  n0 : Int
  n1 : Int
  get : Int → Int → α

/-- `list(range(a, b))`. -/
def pyRange (a b : Int) : List Int := (List.range (b - a).toNat).map (fun t : Nat => a + (t : Int))

/-- Node counts of a block. -/
structure Dims where
  ni : Int
  nj : Int
  nk : Int
deriving DecidableEq, Repr

/-- Node count along the axis normal to `nface` (used at solverFace.py:165-221). -/
def Dims.normal (d : Dims) : Nat → Int
  | 1 => d.ni | 2 => d.ni | 3 => d.nj | 4 => d.nj | _ => d.nk

/-- Which family of slices a variable uses (communicate.py:36-41, 67-72):
    `node` for x,y,z; `ccAll` for q,Q; `ccFirst` for dqdx,dqdy,dqdz,phi. -/
inductive Kind | node | ccAll | ccFirst
deriving DecidableEq, Repr

/-- `nodeShape` / `ccShape` (solverFace.py:159-160, 170-171, 181-182, 192-193, 203-204, 214-215). -/
def faceShape (kind : Kind) (nface : Nat) (ng : Int) (d : Dims) : Int × Int :=
  let e : Int := match kind with | .node => 0 | _ => 1
  match nface with
  | 1 => (d.nj + 2*ng - e, d.nk + 2*ng - e)
  | 2 => (d.nj + 2*ng - e, d.nk + 2*ng - e)
  | 3 => (d.ni + 2*ng - e, d.nk + 2*ng - e)
  | 4 => (d.ni + 2*ng - e, d.nk + 2*ng - e)
  | _ => (d.ni + 2*ng - e, d.nj + 2*ng - e)

/-- `self.nface in [1, 3, 5]` (solverFace.py:226). -/
def isSmall (nface : Nat) : Bool := nface == 1 || nface == 3 || nface == 5

/-- `nodeSendSlices` before any reversal (solverFace.py:145,147 and the branches 157-210). -/
def nodeSendRaw (nface : Nat) (ng n : Int) : List Int :=
  if isSmall nface then pyRange (ng + 1) (2*ng + 1)
  else (pyRange (-(2*ng + 1)) (-(ng + 1))).map (fun i => n + 2*ng + i)

/-- `nodeRecvSlices` (solverFace.py:146,148 and branches). -/
def nodeRecv (nface : Nat) (ng n : Int) : List Int :=
  if isSmall nface then pyRange 0 ng
  else (pyRange (-ng) 0).map (fun i => n + 2*ng + i)

/-- `ccSendAllSlices` before any reversal (solverFace.py:151,153 and branches). -/
def ccSendAllRaw (nface : Nat) (ng n : Int) : List Int :=
  if isSmall nface then pyRange ng (2*ng)
  else (pyRange (-2*ng) (-ng)).map (fun i => n + 2*ng + i - 1)

/-- `ccRecvAllSlices` (solverFace.py:152,154 and branches). -/
def ccRecvAll (nface : Nat) (ng n : Int) : List Int :=
  if isSmall nface then pyRange 0 ng
  else (pyRange (-ng) 0).map (fun i => n + 2*ng + i - 1)

/-- `ccSendFirstHaloSlice`: taken before the reversal (solverFace.py:226-231): first element for small faces, last
    for large ones. -/
def ccSendFirst (nface : Nat) (ng n : Int) : List Int :=
  if isSmall nface then (ccSendAllRaw nface ng n).head?.toList
  else (ccSendAllRaw nface ng n).getLast?.toList

/-- `ccRecvFirstHaloSlice` (solverFace.py:226-231). -/
def ccRecvFirst (nface : Nat) (ng n : Int) : List Int :=
  if isSmall nface then (ccRecvAll nface ng n).getLast?.toList
  else (ccRecvAll nface ng n).head?.toList

/-- `indx` of solverFace.py:236-241. -/
def normalIndx (nface : Nat) : Nat :=
  if nface = 1 ∨ nface = 2 then 0 else if nface = 3 ∨ nface = 4 then 1 else 2

/-- Is the send order reversed (solverFace.py:242)? -/
def sendReversed (nface : Nat) (o : Ori) : Bool :=
  let d := o.get (normalIndx nface)
  d == 4 || d == 5 || d == 6

/-- The send slice list a variable uses (solverFace.py:242-244, communicate.py:36-44). -/
def sendSlices (kind : Kind) (nface : Nat) (o : Ori) (ng n : Int) : List Int :=
  match kind with
  | .node => if sendReversed nface o then (nodeSendRaw nface ng n).reverse else nodeSendRaw nface ng n
  | .ccAll => if sendReversed nface o then (ccSendAllRaw nface ng n).reverse else ccSendAllRaw nface ng n
  | .ccFirst => ccSendFirst nface ng n

/-- The receive slice list a variable uses (communicate.py:67-77). -/
def recvSlices (kind : Kind) (nface : Nat) (ng n : Int) : List Int :=
  match kind with
  | .node => nodeRecv nface ng n
  | .ccAll => ccRecvAll nface ng n
  | .ccFirst => ccRecvFirst nface ng n

/-- `getFaceSlice(view, nface, slice)` (rangeMap.cpp:65-120), read access. -/
def getFaceSlice (v : Arr3 α) (nface : Nat) (s : Int) (a b : Int) : α :=
  match nface with
  | 1 => v s a b
  | 2 => v s a b
  | 3 => v a s b
  | 4 => v a s b
  | _ => v a b s

/-- A communication buffer: `nl` layers of 2-d slices (solverFace.py:248-308). -/
structure Buf (α : Type) where
  nl : Int
  n0 : Int
  n1 : Int
  get : Int → Int → Int → α

/-- `extractSendBuffer` (sendRecvBuffer.cpp:6-38): layer `g` of the temporary buffer is the face slice
    `slices[g]`; the shape is the unoriented face shape (the temporary *receive* buffer is used, communicate.py:35).
    Positions beyond the list are irrelevant (never read); they are given the value of slice 0. -/
def extractSendBuffer (v : Arr3 α) (nface : Nat) (slices : List Int) (g : Nat) (a b : Int) : α :=
  getFaceSlice v nface (slices.getD g 0) a b

/-- `largeIndexMapping = {0: "k", 1: "k", 2: "j"}` (solverFace.py:325); `true` stands for "k". -/
def largeIndexIsK (normalIndex : Nat) : Bool := normalIndex == 0 || normalIndex == 1

/-- `needToTranspose[bigIndex][bigIndex2]` (solverFace.py:326-329). -/
def needToTranspose (_bigIndex bigIndex2 : Bool) (fo1 : Nat) : Bool :=
  if bigIndex2 then fo1 == 1 || fo1 == 2 || fo1 == 4 || fo1 == 5
  else fo1 == 1 || fo1 == 4

/-- The decision part of `_setOrientFunc` (solverFace.py:335-372): `(transpose, flip0, flip1)`. `none` is a
    `KeyError`/failed assertion in the neighbour computations. -/
def orientFlags (nface : Nat) (o : Ori) : Option (Bool × Bool × Bool) := do
  let nf2 ← neighborNface nface o
  let o2 ← neighborOrientation o
  let normalIndex ← faceToOrientIndex nf2
  let normalIndex2 ← faceToOrientIndex nface
  -- faceOrientations: the digits of neighborOrientation other than the neighbour's normal one
  let fo : Nat × Nat := match normalIndex with
    | 0 => (o2.d1, o2.d2)
    | 1 => (o2.d0, o2.d2)
    | _ => (o2.d0, o2.d1)
  let transpose := needToTranspose (largeIndexIsK normalIndex) (largeIndexIsK normalIndex2) fo.2
  let flip0 := fo.1 == 4 || fo.1 == 5 || fo.1 == 6
  let flip1 := fo.2 == 4 || fo.2 == 5 || fo.2 == 6
  some (transpose, flip0, flip1)

/-- `np.moveaxis(temp, (0, 1), (1, 0))` (solverFace.py:400). -/
def moveaxis (t : Arr2 α) : Arr2 α := ⟨t.n1, t.n0, fun a b => t.get b a⟩
/-- `np.flip(temp, 0)` (solverFace.py:404,416). -/
def flip0 (t : Arr2 α) : Arr2 α := ⟨t.n0, t.n1, fun a b => t.get (t.n0 - 1 - a) b⟩
/-- `np.flip(temp, 1)` (solverFace.py:408,424). -/
def flip1 (t : Arr2 α) : Arr2 α := ⟨t.n0, t.n1, fun a b => t.get a (t.n1 - 1 - b)⟩

/-- The orienting function selected by `_setOrientFunc` by name and the eight `orient*` functions
    (solverFace.py:360-377, 398-428): transpose first, then the flips (on the transposed array). -/
def orient (fl : Bool × Bool × Bool) (t : Arr2 α) : Arr2 α :=
  let t := if fl.1 then moveaxis t else t
  let t := if fl.2.1 then flip0 t else t
  if fl.2.2 then flip1 t else t

/-- The filled send buffer of a face (communicate.py:34-54), shape as allocated at solverFace.py:248-255, 286-292
    (oriented face shape). -/
def sendBuffer (kind : Kind) (v : Arr3 α) (nface : Nat) (o : Ori) (ng : Int) (d : Dims) (fl : Bool × Bool × Bool) :
    Buf α :=
  let slices := sendSlices kind nface o ng (d.normal nface)
  let shp := faceShape kind nface ng d
  let lay (g : Nat) : Arr2 α := orient fl ⟨shp.1, shp.2, fun a b => extractSendBuffer v nface slices g a b⟩
  ⟨slices.length, (lay 0).n0, (lay 0).n1, fun g a b => (lay g.toNat).get a b⟩

/-- Contents of the contiguous memory of a send buffer at flat position `p` (C order, np.ascontiguousarray,
    solverFace.py:251,288), as handed to `comm.Send([send, ssize, MPIDOUBLE], ...)` (communicate.py:56). -/
def Buf.flat (b : Buf α) (p : Int) : α := b.get (p / (b.n0 * b.n1)) (p / b.n1 % b.n0) (p % b.n1)

/-- The receive buffer after the message arrived in its contiguous memory (communicate.py:20-26): same flat
    contents, receiver's own shape (solverFace.py:259-263, 296-300). -/
def recvBuffer (kind : Kind) (nface : Nat) (ng : Int) (d : Dims) (msg : Buf α) : Buf α :=
  let shp := faceShape kind nface ng d
  let nl : Int := match kind with | .ccFirst => 1 | _ => ng
  ⟨nl, shp.1, shp.2, fun g a b => msg.flat ((g * shp.1 + a) * shp.2 + b)⟩

/-- One layer of `placeRecvBuffer` (sendRecvBuffer.cpp:46-54, 63-71): deep copy of buffer layer `g` into the face
    slice `s` of the view (all positions of the slice). -/
def placeLayer (v : Arr3 α) (nface : Nat) (s : Int) (g : Nat) (buf : Buf α) : Arr3 α := fun i j k =>
  match nface with
  | 1 => if i = s ∧ 0 ≤ j ∧ j < buf.n0 ∧ 0 ≤ k ∧ k < buf.n1 then buf.get g j k else v i j k
  | 2 => if i = s ∧ 0 ≤ j ∧ j < buf.n0 ∧ 0 ≤ k ∧ k < buf.n1 then buf.get g j k else v i j k
  | 3 => if j = s ∧ 0 ≤ i ∧ i < buf.n0 ∧ 0 ≤ k ∧ k < buf.n1 then buf.get g i k else v i j k
  | 4 => if j = s ∧ 0 ≤ i ∧ i < buf.n0 ∧ 0 ≤ k ∧ k < buf.n1 then buf.get g i k else v i j k
  | _ => if k = s ∧ 0 ≤ i ∧ i < buf.n0 ∧ 0 ≤ j ∧ j < buf.n1 then buf.get g i j else v i j k

/-- `placeRecvBuffer` (sendRecvBuffer.cpp:40-72): the loop over layers. -/
def placeRecvBuffer (v : Arr3 α) (nface : Nat) (slices : List Int) (buf : Buf α) : Arr3 α :=
  slices.zipIdx.foldl (fun v sg => placeLayer v nface sg.1 sg.2 buf) v

/-- A face as far as communication is concerned. `neighbor = none` is Python `None`. `commRank` is set in
    bootstrapCase.py:85-93. -/
structure Face where
  nface : Nat
  neighbor : Option Nat
  ori : Ori
  commRank : Nat
deriving DecidableEq, Repr

/-- A solver block as far as communication is concerned. -/
structure Block where
  nblki : Nat
  dims : Dims
  faces : List Face
deriving DecidableEq, Repr

/-- `tagR = int(nblki * 6 + self.nface)` (solverFace.py:311). -/
def tagR (nblki nface : Nat) : Nat := nblki * 6 + nface
/-- `tagS = int(self.neighbor * 6 + self.neighborNface)` (solverFace.py:312). -/
def tagS (neighbor neighborNface : Nat) : Nat := neighbor * 6 + neighborNface

/-- A message in flight: source rank, destination rank, tag and the send buffer. -/
structure Msg (α : Type) where
  src : Nat
  dst : Nat
  tag : Nat
  payload : Buf α

/-- What one face contributes in the send loop (communicate.py:29-56). Faces without neighbour are skipped; a face
    whose neighbour data is illegal could not have been set up (`_setOrientFunc` raises) and sends nothing. -/
def faceSend (kind : Kind) (ng : Int) (data : Nat → Arr3 α) (rank : Nat) (blk : Block) (f : Face) :
    Option (Msg α) := do
  let nb ← f.neighbor
  let nf2 ← neighborNface f.nface f.ori
  let fl ← orientFlags f.nface f.ori
  some ⟨rank, f.commRank, tagS nb nf2, sendBuffer kind (data blk.nblki) f.nface f.ori ng blk.dims fl⟩

/-- All messages of all ranks; `world` lists, per rank, the blocks it owns (communicate.py:29-56). Every rank
    extracts all its send data before it places any received data, so all messages carry pre-exchange values. -/
def allSends (kind : Kind) (ng : Int) (data : Nat → Arr3 α) (world : List (List Block)) : List (Msg α) :=
  world.zipIdx.flatMap (fun (mb, rank) => mb.flatMap (fun blk => blk.faces.filterMap (faceSend kind ng data rank blk)))

/-- The message an `Irecv(source=face.commRank, tag=face.tagR)` posted on `rank` for this face receives
    (communicate.py:15-26); `none`: the receive never completes. -/
def faceRecv (msgs : List (Msg α)) (rank : Nat) (blk : Block) (f : Face) : Option (Msg α) :=
  msgs.find? (fun m => m.src == f.commRank && m.dst == rank && m.tag == tagR blk.nblki f.nface)

/-- Wait-and-place for one face (communicate.py:60-81). -/
def facePlace (kind : Kind) (ng : Int) (msgs : List (Msg α)) (rank : Nat) (blk : Block) (v : Arr3 α) (f : Face) :
    Arr3 α :=
  match f.neighbor with
  | none => v
  | some _ =>
    match faceRecv msgs rank blk f with
    | none => v
    | some m => placeRecvBuffer v f.nface (recvSlices kind f.nface ng (blk.dims.normal f.nface))
        (recvBuffer kind f.nface ng blk.dims m.payload)

/-- The array of a block after `communicate` of one variable (communicate.py:12-83). -/
def communicate (kind : Kind) (ng : Int) (data : Nat → Arr3 α) (world : List (List Block)) (rank : Nat) (blk : Block) :
    Arr3 α :=
  blk.faces.foldl (facePlace kind ng (allSends kind ng data world) rank blk) (data blk.nblki)

end PG.Halo
