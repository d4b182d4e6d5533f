import Verif.Halo.Rounds
/-!
The exchange moves values around and never looks at them: it commutes with every map of the values.
-/
namespace PG.Halo
open PG.Topo
variable {α β : Type} (f : α → β)

def Buf.map (b : Buf α) : Buf β := ⟨b.nl, b.n0, b.n1, fun g x y => f (b.get g x y)⟩
def Msg.map (m : Msg α) : Msg β := ⟨m.src, m.dst, m.tag, m.payload.map f⟩

theorem slice_map (v : Arr3 α) (nf : Nat) (s a b : Int) :
    getFaceSlice (fun i j k => f (v i j k)) nf s a b = f (getFaceSlice v nf s a b) := by
  unfold getFaceSlice; split <;> rfl

theorem send_map (kind : Kind) (v : Arr3 α) (nf : Nat) (o : Ori) (ng : Int) (d : Dims) (fl : Bool × Bool × Bool) :
    sendBuffer kind (fun i j k => f (v i j k)) nf o ng d fl = (sendBuffer kind v nf o ng d fl).map f := by
  obtain ⟨a, b, c⟩ := fl
  cases a <;> cases b <;> cases c <;>
    simp only [sendBuffer, orient, Buf.map, moveaxis, flip0, flip1, extractSendBuffer, slice_map, if_true, if_false, Bool.false_eq_true]

theorem faceSend_map (kind : Kind) (ng : Int) (data : Nat → Arr3 α) (rank : Nat) (blk : Block) (fc : Face) :
    faceSend kind ng (fun n i j k => f (data n i j k)) rank blk fc = (faceSend kind ng data rank blk fc).map (Msg.map f) := by
  unfold faceSend
  cases fc.neighbor with
  | none => rfl
  | some nb =>
    cases neighborNface fc.nface fc.ori with
    | none => rfl
    | some nf2 =>
      cases orientFlags fc.nface fc.ori with
      | none => rfl
      | some fl =>
        simp only [bind, Option.bind, Option.map, Msg.map, send_map]

theorem allSends_map (kind : Kind) (ng : Int) (data : Nat → Arr3 α) (world : List (List Block)) :
    allSends kind ng (fun n i j k => f (data n i j k)) world = (allSends kind ng data world).map (Msg.map f) := by
  unfold allSends
  rw [List.map_flatMap]
  congr 1
  funext x
  obtain ⟨mb, rank⟩ := x
  simp only
  rw [List.map_flatMap]
  congr 1
  funext blk
  rw [List.map_filterMap]
  congr 1
  funext fc
  rw [faceSend_map]

theorem faceRecv_map (msgs : List (Msg α)) (rank : Nat) (blk : Block) (fc : Face) :
    faceRecv (msgs.map (Msg.map f)) rank blk fc = (faceRecv msgs rank blk fc).map (Msg.map f) := by
  unfold faceRecv
  rw [List.find?_map]
  rfl

theorem placeLayer_map (v : Arr3 α) (nf : Nat) (s : Int) (g : Nat) (buf : Buf α) :
    placeLayer (fun i j k => f (v i j k)) nf s g (buf.map f) = fun i j k => f (placeLayer v nf s g buf i j k) := by
  funext i j k
  unfold placeLayer Buf.map
  split <;> simp only <;> split_ifs <;> rfl

theorem place_map (v : Arr3 α) (nf : Nat) (sl : List Int) (buf : Buf α) :
    placeRecvBuffer (fun i j k => f (v i j k)) nf sl (buf.map f) = fun i j k => f (placeRecvBuffer v nf sl buf i j k) := by
  unfold placeRecvBuffer
  generalize sl.zipIdx = l
  induction l generalizing v with
  | nil => rfl
  | cons x l ih => rw [List.foldl_cons, List.foldl_cons, placeLayer_map, ih]

theorem facePlace_map (kind : Kind) (ng : Int) (msgs : List (Msg α)) (rank : Nat) (blk : Block) (v : Arr3 α) (fc : Face) :
    facePlace kind ng (msgs.map (Msg.map f)) rank blk (fun i j k => f (v i j k)) fc =
      fun i j k => f (facePlace kind ng msgs rank blk v fc i j k) := by
  unfold facePlace
  cases fc.neighbor with
  | none => rfl
  | some nb =>
    simp only [faceRecv_map]
    cases faceRecv msgs rank blk fc with
    | none => rfl
    | some m =>
      simp only [Option.map]
      exact place_map f _ _ _ (recvBuffer kind fc.nface ng blk.dims m.payload)

/-- an exchange of mapped values is the mapped result of the exchange -/
theorem communicate_map (kind : Kind) (ng : Int) (data : Nat → Arr3 α) (world : List (List Block)) (rank : Nat) (blk : Block) :
    communicate kind ng (fun n i j k => f (data n i j k)) world rank blk = fun i j k => f (communicate kind ng data world rank blk i j k) := by
  unfold communicate
  rw [allSends_map]
  simp only []
  generalize data blk.nblki = v
  generalize blk.faces = l
  induction l generalizing v with
  | nil => rfl
  | cons x l ih => rw [List.foldl_cons, List.foldl_cons, facePlace_map, ih]

theorem round_map (kind : Kind) (ng : Int) (world : List (List Block)) (data : Nat → Arr3 α) (n : Nat) :
    round kind ng world (fun n i j k => f (data n i j k)) n = fun i j k => f (round kind ng world data n i j k) := by
  unfold round
  cases owner world n with
  | none => rfl
  | some rb => exact communicate_map f kind ng data world rb.1 rb.2

end PG.Halo
