import Verif.Halo.Spec
import Verif.Topo.Props
namespace PG.Halo
open PG.Topo
variable {α : Type}

/-! ### slice lists -/

/-- arithmetic progression `s, s+1, ..., s+L-1` -/
def ap (s : Int) (L : Nat) : List Int := (List.range L).map (fun t : Nat => s + (t : Int))

theorem pyRange_eq (a b : Int) : pyRange a b = ap a (b - a).toNat := rfl

theorem ap_map (s t : Int) (L : Nat) : (ap s L).map (fun i => t + i) = ap (t + s) L := by
  simp [ap, List.map_map, Function.comp_def, Int.add_assoc]

theorem ap_map' (s t u : Int) (L : Nat) : (ap s L).map (fun i => t + i - u) = ap (t + s - u) L := by
  simp only [ap, List.map_map]
  apply List.map_congr_left
  intro x _
  simp only [Function.comp]
  omega

theorem ap_length (s : Int) (L : Nat) : (ap s L).length = L := by simp [ap]

theorem ap_getD (s : Int) (L g : Nat) (h : g < L) : (ap s L).getD g 0 = s + g := by
  simp [ap, List.getD, h]

theorem ap_rev_getD (s : Int) (L g : Nat) (h : g < L) : (ap s L).reverse.getD g 0 = s + (L - 1 : Int) - g := by
  simp only [List.getD, ap]
  rw [List.getElem?_reverse (by simpa using h)]
  simp only [List.length_map, List.length_range]
  rw [List.getElem?_map, List.getElem?_range (by omega)]
  simp only [Option.map_some, Option.getD_some]
  omega

theorem ap_head (s : Int) (L : Nat) (h : 0 < L) : (ap s L).head?.toList = ap s 1 := by
  obtain ⟨k, rfl⟩ : ∃ k, L = k + 1 := ⟨L - 1, by omega⟩
  simp [ap, List.range_succ_eq_map]

theorem ap_getLast (s : Int) (L : Nat) (h : 0 < L) : (ap s L).getLast?.toList = ap (s + (L - 1 : Int)) 1 := by
  obtain ⟨k, rfl⟩ : ∃ k, L = k + 1 := ⟨L - 1, by omega⟩
  simp [ap, List.range_succ]

/-- number of layers as a natural number -/
def layersN (kind : Kind) (ng : Nat) : Nat := match kind with | .ccFirst => 1 | _ => ng

/-- first send index before reversal -/
def sendStart (kind : Kind) (small : Bool) (ng n : Int) : Int :=
  match kind with
  | .node => if small then ng + 1 else n - 1
  | .ccAll => if small then ng else n - 1
  | .ccFirst => if small then ng else n + ng - 2

/-- first recv index -/
def recvStart (kind : Kind) (small : Bool) (ng n : Int) : Int :=
  match kind with
  | .node => if small then 0 else n + ng
  | .ccAll => if small then 0 else n + ng - 1
  | .ccFirst => if small then ng - 1 else n + ng - 1

theorem nodeSendRaw_ap (nf : Nat) (ng : Nat) (n : Int) :
    nodeSendRaw nf ng n = ap (sendStart .node (isSmall nf) ng n) ng := by
  unfold nodeSendRaw sendStart
  dsimp only
  split
  · rw [pyRange_eq]; congr 1; omega
  · rw [pyRange_eq, ap_map]; congr 1 <;> omega

theorem ccSendAllRaw_ap (nf : Nat) (ng : Nat) (n : Int) :
    ccSendAllRaw nf ng n = ap (sendStart .ccAll (isSmall nf) ng n) ng := by
  unfold ccSendAllRaw sendStart
  dsimp only
  split
  · rw [pyRange_eq]; congr 1; omega
  · rw [pyRange_eq, ap_map']; congr 1 <;> omega

theorem ccRecvAll_ap (nf : Nat) (ng : Nat) (n : Int) :
    ccRecvAll nf ng n = ap (recvStart .ccAll (isSmall nf) ng n) ng := by
  unfold ccRecvAll recvStart
  dsimp only
  split
  · rw [pyRange_eq]; congr 1
  · rw [pyRange_eq, ap_map']; congr 1 <;> omega

theorem nodeRecv_ap (nf : Nat) (ng : Nat) (n : Int) :
    nodeRecv nf ng n = ap (recvStart .node (isSmall nf) ng n) ng := by
  unfold nodeRecv recvStart
  dsimp only
  split
  · rw [pyRange_eq]; congr 1
  · rw [pyRange_eq, ap_map]; congr 1 <;> omega

theorem recvSlices_ap (kind : Kind) (nf : Nat) (ng : Nat) (hng : 0 < ng) (n : Int) :
    recvSlices kind nf ng n = ap (recvStart kind (isSmall nf) ng n) (layersN kind ng) := by
  cases kind
  · exact nodeRecv_ap nf ng n
  · exact ccRecvAll_ap nf ng n
  · simp only [recvSlices, ccRecvFirst, ccRecvAll_ap]
    split
    · rw [ap_getLast _ _ hng]; simp_all [recvStart, layersN]
    · rw [ap_head _ _ hng]; simp_all [recvStart, layersN]

theorem sendSlices_length (kind : Kind) (nf : Nat) (o : Ori) (ng : Nat) (hng : 0 < ng) (n : Int) :
    (sendSlices kind nf o ng n).length = layersN kind ng := by
  cases kind
  · simp only [sendSlices, nodeSendRaw_ap]; split <;> simp [ap_length, layersN]
  · simp only [sendSlices, ccSendAllRaw_ap]; split <;> simp [ap_length, layersN]
  · simp only [sendSlices, ccSendFirst, ccSendAllRaw_ap]
    split
    · rw [ap_head _ _ hng]; simp [ap_length, layersN]
    · rw [ap_getLast _ _ hng]; simp [ap_length, layersN]

theorem sendSlices_getD (kind : Kind) (nf : Nat) (o : Ori) (ng : Nat) (hng : 0 < ng) (n : Int) (g : Nat)
    (hg : g < layersN kind ng) :
    (sendSlices kind nf o ng n).getD g 0 =
      if sendReversed nf o then sendStart kind (isSmall nf) ng n + (layersN kind ng - 1 : Int) - g
      else sendStart kind (isSmall nf) ng n + g := by
  cases kind
  · simp only [sendSlices, nodeSendRaw_ap]
    split
    · exact ap_rev_getD _ _ _ hg
    · exact ap_getD _ _ _ hg
  · simp only [sendSlices, ccSendAllRaw_ap]
    split
    · exact ap_rev_getD _ _ _ hg
    · exact ap_getD _ _ _ hg
  · have h1 : g = 0 := by simp [layersN] at hg; exact hg
    subst h1
    simp only [sendSlices, ccSendFirst, ccSendAllRaw_ap]
    by_cases hs : isSmall nf
    · rw [if_pos hs, ap_head _ _ hng, ap_getD _ _ _ (by omega)]
      simp [sendStart, hs, layersN]
    · rw [if_neg hs, ap_getLast _ _ hng, ap_getD _ _ _ (by omega)]
      simp [sendStart, hs, layersN]
      omega

/-! ### placing -/

/-- coordinate normal to the face and the two in-plane ones -/
def nrm (nf : Nat) (i j k : Int) : Int := match nf with | 1 => i | 2 => i | 3 => j | 4 => j | _ => k
def tan0 (nf : Nat) (i j _k : Int) : Int := match nf with | 1 => j | 2 => j | 3 => i | 4 => i | _ => i
def tan1 (nf : Nat) (_i j k : Int) : Int := match nf with | 1 => k | 2 => k | 3 => k | 4 => k | _ => j

theorem placeLayer_eq (v : Arr3 α) (nf : Nat) (s : Int) (g : Nat) (buf : Buf α) (i j k : Int) :
    placeLayer v nf s g buf i j k =
      if nrm nf i j k = s ∧ 0 ≤ tan0 nf i j k ∧ tan0 nf i j k < buf.n0 ∧ 0 ≤ tan1 nf i j k ∧ tan1 nf i j k < buf.n1
      then buf.get g (tan0 nf i j k) (tan1 nf i j k) else v i j k := by
  unfold placeLayer nrm tan0 tan1
  split <;> simp

theorem place_ap (v : Arr3 α) (nf : Nat) (r0 : Int) (L : Nat) (buf : Buf α) (i j k : Int) :
    placeRecvBuffer v nf (ap r0 L) buf i j k =
      if (r0 ≤ nrm nf i j k ∧ nrm nf i j k < r0 + L) ∧
        0 ≤ tan0 nf i j k ∧ tan0 nf i j k < buf.n0 ∧ 0 ≤ tan1 nf i j k ∧ tan1 nf i j k < buf.n1
      then buf.get (nrm nf i j k - r0) (tan0 nf i j k) (tan1 nf i j k) else v i j k := by
  induction L with
  | zero =>
    simp only [placeRecvBuffer, ap, List.range_zero, List.map_nil, List.zipIdx_nil, List.foldl_nil]
    rw [if_neg (by omega)]
  | succ L ih =>
    have h : ap r0 (L+1) = ap r0 L ++ [r0 + L] := by simp [ap, List.range_succ]
    rw [h]
    unfold placeRecvBuffer at ih ⊢
    rw [List.zipIdx_append, List.foldl_append]
    simp only [List.zipIdx_cons, List.zipIdx_nil, List.foldl_cons, List.foldl_nil, ap_length]
    rw [placeLayer_eq]
    by_cases h1 : nrm nf i j k = r0 + L
    · have e : nrm nf i j k - r0 = ((0 + L : Nat) : Int) := by omega
      rw [e]
      by_cases h2 : 0 ≤ tan0 nf i j k ∧ tan0 nf i j k < buf.n0 ∧ 0 ≤ tan1 nf i j k ∧ tan1 nf i j k < buf.n1
      · rw [if_pos ⟨h1, h2⟩, if_pos ⟨by omega, h2⟩]
      · rw [if_neg (fun h => h2 h.2), if_neg (fun h => h2 h.2), ih, if_neg (fun h => h2 h.2)]
    · rw [if_neg (fun h => h1 h.1), ih]
      by_cases h2 : 0 ≤ tan0 nf i j k ∧ tan0 nf i j k < buf.n0 ∧ 0 ≤ tan1 nf i j k ∧ tan1 nf i j k < buf.n1
      · by_cases h3 : r0 ≤ nrm nf i j k ∧ nrm nf i j k < r0 + L
        · rw [if_pos ⟨h3, h2⟩, if_pos ⟨by omega, h2⟩]
        · rw [if_neg (fun h => h3 h.1), if_neg (fun h => h3 (by omega))]
      · rw [if_neg (fun h => h2 h.2), if_neg (fun h => h2 h.2)]

/-! ### flat transfer -/

theorem flat_unflat (b : Buf α) (g t0 t1 : Int)
    (h0 : 0 ≤ t0) (h0' : t0 < b.n0) (h1 : 0 ≤ t1) (h1' : t1 < b.n1) :
    b.flat ((g * b.n0 + t0) * b.n1 + t1) = b.get g t0 t1 := by
  have n1pos : 0 < b.n1 := by omega
  have n0pos : 0 < b.n0 := by omega
  have e1 : ((g * b.n0 + t0) * b.n1 + t1) / b.n1 = g * b.n0 + t0 := by
    rw [Int.add_comm, Int.add_mul_ediv_right _ _ (by omega), Int.ediv_eq_zero_of_lt h1 h1']; omega
  have e2 : ((g * b.n0 + t0) * b.n1 + t1) % b.n1 = t1 := by
    rw [Int.add_comm, Int.add_mul_emod_self_right, Int.emod_eq_of_lt h1 h1']
  have e3 : (g * b.n0 + t0) % b.n0 = t0 := by
    rw [Int.add_comm, Int.add_mul_emod_self_right, Int.emod_eq_of_lt h0 h0']
  have e4 : (g * b.n0 + t0) / b.n0 = g := by
    rw [Int.add_comm, Int.add_mul_ediv_right _ _ (by omega), Int.ediv_eq_zero_of_lt h0 h0']; omega
  have e5 : ((g * b.n0 + t0) * b.n1 + t1) / (b.n0 * b.n1) = g := by
    rw [Int.mul_comm b.n0 b.n1, ← Int.ediv_ediv_of_nonneg (by omega), e1, e4]
  unfold Buf.flat
  rw [e5, e1, e2, e3]

end PG.Halo
