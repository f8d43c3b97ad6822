import Verif.Lemmas.DlMsg
import Verif.Props.C58
import Verif.Props.C41
/-!
# C60: messages of an assisted cell change

`pncdBlock` and `pcccBlock` are the radio blocks the PCU sends; `NeighbourData` and `Continue` are the messages of 3GPP TS
44.060 (`Verif/Spec/DlMsg.lean`).
-/

namespace Verif.C60

open Verif.Bits (put length_put)
open Verif.UlMsg (opt bit)
open Verif.DlMsg Verif.DlCtrl Verif.Csn1 Verif.Csn1.T
open Verif.C58 (length_padding opt_length)

/-- The table without the padding. -/
def pncdPre : Items :=
  .cons (.uint 6 Packet_Neighbour_Cell_Data_t.MESSAGE_TYPE false) <|
  .cons (.uint 2 Packet_Neighbour_Cell_Data_t.PAGE_MODE false) <|
  .cons (.fixed 1 0) <|
  .cons (.type Global_TFI_t Packet_Neighbour_Cell_Data_t.Global_TFI false) <|
  .cons (.uint 2 Packet_Neighbour_Cell_Data_t.CONTAINER_ID false) <|
  .cons (.uint 1 Packet_Neighbour_Cell_Data_t.spare false) <|
  .cons (.uint 5 Packet_Neighbour_Cell_Data_t.CONTAINER_INDEX false) <|
  .cons (.type PNCDContainer_t Packet_Neighbour_Cell_Data_t.Container false) <|
  .nil

def pcccPre : Items :=
  .cons (.uint 6 Packet_Cell_Change_Continue_t.MESSAGE_TYPE false) <|
  .cons (.uint 2 Packet_Cell_Change_Continue_t.PAGE_MODE false) <|
  .cons (.fixed 1 0) <|
  .cons (.type Global_TFI_t Packet_Cell_Change_Continue_t.Global_TFI false) <|
  .opt Packet_Cell_Change_Continue_t.Exist_ID false false 3 <|
  .cons (.uint 10 Packet_Cell_Change_Continue_t.ARFCN false) <|
  .cons (.uint 6 Packet_Cell_Change_Continue_t.BSIC false) <|
  .cons (.uint 2 Packet_Cell_Change_Continue_t.CONTAINER_ID false) <|
  .nil

theorem elems_of (σ : Data) (q : Path) (l : List Nat) (h : ∀ k, k < l.length → σ (k :: q) = l.getD k 0) :
    elems σ 8 q l.length = l.flatMap (put 8) := by
  have := rightBits_last σ q (8 * l.length) l (by omega) h
  unfold rightBits lastBits at this
  rw [if_pos (by omega), show 8 * l.length / 8 = l.length by omega, Nat.sub_self, List.drop_zero] at this
  exact this

/-- **C60, system information**. For every container with 17 octets and the cell, or with 19 octets and without:
the block sent is the Packet Neighbour Cell Data with this container. It fills the block: no octet is lost, there is no
padding. -/
theorem C60_neighbour_data (dl : Bool) (tfi cid idx : Nat) (cell : Option (Nat × Nat)) (octets : List Nat)
    (hl : octets.length = if cell.isSome then 17 else 19) :
    pncdBlock dl tfi cid idx cell octets = some (NeighbourData.mk 0 dl tfi cid idx cell octets).block
    ∧ (NeighbourData.mk 0 dl tfi cid idx cell octets).content.length = 176
    ∧ (NeighbourData.mk 0 dl tfi cid idx cell octets).block.length = 184 := by
  have hg := global_bits (writePncd dl tfi cid idx cell octets) [Packet_Neighbour_Cell_Data_t.Global_TFI] dl tfi rfl rfl rfl
  have hgo := ok_of_all _ _ 0 _ (global_ok (writePncd dl tfi cid idx cell octets) [Packet_Neighbour_Cell_Data_t.Global_TFI] dl rfl)
  have hlen : (NeighbourData.mk 0 dl tfi cid idx cell octets).content.length = 176 := by
    unfold NeighbourData.content
    simp only [List.length_append, length_put, length_octets, List.length_singleton, bit, hl]
    cases cell with
    | none => rfl
    | some c => rfl
  have ho : okItems (writePncd dl tfi cid idx cell octets) pncdPre 0 [] ∧
      bitsItems (writePncd dl tfi cid idx cell octets) pncdPre 0 [] = (NeighbourData.mk 0 dl tfi cid idx cell octets).content := by
    have ha : cell.isSome = false → ∀ k, writePncd dl tfi cid idx cell octets [k, PNCD_Container_Without_ID_t.CONTAINER, PNCDContainer_t.u_PNCD_Container_Without_ID, Packet_Neighbour_Cell_Data_t.Container] = octets.getD k 0 := by
      intro hc k
      unfold writePncd
      rw [hc]
      rw [arr, if_neg (by rw [List.tail_cons]; decide), arr_at]
      rfl
    have hb : cell.isSome = true → ∀ k, writePncd dl tfi cid idx cell octets [k, PNCD_Container_With_ID_t.CONTAINER, PNCDContainer_t.u_PNCD_Container_With_ID, Packet_Neighbour_Cell_Data_t.Container] = octets.getD k 0 := by
      intro hc k
      unfold writePncd
      rw [hc]
      exact arr_at _ _ _ _
    generalize hσ : writePncd dl tfi cid idx cell octets = σ at *
    have h1 : σ [Packet_Neighbour_Cell_Data_t.MESSAGE_TYPE] = 12 := by rw [← hσ]; rfl
    have h2 : σ [Packet_Neighbour_Cell_Data_t.PAGE_MODE] = 0 := by rw [← hσ]; rfl
    have h3 : σ [Packet_Neighbour_Cell_Data_t.CONTAINER_ID] = cid := by rw [← hσ]; rfl
    have h4 : σ [Packet_Neighbour_Cell_Data_t.spare] = 0 := by rw [← hσ]; rfl
    have h5 : σ [Packet_Neighbour_Cell_Data_t.CONTAINER_INDEX] = idx := by rw [← hσ]; rfl
    have h6 : σ [PNCDContainer_t.UnionType, Packet_Neighbour_Cell_Data_t.Container] = cell.isSome.toNat := by rw [← hσ]; rfl
    have h7 : σ [PNCD_Container_With_ID_t.ARFCN, PNCDContainer_t.u_PNCD_Container_With_ID, Packet_Neighbour_Cell_Data_t.Container] = (cell.map (·.1)).getD 0 := by rw [← hσ]; rfl
    have h8 : σ [PNCD_Container_With_ID_t.BSIC, PNCDContainer_t.u_PNCD_Container_With_ID, Packet_Neighbour_Cell_Data_t.Container] = (cell.map (·.2)).getD 0 := by rw [← hσ]; rfl
    cases cell with
    | none =>
      replace h6 : σ [PNCDContainer_t.UnionType, Packet_Neighbour_Cell_Data_t.Container] = 0 := h6
      have he := elems_of σ [PNCD_Container_Without_ID_t.CONTAINER, PNCDContainer_t.u_PNCD_Container_Without_ID, Packet_Neighbour_Cell_Data_t.Container] octets (fun k _ => ha rfl k)
      rw [show octets.length = 19 from hl] at he
      constructor
      · simp only [pncdPre, okItems, okItem, PNCDContainer_t, h6, PNCDContainer, okAlts, PNCD_Container_Without_ID_t, hgo, and_true]
      · simp only [pncdPre, bits_cons, bits_nil, bitsItem, h1, h2, h3, h4, h5, hg, PNCDContainer_t, h6, PNCDContainer, bitsAlts, PNCD_Container_Without_ID_t, he]
        simp only [NeighbourData.content, opt, Option.map_none, List.append_assoc, List.append_nil]
        rfl
    | some c =>
      replace h6 : σ [PNCDContainer_t.UnionType, Packet_Neighbour_Cell_Data_t.Container] = 1 := h6
      have he := elems_of σ [PNCD_Container_With_ID_t.CONTAINER, PNCDContainer_t.u_PNCD_Container_With_ID, Packet_Neighbour_Cell_Data_t.Container] octets (fun k _ => hb rfl k)
      rw [show octets.length = 17 from hl] at he
      constructor
      · simp only [pncdPre, okItems, okItem, PNCDContainer_t, h6, PNCDContainer, okAlts, PNCD_Container_With_ID_t, hgo, and_true]
      · simp only [pncdPre, bits_cons, bits_nil, bitsItem, h1, h2, h3, h4, h5, hg, PNCDContainer_t, h6, PNCDContainer, bitsAlts, PNCD_Container_With_ID_t, he, h7, h8]
        simp only [NeighbourData.content, opt, Option.map_some, Option.getD_some, List.append_assoc, List.append_nil, List.cons_append]
        rfl
  have he := enc_strict _ pncdPre rfl rfl ho.1 _ ho.2
  rw [if_pos (by omega)] at he
  refine ⟨encode_some 0 false 0 Packet_Neighbour_Cell_Data_t _ _ he, hlen, ?_⟩
  unfold NeighbourData.block fill DlMsg.header
  simp only [List.length_append, length_put, length_padding, bit, List.length_singleton]
  omega

/-- The containers the cell change procedure makes (C41), in every state, have these lengths. -/
theorem create_length (c : Nacc.Ctx) : (Nacc.create c).1.octets.length = if (Nacc.create c).1.id.isSome then 17 else 19 := by
  have hi : (Nacc.idOf c).isSome = decide (c.idx = 0) := by
    unfold Nacc.idOf
    by_cases h : c.idx = 0
    · rw [if_pos h, h]; rfl
    · rw [if_neg h, decide_eq_false h]; rfl
  have hm : Nacc.maxLen c + 1 = if (Nacc.idOf c).isSome = true then 17 else 19 := by
    rw [hi]
    unfold Nacc.maxLen
    by_cases h : c.idx = 0
    · rw [if_pos h, decide_eq_true h]; rfl
    · rw [if_neg h, decide_eq_false h]; rfl
  by_cases h : c.si.octets.length - c.sent ≥ Nacc.maxLen c
  · rw [Nacc.create_full h]
    dsimp only
    rw [← hm, List.length_cons, List.length_append, List.length_replicate]
    have := List.length_take (i := Nacc.maxLen c) (l := c.si.octets.drop c.sent)
    omega
  · rw [Nacc.create_last (by omega)]
    dsimp only
    rw [← hm, List.length_cons, List.length_append, List.length_replicate, List.length_drop]
    omega

/-- **C60, system information in the procedure**. Whatever container the procedure makes, it is in the block. -/
theorem C60_procedure (c : Nacc.Ctx) (dl : Bool) (tfi : Nat) :
    pncdBlock dl tfi 0 (Nacc.create c).1.idx (Nacc.create c).1.id (Nacc.create c).1.octets
      = some (NeighbourData.mk 0 dl tfi 0 (Nacc.create c).1.idx (Nacc.create c).1.id (Nacc.create c).1.octets).block :=
  (C60_neighbour_data dl tfi 0 _ _ _ (create_length c)).1

/-- **C60, end**. The block that ends the procedure is the Packet Cell Change Continue, with the cell if it is known. -/
theorem C60_continue (poll : Bool) (rrbp : Nat) (dl : Bool) (tfi : Nat) (cell : Option (Nat × Nat)) (cid : Nat) :
    pcccBlock poll rrbp dl tfi cell cid = some (Continue.mk rrbp poll 0 dl tfi (cell.map fun c => (c.1, c.2, cid))).block
    ∧ (Continue.mk rrbp poll 0 dl tfi (cell.map fun c => (c.1, c.2, cid))).block.length = 184 := by
  have hg := global_bits (writePccc dl tfi cell cid) [Packet_Cell_Change_Continue_t.Global_TFI] dl tfi rfl rfl rfl
  have hgo := ok_of_all _ _ 0 _ (global_ok (writePccc dl tfi cell cid) [Packet_Cell_Change_Continue_t.Global_TFI] dl rfl)
  have hlen : (Continue.mk rrbp poll 0 dl tfi (cell.map fun c => (c.1, c.2, cid))).content.length ≤ 176 := by
    unfold Continue.content
    simp only [List.length_append, length_put, List.length_singleton, bit]
    cases cell with
    | none => exact Nat.le_add_right 16 160
    | some c => exact Nat.le_add_right 34 142
  have ho : okItems (writePccc dl tfi cell cid) pcccPre 0 [] := by
    generalize hσ : writePccc dl tfi cell cid = σ at *
    refine ok_of_all _ _ _ _ ?_
    unfold pcccPre
    refine ⟨?_, ?_, ?_, ?_, ?_, ?_, ?_, trivial⟩
    all_goals unfold okItem
    all_goals first | trivial | exact hgo
  have hb : bitsItems (writePccc dl tfi cell cid) pcccPre 0 [] = (Continue.mk rrbp poll 0 dl tfi (cell.map fun c => (c.1, c.2, cid))).content := by
    generalize hσ : writePccc dl tfi cell cid = σ at *
    have h1 : σ [Packet_Cell_Change_Continue_t.MESSAGE_TYPE] = 11 := by rw [← hσ]; rfl
    have h2 : σ [Packet_Cell_Change_Continue_t.PAGE_MODE] = 0 := by rw [← hσ]; rfl
    have h3 : σ [Packet_Cell_Change_Continue_t.Exist_ID] = cell.isSome.toNat := by rw [← hσ]; rfl
    have h4 : σ [Packet_Cell_Change_Continue_t.ARFCN] = (cell.map (·.1)).getD 0 := by rw [← hσ]; rfl
    have h5 : σ [Packet_Cell_Change_Continue_t.BSIC] = (cell.map (·.2)).getD 0 := by rw [← hσ]; rfl
    have h6 : σ [Packet_Cell_Change_Continue_t.CONTAINER_ID] = cid := by rw [← hσ]; rfl
    simp only [pcccPre, bits_cons, bits_nil, bits_opt3, bitsItem, h1, h2, h3, h4, h5, h6, hg]
    rw [opt_eq' cell (fun c => put 10 c.1 ++ put 6 c.2 ++ put 2 cid) _ _ (fun x hx => by rw [hx]; rfl)]
    simp only [Continue.content, Option.map_map, List.append_assoc, List.append_nil]
    rfl
  have he := enc_strict _ pcccPre rfl rfl ho _ hb
  rw [if_pos hlen] at he
  refine ⟨encode_some rrbp poll 0 Packet_Cell_Change_Continue_t _ _ he, ?_⟩
  unfold Continue.block fill DlMsg.header
  simp only [List.length_append, length_put, length_padding, bit, List.length_singleton]
  omega

/-! ## Cases -/

/-- The first container of some system information. -/
example : pncdBlock true 7 0 0 (some (871, 33)) [0x1f, 1, 2, 3, 4, 5, 6, 7, 8, 9, 10, 11, 12, 13, 14, 15, 16]
    = some (NeighbourData.mk 0 true 7 0 0 (some (871, 33)) [0x1f, 1, 2, 3, 4, 5, 6, 7, 8, 9, 10, 11, 12, 13, 14, 15, 16]).block :=
  (C60_neighbour_data _ _ _ _ _ _ rfl).1

example : (pcccBlock true 1 false 7 (some (871, 33)) 0).map (·.take 48)
    = some [false, true, false, true, true, false, false, false,  false, false, true, false, true, true, false, false,
            false, false, false, false, true, true, true, true,  true, true, false, true, true, false, false, true,
            true, true, true, false, false, false, false, true,  false, false, false, false, true, false, true, true] := by
  rw [(C60_continue true 1 false 7 (some (871, 33)) 0).1]
  decide +kernel

end Verif.C60
