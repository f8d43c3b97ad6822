import Verif.Lemmas.DlMsg
/-!
# Lemmas: the Packet Downlink Assignment
-/

namespace Verif.Csn1

open Verif.Bits (put length_put)
open Verif.UlMsg (opt bit)
open Verif.DlMsg
open Verif.DlCtrl
open T

/-- The table up to the additions of release 99. -/
def pdaPre : Items :=
  .cons (.uint 6 Packet_Downlink_Assignment_t.MESSAGE_TYPE false) <|
  .cons (.uint 2 Packet_Downlink_Assignment_t.PAGE_MODE false) <|
  .opt Packet_Downlink_Assignment_t.Exist_PERSISTENCE_LEVEL false false 1 <|
  .cons (.uintArray 4 Packet_Downlink_Assignment_t.PERSISTENCE_LEVEL 4 4) <|
  .cons (.type PacketDownlinkID_t Packet_Downlink_Assignment_t.ID false) <|
  .cons (.fixed 1 0) <|
  .cons (.uint 2 Packet_Downlink_Assignment_t.MAC_MODE false) <|
  .cons (.uint 1 Packet_Downlink_Assignment_t.RLC_MODE false) <|
  .cons (.uint 1 Packet_Downlink_Assignment_t.CONTROL_ACK false) <|
  .cons (.uint 8 Packet_Downlink_Assignment_t.TIMESLOT_ALLOCATION false) <|
  .cons (.type Packet_Timing_Advance_t Packet_Downlink_Assignment_t.Packet_Timing_Advance false) <|
  .opt Packet_Downlink_Assignment_t.Exist_P0_and_BTS_PWR_CTRL_MODE false false 3 <|
  .cons (.uint 4 Packet_Downlink_Assignment_t.P0 false) <|
  .cons (.uint 1 Packet_Downlink_Assignment_t.BTS_PWR_CTRL_MODE false) <|
  .cons (.uint 1 Packet_Downlink_Assignment_t.PR_MODE false) <|
  .opt Packet_Downlink_Assignment_t.Exist_Frequency_Parameters false false 1 <|
  .cons (.type Frequency_Parameters_t Packet_Downlink_Assignment_t.Frequency_Parameters false) <|
  .opt Packet_Downlink_Assignment_t.Exist_DOWNLINK_TFI_ASSIGNMENT false false 1 <|
  .cons (.uint 5 Packet_Downlink_Assignment_t.DOWNLINK_TFI_ASSIGNMENT false) <|
  .opt Packet_Downlink_Assignment_t.Exist_Power_Control_Parameters false false 1 <|
  .cons (.type Power_Control_Parameters_t Packet_Downlink_Assignment_t.Power_Control_Parameters false) <|
  .opt Packet_Downlink_Assignment_t.Exist_TBF_Starting_Time false false 1 <|
  .cons (.type Starting_Frame_Number_t Packet_Downlink_Assignment_t.TBF_Starting_Time false) <|
  .opt Packet_Downlink_Assignment_t.Exist_Measurement_Mapping false false 1 <|
  .cons (.type Measurement_Mapping_struct_t Packet_Downlink_Assignment_t.Measurement_Mapping false) <|
  .nil

theorem pda_split : Packet_Downlink_Assignment_t
    = pdaPre.app (.opt Packet_Downlink_Assignment_t.Exist_AdditionsR99 true false 1 (.cons (.type PDA_AdditionsR99_t Packet_Downlink_Assignment_t.AdditionsR99 false) pad)) := rfl

section
variable (old : Option (Nat × Bool)) (t : DlTbf) (alpha gamma : Nat) (taIdx : Int) (taTs : Nat) (egprs ctrlAck : Bool)

theorem pda_id_ok : okItems (writePda old t alpha gamma taIdx taTs egprs ctrlAck) PacketDownlinkID_t 0 [Packet_Downlink_Assignment_t.ID] := by
  generalize hσ : writePda old t alpha gamma taIdx taTs egprs ctrlAck = σ
  have h1 : σ [PacketDownlinkID_t.UnionType, Packet_Downlink_Assignment_t.ID] = if old.isSome then 0 else 1 := by rw [← hσ]; rfl
  have h2 : σ [Global_TFI_t.UnionType, PacketDownlinkID_t.u_Global_TFI, Packet_Downlink_Assignment_t.ID] = ((old.map (·.2)).getD false).toNat := by rw [← hσ]; rfl
  simp only [PacketDownlinkID_t, okItems, okItem, h1, and_true]
  cases old with
  | none =>
    rw [show (if (none : Option (Nat × Bool)).isSome = true then 0 else 1) = 1 from rfl]
    simp only [PacketDownlinkID, okAlts, okItem]
  | some x =>
    rw [show (if (some x).isSome = true then 0 else 1) = 0 from rfl]
    simp only [PacketDownlinkID, okAlts, okItem]
    exact ok_of_all _ _ _ _ (global_ok σ _ _ h2)

theorem pda_id_bits : bitsItems (writePda old t alpha gamma taIdx taTs egprs ctrlAck) PacketDownlinkID_t 0 [Packet_Downlink_Assignment_t.ID]
    = (match old with | some (n, d) => Id.tfi d n | none => Id.tlli t.tlli).bits := by
  generalize hσ : writePda old t alpha gamma taIdx taTs egprs ctrlAck = σ
  have h1 : σ [PacketDownlinkID_t.UnionType, Packet_Downlink_Assignment_t.ID] = if old.isSome then 0 else 1 := by rw [← hσ]; rfl
  have h2 : σ [Global_TFI_t.UnionType, PacketDownlinkID_t.u_Global_TFI, Packet_Downlink_Assignment_t.ID] = ((old.map (·.2)).getD false).toNat := by rw [← hσ]; rfl
  have h3 : σ [Global_TFI_t.u_UPLINK_TFI, PacketDownlinkID_t.u_Global_TFI, Packet_Downlink_Assignment_t.ID] = (old.map (·.1)).getD 0 := by rw [← hσ]; rfl
  have h4 : σ [Global_TFI_t.u_DOWNLINK_TFI, PacketDownlinkID_t.u_Global_TFI, Packet_Downlink_Assignment_t.ID] = (old.map (·.1)).getD 0 := by rw [← hσ]; rfl
  have h5 : σ [PacketDownlinkID_t.u_TLLI, Packet_Downlink_Assignment_t.ID] = if old.isSome then 0 else t.tlli := by rw [← hσ]; rfl
  simp only [PacketDownlinkID_t, bits_cons, bits_nil, bitsItem, h1, List.append_nil]
  cases old with
  | none =>
    rw [show (if (none : Option (Nat × Bool)).isSome = true then 0 else 1) = 1 from rfl]
    simp only [PacketDownlinkID, bitsAlts, bitsItem, h5]
    rfl
  | some x =>
    rw [show (if (some x).isSome = true then 0 else 1) = 0 from rfl]
    simp only [PacketDownlinkID, bitsAlts, bitsItem, global_bits σ _ _ _ h2 h3 h4]
    rfl

theorem pda_freq : FreqAt (writePda old t alpha gamma taIdx taTs egprs ctrlAck) [Packet_Downlink_Assignment_t.Frequency_Parameters] t.chan where
  tsc := rfl
  kind := rfl
  arfcn := rfl
  maio := rfl
  hsn := rfl
  rfl := rfl
  union := rfl
  len := rfl
  ma := fun _ => arr_at _ _ _ _

theorem pda_pre_ok (hc : ChanOk t.chan) : okItems (writePda old t alpha gamma taIdx taTs egprs ctrlAck) pdaPre 0 [] := by
  have hid := pda_id_ok old t alpha gamma taIdx taTs egprs ctrlAck
  have hf := ok_of_all _ _ 0 _ (freq_ok _ _ _ (pda_freq old t alpha gamma taIdx taTs egprs ctrlAck) hc)
  have ht := ok_of_all _ _ 0 _ (timing_ok (writePda old t alpha gamma taIdx taTs egprs ctrlAck) [Packet_Downlink_Assignment_t.Packet_Timing_Advance])
  have hp := ok_of_all _ _ 0 _ (power_ok (writePda old t alpha gamma taIdx taTs egprs ctrlAck) [Packet_Downlink_Assignment_t.Power_Control_Parameters])
  generalize hσ : writePda old t alpha gamma taIdx taTs egprs ctrlAck = σ at *
  have h1 : σ [Packet_Downlink_Assignment_t.Exist_PERSISTENCE_LEVEL] = 0 := by rw [← hσ]; rfl
  have h2 : σ [Packet_Downlink_Assignment_t.Exist_P0_and_BTS_PWR_CTRL_MODE] = 0 := by rw [← hσ]; rfl
  have h3 : σ [Packet_Downlink_Assignment_t.Exist_TBF_Starting_Time] = 0 := by rw [← hσ]; rfl
  have h4 : σ [Packet_Downlink_Assignment_t.Exist_Measurement_Mapping] = 0 := by rw [← hσ]; rfl
  have h5 : σ [Packet_Downlink_Assignment_t.Exist_Frequency_Parameters] = 1 := by rw [← hσ]; rfl
  have h6 : σ [Packet_Downlink_Assignment_t.Exist_DOWNLINK_TFI_ASSIGNMENT] = 1 := by rw [← hσ]; rfl
  have h7 : σ [Packet_Downlink_Assignment_t.Exist_Power_Control_Parameters] = 1 := by rw [← hσ]; rfl
  simp only [pdaPre, okItems, okItem, h1, h2, h3, h4, h5, h6, h7, if_true, if_false, Nat.one_ne_zero, hid, hf, ht, hp, and_true]

theorem pda_r99_ok : okItem (writePda old t alpha gamma taIdx taTs egprs ctrlAck) (.type PDA_AdditionsR99_t Packet_Downlink_Assignment_t.AdditionsR99 false) [] := by
  refine ok_type _ _ _ _ _ ?_
  unfold PDA_AdditionsR99_t
  refine ⟨?_, ?_, ?_, ?_, ok_type _ _ _ _ _ ?_, trivial⟩
  all_goals first | (unfold okItem; trivial) | skip
  unfold COMPACT_ReducedMA_t
  refine ⟨?_, ?_, ?_, trivial⟩ <;> (unfold okItem; trivial)

theorem pda_r99_bits : bitsItem (writePda old t alpha gamma taIdx taTs true ctrlAck) (.type PDA_AdditionsR99_t Packet_Downlink_Assignment_t.AdditionsR99 false) []
    = (DlEgprs.mk (windowCode t.ws) 0).bits := by
  generalize hσ : writePda old t alpha gamma taIdx taTs true ctrlAck = σ
  have h1 : σ [PDA_AdditionsR99_t.Exist_EGPRS_Params, Packet_Downlink_Assignment_t.AdditionsR99] = 1 := by rw [← hσ]; rfl
  have h2 : σ [PDA_AdditionsR99_t.EGPRS_WindowSize, Packet_Downlink_Assignment_t.AdditionsR99] = (t.ws - 64) / 32 := by rw [← hσ]; rfl
  have h3 : σ [PDA_AdditionsR99_t.LINK_QUALITY_MEASUREMENT_MODE, Packet_Downlink_Assignment_t.AdditionsR99] = 0 := by rw [← hσ]; rfl
  have h4 : σ [PDA_AdditionsR99_t.Exist_BEP_PERIOD2, Packet_Downlink_Assignment_t.AdditionsR99] = 0 := by rw [← hσ]; rfl
  have h5 : σ [PDA_AdditionsR99_t.Exist_Packet_Extended_Timing_Advance, Packet_Downlink_Assignment_t.AdditionsR99] = 0 := by rw [← hσ]; rfl
  have h6 : σ [PDA_AdditionsR99_t.Exist_COMPACT_ReducedMA, Packet_Downlink_Assignment_t.AdditionsR99] = 0 := by rw [← hσ]; rfl
  simp only [bitsItem, PDA_AdditionsR99_t, bitsItems, h1, h2, h3, h4, h5, h6, if_true, if_false, Nat.one_ne_zero]
  simp only [DlEgprs.bits, opt, windowCode, List.append_assoc, List.append_nil, List.cons_append, List.nil_append]
  rfl

theorem pda_bits (hc : ChanOk t.chan) (poll : Bool) (rrbp : Nat) :
    bitsItems (writePda old t alpha gamma taIdx taTs egprs ctrlAck) pdaPre 0 []
      = (dlAssignment old t poll rrbp alpha gamma (if 0 ≤ taIdx then some (taIdx.toNat, taTs) else none) egprs ctrlAck).base := by
  have hid := pda_id_bits old t alpha gamma taIdx taTs egprs ctrlAck
  have hf := freq_bits _ _ _ (pda_freq old t alpha gamma taIdx taTs egprs ctrlAck) hc
  have ht := timing_bits (writePda old t alpha gamma taIdx taTs egprs ctrlAck) [Packet_Downlink_Assignment_t.Packet_Timing_Advance] (t.ta ≤ 63) (0 ≤ taIdx) t.ta taIdx.toNat taTs
    (show (if t.ta > 63 then 0 else 1) = _ by
      by_cases h : t.ta ≤ 63
      · rw [if_pos h, if_neg (by omega)]
      · rw [if_neg h, if_pos (by omega)])
    (fun h => show (if t.ta > 63 then 0 else t.ta) = _ by rw [if_neg (by omega)])
    (show (if taIdx < 0 then 0 else 1) = _ by
      by_cases h : 0 ≤ taIdx
      · rw [if_pos h, if_neg (by omega)]
      · rw [if_neg h, if_pos (by omega)])
    (fun h => show (if taIdx < 0 then 0 else taIdx.toNat) = _ by rw [if_neg (by omega)])
    (fun h => show (if taIdx < 0 then 0 else taTs) = _ by rw [if_neg (by omega)])
  have hp := power_bits (writePda old t alpha gamma taIdx taTs egprs ctrlAck) [Packet_Downlink_Assignment_t.Power_Control_Parameters] alpha gamma t.slots rfl
    (fun k hk => match k, hk with | 0, _ => rfl | 1, _ => rfl | 2, _ => rfl | 3, _ => rfl | 4, _ => rfl | 5, _ => rfl | 6, _ => rfl | 7, _ => rfl)
    (fun k hk => match k, hk with | 0, _ => rfl | 1, _ => rfl | 2, _ => rfl | 3, _ => rfl | 4, _ => rfl | 5, _ => rfl | 6, _ => rfl | 7, _ => rfl)
  generalize hσ : writePda old t alpha gamma taIdx taTs egprs ctrlAck = σ at *
  have g1 : σ [Packet_Downlink_Assignment_t.MESSAGE_TYPE] = 2 := by rw [← hσ]; rfl
  have g2 : σ [Packet_Downlink_Assignment_t.PAGE_MODE] = 0 := by rw [← hσ]; rfl
  have g3 : σ [Packet_Downlink_Assignment_t.MAC_MODE] = 0 := by rw [← hσ]; rfl
  have g4 : σ [Packet_Downlink_Assignment_t.RLC_MODE] = 0 := by rw [← hσ]; rfl
  have g5 : σ [Packet_Downlink_Assignment_t.CONTROL_ACK] = ctrlAck.toNat := by rw [← hσ]; rfl
  have g6 : σ [Packet_Downlink_Assignment_t.TIMESLOT_ALLOCATION] = slotMask t.slots := by rw [← hσ]; rfl
  have g7 : σ [Packet_Downlink_Assignment_t.DOWNLINK_TFI_ASSIGNMENT] = t.tfi := by rw [← hσ]; rfl
  have h1 : σ [Packet_Downlink_Assignment_t.Exist_PERSISTENCE_LEVEL] = 0 := by rw [← hσ]; rfl
  have h2 : σ [Packet_Downlink_Assignment_t.Exist_P0_and_BTS_PWR_CTRL_MODE] = 0 := by rw [← hσ]; rfl
  have h3 : σ [Packet_Downlink_Assignment_t.Exist_TBF_Starting_Time] = 0 := by rw [← hσ]; rfl
  have h4 : σ [Packet_Downlink_Assignment_t.Exist_Measurement_Mapping] = 0 := by rw [← hσ]; rfl
  have h5 : σ [Packet_Downlink_Assignment_t.Exist_Frequency_Parameters] = 1 := by rw [← hσ]; rfl
  have h6 : σ [Packet_Downlink_Assignment_t.Exist_DOWNLINK_TFI_ASSIGNMENT] = 1 := by rw [← hσ]; rfl
  have h7 : σ [Packet_Downlink_Assignment_t.Exist_Power_Control_Parameters] = 1 := by rw [← hσ]; rfl
  simp only [pdaPre, bitsItems, bitsItem, g1, g2, g3, g4, g5, g6, g7, h1, h2, h3, h4, h5, h6, h7, if_true, if_false, Nat.one_ne_zero, hid, hf, ht, hp, put_bit, slotMask_bits]
  unfold DownlinkAssignment.base dlAssignment timingOf
  simp only [opt, Option.map_some, List.append_assoc, List.append_nil, List.cons_append, List.nil_append]
  rfl

end

end Verif.Csn1
