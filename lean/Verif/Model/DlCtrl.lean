import Verif.Model.Csn1Dl
/-!
# Control messages the PCU writes with the CSN.1 engine

Model of `write_packet_downlink_assignment`, `write_packet_uplink_assignment`, `write_packet_neighbour_cell_data` and
`write_packet_cell_change_continue` (src/encoding.cpp:548-815, 1753-1804) and of `encode_gsm_rlcmac_downlink`
(src/gsm_rlcmac.c:5811-6004). A writer yields the content of the C structure, which is zero where nothing is assigned
(`talloc_zero` in the callers). The members `UPLINK_TFI` and `DOWNLINK_TFI` are one octet of a C union, so a store to
one of them is a store to both. Conversions to `uint8_t` are left out; theorems restrict the values.
-/

namespace Verif.DlCtrl

open Verif.Csn1 Verif.Csn1.T
open Verif.Bits (put)

/-- Assignments to members, zero elsewhere. -/
def struct (l : List (Path × Nat)) : Data := fun q => (l.lookup q).getD 0

/-- A copy of octets to the array at `p` (`memcpy`). -/
def arr (p : Path) (l : List Nat) (d : Data) : Data := fun q => if q.tail = p then l.getD (q.headD 0) 0 else d q

/-- gsm_rlcmac.c:5811-6004 `encode_gsm_rlcmac_downlink` with payload type 1 (5835-5838, 5865-5868; the octets with
`RBSN` are not written): the MAC header and 176 bits. `none`: a negative result. The block is filled with other bits
before, they are all overwritten: the padding at the end of each table fills the block. -/
def encode (rrbp sp usf : Nat) (d : Items) (σ : Data) : Option (List Bool) :=
  (encItems σ d 0 [] ⟨176, []⟩).bind fun e =>
    if e.rem = 0 then some (put 2 1 ++ put 2 rrbp ++ put 1 sp ++ put 3 usf ++ e.out) else none

/-- pdch.h:111-121 `fh`: `ma` are the first `ma_oct_len` octets of the array. -/
structure Hop where
  maio : Nat
  hsn : Nat
  bitLen : Nat
  ma : List Nat

/-- First PDCH of a TBF: `tsc`, ARFCN of the TRX, `fh` if hopping is enabled. -/
structure Chan where
  tsc : Nat
  arfcn : Nat
  hop : Option Hop

/-- Downlink TBF as the message needs it; `slots t`: `pdch[t]` is set. -/
structure DlTbf where
  tlli : Nat
  tfi : Nat
  ta : Nat
  ws : Nat
  slots : Nat → Bool
  chan : Chan

/-- Uplink TBF as the message needs it; `usf t`: `m_usf[t]` if `pdch[t]` is set. `code`: `mcs_chan_code(current_cs())`. -/
structure UlTbf where
  tfi : Nat
  ta : Nat
  ws : Nat
  code : Nat
  usf : Nat → Option Nat
  chan : Chan

/-- encoding.cpp:549-587 `gen_freq_params`, members of the structure at `p`. The bitmap is copied separately
(`maPath`). -/
def genFreq (p : Path) (c : Chan) : List (Path × Nat) :=
  [(Frequency_Parameters_t.TSC :: p, c.tsc),
   (Frequency_Parameters_t.UnionType :: p, if c.hop.isNone then 0 else 2),
   (Frequency_Parameters_t.u_ARFCN :: p, if c.hop.isNone then c.arfcn else 0),
   (Direct_encoding_1_t.MAIO :: Frequency_Parameters_t.u_Direct_encoding_1 :: p, (c.hop.map (·.maio)).getD 0),
   (GPRS_Mobile_Allocation_t.HSN :: Direct_encoding_1_t.GPRS_Mobile_Allocation :: Frequency_Parameters_t.u_Direct_encoding_1 :: p, (c.hop.map (·.hsn)).getD 0),
   (GPRS_Mobile_Allocation_t.ElementsOf_RFL_NUMBER :: Direct_encoding_1_t.GPRS_Mobile_Allocation :: Frequency_Parameters_t.u_Direct_encoding_1 :: p, 0),
   (GPRS_Mobile_Allocation_t.UnionType :: Direct_encoding_1_t.GPRS_Mobile_Allocation :: Frequency_Parameters_t.u_Direct_encoding_1 :: p, 0),
   (MobileAllocation_t.MA_BitLength :: GPRS_Mobile_Allocation_t.u_MA :: Direct_encoding_1_t.GPRS_Mobile_Allocation :: Frequency_Parameters_t.u_Direct_encoding_1 :: p, (c.hop.map (·.bitLen)).getD 0)]

/-- Where encoding.cpp:583 copies the bitmap to. -/
def maPath (p : Path) : Path :=
  MobileAllocation_t.MA_BITMAP :: GPRS_Mobile_Allocation_t.u_MA :: Direct_encoding_1_t.GPRS_Mobile_Allocation :: Frequency_Parameters_t.u_Direct_encoding_1 :: p

/-- The octets encoding.cpp:583 copies. -/
def maOctets (c : Chan) : List Nat := (c.hop.map (·.ma)).getD []

/-- encoding.cpp:154-157 `enc_ws`. -/
def encWs (ws : Nat) : Nat := (ws - 64) / 32

/-- encoding.cpp:743-747: bit `0x80 >> tn` for each time slot. -/
def slotMask (slots : Nat → Bool) : Nat :=
  [0, 1, 2, 3, 4, 5, 6, 7].foldl (fun a tn => if slots tn then a ||| 0x80 >>> tn else a) 0

/-- encoding.cpp:709-801 `write_packet_downlink_assignment`, without the MAC header. `old`: TFI and direction, if
`old_tfi_is_valid`. `ta_idx` may be negative. `RLC_MODE_ACKNOWLEDGED` is 0 (gsm_rlcmac.h:149). -/
def writePda (old : Option (Nat × Bool)) (t : DlTbf) (alpha gamma : Nat) (taIdx : Int) (taTs : Nat) (egprs ctrlAck : Bool) : Data :=
  arr (maPath [Packet_Downlink_Assignment_t.Frequency_Parameters]) (maOctets t.chan) <| struct <|
  [([Packet_Downlink_Assignment_t.MESSAGE_TYPE], 2),
   ([Packet_Downlink_Assignment_t.PAGE_MODE], 0),
   ([Packet_Downlink_Assignment_t.Exist_PERSISTENCE_LEVEL], 0),
   ([PacketDownlinkID_t.UnionType, Packet_Downlink_Assignment_t.ID], if old.isSome then 0 else 1),
   ([Global_TFI_t.UnionType, PacketDownlinkID_t.u_Global_TFI, Packet_Downlink_Assignment_t.ID], ((old.map (·.2)).getD false).toNat),
   ([Global_TFI_t.u_UPLINK_TFI, PacketDownlinkID_t.u_Global_TFI, Packet_Downlink_Assignment_t.ID], (old.map (·.1)).getD 0),
   ([Global_TFI_t.u_DOWNLINK_TFI, PacketDownlinkID_t.u_Global_TFI, Packet_Downlink_Assignment_t.ID], (old.map (·.1)).getD 0),
   ([PacketDownlinkID_t.u_TLLI, Packet_Downlink_Assignment_t.ID], if old.isSome then 0 else t.tlli),
   ([Packet_Downlink_Assignment_t.MAC_MODE], 0),
   ([Packet_Downlink_Assignment_t.RLC_MODE], 0),
   ([Packet_Downlink_Assignment_t.CONTROL_ACK], ctrlAck.toNat),
   ([Packet_Downlink_Assignment_t.TIMESLOT_ALLOCATION], slotMask t.slots),
   ([Packet_Timing_Advance_t.Exist_TIMING_ADVANCE_VALUE, Packet_Downlink_Assignment_t.Packet_Timing_Advance], if t.ta > 63 then 0 else 1),
   ([Packet_Timing_Advance_t.TIMING_ADVANCE_VALUE, Packet_Downlink_Assignment_t.Packet_Timing_Advance], if t.ta > 63 then 0 else t.ta),
   ([Packet_Timing_Advance_t.Exist_IndexAndtimeSlot, Packet_Downlink_Assignment_t.Packet_Timing_Advance], if taIdx < 0 then 0 else 1),
   ([Packet_Timing_Advance_t.TIMING_ADVANCE_INDEX, Packet_Downlink_Assignment_t.Packet_Timing_Advance], if taIdx < 0 then 0 else taIdx.toNat),
   ([Packet_Timing_Advance_t.TIMING_ADVANCE_TIMESLOT_NUMBER, Packet_Downlink_Assignment_t.Packet_Timing_Advance], if taIdx < 0 then 0 else taTs),
   ([Packet_Downlink_Assignment_t.Exist_P0_and_BTS_PWR_CTRL_MODE], 0),
   ([Packet_Downlink_Assignment_t.Exist_Frequency_Parameters], 1),
   ([Packet_Downlink_Assignment_t.Exist_DOWNLINK_TFI_ASSIGNMENT], 1),
   ([Packet_Downlink_Assignment_t.DOWNLINK_TFI_ASSIGNMENT], t.tfi),
   ([Packet_Downlink_Assignment_t.Exist_Power_Control_Parameters], 1),
   ([Power_Control_Parameters_t.ALPHA, Packet_Downlink_Assignment_t.Power_Control_Parameters], alpha),
   ([Packet_Downlink_Assignment_t.Exist_TBF_Starting_Time], 0),
   ([Packet_Downlink_Assignment_t.Exist_Measurement_Mapping], 0),
   ([Packet_Downlink_Assignment_t.Exist_AdditionsR99], egprs.toNat),
   ([PDA_AdditionsR99_t.Exist_EGPRS_Params, Packet_Downlink_Assignment_t.AdditionsR99], egprs.toNat),
   ([PDA_AdditionsR99_t.EGPRS_WindowSize, Packet_Downlink_Assignment_t.AdditionsR99], if egprs then encWs t.ws else 0),
   ([PDA_AdditionsR99_t.LINK_QUALITY_MEASUREMENT_MODE, Packet_Downlink_Assignment_t.AdditionsR99], 0),
   ([PDA_AdditionsR99_t.Exist_BEP_PERIOD2, Packet_Downlink_Assignment_t.AdditionsR99], 0),
   ([PDA_AdditionsR99_t.Exist_Packet_Extended_Timing_Advance, Packet_Downlink_Assignment_t.AdditionsR99], 0),
   ([PDA_AdditionsR99_t.Exist_COMPACT_ReducedMA, Packet_Downlink_Assignment_t.AdditionsR99], 0)]
  ++ genFreq [Packet_Downlink_Assignment_t.Frequency_Parameters] t.chan
  ++ [0, 1, 2, 3, 4, 5, 6, 7].map (fun tn => ([Power_Control_Parameters_t.Slot_Exist tn, Packet_Downlink_Assignment_t.Power_Control_Parameters], (t.slots tn).toNat))
  ++ [0, 1, 2, 3, 4, 5, 6, 7].map (fun tn => ([Power_Control_Parameters_t.Slot_GAMMA_TN tn, Packet_Downlink_Assignment_t.Power_Control_Parameters], if t.slots tn then gamma else 0))

/-- encoding.cpp:713-731 and gsm_rlcmac.c:5811: the block with a Packet Downlink Assignment. -/
def pdaBlock (old : Option (Nat × Bool)) (t : DlTbf) (poll : Bool) (rrbp alpha gamma : Nat) (taIdx : Int) (taTs : Nat) (egprs ctrlAck : Bool) : Option (List Bool) :=
  encode rrbp poll.toNat 0 Packet_Downlink_Assignment_t (writePda old t alpha gamma taIdx taTs egprs ctrlAck)

/-- Members of encoding.cpp:660-682: Packet Timing Advance at `p`. -/
def writeTa (p : Path) (ta : Nat) (taIdx : Int) : List (Path × Nat) :=
  [(Packet_Timing_Advance_t.Exist_TIMING_ADVANCE_VALUE :: p, if ta < 64 then 1 else 0),
   (Packet_Timing_Advance_t.TIMING_ADVANCE_VALUE :: p, if ta < 64 then ta else 0),
   (Packet_Timing_Advance_t.Exist_IndexAndtimeSlot :: p, if 0 ≤ taIdx ∧ taIdx < 16 then 1 else 0),
   (Packet_Timing_Advance_t.TIMING_ADVANCE_INDEX :: p, if 0 ≤ taIdx ∧ taIdx < 16 then taIdx.toNat else 0),
   (Packet_Timing_Advance_t.TIMING_ADVANCE_TIMESLOT_NUMBER :: p, 0)]

/-- Members of encoding.cpp:677-705: Dynamic Allocation at `p`. The array of structures `Timeslot_Allocation` of
675-676 has the positions as part of the path. -/
def writeDa (p : Path) (t : UlTbf) (alpha gamma : Nat) : List (Path × Nat) :=
  let pc := alpha ≠ 0 ∨ gamma ≠ 0
  [(Dynamic_Allocation_t.USF_GRANULARITY :: p, 0),
   (Dynamic_Allocation_t.Exist_UPLINK_TFI_ASSIGNMENT :: p, 1),
   (Dynamic_Allocation_t.UPLINK_TFI_ASSIGNMENT :: p, t.tfi),
   (Dynamic_Allocation_t.UnionType :: p, if pc then 1 else 0),
   (Timeslot_Allocation_Power_Ctrl_Param_t.ALPHA :: Dynamic_Allocation_t.u_Timeslot_Allocation_Power_Ctrl_Param :: p, if pc then alpha else 0)]
  ++ [0, 1, 2, 3, 4, 5, 6, 7].map (fun tn => (Timeslot_Allocation_Power_Ctrl_Param_t.Slot_Exist tn :: Dynamic_Allocation_t.u_Timeslot_Allocation_Power_Ctrl_Param :: p, if pc then (t.usf tn).isSome.toNat else 0))
  ++ [0, 1, 2, 3, 4, 5, 6, 7].map (fun tn => (Timeslot_Allocation_Power_Ctrl_Param_t.Slot_USF_TN tn :: Dynamic_Allocation_t.u_Timeslot_Allocation_Power_Ctrl_Param :: p, if pc then (t.usf tn).getD 0 else 0))
  ++ [0, 1, 2, 3, 4, 5, 6, 7].map (fun tn => (Timeslot_Allocation_Power_Ctrl_Param_t.Slot_GAMMA_TN tn :: Dynamic_Allocation_t.u_Timeslot_Allocation_Power_Ctrl_Param :: p, if pc then ((t.usf tn).map fun _ => gamma).getD 0 else 0))
  ++ [0, 1, 2, 3, 4, 5, 6, 7].map (fun tn => (Timeslot_Allocation_t.Exist :: tn :: Dynamic_Allocation_t.u_Timeslot_Allocation :: p, if pc then 0 else (t.usf tn).isSome.toNat))
  ++ [0, 1, 2, 3, 4, 5, 6, 7].map (fun tn => (Timeslot_Allocation_t.USF_TN :: tn :: Dynamic_Allocation_t.u_Timeslot_Allocation :: p, if pc then 0 else (t.usf tn).getD 0))

/-- Path of the structure the common parameters are in (encoding.cpp:640-642, 654-656). -/
def puaPath (egprs : Bool) : Path :=
  if egprs then [PUA_EGPRS_t.u_PUA_EGPRS_00, Packet_Uplink_Assignment_t.u_PUA_EGPRS_Struct] else [Packet_Uplink_Assignment_t.u_PUA_GPRS_Struct]

/-- encoding.cpp:590-705 `write_packet_uplink_assignment`, without the MAC header. `id`: the TLLI if `use_tlli`,
otherwise `old_tfi` and `old_downlink`. -/
def writePua (id : Nat ⊕ (Nat × Bool)) (t : UlTbf) (alpha gamma : Nat) (taIdx : Int) (egprs : Bool) : Data :=
  arr (maPath ((if egprs then PUA_EGPRS_00_t.Frequency_Parameters else PUA_GPRS_t.Frequency_Parameters) :: puaPath egprs)) (maOctets t.chan) <| struct <|
  [([Packet_Uplink_Assignment_t.MESSAGE_TYPE], 10),
   ([Packet_Uplink_Assignment_t.PAGE_MODE], 0),
   ([PacketUplinkID_t.UnionType, Packet_Uplink_Assignment_t.ID], id.isLeft.toNat),
   ([PacketUplinkID_t.u_TLLI, Packet_Uplink_Assignment_t.ID], id.getLeft?.getD 0),
   ([Global_TFI_t.UnionType, PacketUplinkID_t.u_Global_TFI, Packet_Uplink_Assignment_t.ID], ((id.getRight?.map (·.2)).getD false).toNat),
   ([Global_TFI_t.u_UPLINK_TFI, PacketUplinkID_t.u_Global_TFI, Packet_Uplink_Assignment_t.ID], (id.getRight?.map (·.1)).getD 0),
   ([Global_TFI_t.u_DOWNLINK_TFI, PacketUplinkID_t.u_Global_TFI, Packet_Uplink_Assignment_t.ID], (id.getRight?.map (·.1)).getD 0),
   ([Packet_Uplink_Assignment_t.UnionType], egprs.toNat)]
  ++ (if egprs then
    [([PUA_EGPRS_t.UnionType, Packet_Uplink_Assignment_t.u_PUA_EGPRS_Struct], 0),
     (PUA_EGPRS_00_t.EGPRS_CHANNEL_CODING_COMMAND :: puaPath true, t.code),
     (PUA_EGPRS_00_t.TLLI_BLOCK_CHANNEL_CODING :: puaPath true, 1),
     (PUA_EGPRS_00_t.RESEGMENT :: puaPath true, 1),
     (PUA_EGPRS_00_t.EGPRS_WindowSize :: puaPath true, t.ws % 256),
     (PUA_EGPRS_00_t.UnionType :: puaPath true, 1),
     (PUA_EGPRS_00_t.Exist_Frequency_Parameters :: puaPath true, 1)]
    ++ writeTa (PUA_EGPRS_00_t.Packet_Timing_Advance :: puaPath true) t.ta taIdx
    ++ genFreq (PUA_EGPRS_00_t.Frequency_Parameters :: puaPath true) t.chan
    ++ writeDa (PUA_EGPRS_00_t.u_Dynamic_Allocation :: puaPath true) t alpha gamma
  else
    [(PUA_GPRS_t.CHANNEL_CODING_COMMAND :: puaPath false, t.code),
     (PUA_GPRS_t.TLLI_BLOCK_CHANNEL_CODING :: puaPath false, 1),
     (PUA_GPRS_t.UnionType :: puaPath false, 1),
     (PUA_GPRS_t.Exist_Frequency_Parameters :: puaPath false, 1)]
    ++ writeTa (PUA_GPRS_t.Packet_Timing_Advance :: puaPath false) t.ta taIdx
    ++ genFreq (PUA_GPRS_t.Frequency_Parameters :: puaPath false) t.chan
    ++ writeDa (PUA_GPRS_t.u_Dynamic_Allocation :: puaPath false) t alpha gamma)

/-- encoding.cpp:600-604 and gsm_rlcmac.c:5811: the block with a Packet Uplink Assignment. -/
def puaBlock (id : Nat ⊕ (Nat × Bool)) (t : UlTbf) (poll : Bool) (rrbp alpha gamma : Nat) (taIdx : Int) (egprs : Bool) : Option (List Bool) :=
  encode rrbp poll.toNat 0 Packet_Uplink_Assignment_t (writePua id t alpha gamma taIdx egprs)

/-- encoding.cpp:1753-1776 `write_packet_neighbour_cell_data`. `cell`: the container is one with ARFCN and BSIC;
`octets`: its octets (nacc_fsm.c:88-120). -/
def writePncd (dl : Bool) (tfi cid idx : Nat) (cell : Option (Nat × Nat)) (octets : List Nat) : Data :=
  arr [PNCD_Container_With_ID_t.CONTAINER, PNCDContainer_t.u_PNCD_Container_With_ID, Packet_Neighbour_Cell_Data_t.Container] (if cell.isSome then octets else []) <|
  arr [PNCD_Container_Without_ID_t.CONTAINER, PNCDContainer_t.u_PNCD_Container_Without_ID, Packet_Neighbour_Cell_Data_t.Container] (if cell.isSome then [] else octets) <| struct
  [([Packet_Neighbour_Cell_Data_t.MESSAGE_TYPE], 12),
   ([Packet_Neighbour_Cell_Data_t.PAGE_MODE], 0),
   ([Global_TFI_t.UnionType, Packet_Neighbour_Cell_Data_t.Global_TFI], dl.toNat),
   ([Global_TFI_t.u_UPLINK_TFI, Packet_Neighbour_Cell_Data_t.Global_TFI], tfi),
   ([Global_TFI_t.u_DOWNLINK_TFI, Packet_Neighbour_Cell_Data_t.Global_TFI], tfi),
   ([Packet_Neighbour_Cell_Data_t.CONTAINER_ID], cid),
   ([Packet_Neighbour_Cell_Data_t.spare], 0),
   ([Packet_Neighbour_Cell_Data_t.CONTAINER_INDEX], idx),
   ([PNCDContainer_t.UnionType, Packet_Neighbour_Cell_Data_t.Container], cell.isSome.toNat),
   ([PNCD_Container_With_ID_t.ARFCN, PNCDContainer_t.u_PNCD_Container_With_ID, Packet_Neighbour_Cell_Data_t.Container], (cell.map (·.1)).getD 0),
   ([PNCD_Container_With_ID_t.BSIC, PNCDContainer_t.u_PNCD_Container_With_ID, Packet_Neighbour_Cell_Data_t.Container], (cell.map (·.2)).getD 0)]

/-- nacc_fsm.c:136-140: the block with a Packet Neighbour Cell Data. -/
def pncdBlock (dl : Bool) (tfi cid idx : Nat) (cell : Option (Nat × Nat)) (octets : List Nat) : Option (List Bool) :=
  encode 0 0 0 Packet_Neighbour_Cell_Data_t (writePncd dl tfi cid idx cell octets)

/-- encoding.cpp:1778-1804 `write_packet_cell_change_continue`. -/
def writePccc (dl : Bool) (tfi : Nat) (cell : Option (Nat × Nat)) (cid : Nat) : Data := struct
  [([Packet_Cell_Change_Continue_t.MESSAGE_TYPE], 11),
   ([Packet_Cell_Change_Continue_t.PAGE_MODE], 0),
   ([Global_TFI_t.UnionType, Packet_Cell_Change_Continue_t.Global_TFI], dl.toNat),
   ([Global_TFI_t.u_UPLINK_TFI, Packet_Cell_Change_Continue_t.Global_TFI], tfi),
   ([Global_TFI_t.u_DOWNLINK_TFI, Packet_Cell_Change_Continue_t.Global_TFI], tfi),
   ([Packet_Cell_Change_Continue_t.Exist_ID], cell.isSome.toNat),
   ([Packet_Cell_Change_Continue_t.ARFCN], (cell.map (·.1)).getD 0),
   ([Packet_Cell_Change_Continue_t.BSIC], (cell.map (·.2)).getD 0),
   ([Packet_Cell_Change_Continue_t.CONTAINER_ID], cid)]

/-- nacc_fsm.c:194-197: the block with a Packet Cell Change Continue. -/
def pcccBlock (poll : Bool) (rrbp : Nat) (dl : Bool) (tfi : Nat) (cell : Option (Nat × Nat)) (cid : Nat) : Option (List Bool) :=
  encode rrbp poll.toNat 0 Packet_Cell_Change_Continue_t (writePccc dl tfi cell cid)

end Verif.DlCtrl
