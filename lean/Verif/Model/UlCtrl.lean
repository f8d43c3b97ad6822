import Verif.Model.Csn1Ul
/-!
# Control blocks from mobiles

* `decode_gsm_rlcmac_uplink`, src/gsm_rlcmac.c:5362-5485
* the message types, src/gsm_rlcmac.h:5058-5072
-/

namespace Verif.Csn1

open T

/-- The table of a message type (src/gsm_rlcmac.c:5396-5473). -/
def ulTable : Nat → Option Items
  | 0x00 => some Packet_Cell_Change_Failure_t
  | 0x01 => some Packet_Control_Acknowledgement_t
  | 0x02 => some Packet_Downlink_Ack_Nack_t
  | 0x03 => some Packet_Uplink_Dummy_Control_Block_t
  | 0x04 => some Packet_Measurement_Report_t
  | 0x05 => some Packet_Resource_Request_t
  | 0x06 => some Packet_Mobile_TBF_Status_t
  | 0x07 => some Packet_PSI_Status_t
  | 0x08 => some EGPRS_PD_AckNack_t
  | 0x09 => some Packet_Pause_t
  | 0x0a => some Packet_Enh_Measurement_Report_t
  | 0x0b => some Additional_MS_Rad_Access_Cap_t
  | 0x0c => some Packet_Cell_Change_Notification_t
  | 0x0d => some Packet_SI_Status_t
  | _ => none

/-- `decode_gsm_rlcmac_uplink` (src/gsm_rlcmac.c:5362-5485) of the bits of a block to a structure of zeros
(`talloc_zero`, src/pdch.cpp:914). The payload type is looked at first, then the message type behind the MAC
header; then the table, which has the MAC header again, from the start. -/
def ulDecode (blk : List Bool) : R :=
  let pt := (readField blk 0 2).1
  if pt = 0 || pt = 3 then .err
  else match ulTable (readField blk 8 6).1 with
    | none => .err
    | some d => decode blk d ⟨184, 0, fun _ => 0⟩

end Verif.Csn1
