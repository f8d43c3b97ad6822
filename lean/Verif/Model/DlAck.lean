import Verif.Model.UlCtrl
import Verif.Model.AckNack
/-!
# From a control block to the window of a downlink TBF

* `rcv_control_block`, src/pdch.cpp:903-975, for the two acknowledgement messages
* `rcv_control_dl_ack_nack`, src/pdch.cpp:470-533
* `rcv_control_egprs_dl_ack_nack`, src/pdch.cpp:535-627
-/

namespace Verif.Csn1

open T
open Verif.AckNack (GprsDesc EgprsDesc rcvGprs rcvEgprs)
open Verif.RlcDl (Win)

/-- `bitvec_get_bit_pos` in an array of octets: most significant bit first. -/
def bitAt (D : Data) (q : Path) (i : Nat) : Bool := (D (i / 8 :: q)).testBit (7 - i % 8)

/-- `Ack_Nack_Description_t` as read by `decode_gprs_acknack_bits`, src/decoding.cpp:739-784. -/
def gprsDesc (D : Data) (p : Path) : GprsDesc where
  final := D (Ack_Nack_Description_t.FINAL_ACK_INDICATION :: p) != 0
  ssn := D (Ack_Nack_Description_t.STARTING_SEQUENCE_NUMBER :: p)
  rbb := bitAt D (Ack_Nack_Description_t.RECEIVED_BLOCK_BITMAP :: p)

/-- `EGPRS_AckNack_Desc_t` as read by `decode_egprs_acknack_bits`, src/decoding.cpp:639-737, and by
`decompress_crbb`, src/egprs_rlc_compression.cpp. -/
def egprsDesc (D : Data) (p : Path) : EgprsDesc where
  final := D (EGPRS_AckNack_Desc_t.FINAL_ACK_INDICATION :: p) != 0
  bow := D (EGPRS_AckNack_Desc_t.BEGINNING_OF_WINDOW :: p) != 0
  ssn := D (EGPRS_AckNack_Desc_t.STARTING_SEQUENCE_NUMBER :: p)
  crbb :=
    if D (EGPRS_AckNack_Desc_t.Exist_CRBB :: p) = 0 then none
    else some (D (EGPRS_AckNack_Desc_t.CRBB_STARTING_COLOR_CODE :: p) != 0,
      (List.range (D (EGPRS_AckNack_Desc_t.CRBB_LENGTH :: p))).map (bitAt D (EGPRS_AckNack_Desc_t.CRBB :: p)))
  urbb := (List.range (D (EGPRS_AckNack_Desc_t.URBB_LENGTH :: p))).map (bitAt D (EGPRS_AckNack_Desc_t.URBB :: p))

/-- A control block in a frame in which the downlink TBF with TFI `tfi` was polled for an acknowledgement: the window
of the TBF afterwards. The message type that `rcv_control_block` looks at is the one of the decoder, except for
Packet Pause (which has its own layout and does not get here, see `C56_pause`). Measurements, requests for an uplink
TBF and the release of the poll are left out. -/
def rcvDlAckBlock (tfi : Nat) (blk : List Bool) (w : Win) : Win :=
  match ulDecode blk with
  | .ok s =>
    match (readField blk 8 6).1 with
    | 0x02 =>
      if s.data [Packet_Downlink_Ack_Nack_t.DOWNLINK_TFI] = tfi then
        rcvGprs (gprsDesc s.data [Packet_Downlink_Ack_Nack_t.Ack_Nack_Description]) w
      else w
    | 0x08 =>
      if s.data [EGPRS_PD_AckNack_t.DOWNLINK_TFI] = tfi then
        rcvEgprs (egprsDesc s.data [EGPRS_AckNack_t.Desc, EGPRS_PD_AckNack_t.EGPRS_AckNack]) w
      else w
    | _ => w
  | _ => w

end Verif.Csn1
