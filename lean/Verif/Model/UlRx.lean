import Verif.Model.UlCtrl
import Verif.Model.Nacc
/-!
# What the PCU takes from a control block of a mobile

* `rcv_control_block`, src/pdch.cpp:903-975: decoding and dispatch
* the members the handlers read: `rcv_control_ack` (pdch.cpp:336-345), `rcv_resource_request` (629-690, 785-805),
  `rcv_measurement_report` (831-838), `rcv_cell_change_notification` (870-893)
* `fill_neigh_key_from_bts_pkt_cell_chg_not`, src/nacc_fsm.c:276-361
* `get_ms_class_by_capability`, `get_egprs_ms_class_by_capability`, src/decoding.cpp:291-319
* `get_meas`, src/pdch.cpp:76-95
-/

namespace Verif.Csn1

open T

/-- nacc_fsm.c:290-361: the target cell of a notification. -/
def targetOf (d : Data) (p : Path) : Nacc.Notif :=
  if d (Target_Cell_t.UnionType :: p) = 0 then
    .gsm (d (Target_Cell_GSM_Notif_t.ARFCN :: Target_Cell_t.u_Target_Cell_GSM_Notif :: p))
      (d (Target_Cell_GSM_Notif_t.BSIC :: Target_Cell_t.u_Target_Cell_GSM_Notif :: p))
  else
    let p := Target_Cell_t.u_Target_Other_RAT_Notif :: p
    if d (Target_Other_RAT_Notif_t.UnionType :: p) = 0 then .otherRat
    else
      let p := Target_Other_RAT_Notif_t.u_Target_Other_RAT_2_Notif :: p
      if d (Target_Other_RAT_2_Notif_t.UnionType :: p) = 0 then
        let p := Target_Other_RAT_2_Notif_t.u_Target_Cell_4G_Notif :: p
        if d (Target_Cell_4G_Notif_t.Exist_Arfcn :: p) ≠ 0 then
          .gsm (d (Target_Cell_4G_Notif_t.Arfcn :: p)) (d (Target_Cell_4G_Notif_t.bsic :: p))
        else if d (Target_Cell_4G_Notif_t.Exist_3G_Target_Cell :: p) ≠ 0 then .otherRat
        else if d (Target_Cell_4G_Notif_t.Exist_Eutran_Target_Cell :: p) ≠ 0 then .otherRat
        else .bad
      else .bad

/-- Octet `off` of the list of additional access technologies (src/gsm_rlcmac.h:1242-1255): the count, then three
octets for each of ten entries; further octets are 0 from the allocation. -/
def additionalOctet (d : Data) (q : Path) (off : Nat) : Nat :=
  let q := MS_RA_capability_value_t.u_Additional_access_technologies :: q
  if off = 0 then d (Additional_access_technologies_t.Count_additional_access_technologies :: q)
  else if 10 ≤ (off - 1) / 3 then 0
  else
    let q := (off - 1) / 3 :: Additional_access_technologies_t.Additional_access_technologies :: q
    match (off - 1) % 3 with
    | 0 => d (Additional_access_technologies_struct_t.Access_Technology_Type :: q)
    | 1 => d (Additional_access_technologies_struct_t.GMSK_Power_class :: q)
    | _ => d (Additional_access_technologies_struct_t.Eight_PSK_Power_class :: q)

/-- A member of `u.Content` (src/gsm_rlcmac.h:1111-1217, all members are octets) at offset `off` of the union. The
members are read without a look at the kind of access technology; for the list of additional ones (index 14 of the
alternatives) the octets of that list are there. -/
def contentOctet (d : Data) (q : Path) (off : Nat) (m : Path) : Nat :=
  if d (MS_RA_capability_value_t.IndexOfAccTech :: q) = 14 then additionalOctet d q off
  else d (m ++ MS_RA_capability_value_t.u_Content :: q)

/-- decoding.cpp:291-319: the loop, from element `i` on, for `n` elements. `offE`, `e`, `off`, `m`: the members of the
multislot capability that are read. -/
def classLoop (d : Data) (p : Path) (offE : Nat) (e : Nat) (off : Nat) (m : Nat) : (n i : Nat) → Nat
  | 0, _ => 0
  | n + 1, i =>
    let q := i :: MS_Radio_Access_capability_t.MS_RA_capability_value :: p
    if contentOctet d q 7 [Content_t.Exist_Multislot_capability] = 0 then classLoop d p offE e off m n (i + 1)
    else if contentOctet d q offE [e, Content_t.Multislot_capability] = 0 then classLoop d p offE e off m n (i + 1)
    else contentOctet d q off [m, Content_t.Multislot_capability]

/-- decoding.cpp:291-304 `get_ms_class_by_capability`. -/
def gprsClass (d : Data) (p : Path) : Nat :=
  classLoop d p 10 Multislot_capability_t.Exist_GPRS_multislot_class 11 Multislot_capability_t.GPRS_multislot_class
    (d (MS_Radio_Access_capability_t.Count_MS_RA_capability_value :: p)) 0

/-- decoding.cpp:306-319 `get_egprs_ms_class_by_capability`. -/
def egprsClass (d : Data) (p : Path) : Nat :=
  classLoop d p 18 Multislot_capability_t.Exist_EGPRS_multislot_class 19 Multislot_capability_t.EGPRS_multislot_class
    (d (MS_Radio_Access_capability_t.Count_MS_RA_capability_value :: p)) 0

/-- How a mobile is named in a resource request (pdch.cpp:650-679). -/
inductive Who
  | tlli (v : Nat)
  | dlTfi (v : Nat)
  | ulTfi (v : Nat)
  deriving DecidableEq, Repr

/-- What is taken from a resource request: name, classes (0: none), and measurements (`get_meas`, pdch.cpp:76-95). -/
structure ResReq where
  who : Who
  gprs : Nat
  egprs : Nat
  cValue : Nat
  signVar : Option Nat
  iLevel : Nat → Option Int

/-- pdch.cpp:629-690, 785-805. -/
def resReqOf (d : Data) : ResReq where
  who :=
    if d [PacketResourceRequestID_t.UnionType, Packet_Resource_Request_t.ID] ≠ 0 then
      .tlli (d [PacketResourceRequestID_t.u_TLLI, Packet_Resource_Request_t.ID])
    else if d [Global_TFI_t.UnionType, PacketResourceRequestID_t.u_Global_TFI, Packet_Resource_Request_t.ID] ≠ 0 then
      .dlTfi (d [Global_TFI_t.u_DOWNLINK_TFI, PacketResourceRequestID_t.u_Global_TFI, Packet_Resource_Request_t.ID])
    else .ulTfi (d [Global_TFI_t.u_UPLINK_TFI, PacketResourceRequestID_t.u_Global_TFI, Packet_Resource_Request_t.ID])
  gprs :=
    if d [Packet_Resource_Request_t.Exist_MS_Radio_Access_capability2] ≠ 0 then
      gprsClass d [Packet_Resource_Request_t.MS_Radio_Access_capability2] else 0
  egprs :=
    if d [Packet_Resource_Request_t.Exist_MS_Radio_Access_capability2] ≠ 0 then
      egprsClass d [Packet_Resource_Request_t.MS_Radio_Access_capability2] else 0
  cValue := d [Packet_Resource_Request_t.C_VALUE]
  signVar :=
    if d [Packet_Resource_Request_t.Exist_SIGN_VAR] ≠ 0 then some ((d [Packet_Resource_Request_t.SIGN_VAR] + 2) / 4) else none
  iLevel t :=
    if t < 8 ∧ d [InterferenceMeasurementReport_t.Exist, t, Packet_Resource_Request_t.I_LEVEL_TN] ≠ 0 then
      some (-2 * (d [InterferenceMeasurementReport_t.I_LEVEL, t, Packet_Resource_Request_t.I_LEVEL_TN] : Int)) else none

/-- Which handler is called, with what it reads of the message. -/
inductive Rx
  | dropped
  | ctrlAck (tlli : Nat)
  | dlAck
  | egprsDlAck
  | resReq (r : ResReq)
  | measReport (tlli : Nat)
  | dummy
  | cellChange (downlink : Bool) (tfi : Nat) (target : Nacc.Notif)
  | unknown

/-- `rcv_control_block` (pdch.cpp:903-975). A store outside of an array is an outcome of its own (C56). -/
def rcvControl (blk : List Bool) : Option Rx :=
  match ulDecode blk with
  | .err => some .dropped
  | .spill => none
  | .ok s => some <|
    match (readField blk 8 6).1 with
    | 0x01 => .ctrlAck (s.data [Packet_Control_Acknowledgement_t.TLLI])
    | 0x02 => .dlAck
    | 0x08 => .egprsDlAck
    | 0x05 => .resReq (resReqOf s.data)
    | 0x04 => .measReport (s.data [Packet_Measurement_Report_t.TLLI])
    | 0x03 => .dummy
    | 0x0c =>
      let g := s.data [Global_TFI_t.UnionType, Packet_Cell_Change_Notification_t.Global_TFI]
      .cellChange (g != 0)
        (if g = 0 then s.data [Global_TFI_t.u_UPLINK_TFI, Packet_Cell_Change_Notification_t.Global_TFI]
         else s.data [Global_TFI_t.u_DOWNLINK_TFI, Packet_Cell_Change_Notification_t.Global_TFI])
        (targetOf s.data [Packet_Cell_Change_Notification_t.Target_Cell])
    | _ => .unknown

end Verif.Csn1
