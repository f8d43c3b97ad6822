import Verif.Model.CodingScheme
/-!
# What is counted and shown of the blocks on the air

The end of `gprs_rlcmac_rcv_rts_block` with `tap_n_acc`, the beginning of the reception of blocks and bursts, and the functions that send
GSMTAP frames. Which messages the scheduler finds, and whether a received block can be decoded, is input. Counters are unbounded (64 bits in
C). Signal levels in GSMTAP frames are left out.
-/

namespace Verif.Tap

open Verif.Cs

abbrev Bytes := List Nat

/-- gprs_pcu.h:50-67 `enum pcu_gsmtap_category`: those that are used for blocks and bursts here. -/
inductive Cat where
  | dlDummy | dlCtrl | dlGprs | dlEgprs | ulUnknown | ulDummy | ulCtrl | ulGprs | ulEgprs | ulRach | ulPtcch
  deriving DecidableEq, Repr

/-- gprs_pcu.h:50-67: number of the bit. -/
def Cat.bit : Cat → Nat
  | .dlDummy => 1 | .dlCtrl => 2 | .dlGprs => 3 | .dlEgprs => 4
  | .ulUnknown => 15 | .ulDummy => 16 | .ulCtrl => 17 | .ulGprs => 18 | .ulEgprs => 19 | .ulRach => 20 | .ulPtcch => 21

/-- Channel types of GSMTAP (libosmocore). -/
inductive Chan where
  | pacch | pdtch | rach | ptcch
  deriving DecidableEq, Repr

/-- A GSMTAP frame. `cat` is not sent: it is kept to say which setting let the frame through. -/
structure Frame where
  cat : Cat
  uplink : Bool
  arfcn : Nat
  ts : Nat
  chan : Chan
  fn : Nat
  data : Bytes
  deriving DecidableEq, Repr

/-- A DATA.req to the BTS; no data: empty frame. -/
structure Req where
  trx : Nat
  ts : Nat
  arfcn : Nat
  fn : Nat
  block : Nat
  data : Bytes
  deriving DecidableEq, Repr

/-- The settings of the cell. -/
structure Cell where
  mask : Nat
  arfcn : Nat → Nat
  enabled : Nat → Nat → Bool
  idleC0 : Bool

/-- bts.h:77-185, the counters that are modelled, and what went out. -/
structure St where
  sent : Nat := 0
  sentDummy : Nat := 0
  sentControl : Nat := 0
  dlBytes : Nat := 0
  recvControl : Nat := 0
  ulBytes : Nat := 0
  tap : List Frame := []
  phy : List Req := []
  deriving DecidableEq, Repr

/-- What the scheduler finds for a request. -/
structure Found where
  ctrl : Option Bytes
  data : Option (Bytes × Bool)
  tbfs : Nat
  /-- the USF of the TBF that gets the uplink block -/
  usf : Option Nat

/-- Events. -/
inductive Ev where
  /-- the BTS requests a block -/
  | rts (trx ts fn block : Nat) (f : Found)
  /-- the BTS delivers a block on TRX, time slot; `mt`: message type if it is a control block; `fail`: decoding or processing it fails -/
  | ul (trx ts arfcn fn : Nat) (data : Bytes) (mt : Nat) (fail : Bool)
  /-- an access burst on the RACH or (`ptcch`) PTCCH -/
  | rach (ptcch : Bool) (trx ts fn ra : Nat) (is11 : Bool)

/-- bts.cpp:549-570 `bts_send_gsmtap_meas`. `none`: there is no such TRX, the array is read behind its end. -/
def sendGsmtap (c : Cell) (s : St) (cat : Cat) (uplink : Bool) (trx ts : Nat) (chan : Chan) (fn : Nat) (data : Bytes) : Option St :=
  if c.mask.testBit cat.bit = false then some s
  else if 8 ≤ trx then none
  else some { s with tap := s.tap ++ [⟨cat, uplink, c.arfcn trx, ts, chan, fn, data⟩] }

/-- gprs_rlcmac_sched.cpp:342-348 `rlcmac_dl_idle`. -/
def dlIdle : Bytes := [0x47, 0x94] ++ List.replicate 21 0x2b

/-- gprs_rlcmac_sched.cpp:362-388 `tap_n_acc`. -/
def tapNAcc (c : Cell) (s : St) (trx ts fn : Nat) (cat : Cat) (data : Bytes) : Option St :=
  match cat with
  | .dlCtrl => sendGsmtap c { s with sentControl := s.sentControl + 1 } .dlCtrl false trx ts .pacch fn data
  | .dlGprs => sendGsmtap c { s with sent := s.sent + 1 } .dlGprs false trx ts .pdtch fn data
  | .dlEgprs => sendGsmtap c { s with sent := s.sent + 1 } .dlEgprs false trx ts .pdtch fn data
  | .dlDummy => sendGsmtap c { s with sentDummy := s.sentDummy + 1 } .dlDummy false trx ts .pacch fn data
  | _ => some s

/-- gprs_rlcmac_sched.cpp:464-500: the message and its kind. -/
def select (c : Cell) (trx : Nat) (f : Found) : Option (Cat × Bytes) :=
  match f.ctrl with
  | some m => some (.dlCtrl, m)
  | none =>
    match f.data with
    | some (m, egprs) => some (if egprs then .dlEgprs else .dlGprs, m)
    | none => if f.tbfs = 0 ∧ (c.idleC0 = true → trx ≠ 0) then none else some (.dlDummy, dlIdle)

/-- gprs_rlcmac_sched.cpp:515-518: the USF in the first byte. `none`: the assertion fails. -/
def setUsf (usf : Option Nat) : Bytes → Option Bytes
  | [] => none
  | b :: l => some (((b &&& 0xf8) ||| usf.getD 7) :: l)

/-- pcu_l1_if.cpp:212-234 `pcu_l1if_tx_pdtch` (without direct access to the PHY). -/
def txPdtch (c : Cell) (s : St) (trx ts fn block : Nat) (data : Bytes) : St :=
  { s with phy := s.phy ++ [⟨trx, ts, c.arfcn trx, fn, block, data⟩] }

/-- gprs_rlcmac_sched.cpp:390-528 `gprs_rlcmac_rcv_rts_block`, with the choice of the messages in `f`. -/
def rts (c : Cell) (s : St) (trx ts fn block : Nat) (f : Found) : Option St :=
  if 8 ≤ trx ∨ 8 ≤ ts then some s
  else if c.enabled trx ts = false then some s
  else
    match select c trx f with
    | none => some (txPdtch c s trx ts fn block [])
    | some (cat, m) =>
      (setUsf f.usf m).bind fun d =>
        (tapNAcc c { s with dlBytes := s.dlBytes + d.length } trx ts fn cat d).map fun s => txPdtch c s trx ts fn block d

/-- pdch.cpp:901-960 `rcv_control_block`: the new state and whether it fails. -/
def rcvControl (c : Cell) (s : St) (trx ts fn : Nat) (data : Bytes) (mt : Nat) (fail : Bool) : Option (St × Bool) :=
  (sendGsmtap c s (if mt = 3 then .ulDummy else .ulCtrl) true trx ts .pacch fn data).map fun s =>
    if fail then (s, true) else ({ s with recvControl := s.recvControl + 1 }, false)

/-- pdch.cpp:998-1080 `rcv_data_block`, its beginning. -/
def rcvData (c : Cell) (s : St) (trx ts fn : Nat) (data : Bytes) (edge fail : Bool) : Option (St × Bool) :=
  (sendGsmtap c s (if edge then .ulEgprs else .ulGprs) true trx ts .pdtch fn data).map fun s => (s, fail)

/-- pdch.cpp:1082-1105 `rcv_block_gprs`. -/
def rcvGprs (c : Cell) (s : St) (trx ts fn : Nat) (data : Bytes) (mt : Nat) (fail : Bool) : Option (St × Bool) :=
  match data.headD 0 / 64 with
  | 0 => rcvData c s trx ts fn data false fail
  | 1 => rcvControl c s trx ts fn data mt fail
  | 2 => some (s, false)
  | _ => some (s, true)

/-- pdch.cpp:964-995 `rcv_block`. -/
def rcvBlock (c : Cell) (s : St) (trx ts fn : Nat) (data : Bytes) (mt : Nat) (fail : Bool) : Option (St × Bool) :=
  if data.length = 0 then some (s, false)
  else
    let cs := getBySizeUl data.length
    if cs = .unknown then some (s, true)
    else
      let s := { s with ulBytes := s.ulBytes + data.length }
      if cs.isGprs then rcvGprs c s trx ts fn data mt fail
      else if cs.isEdge then rcvData c s trx ts fn data true fail
      else some (s, true)

/-- pcu_l1_if.cpp:336-352 `pcu_rx_data_ind_pdtch`. The numbers of TRX and time slot are not checked (478): `none` if there are no such. -/
def rxPdtch (c : Cell) (s : St) (trx ts fn : Nat) (data : Bytes) (mt : Nat) (fail : Bool) : Option (St × Bool) :=
  if 8 ≤ trx ∨ 8 ≤ ts then none
  else if c.enabled trx ts = false then some (s, true)
  else rcvBlock c s trx ts fn data mt fail

/-- pcu_l1_if.cpp:461-511 `pcu_rx_data_ind` for the PDTCH: what could not be processed is shown as unknown. -/
def rxData (c : Cell) (s : St) (trx ts arfcn fn : Nat) (data : Bytes) (mt : Nat) (fail : Bool) : Option St :=
  (rxPdtch c s trx ts fn data mt fail).map fun (s, bad) =>
    if bad && c.mask.testBit Cat.ulUnknown.bit then { s with tap := s.tap ++ [⟨.ulUnknown, true, arfcn, ts, .pdtch, fn, data⟩] } else s

/-- bts.cpp:523-533: the bits of an access burst. -/
def raBytes (ra : Nat) (is11 : Bool) : Bytes :=
  if is11 then [(ra / 8) % 256, (ra * 32) % 256] else [ra % 256]

/-- bts.cpp:517-538 `bts_send_gsmtap_rach`, as used in bts.cpp:950 and 1071. -/
def rxRach (c : Cell) (s : St) (ptcch : Bool) (trx ts fn ra : Nat) (is11 : Bool) : Option St :=
  sendGsmtap c s (if ptcch then .ulPtcch else .ulRach) true trx ts (if ptcch then .ptcch else .rach) fn (raBytes ra is11)

/-- One event. -/
def step (c : Cell) (s : St) : Ev → Option St
  | .rts trx ts fn block f => rts c s trx ts fn block f
  | .ul trx ts arfcn fn data mt fail => rxData c s trx ts arfcn fn data mt fail
  | .rach p trx ts fn ra is11 => rxRach c s p trx ts fn ra is11

/-- A history; `none`: it crashes or reads behind an array. -/
def run (c : Cell) (s : St) : List Ev → Option St
  | [] => some s
  | e :: es => (step c s e).bind fun s => run c s es

end Verif.Tap
