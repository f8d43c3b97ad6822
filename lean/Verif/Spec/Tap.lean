import Verif.Model.Tap
import Verif.Model.Vty
/-!
# What is counted and shown of the blocks on the air: specification
-/

namespace Verif.Tap

open Verif.Cs

/-- The BTS asks for a block on a time slot that carries packet data. -/
def onPdch (c : Cell) (trx ts : Nat) : Bool := trx < 8 && ts < 8 && c.enabled trx ts

/-- A control message is sent. -/
def isCtrl (c : Cell) : Ev → Bool
  | .rts trx ts _ _ f => onPdch c trx ts && f.ctrl.isSome
  | _ => false

/-- User data is sent: there is no control message. -/
def isData (c : Cell) : Ev → Bool
  | .rts trx ts _ _ f => onPdch c trx ts && f.ctrl.isNone && f.data.isSome
  | _ => false

/-- There is nothing to send, but a mobile listens, or the carrier must be filled. -/
def isDummy (c : Cell) : Ev → Bool
  | .rts trx ts _ _ f => onPdch c trx ts && f.ctrl.isNone && f.data.isNone && (f.tbfs != 0 || (c.idleC0 && trx == 0))
  | _ => false

/-- Lengths of the uplink blocks (bytes with the spare bits, 3GPP TS 44.060). -/
def ulLengths : List Nat := [23, 27, 33, 34, 40, 42, 49, 54, 61, 79, 119, 143, 155]

/-- Bytes received on packet data time slots in blocks with one of the lengths of uplink blocks. -/
def goodBytes (c : Cell) : Ev → Nat
  | .ul trx ts _ _ data _ _ => if onPdch c trx ts && ulLengths.contains data.length then data.length else 0
  | _ => 0

/-- Lengths of blocks in CS-1 to CS-4. -/
def gprsLengths : List Nat := [23, 34, 40, 54]

/-- A control block on a packet data time slot that could be decoded. -/
def isGoodCtrl (c : Cell) : Ev → Bool
  | .ul trx ts _ _ data _ fail => onPdch c trx ts && gprsLengths.contains data.length && data.headD 0 / 64 == 1 && !fail
  | _ => false

/-- A frame of the air interface without the channel type: direction, ARFCN, time slot, frame number and bytes. -/
def Frame.core (f : Frame) : Bool × Nat × Nat × Nat × Bytes := (f.uplink, f.arfcn, f.ts, f.fn, f.data)

/-- A request to the BTS in this form. -/
def Req.core (r : Req) : Bool × Nat × Nat × Nat × Bytes := (false, r.arfcn, r.ts, r.fn, r.data)

/-- The requests that carry a block. -/
def St.blocks (s : St) : List Req := s.phy.filter fun r => r.data != []

/-- Frames shown under these categories. -/
def St.shown (s : St) (cats : List Cat) : List Frame := s.tap.filter fun f => cats.contains f.cat

/-- The categories of the downlink. -/
def dlCats : List Cat := [.dlDummy, .dlCtrl, .dlGprs, .dlEgprs]

/-- All of them are enabled. -/
def Cell.shows (c : Cell) (cats : List Cat) : Prop := ∀ k ∈ cats, c.mask.testBit k.bit = true

/-- The name of the category in the command `gsmtap-category`. -/
def Cat.name : Cat → String
  | .dlDummy => "dl-dummy" | .dlCtrl => "dl-ctrl" | .dlGprs => "dl-data-gprs" | .dlEgprs => "dl-data-egprs"
  | .ulUnknown => "ul-unknown" | .ulDummy => "ul-dummy" | .ulCtrl => "ul-ctrl" | .ulGprs => "ul-data-gprs" | .ulEgprs => "ul-data-egprs"
  | .ulRach => "ul-rach" | .ulPtcch => "ul-ptcch"

/-- The logical channel of each kind of frames: control messages are on the PACCH. -/
def Cat.channel : Cat → Chan
  | .dlDummy | .dlCtrl | .ulDummy | .ulCtrl => .pacch
  | .dlGprs | .dlEgprs | .ulGprs | .ulEgprs | .ulUnknown => .pdtch
  | .ulRach => .rach
  | .ulPtcch => .ptcch

/-- User data is sent, in a block of an EGPRS TBF. -/
def isEgprsData (c : Cell) : Ev → Bool
  | .rts trx ts _ _ f => onPdch c trx ts && f.ctrl.isNone && (f.data.map (·.2)) == some true
  | _ => false

/-- Packet Downlink Dummy Control Block (3GPP TS 44.060, 11.2.8), USF 7, padded. -/
def dummyMsg : Bytes := [0x47, 0x94, 0x2b, 0x2b, 0x2b, 0x2b, 0x2b, 0x2b, 0x2b, 0x2b, 0x2b, 0x2b, 0x2b, 0x2b, 0x2b, 0x2b, 0x2b, 0x2b, 0x2b, 0x2b,
  0x2b, 0x2b, 0x2b]

/-- The message for a block: control before data before dummy. -/
def chosen (f : Found) : Bytes := (f.ctrl.or (f.data.map (·.1))).getD dummyMsg

/-- The same bytes but for the lowest three bits of the first, which are the USF. -/
def withUsf (usf : Option Nat) (m d : Bytes) : Prop :=
  ∃ b b' l, m = b :: l ∧ d = b' :: l ∧ b' / 8 = b / 8 ∧ b' % 8 = usf.getD 7

/-- How often an uplink block on a packet data time slot is shown when everything is enabled: as what it is if the PCU handles this kind, and as unknown if the PCU fails
to process it. -/
def timesShown (d : Bytes) (fail : Bool) : Nat :=
  if d = [] then 0
  else if ulLengths.contains d.length = false then 1
  else if gprsLengths.contains d.length ∧ d.headD 0 / 64 = 2 then 0
  else if gprsLengths.contains d.length ∧ 3 ≤ d.headD 0 / 64 then 1
  else if fail then 2 else 1

end Verif.Tap
