import Verif.Model.BitField
/-!
# Control messages a mobile sends

Writers of messages of 3GPP TS 44.060 clause 11.2, from the CSN.1 text of the standard. A radio block is 184 bits:
the MAC header, the message and padding. Nothing of the model of the PCU is used; `put n v` are the `n` bits of the
number `v`.
-/

namespace Verif.UlMsg

open Verif.Bits (put)

/-- `{ 0 | 1 < ... > }` -/
def opt : Option (List Bool) → List Bool
  | none => [false]
  | some l => true :: l

/-- The number of a bit. -/
def bit (b : Bool) : List Bool := [b]

/-- MAC header of a control block without optional octets (10.3.2): payload type 01, five spare bits, retry bit; then
the message type (11.2.0.2). -/
def header (spare : Nat) (retry : Bool) (type : Nat) : List Bool :=
  put 2 1 ++ put 5 spare ++ bit retry ++ put 6 type

/-- Channel Request Description (12.7). -/
structure ChannelRequest where
  peak : Nat
  priority : Nat
  rlcMode : Nat
  llcType : Nat
  octets : Nat

def ChannelRequest.bits (c : ChannelRequest) : List Bool :=
  put 4 c.peak ++ put 2 c.priority ++ put 1 c.rlcMode ++ put 1 c.llcType ++ put 16 c.octets

def ChannelRequest.Valid (c : ChannelRequest) : Prop :=
  c.peak < 16 ∧ c.priority < 4 ∧ c.rlcMode < 2 ∧ c.llcType < 2 ∧ c.octets < 65536

/-- Packet Downlink Ack/Nack (11.2.6). `iLevel t` is the interference level of time slot `t`, if it was measured.
`pfi` is the release 99 part: left out, or a Packet Flow Identifier if there is one. `rbb` is the received block
bitmap in the order of transmission. -/
structure DownlinkAck where
  spare : Nat
  retry : Bool
  tfi : Nat
  final : Bool
  ssn : Nat
  rbb : List Bool
  request : Option ChannelRequest
  cValue : Nat
  rxqual : Nat
  signVar : Nat
  iLevel : Nat → Option Nat
  pfi : Option (Option Nat)

def DownlinkAck.bits (m : DownlinkAck) : List Bool :=
  header m.spare m.retry 2 ++ put 5 m.tfi
    ++ (bit m.final ++ put 7 m.ssn ++ m.rbb)
    ++ opt (m.request.map ChannelRequest.bits)
    ++ (put 6 m.cValue ++ put 3 m.rxqual ++ put 6 m.signVar
      ++ [0, 1, 2, 3, 4, 5, 6, 7].flatMap fun t => opt ((m.iLevel t).map (put 4)))
    ++ opt (m.pfi.map fun p => opt (p.map (put 7)))

def DownlinkAck.Valid (m : DownlinkAck) : Prop :=
  m.spare < 32 ∧ m.tfi < 32 ∧ m.ssn < 128 ∧ m.rbb.length = 64 ∧ (∀ c, m.request = some c → c.Valid)
    ∧ m.cValue < 64 ∧ m.rxqual < 8 ∧ m.signVar < 64 ∧ (∀ t v, m.iLevel t = some v → v < 16)
    ∧ (∀ p, m.pfi = some (some p) → p < 128)

/-- EGPRS Ack/Nack Description (12.3.1). `crbb`: colour code and bits of the compressed bitmap. -/
structure AckDesc where
  final : Bool
  bow : Bool
  eow : Bool
  ssn : Nat
  crbb : Option (Bool × List Bool)
  urbb : List Bool

def AckDesc.bits (d : AckDesc) : List Bool :=
  bit d.final ++ bit d.bow ++ bit d.eow ++ put 11 d.ssn
    ++ opt (d.crbb.map fun c => put 7 c.2.length ++ bit c.1 ++ c.2) ++ d.urbb

/-- EGPRS Channel Quality Report (12.5.3): mean and coefficient of variation of the bit error probability for GMSK and
8-PSK, C value, and per time slot the mean (`true`: for 8-PSK) and the interference level. -/
structure Quality where
  gmsk : Option (Nat × Nat)
  psk : Option (Nat × Nat)
  cValue : Nat
  bep : Option (Nat → Option (Bool × Nat))
  iLevel : Option (Nat → Option Nat)

def Quality.bits (r : Quality) : List Bool :=
  opt (r.gmsk.map fun x => put 5 x.1 ++ put 3 x.2) ++ opt (r.psk.map fun x => put 5 x.1 ++ put 3 x.2)
    ++ put 6 r.cValue
    ++ (opt (r.bep.map fun f => [0, 1, 2, 3, 4, 5, 6, 7].flatMap fun t => opt ((f t).map fun x => bit x.1 ++ put 4 x.2))
      ++ opt (r.iLevel.map fun f => [0, 1, 2, 3, 4, 5, 6, 7].flatMap fun t => opt ((f t).map (put 4))))

def Quality.Valid (r : Quality) : Prop :=
  (∀ x, r.gmsk = some x → x.1 < 32 ∧ x.2 < 8) ∧ (∀ x, r.psk = some x → x.1 < 32 ∧ x.2 < 8) ∧ r.cValue < 64
    ∧ (∀ f, r.bep = some f → ∀ t x, f t = some x → x.2 < 16) ∧ (∀ f, r.iLevel = some f → ∀ t v, f t = some v → v < 16)

/-- EGPRS Packet Downlink Ack/Nack (11.2.6a), without extension bits. The description is the last part of the block,
or has a length before it (`withLength`). -/
structure EgprsDownlinkAck where
  spare : Nat
  retry : Bool
  tfi : Nat
  outOfMemory : Bool
  quality : Option Quality
  request : Option ChannelRequest
  pfi : Option Nat
  withLength : Bool
  desc : AckDesc

def EgprsDownlinkAck.bits (m : EgprsDownlinkAck) : List Bool :=
  header m.spare m.retry 8 ++ put 5 m.tfi ++ bit m.outOfMemory ++ opt (m.quality.map Quality.bits)
    ++ opt (m.request.map ChannelRequest.bits) ++ opt (m.pfi.map (put 7)) ++ bit false
    ++ bit m.withLength ++ (if m.withLength then put 8 m.desc.bits.length else []) ++ m.desc.bits

/-- Values in range, and the message fits a block; a description without length ends with the block. -/
def EgprsDownlinkAck.Valid (m : EgprsDownlinkAck) : Prop :=
  m.spare < 32 ∧ m.tfi < 32 ∧ (∀ r, m.quality = some r → r.Valid) ∧ (∀ c, m.request = some c → c.Valid)
    ∧ (∀ p, m.pfi = some p → p < 128) ∧ m.desc.ssn < 2048
    ∧ (∀ c, m.desc.crbb = some c → c.2.length < 128) ∧ m.bits.length ≤ 184
    ∧ (m.withLength = false → m.bits.length = 184)

end Verif.UlMsg
