import Verif.Spec.UlMsg
/-!
# Control messages for mobiles

Blocks of 3GPP TS 44.060 clauses 10.3.1, 11.2 and 12, from the CSN.1 text of the standard. A radio block is 184
bits: the MAC header, the message, additions of later releases and padding. Nothing of the model of the PCU is used.
-/

namespace Verif.DlMsg

open Verif.Bits (put)
open Verif.UlMsg (opt bit)

/-- MAC header of a control block without optional octets (10.3.1): payload type 01, RRBP, S/P, USF. -/
def header (rrbp : Nat) (poll : Bool) (usf : Nat) : List Bool := put 2 1 ++ put 2 rrbp ++ bit poll ++ put 3 usf

/-- `<padding bits>` (clause 11): `n` bits to the end of the block. The first is 0, the others repeat `00101011`
in the octets of the block. -/
def padding : Nat → List Bool
  | 0 => []
  | n + 1 => false :: (List.range n).reverse.map fun i => [true, true, false, true, false, true, false, false].getD (i % 8) false

/-- `{ null | 0 bit ** | 1 < additions > }`: without additions nothing has to be there if the block is full. -/
def later (room : Nat) : Option (List Bool) → List Bool
  | none => if room = 0 then [] else [false]
  | some l => true :: l

/-- Content of a control block behind the MAC header, padded to 22 octets. -/
def fill (l : List Bool) : List Bool := l ++ padding (176 - l.length)

/-- Addressed mobile: Global TFI (12.10) or TLLI (12.16). -/
inductive Id
  | tfi (downlink : Bool) (n : Nat)
  | tlli (n : Nat)

def Id.bits : Id → List Bool
  | .tfi d n => [false] ++ (bit d ++ put 5 n)
  | .tlli n => [true, false] ++ put 32 n

def Id.Valid : Id → Prop
  | .tfi _ n => n < 32
  | .tlli n => n < 2 ^ 32

/-- Packet Timing Advance (12.12): value; index and time slot. -/
structure Timing where
  value : Option Nat
  index : Option (Nat × Nat)

def Timing.bits (t : Timing) : List Bool :=
  opt (t.value.map (put 6)) ++ opt (t.index.map fun i => put 4 i.1 ++ put 3 i.2)

def Timing.Valid (t : Timing) : Prop :=
  (∀ v, t.value = some v → v < 64) ∧ (∀ i, t.index = some i → i.1 < 16 ∧ i.2 < 8)

/-- The last `n` bits of octets. -/
def lastBits (n : Nat) (octets : List Nat) : List Bool := (octets.flatMap (put 8)).drop (8 * octets.length - n)

/-- Frequency Parameters (12.8): a single ARFCN, or hopping over the frequencies of a Mobile Allocation (12.10a)
which refers to the cell allocation, bits in the order of transmission. -/
inductive Carrier
  | arfcn (n : Nat)
  | hop (maio hsn : Nat) (ma : List Bool)

structure Freq where
  tsc : Nat
  carrier : Carrier

def Freq.bits (f : Freq) : List Bool :=
  put 3 f.tsc ++ match f.carrier with
  | .arfcn n => put 2 0 ++ put 10 n
  | .hop maio hsn ma => put 2 2 ++ put 6 maio ++ (put 6 hsn ++ [false] ++ [false] ++ put 6 (ma.length - 1) ++ ma)

def Freq.Valid (f : Freq) : Prop :=
  f.tsc < 8 ∧ match f.carrier with
  | .arfcn n => n < 1024
  | .hop maio hsn ma => maio < 64 ∧ hsn < 64 ∧ 1 ≤ ma.length ∧ ma.length ≤ 64

/-- EGPRS part of a downlink assignment: coded window size, LINK_QUALITY_MEASUREMENT_MODE. -/
structure DlEgprs where
  window : Nat
  quality : Nat

/-- Packet Downlink Assignment (11.2.7), without persistence levels, P0, starting time and measurement mapping.
`slots t`: time slot `t` is assigned. `power`: ALPHA and GAMMA of the time slots. -/
structure DownlinkAssignment where
  rrbp : Nat
  poll : Bool
  pageMode : Nat
  id : Id
  macMode : Nat
  unacknowledged : Bool
  controlAck : Bool
  slots : Nat → Bool
  timing : Timing
  freq : Option Freq
  tfi : Option Nat
  power : Option (Nat × (Nat → Option Nat))
  egprs : Option DlEgprs

def tns : List Nat := [0, 1, 2, 3, 4, 5, 6, 7]

/-- Up to the additions of release 99. -/
def DownlinkAssignment.base (m : DownlinkAssignment) : List Bool :=
  put 6 2 ++ put 2 m.pageMode ++ [false] ++ m.id.bits ++ [false]
    ++ put 2 m.macMode ++ bit m.unacknowledged ++ bit m.controlAck ++ tns.map m.slots
    ++ m.timing.bits ++ [false] ++ opt (m.freq.map Freq.bits) ++ opt (m.tfi.map (put 5))
    ++ opt (m.power.map fun p => put 4 p.1 ++ tns.flatMap fun t => opt ((p.2 t).map (put 5)))
    ++ [false] ++ [false]

/-- Release 99: EGPRS window size, measurement mode and no BEP_PERIOD2; no extended timing advance; no COMPACT reduced
MA. -/
def DlEgprs.bits (e : DlEgprs) : List Bool :=
  opt (some (put 5 e.window ++ put 2 e.quality ++ [false])) ++ [false] ++ [false]

/-- Message behind the MAC header. -/
def DownlinkAssignment.content (m : DownlinkAssignment) : List Bool :=
  m.base ++ later (176 - m.base.length) (m.egprs.map DlEgprs.bits)

/-- The block. -/
def DownlinkAssignment.block (m : DownlinkAssignment) : List Bool :=
  header m.rrbp m.poll 0 ++ fill m.content

def DownlinkAssignment.Valid (m : DownlinkAssignment) : Prop :=
  m.rrbp < 4 ∧ m.pageMode < 4 ∧ m.id.Valid ∧ m.macMode < 4 ∧ m.timing.Valid ∧ (∀ f, m.freq = some f → f.Valid)
    ∧ (∀ n, m.tfi = some n → n < 32) ∧ (∀ p, m.power = some p → p.1 < 16 ∧ ∀ t g, p.2 t = some g → g < 32)
    ∧ (∀ e, m.egprs = some e → e.window < 32 ∧ e.quality < 4)

/-- Time slots of a dynamic allocation with their USF, without or with power control parameters (ALPHA; GAMMA for
each). -/
inductive Slots
  | plain (usf : Nat → Option Nat)
  | power (alpha : Nat) (usf : Nat → Option (Nat × Nat))

def Slots.bits : Slots → List Bool
  | .plain u => [false] ++ tns.flatMap fun t => opt ((u t).map (put 3))
  | .power a u => [true] ++ put 4 a ++ tns.flatMap fun t => opt ((u t).map fun x => put 3 x.1 ++ put 5 x.2)

def Slots.Valid : Slots → Prop
  | .plain u => ∀ t x, u t = some x → x < 8
  | .power a u => a < 16 ∧ ∀ t x, u t = some x → x.1 < 8 ∧ x.2 < 32

/-- Dynamic Allocation (11.2.29), without P0, number of granted blocks and starting time. -/
structure Dynamic where
  extended : Bool
  granularity : Bool
  tfi : Option Nat
  slots : Slots

def Dynamic.bits (d : Dynamic) : List Bool :=
  bit d.extended ++ [false] ++ bit d.granularity ++ opt (d.tfi.map (put 5)) ++ [false] ++ [false] ++ d.slots.bits

/-- Coding for the uplink: of GPRS; of EGPRS with resegmentation and window size. -/
inductive Coding
  | gprs (cs : Nat)
  | egprs (mcs : Nat) (resegment : Bool) (window : Nat)

/-- Packet Uplink Assignment (11.2.29) with a dynamic allocation, without persistence levels, contention resolution
TLLI, COMPACT reduced MA, access technologies, BEP_PERIOD2 and extended timing advance. `sameCoding`: TLLI blocks are
coded as commanded. -/
structure UplinkAssignment where
  rrbp : Nat
  poll : Bool
  pageMode : Nat
  id : Id
  coding : Coding
  sameCoding : Bool
  timing : Timing
  freq : Option Freq
  alloc : Dynamic

def UplinkAssignment.base (m : UplinkAssignment) : List Bool :=
  put 6 10 ++ put 2 m.pageMode ++ [false] ++ m.id.bits
    ++ match m.coding with
    | .gprs cs =>
      [false] ++ put 2 cs ++ bit m.sameCoding ++ m.timing.bits ++ opt (m.freq.map Freq.bits) ++ put 2 1 ++ m.alloc.bits
    | .egprs mcs reseg ws =>
      [true] ++ put 2 0 ++ [false] ++ [false] ++ put 4 mcs ++ bit reseg ++ put 5 ws ++ [false] ++ bit false
        ++ bit m.sameCoding ++ [false] ++ m.timing.bits ++ [false] ++ opt (m.freq.map Freq.bits) ++ put 2 1 ++ m.alloc.bits

/-- Message behind the MAC header. For GPRS there may be additions of release 99 behind the allocation. -/
def UplinkAssignment.content (m : UplinkAssignment) : List Bool :=
  match m.coding with
  | .gprs _ => m.base ++ later (176 - m.base.length) none
  | .egprs _ _ _ => m.base

def UplinkAssignment.block (m : UplinkAssignment) : List Bool :=
  header m.rrbp m.poll 0 ++ fill m.content

def UplinkAssignment.Valid (m : UplinkAssignment) : Prop :=
  m.rrbp < 4 ∧ m.pageMode < 4 ∧ m.id.Valid
    ∧ (match m.coding with | .gprs cs => cs < 4 | .egprs mcs _ ws => mcs < 16 ∧ ws < 32)
    ∧ m.timing.Valid ∧ (∀ f, m.freq = some f → f.Valid) ∧ (∀ n, m.alloc.tfi = some n → n < 32) ∧ m.alloc.slots.Valid

/-- Packet Neighbour Cell Data (11.2.8c): container with the cell (ARFCN, BSIC) and 17 octets, or without and 19. -/
structure NeighbourData where
  pageMode : Nat
  downlink : Bool
  tfi : Nat
  id : Nat
  index : Nat
  cell : Option (Nat × Nat)
  octets : List Nat

def NeighbourData.content (m : NeighbourData) : List Bool :=
  put 6 12 ++ put 2 m.pageMode ++ [false] ++ (bit m.downlink ++ put 5 m.tfi) ++ put 2 m.id ++ [false] ++ put 5 m.index
    ++ opt (m.cell.map fun c => put 10 c.1 ++ put 6 c.2) ++ m.octets.flatMap (put 8)

def NeighbourData.block (m : NeighbourData) : List Bool := header 0 false 0 ++ fill m.content

/-- Packet Cell Change Continue (11.2.2a). `cell`: ARFCN, BSIC and CONTAINER_ID. -/
structure Continue where
  rrbp : Nat
  poll : Bool
  pageMode : Nat
  downlink : Bool
  tfi : Nat
  cell : Option (Nat × Nat × Nat)

def Continue.content (m : Continue) : List Bool :=
  put 6 11 ++ put 2 m.pageMode ++ [false] ++ (bit m.downlink ++ put 5 m.tfi)
    ++ opt (m.cell.map fun c => put 10 c.1 ++ put 6 c.2.1 ++ put 2 c.2.2)

def Continue.block (m : Continue) : List Bool := header m.rrbp m.poll 0 ++ fill m.content

end Verif.DlMsg
