import Verif.Spec.RaCap
/-!
# Packet Resource Request

3GPP TS 44.060 11.2.16, release by release. Nothing of the model of the PCU is used. Left out: Iu mode and extended channel requests.
-/

namespace Verif.ResReq

open Verif.Bits (put)
open Verif.UlMsg (opt bit header ChannelRequest)
open Verif.RaCap (Entry)

/-- Who asks: a TLLI, or an uplink or downlink TFI. -/
inductive Name
  | uplink (tfi : Nat)
  | downlink (tfi : Nat)
  | tlli (v : Nat)

def Name.bits : Name → List Bool
  | .uplink t => false :: false :: put 5 t
  | .downlink t => false :: true :: put 5 t
  | .tlli v => true :: put 32 v

def Name.Valid : Name → Prop
  | .uplink t => t < 32
  | .downlink t => t < 32
  | .tlli v => v < 2 ^ 32

/-- Link quality of EGPRS: mean and CV of the bit error probability for GMSK and 8-PSK. -/
structure Bep where
  gmsk : Option (Nat × Nat)
  psk : Option (Nat × Nat)

def Bep.bits (b : Bep) : List Bool := opt (b.gmsk.map fun x => put 5 x.1 ++ put 3 x.2) ++ opt (b.psk.map fun x => put 5 x.1 ++ put 3 x.2)

def Bep.Valid (b : Bep) : Prop := (∀ x, b.gmsk = some x → x.1 < 32 ∧ x.2 < 8) ∧ ∀ x, b.psk = some x → x.1 < 32 ∧ x.2 < 8

/-- For each of the eight time slots. -/
def slots (f : Nat → List Bool) : List Bool := [0, 1, 2, 3, 4, 5, 6, 7].flatMap f

/-- Link quality of EGPRS per time slot: mean (`true`: for 8-PSK), and interference. -/
structure SlotQuality where
  bep : Option (Nat → Option (Bool × Nat))
  iLevel : Option (Nat → Option Nat)

def SlotQuality.bits (q : SlotQuality) : List Bool :=
  opt (q.bep.map fun f => slots fun t => opt ((f t).map fun x => bit x.1 ++ put 4 x.2))
    ++ opt (q.iLevel.map fun f => slots fun t => opt ((f t).map (put 4)))

def SlotQuality.Valid (q : SlotQuality) : Prop :=
  (∀ f, q.bep = some f → ∀ t x, f t = some x → x.2 < 16) ∧ ∀ f, q.iLevel = some f → ∀ t v, f t = some v → v < 16

/-! The additions of each release: absent (nothing or a zero follows), or there with those of the next release. `none` stands for a
zero, behind which anything may follow. -/

/-- Release 12: downlink eTFI. -/
structure R12 where
  etfi : Option Nat
def R12.bits (r : R12) : List Bool := opt (r.etfi.map (put 3))
def R12.Valid (r : R12) : Prop := ∀ v, r.etfi = some v → v < 8

/-- Release 10: low access priority. -/
structure R10 where
  low : Bool
  next : Option R12
def R10.bits (r : R10) : List Bool := bit r.low ++ opt (r.next.map R12.bits)
def R10.Valid (r : R10) : Prop := ∀ n, r.next = some n → n.Valid

/-- Link quality of type 2 (12.5a.2): mean and CV of the bit error probability for each of the seven modulations. -/
def bep2Bits (f : Nat → Option (Nat × Nat)) : List Bool :=
  [0, 1, 2, 3, 4, 5, 6].flatMap fun k => opt ((f k).map fun x => put 5 x.1 ++ put 3 x.2)

/-- Link quality per time slot of type 2 (12.5a.3): modulation and mean, and interference. -/
structure SlotQuality2 where
  bep : Option (Nat → Option (Nat × Nat))
  iLevel : Option (Nat → Option Nat)

def SlotQuality2.bits (q : SlotQuality2) : List Bool :=
  opt (q.bep.map fun f => slots fun t => opt ((f t).map fun x => put 2 x.1 ++ put 4 x.2))
    ++ opt (q.iLevel.map fun f => slots fun t => opt ((f t).map (put 4)))

def SlotQuality2.Valid (q : SlotQuality2) : Prop :=
  (∀ f, q.bep = some f → ∀ t x, f t = some x → x.1 < 4 ∧ x.2 < 16) ∧ ∀ f, q.iLevel = some f → ∀ t v, f t = some v → v < 16

/-- Release 7: early TBF establishment, measurements of type 2. -/
structure R7 where
  early : Bool
  bep2 : Option (Nat → Option (Nat × Nat))
  slots2 : Option SlotQuality2
  next : Option R10
def R7.bits (r : R7) : List Bool :=
  bit r.early ++ (opt (r.bep2.map bep2Bits) ++ (opt (r.slots2.map SlotQuality2.bits) ++ opt (r.next.map R10.bits)))
def R7.Valid (r : R7) : Prop :=
  (∀ f, r.bep2 = some f → ∀ k x, f k = some x → x.1 < 32 ∧ x.2 < 8) ∧ (∀ q, r.slots2 = some q → q.Valid) ∧ ∀ n, r.next = some n → n.Valid

/-- Release 6: no extended channel request. -/
structure R6 where
  next : Option R7
def R6.bits (r : R6) : List Bool := bit false ++ opt (r.next.map R7.bits)
def R6.Valid (r : R6) : Prop := ∀ n, r.next = some n → n.Valid

/-- Release 5: no Iu mode; HFN LSB. -/
structure R5 where
  hfn : Option Nat
  next : Option R6
def R5.bits (r : R5) : List Bool := bit false ++ (opt (r.hfn.map (put 7)) ++ opt (r.next.map R6.bits))
def R5.Valid (r : R5) : Prop := (∀ v, r.hfn = some v → v < 128) ∧ ∀ n, r.next = some n → n.Valid

/-- Release 99: link quality, PFI, whether there is additional information of the capability, whether this is a retransmission. -/
structure R99 where
  bep : Option Bep
  slots : Option SlotQuality
  pfi : Option Nat
  more : Bool
  again : Bool
  next : Option R5
def R99.bits (r : R99) : List Bool :=
  opt (r.bep.map Bep.bits) ++ (opt (r.slots.map SlotQuality.bits) ++ (opt (r.pfi.map (put 7)) ++ (bit r.more ++ (bit r.again
    ++ opt (r.next.map R5.bits)))))
def R99.Valid (r : R99) : Prop :=
  (∀ b, r.bep = some b → b.Valid) ∧ (∀ q, r.slots = some q → q.Valid) ∧ (∀ v, r.pfi = some v → v < 128) ∧ ∀ n, r.next = some n → n.Valid

/-- The message. `capability`: the entries of the MS Radio Access Capability 2. -/
structure Request where
  spare : Nat
  retry : Bool
  access : Option Nat
  name : Name
  capability : Option (Entry × List Entry)
  request : ChannelRequest
  changeMark : Option Nat
  cValue : Nat
  signVar : Option Nat
  iLevel : Nat → Option Nat
  additions : Option R99

def Request.bits (m : Request) : List Bool :=
  header m.spare m.retry 5 ++ (opt (m.access.map (put 2)) ++ (m.name.bits ++ (opt (m.capability.map fun x => RaCap.bits x.1 x.2)
    ++ (m.request.bits ++ (opt (m.changeMark.map (put 2)) ++ (put 6 m.cValue ++ (opt (m.signVar.map (put 6))
    ++ (slots (fun t => opt ((m.iLevel t).map (put 4))) ++ opt (m.additions.map R99.bits)))))))))

def Request.Valid (m : Request) : Prop :=
  m.spare < 32 ∧ (∀ v, m.access = some v → v < 4) ∧ m.name.Valid ∧
    (∀ x, m.capability = some x → (∀ e ∈ x.1 :: x.2, e.Valid) ∧ (x.1 :: x.2).length ≤ 11) ∧ m.request.Valid ∧
    (∀ v, m.changeMark = some v → v < 4) ∧ m.cValue < 64 ∧ (∀ v, m.signVar = some v → v < 64) ∧ (∀ t v, m.iLevel t = some v → v < 16) ∧
    ∀ r, m.additions = some r → r.Valid

/-- No measurements of type 2. -/
def Request.noType2 (m : Request) : Prop :=
  ∀ a, m.additions = some a → ∀ r5, a.next = some r5 → ∀ r6, r5.next = some r6 → ∀ r7, r6.next = some r7 → r7.bep2 = none ∧ r7.slots2 = none

end Verif.ResReq
