import Verif.Spec.UlMsg
/-!
# Radio access capability of a mobile

3GPP TS 24.008 10.5.5.12a "MS Radio Access capability" (value part), also TS 44.060 12.30, release by release. Nothing of the model of
the PCU is used; `put n v` are the `n` bits of the number `v`, `opt` is `{ 0 | 1 < ... > }`.
-/

namespace Verif.RaCap

open Verif.Bits (put)
open Verif.UlMsg (opt bit)

/-- Multislot capability of release 97: HSCSD class, GPRS class with extended dynamic allocation, SMS and SM value. -/
structure Slots where
  hscsd : Option Nat
  gprs : Option (Nat × Bool)
  sm : Option (Nat × Nat)

def Slots.bits (m : Slots) : List Bool :=
  opt (m.hscsd.map (put 5)) ++ (opt (m.gprs.map fun x => put 5 x.1 ++ bit x.2) ++ opt (m.sm.map fun x => put 4 x.1 ++ put 4 x.2))

def Slots.Valid (m : Slots) : Prop :=
  (∀ v, m.hscsd = some v → v < 32) ∧ (∀ v, m.gprs = some v → v.1 < 32) ∧ (∀ v, m.sm = some v → v.1 < 16 ∧ v.2 < 16)

/-- What release 99 adds to it: ECSD class, EGPRS class with extended dynamic allocation, DTM: GPRS class, single slot, EGPRS class. -/
structure Slots99 where
  ecsd : Option Nat
  egprs : Option (Nat × Bool)
  dtm : Option (Nat × Bool × Option Nat)

def Slots99.bits (m : Slots99) : List Bool :=
  opt (m.ecsd.map (put 5)) ++ (opt (m.egprs.map fun x => put 5 x.1 ++ bit x.2)
    ++ opt (m.dtm.map fun x => put 2 x.1 ++ (bit x.2.1 ++ opt (x.2.2.map (put 2)))))

def Slots99.Valid (m : Slots99) : Prop :=
  (∀ v, m.ecsd = some v → v < 32) ∧ (∀ v, m.egprs = some v → v.1 < 32)
    ∧ (∀ v, m.dtm = some v → v.1 < 4 ∧ ∀ e, v.2.2 = some e → e < 4)

/-- What comes before the multislot capability: RF power capability, A5 bits, ES IND, PS, VGCS, VBS. -/
structure Base where
  power : Nat
  a5 : Option Nat
  esInd : Bool
  ps : Bool
  vgcs : Bool
  vbs : Bool

def Base.bits (b : Base) : List Bool :=
  put 3 b.power ++ (opt (b.a5.map (put 7)) ++ (bit b.esInd ++ (bit b.ps ++ (bit b.vgcs ++ bit b.vbs))))

def Base.Valid (b : Base) : Prop := b.power < 8 ∧ ∀ v, b.a5 = some v → v < 128

/-- Release 99: 8-PSK power capability, COMPACT interference measurement, revision level, UMTS FDD, UMTS 3.84 Mcps TDD, CDMA 2000. -/
structure R99 where
  psk : Option Nat
  compact : Bool
  revision : Bool
  fdd : Bool
  tdd : Bool
  cdma : Bool

def R99.bits (r : R99) : List Bool :=
  opt (r.psk.map (put 2)) ++ (bit r.compact ++ (bit r.revision ++ (bit r.fdd ++ (bit r.tdd ++ bit r.cdma))))

def R99.Valid (r : R99) : Prop := ∀ v, r.psk = some v → v < 4

/-- Release 4: UMTS 1.28 Mcps TDD, GERAN feature package 1, extended DTM GPRS and EGPRS class, modulation based multislot class. -/
structure R4 where
  tdd : Bool
  package : Bool
  dtm : Option (Nat × Nat)
  modulation : Bool

def R4.bits (r : R4) : List Bool :=
  bit r.tdd ++ (bit r.package ++ (opt (r.dtm.map fun x => put 2 x.1 ++ put 2 x.2) ++ bit r.modulation))

def R4.Valid (r : R4) : Prop := ∀ v, r.dtm = some v → v.1 < 4 ∧ v.2 < 4

/-- Release 5: high multislot capability, GERAN Iu mode capability, GMSK and 8-PSK multislot power profile. -/
structure R5 where
  high : Option Nat
  iu : Option Nat
  gmsk : Nat
  psk : Nat

def R5.bits (r : R5) : List Bool :=
  opt (r.high.map (put 2)) ++ (opt (r.iu.map (put 4)) ++ (put 2 r.gmsk ++ put 2 r.psk))

def R5.Valid (r : R5) : Prop := (∀ v, r.high = some v → v < 4) ∧ (∀ v, r.iu = some v → v < 16) ∧ r.gmsk < 4 ∧ r.psk < 4

/-- Release 6: multiple TBF, downlink advanced receiver performance, extended segmentation of control messages, DTM enhancements, DTM
GPRS high multislot class with EGPRS one, PS handover. -/
structure R6 where
  tbfs : Bool
  receiver : Nat
  segments : Bool
  enhanced : Bool
  dtm : Option (Nat × Option Nat)
  handover : Bool

def R6.bits (r : R6) : List Bool :=
  bit r.tbfs ++ (put 2 r.receiver ++ (bit r.segments ++ (bit r.enhanced
    ++ (opt (r.dtm.map fun x => put 3 x.1 ++ opt (x.2.map (put 3))) ++ bit r.handover))))

def R6.Valid (r : R6) : Prop := r.receiver < 4 ∧ ∀ v, r.dtm = some v → v.1 < 8 ∧ ∀ e, v.2 = some e → e < 8

/-- Release 7: DTM handover, downlink dual carrier with reduction and DTM, flexible timeslot assignment, GAN PS handover, RLC
non-persistent mode, reduced latency, uplink and downlink EGPRS2. -/
structure R7 where
  handover : Bool
  dual : Option (Nat × Bool)
  flexible : Bool
  gan : Bool
  nonPersistent : Bool
  latency : Bool
  up : Nat
  down : Nat

def R7.bits (r : R7) : List Bool :=
  bit r.handover ++ (opt (r.dual.map fun x => put 3 x.1 ++ bit x.2) ++ (bit r.flexible ++ (bit r.gan ++ (bit r.nonPersistent
    ++ (bit r.latency ++ (put 2 r.up ++ put 2 r.down))))))

def R7.Valid (r : R7) : Prop := (∀ v, r.dual = some v → v.1 < 8) ∧ r.up < 4 ∧ r.down < 4

/-- Release 8: E-UTRA FDD, E-UTRA TDD, GERAN to E-UTRA, priority based reselection. -/
structure R8 where
  fdd : Bool
  tdd : Bool
  eutra : Nat
  priority : Bool

def R8.bits (r : R8) : List Bool := bit r.fdd ++ (bit r.tdd ++ (put 2 r.eutra ++ bit r.priority))

def R8.Valid (r : R8) : Prop := r.eutra < 4

/-- `n` spare bits. -/
def spare (n : Nat) : List Bool := List.replicate n false

/-- The additions of the releases the mobile is made for; behind the last one, spare bits, or for a mobile newer than release 8 any
bits. -/
inductive After7 | spare (n : Nat) | r8 (r : R8) (a : List Bool)
inductive After6 | spare (n : Nat) | r7 (r : R7) (a : After7)
inductive After5 | spare (n : Nat) | r6 (r : R6) (a : After6)
inductive After4 | spare (n : Nat) | r5 (r : R5) (a : After5)
inductive After99 | spare (n : Nat) | r4 (r : R4) (a : After4)

def After7.bits : After7 → List Bool
  | .spare n => RaCap.spare n
  | .r8 r l => r.bits ++ l

def After6.bits : After6 → List Bool
  | .spare n => RaCap.spare n
  | .r7 r a => r.bits ++ a.bits

def After5.bits : After5 → List Bool
  | .spare n => RaCap.spare n
  | .r6 r a => r.bits ++ a.bits

def After4.bits : After4 → List Bool
  | .spare n => RaCap.spare n
  | .r5 r a => r.bits ++ a.bits

def After99.bits : After99 → List Bool
  | .spare n => RaCap.spare n
  | .r4 r a => r.bits ++ a.bits

def After7.Valid : After7 → Prop
  | .spare _ => True
  | .r8 r _ => r.Valid

def After6.Valid : After6 → Prop
  | .spare _ => True
  | .r7 r a => r.Valid ∧ a.Valid

def After5.Valid : After5 → Prop
  | .spare _ => True
  | .r6 r a => r.Valid ∧ a.Valid

def After4.Valid : After4 → Prop
  | .spare _ => True
  | .r5 r a => r.Valid ∧ a.Valid

def After99.Valid : After99 → Prop
  | .spare _ => True
  | .r4 r a => r.Valid ∧ a.Valid

/-- Access capabilities for one access technology, of a mobile of release 97, or of release 99 and later. -/
inductive Content
  | r97 (b : Base) (m : Option Slots) (n : Nat)
  | r99 (b : Base) (m : Option (Slots × Slots99)) (r : R99) (a : After99)

def Content.bits : Content → List Bool
  | .r97 b m n => b.bits ++ (opt (m.map Slots.bits) ++ spare n)
  | .r99 b m r a => b.bits ++ (opt (m.map fun x => x.1.bits ++ x.2.bits) ++ (r.bits ++ a.bits))

def Content.Valid : Content → Prop
  | .r97 b m _ => b.Valid ∧ ∀ x, m = some x → x.Valid
  | .r99 b m r a => b.Valid ∧ (∀ x, m = some x → x.1.Valid ∧ x.2.Valid) ∧ r.Valid ∧ a.Valid

/-- The GPRS multislot class it states. -/
def Content.gprs : Content → Option Nat
  | .r97 _ (some m) _ => m.gprs.map (·.1)
  | .r99 _ (some m) _ _ => m.1.gprs.map (·.1)
  | _ => none

/-- The EGPRS multislot class it states. -/
def Content.egprs : Content → Option Nat
  | .r99 _ (some m) _ _ => m.2.egprs.map (·.1)
  | _ => none

/-- An access technology with its capabilities, or a list of further ones with GMSK and 8-PSK power class only. -/
inductive Entry
  | access (type : Nat) (c : Content)
  | additional (l : List (Nat × Nat × Nat)) (n : Nat)

/-- The part behind the length. -/
def Entry.body : Entry → List Bool
  | .access _ c => c.bits
  | .additional l n => (l.flatMap fun x => true :: (put 4 x.1 ++ (put 3 x.2.1 ++ put 2 x.2.2))) ++ false :: spare n

def Entry.type : Entry → Nat
  | .access t _ => t
  | .additional _ _ => 15

def Entry.bits (e : Entry) : List Bool := put 4 e.type ++ (put 7 e.body.length ++ e.body)

/-- Types of access technology up to 13 are in use. -/
def Entry.Valid : Entry → Prop
  | .access t c => t ≤ 13 ∧ c.Valid ∧ c.bits.length < 128
  | .additional l n => (∀ x ∈ l, x.1 < 16 ∧ x.2.1 < 8 ∧ x.2.2 < 4) ∧ 10 * l.length + 1 + n < 128

def Entry.gprs : Entry → Option Nat
  | .access _ c => c.gprs
  | .additional _ _ => none

def Entry.egprs : Entry → Option Nat
  | .access _ c => c.egprs
  | .additional _ _ => none

/-- How many further technologies are listed. -/
def Entry.further : Entry → Nat
  | .access _ _ => 0
  | .additional l _ => l.length

/-- The value part: one entry, and each further one behind a 1. -/
def bits (e : Entry) (es : List Entry) : List Bool := e.bits ++ (es.flatMap fun e => true :: e.bits) ++ [false]

/-- The class of a mobile: that of the first entry that states one, as for the technologies behind "the same values apply"; 0 if there
is none. -/
def gprs (es : List Entry) : Nat := (es.findSome? Entry.gprs).getD 0
def egprs (es : List Entry) : Nat := (es.findSome? Entry.egprs).getD 0

end Verif.RaCap
