import Verif.Model.DlData
import Verif.Spec.LlcSeg
/-!
# The downlink service

From TS 44.060: a mobile that receives with the sliding window of 9.1, reads the blocks (10.4) and puts LLC frames together
(9.1.12). Between it and the network a radio that loses blocks. The mobile acknowledges truthfully.
-/

namespace Verif.DlService

open Verif.LlcSeg
open Verif.DlData (Tbf)
open Verif.Seg (Llc Block)

/-! ### Reading of a block -/

/-- What the last length octet says about the octets after the delimited segments. -/
inductive Rest | tail | li0 | fill

/-- GPRS length octets (10.4.13, 10.4.14): lengths, what follows the segments, the other octets of the block. M=0, E=0 is
reserved. -/
def gprsLens : List Nat → Option (List Nat × Rest × List Nat)
  | [] => none
  | o :: r =>
    if o / 4 = 0 then some ([], .li0, r)
    else if o / 2 % 2 = 0 then (if o % 2 = 1 then some ([o / 4], .fill, r) else none)
    else if o % 2 = 1 then some ([o / 4], .tail, r)
    else (gprsLens r).map fun x => (o / 4 :: x.1, x.2)

/-- EGPRS length octets (10.4.14a). -/
def egprsLens : List Nat → Option (List Nat × Rest × List Nat)
  | [] => none
  | o :: r =>
    if o / 2 = 127 then (if o % 2 = 1 then some ([], .fill, r) else none)
    else if o % 2 = 1 then some ([o / 2], .tail, r)
    else (egprsLens r).map fun x => (o / 2 :: x.1, x.2)

/-- Segments of the given lengths, and what is left. -/
def cut : List Nat → List Nat → Option (List (List Nat) × List Nat)
  | [], r => some ([], r)
  | l :: ls, r => if l ≤ r.length then (cut ls (r.drop l)).map fun x => (r.take l :: x.1, x.2) else none

/-- Content of a block with extension bit `e`. -/
def readBlock (edge : Bool) (e : Nat) (octets : List Nat) : Option Content :=
  if e = 1 then some ⟨[], .tail octets⟩
  else match if edge then egprsLens octets else gprsLens octets with
    | none => none
    | some (ls, k, r) =>
      match cut ls r with
      | none => none
      | some (ends, l) => some ⟨ends, match k with | .tail => .tail l | .li0 => .li0 l | .fill => .fill l⟩

/-! ### Mobile -/

/-- A downlink data block on the air. `fbi`: final block indicator. -/
structure Air where
  bsn : Nat
  e : Nat
  fbi : Bool
  octets : List Nat

/-- The frame being put together, and the frames completed. -/
structure Frames where
  acc : List Nat
  out : List (List Nat)

/-- A segment arrives. `ends`: it is the last one of its frame. -/
def Frames.add (f : Frames) (seg : List Nat) (ends : Bool) : Frames :=
  if ends then ⟨[], f.out ++ [f.acc ++ seg]⟩ else ⟨f.acc ++ seg, f.out⟩

def Frames.adds (f : Frames) : List (List Nat) → Frames
  | [] => f
  | s :: ss => (f.add s true).adds ss

/-- A block is read; its last segment ends its frame if the block is the last one of the TBF. -/
def Frames.block (edge : Bool) (f : Frames) (b : Air) : Frames :=
  match readBlock edge b.e b.octets with
  | none => f
  | some c =>
    let f := f.adds c.ends
    match c.after with
    | .fill _ => f
    | .tail l => if l = [] then f else f.add l b.fbi
    | .li0 l => if l = [] then f else f.add l b.fbi

/-- A mobile: number of blocks taken in sequence (of which it knows the value modulo SNS, V(Q)), the blocks received out of
sequence, by BSN, and its LLC frames. -/
structure Mob where
  q : Nat
  buf : Nat → Option Air
  frames : Frames

def Mob.init : Mob := ⟨0, fun _ => none, ⟨[], []⟩⟩

/-- The blocks that are next in sequence are taken. -/
def Mob.advance (edge : Bool) (sns : Nat) : Nat → Mob → Mob
  | 0, m => m
  | k + 1, m =>
    match m.buf (m.q % sns) with
    | none => m
    | some b => Mob.advance edge sns k ⟨m.q + 1, fun x => if x = m.q % sns then none else m.buf x, m.frames.block edge b⟩

/-- BSN `x` is in the receive window. -/
def Mob.inWindow (m : Mob) (sns ws x : Nat) : Prop := (x + sns - m.q % sns) % sns < ws

instance (m : Mob) (sns ws x : Nat) : Decidable (m.inWindow sns ws x) := inferInstanceAs (Decidable (_ < _))

/-- A block is received. -/
def Mob.hear (edge : Bool) (sns ws : Nat) (m : Mob) (b : Air) : Mob :=
  if m.inWindow sns ws b.bsn ∧ (m.buf b.bsn).isNone then
    Mob.advance edge sns ws { m with buf := fun x => if x = b.bsn then some b else m.buf x }
  else m

/-- What the mobile reports about BSN `x`: blocks before the receive window are received (9.1.8). -/
def Mob.has (m : Mob) (sns ws x : Nat) : Bool :=
  if m.inWindow sns ws x then (m.buf x).isSome else true

/-! ### Network, radio and mobile -/

structure Sys where
  /-- frames handed over for sending -/
  given : List (List Nat)
  tbf : Tbf
  mob : Mob

/-- A block of the network as it goes on the air: FBI is set in the block with countdown value 0 (`Model/DataBlock`). -/
def air (bsn : Nat) (b : Block) : Air := ⟨bsn, b.e, decide (b.cv = 0), b.data⟩

/-- What arrives at the mobile. -/
def Mob.radio (edge : Bool) (sns ws : Nat) (m : Mob) (heard : Bool) : Option (Nat × Block) → Mob
  | none => m
  | some (bsn, b) => if heard then m.hear edge sns ws (air bsn b) else m

/-- Sizes of a data block: that of CS-1 to that of CS-4 resp. MCS-9. -/
def LegalLen (edge : Bool) (n : Nat) : Prop := 20 ≤ n ∧ (if edge then n ≤ 74 else n ≤ 53)

/-- One step. `ok`: restricts the blocks made. -/
inductive Step (edge : Bool) (sns ws : Nat) (ok : Nat → (Nat → Bool) → Llc → Prop) : Sys → Sys → Prop
  /-- A frame is handed over. LLC frames have at least 5 octets (TS 44.064). -/
  | give (s) (f : List Nat) : 5 ≤ f.length → Step edge sns ws ok s { s with given := s.given ++ [f], tbf := s.tbf.give f }
  /-- The network sends. The radio delivers or not. -/
  | send (s) (prev : Option Nat) (prevEdge preempt : Bool) (n : Nat) (fin : Nat → Bool) (heard : Bool) (t : Tbf) (r : Option (Nat × Block)) :
      LegalLen edge n → ok n fin s.tbf.llc → s.tbf.send edge prev prevEdge preempt n fin = some (t, r) →
      Step edge sns ws ok s { s with tbf := t, mob := s.mob.radio edge sns ws heard r }
  /-- The network sends the first half of a split block. With it alone the mobile can do nothing: what it makes of both
  halves is taken to arrive with the second one, or to be lost. -/
  | half (s) (prev : Option Nat) (prevEdge preempt : Bool) (n : Nat) (fin : Nat → Bool) (t : Tbf) :
      LegalLen edge n → ok n fin s.tbf.llc → s.tbf.sendHalf edge prev prevEdge preempt n fin = some t →
      Step edge sns ws ok s { s with tbf := t }
  /-- An acknowledgement arrives: blocks reported as received by it are received by the mobile. -/
  | ack (s) (bits : List Bool) :
      (∀ j, j < s.tbf.win.distance → bits[j]? = some true → s.mob.has sns ws ((s.tbf.win.va + j) % sns) = true) →
      Step edge sns ws ok s { s with tbf := s.tbf.rcvAck bits }

inductive Reach (edge : Bool) (sns ws : Nat) (ok : Nat → (Nat → Bool) → Llc → Prop) : Sys → Prop
  | start : Reach edge sns ws ok ⟨[], Tbf.init sns ws, Mob.init⟩
  | step {s t} : Reach edge sns ws ok s → Step edge sns ws ok s t → Reach edge sns ws ok t

/-- The windows a TBF can have. -/
def LegalCfg (edge : Bool) (sns ws : Nat) : Prop :=
  if edge then sns = 2048 ∧ 64 ≤ ws ∧ ws ≤ 1024 else sns = 128 ∧ ws = 64

/-- An LLC UI dummy command (TS 44.064 6.4.2.2): SAPI 3, empty information field, filling. -/
def IsDummy (f : List Nat) : Prop := ∃ j, f = [0x43, 0xc0, 0x01] ++ List.replicate j 0x2b

/-- `out` is `frames` with some dummy commands in between. -/
inductive WithDummies : List (List Nat) → List (List Nat) → Prop
  | nil : WithDummies [] []
  | user (f frames out) : WithDummies frames out → WithDummies (f :: frames) (f :: out)
  | dummy (d frames out) : IsDummy d → WithDummies frames out → WithDummies frames (d :: out)

/-- A round on a radio without losses: the mobile reports about all outstanding blocks, then the network sends one block. The
TBF is kept open. -/
def round (edge : Bool) (sns ws : Nat) (preempt : Bool) (n : Nat) (s : Sys) : Option Sys :=
  let t := s.tbf.rcvAck ((List.range s.tbf.win.distance).map fun j => s.mob.has sns ws ((s.tbf.win.va + j) % sns))
  match t.send edge none false preempt n (fun _ => false) with
  | none => none
  | some (t, r) => some ⟨s.given, t, s.mob.radio edge sns ws true r⟩

/-- Rounds with blocks of the given sizes. -/
def rounds (edge : Bool) (sns ws : Nat) (preempt : Bool) : List Nat → Sys → Option Sys
  | [], s => some s
  | n :: ns, s => (round edge sns ws preempt n s).bind (rounds edge sns ws preempt ns)

end Verif.DlService
