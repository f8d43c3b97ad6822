import Verif.Spec.ImmAss
import Verif.Model.PagingReq
/-!
# How a mobile reads Paging Request Type 1 and control blocks

3GPP TS 44.018 clauses 9.1.22, 10.5.2.19, 10.5.2.23; TS 24.008 clause 10.5.1.4; TS 44.060 clause
10.3.1 and 11.2.47. Independent of the encoder.
-/

namespace Verif.Ia

/-- Digits of the octets, low half first. -/
def halves (l : List Nat) : List Nat := l.flatMap fun o => [o % 16, o / 16]

/-- 24.008 10.5.1.4: type in three bits, then a bit for an odd number of digits. With an even number
the last half octet is the filler `1111`. -/
def identity : List Nat → Option Ident
  | [] => none
  | o :: l =>
    if o % 8 = 4 then
      match l with
      | [a, b, c, d] => if o / 16 = 15 then some (.tmsi (a * 2 ^ 24 + b * 2 ^ 16 + c * 2 ^ 8 + d)) else none
      | _ => none
    else if o % 8 = 1 then
      let ds := o / 16 :: halves l
      if o / 8 % 2 = 1 then some (.imsi ds)
      else if ds.getLast? = some 15 then some (.imsi ds.dropLast) else none
    else none

/-- P1 Rest Octets: no list of notifications, no priorities, no group call (else not read), then the two
indications of packet paging. -/
def p1Rest : P (Bool × Bool) := do
  if (← lh) then bad else
  if (← lh) then bad else
  if (← lh) then bad else
  if (← lh) then bad else
  let a ← lh
  let b ← lh
  return (a, b)

/-- Paging Request Type 1: page mode, channels needed, identities, packet paging for the first and second
identity. -/
structure Paging1 where
  pageMode : Nat
  channels : Nat
  id1 : Ident
  id2 : Option Ident
  packet1 : Bool
  packet2 : Bool
  deriving DecidableEq, Repr

/-- The 23 octets. L2 pseudo length: number of octets up to the rest octets, then `01`. The second identity is there if
the length says so (with identifier `0x17`). -/
def paging1 : P Paging1 := do
  let len ← rd 6
  if (← rd 2) ≠ 1 then bad else
  if (← rd 8) ≠ 6 then bad else
  if (← rd 8) ≠ 0x21 then bad else
  let chan ← rd 4
  let mode ← rd 4
  let n ← rd 8
  let o ← octets n
  match identity o with
  | none => bad
  | some i => do
    if len = 4 + n then
      let r ← p1Rest
      return ⟨mode, chan, i, none, r.1, r.2⟩
    else
      if (← rd 8) ≠ 0x17 then bad else
      let n' ← rd 8
      let o' ← octets n'
      if len ≠ 6 + n + n' then bad else
      match identity o' with
      | none => bad
      | some i' =>
        let r ← p1Rest
        return ⟨mode, chan, i, some i', r.1, r.2⟩

def readPaging (m : List Bool) : Option Paging1 := (paging1 (0, m)).map (·.1)

/-- Identities as they are allotted: TMSI of 32 bits, IMSI of 1 to 15 digits. -/
def Ident.Ok : Ident → Prop
  | .tmsi n => n < 2 ^ 32
  | .imsi d => 1 ≤ d.length ∧ d.length ≤ 15 ∧ ∀ x ∈ d, x < 16

/-- The TMSI element of a PDU (48.018 11.3.36): four octets. -/
def tmsiOctets (n : Nat) : List Nat := [n / 2 ^ 24 % 256, n / 2 ^ 16 % 256, n / 2 ^ 8 % 256, n % 256]

/-- By which identity a subscriber is to be paged. -/
def pageBy (imsi : List Nat) : Option Nat → Ident
  | some n => .tmsi n
  | none => .imsi imsi

/-- Payload type of a downlink block (10.4.7): 0 is an RLC data block, 1 and 2 are control blocks. -/
def payloadType : P Nat := rd 2

/-- 11.2.47: page mode, type and data of Packet Application Information with `n` octets of data. -/
def appInfo (n : Nat) : P (Nat × Nat × List Nat) := do
  let mode ← rd 2
  let ty ← rd 4
  let d ← octets n
  return (mode, ty, d)

end Verif.Ia
