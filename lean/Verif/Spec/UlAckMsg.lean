import Verif.Model.BitField
import Verif.Spec.Crbb
/-!
# Packet Uplink Ack/Nack as a mobile reads it

From TS 44.060: message content 11.2.28, Ack/Nack Description 12.3 and 9.1.8.1, EGPRS Ack/Nack Description 12.3.1 and 9.1.8.2.
`Bits.get w` takes a field of `w` bits; `none` if the message ends before.
-/

namespace Verif.UlAckMsg

open Verif.Bits (get)
open Verif.Crbb (Means)

/-- A field that has to have a certain value. -/
def expect (w v : Nat) (l : List Bool) : Option (List Bool) :=
  match get w l with
  | some (x, r) => if x = v then some r else none
  | none => none

/-- The next `n` bits. -/
def bits (n : Nat) (l : List Bool) : Option (List Bool × List Bool) :=
  if n ≤ l.length then some (l.take n, l.drop n) else none

/-- `{ 0 | 1 < field : bit (w) > }` -/
def optField (w : Nat) (l : List Bool) : Option (Option Nat × List Bool) :=
  match get 1 l with
  | none => none
  | some (0, r) => some (none, r)
  | some (_, r) => (get w r).map fun x => (some x.1, x.2)

/-- `{ 0 | 1 < Packet Timing Advance IE > }` (12.12) without timing advance index. -/
def optTa (l : List Bool) : Option (Option Nat × List Bool) :=
  match get 1 l with
  | none => none
  | some (0, r) => some (none, r)
  | some (_, r) =>
    match optField 6 r with
    | none => none
    | some (ta, r) => (expect 1 0 r).map fun r => (ta, r)

/-- GPRS Ack/Nack Description. `rbb`: as transmitted. -/
structure Gprs where
  final : Bool
  ssn : Nat
  rbb : List Bool
  deriving DecidableEq

/-- EGPRS Ack/Nack Description. `crbb`: starting colour and code. `urbb`: as transmitted. -/
structure Egprs where
  final : Bool
  bow : Bool
  eow : Bool
  ssn : Nat
  crbb : Option (Bool × List Bool)
  urbb : List Bool
  deriving DecidableEq

inductive Desc
  | gprs (d : Gprs)
  | egprs (d : Egprs)
  deriving DecidableEq

/-- What the message says. `poll`: RRBP, if the mobile is to answer. -/
structure Msg where
  poll : Option Nat
  tfi : Nat
  coding : Nat
  tlli : Option Nat
  ta : Option Nat
  desc : Desc
  deriving DecidableEq

/-- 12.3 -/
def readGprsDesc (l : List Bool) : Option (Gprs × List Bool) := do
  let (final, l) ← get 1 l
  let (ssn, l) ← get 7 l
  let (rbb, l) ← bits 64 l
  return (⟨final == 1, ssn, rbb⟩, l)

/-- 12.3.1: the part that the length counts. What is left of it is the uncompressed bitmap. -/
def readEgprsPart (l : List Bool) : Option Egprs := do
  let (final, l) ← get 1 l
  let (bow, l) ← get 1 l
  let (eow, l) ← get 1 l
  let (ssn, l) ← get 11 l
  let (has, l) ← get 1 l
  if has = 1 then
    let (n, l) ← get 7 l
    let (colour, l) ← get 1 l
    let (code, l) ← bits n l
    return ⟨final == 1, bow == 1, eow == 1, ssn, some (colour == 1, code), l⟩
  else return ⟨final == 1, bow == 1, eow == 1, ssn, none, l⟩

/-- 12.3.1, in the form with length. -/
def readEgprsDesc (l : List Bool) : Option (Egprs × List Bool) := do
  let l ← expect 1 1 l
  let (n, l) ← get 8 l
  let (part, l) ← bits n l
  let d ← readEgprsPart part
  return (d, l)

/-- Behind the flag for GPRS. No power control parameters, extension bits, fixed allocation parameters, extended timing advance,
no additions of release 5. -/
def readGprs (l : List Bool) : Option (Nat × Option Nat × Option Nat × Gprs) := do
  let (coding, l) ← get 2 l
  let (d, l) ← readGprsDesc l
  let (tlli, l) ← optField 32 l
  let (ta, l) ← optTa l
  let l ← expect 3 0 l
  let l ← expect 1 1 l                   -- additions of R99
  let l ← expect 1 0 l
  let (_, l) ← get 1 l                   -- TBF_EST
  let _ ← expect 1 0 l
  return (coding, tlli, ta, d)

/-- Behind the flag for EGPRS, likewise. -/
def readEgprs (l : List Bool) : Option (Nat × Option Nat × Option Nat × Egprs) := do
  let l ← expect 2 0 l
  let (coding, l) ← get 4 l
  let (_, l) ← get 4 l                   -- RESEGMENT, PRE_EMPTIVE_TRANSMISSION, PRR and ARAC RETRANSMISSION REQUEST
  let (tlli, l) ← optField 32 l
  let (_, l) ← get 1 l                   -- TBF_EST
  let (ta, l) ← optTa l
  let l ← expect 3 0 l
  let (d, l) ← readEgprsDesc l
  let l ← expect 1 0 l
  let _ ← expect 1 0 l
  return (coding, tlli, ta, d)

/-- RLC/MAC header (10.4.7 payload type "control, no optional octets"), message type, page mode, `00` uplink TFI. -/
def read (l : List Bool) : Option Msg := do
  let l ← expect 2 1 l
  let (rrbp, l) ← get 2 l
  let (sp, l) ← get 1 l
  let (_, l) ← get 3 l
  let l ← expect 6 9 l
  let (_, l) ← get 2 l
  let l ← expect 2 0 l
  let (tfi, l) ← get 5 l
  let (egprs, l) ← get 1 l
  let poll := if sp = 1 then some rrbp else none
  if egprs = 1 then
    let (coding, tlli, ta, d) ← readEgprs l
    return ⟨poll, tfi, coding, tlli, ta, .egprs d⟩
  else
    let (coding, tlli, ta, d) ← readGprs l
    return ⟨poll, tfi, coding, tlli, ta, .gprs d⟩

/-- 9.1.8.1: bit number `j` of the bitmap, of 64, the last one transmitted being number 1, is about block SSN - j. `none`: no bit
is about block `n`. -/
def Gprs.verdict (d : Gprs) (n : Nat) : Option Bool :=
  let j := (d.ssn + 128 - n % 128) % 128
  if 1 ≤ j ∧ j ≤ 64 then d.rbb[64 - j]? else none

/-- The bitmap from SSN on: the compressed part, then the uncompressed part, of which the last bit transmitted is about the
first block. -/
def Egprs.Bitmap (d : Egprs) (l : List Bool) : Prop :=
  ∃ c, (match d.crbb with | none => c = [] | some (colour, code) => Means colour code c) ∧ l = c ++ d.urbb.reverse

/-- 9.1.8.2: what the message says of block `n` to a mobile whose oldest outstanding block is `va`, where `l` is the bitmap. With
"beginning of window", SSN - 1 is the first block missing. -/
def Egprs.verdict (d : Egprs) (l : List Bool) (va n : Nat) : Option Bool :=
  let first := va + (d.ssn + 2047 - va % 2048) % 2048
  if n < first then (if d.bow then some true else none)
  else if n = first then (if d.bow then some false else none)
  else l[n - first - 1]?

end Verif.UlAckMsg
