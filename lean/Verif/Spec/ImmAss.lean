import Verif.Model.BitField
/-!
# How a mobile reads Immediate Assignment and Immediate Assignment Reject

3GPP TS 44.018 clauses 9.1.18, 9.1.20, 10.5.2.16, 10.5.2.25a, 10.5.2.30 and 10.5.2.30a, as far as packet
access is concerned. Independent of the encoder: only the 22 octets are given.
-/

namespace Verif.Ia

/-- A reader: position in the message and bits that are left. -/
def P (α : Type) := Nat × List Bool → Option (α × (Nat × List Bool))

instance : Monad P where
  pure a := fun s => some (a, s)
  bind x f := fun s => match x s with
    | none => none
    | some (a, s') => f a s'

/-- The message is not of this form. -/
def bad {α : Type} : P α := fun _ => none

/-- A field of `w` bits. -/
def rd (w : Nat) : P Nat := fun s => (Bits.get w s.2).map fun x => (x.1, (s.1 + w, x.2))

/-- `L` or `H`: the bit is compared with the padding `00101011`. -/
def lh : P Bool := fun s => match s.2 with
  | [] => none
  | b :: l => some (b != [false, false, true, false, true, false, true, true].getD (s.1 % 8) false, (s.1 + 1, l))

/-- `{ 0 | 1 < x > }`. -/
def opt {α : Type} (x : P α) : P (Option α) := do
  if (← rd 1) = 1 then return some (← x) else return none

/-- `{ L | H < x > }`. -/
def optH {α : Type} (x : P α) : P (Option α) := do
  if (← lh) then return some (← x) else return none

def octets : Nat → P (List Nat)
  | 0 => return []
  | n + 1 => do
    let o ← rd 8
    let l ← octets n
    return o :: l

/-- 10.5.2.38: the frame number modulo 42432 from T1', T3 and T2,
`51 × ((T3 − T2) mod 26) + T3 + 51 × 26 × T1'`. -/
def frameOf (t1 t3 t2 : Nat) : Nat := 51 * (((t3 : Int) - t2) % 26).toNat + t3 + 51 * 26 * t1

def frame : P Nat := do
  let t1 ← rd 5
  let t3 ← rd 6
  let t2 ← rd 5
  return frameOf t1 t3 t2

/-- Frequencies of a channel: one ARFCN, or hopping with MAIO and HSN. -/
inductive Freq | arfcn (n : Nat) | hop (maio hsn : Nat)
  deriving DecidableEq, Repr

/-- Additions of R99 to a downlink assignment: window size, mode of link quality measurements,
BEP_PERIOD2. -/
structure DlEgprs where
  ws : Nat
  lqmm : Nat
  bep : Option Nat
  deriving DecidableEq, Repr

/-- What is assigned. Frame numbers are modulo 42432, the window size is a number of blocks. -/
inductive Rest
  | dl (tlli tfi : Nat) (unack : Bool) (alpha : Option Nat) (gamma : Nat) (polling taValid : Bool) (tai start p0 : Option Nat) (egprs : Option DlEgprs)
  | ulTbf (tfi : Nat) (polling : Bool) (usf granularity : Nat) (p0 : Option Nat) (coding : Nat) (tlliCoding : Bool) (alpha : Option Nat) (gamma : Nat) (tai start : Option Nat)
  | ulBlock (alpha : Option Nat) (gamma start : Nat)
  | egprsUlTbf (extRa tfi : Nat) (polling : Bool) (usf granularity : Nat) (p0 : Option Nat) (coding : Nat) (tlliCoding : Bool) (bep : Option Nat) (resegment : Bool) (ws : Nat) (alpha : Option Nat) (gamma : Nat) (tai start : Option Nat)
  | egprsUlBlocks (extRa : Nat) (alpha : Option Nat) (gamma start number : Nat) (p0 : Option Nat)
  deriving DecidableEq, Repr

/-- An Immediate Assignment. -/
structure Msg where
  downlink : Bool
  ts : Nat
  tsc : Nat
  freq : Freq
  ra : Nat
  refFrame : Nat
  ta : Nat
  ma : List Nat
  rest : Rest
  deriving DecidableEq, Repr

/-- 44.060 table 12.5.2.1: sizes 64, 96, …, 1024; one value is reserved. -/
def window : P Nat := do
  let n ← rd 5
  if n = 31 then bad else return 64 + 32 * n

/-- `< Packet Uplink Assignment >` -/
def pktUl : P Rest := do
  if (← rd 1) = 1 then
    let tfi ← rd 5
    let polling ← rd 1
    let _ ← rd 1
    let usf ← rd 3
    let gran ← rd 1
    let p0 ← opt (rd 5)
    let coding ← rd 2
    let tc ← rd 1
    let alpha ← opt (rd 4)
    let gamma ← rd 5
    let tai ← opt (rd 4)
    let start ← opt frame
    return .ulTbf tfi (polling == 1) usf gran p0 coding (tc == 1) alpha gamma tai start
  else
    let alpha ← opt (rd 4)
    let gamma ← rd 5
    let k ← rd 2
    if k ≠ 1 then bad else
    let start ← frame
    let p0 ← lh
    if p0 then bad else return .ulBlock alpha gamma start

/-- `< Packet Downlink Assignment >` -/
def pktDl : P Rest := do
  let tlli ← rd 32
  let k ← rd 1
  if k ≠ 1 then bad else
  let tfi ← rd 5
  let unack ← rd 1
  let alpha ← opt (rd 4)
  let gamma ← rd 5
  let polling ← rd 1
  let taValid ← rd 1
  let tai ← opt (rd 4)
  let start ← opt frame
  let p0 ← opt (rd 6)
  let egprs ← optH (do
    let ws ← window
    let q ← rd 2
    let bep ← opt (rd 4)
    return (⟨ws, q, bep⟩ : DlEgprs))
  return .dl tlli tfi (unack == 1) alpha gamma (polling == 1) (taValid == 1) tai start p0 egprs

/-- `< EGPRS Packet Uplink Assignment >`, without access technologies request. -/
def egprsUl : P Rest := do
  let ext ← rd 5
  let atr ← rd 1
  if atr = 1 then bad else
  if (← rd 1) = 1 then
    let tfi ← rd 5
    let polling ← rd 1
    let _ ← rd 1
    let usf ← rd 3
    let gran ← rd 1
    let p0 ← opt (rd 5)
    let coding ← rd 4
    let tc ← rd 1
    let bep ← opt (rd 4)
    let reseg ← rd 1
    let ws ← window
    let alpha ← opt (rd 4)
    let gamma ← rd 5
    let tai ← opt (rd 4)
    let start ← opt frame
    return .egprsUlTbf ext tfi (polling == 1) usf gran p0 coding (tc == 1) bep (reseg == 1) ws alpha gamma tai start
  else
    let alpha ← opt (rd 4)
    let gamma ← rd 5
    let start ← frame
    let number ← rd 2
    let p0 ← opt (rd 6)
    return .egprsUlBlocks ext alpha gamma start (number + 1) p0

/-- IA Rest Octets. -/
def rest : P Rest := do
  let a ← lh
  let b ← lh
  let k ← rd 2
  if a && b && k == 0 then pktUl
  else if a && b && k == 1 then pktDl
  else if !a && b && k == 0 then egprsUl
  else bad

/-- Immediate Assignment of a TBF. -/
def assignment : P Msg := do
  let pd ← rd 8
  if pd ≠ 6 then bad else
  let ty ← rd 8
  if ty ≠ 0x3f then bad else
  let dm ← rd 2
  if dm ≠ 0 then bad else
  let dl ← rd 1
  let td ← rd 1
  if td ≠ 1 then bad else
  let pm ← rd 4
  if pm ≠ 0 then bad else
  let ct ← rd 5
  if ct ≠ 1 then bad else
  let ts ← rd 3
  let tsc ← rd 3
  let hop ← rd 1
  let f ← (do
    if hop = 1 then
      let maio ← rd 6
      let hsn ← rd 6
      return Freq.hop maio hsn
    else
      let ind ← rd 2
      if ind ≠ 0 then bad else
      let n ← rd 10
      return Freq.arfcn n)
  let ra ← rd 8
  let fr ← frame
  let _ ← rd 2
  let ta ← rd 6
  let n ← rd 8
  let ma ← octets n
  let r ← rest
  return ⟨dl == 1, ts, tsc, f, ra, fr, ta, ma, r⟩

/-- A request that is rejected: 8 bits, extended bits, frame. -/
structure Rejected where
  ra : Nat
  ext : Option Nat
  frame : Nat
  wait : Nat
  deriving DecidableEq, Repr

def rejRefs : Nat → P (List (Nat × Nat × Nat))
  | 0 => return []
  | n + 1 => do
    let ra ← rd 8
    let fr ← frame
    let w ← rd 8
    let l ← rejRefs n
    return (ra, fr, w) :: l

def extRas : Nat → P (List (Option Nat))
  | 0 => return []
  | n + 1 => do
    let e ← optH (rd 5)
    let l ← extRas n
    return e :: l

/-- Immediate Assignment Reject: four requests. The extended bits belong to requests with RA
`01111111` only. -/
def rejection : P (List Rejected) := do
  let pd ← rd 8
  if pd ≠ 6 then bad else
  let ty ← rd 8
  if ty ≠ 0x3a then bad else
  let _ ← rd 4
  let pm ← rd 4
  if pm ≠ 0 then bad else
  let l ← rejRefs 4
  let e ← extRas 4
  return (l.zip e).map fun x => ⟨x.1.1, if x.1.1 = 0x7f then x.2 else none, x.1.2.1, x.1.2.2⟩

/-- What a mobile understands from 22 octets. -/
def understood (m : List Bool) : Option Msg := (assignment (0, m)).map (·.1)

def rejected (m : List Bool) : Option (List Rejected) := (rejection (0, m)).map (·.1)

end Verif.Ia
