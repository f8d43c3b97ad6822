import Verif.Model.PtcchTx
/-!
# The answers on the PTCCH: specification
-/

namespace Verif.PtcchTx

open Verif.Tap (Cell Req)

/-- The time slot carries packet data. -/
def onPdch (c : Cell) (trx ts : Nat) : Bool := trx < 8 && ts < 8 && c.enabled trx ts

/-- Timing advance for a delay in quarters of a symbol: whole symbols, from 0 to 63. -/
def advance (q : Int) : Nat := (max 0 (min 63 (q / 4))).toNat

/-- The burst is in sub-slot `i` of the 416 frames of the PTCCH of this time slot (3GPP TS 45.002, table 6: every 26 frames from frame 12). -/
def inSlot (trx ts i : Nat) : Ev → Option Nat
  | .burst trx' ts' rfn q => if trx' = trx ∧ ts' = ts ∧ rfn % 416 = 12 + 26 * i then some (advance q) else none
  | _ => none

/-- The timing advance from the last burst in the sub-slot; 127: there was none. -/
def lastTa (trx ts i : Nat) (es : List Ev) : Nat := (es.filterMap (inSlot trx ts i)).getLast?.getD 127

/-- The message of 3GPP TS 44.004, 7.1: the timing advance of the 16 sub-slots and 7 octets of padding. -/
def message (trx ts : Nat) (es : List Ev) : List Nat := (List.range 16).map (lastTa trx ts · es) ++ List.replicate 7 0x2b

/-- A request that is answered: the answer. Nothing is sent for a time slot without TBFs, unless the carrier must be filled. -/
def answer (c : Cell) (before : List Ev) : Ev → Option Req
  | .rts trx ts fn block tbfs =>
    if onPdch c trx ts then
      some ⟨trx, ts, c.arfcn trx, fn, block, if tbfs = 0 ∧ ¬ (c.idleC0 = true ∧ trx = 0) then [] else message trx ts before⟩
    else none
  | _ => none

/-- The answers to all requests of a history. -/
def answers (c : Cell) : List Ev → List Ev → List Req
  | _, [] => []
  | before, e :: es => (answer c before e).toList ++ answers c (before ++ [e]) es

/-- The requests that carry a message, as GSMTAP frames. -/
def frames (rs : List Req) : List Shown := (rs.filter fun r => r.data != []).map fun r => ⟨r.arfcn, r.ts, r.fn, r.data⟩

end Verif.PtcchTx
