import Verif.Model.Link
/-!
# What was last measured about the link of a mobile
-/

namespace Verif.Link

/-- `v` is what the last of the blocks that say something (as read by `f`) says. -/
def LastOf {α : Type} (f : Ev → Option α) (es : List Ev) (v : α) : Prop :=
  ∃ before e after, es = before ++ e :: after ∧ f e = some v ∧ ∀ x ∈ after, f x = none

/-- The values of the BTS for the block, if the PCU keeps them. -/
def Ev.ind : Ev → Option Ind
  | .data i | .dlAck i _ | .request i _ | .notification i => some i
  | .egprsDlAck _ => none

/-- The values of the BTS for the block, whatever it is. -/
def Ev.indOfAny : Ev → Ind
  | .data i | .dlAck i _ | .egprsDlAck i | .request i _ | .notification i => i

def Ev.rssi (e : Ev) : Option Int := e.ind.map fun i => i.rssi
/-- In percent, rounded down. -/
def Ev.ber (e : Ev) : Option Int := e.ind.map fun i => (i.ber10k : Int) / 100
def Ev.bto (e : Ev) : Option Int := e.ind.map fun i => i.bto
/-- In dB, rounded towards zero. -/
def Ev.lq (e : Ev) : Option Int := e.ind.map fun i => Int.sign i.lqcb * ((i.lqcb.natAbs / 10 : Nat) : Int)

/-- The RXQUAL a mobile reports. -/
def Ev.rxqual : Ev → Option Nat
  | .dlAck _ q => some q.rxqual
  | _ => none

/-- The C value a mobile reports. -/
def Ev.cval : Ev → Option Nat
  | .dlAck _ q => some q.c
  | .request _ r => some r.c
  | _ => none

/-- The variance a mobile reports, in 0.25 dB. -/
def Ev.svar : Ev → Option Nat
  | .dlAck _ q => some q.svar
  | .request _ r => r.svar
  | _ => none

/-- The interference levels in a message of a mobile, by slot. -/
def Ev.slots : Ev → Option (Nat → Option Nat)
  | .dlAck _ q => some q.slot
  | .request _ r => some r.slot
  | _ => none

/-- Those of a message that has one at least. -/
def Ev.levels (e : Ev) : Option (Nat → Option Nat) :=
  e.slots.filter fun s => (s 0).isSome || (s 1).isSome || (s 2).isSome || (s 3).isSome ||
    (s 4).isSome || (s 5).isSome || (s 6).isSome || (s 7).isSome

/-- 3GPP TS 45.008 8.2.4: the bit error rate assumed for an RXQUAL, in 0.01 %. -/
def assumedBer : Nat → Int
  | 0 => 14
  | 1 => 28
  | 2 => 57
  | 3 => 113
  | 4 => 226
  | 5 => 453
  | 6 => 905
  | _ => 1810

/-- `v` is the integer nearest to `num / den` (either one if it is in the middle). -/
def Nearest (v num den : Int) : Prop := -den ≤ 2 * (v * den - num) ∧ 2 * (v * den - num) ≤ den

/-- The bit error rates are rates. -/
def Rates (es : List Ev) : Prop := ∀ e ∈ es, (e.indOfAny).ber10k ≤ 10000

end Verif.Link
