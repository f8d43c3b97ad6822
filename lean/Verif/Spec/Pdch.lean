import Verif.Model.World
/-!
# What the tables of a PDCH should say

Stated in terms of the TBFs and mobiles that exist.
-/

namespace Verif.Alloc

/-- The TBF uses slot `s` of TRX `t`. -/
def Tbf.uses (x : Tbf) (t s : Nat) : Bool := x.trx == some t && x.slots s

/-- The TBFs using slot `s` of TRX `t` and satisfying `p`. -/
def tbfsOn (w : World) (t s : Nat) (p : Tbf → Bool) : List Nat :=
  (List.range w.tbfN).filter fun b => match w.tbf b with
    | some x => x.uses t s && p x
    | none => false

/-- Number of the 64 PDCHs used by some TBF satisfying `p`. -/
def pdchsWith (w : World) (p : Tbf → Bool) : Nat :=
  (List.range 64).countP fun k => !(tbfsOn w (k / 8) (k % 8) p).isEmpty

/-- Number of enabled PDCHs. -/
def pdchsEnabled (w : World) : Nat := (List.range 64).countP fun k => (w.pdch (k / 8) (k % 8)).enabled

/-- The mobile reserves slot `s` of TRX `t` in direction `d`. -/
def Ms.reserves (x : Ms) (t s : Nat) (d : Dir) : Bool :=
  x.trx == some t && (match d with | .ul => x.ul | .dl => x.dl).testBit s

/-- The mobiles reserving a slot. -/
def reserving (w : World) (t s : Nat) (d : Dir) : List Nat :=
  (List.range w.msN).filter fun m => (w.ms m).reserves t s d

end Verif.Alloc
