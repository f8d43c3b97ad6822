import Verif.Model.Rach
/-!
# Requests of a mobile

3GPP TS 44.018 table 9.1.8.1 and 44.060 table 11.2.5a.2.
-/

namespace Verif.Rach

open Verif.Ia

/-- What a mobile asks for. -/
inductive Asks
  /-- a single block -/
  | block
  /-- a TBF; multislot class 1 to 32, or not told -/
  | tbf (cls : Option Nat)
  /-- something this network does not have: unacknowledged mode, dedicated channel, emergency call, reserved -/
  | unsupported
  deriving DecidableEq, Repr

def val (l : List Bool) : Nat := l.foldl (fun n b => 2 * n + b.toNat) 0

/-- The 11 bits of an EGPRS Packet Channel Request, first bit first. -/
def asks11 : List Bool → Asks
  | false :: a :: b :: c :: d :: e :: _ => .tbf (some (val [a, b, c, d, e] + 1))
  | true :: false :: false :: a :: b :: c :: _ => if a || b || c then .tbf none else .block
  | true :: false :: true :: _ => .tbf none
  | true :: true :: false :: false :: false :: false :: _ => .block
  | true :: true :: false :: false :: true :: true :: _ => .block
  | true :: true :: true :: false :: false :: false :: _ => .block
  | true :: true :: true :: false :: false :: true :: _ => .block
  | _ => .unsupported

/-- The bits of a number. -/
def bits (w n : Nat) : List Bool := (List.range w).map fun i => n / 2 ^ (w - 1 - i) % 2 == 1

/-- An 8-bit Channel Request for packet access: `01110xxx` is a single block, the others (`011110xx`,
`01111x0x`, `01111xx0`) are one phase access. -/
def asks8 (ra : Nat) : Asks := if ra / 8 % 32 = 14 then .block else .tbf none

/-- What an access burst asks for. Bursts with training sequence TS1 and TS2 are EGPRS requests of 11 bits, other
bursts are requests of 8 bits. -/
def asks (i : Ind) : Asks :=
  match i.burst, i.is11 with
  | .none, false | .access0, false => asks8 i.ra
  | .access1, true | .access2, true => asks11 (bits 11 i.ra)
  | _, _ => .unsupported

/-- Timing advance of a burst that is `q` quarter bits late: whole bits, 0 to 63. -/
def TaOf (q : Int) (ta : Nat) : Prop :=
  (q < 0 → ta = 0) ∧ (252 < q → ta = 63) ∧ (0 ≤ q → q ≤ 252 → (4 * ta : Int) ≤ q ∧ q < 4 * ta + 4)

end Verif.Rach
