/-!
# EGPRS window sizes

3GPP TS 44.060 tables 9.1.9.2.1 and 12.5.2.1.
-/

namespace Verif.Ws

/-- Number of time slots in a mask. -/
def slotCount : Nat → Nat
  | 0 => 0
  | n + 1 => (n + 1) % 2 + slotCount ((n + 1) / 2)

/-- Greatest window size for a number of time slots. -/
def limit : Nat → Nat
  | 1 => 192
  | 2 => 256
  | 3 => 384
  | 4 => 512
  | 5 => 640
  | 6 => 768
  | 7 => 896
  | 8 => 1024
  | _ => 0

/-- Sizes that can be coded: 64, 96, …, 1024. -/
def Legal (ws : Nat) : Prop := ∃ k, k ≤ 30 ∧ ws = 64 + 32 * k

/-- What a mobile reads from the field of five bits; `none`: reserved. -/
def read : List Bool → Option Nat
  | [a, b, c, d, e] =>
    let k := 16 * a.toNat + 8 * b.toNat + 4 * c.toNat + 2 * d.toNat + e.toNat
    if k ≤ 30 then some (64 + 32 * k) else none
  | _ => none

end Verif.Ws
