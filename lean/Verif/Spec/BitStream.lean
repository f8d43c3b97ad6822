/-!
# Octet buffers as bit streams

3GPP TS 44.060 numbers the bits of an EGPRS radio block in a stream that starts with the
least significant bit of the first octet. `bit m k` is bit `k` of that stream, `field m s w`
the unsigned number in the `w` bits from bit `s` on, least significant bit first.
-/

namespace Verif.Blk

/-- Bit `k` of the stream. -/
def bit (m : List Nat) (k : Nat) : Bool := (m.getD (k / 8) 0).testBit (k % 8)

/-- Number in bits `s`, `s+1`, …, `s+w-1`, least significant first. -/
def field (m : List Nat) (s : Nat) : Nat → Nat
  | 0 => 0
  | w + 1 => (bit m s).toNat + 2 * field m (s + 1) w

/-- A buffer of octets. -/
def Octets (m : List Nat) : Prop := ∀ b ∈ m, b < 256

end Verif.Blk
