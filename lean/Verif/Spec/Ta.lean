/-!
# Timing advance: specification

TS 45.010, TS 45.002 table 6 and TS 45.004: a timing advance is a number of symbols from 0 to 63. The PTCCH/D block has
one octet for each of 16 indices, with the timing advance of the mobile that has this index or 127, and 7 octets of
padding. The mobile with index `i` sends its burst in the frames `12 + 26 * i` of every 416.
-/

namespace Verif.Ta

/-- The 23 octets of a PTCCH/D block; `o`: timing advance of the mobile that holds an index. -/
def block (o : Nat → Option Nat) : List Nat := (List.range 23).map fun i => if i < 16 then (o i).getD 127 else 0x2b

/-- Index `i` is taken by a mobile with this timing advance, or given back. -/
def assign (o : Nat → Option Nat) (i : Nat) (x : Option Nat) : Nat → Option Nat := fun j => if j = i then x else o j

/-- Frame in which the mobile with index `i` sends. -/
def FrameOf (rfn i : Nat) : Prop := i < 16 ∧ ∃ k, rfn = 416 * k + 12 + 26 * i

end Verif.Ta
