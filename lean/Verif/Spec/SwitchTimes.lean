import Verif.Spec.MslotClass
/-!
# Time to switch between receiving and transmitting

The columns Tta, Ttb, Tra and Trb of 3GPP TS 45.002 table B.1 and what they mean for the slots of a mobile,
written down independently of the masks of the program.
-/

namespace Verif.Alloc

/-- Time slots a mobile of type 1 (which cannot receive and transmit at the same time) needs: `tta` to
measure a neighbour and get ready to transmit, `ttb` to get ready to transmit, `tra` to measure a neighbour and
get ready to receive, `trb` to get ready to receive. -/
structure Times where
  tta : Nat
  ttb : Nat
  tra : Nat
  trb : Nat
  deriving DecidableEq, Repr

/-- TS 45.002 table B.1 for the classes of type 1. Where the table refers to a footnote, the value for a
change between receiving and transmitting is used (b, c: one slot), and the offset `to` of classes 35 to 45 is
taken as provided by the timing advance (0 slots). -/
def times (cls : Nat) : Option Times :=
  if cls = 1 then some ⟨3, 2, 4, 2⟩
  else if cls = 2 ∨ cls = 3 then some ⟨3, 2, 3, 1⟩
  else if 4 ≤ cls ∧ cls ≤ 7 then some ⟨3, 1, 3, 1⟩
  else if 8 ≤ cls ∧ cls ≤ 11 then some ⟨3, 1, 2, 1⟩
  else if cls = 12 then some ⟨2, 1, 2, 1⟩
  else if 19 ≤ cls ∧ cls ≤ 21 then some ⟨3, 1, 2, 1⟩
  else if cls = 22 ∨ cls = 23 then some ⟨2, 1, 2, 1⟩
  else if 24 ≤ cls ∧ cls ≤ 26 then some ⟨3, 1, 2, 1⟩
  else if 27 ≤ cls ∧ cls ≤ 29 then some ⟨2, 1, 2, 1⟩
  else if 30 ≤ cls ∧ cls ≤ 39 then some ⟨2, 1, 1, 1⟩
  else if 40 ≤ cls ∧ cls ≤ 45 then some ⟨1, 1, 1, 0⟩
  else none

/-- The time, in slots, at which downlink slot `s` of frame `n` begins. -/
def rxTime (n s : Nat) : Nat := 8 * n + s

/-- The time at which uplink slot `s` of frame `n` begins: three slots later (TS 45.010 §5.1). -/
def txTime (n s : Nat) : Nat := 8 * n + s + 3

/-- A mobile that receives in the slots `rx` and transmits in the slots `tx` of any frames never does both at a
time, has `a` slots between receiving and transmitting, and `b` between transmitting and receiving. -/
def Leaves (a b : Nat) (tx rx : List Nat) : Prop :=
  ∀ u ∈ tx, ∀ d ∈ rx, ∀ n k, rxTime n d ≠ txTime k u ∧
    (rxTime n d < txTime k u → rxTime n d + 1 + a ≤ txTime k u) ∧
    (txTime k u < rxTime n d → txTime k u + 1 + b ≤ rxTime n d)

/-- The slots leave the mobile the time to switch and, before it transmits or before it receives, the time to
measure a neighbour. -/
def Times.kept (t : Times) (tx rx : List Nat) : Prop :=
  Leaves t.ttb t.trb tx rx ∧ (Leaves t.ttb t.tra tx rx ∨ Leaves t.tta t.trb tx rx)

/-- All slots are among `n` consecutive slots of a frame. -/
def consecutive (n : Nat) (slots : List Nat) : Prop := ∃ a, a + n ≤ 8 ∧ ∀ s ∈ slots, a ≤ s ∧ s < a + n

end Verif.Alloc
