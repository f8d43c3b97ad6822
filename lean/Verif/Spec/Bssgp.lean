import Verif.Model.Bssgp
/-!
# Messages of the SGSN as TS 48.018 defines them

TS 48.016 10.1.2 (coding of information elements), TS 48.018 10.2.1 (DL-UNITDATA), 10.3.1, 10.3.2 (PAGING), 10.4.14 (STATUS), 11.3.
Of the model only the names of causes and what is passed on are used.
-/

namespace Verif.Bssgp.Gb

/-- TS 48.016 10.1.2: identifier, length in 7 bits after a bit 1 or in 15 bits after a bit 0, value. The sender may choose for short
values. -/
inductive Element : Nat → List Nat → List Nat → Prop
  | short (tag : Nat) (v : List Nat) : v.length < 128 → Element tag v (tag :: (128 + v.length) :: v)
  | long (tag : Nat) (v : List Nat) : v.length < 32768 → Element tag v (tag :: (v.length / 256) :: (v.length % 256) :: v)

/-- Any elements in any order. -/
inductive Elements : List (Nat × List Nat) → List Nat → Prop
  | nil : Elements [] []
  | cons {tag : Nat} {v o : List Nat} {l : List (Nat × List Nat)} {r : List Nat} :
      Element tag v o → Elements l r → Elements ((tag, v) :: l) (o ++ r)

/-- The value of an element, the first one if there are several. -/
def value (t : Nat) : List (Nat × List Nat) → Option (List Nat)
  | [] => none
  | (u, v) :: l => if u = t then some v else value t l

def octets32 (v : Nat) : List Nat := [v / 2 ^ 24 % 256, v / 2 ^ 16 % 256, v / 2 ^ 8 % 256, v % 256]
def octets16 (v : Nat) : List Nat := [v / 2 ^ 8 % 256, v % 256]

/-- 11.3: identifiers of elements -/
def bvci : Nat := 0x04
def channelNeeded : Nat := 0x09
def imsi : Nat := 0x0d
def llcPdu : Nat := 0x0e
def radioAccessCapability : Nat := 0x13
def pduLifetime : Nat := 0x16
def tlli : Nat := 0x1f
def tmsi : Nat := 0x20

/-- 10.2.1: type 0, TLLI, QoS profile (3 octets), elements. -/
def IsUnitdata (t : Nat) (es : List (Nat × List Nat)) (msg : List Nat) : Prop :=
  t < 2 ^ 32 ∧ ∃ qos o, List.length qos = 3 ∧ Elements es o ∧ msg = 0 :: (octets32 t ++ qos ++ o)

/-- 10.3.1 -/
def IsPagingPs (es : List (Nat × List Nat)) (msg : List Nat) : Prop := ∃ o, Elements es o ∧ msg = 6 :: o
/-- 10.3.2 -/
def IsPagingCs (es : List (Nat × List Nat)) (msg : List Nat) : Prop := ∃ o, Elements es o ∧ msg = 7 :: o

/-- 10.4.12 -/
def IsReset (es : List (Nat × List Nat)) (msg : List Nat) : Prop := ∃ o, Elements es o ∧ msg = 0x22 :: o

/-- 10.4.14: the BVCI is given if and only if the cause is about one. -/
def StatusOk : Cause → Option Nat → Prop
  | .unknownBvci, b => b.isSome
  | .bvciBlocked, b => b.isSome
  | _, b => b = none

end Verif.Bssgp.Gb
