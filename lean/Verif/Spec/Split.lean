import Verif.Model.Split
import Verif.Spec.CodingScheme
/-!
# Histories of one EGPRS block

Downlink: which transmissions a block can see. Uplink: which arrivals belong to a payload.
-/

namespace Verif.Split

open Verif.Cs

/-- One transmission of a block: alone, or together with another block. -/
inductive Tx : DlBlk → DlBlk → List Sent → Prop where
  /-- alone in a radio block -/
  | alone {b b' l} : sendAlone b = some (b', l) → Tx b b' l
  /-- one of two blocks in a radio block; its scheme is that of the radio block
  (`C44_pair_scheme`) -/
  | paired {b b' s} : b.cur.hdr = .type1 → sendPaired b b.cur = some (b', s) → Tx b b' [s]

/-- States of an EGPRS block created in any EGPRS scheme, after any number of transmissions
and retransmission decisions, for all sequences of commanded schemes and either ARQ type. -/
inductive Reach : DlBlk → Prop where
  | new (c : CS) : c.isEdge → Reach (newBlk c)
  | retx {b b'} (tx : CS) (arq1 : Bool) : tx.isEdge → Reach b → retx b true tx arq1 = some b' → Reach b'
  | tx {b b' l} : Reach b → Tx b b' l → Reach b'

/-- The octets of the stored block that a transmission carries. -/
def carried (data : List Nat) (s : Sent) : List Nat := (data.drop s.start).take s.len

/-- Correct transmission of a block with payload `data`: not split, it carries the payload;
split, the first or the second half (TS 44.060, 10.4.8b). -/
def Correct (data : List Nat) (s : Sent) : Prop :=
  match s.spb with
  | .noRetx => carried data s = data
  | .first => carried data s = data.take (data.length / 2)
  | .second => carried data s = data.drop (data.length / 2)

/-- An arrival that belongs to payload `p`, split at octet `a`. -/
def ArrOf (p : List Nat) (a : Nat) : Arr → Prop
  | .whole d => d = p
  | .first d => d = p.take a
  | .second d => d = p.drop a

/-- The arrivals let a receiver reconstruct the payload. -/
def Enough (as : List Arr) : Prop :=
  (∃ d, Arr.whole d ∈ as) ∨ ((∃ d, Arr.first d ∈ as) ∧ ∃ d, Arr.second d ∈ as)

/-- No whole copy after a half. -/
def WholeFirst : List Arr → Prop
  | [] => True
  | .whole _ :: _ => True
  | _ :: as => ∀ d, Arr.whole d ∉ as

/-- The store holds the complete payload. -/
def Holds (s : Slot) (p : List Nat) : Prop := s.len = p.length ∧ s.infoLen = p.length ∧ s.mem.take s.len = p

end Verif.Split
