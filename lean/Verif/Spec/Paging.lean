import Verif.Model.Paging
/-!
# Packet Paging Request, 3GPP TS 44.060 section 11.2.10

What a message says, by the CSN.1 description of the message, and the history of a paging queue.
-/

namespace Verif.Paging

/-- A page for an RR connection: four octets of a TMSI, or an identity of up to 15 octets. -/
structure Page where
  tmsi : Bool
  octets : List Nat
  chan : Nat
  deriving DecidableEq, Repr

/-- Field sizes. -/
def Page.Valid (p : Page) : Prop :=
  (if p.tmsi then p.octets.length = 4 else p.octets.length < 16) ∧ (∀ o ∈ p.octets, o < 256) ∧ p.chan < 4

/-- `v` in `w` bits. -/
def field (w v : Nat) : List Bool := (List.range w).map fun i => v / 2 ^ (w - 1 - i) % 2 = 1

/-- `1 < Repeated Page info >`: page request for RR connection (1), TMSI (0) or length and identity
(1), CHANNEL_NEEDED, no eMLPP priority (0). -/
def Page.code (p : Page) : List Bool :=
  [true, true, !p.tmsi] ++ (if p.tmsi then [] else field 4 p.octets.length) ++ p.octets.flatMap (field 8) ++
    field 2 p.chan ++ [false]

/-- Payload type 01, no poll, USF 0, message type 100010, page mode normal, no persistence level, no
NLN. -/
def start : List Bool :=
  [false, true] ++ List.replicate 6 false ++ [true, false, false, false, true, false] ++ [false, false] ++ [false] ++ [false]

/-- A message of 23 octets with these pages and nothing else; the list ends with 0. -/
def Carries (m : List Bool) (ps : List Page) : Prop :=
  m.length = 184 ∧ ∃ pad, m = start ++ ps.flatMap Page.code ++ false :: pad

/-- The identity of a record, as in a message. -/
def Rec.identity (r : Rec) : List Nat := r.id.take r.len

/-- A TMSI (type 4 in the low bits of the first octet). -/
def Rec.isTmsi (r : Rec) : Bool := r.identity.headD 0 % 8 = 4

/-- A TMSI has five octets. -/
def Rec.wellFormed (r : Rec) : Bool := !r.isTmsi || r.identity.length = 5

/-- The page of a record: a TMSI without the octet of the type; two bits of CHANNEL_NEEDED. -/
def Rec.page (r : Rec) : Page :=
  { tmsi := r.isTmsi, octets := if r.isTmsi then r.identity.drop 1 else r.identity, chan := r.chan % 4 }

/-- What `add_paging` stores: one to eight octets. -/
def Rec.Ok (r : Rec) : Prop := 1 ≤ r.len ∧ r.len ≤ 8 ∧ r.id.length = 8 ∧ ∀ o ∈ r.id, o < 256

/-- Bits of the entry of a record. -/
def Rec.size (r : Rec) : Nat := r.page.code.length

/-- Queues that come up: records are added, messages are asked for. -/
inductive Hist : List Rec → Prop
  | init : Hist []
  | add {q} (chan : Nat) (mi : Option (List Nat)) : (∀ x, mi = some x → ∀ o ∈ x, o < 256) → Hist q →
      Hist (addPaging q chan mi).1
  | request {q} : Hist q → Hist (request q).2

end Verif.Paging
