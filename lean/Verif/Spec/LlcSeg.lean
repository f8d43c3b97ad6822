/-!
# LLC frames in RLC data blocks

From 3GPP TS 44.060: what an RLC data block in acknowledged mode holds (10.2, 10.3a, 10.4), how it is written with
length indicators (10.4.13, 10.4.14 for GPRS, 10.4.14a for EGPRS), and how a sender cuts its frames into blocks (9.1.11).
-/

namespace Verif.LlcSeg

/-- What follows the last delimited segment in a block: a segment up to the end of the block; the same announced by the
length indicator 0 (GPRS: the frame would end with the block were it not for the length indicator); filling octets. -/
inductive After
  | tail (octets : List Nat)
  | li0 (octets : List Nat)
  | fill (octets : List Nat)

def After.octets : After → List Nat
  | .tail l => l
  | .li0 l => l
  | .fill l => l

/-- Content of a data block: the segments that are the last of their frame and delimited by a length indicator, and what
follows. -/
structure Content where
  ends : List (List Nat)
  after : After

/-- GPRS length octets: 6 bits length indicator, M, E. M: a segment follows the one delimited; E: no further length
octet. -/
def gprsLis : List (List Nat) → After → List Nat
  | [], .li0 _ => [0 * 4 + 0 * 2 + 1]
  | [], .tail _ => []
  | [], .fill _ => []
  | [p], .tail _ => [p.length * 4 + 1 * 2 + 1]
  | [p], .fill _ => [p.length * 4 + 0 * 2 + 1]
  | p :: ps, a => (p.length * 4 + 1 * 2 + 0) :: gprsLis ps a

/-- EGPRS length octets: 7 bits length indicator, E. 127: filling. -/
def egprsLis : List (List Nat) → After → List Nat
  | [], .fill _ => [127 * 2 + 1]
  | [], .tail _ => []
  | [], .li0 _ => []
  | [p], .tail _ => [p.length * 2 + 1]
  | p :: ps, a => (p.length * 2 + 0) :: egprsLis ps a

def Content.lis (edge : Bool) (c : Content) : List Nat :=
  if edge then egprsLis c.ends c.after else gprsLis c.ends c.after

/-- The octets of a block; `tlli`: none or the four octets of the TLLI. -/
def Content.octets (edge : Bool) (tlli : List Nat) (c : Content) : List Nat :=
  c.lis edge ++ tlli ++ c.ends.flatten ++ c.after.octets

/-- The E bit of the block header: no length octet follows. -/
def Content.e (edge : Bool) (c : Content) : Nat := if c.lis edge = [] then 1 else 0

/-- What a block can hold. An empty segment occurs only in EGPRS: the first one, if its frame ended with the block
before. -/
def Content.Valid (edge : Bool) (c : Content) : Prop :=
  if edge then
    (∀ p ∈ c.ends, p.length < 127) ∧ (∀ p ∈ c.ends.tail, p ≠ [])
      ∧ (match c.after with | .tail l => c.ends = [] → l ≠ [] | .li0 _ => False | .fill _ => True)
  else
    (∀ p ∈ c.ends, 1 ≤ p.length ∧ p.length < 64)
      ∧ (match c.after with | .tail l => l ≠ [] | .li0 _ => True | .fill _ => c.ends ≠ [])

/-- A sender with frames `st` to be sent (of the first one possibly the rest only) makes a block and has `st'` left.
`last`: the block is the last one of the TBF (countdown value 0); a frame that ends with it needs no length indicator. -/
inductive Takes (edge : Bool) : (last : Bool) → (st : List (List Nat)) → Content → (st' : List (List Nat)) → Prop
  /-- Filling after the frames that end. -/
  | fill (last ends l todo) : (last = true → todo = []) → Takes edge last (ends ++ todo) ⟨ends, .fill l⟩ todo
  /-- The frames that end fill the block (EGPRS). -/
  | exact (last ends todo) : edge = true → (last = true → todo = []) → Takes edge last (ends ++ todo) ⟨ends, .tail []⟩ todo
  /-- The next frame is begun or continued; if (EGPRS) it ends with the block, its end is announced in the next one. -/
  | tail (ends t r todo) : t ≠ [] → (r = [] → edge = true) → Takes edge false (ends ++ (t ++ r) :: todo) ⟨ends, .tail t⟩ (r :: todo)
  /-- The last frame ends with the last block. -/
  | final (ends t) : t ≠ [] → Takes edge true (ends ++ [t]) ⟨ends, .tail t⟩ []
  /-- GPRS: the frame would end with the block but for the length octet. -/
  | li0 (ends t x todo) : edge = false → Takes edge false (ends ++ (t ++ [x]) :: todo) ⟨ends, .li0 t⟩ ([x] :: todo)

/-- A block of the stream of a sender. `tlli`: TI is set and the TLLI is in the block. -/
structure UlBlk where
  content : Content
  tlli : Option Nat
  last : Bool
  cv : Nat

/-- Octets of a TLLI: most significant first in GPRS, last in EGPRS (10.2.2, 10.3a.2). -/
def tlliOctets (edge : Bool) (t : Nat) : List Nat :=
  let l := [t / 2 ^ 24 % 256, t / 2 ^ 16 % 256, t / 2 ^ 8 % 256, t % 256]
  if edge then l.reverse else l

def UlBlk.octets (edge : Bool) (b : UlBlk) : List Nat :=
  b.content.octets edge ((b.tlli.map (tlliOctets edge)).getD [])

/-- A sender with `st` to send makes the blocks one after the other and has `st'` left. -/
inductive Cuts (edge : Bool) : List (List Nat) → List UlBlk → List (List Nat) → Prop
  | nil (st) : Cuts edge st [] st
  | cons (st b st1 bs st2) : b.content.Valid edge → (b.cv = 0 ↔ b.last = true) → 20 ≤ (b.octets edge).length → (b.octets edge).length ≤ 74
      → Takes edge b.last st b.content st1 → Cuts edge st1 bs st2 → Cuts edge st (b :: bs) st2

end Verif.LlcSeg
