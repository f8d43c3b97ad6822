import Verif.Model.Segment
/-!
Specification of the LLC service over RLC blocks (C07, C08): a sender that cuts frames
into blocks of any sizes, at any moments relative to new frames arriving, and a receiver
that is handed every block once and in order (that being C01) and puts frames together.
-/
namespace Verif.Seg

/-- Sender and receiver. -/
structure Link where
  given : List (List Nat)   -- every frame ever handed over for sending
  tx : Llc
  rx : Asm
  finished : Bool     -- the block marked as the last one of the TBF was produced

def Link.start : Link := ⟨[], ⟨[], 0, [], []⟩, ⟨[], []⟩, false⟩

/-- Header of a downlink block as its receiver sees it: no TLLI, no PFI. -/
def Block.hdr (b : Block) : Hdr := ⟨b.e, b.cv, false, false⟩

/-- Block payload sizes: at least that of CS-1, at most that of MCS-9 resp. of CS-4. -/
def LegalLen (edge : Bool) (n : Nat) : Prop :=
  20 ≤ n ∧ (if edge then n ≤ 74 else n ≤ 53)

/-- One step: a frame of at least 5 octets (LLC address, control and 3 octets FCS) is
queued, or a block is made and received.  After the last block nothing more is sent.
`ok` restricts which blocks may be made (it is `fun _ _ _ => True` for EGPRS). -/
inductive Link.Step (edge : Bool) (ok : Nat → (Nat → Bool) → Llc → Prop) : Link → Link → Prop
  | enqueue (s : Link) (f : List Nat) (hf : 5 ≤ f.length) :
      Link.Step edge ok s { s with
        given := s.given ++ [f]
        tx := { s.tx with queue := s.tx.queue ++ [f] } }
  | block (s : Link) (n : Nat) (fin : Nat → Bool) (junk : Nat → Nat) (b : Block) (tx' : Llc)
      (hs : s.finished = false) (hn : LegalLen edge n) (hok : ok n fin s.tx)
      (hb : createBlock edge n fin s.tx = some (b, tx')) :
      Link.Step edge ok s
        ⟨s.given, tx', s.rx.block edge (memOf b.data junk) n b.hdr, decide (b.cv = 0)⟩

inductive Link.Reach (edge : Bool) (ok : Nat → (Nat → Bool) → Llc → Prop) : Link → Prop
  | start : Link.Reach edge ok Link.start
  | step {s t : Link} : Link.Reach edge ok s → Link.Step edge ok s t → Link.Reach edge ok t

/-- The frames completely sent so far: all that were loaded, except the one still being
sent. -/
def Llc.completed (s : Llc) : List (List Nat) :=
  (if s.cur = [] then s.loaded else s.loaded.dropLast).map (·.2)

/-- The frames loaded for sending that were handed over by the user (not dummies). -/
def Llc.userLoaded (s : Llc) : List (List Nat) :=
  (s.loaded.filter (fun x => !x.1)).map (·.2)

/-- Lengths of what is to be sent: the rest of the frame being sent and the queued frames. -/
def Llc.pending (s : Llc) : List Nat :=
  if s.cur = [] then s.queue.map List.length
  else (s.cur.length - s.idx) :: s.queue.map List.length

/-- The last pending frame ends exactly at the end of a GPRS block of `n` octets in which
another frame ended before it (`off` octets are used up, each finished frame also costing
one length octet). -/
def exactFit (n : Nat) : Nat → List Nat → Bool
  | _, [] => false
  | off, [l] => off != 0 && off + l == n
  | off, l :: ls => decide (off + 1 + l < n) && exactFit n (off + 1 + l) ls

/-- What came out at the receiver is a prefix of what was handed over for sending, byte
for byte and in order, with possibly some LLC dummy commands in between. -/
def Delivered (s : Link) : Prop :=
  ∃ L : List (Bool × List Nat), s.rx.out = L.map (·.2) ∧
    (∀ x ∈ L, x.1 = true → ∃ k, x.2 = dummyFrame k) ∧
    (L.filter (fun x => !x.1)).map (·.2) <+: s.given

/-- Everything handed over came out, and nothing is left in the receiver. -/
def AllDelivered (s : Link) : Prop :=
  ∃ L : List (Bool × List Nat), s.rx.out = L.map (·.2) ∧
    (∀ x ∈ L, x.1 = true → ∃ k, x.2 = dummyFrame k) ∧
    (L.filter (fun x => !x.1)).map (·.2) = s.given ∧ s.rx.acc = []

/-- Make and receive blocks of the given sizes while the TBF is kept open. -/
def sendBlocks (edge : Bool) : List Nat → Link → Option Link
  | [], s => some s
  | n :: sizes, s =>
    match createBlock edge n (fun _ => false) s.tx with
    | none => none
    | some (b, tx') =>
      sendBlocks edge sizes ⟨s.given, tx', s.rx.block edge (memOf b.data (fun _ => 0)) n b.hdr, false⟩

end Verif.Seg
