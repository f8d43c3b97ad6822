import Verif.Model.RlcWindowUl
/-!
Specification environment for an acknowledged-mode uplink TBF.

The mobile owns an infinite stream of RLC data blocks `f 0, f 1, ...`.
It numbers them with absolute block numbers; only `n % sns` is sent over the air.
The mobile obeys the transmit window rule of 3GPP TS 44.060 9.1.3: it may have at
most `ws` blocks outstanding, and it forgets a block only when the network has
reported it as received.
The radio may lose, repeat and reorder transmissions.
-/
namespace Verif.RlcUl

/-- Window configurations the code can have: GPRS (rlc.h:26-27) and EGPRS
(rlc.h:28-33 and rlc_window.cpp:35-42, `set_ws` asserts 64..1024). -/
def LegalCfg (sns ws : Nat) : Prop :=
  (sns = 128 ∧ ws = 64) ∨ (sns = 2048 ∧ 64 ≤ ws ∧ ws ≤ 1024)

/-- Closed system: mobile (oldest outstanding block, next new block) and network. -/
structure Sys (α : Type) where
  va : Nat
  vs : Nat
  rx : Rx α

/-- Block number `n` is reported as received by the receive bitmap the network
would send in this state: it is one of the `ws` block numbers below V(R) and is
marked received. -/
def reported {α} (s : Sys α) (sns ws n : Nat) : Prop :=
  ∃ i, i < ws ∧ n % sns = (s.rx.win.vr + sns - 1 - i) % sns ∧ isRecv s.rx.win.vn (n % sns)

/-- One step of mobile, radio and network together. -/
inductive Step {α} (f : Nat → α) (sns ws : Nat) : Sys α → Sys α → Prop where
  /-- the mobile makes a new block available, window permitting -/
  | sendNew (s) : s.vs < s.va + ws → Step f sns ws s { s with vs := s.vs + 1 }
  /-- the mobile learns from Ack/Nack information that all blocks below `a` arrived -/
  | acked (s) (a : Nat) : s.va ≤ a → a ≤ s.vs →
      (∀ n, s.va ≤ n → n < a → n < s.rx.out.length ∨ reported s sns ws n) →
      Step f sns ws s { s with va := a }
  /-- a radio block arrives, carrying data blocks that are outstanding at the mobile.
      Payload of blocks that the network rejects or that are incomplete is arbitrary. -/
  | radio (s) (blocks : List (Arrival α)) :
      (∀ b ∈ blocks, ∃ n, s.va ≤ n ∧ n < s.vs ∧ b.bsn = n % sns ∧ (b.kind = .ok → b.data = f n)) →
      Step f sns ws s { s with rx := s.rx.rcvBlocks blocks }

/-- All states the system can reach. -/
inductive Reach {α} (f : Nat → α) (sns ws : Nat) : Sys α → Prop where
  | start : Reach f sns ws { va := 0, vs := 0, rx := Rx.init α sns ws }
  | step {s t} : Reach f sns ws s → Step f sns ws s t → Reach f sns ws t

end Verif.RlcUl

namespace Verif.RlcUl

/-! ### Completeness: the same environment with a record of what has arrived -/

/-- As `Sys`, with a ghost record `got` of the absolute numbers of all complete,
accepted blocks that arrived so far. -/
structure SysG (α : Type) where
  va : Nat
  vs : Nat
  rx : Rx α
  got : List Nat

/-- As `reported`, for the system with the record. -/
def SysG.toSys {α} (s : SysG α) : Sys α := { va := s.va, vs := s.vs, rx := s.rx }

/-- Absolute numbers of the complete and accepted blocks of a radio block. -/
def okNumbers {α} (blocks : List (Nat × Arrival α)) : List Nat :=
  (blocks.filter (fun b => b.2.kind = .ok)).map (·.1)

/-- One step of mobile, radio and network; each arriving data block comes with its
absolute number. Split (partial) segments only occur in radio blocks with a single
data block (MCS-1..3), 3GPP TS 44.060 10.3a.4.3. `G` is an extra assumption on the
arriving radio blocks; it is `fun _ _ => True` unless stated otherwise. -/
inductive StepG {α} (f : Nat → α) (sns ws : Nat) (G : SysG α → List (Nat × Arrival α) → Prop) :
    SysG α → SysG α → Prop where
  | sendNew (s) : s.vs < s.va + ws → StepG f sns ws G s { s with vs := s.vs + 1 }
  | acked (s) (a : Nat) : s.va ≤ a → a ≤ s.vs →
      (∀ n, s.va ≤ n → n < a → n < s.rx.out.length ∨ reported s.toSys sns ws n) →
      StepG f sns ws G s { s with va := a }
  | radio (s) (blocks : List (Nat × Arrival α)) :
      (∀ b ∈ blocks, s.va ≤ b.1 ∧ b.1 < s.vs ∧ b.2.bsn = b.1 % sns ∧
        (b.2.kind = .ok → b.2.data = f b.1)) →
      (∀ b ∈ blocks, b.2.kind ≠ .partialSeg) →
      G s blocks →
      StepG f sns ws G s { s with rx := s.rx.rcvBlocks (blocks.map (·.2)),
                                  got := s.got ++ okNumbers blocks }
  | segment (s) (b : Nat × Arrival α) :
      s.va ≤ b.1 → b.1 < s.vs → b.2.bsn = b.1 % sns → b.2.kind = .partialSeg →
      StepG f sns ws G s { s with rx := s.rx.rcvBlocks [b.2] }

inductive ReachG {α} (f : Nat → α) (sns ws : Nat) (G : SysG α → List (Nat × Arrival α) → Prop) :
    SysG α → Prop where
  | start : ReachG f sns ws G { va := 0, vs := 0, rx := Rx.init α sns ws, got := [] }
  | step {s t} : ReachG f sns ws G s → StepG f sns ws G s t → ReachG f sns ws G t

/-- No assumption on arriving radio blocks. -/
def Any {α} (_ : SysG α) (_ : List (Nat × Arrival α)) : Prop := True

/-- GPRS: one data block per radio block, and this block is not the one exactly 63
ahead of V(R), the last one of an empty window
(see `C01_gprs_window_edge_deadlock` for what happens then). -/
def NoEdge {α} (s : SysG α) (blocks : List (Nat × Arrival α)) : Prop :=
  blocks.length ≤ 1 ∧ ∀ b ∈ blocks, b.2.bsn ≠ (s.rx.win.vr + 63) % 128

/-- Configurations in which the 1024-entry state ring can tell all relevant blocks
apart: GPRS, and EGPRS with a window of at most half the ring. -/
def GoodCfg (sns ws : Nat) : Prop :=
  (sns = 128 ∧ ws = 64) ∨ (sns = 2048 ∧ 64 ≤ ws ∧ ws ≤ 512)

end Verif.RlcUl
