import Verif.Model.UlData
import Verif.Spec.LlcSeg
/-!
# The uplink service

A mobile cuts its LLC frames into blocks (`Spec/LlcSeg`) and sends them with the sliding window of TS 44.060 9.1; the radio
loses, repeats and reorders; the network receives and acknowledges. Before contention resolution is complete the blocks carry
the TLLI (TS 44.060 7.1.2.3).
-/

namespace Verif.UlService

open Verif.LlcSeg
open Verif.UlData (Raw Tbf)
open Verif.RlcUl (isRecv)

/-- Block `n` of the mobile as it arrives. -/
def raw (edge : Bool) (sns : Nat) (blks : List UlBlk) (n : Nat) : Raw :=
  match blks[n]? with
  | none => ⟨n % sns, ⟨1, 15, false, false⟩, [], false⟩
  | some b => ⟨n % sns, ⟨b.content.e edge, b.cv, b.tlli.isSome, false⟩, b.octets edge, false⟩

/-- Mobile (oldest outstanding block, next new block), network, and a record of the blocks that arrived. -/
structure Sys where
  va : Nat
  vs : Nat
  tbf : Tbf
  got : List Nat

/-- The network reports block `n` as received: it is among the `ws` blocks before V(R) and marked so. -/
def reported (s : Sys) (sns ws n : Nat) : Prop :=
  ∃ i, i < ws ∧ n % sns = (s.tbf.rx.win.vr + sns - 1 - i) % sns ∧ isRecv s.tbf.rx.win.vn (n % sns)

/-- One step. `edge`: EGPRS. `G`: further assumption on arriving blocks. -/
inductive Step (edge : Bool) (sns ws : Nat) (blks : List UlBlk) (G : Sys → List Nat → Prop) : Sys → Sys → Prop
  /-- The mobile sends a further block for the first time. -/
  | sendNew (s) : s.vs < s.va + ws → s.vs < blks.length → Step edge sns ws blks G s { s with vs := s.vs + 1 }
  /-- The mobile learns that all blocks before `a` are received. -/
  | acked (s) (a : Nat) : s.va ≤ a → a ≤ s.vs →
      (∀ n, s.va ≤ n → n < a → n < s.tbf.rx.out.length ∨ reported s sns ws n) → Step edge sns ws blks G s { s with va := a }
  /-- A radio block arrives with blocks `ns` of those outstanding. Each has the TLLI, or the network knows it. -/
  | radio (s) (ns : List Nat) (junk : Nat → Nat) :
      (∀ n ∈ ns, s.va ≤ n ∧ n < s.vs) →
      (s.tbf.tlli = none → ∀ n ∈ ns, ∃ b, blks[n]? = some b ∧ b.tlli ≠ none) →
      G s ns →
      Step edge sns ws blks G s { s with tbf := s.tbf.rcv edge junk (ns.map (raw edge sns blks)), got := s.got ++ ns }
  /-- Half of a split block arrives, whose other half is missing (EGPRS). -/
  | half (s) (n : Nat) (r : Raw) (junk : Nat → Nat) :
      s.va ≤ n → n < s.vs → r.bsn = n % sns → r.part = true → Step edge sns ws blks G s { s with tbf := s.tbf.rcv edge junk [r] }

/-- All states that can be reached. `t0`: the TLLI, if the network knows it when the TBF starts. -/
inductive Reach (edge : Bool) (sns ws : Nat) (blks : List UlBlk) (G : Sys → List Nat → Prop) (t0 : Option Nat) : Sys → Prop
  | start : Reach edge sns ws blks G t0 ⟨0, 0, Tbf.init sns ws t0, []⟩
  | step {s t} : Reach edge sns ws blks G t0 s → Step edge sns ws blks G s t → Reach edge sns ws blks G t0 t

/-- No assumption. -/
def Any (_ : Sys) (_ : List Nat) : Prop := True

/-- GPRS: one block in a radio block, and not the one 63 ahead of V(R) (see C01). -/
def NoEdge (s : Sys) (ns : List Nat) : Prop := ns.length ≤ 1 ∧ ∀ n ∈ ns, n % 128 ≠ (s.tbf.rx.win.vr + 63) % 128

/-- The windows a TBF can have. -/
def LegalCfg (edge : Bool) (sns ws : Nat) : Prop :=
  if edge then sns = 2048 ∧ 64 ≤ ws ∧ ws ≤ 1024 else sns = 128 ∧ ws = 64

/-- A mobile with TLLI `t` that sends the frames `frames` in the blocks `blks` and has `rest` left after them. LLC frames have
at least 5 octets (TS 44.064). -/
structure Mobile (edge : Bool) (t : Nat) (frames : List (List Nat)) (blks : List UlBlk) (rest : List (List Nat)) : Prop where
  cuts : Cuts edge frames blks rest
  llc : ∀ f ∈ frames, 5 ≤ f.length
  tlli : ∀ b ∈ blks, ∀ u, b.tlli = some u → u = t
  range : t < 2 ^ 32 - 1

end Verif.UlService
