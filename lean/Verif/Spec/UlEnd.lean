import Verif.Model.UlEnd
import Verif.Spec.UlService
/-!
# The uplink service with acknowledgements

The mobile, the radio and the network of `Spec/UlService`, with the state of the TBF. The record says which acknowledgements
were sent (`true`: marked as final) and how many radio blocks were received.
-/

namespace Verif.UlEnd

open Verif.LlcSeg
open Verif.UlService (raw Mobile LegalCfg)

structure Sys where
  u : UlService.Sys
  ctl : Tbf.Ul
  acks : List Bool
  seen : Nat

/-- What happens to the TBF otherwise: everything that `Tbf.UlOp` lists but the arrival of data. -/
def Other : Tbf.UlOp → Prop
  | .data .. => False
  | .ev .lastUlData => False
  | _ => True

/-- The acknowledgement that an operation sends. -/
def sends (c : Tbf.Ul) : Tbf.UlOp → Option Bool
  | .createAck made _ => if c.freed then none else ackSent c made
  | _ => none

/-- A radio block with the blocks `ns` of those that are outstanding arrives; `si`: the mobile is stalled. -/
def Arrives (edge : Bool) (sns : Nat) (blks : List UlBlk) (s : Sys) (ns : List Nat) (si : Bool) (t : Sys) : Prop :=
  (∀ n ∈ ns, s.u.va ≤ n ∧ n < s.u.vs) ∧ (s.u.tbf.tlli = none → ∀ n ∈ ns, ∃ b, blks[n]? = some b ∧ b.tlli ≠ none) ∧
    s.ctl.freed = false ∧ s.ctl.st ≠ .releasing ∧
    ∃ (env : Tbf.Env) (junk : Nat → Nat) (r : Tbf),
      radio env edge junk ⟨s.u.tbf, s.ctl⟩ si (ns.map (raw edge sns blks)) = some r ∧
      t = ⟨{ s.u with tbf := r.data, got := s.u.got ++ ns }, r.ctl, s.acks, s.seen + 1⟩

/-- Half of a split block arrives, whose other half is missing (EGPRS). -/
def HalfArrives (edge : Bool) (sns : Nat) (s : Sys) (n : Nat) (si : Bool) (t : Sys) : Prop :=
  s.u.va ≤ n ∧ n < s.u.vs ∧ s.ctl.freed = false ∧ s.ctl.st ≠ .releasing ∧
    ∃ (env : Tbf.Env) (junk : Nat → Nat) (b : UlData.Raw) (r : Tbf), b.bsn = n % sns ∧ b.part = true ∧
      radio env edge junk ⟨s.u.tbf, s.ctl⟩ si [b] = some r ∧
      t = ⟨{ s.u with tbf := r.data }, r.ctl, s.acks, s.seen + 1⟩

/-- One step. `G`: further assumption on arriving blocks. -/
inductive Step (lim : Tbf.Lim) (edge : Bool) (sns ws : Nat) (blks : List UlBlk) (G : UlService.Sys → List Nat → Prop) : Sys → Sys → Prop
  /-- The mobile sends a further block for the first time. -/
  | sendNew (s) : s.u.vs < s.u.va + ws → s.u.vs < blks.length →
      Step lim edge sns ws blks G s { s with u := { s.u with vs := s.u.vs + 1 } }
  /-- The mobile learns that all blocks before `a` are received. -/
  | acked (s) (a : Nat) : s.u.va ≤ a → a ≤ s.u.vs →
      (∀ n, s.u.va ≤ n → n < a → n < s.u.tbf.rx.out.length ∨ UlService.reported s.u sns ws n) →
      Step lim edge sns ws blks G s { s with u := { s.u with va := a } }
  | radio (s) (ns) (si) (t) : Arrives edge sns blks s ns si t → G s.u ns → Step lim edge sns ws blks G s t
  | half (s) (n) (si) (t) : HalfArrives edge sns s n si t → Step lim edge sns ws blks G s t
  | other (s) (op : Tbf.UlOp) (env : Tbf.Env) (c : Tbf.Ul) : Other op → Tbf.ulStep lim s.ctl op env = some c →
      Step lim edge sns ws blks G s { s with ctl := c, acks := s.acks ++ (sends s.ctl op).toList }

inductive Reach (lim : Tbf.Lim) (edge : Bool) (sns ws : Nat) (blks : List UlBlk) (G : UlService.Sys → List Nat → Prop) (t0 : Option Nat) :
    Sys → Prop
  | start : Reach lim edge sns ws blks G t0 ⟨⟨0, 0, UlData.Tbf.init sns ws t0, []⟩, {}, [], 0⟩
  | step {s t} : Reach lim edge sns ws blks G t0 s → Step lim edge sns ws blks G s t → Reach lim edge sns ws blks G t0 t

/-- An acknowledgement is due at the next opportunity, or (the final one) was sent and its confirmation is awaited. -/
def AckDue (s : Sys) : Prop := s.ctl.ulAck = .sched ∨ s.ctl.ulAck = .wait

/-- Only the last block has countdown value 0. -/
def LastOnly (blks : List UlBlk) : Prop := ∃ l b, blks = l ++ [b] ∧ b.last = true ∧ ∀ x ∈ l, x.last = false

end Verif.UlEnd
