import Verif.Model.Confirm
/-!
# Histories of assignments and confirmations
-/

namespace Verif.Confirm

open Verif.Tbf (Dl DlOp Env)

/-- One thing that happened: what there was before, the event, what the BTS was given, and what there is then. -/
structure Did where
  pre : W
  ev : Ev
  out : List Msg
  post : W

/-- Events from outside of the control state of a TBF. That X2002 has run out, the assignment of a new TBF and the confirmation of the BTS are
not events of their own: they are `timer`, `start` and `confirm`. -/
def Outside : Ev → Prop
  | .op _ (.ev e) _ => e = .ackPacch ∨ e = .lastDlSent
  | _ => True

/-- A history, the last event first. -/
inductive Run (lim : Nat) : List Did → W → Prop where
  | init : Run lim [] {}
  | step {l w w' out} (ev : Ev) : Run lim l w → Outside ev → step lim w ev = some (w', out) → Run lim (⟨w, ev, out, w'⟩ :: l) w'

/-- The BTS was given an assignment of TBF `k`. -/
def Did.Sends (d : Did) (k : Nat) : Prop := ∃ m ∈ d.out, m.tbf = k

/-- The BTS confirms an assignment with a TLLI of the mobile whose downlink TBF `k` is. -/
def Did.Confirms (d : Did) (k : Nat) : Prop :=
  ∃ id i m, d.ev = .confirm id ∧ id ≠ 0xffffffff ∧ (i, m) ∈ d.pre.ids.ms ∧ (id = m.tlli ∨ id = m.newUl ∨ id = m.newDl) ∧ d.pre.cur i = some k

/-- The state of TBF `k`. -/
def W.at (w : W) (k : Nat) : Option Tbf.St := (w.tbf k).map (·.fsm.st)

/-- The mobile acknowledges the assignment of TBF `k` on the PACCH: of this TBF or another one. -/
def AckedOnPacch (k : Nat) : Ev → Prop
  | .op j (.ev .ackPacch) _ => j = k
  | .op j (.ctrlAck .dlAss _) _ => j = k
  | _ => False

/-- What the BTS was given and has not confirmed: each message is confirmed at most once, in any order. -/
inductive Unsent : List Did → List Msg → Prop where
  | init : Unsent [] []
  | other {l p} (d : Did) : Unsent l p → (∀ id, d.ev ≠ .confirm id) → Unsent (d :: l) (d.out ++ p)
  | confirm {l a b} (d : Did) (m : Msg) : Unsent l (a ++ m :: b) → d.ev = .confirm m.id → Unsent (d :: l) (d.out ++ (a ++ b))

end Verif.Confirm
