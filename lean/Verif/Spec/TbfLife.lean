import Verif.Model.TbfFsm

/-!
# Life of a TBF: specification

Which state changes are legal, and what may cause them.  Written from the TBF life cycle
(3GPP TS 44.060: assignment, data transfer, final acknowledgement, release supervised by
T3192/T3193, abnormal release supervised by T3195 / T3169), independently of the model's
event tables.
-/

namespace Verif.TbfSpec
open Verif.Tbf

/-- The TBF may carry user data. -/
def Carries (st : St) : Prop := st = .flow ∨ st = .finished

/-- The TBF is on its way out. -/
def Ended (st : St) : Prop := st = .waitRelease ∨ st = .waitReuse ∨ st = .releasing

instance (st : St) : Decidable (Carries st) := by unfold Carries; infer_instance
instance (st : St) : Decidable (Ended st) := by unfold Ended; infer_instance

/-- The supervision limit N3105 was reported, or a poll went unanswered. -/
def IsGiveUp (op : DlOp) : Prop :=
  op = .ev .maxN3105 ∨ ∃ r, op = .pollTimeout r ∧ r ≠ .ulAck

/-- Legal state changes of a downlink TBF with their causes.  `ccch`: the TBF was
assigned on the paging channel; `acked`: the mobile station has acknowledged data. -/
inductive DlMove (ccch acked : Bool) : St → DlOp → St → Prop where
  /-- An assignment starts. -/
  | start {op} : op = .ev .addCcch ∨ op = .ev .addPacch → DlMove ccch acked .new op .assign
  /-- The mobile station confirmed the assignment, or had time to follow it. -/
  | assigned {op} : op = .ev .ackPacch ∨ op = .ev .readyCcch ∨ op = .timer ∨
      (∃ t, op = .ctrlAck .dlAss t) → DlMove ccch acked .assign op .flow
  /-- The mobile station never answered an assignment on the paging channel: repeat it. -/
  | repeatAss {op} : ccch = true → acked = false →
      op = .ev .dlAcknackMiss ∨ op = .pollTimeout .dlAck → DlMove ccch acked .flow op .assign
  /-- All data was sent. -/
  | allSent : DlMove ccch acked .flow (.ev .lastDlSent) .finished
  /-- The mobile station acknowledged everything. -/
  | finalAck {op} : op = .ev .finalAckRecvd ∨ op = .dlAck true →
      DlMove ccch acked .finished op .waitRelease
  /-- T3192 expired. -/
  | t3192 : DlMove ccch acked .waitRelease .timer .waitReuse
  /-- Abnormal release. -/
  | giveUp {st op} : st ≠ .new → st ≠ .waitReuse → st ≠ .releasing → IsGiveUp op →
      DlMove ccch acked st op .releasing

/-- Legal state changes of an uplink TBF with their causes. -/
inductive UlMove : St → UlOp → St → Prop where
  | start {op} : op = .ev .addCcch ∨ op = .ev .addPacch → UlMove .new op .assign
  | assigned {op} : op = .ev .ackPacch ∨ op = .ev .readyCcch ∨ op = .timer ∨
      op = .ctrlAck .ulAss true → UlMove .assign op .flow
  /-- All data was received. -/
  | allRecvd {op} : op = .ev .lastUlData ∨ (∃ f r, op = .data f true true r) →
      UlMove .flow op .finished
  /-- The mobile station does not use the blocks granted to it. -/
  | n3101 {op} : op = .ev .maxN3101 ∨ op = .usfTimeout → UlMove .flow op .releasing
  /-- The mobile station does not confirm the final acknowledgement. -/
  | n3103 {op} : op = .ev .maxN3103 ∨ op = .pollTimeout .ulAck → UlMove .finished op .releasing

/-- Poll reasons a downlink TBF sets up (`tbf_set_polling` callers): not the
acknowledgement of uplink data. -/
def DlOk (op : DlOp) : Prop := op ≠ .pollTimeout .ulAck ∧ ∀ a, op ≠ .ctrlAck .ulAck a

/-- Poll reasons an uplink TBF sets up: not the acknowledgement of downlink data. -/
def UlOk (op : UlOp) : Prop := op ≠ .pollTimeout .dlAck

/-- How the rest of the PCU drives a downlink TBF: it is assigned on the paging channel
only when it is new; it does not report "ready" itself; and while the TBF is being
assigned over its own PACCH it is not also confirmed through another TBF. -/
def DlSane (s : Dl) (op : DlOp) : Prop :=
  (op = .ev .addCcch → s.st = .new) ∧ op ≠ .ev .readyCcch ∧
  (op = .ev .ackPacch → s.dlAss = .idle)

/-- A history of which every step is `DlSane`. -/
def DlSaneRun (lim : Nat) : Dl → List (DlOp × Env) → Prop
  | _, [] => True
  | s, (op, env) :: r => DlSane s op ∧ ∀ s1, dlStep lim s op env = some s1 → DlSaneRun lim s1 r

end Verif.TbfSpec
