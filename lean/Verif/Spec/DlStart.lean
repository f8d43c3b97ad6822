import Verif.Model.DlStart
/-!
# What is expected of a mobile with waiting frames
-/

namespace Verif.Start
open Verif.Tbf

/-- What happens to an uplink TBF from outside: timers, unused blocks, data (the block that announces
the TLLI of the mobile is `Op.access`), unanswered and answered polls, the scheduler asking for
messages, the release. -/
def ulReal : UlOp → Bool
  | .timer | .uaTimer | .t3141 | .usfTimeout | .free => true
  | .data first _ _ _ => !first
  | .pollTimeout r | .ctrlAck r _ => r != .dlAck
  | .createAck .. | .createDl _ | .createUl _ => true
  | _ => false

/-- The same for a downlink TBF; and the confirmation of the BTS that the assignment was sent, and that
the last block was sent. -/
def dlReal : DlOp → Bool
  | .timer | .uaTimer | .dlAck _ | .free => true
  | .pollTimeout r | .ctrlAck r _ => r != .ulAck
  | .createDl _ | .createUl _ => true
  | .ev e => e == .pcuifCnf || e == .lastDlSent
  | _ => false

/-- What can happen to the mobile. -/
def Real (m : Mob) : Op → Prop
  | .ul op _ | .oldUl _ op _ => ulReal op = true
  | .dl op _ | .oldDl _ op _ => dlReal op = true
  | .request .usf _ => ∃ u, m.ul = some u ∧ u.st = .flow
  | .request .poll _ => ∃ u, m.ul = some u ∧ u.ulAck = .wait
  | .request (.oldPoll i) _ => ∃ u, m.oldUl[i]? = some u ∧ u.ulAck = .wait
  | .access u _ _ _ _ => u.st = .flow ∧ u.cr = false ∧ u.ulAck ≠ .wait ∧ u.freed = false
  | _ => True

/-- All histories of a mobile. -/
inductive Reach (c : Cfg) : Mob → Prop
  | start : Reach c {}
  | step {m m' op} : Reach c m → Real m op → step c m op = some m' → Reach c m'

/-- A downlink TBF that is being assigned, carries data, or waits for the last acknowledgement. -/
def InUse (d : Dl) : Prop := d.st = .assign ∨ d.st = .flow ∨ d.st = .finished

/-- Something is still to come on the uplink TBF: the mobile has to be told that contention is resolved,
to confirm the assignment, or to be told that all its data has arrived. -/
def Pending (u : Ul) : Prop :=
  u.st ≠ .releasing ∧ (u.cr = false ∨ u.st = .assign ∨ u.st = .finished)

/-- An assignment sent on the PACCH of the uplink TBF is heard: contention is resolved, the mobile was
not told that the TBF is over, and the TBF was not given up. -/
def Listens (u : Ul) : Prop := u.cr = true ∧ u.ulAck ≠ .wait ∧ u.st ≠ .releasing

/-- The uplink TBF is given up, because of a timer, because it is silent, or from outside. -/
def UlLost (c : Cfg) (u : Ul) : UlOp → Prop
  | .timer => u.tmr = some .t3168 ∨ u.tmr = some .t3169
  | .uaTimer => u.ulAss.tmr ≠ none
  | .t3141 => u.t3141 = true
  | .usfTimeout => (u.n3101 + 1) % 256 = c.ul.n3101
  | .pollTimeout .ulAck => (u.n3103 + 1) % 256 = c.ul.n3103
  | .free => True
  | _ => False

/-- The downlink TBF is given up. -/
def DlLost (c : Cfg) (d : Dl) : DlOp → Prop
  | .timer => d.tmr = some .x2001 ∨ d.tmr = some .t3195
  | .uaTimer => d.ulAss.tmr ≠ none
  | .pollTimeout _ => (d.n3105 + 1) % 256 = c.n3105
  | .free => True
  | _ => False

/-- The current TBFs are not given up, and there are resources. -/
def Regular (c : Cfg) (m : Mob) : Op → Prop
  | .frame r => r ≠ none
  | .ul op r => r ≠ none ∧ ∀ u, m.ul = some u → ¬ UlLost c u op
  | .dl op r => r ≠ none ∧ ∀ d, m.dl = some d → ¬ DlLost c d op
  | .oldUl _ _ r | .oldDl _ _ r => r ≠ none
  | .request _ ok => ok = true
  | _ => True

/-- Histories without loss. -/
inductive Smooth (c : Cfg) : Mob → Prop
  | start : Smooth c {}
  | step {m m' op} : Smooth c m → Real m op → Regular c m op → step c m op = some m' → Smooth c m'

/-- The confirmation of an uplink assignment confirms an uplink TBF that is being assigned; the
confirmation of the final acknowledgement of an older uplink TBF comes when there is no newer one. -/
def Plain (m : Mob) : Op → Prop
  | .ul (.ctrlAck .ulAss _) _ | .oldUl _ (.ctrlAck .ulAss _) _ | .dl (.ctrlAck .ulAss _) _
  | .oldDl _ (.ctrlAck .ulAss _) _ => ∀ u, m.ul = some u → u.st = .assign
  | .oldUl _ (.ctrlAck .ulAck _) _ => m.ul = none
  | _ => True

/-- The mobile listens where the assignment is sent: to the PCH if it has no uplink TBF, to the PACCH of
an uplink TBF (`Listens`), to the PACCH of the downlink TBF before, if it has acknowledged all of it and
waits for its end. -/
def Heard (m : Mob) : Option Who → Prop
  | none => m.ul = none
  | some .ul => ∃ u, m.ul = some u ∧ Listens u
  | some (.oldUl i) => ∃ u, m.oldUl[i]? = some u ∧ Listens u
  | some .dl => ∃ d, m.oldDl.getLast? = some d ∧ d.st = .waitRelease
  | some (.oldDl _) => False

/-- The assignment is sent: once as Immediate Assignment to the BTS, or the TBF on whose PACCH it is sent
has to send one, or has sent one that is not confirmed. -/
def Sent (m : Mob) : Option Who → Prop
  | none => ∃ d, m.dl = some d ∧ d.immAss = 1
  | some .ul => ∃ u, m.ul = some u ∧ u.dlAss ≠ .idle
  | some (.oldUl i) => ∃ u, m.oldUl[i]? = some u ∧ u.dlAss ≠ .idle
  | some .dl => ∃ d, m.oldDl.getLast? = some d ∧ d.dlAss ≠ .idle
  | some (.oldDl i) => ∃ d, m.oldDl[i]? = some d ∧ d.dlAss ≠ .idle

/-- How many frames wait after an operation: only a frame of the SGSN, a frame that is sent or discarded,
and the merge of records change this. -/
def waiting (n : Nat) : Op → Nat
  | .frame _ => n + 1
  | .take => n - 1
  | .access _ _ _ _ back => n + back
  | _ => n

/-- The mobile of a run of operations. -/
def run (c : Cfg) (m : Mob) : List Op → Option Mob
  | [] => some m
  | op :: l => (step c m op).bind fun m' => run c m' l

end Verif.Start
