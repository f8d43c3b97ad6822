import Verif.Model.Sched
/-!
# What is expected of the scheduler

Definitions used in the statements of C27-C32.
-/

namespace Verif.Sched

open Verif.Cs

/-- CS-1 to CS-4. -/
def isCs14 (c : CS) : Prop := c = .cs1 ∨ c = .cs2 ∨ c = .cs3 ∨ c = .cs4
/-- MCS-1 to MCS-4: the EGPRS schemes with GMSK modulation. -/
def isMcs14 (c : CS) : Prop := c = .mcs1 ∨ c = .mcs2 ∨ c = .mcs3 ∨ c = .mcs4

/-- A block was sent and its coding scheme is one of CS-1..4 (control blocks and dummy blocks are
CS-1 blocks). -/
def Block.sentCs14 : Block → Prop
  | .ctrl _ => True
  | .dummy => True
  | .data _ _ cs => isCs14 cs
  | .empty => False

/-- Nothing in the block requires more than GMSK reception. -/
def Block.gmsk : Block → Prop
  | .data _ _ cs => isCs14 cs ∨ isMcs14 cs
  | _ => True

/-- History of a PDCH: requests of the BTS with the state before and the outcome, latest last.
Between two requests, reservations of uplink blocks and the application information may change
arbitrarily, and so may the TBFs (they are part of the `Env` of each request). -/
inductive Trace (c : Cfg) : St → List (St × Env × Out) → St → Prop
  | nil (s : St) : Trace c s [] s
  | cons {s s1 s2 : St} {tr : List (St × Env × Out)} (e : Env) (o : Out) (u : List Ulc.Node) (a : App) :
      rts c e { s with ulc := u, app := a } = some (s1, o) → Trace c s1 tr s2 →
      Trace c s (({ s with ulc := u, app := a }, e, o) :: tr) s2

/-- Downlink TBFs that are not EGPRS TBFs only hold blocks coded with CS-1..4, and their mobile
has a current coding scheme. -/
def GprsSane (e : Env) : Prop :=
  ∀ i < 32, ∀ t, e.dl i = some t →
    (t.egprs = false → ∀ n, isCs14 (t.blk n).ini ∧ isCs14 (t.blk n).last ∧ isCs14 (t.blk n).cur) ∧
    t.ms.curDl ≠ .unknown

/-- The uplink TBF with this TFI wants to send, and may be given a block by request `x`: blocks
in which a GPRS mobile must be addressed are not for EGPRS TBFs. -/
def UlWants (f : Nat) (x : St × Env × Out) : Prop :=
  ∃ t, x.2.1.ul f = some t ∧ t.st = .flow ∧ (t.egprs = true → x.1.noCs14 ≠ 17)

/-! ### Urgency of a downlink TBF -/

/-- An acknowledgement must be asked for. -/
def PollDue (t : DlT) : Prop :=
  t.ctrlTs = true ∧ (t.ackLost = true ∨ t.txCounter ≥ 20 ∨ t.ackRequested = true)
/-- `d` frames have passed from `last` to `fn` (modulo the hyperframe, nearest value); -1 if there
is no `last`. -/
def Age (last : Option Nat) (fn : Nat) (d : Int) : Prop :=
  match last with
  | none => d = -1
  | some l => (∃ k : Int, (fn : Int) = l + d + k * 2715648) ∧ -1357824 ≤ d ∧ d < 1357824
/-- The last poll is longer ago than half of T3190 and than X2031 allow. -/
def Old (c : Cfg) (fn : Nat) (t : DlT) : Prop :=
  t.ctrlTs = true ∧ 0 < msecsToFrames (min (c.t3190 / 2) c.x2031) ∧
    ∃ d, Age t.lastPoll fn d ∧ d > msecsToFrames (min (c.t3190 / 2) c.x2031)
/-- Unsent LLC data, or a block to be repeated. -/
def HasWork (t : DlT) : Prop := (t.st = .flow ∧ t.haveData = true) ∨ ∃ b, t.w.resendNeeded = some b
/-- Last poll more than 200 ms ago while the idle TBF is being kept open. -/
def KeptOpen (c : Cfg) (fn : Nat) (t : DlT) : Prop :=
  t.ctrlTs = true ∧ (∃ d, Age t.lastPoll fn d ∧ d > msecsToFrames 200) ∧ c.x2031 ≠ 0 ∧
    ∃ d, Age t.lastDrained fn d ∧ d ≤ msecsToFrames c.x2031
/-- Blocks not yet acknowledged. -/
def Unacked (t : DlT) : Prop := t.w.vs ≠ t.w.va

open Classical in
/-- Urgency, greatest first. -/
noncomputable def urgency (c : Cfg) (fn : Nat) (t : DlT) : Nat :=
  if PollDue t then 5
  else if Old c fn t then 4
  else if HasWork t then 3
  else if KeptOpen c fn t then 2
  else if Unacked t then 1
  else 0

/-- The downlink TBF may be served in a block of the requested kind. -/
def DlReady (c : Cfg) (fn : Nat) (req : Kind) (t : DlT) : Prop :=
  t.st ≠ .other ∧ 0 < urgency c fn t ∧ (req = .gprs → t.egprs = false) ∧
  (req = .egprsGmsk → t.egprs = true →
    PollDue t ∨ (¬ Old c fn t ∧ (t.st = .flow ∧ t.haveData = true) ∧ t.w.resendNeeded = none))

end Verif.Sched
