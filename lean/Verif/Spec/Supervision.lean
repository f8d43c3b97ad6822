import Verif.Model.TbfFsm

/-!
# Supervision counters: specification

A supervised procedure has a sequence of outcomes.  The mobile station is given up when
the number of consecutive failures reaches the configured limit.  The limits are 8-bit
values; zero behaves as 256.
-/

namespace Verif.TbfSpec
open Verif.Tbf

inductive Outcome where
  | fail | ok
deriving DecidableEq, Repr

/-- Number of failures since the last success; most recent outcome first. -/
def streak : List Outcome → Nat
  | [] => 0
  | .fail :: h => streak h + 1
  | .ok :: _ => 0

/-- The number of consecutive failures a configured limit stands for. -/
def effLimit (lim : Nat) : Nat := if lim = 0 then 256 else lim

/-- N3105: what an operation on a downlink TBF tells about the mobile station.  Failures
are unanswered polls the TBF was waiting for; successes are a Packet Downlink Ack/Nack
and a Packet Control Acknowledgement of an assignment. -/
def outcome3105 (s : Dl) (op : DlOp) : Option Outcome :=
  if s.freed then none else
  match op with
  | .pollTimeout .dlAck => some .fail
  | .pollTimeout .ulAss => if s.ulAss.st = .wait then some .fail else none
  | .pollTimeout .dlAss => if s.dlAss = .wait then some .fail else none
  | .dlAck _ => some .ok
  | .ctrlAck .ulAss _ => if s.ulAss.st = .wait then some .ok else none
  | .ctrlAck .dlAss _ => if s.dlAss = .wait then some .ok else none
  | _ => none

/-- The outcomes of a history, most recent first, put before those already known. -/
def hist3105 (lim : Nat) (s : Dl) (h : List Outcome) : List (DlOp × Env) → List Outcome
  | [] => h
  | (op, env) :: r =>
    match dlStep lim s op env with
    | none => h
    | some s1 => hist3105 lim s1 ((outcome3105 s op).toList ++ h) r

/-- N3101: a granted uplink block was not used, or uplink data arrived. -/
def outcome3101 (s : Ul) (op : UlOp) : Option Outcome :=
  if s.freed then none else
  match op with
  | .usfTimeout => some .fail
  | .data .. => some .ok
  | _ => none

def hist3101 (lim : Lim) (s : Ul) (h : List Outcome) : List (UlOp × Env) → List Outcome
  | [] => h
  | (op, env) :: r =>
    match ulStep lim s op env with
    | none => h
    | some s1 => hist3101 lim s1 ((outcome3101 s op).toList ++ h) r

/-- N3103: the final acknowledgement was not confirmed.  The count starts when all data
has arrived. -/
def outcome3103 (s : Ul) (op : UlOp) : Option Outcome :=
  if s.freed then none else
  match op with
  | .pollTimeout .ulAck => if s.ulAck = .wait ∧ s.st = .finished then some .fail else none
  | .data _ c v _ => if s.st = .flow ∧ c = true ∧ v = true then some .ok else none
  | .pktResReq => some .ok
  | _ => none

def hist3103 (lim : Lim) (s : Ul) (h : List Outcome) : List (UlOp × Env) → List Outcome
  | [] => h
  | (op, env) :: r =>
    match ulStep lim s op env with
    | none => h
    | some s1 => hist3103 lim s1 ((outcome3103 s op).toList ++ h) r

/-- The TBF is in use, or can still be used to assign another one. -/
def DlActive (st : St) : Prop := st = .assign ∨ st = .flow ∨ st = .finished ∨ st = .waitRelease

instance (st : St) : Decidable (DlActive st) := by unfold DlActive; infer_instance

/-- Uplink blocks are granted only to a TBF in data transfer (src/gprs_rlcmac_sched.cpp:87),
so a missed grant is not reported before that. -/
def UsfSaneRun (lim : Lim) : Ul → List (UlOp × Env) → Prop
  | _, [] => True
  | s, (op, env) :: r => (op = .usfTimeout → s.st ≠ .new ∧ s.st ≠ .assign) ∧
      ∀ s1, ulStep lim s op env = some s1 → UsfSaneRun lim s1 r

end Verif.TbfSpec
