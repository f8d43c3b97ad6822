import Verif.Model.RlcWindowDl
/-!
Specification environment for an acknowledged-mode downlink TBF.

Blocks carry absolute numbers 0, 1, 2, … in the order of their creation; only the number
modulo `sns` is visible on the air. `acked` records which blocks the mobile has ever
acknowledged.
-/
namespace Verif.RlcDl

/-- Window configurations the code can have: GPRS and EGPRS (rlc_window.cpp:28-42). -/
def LegalCfg (sns ws : Nat) : Prop :=
  (sns = 128 ∧ ws = 64) ∨ (sns = 2048 ∧ 64 ≤ ws ∧ ws ≤ 1024)

structure Sys where
  win : Win
  /-- number of blocks created so far -/
  created : Nat
  /-- blocks acknowledged by the mobile so far -/
  acked : List Nat

/-- Oldest outstanding block: `distance` blocks before the next new one. -/
def Sys.oldest (s : Sys) : Nat := s.created - s.win.distance

/-- Block numbers acknowledged by a bitmap whose first bit stands for the oldest
outstanding block. -/
def ackedBy (s : Sys) (bits : List Bool) : List Nat :=
  ((List.range s.win.distance).filter (fun j => bits[j]? = some true)).map (s.oldest + ·)

/-- A block was created by this choice. -/
def isNew : Option (Nat × Why) → Bool
  | some (_, .fresh) | some (_, .dummy) => true
  | _ => false

inductive Step : Sys → Sys → Prop where
  /-- the scheduler asks for a block (in any TBF situation `e`) -/
  | take (s) (e : Env) (w' : Win) (r : Option (Nat × Why)) :
      takeNext 2 e s.win = some (w', r) →
      Step s { s with win := w', created := s.created + (if isNew r then 1 else 0) }
  /-- as before, and the block is sent as the first half of a split retransmission -/
  | takeHalf (s) (e : Env) (w' : Win) (b : Nat) (y : Why) :
      takeNext 2 e s.win = some (w', some (b, y)) →
      Step s { s with win := w'.markFirstSegment b
                      created := s.created + (if isNew (some (b, y)) then 1 else 0) }
  /-- an Ack/Nack bitmap starting at V(A) arrives -/
  | ack (s) (bits : List Bool) :
      Step s { s with win := s.win.ackNack s.win.va bits, acked := s.acked ++ ackedBy s bits }
  /-- final Ack: everything restarts (tbf_dl.cpp:1064-1079) -/
  | finalAck (s) : Step s { win := s.win.reset, created := 0, acked := [] }
  /-- EGPRS window size changes (tbf_dl.cpp:1336-1344), not below what is outstanding -/
  | setWs (s) (ws : Nat) : s.win.sns = 2048 → 64 ≤ ws → ws ≤ 1024 → s.win.distance ≤ ws →
      Step s { s with win := { s.win with ws := ws } }

inductive Reach (sns ws : Nat) : Sys → Prop where
  | start : Reach sns ws { win := Win.init sns ws, created := 0, acked := [] }
  | step {s t} : Reach sns ws s → Step s t → Reach sns ws t

end Verif.RlcDl
