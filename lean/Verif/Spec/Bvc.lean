import Verif.Model.Bvc
/-!
# The other side of the Gb interface

An SGSN according to TS 48.018 8.3 and 8.4, and a network between it and the PCU that may lose and reorder messages.
-/

namespace Verif.Bvc

/-- What the SGSN knows of the BVC of the cell. -/
inductive View
  | unknown
  | blocked
  | open
  deriving DecidableEq

/-- 8.4: a reset of the signalling BVC makes all others unknown, a reset of the BVC makes it known, and blocked until 8.3.2. Traffic
for a BVC that is unknown or blocked is answered with a STATUS. -/
def View.rx : View → Up → View × List Down
  | _, .reset true => (.unknown, [.resetAck true])
  | _, .reset false => (.blocked, [.resetAck false])
  | .unknown, _ => (.unknown, [.status .unknown true])
  | .blocked, .unblock => (.open, [.unblockAck])
  | .blocked, _ => (.blocked, [.status .blocked true])
  | .open, .unblock => (.open, [.unblockAck])
  | .open, .flow => (.open, [.flowAck])
  | .open, .data => (.open, [])

/-- PCU, SGSN and the messages on their way. `sigs`, `resets`, `unblocks`: numbers of BVC-RESET for the signalling
BVC, BVC-RESET for the cell, and BVC-UNBLOCK for a known BVC that the SGSN has received, or sent (BVC-RESET), since the link came
up. -/
structure World where
  pcu : Pcu
  view : View
  up : List Up
  down : List Down
  sigs : Nat
  resets : Nat
  unblocks : Nat
  deriving DecidableEq

def World.init : World := ⟨.init, .unknown, [], [], 0, 0, 0⟩

/-- A message arrives; any of those on the way. -/
inductive Deliver : World → World → Prop
  | up (w : World) (l r : List Up) (m : Up) : w.up = l ++ m :: r →
      Deliver w { w with up := l ++ r, view := (w.view.rx m).1, down := w.down ++ (w.view.rx m).2
                         sigs := w.sigs + if m = .reset true then 1 else 0
                         resets := w.resets + if m = .reset false then 1 else 0
                         unblocks := w.unblocks + if m = .unblock ∧ w.view ≠ .unknown then 1 else 0 }
  | down (w : World) (l r : List Down) (m : Down) : w.down = l ++ m :: r →
      Deliver w { w with down := l ++ r, pcu := (w.pcu.rx m).1, up := w.up ++ (w.pcu.rx m).2 }

/-- Everything that can happen. While the link is down there are no messages. -/
inductive Step : World → World → Prop
  | deliver {w v : World} : Deliver w v → Step w v
  | loseUp (w : World) (l r : List Up) (m : Up) : w.up = l ++ m :: r → Step w { w with up := l ++ r }
  | loseDown (w : World) (l r : List Down) (m : Down) : w.down = l ++ m :: r → Step w { w with down := l ++ r }
  /-- the timer expires -/
  | timer (w : World) : w.pcu.timer = true → Step w { w with pcu := w.pcu.timeout.1, up := w.up ++ w.pcu.timeout.2 }
  /-- a mobile's data is to be sent -/
  | data (w : World) : w.pcu.nsvc = true → Step w { w with up := w.up ++ [.data] }
  | nsUp (w : World) : w.pcu.nsvc = false →
      Step w { w with pcu := w.pcu.nsUp.1, up := w.pcu.nsUp.2, down := [], sigs := 0, resets := 0, unblocks := 0 }
  | nsDown (w : World) : Step w { w with pcu := w.pcu.nsDown, up := [], down := [] }
  /-- the SGSN forgets about the cell -/
  | restart (w : World) : Step w { w with view := .unknown }
  /-- the SGSN starts a reset, of all or of the BVC of the cell -/
  | resetAll (w : World) : w.pcu.nsvc = true → Step w { w with view := .unknown, down := w.down ++ [.reset true true], sigs := w.sigs + 1 }
  | resetOne (w : World) : w.pcu.nsvc = true →
      Step w { w with view := .blocked, down := w.down ++ [.reset false true], resets := w.resets + 1 }
  /-- a STATUS about something else -/
  | status (w : World) (c : Cause) (own : Bool) : w.pcu.nsvc = true → c = .other ∨ own = false →
      Step w { w with down := w.down ++ [.status c own] }

inductive Reach : World → Prop
  | start : Reach .init
  | step {w v : World} : Reach w → Step w v → Reach v

end Verif.Bvc
