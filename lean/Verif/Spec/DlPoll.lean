import Verif.Model.DlPoll
/-!
# What happened on a downlink TBF, and when the mobile has to be asked

Histories have the newest event first.
-/

namespace Verif.DlPoll

/-- A radio block. -/
structure Sent where
  /-- sent on the slot where the mobile may be asked -/
  ctrl : Bool
  /-- the mobile can be given an uplink block for its answer -/
  free : Bool
  /-- a new block that is marked as the last one -/
  last : Bool
  /-- new, although there was nothing to send -/
  idle : Bool
  /-- with this block all frames are sent -/
  empties : Bool
  /-- the mobile is asked to acknowledge -/
  asked : Bool

inductive Ev where
  | sent (b : Sent)
  /-- An acknowledgement came. -/
  | acked
  /-- The mobile says that all was received. -/
  | finalAcked
  /-- The mobile was asked, and did not answer. -/
  | missed
  /-- No frame came for a while. -/
  | timer

/-- Number of radio blocks from the last one with which the mobile was asked. -/
def since : List Ev → Nat
  | [] => 0
  | .sent b :: h => if b.asked then 1 else since h + 1
  | .finalAcked :: _ => 0
  | _ :: h => since h

/-- The last answer did not come, and the mobile was not asked again. -/
def unanswered : List Ev → Bool
  | [] => false
  | .sent b :: h => if b.asked then false else unanswered h
  | .missed :: _ => true
  | .acked :: _ => false
  | .finalAcked :: _ => false
  | .timer :: h => unanswered h

/-- Since the mobile was last asked, something of the kind `k` happened. -/
def open_ (k : Sent → Bool) : List Ev → Bool
  | [] => false
  | .sent b :: h => if b.asked then false else k b || open_ k h
  | .timer :: _ => true
  | _ :: h => open_ k h

/-- All frames are sent. -/
def allSent (t : Tbf) : Bool := t.data.llc.cur.isEmpty && t.data.llc.queue.isEmpty

/-- Frames wait, or one is not sent completely. -/
def waiting (t : Tbf) : Bool := !t.data.llc.queue.isEmpty || decide (t.data.llc.idx < t.data.llc.cur.length)

/-- What is seen of a radio block. -/
def seen (t t' : Tbf) (ctrl free asked : Bool) : Sent :=
  { ctrl, free, asked
    last := t'.data.finished && decide (t'.data.win.vs ≠ t.data.win.vs)
    idle := !waiting t && decide (t'.data.win.vs ≠ t.data.win.vs)
    empties := allSent t' && decide (t'.data.win.vs ≠ t.data.win.vs) }

inductive Reach (edge : Bool) : List Ev → Tbf → Prop
  | start (sns ws) : 2 < sns → Reach edge [] ⟨DlData.Tbf.init sns ws, {}⟩
  | give {h t} (f) : f ≠ [] → Reach edge h t → Reach edge h { t with data := t.data.give f }
  | radio {h t t'} (ctrl free c1 c2 bs a) : Reach edge h t → 20 ≤ c1.n → (∀ c ∈ c2, 20 ≤ c.n) →
      radio edge t ctrl free c1 c2 = some (t', bs, a) → bs ≠ [] → Reach edge (.sent (seen t t' ctrl free a) :: h) t'
  | acked {h t} (bits) : Reach edge h t → Reach edge (.acked :: h) (t.acked bits)
  | finalAcked {h t} : Reach edge h t → Reach edge (.finalAcked :: h) t.finalAcked
  | missed {h t} : Reach edge h t → Reach edge (.missed :: h) t.missed
  | timer {h t} : Reach edge h t → Reach edge (.timer :: h) t.timer

end Verif.DlPoll
