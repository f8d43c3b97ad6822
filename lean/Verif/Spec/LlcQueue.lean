import Verif.Model.LlcQueue
/-!
# What a user of the LLC queue observes

Used by C14 and C15: the frames in the order in which they are to be served, the operations and a
log of what went in and out.
-/

namespace Verif.Llc

/-- All frames of a queue, in order of service. -/
def all (q : Queue) : List Frame := q.pq 0 ++ q.pq 1 ++ q.pq 2

/-- Octets in a list of frames. -/
def octetsOf (l : List Frame) : Nat := (l.map (·.data.length)).sum

/-- Counters agree with the content. -/
def Accounted (q : Queue) : Prop := q.size = (all q).length ∧ q.octets = octetsOf (all q)

/-- Priority class of a frame: signalling, SMS/TOM, other. -/
def prio (f : Frame) : Nat := framePrio f.data

/-- Every frame is in the list of its priority. -/
def Placed (q : Queue) : Prop := ∀ i < 3, ∀ f ∈ q.pq i, prio f = i

/-- Log of a queue: everything put in, everything handed out for sending, everything discarded. -/
structure Log where
  inp : List Frame
  sent : List Frame
  disc : List Frame

/-- Histories of one queue: frames arrive, the next one is taken at some time with some
hysteresis, the frame handed out last is put back, the queue is cleared. -/
inductive Hist : Queue → Log → Prop
  | init (interval : Nat) : Hist (initQueue interval) ⟨[], [], []⟩
  | enq {q l} (data : List Nat) (now expire : Int) : Hist q l →
      Hist (enqueue q data now expire) { l with inp := l.inp ++ [⟨data, now, expire⟩] }
  | deq {q l q' d r} (now hyst : Int) : 0 ≤ hyst → Hist q l → dequeue now hyst q = (q', d, r) →
      Hist q' { l with sent := l.sent ++ (r.map (·.1)).toList, disc := l.disc ++ d }
  | back {q l} (f : Frame) (s : List Frame) : Hist q l → l.sent = s ++ [f] →
      Hist (prepend q f (prio f)) { l with sent := s }
  | clear {q l} : Hist q l → Hist (clear q) { l with disc := l.disc ++ all q }

/-- Queues that can come up, with merging of the queues of two mobiles. -/
inductive Reach : Queue → Prop
  | init (interval : Nat) : Reach (initQueue interval)
  | enq {q} (data : List Nat) (now expire : Int) : Reach q → Reach (enqueue q data now expire)
  | deq {q q' d r} (now hyst : Int) : 0 ≤ hyst → Reach q → dequeue now hyst q = (q', d, r) → Reach q'
  | back {q} (f : Frame) : Reach q → Reach (prepend q f (prio f))
  | clear {q} : Reach q → Reach (clear q)
  | merge {q o} : Reach q → Reach o → Reach (moveAndMerge q o).1
  | merged {q o} : Reach q → Reach o → Reach (moveAndMerge q o).2

/-- The frame at index `i` of the order of service is to be discarded at time `now`, if `cd` says
that CoDel asks for it: it is past its lifetime, or frames were discarded right before it, it is
within `hyst` of its end of lifetime and of a kind that may be discarded. -/
def Discard (now hyst : Int) (l : List Frame) (cd : Nat → Bool) (i : Nat) : Prop :=
  ∃ f, l[i]? = some f ∧ (cd i = true ∨ (f.expire ≠ 0 ∧ f.expire < now) ∨
    (0 < i ∧ f.expire ≠ 0 ∧ f.expire < now + hyst ∧ canBeDiscarded f.data = true))

end Verif.Llc
