import Verif.Model.Codel
/-!
# Downlink LLC queue of a mobile

Model of the queue functions of `src/llc.c`. Times in nanoseconds (see `Verif.Model.Codel`);
an expiry time 0 means "never". The floating-point average delay (llc.c:280-285), counters and
the LLC-DISCARDED report (348-359) are not modelled; the discarded frames are a result.
-/

namespace Verif.Llc

/-- A queued `msgb` with its `MetaInfo` (llc.h:53-56). -/
structure Frame where
  data : List Nat
  recv : Int
  expire : Int
  deriving DecidableEq, Repr

/-- llc.h:57-62: number of priorities. -/
def nprio : Nat := 3

/-- llc.h:120-131 `gprs_llc_queue`. -/
structure Queue where
  pq : Nat → List Frame
  codel : Nat → Codel.St
  size : Nat
  octets : Nat
  useCodel : Bool

/-- Replace entry `i`. -/
def upd {α} (f : Nat → α) (i : Nat) (v : α) : Nat → α := fun j => if j = i then v else f j

/-- llc.c:130-142 `llc_sapi2prio`. -/
def sapiPrio (sapi : Nat) : Nat :=
  if sapi = 1 then 0 else if sapi = 2 ∨ sapi = 7 ∨ sapi = 8 then 1 else 2

/-- Priority of a frame: low 4 bits of the first octet (llc.h:38-51, llc.c:147-152). An empty
frame would be read out of bounds there; BSSGP does not deliver one (0 assumed). -/
def framePrio (data : List Nat) : Nat := sapiPrio (data.headD 0 % 16)

/-- llc.c:103-128 `llc_queue_init`, `llc_queue_set_codel_interval`; `interval` 0 disables
CoDel. -/
def initQueue (interval : Nat) : Queue :=
  { pq := fun _ => []
    codel := fun _ => if interval = 0 then Codel.init else Codel.setInterval Codel.init interval
    size := 0
    octets := 0
    useCodel := interval ≠ 0 }

/-- llc.c:144-162 `llc_queue_enqueue`. -/
def enqueue (q : Queue) (data : List Nat) (now expire : Int) : Queue :=
  let p := framePrio data
  { q with
    size := q.size + 1
    octets := q.octets + data.length
    pq := upd q.pq p (q.pq p ++ [{ data := data, recv := now, expire := expire }]) }

/-- llc.c:164-179 `llc_queue_clear`. -/
def clear (q : Queue) : Queue := { q with pq := fun _ => [], size := 0, octets := 0 }

/-- llc.c:190-223: merge of two lists by time of reception. -/
def merge : List Frame → List Frame → List Frame
  | [], l2 => l2
  | l1, [] => l1
  | a :: l1, b :: l2 => if b.recv > a.recv then a :: merge l1 (b :: l2) else b :: merge (a :: l1) l2

/-- llc.c:181-234 `llc_queue_move_and_merge`: the new queue and the emptied one. -/
def moveAndMerge (q o : Queue) : Queue × Queue :=
  let l i := merge (q.pq i) (o.pq i)
  ({ q with
     pq := fun i => if i < nprio then l i else q.pq i
     size := (List.range nprio).foldl (fun n i => n + (l i).length) 0
     octets := (List.range nprio).foldl (fun n i => (l i).foldl (fun n f => n + f.data.length) n) 0 },
   { o with pq := fun _ => [], size := 0, octets := 0 })

/-- llc.c:236-254 `llc_queue_merge_prepend`; `f`, `p` as returned by `dequeue`. -/
def prepend (q : Queue) (f : Frame) (p : Nat) : Queue :=
  { q with
    size := q.size + 1
    octets := q.octets + f.data.length
    pq := upd q.pq p (f :: q.pq p) }

/-- llc.c:266-271: the first non-empty priority. -/
def firstPrio (q : Queue) : Nat → Nat → Option Nat
  | 0, _ => none
  | n + 1, i => if q.pq i = [] then firstPrio q n (i + 1) else some i

/-- llc.c:258-288 `llc_queue_pick_msg`. -/
def pick (q : Queue) : Option (Queue × Frame × Nat) :=
  match firstPrio q nprio 0 with
  | none => none
  | some p =>
    match q.pq p with
    | [] => none
    | f :: l => some ({ q with pq := upd q.pq p l, size := q.size - 1, octets := q.octets - f.data.length }, f, p)

/-- llc.c:85-101 `llc_pdu_can_be_discarded`. -/
def canBeDiscarded (d : List Nat) : Bool :=
  if d.length ≤ 60 then false
  else if d.headD 0 &&& 0x0f = 1 then false
  else if d.headD 0 &&& 0xe0 ≠ 0xc0 then false
  else true

/-- llc.c:397-404 `llc_queue_is_frame_expired`. -/
def expired (now : Int) (expire : Int) : Bool := if expire = 0 then false else now > expire

/-- llc.c:307-346: loop of `llc_queue_dequeue`. `frames`: discarded so far. The result has the
discarded frames and the one to send with its priority. -/
def dequeueLoop (now hyst : Int) : Nat → Queue → List Frame → Queue × List Frame × Option (Frame × Nat)
  | 0, q, dropped => (q, dropped, none)
  | n + 1, q, dropped =>
    match pick q with
    | none => (q, dropped, none)
    | some (q1, f, p) =>
      let c := Codel.control (q1.codel p) (some f.recv) now q1.octets                 -- 314-318
      let q2 := if q1.useCodel then { q1 with codel := upd q1.codel p c.1 } else q1
      if q1.useCodel && c.2 then dequeueLoop now hyst n q2 (dropped ++ [f])
      else if !expired (now + hyst) f.expire then (q2, dropped, some (f, p))           -- 321-322
      else if !expired now f.expire && (dropped = [] || !canBeDiscarded f.data) then   -- 325-337
        (q2, dropped, some (f, p))
      else dequeueLoop now hyst n q2 (dropped ++ [f])

/-- llc.c:290-373 `llc_queue_dequeue`; `hyst` from `llc_discard_csec`. The loop ends at the
latest when the queue is empty. -/
def dequeue (now hyst : Int) (q : Queue) : Queue × List Frame × Option (Frame × Nat) :=
  dequeueLoop now hyst (q.size + 1) q []

/-- llc.c:375-395 `llc_queue_calc_pdu_lifetime`: expiry time for a frame with a lifetime in
centiseconds; `force` is the operator setting (0: none). -/
def lifetime (force csec : Nat) (now : Int) : Int :=
  let d := if force ≠ 0 then force else csec
  if d = 0xffff then 0 else now + d * 10000000

end Verif.Llc
