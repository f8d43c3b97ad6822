import Verif.Model.MsStore
import Verif.Spec.LlcQueue
/-!
# Histories of mobiles

Used by C33, C42 and C43: announcements of TLLIs, LLC frames handed to a downlink TBF, and the
operations on the list of mobiles.
-/

namespace Verif.Store

open Verif.Llc (Frame Queue)

/-- A TLLI is announced by the mobile (`ul`) or by the SGSN (`dl`). -/
inductive Ev
  | ul (t : Nat)
  | dl (t : Nat)
  deriving DecidableEq

/-- The TLLI of an announcement. -/
def Ev.tlli : Ev → Nat
  | .ul t => t
  | .dl t => t

/-- The same announcement by the other side. -/
def Ev.other : Ev → Ev
  | .ul t => .dl t
  | .dl t => .ul t

/-- Announced by the mobile. -/
def Ev.isUl : Ev → Bool
  | .ul _ => true
  | .dl _ => false

def Mob.on (m : Mob) : Ev → Mob
  | .ul t => m.setTlli t
  | .dl t => m.confirmTlli t

def Mob.run (m : Mob) (evs : List Ev) : Mob := evs.foldl Mob.on m

/-- No change of TLLI is under way. -/
def Mob.Settled (m : Mob) : Prop := m.newUl = noTlli ∧ m.newDl = noTlli

/-- All TLLIs of a sequence are proper ones. -/
def Proper (evs : List Ev) : Prop := ∀ e ∈ evs, e.tlli ≠ noTlli

/-- Queue and downlink TBF of a mobile, with the frames handed to this TBF and not acknowledged yet,
in order. A report `ack keep` completes the acknowledgement of the frames that are not kept; the
frame in transmission cannot be among them. -/
inductive LlcHist : Queue → DlTbf → List (Frame × Nat) → Prop
  | start (q : Queue) (timers : Bool) : LlcHist q { timers := timers } []
  | enq {q t u} (data : List Nat) (now expire : Int) : LlcHist q t u → LlcHist (Llc.enqueue q data now expire) t u
  | sched {q t u} (now hyst : Int) : LlcHist q t u → t.tx = none →
      LlcHist (schedNext now hyst q t).1 (schedNext now hyst q t).2 (u ++ (Llc.dequeue now hyst q).2.2.toList)
  | dummy {q t u} (n : Nat) : LlcHist q t u → t.tx = none → LlcHist q (putDummy n t) (u ++ [dummy n])
  | complete {q t u} : LlcHist q t u → LlcHist q (complete t) u
  | ack {q t u} (keep : Frame × Nat → Bool) : LlcHist q t u → (∀ x, t.tx = some x → keep x = true) →
      LlcHist q (dlAck t) (u.filter keep)
  | timers {q t u} (b : Bool) : LlcHist q t u → LlcHist q { t with timers := b } u

/-- Operations on the mobiles of a BTS. -/
inductive Op
  /-- downlink PDU from the SGSN -/
  | pdu (p : Pdu)
  /-- block with a TLLI on a TBF of mobile `i` -/
  | announce (i t : Nat)
  /-- Packet Resource Request with a TLLI -/
  | resource (t : Nat) (att : Option Bool)
  /-- Packet Measurement Report -/
  | meas (t : Nat)
  /-- access burst: new mobile with an uplink TBF -/
  | access
  /-- new TBF for mobile `i` -/
  | attachDl (i : Nat) (timers : Bool)
  | attachUl (i : Nat) (timers : Bool)
  /-- the uplink/downlink/an old TBF of mobile `i` is freed -/
  | freeUl (i : Nat)
  | freeDl (i : Nat)
  | freeOld (i n : Nat)
  /-- LLC frames move between the queue of mobile `i` and its downlink TBF -/
  | llc (i : Nat) (q : Queue) (t : DlTbf)
  /-- the release timer of mobile `i` runs out -/
  | release (i : Nat)

/-- Effect of an operation. -/
def step (k : Clock) (codel : Nat) (s : St) : Op → Option St
  | .pdu p => dlHandle k codel s p
  | .announce i t => Store.announce k s i t
  | .resource t att => some (resourceReq k codel s t att)
  | .meas t => some (measReport k codel s t)
  | .access => let a := alloc s codel 0; some (modify a.1 a.2 (·.attachUl true))
  | .attachDl i b => some (modify s i (·.attachDl b))
  | .attachUl i b => some (modify s i (·.attachUl b))
  | .freeUl i => some (checkIdle k (modify s i fun m => { m with ul := none }) i)
  | .freeDl i => some (checkIdle k (modify s i fun m => { m with dl := none }) i)
  | .freeOld i n => some (checkIdle k (modify s i fun m => { m with old := m.old.eraseIdx n }) i)
  | .llc i q t => some (modify s i fun m => { m with q := q, dl := m.dl.map fun _ => t })
  | .release i => some (match get? s i with
      | some m => (match m.releasing with | some d => if d ≤ k.now then free s i else s | none => s)
      | none => s)

/-- Histories: the operations happen at any time and with any value of timer X2030. -/
inductive Hist (codel : Nat) (ok : St → Op → Prop) : St → Prop
  | init : Hist codel ok ⟨[], 0⟩
  | step {s s'} (k : Clock) (op : Op) : Hist codel ok s → ok s op → step k codel s op = some s' → Hist codel ok s'

/-- A downlink PDU has a proper TLLI, and its TLLI and old TLLI are not known for two different
mobiles. -/
def Orderly (s : St) : Op → Prop
  | .pdu p => p.tlli ≠ noTlli ∧
      ∀ a ∈ s.ms, ∀ b ∈ s.ms, a.2.check p.tlli = true → b.2.check p.old = true → a.1 = b.1
  | _ => True

end Verif.Store
