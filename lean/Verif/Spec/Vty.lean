import Verif.Model.Vty
/-!
# Configuration files: what is expected

Independent of how lines are matched, executed and written.
-/

namespace Verif.Vty

/-- The configurations a PCU can have: it starts with a file that is read without error, then commands are typed that are not refused. -/
inductive Reach : Cfg → Prop where
  | boot {file c} : boot file = some c → Reach c
  | typed {c line c'} : Reach c → exec c line = some c' → Reach c'

/-- The values a user may expect from the ranges in the manual. -/
structure Valid (c : Cfg) : Prop where
  fcInterval : 1 ≤ c.fcInterval ∧ c.fcInterval ≤ 10
  fcBucketTime : c.fcBucketTime ≤ 65534
  fcBvcSize : c.fcBvcSize ≤ 6553500
  fcBvcRate : c.fcBvcRate ≤ 6553500
  fcMsSize : c.fcMsSize ≤ 6553500
  fcMsRate : c.fcMsRate ≤ 6553500
  cs : (c.forceCs = true ∧ 1 ≤ c.csDl ∧ c.csDl ≤ 4 ∧ 1 ≤ c.csUl ∧ c.csUl ≤ 4) ∨ (c.forceCs = false ∧ c.csDl = 0 ∧ c.csUl = 0)
  mcs : (c.forceMcs = true ∧ 1 ≤ c.mcsDl ∧ c.mcsDl ≤ 9 ∧ 1 ≤ c.mcsUl ∧ c.mcsUl ≤ 9) ∨ (c.forceMcs = false ∧ c.mcsDl = 0 ∧ c.mcsUl = 0)
  maxCs : (1 ≤ c.maxCsDl ∧ c.maxCsDl ≤ 4 ∧ 1 ≤ c.maxCsUl ∧ c.maxCsUl ≤ 4) ∨ (c.maxCsDl = 0 ∧ c.maxCsUl = 0)
  maxMcs : (1 ≤ c.maxMcsDl ∧ c.maxMcsDl ≤ 9 ∧ 1 ≤ c.maxMcsUl ∧ c.maxMcsUl ≤ 9) ∨ (c.maxMcsDl = 0 ∧ c.maxMcsUl = 0)
  twoPhase : c.twoPhase ≤ 1
  alpha : c.alpha ≤ 10 ∨ c.alpha = 255
  gamma : c.gamma ≤ 31
  adj : (c.adj = true ∧ c.adjLo ≤ c.adjHi ∧ c.adjHi ≤ 100) ∨ (c.adj = false ∧ c.adjLo = 0 ∧ c.adjHi = 100)
  downgrade : c.downgrade ≤ 10000
  csLq : c.c1h ≤ 35 ∧ c.c2l ≤ 35 ∧ c.c2h ≤ 35 ∧ c.c3l ≤ 35 ∧ c.c3h ≤ 35 ∧ c.c4l ≤ 35
  mcsLq1 : c.m1h ≤ 35 ∧ c.m2l ≤ 35 ∧ c.m2h ≤ 35 ∧ c.m3l ≤ 35 ∧ c.m3h ≤ 35 ∧ c.m4l ≤ 35 ∧ c.m4h ≤ 35 ∧ c.m5l ≤ 35
  mcsLq2 : c.m5h ≤ 35 ∧ c.m6l ≤ 35 ∧ c.m6h ≤ 35 ∧ c.m7l ≤ 35 ∧ c.m7h ≤ 35 ∧ c.m8l ≤ 35 ∧ c.m8h ≤ 35 ∧ c.m9l ≤ 35
  dscp : ∀ v, c.dscp = some v → v ≤ 63
  prio : ∀ v, c.prio = some v → v ≤ 255
  wsBase : c.wsBase ≤ 1024
  wsPdch : c.wsPdch ≤ 256
  msclass : 1 ≤ c.msclass ∧ c.msclass ≤ 45
  lifetime : c.lifetime ≤ 65535
  discard : c.discard ≤ 65535
  idleAck : c.idleAck ≤ 65535
  codel : c.codel = 4294967295 ∨ c.codel = 0 ∨ ∃ csec, 1 ≤ csec ∧ csec ≤ 1000 ∧ c.codel = 10 * csec
  timers : ∀ name, c.timers name ≤ 2147483647
  t3172 : c.timers "T3172" ≤ 255000
  unknown : ∀ name, tdef name = none → c.timers name = 0

/-- The kinds of frames that can be chosen for GSMTAP (gprs_pcu.h:50-67); nothing asks for the other bits. -/
def kinds : List Nat := [0, 1, 2, 3, 4, 5, 6, 7, 15, 16, 17, 18, 19, 20, 21]

/-- The same settings: all of them are equal, and the same kinds of frames go to GSMTAP. -/
def Same (a b : Cfg) : Prop := { a with mask := 0 } = { b with mask := 0 } ∧ ∀ i ∈ kinds, a.mask.getLsbD i = b.mask.getLsbD i

/-- The configuration after the file was written and the PCU was started with it: the target of the queueing time is lost; where the largest
coding schemes or the delay of the idle acknowledgement were switched off they are back at the default. -/
def restarted (c : Cfg) : Cfg :=
  { c with
    fcBucketTime := 0
    maxCsDl := if c.maxCsDl = 0 then 4 else c.maxCsDl
    maxCsUl := if c.maxCsUl = 0 then 4 else c.maxCsUl
    maxMcsDl := if c.maxMcsDl = 0 then 9 else c.maxMcsDl
    maxMcsUl := if c.maxMcsUl = 0 then 9 else c.maxMcsUl
    idleAck := if c.idleAck = 0 then 10 else c.idleAck
    mask := c.mask &&& 0x3f80ff#32 }

end Verif.Vty
