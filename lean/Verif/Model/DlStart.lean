import Verif.Model.TbfFsm
/-!
# When a mobile gets a downlink TBF

One mobile with its downlink queue and all its TBFs (`src/gprs_ms.c`, `src/gprs_ms.h`, `src/pdch.cpp`,
`src/tbf_ul.cpp`, `src/tbf_ul_fsm.c`, `src/tbf_dl_fsm.c`): the state machines of the TBFs are those of
`Verif.Model.TbfFsm`; here is what they do to other TBFs of the same mobile. `none` is a failed
`OSMO_ASSERT`.

Simplifications. The queue is the number of its frames. Whether an allocation succeeds is an argument
(the algorithm is in `Verif.Model.AllocAlgo`); memory is never short. When records are merged the TBFs
that stay with the record which lost its TLLI are left out.
-/

namespace Verif.Start
open Verif.Tbf

/-- Which TBF of the mobile; the older ones (`ms->old_tbfs`) are numbered. -/
inductive Who where
  | ul
  | dl
  | oldUl (i : Nat)
  | oldDl (i : Nat)
deriving DecidableEq, Repr

/-- `struct GprsMs`, src/gprs_ms.h:64-122: queue, current and older TBFs. `log`: the assignments of
downlink TBFs started so far, the last one first: on the PCH (`none`) or on the PACCH of a TBF. -/
structure Mob where
  queue : Nat := 0
  ul : Option Ul := none
  dl : Option Dl := none
  oldUl : List Ul := []
  oldDl : List Dl := []
  log : List (Option Who) := []
deriving DecidableEq, Repr

/-- Result of an allocation: failed, or whether the TBF can be upgraded to more slots later. -/
abbrev Res := Option Bool

/-- Configured limits. -/
structure Cfg where
  ul : Lim
  n3105 : Nat

/-- `ms_need_dl_tbf`, src/gprs_ms.h:160-184. -/
def need (m : Mob) : Bool :=
  (match m.dl with
    | none => true
    | some d => d.st == .waitReuse || d.st == .releasing) && decide (0 < m.queue)

/-- `ms_is_reachable_for_dl_ass`, src/gprs_ms.c:1091-1124. -/
def reachable (m : Mob) : Option Bool :=
  match m.dl.map (·.st) with
  | none | some .waitReuse =>
    match m.ul with
    | none => some true
    | some u => some (u.cr && u.ulAck != .wait && u.st != .releasing)
  | _ => none

/-- The TBF has to send a Packet Downlink Assignment: src/tbf_dl.cpp:464-478
`dl_tbf_trigger_ass_on_pacch`. -/
def sched (m : Mob) : Who → Option Mob
  | .ul =>
    match m.ul with
    | none => none
    | some u => (u.dlAss.dispatch .sched).map fun a => { m with ul := some { u with dlAss := a } }
  | .dl =>
    match m.dl with
    | none => none
    | some d => (d.dlAss.dispatch .sched).map fun a => { m with dl := some { d with dlAss := a } }
  | .oldUl i =>
    match m.oldUl[i]? with
    | none => none
    | some u => (u.dlAss.dispatch .sched).map fun a =>
        { m with oldUl := m.oldUl.set i { u with dlAss := a } }
  | .oldDl i =>
    match m.oldDl[i]? with
    | none => none
    | some d => (d.dlAss.dispatch .sched).map fun a =>
        { m with oldDl := m.oldDl.set i { d with dlAss := a } }

/-- `ms_attach_dl_tbf`, src/gprs_ms.c:346-356: the TBF so far becomes an older one. -/
def attachDl (m : Mob) (d : Dl) (via : Option Who) : Mob :=
  { m with
    dl := some d
    oldDl := m.oldDl ++ m.dl.toList.map fun o => { o with sup := true }
    log := via :: m.log }

/-- `ms_attach_ul_tbf`, src/gprs_ms.c:334-344. -/
def attachUl (m : Mob) (u : Ul) : Mob := { m with ul := some u, oldUl := m.oldUl ++ m.ul.toList }

/-- `ms_new_dl_tbf_assigned_on_pacch`, src/gprs_ms.c:1268-1313. -/
def onPacch (m : Mob) (w : Who) (r : Res) : Option Mob :=
  match r with
  | none => some m
  | some upg =>
    (sched m w).bind fun m => (dlDispatch {} { upg := upg } .addPacch).map fun d => attachDl m d (some w)

/-- `ms_new_dl_tbf_assigned_on_pch`, src/gprs_ms.c:1318-1362. -/
def onPch (m : Mob) (r : Res) : Option Mob :=
  match r with
  | none => some m
  | some upg => (dlDispatch {} { upg := upg } .addCcch).map fun d => attachDl m d none

/-- `ms_append_llc_dl_data`, src/gprs_ms.c:1400-1409: no downlink TBF can be used. -/
def reach (m : Mob) (r : Res) : Option Mob :=
  (reachable m).bind fun b =>
    if b then (if m.ul.isSome then onPacch m .ul r else onPch m r) else some m

/-- `ms_append_llc_dl_data`, src/gprs_ms.c:1364-1410. -/
def frame (m : Mob) (r : Res) : Option Mob :=
  match m.dl with
  | none => reach { m with queue := m.queue + 1 } r
  | some d =>
    match d.st with
    | .waitRelease => onPacch { m with queue := m.queue + 1 } .dl r
    | .waitReuse => reach { m with queue := m.queue + 1 } r
    | _ => some { m with queue := m.queue + 1 }

/-- `rcv_control_ack` after the answer to a Packet Uplink Assignment, src/pdch.cpp:396-412: the uplink
TBF of the mobile is confirmed. -/
def ulConfirmed (c : Cfg) (m : Mob) (r : Res) : Option Mob :=
  match m.ul with
  | none => some m
  | some u => (ulStep c.ul u (.ev .ackPacch) {}).bind fun u' =>
      if need { m with ul := some u' } then onPacch { m with ul := some u' } .ul r
      else some { m with ul := some u' }

/-- `rcv_control_ack` after the answer to a Packet Downlink Assignment, src/pdch.cpp:427-440: the
downlink TBF of the mobile is confirmed. -/
def dlConfirmed (c : Cfg) (m : Mob) : Option Mob :=
  match m.dl with
  | none => some m
  | some d => (dlStep c.n3105 d (.ev .ackPacch) {}).map fun d' => { m with dl := some d' }

/-- Something happens to the uplink TBF. In a Packet Control Acknowledgement the uplink TBF that is
confirmed is the TBF itself; the block that announces the TLLI is in `access`. Besides what `ulStep` does to the TBF: contention resolution (src/tbf_ul.cpp:238-242), the
confirmed assignment (src/pdch.cpp:407-411) and the confirmed final acknowledgement
(src/tbf_ul_fsm.c:232-253) start one. -/
def stepUl (c : Cfg) (m : Mob) (op : UlOp) (r : Res) : Option Mob :=
  match m.ul with
  | none => some m
  | some u =>
    let op' : UlOp := match op with
      | .ctrlAck p _ => .ctrlAck p true
      | o => o
    (ulStep c.ul u op' {}).bind fun u' =>
      if u'.freed then
        match op with
        | .ctrlAck .. =>
          if need { m with ul := none } then onPch { m with ul := none } r else some { m with ul := none }
        | _ => some { m with ul := none }
      else
        match op with
        | .createAck .. =>
          if u'.cr && !u.cr && u'.ulAck != .wait && need { m with ul := some u' }
            then onPacch { m with ul := some u' } .ul r
            else some { m with ul := some u' }
        | .ctrlAck .ulAss _ =>
          if u.ulAss.st = .wait ∧ need { m with ul := some u' } = true
            then onPacch { m with ul := some u' } .ul r
            else some { m with ul := some u' }
        | .ctrlAck .dlAss _ =>
          if u.dlAss = .wait then dlConfirmed c { m with ul := some u' } else some { m with ul := some u' }
        | _ => some { m with ul := some u' }

/-- Something happens to an older uplink TBF: the same, but what is confirmed is the current one. -/
def stepOldUl (c : Cfg) (m : Mob) (i : Nat) (op : UlOp) (r : Res) : Option Mob :=
  match m.oldUl[i]? with
  | none => some m
  | some u =>
    let op' : UlOp := match op with
      | .ctrlAck p _ => .ctrlAck p false
      | o => o
    (ulStep c.ul u op' {}).bind fun u' =>
      if u'.freed then
        let m1 := { m with oldUl := m.oldUl.eraseIdx i }
        match op with
        | .ctrlAck .. => if need m1 then onPch m1 r else some m1
        | _ => some m1
      else
        let m1 := { m with oldUl := m.oldUl.set i u' }
        match op with
        | .createAck .. =>
          if u'.cr && !u.cr && u'.ulAck != .wait && need m1 then onPacch m1 (.oldUl i) r else some m1
        | .ctrlAck .ulAss _ => if u.ulAss.st = .wait then ulConfirmed c m1 r else some m1
        | .ctrlAck .dlAss _ => if u.dlAss = .wait then dlConfirmed c m1 else some m1
        | _ => some m1

/-- `tbf_dl_fsm_timer_cb`, src/tbf_dl_fsm.c:424-434: when X2001 runs out the assignment that the uplink
TBF is to send is aborted. -/
def abortAss (m : Mob) : Option Mob :=
  match m.ul with
  | none => some m
  | some u => (u.dlAss.dispatch .abort).map fun a => { m with ul := some { u with dlAss := a } }

/-- Something happens to the downlink TBF. Besides what `dlStep` does to the TBF: the final
acknowledgement starts the next one if frames wait (src/tbf_dl_fsm.c:289-293); the answer to a Packet
Uplink Assignment confirms the uplink TBF. -/
def stepDl (c : Cfg) (m : Mob) (op : DlOp) (r : Res) : Option Mob :=
  match m.dl with
  | none => some m
  | some d =>
    (dlStep c.n3105 d op { more := false, upgOk := r.isSome }).bind fun d' =>
      if d'.freed then
        if op = .timer ∧ d.tmr = some .x2001 then abortAss { m with dl := none }
        else some { m with dl := none }
      else if d.st ≠ .waitRelease ∧ d'.st = .waitRelease ∧ 0 < m.queue then
        onPacch { m with dl := some d' } .dl r
      else
        match op with
        | .ctrlAck .ulAss _ =>
          if d.ulAss.st = .wait then ulConfirmed c { m with dl := some d' } r
          else some { m with dl := some d' }
        | _ => some { m with dl := some d' }

/-- Something happens to an older downlink TBF: what it assigned, and is confirmed, is the current
one. -/
def stepOldDl (c : Cfg) (m : Mob) (i : Nat) (op : DlOp) (r : Res) : Option Mob :=
  match m.oldDl[i]? with
  | none => some m
  | some d =>
    let op' : DlOp := match op with
      | .ctrlAck p _ => .ctrlAck p m.dl.isSome
      | o => o
    (dlStep c.n3105 d op' { more := false, upgOk := r.isSome }).bind fun d' =>
      let m1 := if d'.freed then { m with oldDl := m.oldDl.eraseIdx i }
        else { m with oldDl := m.oldDl.set i d' }
      if d'.freed then
        match op with
        | .ctrlAck .dlAss _ => dlConfirmed c m1
        | .timer => if d.tmr = some .x2001 then abortAss m1 else some m1
        | _ => some m1
      else if d.st ≠ .waitRelease ∧ d'.st = .waitRelease ∧ 0 < m.queue then onPacch m1 (.oldDl i) r
      else
        match op with
        | .ctrlAck .ulAss _ => if d.ulAss.st = .wait then ulConfirmed c m1 r else some m1
        | .ctrlAck .dlAss _ => if d.dlAss = .wait then dlConfirmed c m1 else some m1
        | _ => some m1

/-- `ms_new_ul_tbf_assigned_pacch` or `ms_new_ul_tbf_rejected_pacch` at the end of
`rcv_resource_request`, src/pdch.cpp:805-826, src/gprs_ms.c:1120-1180, 1230-1262. -/
def newUl (m : Mob) (ok : Bool) : Option Mob :=
  (ulDispatch {} {} .addPacch).bind fun u =>
    (u.ulAss.dispatch true (u.st == .assign) (if ok then .sched else .schedRej)).map fun a =>
      attachUl m { u with ulAss := a }

/-- The uplink block a Packet Resource Request is received in. -/
inductive Block where
  /-- Granted by USF to the uplink TBF. -/
  | usf
  /-- A single block given on the AGCH. -/
  | single
  /-- Promised for the confirmation of the final acknowledgement. -/
  | poll
  /-- The same of an older uplink TBF. -/
  | oldPoll (i : Nat)
deriving DecidableEq, Repr

/-- `rcv_resource_request`, src/pdch.cpp:678-830. -/
def request (m : Mob) (b : Block) (ok : Bool) : Option Mob :=
  match b with
  | .usf => newUl { m with ul := none } ok
  | .single => newUl { m with ul := none, dl := none } ok
  | .poll => newUl { m with ul := none } ok
  | .oldPoll i => newUl { m with oldUl := m.oldUl.eraseIdx i } ok

/-- `sched_ul_ass_or_rej`, src/pdch.cpp:116-131: the mobile asks for an uplink TBF in a Packet Downlink
Ack/Nack. -/
def channelRequest (m : Mob) (ok : Bool) : Option Mob :=
  match m.dl with
  | none => some m
  | some d =>
    (if ok then (ulDispatch {} {} .addPacch).map (attachUl m) else some m).bind fun m1 =>
      (d.ulAss.dispatch false (d.st == .assign) (if ok then .sched else .schedRej)).map fun a =>
        { m1 with dl := some { d with ulAss := a } }

/-- The mobile gives its TLLI in the first block on an uplink TBF assigned on the AGCH: the queue of the
record it had is moved to the record of that TBF, with `back` frames that were not yet acknowledged
(`ms_merge_and_clear_ms`, src/gprs_ms.c:452-490; src/tbf_ul.cpp:357-366; src/tbf_ul_fsm.c:187-204). -/
def access (c : Cfg) (m : Mob) (u : Ul) (complete cv0 req : Bool) (back : Nat) : Option Mob :=
  (ulStep c.ul u (.data true complete cv0 req) {}).map fun u' =>
    { queue := m.queue + back, ul := some u', dl := none, oldUl := [], oldDl := [], log := m.log }

/-- Everything that happens to the mobile. -/
inductive Op where
  /-- The SGSN sends a frame. -/
  | frame (r : Res)
  /-- A frame leaves the queue: it is sent, or discarded. -/
  | take
  | ul (op : UlOp) (r : Res)
  | dl (op : DlOp) (r : Res)
  | oldUl (i : Nat) (op : UlOp) (r : Res)
  | oldDl (i : Nat) (op : DlOp) (r : Res)
  | request (b : Block) (ok : Bool)
  | channelRequest (ok : Bool)
  | access (u : Ul) (complete cv0 req : Bool) (back : Nat)
deriving Repr

def step (c : Cfg) (m : Mob) : Op → Option Mob
  | .frame r => frame m r
  | .take => some { m with queue := m.queue - 1 }
  | .ul op r => stepUl c m op r
  | .dl op r => stepDl c m op r
  | .oldUl i op r => stepOldUl c m i op r
  | .oldDl i op r => stepOldDl c m i op r
  | .request b ok => request m b ok
  | .channelRequest ok => channelRequest m ok
  | .access u co cv q n => access c m u co cv q n

end Verif.Start
