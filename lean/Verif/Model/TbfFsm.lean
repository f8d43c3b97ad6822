/-!
# Model of the TBF state machines

Source: `src/tbf_fsm.h`, `src/tbf_dl_fsm.c`, `src/tbf_ul_fsm.c`,
`src/tbf_dl_ass_fsm.c`, `src/tbf_ul_ass_fsm.c`, `src/tbf_ul_ack_fsm.c`,
`src/tbf.cpp` (counters and poll timeouts), `src/pdch.cpp` (confirmations).

Conventions.
* Every function that can reach an `OSMO_ASSERT`, or ask the FSM library for a state
  change that the table does not permit, returns `Option`; `none` is that failure.
* `freed` records that `tbf_free()` was called; after that nothing happens any more.
* The FSM library (libosmocore, trusted) drops an event that is not in the
  `in_event_mask` of the current state, and on a state change stops the timer unless the
  timeout table says `keep_timer`, arms the timer of the new state, then runs `onenter`.
* What the rest of the PCU decides (is more data queued, is there a free poll slot, does
  a reallocation succeed) is an argument of the operation, so the theorems hold for every
  such decision.
-/

namespace Verif.Tbf

/-- `enum tbf_fsm_states`, src/tbf_fsm.h:47-57. -/
inductive St where
  | new | assign | flow | finished | waitRelease | waitReuse | releasing
deriving DecidableEq, Repr, Inhabited

/-- `enum tbf_fsm_event`, src/tbf_fsm.h:28-45. -/
inductive Ev where
  | addCcch | addPacch | ackPacch | maxN3105 | readyCcch | pcuifCnf | dlAcknackMiss
  | lastDlSent | finalAckRecvd | firstUlData | contentionOk | lastUlData
  | finalUlAckConfirmed | maxN3101 | maxN3103
deriving DecidableEq, Repr

/-- Timers used by the state machines (`fi->T`). -/
inductive Tmr where
  | x2000 | x2001 | x2002 | t3168 | t3169 | t3192 | t3193 | t3195
deriving DecidableEq, Repr

/-! ## Downlink assignment procedure (tbf_dl_ass_fsm.c) -/

/-- `enum tbf_dl_ass_fsm_states`, src/tbf_dl_ass_fsm.h. -/
inductive DlAss where
  | idle | send | wait
deriving DecidableEq, Repr, Inhabited

inductive DlAssEv where
  | sched | create | ctrlAck | pollTimeout | abort
deriving DecidableEq, Repr

/-- What building a control message yields: the message; no free poll slot (or out of
memory, or an encoding failure); nothing left to assign. -/
inductive Made where
  | msg | noPoll | noTarget
deriving DecidableEq, Repr

/-- `tbf_dl_ass_fsm_states[].in_event_mask`, src/tbf_dl_ass_fsm.c:208-238. -/
def DlAss.inMask : DlAss → DlAssEv → Bool
  | .idle, e => e == .sched
  | .send, e => e == .create || e == .abort
  | .wait, e => e == .ctrlAck || e == .pollTimeout || e == .abort

/-- `tbf_dl_ass_fsm_states[].out_state_mask`, src/tbf_dl_ass_fsm.c:208-238. -/
def DlAss.outMask : DlAss → DlAss → Bool
  | .idle, n => n == .send
  | .send, n => n == .wait || n == .idle
  | .wait, n => n == .idle || n == .send

/-- `tbf_dl_ass_fsm_state_chg` (no timers), src/tbf_dl_ass_fsm.c:50-56. -/
def DlAss.chg (s n : DlAss) : Option DlAss := if s.outMask n then some n else none

/-- `st_none`, `st_send_ass`, `st_wait_ack` with the result of
`create_packet_dl_assign`, src/tbf_dl_ass_fsm.c:58-197. -/
def DlAss.action (s : DlAss) (e : DlAssEv) (m : Made) : Option DlAss :=
  match s, e with
  | .idle, .sched => s.chg .send
  | .send, .create =>
    match m with
    | .msg => s.chg .wait
    | .noPoll => some s
    | .noTarget => s.chg .idle
  | .send, .abort => s.chg .idle
  | .wait, .ctrlAck => s.chg .idle
  | .wait, .pollTimeout => s.chg .send
  | .wait, .abort => s.chg .idle
  | _, _ => none

/-- `osmo_fsm_inst_dispatch` on the downlink assignment FSM. -/
def DlAss.dispatch (s : DlAss) (e : DlAssEv) (m : Made := .noPoll) : Option DlAss :=
  if s.inMask e then s.action e m else some s

/-! ## Uplink assignment procedure (tbf_ul_ass_fsm.c) -/

/-- `enum tbf_ul_ass_fsm_states`, src/tbf_ul_ass_fsm.h. -/
inductive UaSt where
  | idle | send | rej | wait
deriving DecidableEq, Repr, Inhabited

inductive UaEv where
  | sched | schedRej | create | ctrlAck | pollTimeout | abort
deriving DecidableEq, Repr

/-- The FSM instance with its timer. -/
structure UlAss where
  st : UaSt := .idle
  tmr : Option Tmr := none
deriving DecidableEq, Repr, Inhabited

/-- `tbf_ul_ass_fsm_states[].in_event_mask`, src/tbf_ul_ass_fsm.c:316-359. -/
def UaSt.inMask : UaSt → UaEv → Bool
  | .idle, e => e == .sched || e == .schedRej || e == .abort
  | .send, e => e == .create || e == .abort
  | .rej, e => e == .create || e == .abort
  | .wait, e => e == .ctrlAck || e == .pollTimeout || e == .abort

/-- `tbf_ul_ass_fsm_states[].out_state_mask`, src/tbf_ul_ass_fsm.c:316-359. -/
def UaSt.outMask : UaSt → UaSt → Bool
  | .idle, n => n == .send || n == .rej
  | .send, n => n == .wait || n == .idle
  | .rej, n => n == .idle
  | .wait, n => n == .idle || n == .send

/-- `tbf_ul_ass_fsm_state_chg` with `tbf_ul_ass_fsm_timeouts` (timer kept in SEND_ASS and
WAIT_ACK, src/tbf_ul_ass_fsm.c:40-58), `st_none_on_enter` (153-182) and
`st_send_ass_on_enter` (201-225).  `isUl`: the TBF that owns the FSM is an uplink TBF. -/
def UlAss.chg (isUl : Bool) (s : UlAss) (n : UaSt) : Option UlAss :=
  if s.st.outMask n then
    some {
      st := n
      tmr :=
        match n with
        | .idle => if s.st == .rej && isUl then some .x2000 else none
        | .send => if s.st == .idle then some .t3168 else s.tmr
        | .wait => s.tmr
        | .rej => none }
  else none

/-- `st_none`, `st_send_ass`, `st_send_ass_rej`, `st_wait_ack` with the result of
`create_packet_ul_assign`, src/tbf_ul_ass_fsm.c:83-300.  `inAssign`: the main state of
the owning TBF is ASSIGN. -/
def UlAss.action (isUl inAssign : Bool) (s : UlAss) (e : UaEv) (m : Made) : Option UlAss :=
  match s.st, e with
  | .idle, .sched => s.chg isUl .send
  | .idle, .schedRej => s.chg isUl .rej
  | .idle, .abort => some s
  | .send, .create =>
    match m with
    | .msg => s.chg isUl .wait
    | .noPoll => some s
    | .noTarget => s.chg isUl .idle
  | .send, .abort => s.chg isUl .idle
  | .rej, .create => if m == .msg then s.chg isUl .idle else some s
  | .rej, .abort => s.chg isUl .idle
  | .wait, .ctrlAck => s.chg isUl .idle
  | .wait, .pollTimeout => if inAssign then s.chg isUl .send else s.chg isUl .idle
  | .wait, .abort => some s
  | _, _ => none

/-- `osmo_fsm_inst_dispatch` on the uplink assignment FSM. -/
def UlAss.dispatch (isUl inAssign : Bool) (s : UlAss) (e : UaEv) (m : Made := .noPoll) :
    Option UlAss :=
  if s.st.inMask e then s.action isUl inAssign e m else some s

/-! ## Uplink acknowledgement procedure (tbf_ul_ack_fsm.c) -/

/-- `enum tbf_ul_ack_fsm_states`, src/tbf_ul_ack_fsm.h. -/
inductive UlAck where
  | idle | sched | wait
deriving DecidableEq, Repr, Inhabited

inductive UkEv where
  | sched | create | ctrlAck | pollTimeout
deriving DecidableEq, Repr

/-- `tbf_ul_ack_fsm_states[].in_event_mask`, src/tbf_ul_ack_fsm.c:193-223. -/
def UlAck.inMask : UlAck → UkEv → Bool
  | .idle, e => e == .sched
  | .sched, e => e == .sched || e == .create
  | .wait, e => e == .sched || e == .ctrlAck || e == .pollTimeout

/-- `tbf_ul_ack_fsm_states[].out_state_mask`, src/tbf_ul_ack_fsm.c:193-223. -/
def UlAck.outMask : UlAck → UlAck → Bool
  | .idle, n => n == .sched
  | .sched, n => n == .idle || n == .wait
  | .wait, n => n == .idle || n == .sched

/-- `tbf_ul_ack_fsm_state_chg` (no timers). -/
def UlAck.chg (s n : UlAck) : Option UlAck := if s.outMask n then some n else none

/-- `st_none`, `st_sched_ul_ack`, `st_wait_ctrl_ack`, src/tbf_ul_ack_fsm.c:98-182, without
the contention resolution event (see `ulCreateAck`).  `final`: the TBF is FINISHED;
`made`: `create_ul_ack_nack` returned a message. -/
def UlAck.action (final made : Bool) (s : UlAck) (e : UkEv) : Option UlAck :=
  match s, e with
  | .idle, .sched => s.chg .sched
  | .sched, .sched => some s
  | .sched, .create => if made then (if final then s.chg .wait else s.chg .idle) else some s
  | .wait, .sched => some s
  | .wait, .ctrlAck => s.chg .idle
  | .wait, .pollTimeout => s.chg .sched
  | _, _ => none

/-- `osmo_fsm_inst_dispatch` on the uplink acknowledgement FSM. -/
def UlAck.dispatch (s : UlAck) (e : UkEv) (final made : Bool := false) : Option UlAck :=
  if s.inMask e then s.action final made e else some s

/-! ## Supervision counters -/

/-- `gprs_rlcmac_tbf::n_inc`, src/tbf.cpp:330-366: an 8-bit counter is incremented and
compared for equality with the configured 8-bit limit.  Returns the new value and
whether the limit was hit. -/
def nInc (lim c : Nat) : Nat × Bool :=
  ((c + 1) % 256, (c + 1) % 256 == lim)

/-! ## Downlink TBF -/

/-- The control state of a downlink TBF (`tbf_dl_fsm_ctx`, `gprs_rlcmac_dl_tbf`). -/
structure Dl where
  st : St := .new
  /-- `state_flags` bit `GPRS_RLCMAC_FLAG_CCCH`. -/
  ccch : Bool := false
  /-- `state_flags` bit `GPRS_RLCMAC_FLAG_PACCH`. -/
  pacch : Bool := false
  /-- Pending timer of `state_fi`. -/
  tmr : Option Tmr := none
  /-- `m_first_dl_ack_rcvd`. -/
  firstAck : Bool := false
  /-- `upgrade_to_multislot`. -/
  upg : Bool := false
  dlAss : DlAss := .idle
  ulAss : UlAss := {}
  /-- `Narr[N3105]`. -/
  n3105 : Nat := 0
  /-- Number of immediate assignments handed to the BTS for the PCH. -/
  immAss : Nat := 0
  /-- A newer downlink TBF was allocated for the mobile station: `ms_dl_tbf(ms)` is no
  longer this object (`ms_attach_tbf`, src/gprs_ms.c:334-364). -/
  sup : Bool := false
  freed : Bool := false
  /-- The code used this TBF after freeing it. -/
  uaf : Bool := false
deriving DecidableEq, Repr, Inhabited

/-- Decisions of the rest of the PCU during an operation. -/
structure Env where
  /-- Queued LLC data exists and a further downlink TBF could be allocated. -/
  more : Bool := false
  /-- `dl_tbf_upgrade_to_multislot` found resources. -/
  upgOk : Bool := true
deriving DecidableEq, Repr, Inhabited

/-- `tbf_dl_fsm_states[].in_event_mask`, src/tbf_dl_fsm.c:445-528. -/
def dlIn : St → Ev → Bool
  | .new, e => e == .addCcch || e == .addPacch
  | .assign, e => e == .addCcch || e == .addPacch || e == .ackPacch || e == .pcuifCnf ||
      e == .readyCcch || e == .maxN3105
  | .flow, e => e == .pcuifCnf || e == .dlAcknackMiss || e == .lastDlSent || e == .maxN3105
  | .finished, e => e == .dlAcknackMiss || e == .finalAckRecvd || e == .maxN3105
  | .waitRelease, e => e == .dlAcknackMiss || e == .finalAckRecvd || e == .maxN3105
  | .waitReuse, e => e == .dlAcknackMiss || e == .finalAckRecvd
  | .releasing, e => e == .dlAcknackMiss

/-- `tbf_dl_fsm_states[].out_state_mask`, src/tbf_dl_fsm.c:445-528. -/
def dlOut : St → St → Bool
  | .new, n => n == .assign
  | .assign, n => n == .flow || n == .finished || n == .releasing
  | .flow, n => n == .assign || n == .finished || n == .releasing
  | .finished, n => n == .waitRelease || n == .releasing
  | .waitRelease, n => n == .waitReuse || n == .releasing
  | .waitReuse, n => n == .releasing
  | .releasing, _ => false

/-- `tbf_dl_fsm_timeouts`, src/tbf_dl_fsm.c:32-40. -/
def dlTimeout : St → Option Tmr
  | .waitRelease => some .t3192
  | .releasing => some .t3195
  | _ => none

/-- The `onenter` functions, src/tbf_dl_fsm.c:105-136, 274-295, 321-341, 360-366.
`ms_new_dl_tbf_assigned_on_pacch` allocates a newer downlink TBF and schedules its
assignment on this one (src/gprs_ms.c:1290-1330, src/tbf_dl.cpp:460-473). -/
def dlEnter (env : Env) (s : Dl) : Option Dl :=
  match s.st with
  | .assign =>
    if s.pacch then some { s with tmr := some .x2001 }
    else if s.ccch then some { s with immAss := s.immAss + 1 }
    else none
  | .waitRelease =>
    if env.more then (s.dlAss.dispatch .sched).map fun d =>
      { s with ccch := false, sup := true, dlAss := d }
    else some { s with ccch := false }
  | .waitReuse => some { s with tmr := some .t3193 }
  | _ => some s

/-- `tbf_dl_fsm_state_chg`, src/tbf_dl_fsm.c:45-49. -/
def dlChg (env : Env) (s : Dl) (n : St) : Option Dl :=
  if dlOut s.st n then dlEnter env { s with st := n, tmr := dlTimeout n } else none

/-- The `action` functions of the downlink FSM, src/tbf_dl_fsm.c:88-103, 138-272, 297-319,
343-378.  `tbf_assign_control_ts` is not modelled here. -/
def dlAction (env : Env) (s : Dl) (e : Ev) : Option Dl :=
  match s.st, e with
  | .new, .addCcch => dlChg env { s with ccch := true } .assign
  | .new, .addPacch => dlChg env { s with pacch := true } .assign
  | .assign, .addCcch => some { s with ccch := true, immAss := s.immAss + 1 }
  | .assign, .addPacch => some { s with pacch := true }
  | .assign, .ackPacch =>
    dlChg env (if s.ccch then { s with ccch := false, pacch := true } else s) .flow
  | .assign, .pcuifCnf => if s.ccch then some { s with tmr := some .x2002 } else some s
  | .assign, .readyCcch => dlChg env s .flow
  | .assign, .maxN3105 =>
    (s.ulAss.dispatch false true .abort).bind fun u => dlChg env { s with ulAss := u } .releasing
  | .flow, .pcuifCnf => some s
  | .flow, .dlAcknackMiss =>
    if s.ccch && !s.firstAck then dlChg env s .assign else some s
  | .flow, .lastDlSent => dlChg env s .finished
  | .flow, .maxN3105 => dlChg env s .releasing
  | .finished, .dlAcknackMiss => some s
  | .finished, .finalAckRecvd => dlChg env s .waitRelease
  | .finished, .maxN3105 => dlChg env s .releasing
  | .waitRelease, .finalAckRecvd => some s
  | .waitRelease, .dlAcknackMiss => some s
  | .waitRelease, .maxN3105 => dlChg env s .releasing
  | .waitReuse, .finalAckRecvd => some s
  | .waitReuse, .dlAcknackMiss => some s
  | .releasing, .dlAcknackMiss => some s
  | _, _ => none

/-- `osmo_fsm_inst_dispatch` on the downlink TBF FSM. -/
def dlDispatch (env : Env) (s : Dl) (e : Ev) : Option Dl :=
  if dlIn s.st e then dlAction env s e else some s

/-- `handle_timeout_X2002`, src/tbf_dl_fsm.c:380-409, with `dl_tbf_upgrade_to_multislot`
(src/tbf_dl.cpp:492-525): on success the assignment is repeated on the own PACCH. -/
def dlX2002 (env : Env) (s : Dl) : Option Dl :=
  if s.st ≠ .assign then some s
  else if !s.upg then dlDispatch env s .readyCcch
  else if env.upgOk then
    (s.dlAss.dispatch .sched).bind fun d =>
      dlDispatch env { s with ccch := false, pacch := false, upg := false, dlAss := d } .addPacch
  else some { s with ccch := false, pacch := false, freed := true }

/-- `tbf_dl_fsm_timer_cb`, src/tbf_dl_fsm.c:411-443; the timer is no longer pending when
the callback runs. -/
def dlTimer (env : Env) (s : Dl) : Option Dl :=
  match s.tmr with
  | none => some s
  | some .x2002 => dlX2002 env { s with tmr := none }
  | some .t3192 => dlChg env { s with tmr := none } .waitReuse
  | some .x2001 => some { s with tmr := none, freed := true }
  | some .t3193 => some { s with tmr := none, freed := true }
  | some .t3195 => some { s with tmr := none, freed := true }
  | some _ => none

/-- `tbf_ul_ass_fsm_timer_cb`, src/tbf_ul_ass_fsm.c:302-314: `true` when the TBF is freed. -/
def uaTimer (u : UlAss) : Option Bool :=
  match u.tmr with
  | none => some false
  | some .x2000 => some true
  | some .t3168 => some true
  | some _ => none

/-- Reasons of a poll, `enum pdch_ulc_tbf_poll_reason` (the cell change reason is in the
NACC model). -/
inductive Poll where
  | ulAck | ulAss | dlAss | dlAck
deriving DecidableEq, Repr

/-- `gprs_rlcmac_tbf::poll_timeout` for a downlink TBF, src/tbf.cpp:482-590; `lim` is the
configured N3105.  A reason that only an uplink TBF can have is an assertion. -/
def dlPollTimeout (lim : Nat) (env : Env) (s : Dl) (r : Poll) : Option Dl :=
  match r with
  | .ulAck => none
  | .ulAss =>
    if s.ulAss.st ≠ .wait then some s
    else
      if (nInc lim s.n3105).2 then
        dlDispatch env { s with n3105 := (nInc lim s.n3105).1 } .maxN3105
      else
        (s.ulAss.dispatch false (s.st == .assign) .pollTimeout).map fun u =>
          { s with n3105 := (nInc lim s.n3105).1, ulAss := u }
  | .dlAss =>
    if s.dlAss ≠ .wait then some s
    else
      if (nInc lim s.n3105).2 then
        dlDispatch env { s with n3105 := (nInc lim s.n3105).1 } .maxN3105
      else
        (s.dlAss.dispatch .pollTimeout).map fun d =>
          { s with n3105 := (nInc lim s.n3105).1, dlAss := d }
  | .dlAck =>
    if (nInc lim s.n3105).2 then
      dlDispatch env { s with n3105 := (nInc lim s.n3105).1 } .maxN3105
    else dlDispatch env { s with n3105 := (nInc lim s.n3105).1 } .dlAcknackMiss

/-- `rcv_control_ack` for a downlink TBF, src/pdch.cpp:366-440.  For an uplink assignment
the confirmed TBF is another object.  For a downlink assignment it is `ms_dl_tbf(ms)`:
this TBF, or the newer one if there was one, which may be gone again (`alive`).  A TBF in
WAIT_RELEASE or WAIT_REUSE_TFI is freed then; if it is itself the confirmed TBF, the code
goes on to use it. -/
def dlCtrlAck (env : Env) (s : Dl) (r : Poll) (alive : Bool) : Option Dl :=
  match r with
  | .ulAck => none
  | .dlAck => some s
  | .ulAss =>
    if s.ulAss.st ≠ .wait then some s
    else (s.ulAss.dispatch false (s.st == .assign) .ctrlAck).map fun u =>
      { s with n3105 := 0, ulAss := u }
  | .dlAss =>
    if s.dlAss ≠ .wait then some s
    else (s.dlAss.dispatch .ctrlAck).bind fun d =>
      if s.sup && !alive then some { s with n3105 := 0, dlAss := d }
      else if s.st = .waitRelease ∨ s.st = .waitReuse then
        some { s with n3105 := 0, dlAss := d, freed := true, uaf := !s.sup }
      else if s.sup then some { s with n3105 := 0, dlAss := d }
      else dlDispatch env { s with n3105 := 0, dlAss := d } .ackPacch

/-- `rcvd_dl_ack`, src/tbf_dl.cpp:1064-1113 (window handling is in `RlcWindowDl`). -/
def dlRcvdAck (env : Env) (s : Dl) (final : Bool) : Option Dl :=
  let s1 := { s with firstAck := true, n3105 := 0 }
  if final then dlDispatch env s1 .finalAckRecvd else some s1

/-- Everything that can happen to a downlink TBF. -/
inductive DlOp where
  /-- Any event of the main FSM, at any time. -/
  | ev (e : Ev)
  /-- The timer of the main FSM expires. -/
  | timer
  /-- The timer of the uplink assignment FSM expires. -/
  | uaTimer
  /-- A Packet Downlink Ack/Nack arrives. -/
  | dlAck (final : Bool)
  /-- A poll was not answered. -/
  | pollTimeout (r : Poll)
  /-- A Packet Control Acknowledgement arrives. -/
  | ctrlAck (r : Poll) (alive : Bool)
  /-- The scheduler asks for a Packet Downlink Assignment. -/
  | createDl (m : Made)
  /-- The scheduler asks for a Packet Uplink Assignment or Packet Access Reject. -/
  | createUl (m : Made)
  /-- More downlink data arrives (`ms_append_llc_dl_data`, src/gprs_ms.c:1364-1420): in
  WAIT_RELEASE a newer TBF is assigned on this TBF's PACCH. -/
  | schedDl
  /-- An uplink assignment is to be sent on this TBF's PACCH. -/
  | schedUl
  /-- A reject is to be sent on this TBF's PACCH. -/
  | schedRej
  /-- The assigned TBF went away. -/
  | abortDl
  /-- The TBF is freed from outside. -/
  | free
deriving DecidableEq, Repr

/-- One operation on a downlink TBF; `lim` is the configured N3105. -/
def dlStep (lim : Nat) (s : Dl) (op : DlOp) (env : Env) : Option Dl :=
  if s.freed then some s else
  match op with
  | .ev e => dlDispatch env s e
  | .timer => dlTimer env s
  | .uaTimer => (Tbf.uaTimer s.ulAss).map fun f =>
      { s with ulAss := { s.ulAss with tmr := none }, freed := f }
  | .dlAck f => dlRcvdAck env s f
  | .pollTimeout r => dlPollTimeout lim env s r
  | .ctrlAck r t => dlCtrlAck env s r t
  | .createDl m => (s.dlAss.dispatch .create m).map fun d => { s with dlAss := d }
  | .createUl m => (s.ulAss.dispatch false (s.st == .assign) .create m).map fun u =>
      { s with ulAss := u }
  | .schedDl =>
    if s.st = .waitRelease ∧ s.sup = false ∧ env.more then
      (s.dlAss.dispatch .sched).map fun d => { s with sup := true, dlAss := d }
    else some s
  | .schedUl => (s.ulAss.dispatch false (s.st == .assign) .sched).map fun u => { s with ulAss := u }
  | .schedRej => (s.ulAss.dispatch false (s.st == .assign) .schedRej).map fun u =>
      { s with ulAss := u }
  | .abortDl => (s.dlAss.dispatch .abort).map fun d => { s with dlAss := d }
  | .free => some { s with freed := true }

/-- A history of operations on a downlink TBF. -/
def dlRun (lim : Nat) (s : Dl) : List (DlOp × Env) → Option Dl
  | [] => some s
  | (op, env) :: r => (dlStep lim s op env).bind fun s1 => dlRun lim s1 r

/-! ## Uplink TBF -/

/-- The control state of an uplink TBF (`tbf_ul_fsm_ctx`, `gprs_rlcmac_ul_tbf`). -/
structure Ul where
  st : St := .new
  ccch : Bool := false
  pacch : Bool := false
  tmr : Option Tmr := none
  /-- `m_contention_resolution_done`. -/
  cr : Bool := true
  /-- T3141 is running. -/
  t3141 : Bool := false
  ulAck : UlAck := .idle
  ulAss : UlAss := {}
  dlAss : DlAss := .idle
  /-- `Narr[N3101]`. -/
  n3101 : Nat := 0
  /-- `Narr[N3103]`. -/
  n3103 : Nat := 0
  /-- Number of uplink data blocks that were processed. -/
  rx : Nat := 0
  freed : Bool := false
deriving DecidableEq, Repr, Inhabited

/-- `tbf_ul_fsm_states[].in_event_mask`, src/tbf_ul_fsm.c:297-351. -/
def ulIn : St → Ev → Bool
  | .new, e => e == .addCcch || e == .addPacch
  | .assign, e => e == .addCcch || e == .addPacch || e == .ackPacch || e == .readyCcch
  | .flow, e => e == .firstUlData || e == .contentionOk || e == .lastUlData || e == .maxN3101
  | .finished, e => e == .contentionOk || e == .finalUlAckConfirmed || e == .maxN3103
  | _, _ => false

/-- `tbf_ul_fsm_states[].out_state_mask`, src/tbf_ul_fsm.c:297-351. -/
def ulOut : St → St → Bool
  | .new, n => n == .assign || n == .flow
  | .assign, n => n == .flow || n == .finished
  | .flow, n => n == .assign || n == .finished || n == .releasing
  | .finished, n => n == .releasing
  | _, _ => false

/-- `tbf_ul_fsm_timeouts`, src/tbf_ul_fsm.c:32-38. -/
def ulTimeout : St → Option Tmr
  | .releasing => some .t3169
  | _ => none

/-- `st_assign_on_enter`, src/tbf_ul_fsm.c:104-146. -/
def ulEnter (s : Ul) : Ul :=
  match s.st with
  | .assign =>
    if s.pacch then { s with tmr := some .t3168 }
    else if s.ccch then { s with tmr := some .x2002 }
    else s
  | _ => s

/-- `tbf_ul_fsm_state_chg`, src/tbf_ul_fsm.c:43-47. -/
def ulChg (s : Ul) (n : St) : Option Ul :=
  if ulOut s.st n then some (ulEnter { s with st := n, tmr := ulTimeout n }) else none

/-- `contention_resolution_success`, src/tbf_ul.cpp:223-243. -/
def ulContention (env : Env) (s : Ul) : Option Ul :=
  if env.more && s.ulAck != .wait then
    (s.dlAss.dispatch .sched).map fun d => { s with cr := true, t3141 := false, dlAss := d }
  else some { s with cr := true, t3141 := false }

/-- The `action` functions of the uplink FSM, src/tbf_ul_fsm.c:86-102, 148-276 (effects on
other TBFs of the same mobile station are not part of this model). -/
def ulAction (env : Env) (s : Ul) (e : Ev) : Option Ul :=
  match s.st, e with
  | .new, .addCcch =>
    (ulChg { s with ccch := true } .assign).map fun s1 => { s1 with cr := false, t3141 := true }
  | .new, .addPacch => ulChg { s with pacch := true } .assign
  | .assign, .addCcch => some { s with ccch := true }
  | .assign, .addPacch => some { s with pacch := true }
  | .assign, .ackPacch =>
    ulChg (if s.ccch then { s with ccch := false, pacch := true } else s) .flow
  | .assign, .readyCcch => ulChg s .flow
  | .flow, .firstUlData => some s
  | .flow, .contentionOk => ulContention env s
  | .flow, .lastUlData => ulChg s .finished
  | .flow, .maxN3101 => ulChg s .releasing
  | .finished, .contentionOk => ulContention env s
  | .finished, .finalUlAckConfirmed => some { s with freed := true }
  | .finished, .maxN3103 => ulChg s .releasing
  | _, _ => none

/-- `osmo_fsm_inst_dispatch` on the uplink TBF FSM. -/
def ulDispatch (env : Env) (s : Ul) (e : Ev) : Option Ul :=
  if ulIn s.st e then ulAction env s e else some s

/-- `tbf_ul_fsm_timer_cb`, src/tbf_ul_fsm.c:278-295. -/
def ulTimer (env : Env) (s : Ul) : Option Ul :=
  match s.tmr with
  | none => some s
  | some .x2002 => ulDispatch env { s with tmr := none } .readyCcch
  | some .t3168 => some { s with tmr := none, freed := true }
  | some .t3169 => some { s with tmr := none, freed := true }
  | some _ => none

/-- `gprs_rlcmac_ul_tbf::usf_timeout`, src/tbf_ul.cpp:728-732; `lim` is N3101. -/
def ulUsfTimeout (lim : Nat) (env : Env) (s : Ul) : Option Ul :=
  if (nInc lim s.n3101).2 then ulDispatch env { s with n3101 := (nInc lim s.n3101).1 } .maxN3101
  else some { s with n3101 := (nInc lim s.n3101).1 }

/-- `poll_timeout` for an uplink TBF, src/tbf.cpp:482-590; `lim` is N3103. -/
def ulPollTimeout (lim : Nat) (env : Env) (s : Ul) (r : Poll) : Option Ul :=
  match r with
  | .ulAck =>
    if s.ulAck ≠ .wait then some s
    else if s.st = .finished then
      if (nInc lim s.n3103).2 then
        ulDispatch env { s with n3103 := (nInc lim s.n3103).1 } .maxN3103
      else (s.ulAck.dispatch .pollTimeout).map fun a =>
        { s with n3103 := (nInc lim s.n3103).1, ulAck := a }
    else (s.ulAck.dispatch .pollTimeout).map fun a => { s with ulAck := a }
  | .ulAss =>
    if s.ulAss.st ≠ .wait then some s
    else (s.ulAss.dispatch true (s.st == .assign) .pollTimeout).map fun u => { s with ulAss := u }
  | .dlAss =>
    if s.dlAss ≠ .wait then some s
    else (s.dlAss.dispatch .pollTimeout).map fun d => { s with dlAss := d }
  | .dlAck => none

/-- `rcv_control_ack` for an uplink TBF, src/pdch.cpp:366-440.  `self`: the uplink TBF of
the mobile station, which is confirmed, is this one. -/
def ulCtrlAck (env : Env) (s : Ul) (r : Poll) (self : Bool) : Option Ul :=
  match r with
  | .dlAck => some s
  | .ulAck =>
    if s.ulAck ≠ .wait then some s
    else (s.ulAck.dispatch .ctrlAck).bind fun a =>
      if s.st = .finished then ulDispatch env { s with ulAck := a } .finalUlAckConfirmed
      else some { s with ulAck := a }
  | .ulAss =>
    if s.ulAss.st ≠ .wait then some s
    else (s.ulAss.dispatch true (s.st == .assign) .ctrlAck).bind fun u =>
      if self then
        (ulDispatch env { s with ulAss := u } .ackPacch).bind fun s1 =>
          if env.more then (s1.dlAss.dispatch .sched).map fun d => { s1 with dlAss := d }
          else some s1
      else some { s with ulAss := u }
  | .dlAss =>
    if s.dlAss ≠ .wait then some s
    else (s.dlAss.dispatch .ctrlAck).map fun d => { s with dlAss := d }

/-- `rcv_data_block` and `rcv_data_block_acknowledged`, src/pdch.cpp:1076-1079 and
src/tbf_ul.cpp:246-457, as far as they concern the control state.  `first`: the block
announced the TLLI; `complete`: no gap is left; `cv0`: the last block received has
CV = 0; `req`: an acknowledgement is asked for otherwise (stalled, TLLI included, frame
count). -/
def ulData (env : Env) (s : Ul) (first complete cv0 req : Bool) : Option Ul :=
  if s.st = .releasing then some { s with n3101 := 0 }
  else
    (if first then ulDispatch env { s with n3101 := 0, rx := s.rx + 1 } .firstUlData
      else some { s with n3101 := 0, rx := s.rx + 1 }).bind fun s1 =>
    (if s1.st = .flow ∧ complete ∧ cv0 then
      (ulDispatch env s1 .lastUlData).map fun s2 => { s2 with n3103 := 0 }
      else some s1).bind fun s2 =>
    if req || cv0 then (s2.ulAck.dispatch .sched).map fun a => { s2 with ulAck := a }
    else some s2

/-- `tbf_ul_ack_create_rlcmac_msg` with `st_sched_ul_ack`, src/tbf_ul_ack_fsm.c:109-158.
`made`: there is a message (a poll slot is needed only for the final one); `tlli`: the
TLLI of the mobile station is known. -/
def ulCreateAck (env : Env) (s : Ul) (made tlli : Bool) : Option Ul :=
  (s.ulAck.dispatch .create (s.st == .finished) made).bind fun a =>
    if s.ulAck == .sched && made && tlli && !s.cr then
      ulDispatch env { s with ulAck := a } .contentionOk
    else some { s with ulAck := a }

/-- Everything that can happen to an uplink TBF. -/
inductive UlOp where
  | ev (e : Ev)
  | timer
  | uaTimer
  /-- T3141 expires. -/
  | t3141
  /-- A granted uplink block was not used. -/
  | usfTimeout
  | data (first complete cv0 req : Bool)
  | pollTimeout (r : Poll)
  | ctrlAck (r : Poll) (self : Bool)
  /-- A Packet Resource Request in the poll of the final acknowledgement
  (src/pdch.cpp:769-781). -/
  | pktResReq
  | createAck (made tlli : Bool)
  | createDl (m : Made)
  | createUl (m : Made)
  | schedDl
  | schedUl
  | schedRej
  | abortDl
  | free
deriving DecidableEq, Repr

/-- Configured limits, `struct gprs_rlcmac_bts` (src/bts.h). -/
structure Lim where
  n3101 : Nat
  n3103 : Nat

/-- One operation on an uplink TBF. -/
def ulStep (lim : Lim) (s : Ul) (op : UlOp) (env : Env) : Option Ul :=
  if s.freed then some s else
  match op with
  | .ev e => ulDispatch env s e
  | .timer => ulTimer env s
  | .uaTimer => (Tbf.uaTimer s.ulAss).map fun f =>
      { s with ulAss := { s.ulAss with tmr := none }, freed := f }
  | .t3141 => if s.t3141 then some { s with t3141 := false, freed := true } else some s
  | .usfTimeout => ulUsfTimeout lim.n3101 env s
  | .data f c v r => ulData env s f c v r
  | .pollTimeout r => ulPollTimeout lim.n3103 env s r
  | .ctrlAck r t => ulCtrlAck env s r t
  | .pktResReq => (ulDispatch env { s with n3103 := 0 } .finalUlAckConfirmed).map fun s1 =>
      { s1 with freed := true }
  | .createAck m t => ulCreateAck env s m t
  | .createDl m => (s.dlAss.dispatch .create m).map fun d => { s with dlAss := d }
  | .createUl m => (s.ulAss.dispatch true (s.st == .assign) .create m).map fun u =>
      { s with ulAss := u }
  | .schedDl => (s.dlAss.dispatch .sched).map fun d => { s with dlAss := d }
  | .schedUl => (s.ulAss.dispatch true (s.st == .assign) .sched).map fun u => { s with ulAss := u }
  | .schedRej => (s.ulAss.dispatch true (s.st == .assign) .schedRej).map fun u =>
      { s with ulAss := u }
  | .abortDl => (s.dlAss.dispatch .abort).map fun d => { s with dlAss := d }
  | .free => some { s with freed := true }

/-- A history of operations on an uplink TBF. -/
def ulRun (lim : Lim) (s : Ul) : List (UlOp × Env) → Option Ul
  | [] => some s
  | (op, env) :: r => (ulStep lim s op env).bind fun s1 => ulRun lim s1 r

end Verif.Tbf
