import Verif.Model.TbfFsm
/-!
# TBFs and the uplink blocks promised to them

The control states of the TBFs (`Model/TbfFsm.lean`) together with the uplink blocks of a PDCH that
the uplink controller (`src/pdch_ul_controller.c`) has promised to them: the only thing that can
wake up a state machine which waits for an answer of a mobile is that the answer arrives in the
promised block, or that the promised block expires.

Simplifications. One PDCH, the one on which the TBFs are controlled. The frame number arithmetic of
the controller is in `Model/Ulc.lean`; here a block is its number. Single blocks for access are
left out: they belong to no TBF. The poll for a cell change is in `Model/Nacc.lean`.
-/

namespace Verif.Live
open Verif.Tbf

/-- Which TBF: uplink and downlink TBFs are numbered separately. -/
inductive Own where
  | ul (b : Nat)
  | dl (b : Nat)
deriving DecidableEq, Repr

/-- `struct pdch_ulc_node`, src/pdch_ul_controller.h:48-66. `kind = none`: a block granted by USF;
`some r`: a block in which a poll with reason `r` is to be answered. -/
structure Node where
  fn : Nat
  own : Own
  kind : Option Poll
deriving DecidableEq, Repr

/-- The TBFs that exist, and the promised blocks. -/
structure Pd where
  ul : Nat → Option Ul
  dl : Nat → Option Dl
  nodes : List Node

/-- A PDCH that was just switched on. -/
def Pd.empty : Pd := ⟨fun _ => none, fun _ => none, []⟩

/-- Replaces one entry of a table. -/
def upd {α : Type} (f : Nat → Option α) (b : Nat) (v : Option α) : Nat → Option α :=
  fun x => if x = b then v else f x

/-- `pdch_ulc_get_node`, src/pdch_ul_controller.c:60-78. -/
def Pd.node (p : Pd) (fn : Nat) : Option Node := p.nodes.find? fun n => n.fn == fn

/-- `pdch_ulc_release_fn`, `pdch_ulc_release_node`, src/pdch_ul_controller.c:238-250. -/
def Pd.release (p : Pd) (fn : Nat) : Pd := { p with nodes := p.nodes.filter fun n => n.fn != fn }

/-- `pdch_ulc_release_tbf`, src/pdch_ul_controller.c:252-285. -/
def Pd.drop (p : Pd) (o : Own) : Pd := { p with nodes := p.nodes.filter fun n => n.own != o }

/-- `pdch_ulc_reserve_tbf_usf`, `pdch_ulc_reserve_tbf_poll`, src/pdch_ul_controller.c:178-236. -/
def Pd.promise (p : Pd) (n : Node) : Pd := { p with nodes := n :: p.nodes }

/-- Stores the new state of an uplink TBF. A freed TBF gives its blocks back: `tbf_free`,
`tbf_unlink_pdch`, src/tbf.cpp:214-282. -/
def Pd.putUl (p : Pd) (b : Nat) (s : Ul) : Pd :=
  if s.freed then { (p.drop (.ul b)) with ul := upd p.ul b none }
  else { p with ul := upd p.ul b (some s) }

/-- Stores the new state of a downlink TBF. -/
def Pd.putDl (p : Pd) (b : Nat) (s : Dl) : Pd :=
  if s.freed then { (p.drop (.dl b)) with dl := upd p.dl b none }
  else { p with dl := upd p.dl b (some s) }

/-- Configured limits, `struct gprs_rlcmac_bts` (src/bts.h). -/
structure Cfg where
  ul : Lim
  n3105 : Nat

/-- Does an operation of the state machines to an uplink TBF, if it exists. -/
def doUl (c : Cfg) (p : Pd) (b : Nat) (op : UlOp) (env : Env) : Option Pd :=
  match p.ul b with
  | none => some p
  | some s => (ulStep c.ul s op env).map (p.putUl b)

/-- Does an operation of the state machines to a downlink TBF, if it exists. -/
def doDl (c : Cfg) (p : Pd) (b : Nat) (op : DlOp) (env : Env) : Option Pd :=
  match p.dl b with
  | none => some p
  | some s => (dlStep c.n3105 s op env).map (p.putDl b)

/-- The operations on an uplink TBF that concern no promised block: timers; the confirmation of
its assignment through another TBF; scheduling and aborting assignments; control messages that
could not be made; the release from outside (PDCH switched off, new access of the mobile, ...). -/
def ulLocal : UlOp → Bool
  | .timer => true
  | .uaTimer => true
  | .t3141 => true
  | .ev e => e == .ackPacch
  | .schedDl => true
  | .schedUl => true
  | .schedRej => true
  | .abortDl => true
  | .free => true
  | .createDl m => m != .msg
  | .createUl m => m != .msg
  | .createAck made _ => !made
  | _ => false

/-- The same for a downlink TBF; also the confirmation of the BTS that the assignment was sent, and
that the last block was sent. Its own assignment does not lack its target: that is the TBF itself,
unless there is a newer one (`sup`; `create_packet_dl_assign`, src/tbf_dl_ass_fsm.c:60-125). -/
def dlLocal (s : Dl) : DlOp → Bool
  | .timer => true
  | .uaTimer => true
  | .ev e => e == .ackPacch || e == .pcuifCnf || e == .lastDlSent
  | .schedDl => true
  | .schedUl => true
  | .schedRej => true
  | .free => true
  | .createDl m => m == .noPoll || (m == .noTarget && s.sup)
  | .createUl m => m != .msg
  | _ => false

/-- An RLC/MAC control or data block that was received. -/
inductive Msg where
  /-- Packet Control Acknowledgement. `self` and `alive`: which TBF is confirmed, see `ulCtrlAck`
  and `dlCtrlAck`. -/
  | ctrlAck (self alive : Bool)
  /-- Packet Downlink Ack/Nack with the TFI of that downlink TBF. -/
  | dlAck (b : Nat) (final : Bool)
  /-- Uplink data with the TFI of that uplink TBF. -/
  | data (b : Nat) (first complete cv0 req : Bool)
  /-- Packet Measurement Report. -/
  | report
  /-- Packet Cell Change Notification; `known`: its TFI is in use. -/
  | notification (known : Bool)
  /-- Packet Resource Request; `same`: of the mobile the block was promised to. -/
  | request (same : Bool)
deriving Repr

/-- A block received in frame `fn`: `rcv_control_ack`, `rcv_control_dl_ack_nack`,
`rcv_control_egprs_dl_ack_nack`, `rcv_resource_request`, `rcv_measurement_report`,
`rcv_cell_change_notification`, `rcv_data_block`, src/pdch.cpp:336-1082, as far as they concern TBFs
and promised blocks. (The TBF that a Resource Request asks for is `newUl` later.) -/
def recv (c : Cfg) (p : Pd) (fn : Nat) (m : Msg) (env : Env) : Option Pd :=
  match m, p.node fn with
  -- 346-355: not in a poll
  | .ctrlAck .., none => some p
  | .ctrlAck self alive, some n =>
    match n.own, n.kind with
    | _, none => some p
    -- 368-385, 387-414, 416-445
    | .ul b, some r =>
      match p.ul b with
      | none => some p
      | some s =>
        if (r = .ulAck ∧ s.ulAck = .wait) ∨ (r = .ulAss ∧ s.ulAss.st = .wait) ∨
            (r = .dlAss ∧ s.dlAss = .wait) then
          doUl c (p.release fn) b (.ctrlAck r self) env
        else some p
    | .dl b, some r =>
      match p.dl b with
      | none => some p
      | some s =>
        if (r = .ulAss ∧ s.ulAss.st = .wait) ∨ (r = .dlAss ∧ s.dlAss = .wait) then
          doDl c (p.release fn) b (.ctrlAck r alive) env
        else some p
  -- 470-627: only in a poll for it, and of the TBF it is for
  | .dlAck b final, some n =>
    if n.own = .dl b ∧ n.kind = some .dlAck then doDl c (p.release fn) b (.dlAck final) env
    else some p
  | .dlAck .., none => some p
  -- 1040-1082: a block granted to this TBF is used
  | .data b first complete cv0 req, some n =>
    if n.own = .ul b ∧ n.kind = none then
      doUl c (p.release fn) b (.data first complete cv0 req) env
    else doUl c p b (.data first complete cv0 req) env
  | .data b first complete cv0 req, none => doUl c p b (.data first complete cv0 req) env
  -- 832-868
  | .report, some _ => some (p.release fn)
  | .report, none => some p
  -- 870-898
  | .notification known, _ => if known then some (p.release fn) else some p
  -- 643-647, 686-690, 739-781
  | .request _, none => some p
  | .request same, some n =>
    if same then
      match n.own, n.kind with
      | .ul b, none => doUl c (p.release fn) b .free env
      | .ul b, some .ulAck => doUl c (p.release fn) b .pktResReq env
      | _, _ => some p
    else some p

/-- `pdch_ulc_expire_fn` for the block `fn`, src/pdch_ul_controller.c:287-331: the block is taken
out, then its TBF is told (`tbf_usf_timeout`, `tbf_poll_timeout`). That function does this for every
block up to the current frame, one after the other. -/
def expire (c : Cfg) (p : Pd) (fn : Nat) (env : Env) : Option Pd :=
  match p.node fn with
  | none => some p
  | some n =>
    match n.own, n.kind with
    | .ul b, none => doUl c (p.release fn) b .usfTimeout env
    | .ul b, some r => doUl c (p.release fn) b (.pollTimeout r) env
    | .dl _, none => some (p.release fn)
    | .dl b, some r => doDl c (p.release fn) b (.pollTimeout r) env

/-- What can happen. -/
inductive Op where
  /-- A new uplink TBF: `TBF_EV_ASSIGN_ADD_CCCH` or `..._PACCH`. -/
  | newUl (b : Nat) (ccch : Bool)
  /-- A new downlink TBF; `upg`: single slot first. -/
  | newDl (b : Nat) (ccch upg : Bool)
  | ul (b : Nat) (op : UlOp)
  | dl (b : Nat) (op : DlOp)
  /-- The scheduler grants the block `fn` by USF. -/
  | grant (b : Nat) (fn : Nat)
  /-- The Packet Uplink Ack/Nack that is due is sent; a final one is to be answered in `fn`. -/
  | sendAck (b : Nat) (fn : Nat) (tlli : Bool)
  /-- The assignment that is due on the PACCH of an uplink TBF is sent, to be answered in `fn`. -/
  | ulSendDl (b : Nat) (fn : Nat)
  | ulSendUl (b : Nat) (fn : Nat)
  /-- The same on the PACCH of a downlink TBF. -/
  | dlSendDl (b : Nat) (fn : Nat)
  | dlSendUl (b : Nat) (fn : Nat)
  /-- A data block that asks for a Packet Downlink Ack/Nack in `fn` is sent. -/
  | dlPoll (b : Nat) (fn : Nat)
  | recv (fn : Nat) (m : Msg)
  | expire (fn : Nat)
deriving Repr

/-- One step. `none`: an assertion of the program fails. -/
def step (c : Cfg) (p : Pd) (op : Op) (env : Env) : Option Pd :=
  match op with
  -- `ul_tbf_alloc`, src/tbf_ul.cpp:108-158, src/tbf_ul_fsm.c:86-146
  | .newUl b ccch =>
    if (p.ul b).isNone then
      (ulStep c.ul {} (.ev (if ccch then .addCcch else .addPacch)) env).map (p.putUl b)
    else some p
  -- `dl_tbf_alloc`, `dl_tbf_trigger_ass_on_pacch`, `dl_tbf_trigger_ass_on_pch`,
  -- src/tbf_dl.cpp:109-185, 464-489, src/tbf_dl_fsm.c:88-136
  | .newDl b ccch upg =>
    if (p.dl b).isNone then
      (dlStep c.n3105 { upg := upg } (.ev (if ccch then .addCcch else .addPacch)) env).map
        (p.putDl b)
    else some p
  | .ul b op => if ulLocal op then doUl c p b op env else some p
  | .dl b op =>
    match p.dl b with
    | none => some p
    | some s =>
      if dlLocal s op then
        -- src/tbf_dl.cpp:498-509: the slots are given up before new ones are taken
        if op = .timer ∧ s.tmr = some .x2002 ∧ s.st = .assign ∧ s.upg then
          doDl c (p.drop (.dl b)) b op env
        else doDl c p b op env
      else some p
  -- src/gprs_rlcmac_sched.cpp:74-103, 452-458
  | .grant b fn =>
    match p.ul b with
    | none => some p
    | some s =>
      if s.st = .flow ∧ p.node fn = none then some (p.promise ⟨fn, .ul b, none⟩) else some p
  -- src/tbf_ul_ack_fsm.c:59-158
  | .sendAck b fn tlli =>
    match p.ul b with
    | none => some p
    | some s =>
      if s.ulAck ≠ .sched then some p
      else if s.st = .finished then
        if p.node fn = none then
          doUl c (p.promise ⟨fn, .ul b, some .ulAck⟩) b (.createAck true tlli) env
        else some p
      else doUl c p b (.createAck true tlli) env
  -- src/tbf_dl_ass_fsm.c:60-165
  | .ulSendDl b fn =>
    match p.ul b with
    | none => some p
    | some s =>
      if s.dlAss = .send ∧ p.node fn = none then
        doUl c (p.promise ⟨fn, .ul b, some .dlAss⟩) b (.createDl .msg) env
      else some p
  -- src/tbf_ul_ass_fsm.c:83-256; a reject asks for no answer
  | .ulSendUl b fn =>
    match p.ul b with
    | none => some p
    | some s =>
      if s.ulAss.st = .send ∧ p.node fn = none then
        doUl c (p.promise ⟨fn, .ul b, some .ulAss⟩) b (.createUl .msg) env
      else if s.ulAss.st = .rej then doUl c p b (.createUl .msg) env
      else some p
  | .dlSendDl b fn =>
    match p.dl b with
    | none => some p
    | some s =>
      if s.dlAss = .send ∧ p.node fn = none then
        doDl c (p.promise ⟨fn, .dl b, some .dlAss⟩) b (.createDl .msg) env
      else some p
  | .dlSendUl b fn =>
    match p.dl b with
    | none => some p
    | some s =>
      if s.ulAss.st = .send ∧ p.node fn = none then
        doDl c (p.promise ⟨fn, .dl b, some .ulAss⟩) b (.createUl .msg) env
      else if s.ulAss.st = .rej then doDl c p b (.createUl .msg) env
      else some p
  -- src/tbf_dl.cpp:863-890. (T3191, started there for the last block: when it runs out the TBF is freed,
  -- that is `dl b free`.)
  | .dlPoll b fn =>
    match p.dl b with
    | none => some p
    | some s =>
      if (s.st = .flow ∨ s.st = .finished) ∧ p.node fn = none then
        some (p.promise ⟨fn, .dl b, some .dlAck⟩)
      else some p
  | .recv fn m => Live.recv c p fn m env
  | .expire fn => Live.expire c p fn env

/-- A history. -/
def run (c : Cfg) (p : Pd) : List (Op × Env) → Option Pd
  | [] => some p
  | (op, env) :: r => (step c p op env).bind fun q => run c q r

end Verif.Live
