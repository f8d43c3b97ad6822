/-!
# Network assisted cell change

Model of `src/nacc_fsm.c`: the procedure of one mobile, with the events that `src/pcu_l1_if.cpp`,
`src/gprs_bssgp_rim.c`, `src/gprs_ms.c`, `src/pdch.cpp` and `src/tbf.cpp` dispatch. Messages are their
fields; encoding succeeds. A transition that the table of the FSM does not allow is not made
(libosmocore `osmo_fsm_inst_state_chg`), an event that is not allowed is ignored.
-/

namespace Verif.Nacc

/-- neigh_cache.h:38-43. -/
structure Key where
  lac : Nat
  ci : Nat
  arfcn : Nat
  bsic : Nat
  deriving DecidableEq, Repr

/-- `struct osmo_cell_global_id_ps`; compared as a whole. -/
structure Cgi where
  mcc : Nat
  mnc : Nat
  mnc3 : Bool
  lac : Nat
  rac : Nat
  ci : Nat
  deriving DecidableEq, Repr

/-- neigh_cache.h:88-92 `struct si_cache_value`. -/
structure Si where
  octets : List Nat
  psi : Bool
  deriving DecidableEq, Repr

/-- nacc_fsm.h:38-46, without `NACC_ST_DONE`, in which the FSM is freed at once. -/
inductive St | initial | resolve | requestSi | data | cont | waitAck
  deriving DecidableEq, Repr

/-- nacc_fsm.h:48-59 `struct nacc_fsm_ctx`. `poll`: frame and slot of the poll. -/
structure Ctx where
  st : St := .initial
  key : Key := ⟨0, 0, 0, 0⟩
  present : Bool := false
  cgi : Cgi := ⟨0, 0, false, 0, 0, 0⟩
  si : Si := ⟨[], false⟩
  sent : Nat := 0
  idx : Nat := 0
  poll : Nat × Nat := (0, 0)
  deriving DecidableEq, Repr

/-- Target cell in a Packet Cell Change Notification: a GSM cell, a cell of another kind of network, none or one that is
not supported. -/
inductive Notif
  | gsm (arfcn bsic : Nat)
  | otherRat
  | bad
  deriving DecidableEq, Repr

/-- The rest of the PCU when an event is handled: own cell, the two caches, addresses and
system information of the other BTSs, system information of the own BTS, whether requests can be sent. -/
structure World where
  neigh : Key → Option Cgi
  sis : Cgi → Option Si
  cells : List (Cgi × Si)
  own : Si
  reqOk : Bool
  rimOk : Bool

/-- Container of Packet Neighbour Cell Data (gsm_rlcmac.h:4626-4646): ARFCN and BSIC, octets. -/
structure Container where
  idx : Nat
  id : Option (Nat × Nat)
  octets : List Nat
  deriving DecidableEq, Repr

/-- What the mobile and the network get to see. -/
inductive Out
  | data (c : Container)
  | cont (id : Option (Nat × Nat))
  | askAddress (k : Key)
  | askSi (c : Cgi)
  | done
  deriving DecidableEq, Repr

/-- nacc_fsm.c:750-830 `nacc_fsm_states`: `out_state_mask`. -/
def allowed : St → St → Bool
  | .initial, .resolve | .initial, .cont => true
  | .resolve, .resolve | .resolve, .requestSi | .resolve, .cont => true
  | .requestSi, .resolve | .requestSi, .data | .requestSi, .cont => true
  | .data, .resolve | .data, .cont => true
  | .cont, .resolve | .cont, .waitAck => true
  | .waitAck, .resolve | .waitAck, .cont => true
  | _, _ => false

/-- Change of state without `onenter`. -/
def goto (c : Ctx) (s : St) : Ctx := if allowed c.st s then { c with st := s } else c

/-- To `TX_NEIGHBOUR_DATA`; nacc_fsm.c:598-603 `st_tx_neighbour_data_on_enter`. -/
def enterData (c : Ctx) : Ctx :=
  if allowed c.st .data then { c with st := .data, sent := 0, idx := 0 } else c

/-- To `WAIT_REQUEST_SI`; nacc_fsm.c:508-565 `st_wait_request_si_on_enter`. For a cell of this PCU the system
information of the mobile's own BTS is taken (529). -/
def enterSi (w : World) (c : Ctx) : Ctx × List Out :=
  if !allowed c.st .requestSi then (c, []) else
  let c := { c with st := .requestSi }
  match w.cells.find? (·.1 = c.cgi) with
  | some _ => (enterData { c with si := w.own }, [])
  | none =>
    match w.sis c.cgi with
    | some v => (enterData { c with si := v }, [])
    | none => if w.rimOk then (c, [.askSi c.cgi]) else (goto c .cont, [])

/-- To `WAIT_RESOLVE_RAC_CI`; nacc_fsm.c:454-476 `st_wait_resolve_rac_ci_on_enter`. -/
def enterResolve (w : World) (c : Ctx) : Ctx × List Out :=
  if !allowed c.st .resolve then (c, []) else
  let c := { c with st := .resolve }
  match w.neigh c.key with
  | some g => enterSi w { c with cgi := g }
  | none => if w.reqOk then (c, [.askAddress c.key]) else (goto c .cont, [])

/-- nacc_fsm.c:272-361 `fill_neigh_key_from_bts_pkt_cell_chg_not`: key if there is one; `none`: error. -/
def fillKey (lac ci : Nat) : Notif → Option (Option Key)
  | .gsm a b => some (some ⟨lac, ci, a, b⟩)
  | .otherRat => some none
  | .bad => none

/-- nacc_fsm.c:386-424 `handle_retrans_pkt_cell_chg_notif`. Without a key the old key is left. -/
def retrans (lac ci : Nat) (w : World) (c : Ctx) (n : Notif) : Ctx × List Out :=
  match fillKey lac ci n with
  | none => (if c.st ≠ .cont then goto c .cont else c, [])
  | some none => (goto c .cont, [])
  | some (some k) => if c.key ≠ k then enterResolve w { c with key := k, present := true } else (c, [])

/-- gprs_ms.c:1046-1053 `ms_nacc_start`, nacc_fsm.c:430-453 `st_initial`. -/
def notify (lac ci : Nat) (w : World) (x : Option Ctx) (n : Notif) : Option Ctx × List Out :=
  let c := x.getD {}
  if c.st = .initial then
    match fillKey lac ci n with
    | none => (none, [])
    | some none => (some (goto { c with key := ⟨0, 0, 0, 0⟩, present := false } .cont), [])
    | some (some k) =>
      let r := enterResolve w { c with key := k, present := true }
      (some r.1, r.2)
  else
    let r := retrans lac ci w c n
    (some r.1, r.2)

/-- pcu_l1_if.cpp:1168-1207 `pcu_rx_neigh_addr_cnf` for this mobile, nacc_fsm.c:478-500. -/
def addr (w : World) (c : Ctx) (k : Key) (r : Option Cgi) : Ctx × List Out :=
  if c.st = .resolve ∧ c.key = k then
    match r with
    | some g => enterSi w { c with cgi := g }
    | none => (goto c .cont, [])
  else (c, [])

/-- gprs_bssgp_rim.c:135-161 `handle_ran_info_response_nacc` for this mobile, nacc_fsm.c:567-591. -/
def rxSi (c : Ctx) (g : Cgi) (v : Si) : Ctx :=
  if c.st = .requestSi ∧ c.cgi = g then enterData { c with si := v } else c

/-- nacc_fsm.c:72-151 `create_packet_neighbour_cell_data`: container, all sent, context. `CONTAINER_INDEX` has five bits. -/
def create (c : Ctx) : Container × Bool × Ctx :=
  let max := if c.idx = 0 then 16 else 18
  let ty := (if c.si.psi then 1 else 0) * 32
  let len := c.si.octets.length - c.sent
  let r : Nat × List Nat × Bool :=
    if len = 0 then (ty, [], true)
    else if len ≥ max then (ty + 31, (c.si.octets.drop c.sent).take max, false)
    else (ty + len % 32, (c.si.octets.drop c.sent).take len, true)
  (⟨c.idx % 32, if c.idx = 0 then some (c.key.arfcn, c.key.bsic) else none,
      r.1 :: (r.2.1 ++ List.replicate (max - r.2.1.length) 0)⟩,
    r.2.2, { c with sent := c.sent + r.2.1.length, idx := c.idx + 1 })

/-- gprs_ms.c:1055-1085 `ms_nacc_rts`, `ms_nacc_create_rlcmac_msg`; nacc_fsm.c:605-630, 639-663. `poll`: frame and slot of
the poll if one can be reserved (153-216 `create_packet_cell_chg_continue`). -/
def rts (c : Ctx) (poll : Option (Nat × Nat)) : Ctx × List Out :=
  match c.st with
  | .data =>
    let r := create c
    (if r.2.1 then goto r.2.2 .cont else r.2.2, [.data r.1])
  | .cont =>
    match poll with
    | none => (c, [])
    | some p => (goto { c with poll := p } .waitAck, [.cont (if c.present then some (c.key.arfcn, c.key.bsic) else none)])
  | _ => (c, [])

/-- An event of the procedure. -/
inductive Ev
  | notify (w : World) (n : Notif)
  | addr (w : World) (k : Key) (r : Option Cgi)
  | si (g : Cgi) (v : Si)
  | rts (poll : Option (Nat × Nat))
  /-- Packet Control Acknowledgement of a poll (pdch.cpp:438-451), poll timeout (tbf.cpp:548-558) -/
  | ack (poll : Nat × Nat)
  | noAck (poll : Nat × Nat)
  /-- nacc_fsm.c:737-746 `nacc_fsm_timer_cb` -/
  | timer

/-- The procedure of a mobile in the cell with `lac` and `ci`. -/
def step (lac ci : Nat) (x : Option Ctx) (e : Ev) : Option Ctx × List Out :=
  match e, x with
  | .notify w n, x => notify lac ci w x n
  | _, none => (none, [])
  | .addr w k r, some c => let r := addr w c k r; (some r.1, r.2)
  | .si g v, some c => (some (rxSi c g v), [])
  | .rts p, some c => let r := rts c p; (some r.1, r.2)
  | .ack p, some c => if c.st = .waitAck ∧ c.poll = p then (none, [.done]) else (some c, [])
  | .noAck p, some c => if c.st = .waitAck ∧ c.poll = p then (some (goto c .cont), []) else (some c, [])
  | .timer, some c => if c.st = .resolve ∨ c.st = .requestSi then (some (goto c .cont), []) else (some c, [])

end Verif.Nacc
