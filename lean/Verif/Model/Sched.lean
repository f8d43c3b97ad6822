import Verif.Model.MsCs
import Verif.Model.RlcWindowDl
import Verif.Model.Ulc
/-!
# The scheduler of a PDCH

Model of `src/gprs_rlcmac_sched.cpp`: what is put into the downlink block that the BTS asks for
(`gprs_rlcmac_rcv_rts_block`), who may send in the corresponding uplink block, and the order of
service. The TBFs attached to the PDCH are a snapshot (`Env`) taken at the time of the request;
it may differ arbitrarily from one request to the next. Which control messages can be built
(they may need a free frame for the answer) is part of the snapshot, too.
-/

namespace Verif.Sched

open Verif.Cs Verif.Fn

/-! ### Snapshot of the TBFs -/

/-- State of a TBF as far as the scheduler looks at it. -/
inductive TSt where
  | flow | finished | other
  deriving DecidableEq, Repr

/-- An uplink TBF attached to the PDCH. `usf`: `m_usf[ts]`, `none` for `USF_INVALID`. `mode`: mode
of its mobile. -/
structure UlT where
  id : Nat
  st : TSt
  egprs : Bool
  usf : Option Nat
  mode : Kind
  deriving DecidableEq, Repr

/-- Schemes of an RLC block: `cs_init`, `cs_last`, `cs_current_trans` (rlc.h:75-98). -/
structure Blk where
  ini : CS
  last : CS
  cur : CS
  deriving DecidableEq, Repr

/-- A downlink TBF attached to the PDCH. -/
structure DlT where
  id : Nat
  st : TSt
  egprs : Bool
  /-- `tbf_is_control_ts(tbf, pdch)` -/
  ctrlTs : Bool
  ackLost : Bool
  txCounter : Nat
  ackRequested : Bool
  /-- `m_last_dl_poll_fn`, `m_last_dl_drained_fn`; `none`: -1 -/
  lastPoll : Option Nat
  lastDrained : Option Nat
  haveData : Bool
  w : RlcDl.Win
  blk : Nat → Blk
  ms : Ms.Ms
  /-- few octets left and high error rate (gprs_ms.c:906-912) -/
  few : Bool

/-- Configuration: T3190 and X2031 in ms, ARQ type 1, pre-emptive retransmission, limits of the
BTS, generation of idle blocks on C0. -/
structure Cfg where
  t3190 : Nat
  x2031 : Nat
  arq1 : Bool
  preempt : Bool
  cell : Ms.Cell
  idleC0 : Bool

/-! ### Uplink -/

/-- gprs_rlcmac_sched.cpp:84-94: the conditions under which a TBF is given an uplink block. -/
def ulEligible (gprsOnly : Bool) (t : UlT) : Bool := t.st == .flow && !(gprsOnly && t.egprs)

/-- gprs_rlcmac_sched.cpp:80-100, `n` rounds left. -/
def selUlLoop (ul : Nat → Option UlT) (gprsOnly : Bool) : Nat → Nat → Option (Nat × UlT)
  | 0, _ => none
  | n + 1, tfi =>
    match ul tfi with
    | some t => if ulEligible gprsOnly t then some (tfi, t) else selUlLoop ul gprsOnly n ((tfi + 1) % 32)
    | none => selUlLoop ul gprsOnly n ((tfi + 1) % 32)

/-- gprs_rlcmac_sched.cpp:74-103 `sched_select_uplink`: new `next_ul_tfi` and the TBF with its
TFI. -/
def selUl (ul : Nat → Option UlT) (next : Nat) (gprsOnly : Bool) : Nat × Option (Nat × UlT) :=
  match selUlLoop ul gprsOnly 32 next with
  | some (tfi, t) => ((tfi + 1) % 32, some (tfi, t))
  | none => (next, none)

/-! ### Downlink data -/

/-- tbf_dl.h:37-44 `enum tbf_dl_prio`. -/
inductive Prio where
  | none | sentData | lowAge | newData | highAge | control
  deriving DecidableEq, Repr

def Prio.code : Prio → Nat
  | .none => 0 | .sentData => 1 | .lowAge => 2 | .newData => 3 | .highAge => 4 | .control => 5

/-- tbf_dl.cpp:54 `POLL_ACK_AFTER_FRAMES`. -/
def pollAckAfter : Nat := 20

/-- pcu_utils.h:28-30 `msecs_to_frames`. -/
def msecsToFrames (ms : Nat) : Nat := ms * (1024 * 1000 / 4615) / 1024

/-- tbf_dl.cpp:1177-1188 `frames_since_last`. -/
def framesSince (last : Option Nat) (fn : Nat) : Int :=
  match last with
  | none => -1
  | some l =>
    let wrapped : Int := ((fn : Int) + H - l) % H
    if wrapped < H / 2 then wrapped else wrapped - H

/-- tbf_dl.cpp:1162-1169 `need_poll_for_dl_ack_nack`. -/
def DlT.needPoll (t : DlT) : Bool := t.ackLost || decide (t.txCounter ≥ pollAckAfter) || t.ackRequested

/-- tbf_dl.cpp:1200-1219 `keep_open`. -/
def DlT.keepOpen (c : Cfg) (t : DlT) (fn : Nat) : Bool :=
  c.x2031 ≠ 0 && decide (framesSince t.lastDrained fn ≤ msecsToFrames c.x2031)

/-- gprs_rlcmac_sched.cpp:220-246 `tbf_compute_priority`. -/
def DlT.prio (c : Cfg) (fn : Nat) (t : DlT) : Prio :=
  let age := framesSince t.lastPoll fn
  let th1 := msecsToFrames 200
  let th2 := msecsToFrames (min (c.t3190 / 2) c.x2031)
  if t.ctrlTs && t.needPoll then .control
  else if t.ctrlTs && decide (age > th2) && decide (th2 > 0) then .highAge
  else if (t.st == .flow && t.haveData) || t.w.resendNeeded.isSome then .newData
  else if t.ctrlTs && decide (age > th1) && t.keepOpen c fn then .lowAge
  else if !t.w.empty then .sentData
  else .none

/-- gprs_rlcmac_sched.cpp:249-271 `can_produce_gmsk_data_block_next`. -/
def DlT.canGmsk (t : DlT) (p : Prio) : Bool :=
  if !t.egprs then true
  else match p with
    | .control => true
    | .newData => t.w.resendNeeded.isNone
    | _ => false

/-- gprs_rlcmac_sched.cpp:294-318: priority of a TBF for this block, `none` if it is skipped. -/
def dlPrio (c : Cfg) (fn : Nat) (req : Kind) (t : DlT) : Option Prio :=
  if t.st = .other then none
  else if req = .gprs ∧ t.egprs then none
  else if t.prio c fn = .none then none
  else if req = .egprsGmsk ∧ t.canGmsk (t.prio c fn) = false then none
  else some (t.prio c fn)

/-- gprs_rlcmac_sched.cpp:279: `max_prio` of the best TBF so far. -/
def bestCode : Option (Nat × DlT × Prio) → Nat
  | some (_, _, q) => q.code
  | none => 0

/-- gprs_rlcmac_sched.cpp:287-325: one round of the loop. -/
def better (c : Cfg) (fn : Nat) (req : Kind) (tfi : Nat) (best : Option (Nat × DlT × Prio)) :
    Option DlT → Option (Nat × DlT × Prio)
  | none => best
  | some t => match dlPrio c fn req t with
    | none => best
    | some p => if p.code > bestCode best then some (tfi, t, p) else best

/-- gprs_rlcmac_sched.cpp:285-326: the loop, `n` rounds left; `best`: `prio_tfi`, `prio_tbf`,
`max_prio`. -/
def selDlLoop (c : Cfg) (fn : Nat) (req : Kind) (dl : Nat → Option DlT) :
    Nat → Nat → Option (Nat × DlT × Prio) → Option (Nat × DlT × Prio)
  | 0, _, best => best
  | n + 1, tfi, best =>
    selDlLoop c fn req dl n ((tfi + 1) % 32) (better c fn req tfi best (dl tfi))

/-- gprs_rlcmac_sched.cpp:284-333: new `next_dl_tfi` and the TBF chosen. -/
def selDl (c : Cfg) (fn : Nat) (req : Kind) (dl : Nat → Option DlT) (next : Nat) :
    Nat × Option (Nat × DlT) :=
  match selDlLoop c fn req dl 32 next none with
  | some (tfi, t, _) => ((tfi + 1) % 32, some (tfi, t))
  | none => (next, none)

/-- tbf_dl.cpp:302-324: scheme of a block that is sent again. `none`: an assertion fails. -/
def retxCs (c : Cfg) (egprs : Bool) (b : Blk) (tx : CS) : Option CS :=
  if egprs then
    (getRetx b.ini tx c.arq1).map fun x => if b.ini = .mcs8 then .mcs8 else x
  else some b.last

/-- What `takeNext` reads for the first block of a radio block. -/
def DlT.env (c : Cfg) (t : DlT) : RlcDl.Env :=
  { prev := none, prevEdge := false, len := fun _ => 0, finished := t.st == .finished, haveData := t.haveData, preempt := c.preempt }

/-- The RLC block that is sent: its `cs_init`, its `cs_current_trans` and why it was chosen. -/
structure Chosen where
  ini : CS
  cs : CS
  why : RlcDl.Why
  deriving DecidableEq, Repr

/-- tbf_dl.cpp:266-390, 396-412: the (first) block that is sent. `none`: an assertion fails. -/
def dataCs (c : Cfg) (req : Kind) (t : DlT) : Option Chosen :=
  (Ms.currentCsDl c.cell t.ms (if t.egprs then req else .gprs) t.few).bind fun tx =>
    match RlcDl.takeNext 2 (t.env c) t.w with
    | some (_, some (b, .resend)) =>
      (retxCs c t.egprs (t.blk (b % RlcDl.ring)) tx).map fun x => ⟨(t.blk (b % RlcDl.ring)).ini, x, .resend⟩
    | some (_, some (_, .fresh)) => some ⟨tx, tx, .fresh⟩
    | some (_, some (_, .dummy)) => some ⟨tx, tx, .dummy⟩
    | some (_, some (b, .final)) => some ⟨(t.blk (b % RlcDl.ring)).ini, (t.blk (b % RlcDl.ring)).cur, .final⟩
    | _ => none

/-- tbf_dl.cpp:735-763: scheme of the radio block; a single block of MCS-7, MCS-9 is sent in a
lower scheme (`single`: no second block was found). -/
def radioCs (ini cs : CS) (single : Bool) : CS :=
  if ini = .mcs8 ∧ (cs = .mcs6 ∨ cs = .mcs3) then cs
  else if single ∧ cs ≠ .mcs8 then cs.decToSingle.1
  else cs

/-! ### Control messages -/

/-- State of the uplink assignment as far as the scheduler looks at it. -/
inductive UlAss where
  | idle | send | sendRej | wait
  deriving DecidableEq, Repr

/-- A TBF in the list of the TRX. `ms`: its mobile. -/
structure CtlT where
  id : Nat
  ms : Nat
  ctrlTs : Bool
  tfiAssigned : Bool := true
  ulAck : Bool := false
  dlAss : Bool := false
  ulAss : UlAss := .idle
  /-- `ul_tbf_contention_resolution_done` (uplink only) -/
  crDone : Bool := true
  /-- `ms_nacc_rts` of its mobile -/
  nacc : Bool := false
  deriving DecidableEq, Repr

/-- tbf_ul_ack_fsm.c:257-266 `tbf_ul_ack_rts`. -/
def CtlT.ulAckRts (t : CtlT) : Bool := t.ctrlTs && t.ulAck
/-- tbf_dl_ass_fsm.c:272-301 `tbf_dl_ass_rts`. -/
def CtlT.dlAssRts (up : Bool) (t : CtlT) : Bool := t.ctrlTs && t.dlAss && t.ulAss != .wait && (!up || t.crDone)
/-- tbf_ul_ass_fsm.c:393-402 `tbf_ul_ass_rts`. -/
def CtlT.ulAssRts (t : CtlT) : Bool := t.ctrlTs && (t.ulAss == .send || t.ulAss == .sendRej)
/-- nacc_fsm.c:920-926 `tbf_nacc_rts`. -/
def CtlT.naccRts (t : CtlT) : Bool := t.ctrlTs && t.tfiAssigned && t.nacc

/-- A TBF in one of the two lists; `up`: uplink. -/
structure Ref where
  up : Bool
  t : CtlT
  deriving DecidableEq, Repr

/-- Kinds of control messages of a TBF, in the order of `next_list` (138-141). -/
inductive CK where
  | ulAss | dlAss | ulAck | nacc
  deriving DecidableEq, Repr

def CK.idx : CK → Nat
  | .ulAss => 0 | .dlAss => 1 | .ulAck => 2 | .nacc => 3

/-- The TBF wants to send this kind of message. -/
def Ref.rts (k : CK) (r : Ref) : Bool :=
  match k with
  | .ulAss => r.t.ulAssRts
  | .dlAss => r.t.dlAssRts r.up
  | .ulAck => r.up && r.t.ulAckRts
  | .nacc => r.t.naccRts

/-- The TBFs in the order of `get_ctrl_msg_tbf_candidates` (48-71): uplink list, downlink list. -/
def refs (ul dl : List CtlT) : List Ref := ul.map (⟨true, ·⟩) ++ dl.map (⟨false, ·⟩)

/-- gprs_rlcmac_sched.cpp:41-72 `get_ctrl_msg_tbf_candidates`: the last TBF wins. -/
def cand (ul dl : List CtlT) (k : CK) : Option Ref :=
  (refs ul dl).foldl (fun a r => if r.rts k then some r else a) none

/-- Same TBF: pointer comparison. -/
def same (a : Option Ref) (r : Ref) : Bool :=
  match a with
  | some x => x.up == r.up && x.t.id == r.t.id
  | none => false

/-- gprs_rlcmac_sched.cpp:157-166: which message is tried for the TBF of an entry of the list. -/
def entryKind (cd : CK → Option Ref) (r : Ref) : Option CK :=
  if same (cd .ulAss) r && r.t.ulAss == .sendRej then some .ulAss
  else if same (cd .ulAss) r && !r.up then some .ulAss
  else if same (cd .dlAss) r && r.up then some .dlAss
  else if same (cd .ulAck) r then some .ulAck
  else if same (cd .nacc) r then some .nacc
  else none

/-- `next_list`, 138-141. -/
def entry (cd : CK → Option Ref) (i : Nat) : Option Ref :=
  match i % 4 with
  | 0 => cd .ulAss | 1 => cd .dlAss | 2 => cd .ulAck | _ => cd .nacc

/-- gprs_rlcmac_sched.cpp:148-166: the attempt at one entry of the list; `mk`: whether a message
of this kind can be built for this TBF. -/
def tryEntry (mk : CK → Ref → Bool) (cd : CK → Option Ref) (i : Nat) : Option (CK × Ref) :=
  (entry cd i).bind fun r => (entryKind cd r).bind fun k => if mk k r then some (k, r) else none

/-- gprs_rlcmac_sched.cpp:147-175: the loop, `n` entries left from index `i` on. -/
def ctrlLoop (mk : CK → Ref → Bool) (cd : CK → Option Ref) : Nat → Nat → Option (CK × Ref)
  | 0, _ => none
  | n + 1, i =>
    match tryEntry mk cd i with
    | some x => some x
    | none => ctrlLoop mk cd n (i + 1)

/-- gprs_rlcmac_sched.cpp:178-191: assignments of the own direction. -/
def ctrlFallback (mk : CK → Ref → Bool) (cd : CK → Option Ref) : Option (CK × Ref) :=
  match cd .dlAss with
  | some r => if mk .dlAss r then some (.dlAss, r) else none
  | none => match cd .ulAss with
    | some r => if mk .ulAss r then some (.ulAss, r) else none
    | none => none

/-- Application information (ETWS) of a BTS: stored message, `bts->app_info_pending` (uint32_t),
flags of the mobiles. -/
structure App where
  info : Option Nat := none
  count : Nat := 0
  flag : Nat → Bool := fun _ => false

/-- gprs_rlcmac_sched.cpp:105-131 `sched_app_info`: message and state. -/
def schedApp (a : App) (r : Option Ref) : Option Nat × App :=
  match r with
  | none => (none, a)
  | some r =>
    if a.flag r.t.ms then
      let n := (a.count + 2 ^ 32 - 1) % 2 ^ 32
      (a.info, { info := if n = 0 then none else a.info, count := n, flag := fun m => if m = r.t.ms then false else a.flag m })
    else (none, a)

/-- pcu_l1_if.cpp:1135-1167 `pcu_rx_app_info_req`: message `m`, mobiles with a downlink TBF. The
flags of other mobiles are left alone. -/
def appReq (m : Nat) (withDl : List Nat) (a : App) : App :=
  let a1 : App := { a with count := withDl.length % 2 ^ 32, flag := fun x => x ∈ withDl || a.flag x }
  if a1.count = 0 then a1 else { a1 with info := some m }

/-- gprs_ms.c:168, 182-217: the object of a mobile is freed; its flag vanishes (168: it is not
set in the object created for it next). The counter of the BTS is left alone. -/
def appFree (x : Nat) (a : App) : App := { a with flag := fun y => if y = x then false else a.flag y }

/-- tbf.cpp:637-644 `rotate_in_list`: the TBF becomes the first of its list. -/
def rotate (l : List CtlT) (id : Nat) : List CtlT :=
  l.filter (·.id == id) ++ l.filter (·.id != id)

/-- Result of `sched_select_ctrl_msg`. -/
inductive Ctrl where
  | msg (k : CK) (r : Ref)
  | app (m : Nat)
  | paging
  deriving DecidableEq, Repr

/-! ### The request of the BTS -/

/-- Snapshot at the time of the request. -/
structure Env where
  /-- frame and block number of the request -/
  fn : Nat
  block : Nat
  /-- TBFs of the PDCH by TFI (0..31) -/
  ul : Nat → Option UlT
  dl : Nat → Option DlT
  /-- TBF owning a poll, by its identifier: uplink TBF, if it is one -/
  poll : Nat → Option UlT
  /-- lists of the TRX -/
  trxUl : List CtlT
  trxDl : List CtlT
  /-- messages that can be built now -/
  can : CK → Ref → Bool
  /-- a Packet Paging Request is available -/
  paging : Bool
  /-- TRX 0 (C0) -/
  c0 : Bool
  /-- no second RLC block is available for the radio block -/
  single : Bool

/-- State of the scheduler. -/
structure St where
  nextUl : Nat := 0
  nextDl : Nat := 0
  nextCtrl : Nat := 0
  noCs14 : Nat := 0
  ulc : List Ulc.Node := []
  app : App := {}

/-- Contents of a downlink block. -/
inductive Block where
  /-- control message: CS-1 -/
  | ctrl (c : Ctrl)
  /-- data of the TBF with this TFI -/
  | data (tfi : Nat) (egprs : Bool) (cs : CS)
  | dummy
  | empty
  deriving DecidableEq, Repr

/-- What the request leads to: block, USF in it (if there is a block), TBF whose USF it is, and
the TFI of this TBF if the uplink block is given to it for data. -/
structure Out where
  blk : Block
  usf : Nat
  usfTbf : Option UlT
  grant : Option Nat
  deriving DecidableEq, Repr

/-- gprs_rlcmac_sched.cpp:193-207: a message for which the local variable `tbf` is not set is
dropped. -/
def dispatch (m : Ctrl) (tbf : Option Ref) : Option Ctrl := tbf.map fun _ => m

/-- gprs_rlcmac_sched.cpp:133-218 `sched_select_ctrl_msg`: message, `next_ctrl_prio`, application
information. The local variable `tbf` is only set in the loop (148) and in the fallback (185,
188). `rotate_in_list` (201) is modelled by `listsAfter`. -/
def selCtrl (e : Env) (next : Nat) (a : App) : Option Ctrl × Nat × App :=
  let cd := cand e.trxUl e.trxDl
  match schedApp a (cd .dlAss) with
  | (some m, a') => (dispatch (.app m) none, next, a')
  | (none, a') =>
    match ctrlLoop e.can cd 4 next with
    | some (k, r) => (dispatch (.msg k r) (some r), (next + 1) % 4, a')
    | none => match ctrlFallback e.can cd with
      | some (k, r) => (dispatch (.msg k r) (some r), next, a')
      | none => (if e.paging then some .paging else none, next, a')

/-- Result of the choice of the USF: `next_ul_tfi`, tree, TBF whose USF is sent, and its TFI if the
uplink block is given to it for data. -/
structure UsfSel where
  next : Nat
  ulc : List Ulc.Node
  usf : Option UlT
  grant : Option Nat

/-- gprs_rlcmac_sched.cpp:453-458: the block is given to the TBF that was selected. -/
def grantUl (ulc : List Ulc.Node) (pfn : Nat) : Nat × Option (Nat × UlT) → UsfSel
  | (n, some (tfi, t)) => ⟨n, (Ulc.reserve ulc pfn (.usf t.id)).2, some t, some tfi⟩
  | (n, none) => ⟨n, ulc, none, none⟩

/-- pdch_ul_controller.c:88-102 `pdch_ulc_get_sba`, `pdch_ulc_get_tbf_poll` and
gprs_rlcmac_sched.cpp:435-458: who gets the uplink block. -/
def selUsf (e : Env) (s : St) (gprsOnly : Bool) : UsfSel :=
  let pfn := rtsNextFn e.fn e.block
  match (Ulc.getNode s.ulc pfn).map (fun (n : Ulc.Node) => n.owner) with
  | some (.sba _) => ⟨s.nextUl, s.ulc, none, none⟩
  | some (.poll t _) => ⟨s.nextUl, s.ulc, (e.poll t).bind fun u => if u.usf.isSome then some u else none, none⟩
  | _ => grantUl s.ulc pfn (selUl e.ul s.nextUl gprsOnly)

/-- pdch.h:42 `MS_RESYNC_NUM_FRAMES`. -/
def resync : Nat := 18

/-- pdch.cpp:1224-1228 `has_gprs_only_tbf_attached`. -/
def gprsAttached (e : Env) : Bool :=
  (List.range 32).any fun i => (e.ul i).any (!·.egprs) || (e.dl i).any (!·.egprs)

/-- 487-489: TBFs attached to the PDCH. -/
def anyTbf (e : Env) : Bool := (List.range 32).any fun i => (e.ul i).isSome || (e.dl i).isSome

/-- gprs_rlcmac_sched.cpp:419-462: restriction of the coding scheme. -/
def reqKind (gprsOnly : Bool) (usf : Option UlT) : Kind :=
  if gprsOnly then .gprs
  else match usf with
    | some t => if t.mode ≠ .egprs then .egprsGmsk else .egprs
    | none => .egprs

/-- `usf_tbf->m_usf[ts]`, lowest three bits (517-518 without a TBF: `USF_UNUSED`). -/
def usfOf (t : Option UlT) : Nat :=
  match t with
  | some t => (t.usf.getD 255) % 8
  | none => 7

/-- Result of the choice of the block: contents, `tx_is_egprs`, pointers, application
information. -/
structure BlkSel where
  blk : Block
  isEgprs : Bool
  nextDl : Nat
  nextCtrl : Nat
  app : App

/-- gprs_rlcmac_sched.cpp:476-500: dummy block or nothing. -/
def idleBlock (c : Cfg) (e : Env) : Block :=
  if anyTbf e || (c.idleC0 && e.c0) then .dummy else .empty

/-- gprs_rlcmac_sched.cpp:466-500: contents of the block. `none`: an assertion fails while the
data block is built. -/
def selBlock (c : Cfg) (e : Env) (s : St) (req : Kind) : Option BlkSel :=
  match selCtrl e s.nextCtrl s.app with
  | (some m, nc, a) => some ⟨.ctrl m, false, s.nextDl, nc, a⟩
  | (none, nc, a) =>
    match selDl c e.fn req e.dl s.nextDl with
    | (nd, some (tfi, t)) =>
      (dataCs c req t).map fun x => ⟨.data tfi t.egprs (radioCs x.ini x.cs e.single), t.egprs, nd, nc, a⟩
    | (nd, none) => some ⟨idleBlock c e, false, nd, nc, a⟩

/-- gprs_rlcmac_sched.cpp:424 `require_gprs_only`. -/
def St.gprsOnly (s : St) : Bool := s.noCs14 == resync - 1

/-- gprs_rlcmac_sched.cpp:390-528 `gprs_rlcmac_rcv_rts_block` on an enabled PDCH. -/
def rts (c : Cfg) (e : Env) (s : St) : Option (St × Out) :=
  let u := selUsf e s s.gprsOnly
  (selBlock c e s (reqKind s.gprsOnly u.usf)).map fun (b : BlkSel) =>
    (⟨u.next, b.nextDl, b.nextCtrl, if b.isEgprs && gprsAttached e then s.noCs14 + 1 else 0, u.ulc, b.app⟩,
     ⟨b.blk, usfOf u.usf, u.usf, u.grant⟩)

/-- gprs_rlcmac_sched.cpp:201: lists of the TRX after a control message was sent. -/
def listsAfter (e : Env) : Block → List CtlT × List CtlT
  | .ctrl (.msg _ r) => if r.up then (rotate e.trxUl r.t.id, e.trxDl) else (e.trxUl, rotate e.trxDl r.t.id)
  | _ => (e.trxUl, e.trxDl)

end Verif.Sched
