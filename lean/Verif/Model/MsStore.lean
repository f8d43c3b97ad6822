import Verif.Model.LlcQueue
/-!
# Mobiles of a BTS: identities, merging and life time

Model of the mobile list of `src/bts.cpp` and of the identity, reference and merge functions of
`src/gprs_ms.c`, of the bookkeeping of LLC frames in a downlink TBF (`src/tbf_dl.cpp`) and of the
reception of a downlink PDU (`src/tbf_dl.cpp`, `src/gprs_bssgp_pcu.c`). `none` is a failed assertion
or an endless loop. Coding schemes are in `Verif.Model.MsCs`, reserved slots in `Verif.Model.World`,
what TBFs do in `Verif.Model.TbfFsm`; here a TBF is what concerns its mobile.
-/

namespace Verif.Store

open Verif.Llc (Frame Queue)

/-- `GSM_RESERVED_TMSI`: no TLLI. -/
def noTlli : Nat := 0xffffffff

/-- A downlink TBF (tbf_dl.h:54-121) as far as LLC frames go: `tx` is `m_llc` with its priority if
a frame is in transmission, `sent` is `tx_llc_until_first_dl_ack_rcvd` (last one first), `acked` is
`m_first_dl_ack_rcvd`. `timers`: some timer of the TBF is pending (tbf.cpp `tbf_timers_pending`). -/
structure DlTbf where
  tx : Option (Frame × Nat) := none
  sent : List (Frame × Nat) := []
  acked : Bool := false
  timers : Bool := false
  deriving DecidableEq, Repr

/-- gprs_ms.h:53-122 `struct GprsMs`. `ul`, `old`: of other TBFs only whether a timer is pending.
`refs`: users other than TBFs. `releasing`: when the release
timer runs out, if it runs. -/
structure Mob where
  tlli : Nat
  newUl : Nat
  newDl : Nat
  imsi : List Nat
  msClass : Nat
  egprsClass : Nat
  q : Queue
  ul : Option Bool
  dl : Option DlTbf
  old : List Bool
  refs : Nat
  releasing : Option Nat

/-- `bts->ms_list` with a number for each object, and the next number. -/
structure St where
  ms : List (Nat × Mob)
  next : Nat

/-- gprs_ms.h:188-196 `ms_tlli`. -/
def Mob.anyTlli (m : Mob) : Nat :=
  if m.newUl ≠ noTlli then m.newUl else if m.tlli ≠ noTlli then m.tlli else m.newDl

/-- gprs_ms.h:198-202 `ms_check_tlli`. -/
def Mob.check (m : Mob) (t : Nat) : Bool := t ≠ noTlli && (t = m.tlli || t = m.newUl || t = m.newDl)

/-- gprs_ms.c:492-503 `ms_apply_tlli_change`. -/
def Mob.applyTlli (m : Mob) (t : Nat) : Mob := { m with tlli := t, newDl := noTlli, newUl := noTlli }

/-- gprs_ms.c:506-526 `ms_set_tlli`. -/
def Mob.setTlli (m : Mob) (t : Nat) : Mob :=
  if t = m.tlli ∨ t = m.newUl then m
  else if t ≠ m.newDl then { m with newUl := t }
  else m.applyTlli t

/-- gprs_ms.c:529-553 `ms_confirm_tlli`. -/
def Mob.confirmTlli (m : Mob) (t : Nat) : Mob :=
  if t = m.tlli ∨ t = m.newDl then m
  else if t ≠ m.newUl then { m with newDl := t }
  else m.applyTlli t

/-- Number of users (`osmo_use_count_total`): one per TBF and the others. -/
def Mob.users (m : Mob) : Nat :=
  (if m.ul.isSome then 1 else 0) + (if m.dl.isSome then 1 else 0) + m.old.length + m.refs

/-- gprs_ms.c:125-171 `ms_alloc`; `codel`: the configured interval. -/
def newMob (codel refs : Nat) : Mob :=
  { tlli := noTlli, newUl := noTlli, newDl := noTlli, imsi := [], msClass := 0, egprsClass := 0
    q := Llc.initQueue codel, ul := none, dl := none, old := [], refs := refs, releasing := none }

def get? (s : St) (i : Nat) : Option Mob := (s.ms.find? (·.1 = i)).map (·.2)

/-- Change object `i` in place. -/
def modify (s : St) (i : Nat) (f : Mob → Mob) : St :=
  { s with ms := s.ms.map fun p => if p.1 = i then (p.1, f p.2) else p }

/-- gprs_ms.c:182-217: the destructor takes the object off the list. -/
def free (s : St) (i : Nat) : St := { s with ms := s.ms.filter (·.1 ≠ i) }

/-- gprs_ms.c:134 `llist_add`: a new object comes first. -/
def alloc (s : St) (codel refs : Nat) : St × Nat :=
  ({ ms := (s.next, newMob codel refs) :: s.ms, next := s.next + 1 }, s.next)

/-- bts.cpp:1211-1237 `bts_get_ms`. -/
def getMs (s : St) (tlli old : Nat) (imsi : List Nat) : Option Nat :=
  match (if tlli ≠ noTlli ∨ old ≠ noTlli then s.ms.find? (fun p => p.2.check tlli || p.2.check old) else none) with
  | some p => some p.1
  | none =>
    if imsi ≠ [] then (s.ms.find? (fun p => p.2.imsi ≠ [] && p.2.imsi = imsi)).map (·.1) else none

/-- bts.cpp:1239-1242 `bts_get_ms_by_tlli`. -/
def byTlli (s : St) (t : Nat) : Option Nat := getMs s t noTlli []

/-- bts.cpp:1244-1247 `bts_get_ms_by_imsi`. -/
def byImsi (s : St) (i : List Nat) : Option Nat := getMs s noTlli noTlli i

/-- The time in seconds and the configured timer X2030 (`timer X2030`, `ms-idle-time`). -/
structure Clock where
  now : Nat
  x2030 : Nat

/-- gprs_ms.c:68-99 `ms_use_cb` and 220-248 `ms_becomes_idle` when the last user is gone. The timer is scheduled anew
if it runs already. -/
def checkIdle (k : Clock) (s : St) (i : Nat) : St :=
  match get? s i with
  | none => s
  | some m =>
    if m.users ≠ 0 then s
    else if k.x2030 = 0 ∨ m.anyTlli = noTlli then free s i
    else modify s i fun m => { m with releasing := some (k.now + k.x2030) }

/-- `ms_unref` of a user that is not a TBF. -/
def unref (k : Clock) (s : St) (i : Nat) : St :=
  checkIdle k (modify s i fun m => { m with refs := m.refs - 1 }) i

/-- tbf_dl.cpp:1141-1159 `dl_tbf_copy_unacked_pdus_to_llc_queue`. -/
def copyBack (q : Queue) (t : DlTbf) : Queue :=
  t.sent.foldl (fun q x => Llc.prepend q x.1 x.2) (t.tx.toList.foldl (fun q x => Llc.prepend q x.1 x.2) q)

/-- gprs_ms.c:400-426 `ms_reset`. The loop over the old TBFs (413-417) does not end if one of them
has a timer pending: `none`. -/
def Mob.reset (m : Mob) : Option Mob :=
  if m.old.any id then none
  else some { m with ul := m.ul.filter id, dl := m.dl.filter (·.timers), old := []
                     tlli := noTlli, newDl := noTlli, newUl := noTlli, imsi := [] }

/-- gprs_ms.c:469-480: what the surviving object takes over, apart from the queue. -/
def Mob.takeOver (m o : Mob) : Mob :=
  { m with imsi := if m.imsi = [] ∧ o.imsi ≠ [] then o.imsi else m.imsi
           msClass := if m.msClass = 0 ∧ o.msClass ≠ 0 then o.msClass else m.msClass
           egprsClass := if m.egprsClass = 0 ∧ o.egprsClass ≠ 0 then o.egprsClass else m.egprsClass }

/-- gprs_ms.c:481-484: the queue of the old object with what its downlink TBF has not delivered. -/
def Mob.backlog (o : Mob) : Queue :=
  match o.dl with
  | none => o.q
  | some t => copyBack o.q t

/-- The downlink TBF after `dl_tbf_copy_unacked_pdus_to_llc_queue`: the list of sent frames is
empty. -/
def Mob.drained (o : Mob) : Mob := { o with dl := o.dl.map fun t : DlTbf => { t with sent := [] } }

/-- gprs_ms.c:456-489 `ms_merge_and_clear_ms`: `o` into `i`. -/
def merge (k : Clock) (s : St) (i o : Nat) : Option St :=
  if o = i then none
  else match get? s i, get? s o with
  | some m, some om =>
    match om.drained.reset with
    | none => none
    | some om' =>
      let qs := Llc.moveAndMerge m.q om.backlog
      let s1 := modify s i fun m => { m.takeOver om with q := qs.1 }
      let s2 := modify s1 o fun _ => { om' with q := qs.2 }
      some (checkIdle k s2 o)
  | _, _ => none

/-- gprs_ms.c:434-452 `ms_update_announced_tlli`. -/
def announce (k : Clock) (s : St) (i t : Nat) : Option St :=
  if t = noTlli then some s
  else match get? s i with
  | none => none
  | some m =>
    let old := if m.check t then none else byTlli s t
    let s1 := modify s i (·.setTlli t)
    match old with
    | none => some s1
    | some o => merge k s1 i o

/-- gprs_ms.c:555-602 `ms_set_imsi`. The buffer is long enough for every IMSI. -/
def setImsi (k : Clock) (s : St) (i : Nat) (imsi : List Nat) : Option St :=
  if imsi ≠ [] ∧ imsi.length < 3 then some s
  else match get? s i with
  | none => none
  | some m =>
    if imsi = m.imsi then some s
    else
      let s1 := match byImsi s imsi with
        | none => some s
        | some o => merge k s i o
      s1.map fun s => modify s i fun m => { m with imsi := imsi }

/-- gprs_ms.c:334-379 `ms_attach_tbf` for a new downlink TBF. -/
def Mob.attachDl (m : Mob) (timers : Bool) : Mob :=
  { m with old := m.old ++ (m.dl.map (·.timers)).toList, dl := some { timers := timers }, releasing := none }

/-- gprs_ms.c:334-379 `ms_attach_tbf` for a new uplink TBF. -/
def Mob.attachUl (m : Mob) (timers : Bool) : Mob :=
  { m with old := m.old ++ m.ul.toList, ul := some timers, releasing := none }

/-- Arguments of a downlink PDU: TLLI, old TLLI, IMSI (`[]` inside `some`: an empty string), MS
classes, LLC frame with time of reception and expiry; `att`: whether and with which timers a
downlink TBF is started for it (gprs_ms.c:1364-1412). -/
structure Pdu where
  tlli : Nat
  old : Nat := noTlli
  imsi : Option (List Nat) := none
  msClass : Nat := 0
  egprsClass : Nat := 0
  data : List Nat := []
  now : Int := 0
  expire : Int := 0
  att : Option Bool := none

/-- tbf_dl.cpp:201-220: find the mobile of a PDU and merge what belongs together; the mobile and
whether it is new. -/
def findMs (k : Clock) (codel : Nat) (s : St) (p : Pdu) : Option (St × Nat × Bool) :=
  match getMs s p.tlli p.old (p.imsi.getD []) with
  | some i =>
    match get? s i, p.imsi with
    | some m, some imsi =>
      if m.imsi = [] then
        match byImsi s imsi with
        | some o => if o ≠ i then (merge k s i o).map fun s => (s, i, false) else some (s, i, false)
        | none => some (s, i, false)
      else some (s, i, false)
    | _, _ => some (s, i, false)
  | none => let a := alloc s codel 1; some (a.1, a.2, true)

/-- tbf_dl.cpp:222-229 and gprs_ms.c:1364-1412: TLLI, classes, frame, TBF. -/
def Mob.accept (m : Mob) (p : Pdu) : Mob :=
  let m := m.confirmTlli p.tlli
  let m := { m with msClass := if m.msClass = 0 ∧ p.msClass ≠ 0 then p.msClass else m.msClass
                    egprsClass := if m.egprsClass = 0 ∧ p.egprsClass ≠ 0 then p.egprsClass else m.egprsClass
                    q := Llc.enqueue m.q p.data p.now p.expire }
  match p.att with
  | none => m
  | some t => m.attachDl t

/-- tbf_dl.cpp:187-237 `dl_tbf_handle`. -/
def dlHandle (k : Clock) (codel : Nat) (s : St) (p : Pdu) : Option St :=
  match findMs k codel s p with
  | none => none
  | some (s1, i, new) =>
    match (match p.imsi with | none => some s1 | some imsi => setImsi k s1 i imsi) with
    | none => none
    | some s2 =>
      let s3 := modify s2 i (·.accept p)
      some (if new then unref k s3 i else s3)

/-- pdch.cpp:649-657: the mobile of a Packet Resource Request with a TLLI, found or made. -/
def reqMs (codel : Nat) (s : St) (t : Nat) : St × Nat :=
  match byTlli s t with
  | some i => (s, i)
  | none => let a := alloc s codel 0; (modify a.1 a.2 (·.setTlli t), a.2)

/-- An uplink TBF may be started. -/
def attachOpt (s : St) (i : Nat) : Option Bool → St
  | none => s
  | some timers => modify s i (·.attachUl timers)

/-- pdch.cpp:648-670, 822-825: a Packet Resource Request with a TLLI; `att`: whether an uplink TBF
is started. -/
def resourceReq (k : Clock) (codel : Nat) (s : St) (t : Nat) (att : Option Bool) : St :=
  let x := reqMs codel s t
  unref k (attachOpt (modify x.1 x.2 fun m => { m with refs := m.refs + 1 }) x.2 att) x.2

/-- pdch.cpp:832-870: a measurement report. -/
def measReport (k : Clock) (codel : Nat) (s : St) (t : Nat) : St :=
  match byTlli s t with
  | some _ => s
  | none =>
    let a := alloc s codel 1
    unref k (modify a.1 a.2 (·.setTlli t)) a.2

/-! ### Downlink TBF and LLC frames -/

/-- tbf_dl.cpp:539-557 `schedule_next_frame`. -/
def schedNext (now hyst : Int) (q : Queue) (t : DlTbf) : Queue × DlTbf :=
  match t.tx with
  | some _ => (q, t)
  | none => let r := Llc.dequeue now hyst q; (r.1, { t with tx := r.2.2 })

/-- llc.c: `llc_put_dummy_frame` with priority and times as left by `llc_reset`; `n` stuffing
octets. -/
def dummy (n : Nat) : Frame × Nat := (⟨[0x43, 0xc0, 0x01, 0x2b, 0x2b, 0x2b] ++ List.replicate n 0x2b, 0, 0⟩, 0)

/-- tbf_dl.cpp:624-636: nothing to send. -/
def putDummy (n : Nat) (t : DlTbf) : DlTbf := match t.tx with | some _ => t | none => { t with tx := some (dummy n) }

/-- tbf_dl.cpp:666-675: the frame in transmission is complete. -/
def complete (t : DlTbf) : DlTbf :=
  match t.tx with
  | none => t
  | some x => { t with sent := if t.acked then t.sent else x :: t.sent, tx := none }

/-- tbf_dl.cpp:1087-1095: a Downlink Ack/Nack. -/
def dlAck (t : DlTbf) : DlTbf := if t.acked then t else { t with sent := [], acked := true }

/-! ### BSSGP -/

/-- A DL-UNITDATA: TLLI of the header and value octets of information elements if present; the IMSI
and the MS classes are decoded. -/
structure DlUd where
  tlli : Nat
  imsi : Option (List Nat) := none
  msClass : Nat := 0
  egprsClass : Nat := 0
  lifetime : Option (List Nat) := none
  tlliOld : Option (List Nat) := none
  llc : Option (List Nat) := none

/-- `osmo_load16be` of the first two octets (`tlvp_val16be`). -/
def load16 (l : List Nat) : Nat := l.headD 0 * 256 + (l.drop 1).headD 0

/-- gprs_bssgp_pcu.c:167-176: the old TLLI of a DL-UNITDATA. The length of an absent IE is 0. -/
def oldTlli (u : DlUd) : Nat :=
  match u.tlliOld with
  | none => noTlli
  | some v => if (u.lifetime.getD []).length = 2 then load16 v else noTlli

/-- gprs_bssgp_pcu.c:152-165: the lifetime of a DL-UNITDATA in centiseconds. -/
def DlUd.csec (u : DlUd) : Nat :=
  match u.lifetime with
  | none => 0xffff
  | some v => if v.length = 2 then load16 v else 0xffff

/-- gprs_bssgp_pcu.c:95-184 `gprs_bssgp_pcu_rx_dl_ud` and tbf_dl.cpp:187-199. `force`: configured
lifetime, `att`: see `Pdu`. A message that is refused changes nothing. Decoding of IMSI and radio
access capability is not modelled. -/
def rxDlUd (k : Clock) (codel : Nat) (s : St) (u : DlUd) (force : Nat) (now : Int) (att : Option Bool) : Option St :=
  match u.llc with
  | none => some s
  | some data =>
    if data.length > 1543 then some s
    else dlHandle k codel s
      { tlli := u.tlli, old := oldTlli u, imsi := u.imsi, msClass := u.msClass, egprsClass := u.egprsClass
        data := data, now := now, expire := Llc.lifetime force u.csec now, att := att }

end Verif.Store
