import Verif.Model.World
import Verif.Model.Ulc
/-!
# Uplink blocks promised to TBFs

The BTS of `Verif.Model.World` together with the uplink controller of each PDCH (`Verif.Model.Ulc`)
and the control slots of the TBFs: `src/pdch_ul_controller.c` as used by `src/tbf.cpp`,
`src/tbf_ul.cpp`, `src/tbf_dl.cpp`, `src/gprs_ms.c` and `src/pdch.cpp`. `none` as a result of an
operation is a failed `OSMO_ASSERT`, the use of the controller of a PDCH that has none, or the use of
a TBF that does not exist any more.

Left out: when the state machines ask for polls, assignments and releases (each may happen at any
time), and what an answer or a missing answer does to a TBF besides releasing it.
-/

namespace Verif.Polls

open Verif.Alloc Verif.Ulc

/-- A BTS with control slots (tbf.h:242 `control_ts`), first common slots (gprs_ms.h:109
`first_common_ts`), both as TRX and slot, and the controllers (pdch.h:164 `ulc`; `none`: NULL). -/
structure Cell where
  w : World
  ctrl : Nat → Option (Nat × Nat)
  fct : Nat → Option (Nat × Nat)
  ulc : Nat → Nat → Option (List Node)

/-- After `bts_alloc`: no PDCH is enabled. -/
def Cell.init : Cell := ⟨World.init, fun _ => none, fun _ => none, fun _ _ => none⟩

def Cell.setUlc (c : Cell) (t s : Nat) (l : Option (List Node)) : Cell :=
  { c with ulc := fun t' s' => if t' = t ∧ s' = s then l else c.ulc t' s' }

def Cell.setCtrl (c : Cell) (b : Nat) (p : Option (Nat × Nat)) : Cell :=
  { c with ctrl := fun b' => if b' = b then p else c.ctrl b' }

def Cell.setFct (c : Cell) (m : Nat) (p : Option (Nat × Nat)) : Cell :=
  { c with fct := fun m' => if m' = m then p else c.fct m' }

/-- `pdch_ulc_release_tbf(pdch->ulc, tbf)`: the controller is dereferenced (pdch_ul_controller.c:262). -/
def relAt (b t : Nat) (c : Cell) (s : Nat) : Option Cell :=
  (c.ulc t s).map fun l => c.setUlc t s (some (releaseTbf l b))

/-- tbf.cpp:225-228: the control slot. -/
def relCtrl (c : Cell) (b : Nat) : Option Cell :=
  match c.ctrl b with
  | none => some c
  | some (t, s) => (relAt b t c s).map fun c => c.setCtrl b none

/-- tbf.cpp:232-236 with pdch.cpp:1221: one slot of TBF `b`, which is `x`. -/
def relSlot (b : Nat) (x : Tbf) (c : Cell) (s : Nat) : Option Cell :=
  if x.slots s = false then some c
  else match x.trx with
    | none => none
    | some t => relAt b t c s

/-- tbf.cpp:214-237: what `tbf_unlink_pdch` does to the controllers and to the control slot. The
changes to the PDCHs are those of `Alloc.unlink`; they do not depend on the controllers. -/
def relTbf (c : Cell) (b : Nat) : Option Cell :=
  (relCtrl c b).bind fun c =>
    match c.w.tbf b with
    | none => none
    | some x => (List.range 8).foldlM (relSlot b x) c

/-- tbf.cpp:246-282 `tbf_free`. -/
def freeC (c : Cell) (b : Nat) : Option Cell :=
  (relTbf c b).bind fun c => (freeTbf c.w b).map fun w => { c with w := w }

/-- Free TBF `b` if there is one. -/
def freeIfC (c : Cell) : Option Nat → Option Cell
  | none => some c
  | some b => freeC c b

/-- tbf.cpp:292-306 `tbf_assign_control_ts`; a mobile without first common slot is an assertion.
Reservations made on the former control slot stay. -/
def assignCtrl (c : Cell) (b m : Nat) : Option Cell :=
  match c.fct m with
  | none => none
  | some p => some (c.setCtrl b (some p))

/-- gprs_ms.c:1167-1176 and the like, with tbf_ul.cpp:707, tbf_dl.cpp:441: TBF `b` of mobile `m` got
the resources shown by `w`. -/
def tookRes (c : Cell) (m b : Nat) (w : World) : Option Cell :=
  match w.tbf b with
  | none => none
  | some x =>
    match x.trx, (w.ms m).fct with
    | some t, some s => assignCtrl (({ c with w := w } : Cell).setFct m (some (t, s))) b m
    | _, _ => none

/-- gprs_ms.c:1134-1227, 1268-1362 (`Alloc.allocTbf`) with the control slot. -/
def allocC (cfg : Cfg) (c : Cell) (m : Nat) (req : Req) (e : Bool) : Option Cell :=
  (allocTbf cfg c.w m req e).bind fun w =>
    if w.tbfN = c.w.tbfN then some { c with w := w } else tookRes c m c.w.tbfN w

/-- gprs_ms.c:1233-1262 `ms_new_ul_tbf_rejected_pacch` on the PDCH `t`, `s`. -/
def rejectC (c : Cell) (m t s : Nat) (e : Bool) : Option Cell :=
  assignCtrl (({ c with w := rejectUl c.w m t s e } : Cell).setFct m (some (t, s))) c.w.tbfN m

/-- pdch.cpp:806-824, the end of `rcv_resource_request`: a Packet Resource Request of mobile `m` came
on the PDCH `t`, `s`. The assignment will be sent on that PDCH, whatever the slots of the new TBF. -/
def requestC (cfg : Cfg) (c : Cell) (m t s : Nat) (e : Bool) : Option Cell :=
  (allocC cfg c m ⟨.ul, false, some t⟩ e).bind fun c' =>
    if c'.w.tbfN = c.w.tbfN then rejectC c' m t s e
    else some (c'.setCtrl c.w.tbfN (some (t, s)))

/-- tbf_dl.cpp:492-537 `dl_tbf_upgrade_to_multislot`. -/
def upgradeC (cfg : Cfg) (c : Cell) (b : Nat) : Option Cell :=
  match c.w.tbf b with
  | none => some c
  | some x =>
    if x.dir = .ul then some c
    else (relTbf c b).bind fun c =>
      (upgrade cfg c.w b).bind fun w =>
        match w.tbf b with
        | none => none
        | some y => if y.trx = none then some { c with w := w } else tookRes c x.ms b w

/-- pdch.cpp:1283-1292: one TFI of `pdch_free_all_tbf`. -/
def freeTfiC (t s : Nat) (c : Cell) (i : Nat) : Option Cell :=
  (freeIfC c ((c.w.pdch t s).tbfs .ul i)).bind fun c => freeIfC c ((c.w.pdch t s).tbfs .dl i)

/-- pdch.cpp:1297-1301: one TBF of the list of uplink TBFs of the TRX. The list is read as all TBFs by
number; the order makes no difference. -/
def freeCtrlC (t s : Nat) (c : Cell) (b : Nat) : Option Cell :=
  match c.w.tbf b with
  | none => some c
  | some x =>
    if x.dir = .ul ∧ x.trx = some t ∧ c.ctrl b = some (t, s) then freeC c b else some c

/-- pdch.cpp:182-207 `disable`, `free_resources`. The reserved slots, the flag and the counter are
those of `Alloc.disablePdch`, which finds no TBF any more. -/
def disableC (c : Cell) (t s : Nat) : Option Cell :=
  ((List.range 32).foldlM (freeTfiC t s) c).bind fun c =>
    ((List.range c.w.tbfN).foldlM (freeCtrlC t s) c).bind fun c =>
      (disablePdch c.w t s []).map fun w => ({ c with w := w } : Cell).setUlc t s none

/-- pdch_ul_controller.h:50-56. -/
def pollUlAss : Nat := 0
def pollDlAss : Nat := 1
def pollUlAck : Nat := 2
def pollDlAck : Nat := 3
def pollCellChgCont : Nat := 4

/-- Does a poll with that reason suit a TBF of that direction? Polls for an uplink acknowledgement are
made by uplink TBFs (tbf_ul_ack_fsm.c:89), those for a downlink acknowledgement by downlink TBFs
(tbf_dl.cpp:882), the others by both (tbf_ul_ass_fsm.c:140, tbf_dl_ass_fsm.c:126, nacc_fsm.c:205). -/
def suits (r : Nat) (d : Dir) : Bool :=
  if r = pollUlAck then d == .ul else if r = pollDlAck then d == .dl else true

/-- tbf.cpp:794-826 `tbf_check_polling`, `tbf_set_polling`: poll TBF `b` in a block sent on the PDCH
`t`, `s` in frame `fn`. -/
def pollC (c : Cell) (b t s fn r : Nat) : Option Cell :=
  match c.w.tbf b with
  | none => some c
  | some x =>
    if c.ctrl b ≠ some (t, s) ∨ suits r x.dir = false then some c
    else match c.ulc t s with
      | none => none
      | some l =>
        match nextFreeRrbp l fn with
        | none => some c
        | some (pfn, _) => some (c.setUlc t s (some (reserve l pfn (.poll b r)).2))

/-- gprs_rlcmac_sched.cpp:434-458: the uplink block `fn` of the PDCH is given to uplink TBF `b`, found
in the PDCH's table of TBFs, if it is nobody's. -/
def usfC (c : Cell) (b t s fn : Nat) : Option Cell :=
  match c.w.tbf b with
  | none => some c
  | some x =>
    if x.dir = .ul ∧ x.trx = some t ∧ x.slots s = true then
      match c.ulc t s with
      | none => none
      | some l => if isFree l fn then some (c.setUlc t s (some (reserve l fn (.usf b)).2)) else some c
    else some c

/-- sba.c:53-72 `sba_alloc` on an enabled PDCH. -/
def sbaC (c : Cell) (t s id lastRts : Nat) : Option Cell :=
  (c.ulc t s).map fun l => c.setUlc t s (some (sbaAlloc l lastRts id).2.2)

/-- What is read from the owner of a block: the TBF with its direction (tbf.cpp:492-499, 563-566;
pdch.cpp:336-960: `tbf_as_ul_tbf`, `tbf_as_dl_tbf`). -/
def touch (c : Cell) : Owner → Option Unit
  | .usf b => (c.w.tbf b).bind fun x => if x.dir = .ul then some () else none
  | .poll b r => (c.w.tbf b).bind fun x => if suits r x.dir then some () else none
  | .sba _ => some ()

/-- pdch.cpp:336-960 `rcv_control_block`, pdch.cpp:1000-1128 `rcv_data_block`: something was received in
block `fn`: its owner is looked up and used, the block is released. -/
def answeredC (c : Cell) (t s fn : Nat) : Option Cell :=
  (c.ulc t s).bind fun l =>
    match getNode l fn with
    | none => some c
    | some n => (touch c n.owner).map fun _ => c.setUlc t s (some (releaseFn l fn).2)

/-- pdch_ul_controller.c:287-331 `pdch_ulc_expire_fn`, one round: the oldest block is removed if it is
not after `fn`, and its owner told. TBFs released by this are released by the next operations. -/
def timeoutC (c : Cell) (t s fn : Nat) : Option Cell :=
  (c.ulc t s).bind fun l =>
    match l with
    | [] => some c
    | n :: l' =>
      if Fn.fncmp n.fn fn > 0 then some c
      else (touch c n.owner).map fun _ => c.setUlc t s (some l')

/-- What happens to the BTS. `assigned b`: TBF `b` learns that its assignment has arrived
(tbf_ul_fsm.c:160, tbf_dl_fsm.c:158, 391). -/
inductive Op where
  | newMs (cls : Nat)
  | setClass (m cls : Nat)
  | alloc (m : Nat) (req : Req) (e : Bool)
  | request (m t s : Nat) (e : Bool)
  | upgrade (b : Nat)
  | free (b : Nat)
  | idle (m : Nat)
  | enable (t s tsc : Nat)
  | disable (t s : Nat)
  | assigned (b : Nat)
  | poll (b t s fn reason : Nat)
  | usf (b t s fn : Nat)
  | sba (t s id lastRts : Nat)
  | answered (t s fn : Nat)
  | timeout (t s fn : Nat)
  deriving DecidableEq, Repr

/-- Is `t`, `s` an enabled PDCH? Blocks are requested, received and expired on such only
(gprs_rlcmac_sched.cpp:411, pcu_l1_if.cpp:344, 550; bts.cpp:600, 1082). -/
def Cell.en (c : Cell) (t s : Nat) : Bool := t < 8 && s < 8 && (c.w.pdch t s).enabled

/-- One operation. As in `Alloc.step`, operations on what does not exist do nothing. -/
def step (cfg : Cfg) (c : Cell) : Op → Option Cell
  | .newMs cls => (Alloc.step cfg c.w (.newMs cls)).map fun w => { c with w := w }
  | .setClass m cls => (Alloc.step cfg c.w (.setClass m cls)).map fun w => { c with w := w }
  | .alloc m req e => if m < c.w.msN then allocC cfg c m req e else some c
  | .request m t s e => if m < c.w.msN ∧ c.en t s = true then requestC cfg c m t s e else some c
  | .upgrade b => upgradeC cfg c b
  | .free b => if (c.w.tbf b).isSome then freeC c b else some c
  | .idle m =>
    if m < c.w.msN then (msIdle c.w m).map fun w =>
      if hasTbf c.w m then { c with w := w } else ({ c with w := w } : Cell).setFct m none
    else some c
  | .enable t s tsc =>
    if t < 8 ∧ s < 8 ∧ (c.w.pdch t s).enabled = false then
      (enablePdch c.w t s tsc).map fun w => ({ c with w := w } : Cell).setUlc t s (some [])
    else some c
  | .disable t s => if c.en t s = true then disableC c t s else some c
  | .assigned b => match c.w.tbf b with
    | none => some c
    | some x => assignCtrl c b x.ms
  | .poll b t s fn r => if c.en t s = true then pollC c b t s fn r else some c
  | .usf b t s fn => if c.en t s = true then usfC c b t s fn else some c
  | .sba t s id l => if c.en t s = true then sbaC c t s id l else some c
  | .answered t s fn => if c.en t s = true then answeredC c t s fn else some c
  | .timeout t s fn => if c.en t s = true then timeoutC c t s fn else some c

def run (cfg : Cfg) (c : Cell) (ops : List Op) : Option Cell := ops.foldlM (step cfg) c

end Verif.Polls
