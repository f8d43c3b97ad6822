import Verif.Model.MsStore
import Verif.Model.TbfFsm
/-!
# Assignments of downlink TBFs through the BTS

Immediate Assignments of downlink TBFs (`src/bts.cpp`) and their confirmation by the BTS, with the mobiles of
`Verif.Model.MsStore` and the TBFs of `Verif.Model.TbfFsm`. Identities of mobiles change in any way (`Ev.ids`).
-/

namespace Verif.Confirm

open Verif.Tbf (Dl DlOp Env)

/-- A downlink TBF: the number of the mobile it belongs to (`tbf->ms()`) and its control state. -/
structure TbfOf where
  mob : Nat
  fsm : Dl

/-- The mobiles of a BTS, its downlink TBFs by number, and which of them is `ms->dl_tbf` of a mobile. The others of a mobile are
on its list of old TBFs. -/
structure W where
  ids : Store.St := ⟨[], 0⟩
  tbf : Nat → Option TbfOf := fun _ => none
  cur : Nat → Option Nat := fun _ => none
  next : Nat := 0

/-- An Immediate Assignment for the BTS, bts.cpp:1130-1147 with pcu_l1_if.cpp:259-303: the reference for the confirmation and the IMSI
whose paging group is used; without one it is sent on the AGCH. `tbf`: the TBF that it assigns. -/
structure Msg where
  tbf : Nat
  id : Nat
  imsi : Option (List Nat)
  deriving DecidableEq, Repr

/-- bts.cpp:1107-1150 `bts_snd_dl_ass`, with tbf.cpp `tlli()`, `imsi()`. The message itself is in `Verif.Model.ImmAss`; it can be encoded. -/
def assignment (ids : Store.St) (k i : Nat) : Msg :=
  match Store.get? ids i with
  | some m => ⟨k, m.anyTlli, if m.imsi = [] then none else some m.imsi⟩
  | none => ⟨k, Store.noTlli, none⟩

inductive Ev where
  /-- Mobiles come, go and change their identities. -/
  | ids (s : Store.St)
  /-- A new downlink TBF of a mobile, assigned on the CCCH or the PACCH; `upg`: it is to get more slots later. -/
  | start (i : Nat) (ccch upg : Bool)
  /-- An operation on a TBF. A newer TBF that it starts is a `start` that follows. -/
  | op (k : Nat) (o : DlOp) (env : Env)
  /-- The BTS confirms that it sent the message with this reference. -/
  | confirm (id : Nat)

/-- The TBF `k` with a new control state: the message for the BTS if there is one; tbf.cpp:246-282 `tbf_free`, gprs_ms.c:371-398
`ms_detach_tbf` if it is gone. -/
def put (w : W) (k : Nat) (t : TbfOf) (s : Dl) : W × List Msg :=
  ({ w with
      tbf := fun j => if j = k then (if s.freed then none else some { t with fsm := s }) else w.tbf j
      cur := fun i => if s.freed ∧ w.cur i = some k then none else w.cur i },
    if t.fsm.immAss < s.immAss then [assignment w.ids k t.mob] else [])

/-- gprs_ms.c:1268-1362 `ms_new_dl_tbf_assigned_on_pacch`, `ms_new_dl_tbf_assigned_on_pch` behind the allocation of slots: gprs_ms.c:346-356
`ms_attach_dl_tbf`, tbf_dl.cpp:460-490. What was its TBF has a newer one then (`sup`). -/
def start (w : W) (i : Nat) (ccch upg : Bool) : Option (W × List Msg) :=
  (Tbf.dlDispatch {} { upg := upg } (if ccch then .addCcch else .addPacch)).map fun s =>
    put { w with
      tbf := fun j => (w.tbf j).map fun t => if w.cur i = some j then { t with fsm := { t.fsm with sup := true } } else t
      cur := fun j => if j = i then some w.next else w.cur j
      next := w.next + 1 } w.next ⟨i, { upg := upg }⟩ s

/-- bts.cpp:699-741 `bts_rcv_imm_ass_cnf` without a message; bts.cpp:1239-1242. -/
def confirm (w : W) (id : Nat) : Option W :=
  if id = Store.noTlli then some w
  else match Store.byTlli w.ids id with
    | none => some w
    | some i => match w.cur i with
      | none => some w
      | some k => match w.tbf k with
        | none => some w
        | some t => (Tbf.dlDispatch {} t.fsm .pcuifCnf).map fun s => { w with tbf := fun j => if j = k then some { t with fsm := s } else w.tbf j }

/-- One event, for the configured N3105. -/
def step (lim : Nat) (w : W) : Ev → Option (W × List Msg)
  | .ids s => some ({ w with ids := s }, [])
  | .start i ccch upg => start w i ccch upg
  | .op k o env => match w.tbf k with
    | none => some (w, [])
    | some t => (Tbf.dlStep lim t.fsm o env).map (put w k t)
  | .confirm id => (confirm w id).map (·, [])

end Verif.Confirm
