import Verif.Model.AllocAlgo
/-!
# Establishing and releasing TBFs

Model of the resource side of a BTS: PDCHs, mobiles and TBFs, and the operations changing them
(`src/pdch.cpp`, `src/tbf.cpp`, `src/tbf_ul.cpp`, `src/tbf_dl.cpp`, `src/gprs_ms.c`). TBFs and
mobiles are numbered. `none` as a result of an operation is a failed `OSMO_ASSERT`.

Left out: memory allocation failures, timers, the state machines of the TBFs, the uplink controller
(`Verif.Model.Ulc`), and `control_ts`.
-/

namespace Verif.Alloc

/-- tbf.h `struct gprs_rlcmac_tbf`: direction, owner, EGPRS flag, TFI, TRX, the slots with a PDCH and
the USF per slot (255: USF_INVALID). -/
structure Tbf where
  dir : Dir
  ms : Nat
  egprs : Bool
  tfi : Option Nat
  trx : Option Nat
  slots : Nat → Bool
  usf : Nat → Nat

/-- State of a BTS. `occ`, `occGprs`, `occEgprs` are the stat items STAT_PDCH_OCCUPIED*,
`avail` is STAT_PDCH_AVAILABLE. `made`, `gone`, `fails` are the counters CTR_TBF_UL_ALLOCATED and
CTR_TBF_DL_ALLOCATED, CTR_TBF_UL_FREED and CTR_TBF_DL_FREED, and CTR_TBF_ALLOC_FAIL. -/
structure World where
  pdch : Nat → Nat → Pdch
  msN : Nat
  ms : Nat → Ms
  tbfN : Nat
  tbf : Nat → Option Tbf
  occ : Int
  occGprs : Int
  occEgprs : Int
  avail : Int
  disabled : Bool
  made : Dir → Nat
  gone : Dir → Nat
  fails : Nat

/-- A PDCH after zero initialization of the BTS (bts.cpp `bts_alloc`, talloc_zero). -/
def Pdch.init : Pdch := {
  enabled := false, tsc := 0, gprs := fun _ => 0, egprs := fun _ => 0, reserved := fun _ => 0,
  usfMap := 0, tfiMap := fun _ => 0, tbfs := fun _ _ => none }

/-- A mobile without TBFs. -/
def Ms.idle : Ms := ⟨0, none, 0, 0, none⟩

def World.init : World := {
  pdch := fun _ _ => .init, msN := 0, ms := fun _ => .idle, tbfN := 0, tbf := fun _ => none,
  occ := 0, occGprs := 0, occEgprs := 0, avail := 0, disabled := false,
  made := fun _ => 0, gone := fun _ => 0, fails := 0 }

def World.setPdch (w : World) (t s : Nat) (p : Pdch) : World :=
  { w with pdch := fun t' s' => if t' = t ∧ s' = s then p else w.pdch t' s' }

def World.setMs (w : World) (m : Nat) (x : Ms) : World :=
  { w with ms := fun m' => if m' = m then x else w.ms m' }

def World.setTbf (w : World) (b : Nat) (x : Option Tbf) : World :=
  { w with tbf := fun b' => if b' = b then x else w.tbf b' }

/-- pdch.cpp:1169-1172: change of the counter of the TBF's kind. -/
def Pdch.addNum (p : Pdch) (d : Dir) (egprs attach : Bool) : Pdch :=
  let upd (f : Dir → Nat) : Dir → Nat := fun d' =>
    if d' = d then (if attach then f d + 1 else f d - 1) else f d'
  if egprs then { p with egprs := upd p.egprs } else { p with gprs := upd p.gprs }

/-- pdch.cpp:1148-1173 `num_tbfs_update`. -/
def numTbfsUpdate (w : World) (t s : Nat) (d : Dir) (egprs attach : Bool) : World :=
  let p := w.pdch t s
  let threshold := if attach then 0 else 1
  let inc : Int := if attach then 1 else -1
  let g := p.gprs .ul + p.gprs .dl
  let e := p.egprs .ul + p.egprs .dl
  let w := { w with
    occ := if g + e = threshold then w.occ + inc else w.occ
    occEgprs := if egprs = true ∧ e = threshold then w.occEgprs + inc else w.occEgprs
    occGprs := if egprs = false ∧ g = threshold then w.occGprs + inc else w.occGprs }
  w.setPdch t s (p.addNum d egprs attach)

/-- `map | 1 << i`. -/
def setBit (m i : Nat) : Nat := m ||| (1 <<< i)
/-- `map & ~(1 << i)`. -/
def clrBit (m i : Nat) : Nat := m ^^^ (m &&& (1 <<< i))

/-- pdch.cpp:1184-1190: maps after attaching. -/
def Pdch.put (p : Pdch) (d : Dir) (tfi usf b : Nat) : Pdch := { p with
  usfMap := if d = .ul then setBit p.usfMap usf else p.usfMap
  tfiMap := fun d' => if d' = d then setBit (p.tfiMap d) tfi else p.tfiMap d'
  tbfs := fun d' i => if d' = d ∧ i = tfi then some b else p.tbfs d' i }

/-- pdch.cpp:1213-1219: maps after detaching. -/
def Pdch.drop (p : Pdch) (d : Dir) (tfi usf : Nat) : Pdch := { p with
  usfMap := if d = .ul then clrBit p.usfMap usf else p.usfMap
  tfiMap := fun d' => if d' = d then clrBit (p.tfiMap d) tfi else p.tfiMap d'
  tbfs := fun d' i => if d' = d ∧ i = tfi then none else p.tbfs d' i }

/-- pdch.cpp:1175-1196 `attach_tbf` of TBF `b` with direction `d` and the given TFI and USF. -/
def attachTbf (w : World) (t s : Nat) (b : Nat) (d : Dir) (egprs : Bool) (tfi usf : Nat) : World :=
  let w := numTbfsUpdate w t s d egprs true
  w.setPdch t s ((w.pdch t s).put d tfi usf b)

/-- pdch.cpp:1198-1222 `detach_tbf`; the counter of the TBF's kind must not be zero. -/
def detachTbf (w : World) (t s : Nat) (d : Dir) (egprs : Bool) (tfi usf : Nat) : Option World :=
  if (if egprs then (w.pdch t s).egprs d else (w.pdch t s).gprs d) = 0 then none
  else
    let w := numTbfsUpdate w t s d egprs false
    some (w.setPdch t s ((w.pdch t s).drop d tfi usf))

/-- tbf_ul.cpp:690-704, tbf_dl.cpp:426-438: one slot of `apply_allocated_resources`. -/
def applyStep (b : Nat) (r : Res) (w : World) (ts : Nat) : Option World :=
  match w.tbf b with
  | none => none
  | some x =>
    if x.slots ts = true then none
    else if r.mask.testBit ts = false then some w
    else if x.dir = .ul then
      match r.usf ts with
      | none => none
      | some u =>
        let x' := { x with tfi := some r.tfi,
                           usf := fun s => if s = ts then u else x.usf s,
                           slots := fun s => if s = ts then true else x.slots s }
        some (attachTbf (w.setTbf b (some x')) r.trx ts b x.dir x.egprs r.tfi u)
    else
      let x' := { x with tfi := some r.tfi,
                         slots := fun s => if s = ts then true else x.slots s }
      some (attachTbf (w.setTbf b (some x')) r.trx ts b x.dir x.egprs r.tfi (x.usf ts))

/-- tbf_ul.cpp:678-721, tbf_dl.cpp:414-451 `apply_allocated_resources`. -/
def applyRes (w : World) (b : Nat) (r : Res) : Option World :=
  match w.tbf b with
  | none => none
  | some x => (List.range 8).foldlM (applyStep b r) (w.setTbf b (some { x with trx := some r.trx }))

/-- tbf.cpp:231-237: one slot of `tbf_unlink_pdch`. A TBF with a slot has a TRX and a TFI. -/
def unlinkStep (b : Nat) (w : World) (ts : Nat) : Option World :=
  match w.tbf b with
  | none => none
  | some x =>
    if x.slots ts = false then some w
    else match x.trx, x.tfi with
      | some t, some i =>
        (detachTbf w t ts x.dir x.egprs i (x.usf ts)).map fun w =>
          w.setTbf b (some { x with slots := fun s => if s = ts then false else x.slots s })
      | _, _ => none

/-- tbf.cpp:214-244 `tbf_unlink_pdch`. -/
def unlink (w : World) (b : Nat) : Option World :=
  ((List.range 8).foldlM (unlinkStep b) w).bind fun w =>
    match w.tbf b with
    | none => none
    | some x => some (w.setTbf b (some { x with trx := none }))

/-- `bts_do_rate_ctr_inc` of the counter of a direction. -/
def incCtr (c : Dir → Nat) (d : Dir) : Dir → Nat := fun d' => if d' = d then c d + 1 else c d'

/-- The counter of released TBFs when TBF `b` is released (tbf.cpp:249-257). -/
def goneAfter (w : World) (b : Nat) : Dir → Nat := match w.tbf b with
  | some x => incCtr w.gone x.dir
  | none => w.gone

/-- tbf.cpp:246-282 `tbf_free`. -/
def freeTbf (w : World) (b : Nat) : Option World :=
  (unlink w b).map fun w => { w.setTbf b none with gone := goneAfter w b }

/-- pdch.cpp:1230-1239 `reserve`, `unreserve`. -/
def Pdch.addReserved (p : Pdch) (d : Dir) : Pdch :=
  { p with reserved := fun d' => if d' = d then p.reserved d + 1 else p.reserved d' }
def Pdch.subReserved (p : Pdch) (d : Dir) : Option Pdch :=
  if p.reserved d = 0 then none
  else some { p with reserved := fun d' => if d' = d then p.reserved d - 1 else p.reserved d' }

/-- bts.cpp:1326-1333 `bts_trx_reserve_slots`. -/
def reserveSlots (w : World) (t : Nat) (d : Dir) (slots : Nat) : World :=
  (List.range 8).foldl (fun w s =>
    if slots.testBit s then w.setPdch t s ((w.pdch t s).addReserved d) else w) w

/-- bts.cpp:1335-1342 `bts_trx_unreserve_slots`. -/
def unreserveSlots (w : World) (t : Nat) (d : Dir) (slots : Nat) : Option World :=
  (List.range 8).foldlM (fun w s =>
    if slots.testBit s then ((w.pdch t s).subReserved d).map (w.setPdch t s) else some w) w

/-- gprs_ms.c:990-997: give up the slots reserved so far by the mobile, which is `x`. -/
def dropReserved (w : World) (m : Nat) (x : Ms) : Option World :=
  match x.trx with
  | none => some w
  | some t => (unreserveSlots w t .dl x.dl).bind fun w =>
      (unreserveSlots w t .ul x.ul).map fun w => w.setMs m { x with dl := 0, ul := 0 }

/-- gprs_ms.c:987-1007 `ms_set_reserved_slots`. -/
def setReserved (w : World) (m : Nat) (trx : Option Nat) (ul dl : Nat) : Option World :=
  let x := w.ms m
  (dropReserved w m x).map fun w =>
    match trx with
    | none => w.setMs m { w.ms m with trx := none }
    | some t =>
      reserveSlots (reserveSlots (w.setMs m { x with trx := some t, dl := dl, ul := ul })
        t .dl dl) t .ul ul

/-- gprs_ms.c:1163-1172 and the like: take over the result of the allocation for TBF `b`. -/
def takeRes (w : World) (m b : Nat) (r : Res) : Option World :=
  let x := w.ms m
  ((if r.ul ≠ x.ul ∨ r.dl ≠ x.dl then setReserved w m (some r.trx) r.ul r.dl else some w)).bind
    fun w => applyRes (w.setMs m { w.ms m with fct := some r.fct }) b r

/-- Create TBF number `tbfN` without resources (tbf.cpp:90-136; tbf_ul.cpp:109-126 `ul_tbf_alloc`,
tbf_dl.cpp:109-148 `dl_tbf_alloc`). -/
def newTbf (w : World) (m : Nat) (d : Dir) (egprs : Bool) : World :=
  { (w.setTbf w.tbfN (some ⟨d, m, egprs, none, none, fun _ => false, fun _ => 255⟩)) with
    tbfN := w.tbfN + 1
    made := incCtr w.made d }

/-- Configuration: allocation algorithm and default multislot class. -/
structure Cfg where
  algo : Algo
  dflt : Nat
  deriving DecidableEq, Repr

/-- gprs_ms.c:1134-1227, 1268-1362: `ms_new_ul_tbf_assigned_pacch`, `ms_new_ul_tbf_assigned_agch`,
`ms_new_dl_tbf_assigned_on_pacch`, `ms_new_dl_tbf_assigned_on_pch`. -/
def allocTbf (cfg : Cfg) (w : World) (m : Nat) (req : Req) (egprs : Bool) : Option World :=
  let a := allocate cfg.algo cfg.dflt w.pdch w.disabled (w.ms m) req
  let w := { w with disabled := a.2 }
  match a.1 with
  | none => some { w with fails := w.fails + 1 }
  | some r => takeRes (newTbf w m req.dir egprs) m w.tbfN r

/-- tbf_dl.cpp:492-537 `dl_tbf_upgrade_to_multislot`. -/
def upgrade (cfg : Cfg) (w : World) (b : Nat) : Option World :=
  match w.tbf b with
  | none => some w
  | some x =>
    if x.dir = .ul then some w
    else (unlink w b).bind fun w =>
      let a := allocate cfg.algo cfg.dflt w.pdch w.disabled (w.ms x.ms) ⟨x.dir, false, none⟩
      let w := { w with disabled := a.2 }
      match a.1 with
      | none => some { w with fails := w.fails + 1 }
      | some r => takeRes w x.ms b r

/-- gprs_ms.c:1233-1262 `ms_new_ul_tbf_rejected_pacch`: a TBF without slots. -/
def rejectUl (w : World) (m t s : Nat) (egprs : Bool) : World :=
  let w := w.setMs m { w.ms m with fct := some s }
  let w' := newTbf w m .ul egprs
  w'.setTbf w.tbfN (some ⟨.ul, m, egprs, none, some t, fun _ => false, fun _ => 255⟩)

/-- Does the mobile have a TBF? -/
def hasTbf (w : World) (m : Nat) : Bool :=
  (List.range w.tbfN).any fun b => match w.tbf b with
    | some x => x.ms == m
    | none => false

/-- gprs_ms.c:218-248 `ms_becomes_idle`. Releasing the mobile (gprs_ms.c:182-216) has the same effect
on the reservations. -/
def msIdle (w : World) (m : Nat) : Option World :=
  if hasTbf w m then some w
  else (setReserved w m none 0 0).map fun w => w.setMs m { w.ms m with fct := none }

/-- pdch.cpp:169-180 `enable`; the training sequence is set with it (pcu_l1_if.cpp). -/
def enablePdch (w : World) (t s tsc : Nat) : Option World :=
  if (w.pdch t s).enabled then none
  else some { (w.setPdch t s { w.pdch t s with enabled := true, tsc := tsc }) with avail := w.avail + 1 }

/-- Free TBF `b` if it exists. -/
def freeIf (w : World) (b : Option Nat) : Option World :=
  match b with
  | none => some w
  | some b => freeTbf w b

/-- pdch.cpp:1283-1292: free the TBFs with a TFI on the PDCH. -/
def freeTfi (t s : Nat) (w : World) (i : Nat) : Option World :=
  (freeIf w ((w.pdch t s).tbfs .ul i)).bind fun w => freeIf w ((w.pdch t s).tbfs .dl i)

/-- pdch.cpp:141-152: drop slot `s` of TRX `t` from the reservations of mobile `m`. -/
def unreserveMs (t s : Nat) (w : World) (m : Nat) : Option World :=
  let x := w.ms m
  if x.trx ≠ some t then some w
  else
    let dl := clrBit x.dl s
    let ul := clrBit x.ul s
    if dl = x.dl ∧ ul = x.ul then some w else setReserved w m (some t) ul dl

/-- pdch.cpp:1297-1301. -/
def freeExtra (w : World) (b : Nat) : Option World := if (w.tbf b).isSome then freeTbf w b else some w

/-- pdch.cpp:182-207 `disable`. `extra` are the further uplink TBFs using the PDCH as control slot,
which are freed as well (pdch.cpp:1297-1301). -/
def disablePdch (w : World) (t s : Nat) (extra : List Nat) : Option World :=
  if (w.pdch t s).enabled = false then none
  else ((List.range 32).foldlM (freeTfi t s) w).bind fun w =>
    (extra.foldlM freeExtra w).bind fun w =>
      ((List.range w.msN).foldlM (unreserveMs t s) w).map fun (w : World) =>
        { (w.setPdch t s { w.pdch t s with enabled := false }) with avail := w.avail - 1 }

/-- What happens to the BTS. -/
inductive Op where
  | newMs (cls : Nat)
  | setClass (m cls : Nat)
  | alloc (m : Nat) (req : Req) (egprs : Bool)
  | upgrade (b : Nat)
  | reject (m t s : Nat) (egprs : Bool)
  | free (b : Nat)
  | idle (m : Nat)
  | enable (t s tsc : Nat)
  | disable (t s : Nat) (extra : List Nat)
  deriving DecidableEq, Repr

/-- One operation. Operations on mobiles, TBFs or PDCHs that do not exist, enabling an enabled PDCH
and disabling a disabled one (pcu_l1_if.cpp checks it) do nothing. -/
def step (cfg : Cfg) (w : World) : Op → Option World
  | .newMs cls => some { (w.setMs w.msN ⟨cls, none, 0, 0, none⟩) with msN := w.msN + 1 }
  | .setClass m cls => if m < w.msN then some (w.setMs m { w.ms m with cls := cls }) else some w
  | .alloc m req egprs => if m < w.msN then allocTbf cfg w m req egprs else some w
  | .upgrade b => upgrade cfg w b
  | .reject m t s egprs => if m < w.msN ∧ t < 8 ∧ s < 8 then some (rejectUl w m t s egprs) else some w
  | .free b => freeExtra w b
  | .idle m => if m < w.msN then msIdle w m else some w
  | .enable t s tsc =>
    if t < 8 ∧ s < 8 ∧ (w.pdch t s).enabled = false then enablePdch w t s tsc else some w
  | .disable t s extra =>
    if t < 8 ∧ s < 8 ∧ (w.pdch t s).enabled = true then disablePdch w t s extra else some w

def run (cfg : Cfg) (w : World) (ops : List Op) : Option World := ops.foldlM (step cfg) w

end Verif.Alloc
