import Verif.Model.MsCs
import Verif.Model.Vty
/-!
# Limits of the coding schemes in operation

The operator types commands, BTSs announce themselves, mobiles come, report and leave. Model of `src/gprs_pcu.c` 170-214, `src/bts.cpp`
1344-1452 and `src/pcu_l1_if.cpp` 843-871 together with the commands of `Verif.Model.Vty` and the mobiles of `Verif.Model.MsCs`.
-/

namespace Verif.Lim

open Verif.Cs

/-- bts.h:243-262, what concerns coding schemes: `cell` the limits in use, `infoCs`, `infoMcs` what the BTS wants to start with
(`pcuif_info_ind.initial_cs`, `.initial_mcs`), `ms` its mobiles. -/
structure Bts where
  cell : Ms.Cell
  infoCs : Nat
  infoMcs : Nat
  ms : Nat → Option Ms.Ms

/-- The configuration and the BTSs by number. -/
structure St where
  cfg : Vty.Cfg
  bts : Nat → Option Bts

/-- bts.cpp:1400-1425 `bts_recalc_max_cs`. -/
def maxCs (c : Vty.Cfg) (b : Bts) : Bts :=
  { b with cell := { b.cell with maxCsDl := Ms.recalcMax b.cell.csMask c.maxCsDl, maxCsUl := Ms.recalcMax b.cell.csMask c.maxCsUl } }

/-- bts.cpp:1427-1452 `bts_recalc_max_mcs`. -/
def maxMcs (c : Vty.Cfg) (b : Bts) : Bts :=
  { b with cell := { b.cell with maxMcsDl := Ms.recalcMax b.cell.mcsMask c.maxMcsDl, maxMcsUl := Ms.recalcMax b.cell.mcsMask c.maxMcsUl } }

/-- bts.cpp:1354-1362, 1364-1372. -/
def firstCs (info mx : Nat) : Nat :=
  let i := if info > mx then mx else info
  if i = 0 then 1 else i

/-- bts.cpp:1344-1373 `bts_recalc_initial_cs`. -/
def initCs (c : Vty.Cfg) (b : Bts) : Bts :=
  if c.forceCs then { b with cell := { b.cell with initCsDl := c.csDl, initCsUl := c.csUl } }
  else { b with cell := { b.cell with initCsDl := firstCs b.infoCs b.cell.maxCsDl, initCsUl := firstCs b.infoCs b.cell.maxCsUl } }

/-- bts.cpp:1385-1397. -/
def firstMcs (info mx : Nat) : Nat := if info > mx then mx else info

/-- bts.cpp:1374-1398 `bts_recalc_initial_mcs`. -/
def initMcs (c : Vty.Cfg) (b : Bts) : Bts :=
  if c.forceMcs then { b with cell := { b.cell with initMcsDl := c.mcsDl, initMcsUl := c.mcsUl } }
  else { b with cell := { b.cell with initMcsDl := firstMcs b.infoMcs b.cell.maxMcsDl, initMcsUl := firstMcs b.infoMcs b.cell.maxMcsUl } }

/-- What commands do to the BTSs (gprs_pcu.c:170-214, called from pcu_vty.c:478, 489, 511, 521, 541, 552, 573, 583). -/
def calls : Vty.Line → Option (Vty.Cfg → Bts → Bts)
  | [.w "no", .w "cs"] => some initCs
  | [.w "no", .w "cs", .w "max"] => some maxCs
  | [.w "no", .w "mcs"] => some initMcs
  | [.w "no", .w "mcs", .w "max"] => some maxMcs
  | .w "cs" :: .n _ :: _ => some initCs
  | .w "cs" :: .w "max" :: _ => some maxCs
  | .w "mcs" :: .n _ :: _ => some initMcs
  | .w "mcs" :: .w "max" :: _ => some maxMcs
  | _ => none

/-- A command is typed; if it is refused nothing happens. -/
def typed (s : St) (l : Vty.Line) : St :=
  match Vty.exec s.cfg l with
  | none => s
  | some c =>
    match calls l with
    | none => { s with cfg := c }
    | some f => { cfg := c, bts := fun n => (s.bts n).map (f c) }

/-- bts.cpp:286-291: a new BTS. -/
def newBts : Bts where
  cell := {}
  infoCs := 0
  infoMcs := 0
  ms := fun _ => none

/-- pcu_l1_if.cpp:843-871: a BTS announces itself; `cs`, `mcs`: the flags of the schemes it supports, CS-1 and MCS-1 in bit 0. -/
def announce (c : Vty.Cfg) (b : Bts) (cs mcs iCs iMcs : Nat) : Bts :=
  let b := { b with cell := { b.cell with csMask := 1 ||| cs % 16 } }
  let b := maxCs c b
  let b := { b with cell := { b.cell with mcsMask := mcs % 512 } }
  let b := maxMcs c b
  let b := initCs c { b with infoCs := iCs }
  initMcs c { b with infoMcs := iMcs }

/-- pcu_vty.c:924-945: the limits of the error rate (gprs_pcu.h:115-116). -/
def adjOf (c : Vty.Cfg) : Ms.Adj := ⟨c.adjLo, c.adjHi⟩

/-- gprs_pcu.h:120-121 `cs_lqual_ranges`, `mcs_lqual_ranges`; the outer ends are those of gprs_pcu.c:101-127. -/
def rangeOf (c : Vty.Cfg) : CS → Int × Int
  | .unknown => (0, 0)
  | .cs1 => (-256, c.c1h)
  | .cs2 => (c.c2l, c.c2h)
  | .cs3 => (c.c3l, c.c3h)
  | .cs4 => (c.c4l, 256)
  | .mcs1 => (-256, c.m1h)
  | .mcs2 => (c.m2l, c.m2h)
  | .mcs3 => (c.m3l, c.m3h)
  | .mcs4 => (c.m4l, c.m4h)
  | .mcs5 => (c.m5l, c.m5h)
  | .mcs6 => (c.m6l, c.m6h)
  | .mcs7 => (c.m7l, c.m7h)
  | .mcs8 => (c.m8l, c.m8h)
  | .mcs9 => (c.m9l, 256)

/-- What happens to a mobile. -/
inductive MsOp where
  | appear
  | leave
  | egprs
  | rate (now r : Int)
  | qual (q : Option Int)
  | ask (req : Kind) (few : Bool)

/-- `none`: an assertion fails, the PCU stops. -/
def msStep (c : Vty.Cfg) (b : Ms.Cell) (m : Option Ms.Ms) : MsOp → Option (Option Ms.Ms)
  | .appear => some (some (m.getD (Ms.init b)))
  | .leave => some none
  | .egprs => some (m.map (Ms.setEgprsClass b))
  | .rate now r => match m with
    | none => some none
    | some m => (Ms.updateErrorRate b (adjOf c) now m r).map some
  | .qual q => some (m.map fun m => Ms.updateCsUl b (rangeOf c) m q)
  | .ask req few => match m with
    | none => some none
    | some m => (Ms.currentCsDl b m req few).map fun _ => some m

inductive Op where
  | typed (l : Vty.Line)
  | info (n cs mcs iCs iMcs : Nat)
  | ms (n i : Nat) (o : MsOp)

/-- `none`: the PCU stops. -/
def step (s : St) : Op → Option St
  | .typed l => some (typed s l)
  | .info n cs mcs iCs iMcs =>
    some { s with bts := fun k => if k = n then some (announce s.cfg ((s.bts n).getD newBts) cs mcs iCs iMcs) else s.bts k }
  | .ms n i o =>
    match s.bts n with
    | none => some s
    | some b =>
      match msStep s.cfg b.cell (b.ms i) o with
      | none => none
      | some m => some { s with bts := fun k => if k = n then some { b with ms := fun j => if j = i then m else b.ms j } else s.bts k }

/-- The PCU was started with a configuration file. -/
def start (c : Vty.Cfg) : St := ⟨c, fun _ => none⟩

end Verif.Lim
