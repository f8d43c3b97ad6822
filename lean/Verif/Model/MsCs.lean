import Verif.Model.CodingScheme
/-!
# Coding scheme selection of a mobile

Model of the coding-scheme part of `src/gprs_ms.c` (mode, error-rate and link-quality adaptation,
scheme for the next block) and of the limits of a BTS (`src/bts.cpp`). Enumerators are compared by
their integer value, as in C. Times are in milliseconds.
-/

namespace Verif.Ms

open Verif.Cs

/-- Limits of the BTS, `struct gprs_rlcmac_bts` (bts.h:243-262): greatest and initial numbers
(0: none), bit masks of the schemes the BTS supports. -/
structure Cell where
  maxCsDl : Nat := 4
  maxCsUl : Nat := 4
  maxMcsDl : Nat := 9
  maxMcsUl : Nat := 9
  initCsDl : Nat := 1
  initCsUl : Nat := 1
  initMcsDl : Nat := 1
  initMcsUl : Nat := 1
  csMask : Nat := 15
  mcsMask : Nat := 511
  deriving DecidableEq, Repr

/-- What the operator configured (`struct gprs_pcu.vty`) and what the BTS announced
(pcu_l1_if.cpp:843-871). -/
structure Cfg where
  vtyMaxCsDl : Nat := 4
  vtyMaxMcsDl : Nat := 9
  vtyMaxCsUl : Nat := 4
  vtyMaxMcsUl : Nat := 9
  forceInitCs : Bool := false
  vtyInitCsDl : Nat := 1
  vtyInitCsUl : Nat := 1
  forceInitMcs : Bool := false
  vtyInitMcsDl : Nat := 1
  vtyInitMcsUl : Nat := 1
  /-- `pcuif_info_ind.initial_cs`, `.initial_mcs` -/
  infoInitCs : Nat := 1
  infoInitMcs : Nat := 1
  csMask : Nat := 15
  mcsMask : Nat := 511
  deriving DecidableEq, Repr

/-- bts.cpp:1400-1425, 1427-1452: the loops of `bts_recalc_max_cs`, `bts_recalc_max_mcs`,
from `i - 1` downwards: greatest scheme number `≤ i` in the mask. -/
def recalcMax (mask : Nat) : Nat → Nat
  | 0 => 0
  | i + 1 => if mask.testBit i then i + 1 else recalcMax mask i

/-- bts.cpp:1344-1373 `bts_recalc_initial_cs`, one direction. -/
def recalcInitCs (c : Cfg) (forced maxCs : Nat) : Nat :=
  if c.forceInitCs then forced
  else
    let i := if c.infoInitCs > maxCs then maxCs else c.infoInitCs
    if i = 0 then 1 else i

/-- bts.cpp:1374-1398 `bts_recalc_initial_mcs`, one direction. -/
def recalcInitMcs (c : Cfg) (forced maxMcs : Nat) : Nat :=
  if c.forceInitMcs then forced
  else if c.infoInitMcs > maxMcs then maxMcs else c.infoInitMcs

/-- pcu_l1_if.cpp:843-871, order of the recalculations. -/
def cellOf (c : Cfg) : Cell :=
  { maxCsDl := recalcMax c.csMask c.vtyMaxCsDl, maxCsUl := recalcMax c.csMask c.vtyMaxCsUl
    maxMcsDl := recalcMax c.mcsMask c.vtyMaxMcsDl, maxMcsUl := recalcMax c.mcsMask c.vtyMaxMcsUl
    csMask := c.csMask, mcsMask := c.mcsMask
    initCsDl := recalcInitCs c c.vtyInitCsDl (recalcMax c.csMask c.vtyMaxCsDl)
    initCsUl := recalcInitCs c c.vtyInitCsUl (recalcMax c.csMask c.vtyMaxCsUl)
    initMcsDl := recalcInitMcs c c.vtyInitMcsDl (recalcMax c.mcsMask c.vtyMaxMcsDl)
    initMcsUl := recalcInitMcs c c.vtyInitMcsUl (recalcMax c.mcsMask c.vtyMaxMcsUl) }

/-- bts.cpp:1200-1209 `bts_cs_dl_is_supported`; `none`: the assertion fails. -/
def dlSupported (b : Cell) (c : CS) : Option Bool :=
  if !c.isValid then none
  else if c.isGprs then some (b.maxCsDl ≥ c.chanCode && b.csMask.testBit c.chanCode)
  else some (b.maxMcsDl ≥ c.chanCode && b.mcsMask.testBit c.chanCode)

/-- The part of `struct GprsMs` that concerns coding schemes (gprs_ms.h:53-110). `lastQual`:
`l1_meas.link_qual` if present. -/
structure Ms where
  mode : Kind
  curUl : CS
  curDl : CS
  nack : Int := 0
  notLow : Int := 0
  lastQual : Option Int := none
  deriving DecidableEq, Repr

/-- gprs_ms.c:267-279: a scheme of the wrong kind is replaced by the initial one, or by `low` if
there is none. -/
def fixCs (ok : Bool) (cur initial low : CS) : CS :=
  if ok then cur else if initial.isValid then initial else low

/-- gprs_ms.c:261-310 `ms_set_mode`. -/
def setMode (b : Cell) (m : Ms) : Kind → Ms
  | .gprs => { m with mode := .gprs, curUl := fixCs m.curUl.isGprs m.curUl (getGprsByNum b.initCsUl) .cs1, curDl := fixCs m.curDl.isGprs m.curDl (getGprsByNum b.initCsDl) .cs1 }
  | .egprsGmsk => { m with mode := .egprsGmsk, curUl := fixCs m.curUl.isEdgeGmsk m.curUl (getEgprsByNum b.initMcsUl) .mcs1, curDl := fixCs m.curDl.isEdgeGmsk m.curDl (getEgprsByNum b.initMcsDl) .mcs1 }
  | .egprs => { m with mode := .egprs, curUl := fixCs m.curUl.isEdge m.curUl (getEgprsByNum b.initMcsUl) .mcs1, curDl := fixCs m.curDl.isEdge m.curDl (getEgprsByNum b.initMcsDl) .mcs1 }

/-- gprs_ms.c:141-142, 160: a new mobile. -/
def init (b : Cell) : Ms := setMode b { mode := .gprs, curUl := .unknown, curDl := .unknown } .gprs

/-- gprs_ms.c:631-658 `ms_set_egprs_ms_class`, when the class changes. -/
def setEgprsClass (b : Cell) (m : Ms) : Ms :=
  if b.maxMcsUl = 0 ∨ b.maxMcsDl = 0 then m
  else if (getEgprsByNum b.maxMcsUl).isEdgeGmsk && (getEgprsByNum b.maxMcsDl).isEdgeGmsk && m.mode != .egprs then
    setMode b m .egprsGmsk
  else setMode b m .egprs

/-- gprs_ms.c:711-728 `ms_max_cs_ul`, 735-752 `ms_max_cs_dl`. -/
def maxCs (mode : Kind) (cur : CS) (maxCs maxMcs : Nat) : CS :=
  if cur.isGprs then (if maxCs = 0 then .cs4 else getGprsByNum maxCs)
  else
    let c := getEgprsByNum maxMcs
    if mode = .egprsGmsk ∧ c.code > CS.mcs4.code then .mcs4 else c

/-- Limits of the error rate from the configuration, `cs_adj_lower_limit`, `cs_adj_upper_limit`
(gprs_pcu.c:70-100). -/
structure Adj where
  lower : Int
  upper : Int

/-- gprs_ms.c:660-709 `ms_update_error_rate`; `none`: the assertion fails. -/
def updateErrorRate (b : Cell) (a : Adj) (now : Int) (m : Ms) (rate : Int) : Option Ms :=
  let mx := maxCs m.mode m.curDl b.maxCsDl b.maxMcsDl
  if mx = .unknown then none
  else if rate < 0 then some m
  else
    let m1 := { m with nack := rate }
    if rate > a.upper then
      some (if m.curDl.chanCode > 0 then { m1 with curDl := m.curDl.decKind m.mode, notLow := now } else m1)
    else if rate < a.lower then
      some (if m.curDl.code < mx.code ∧ now - m.notLow > 1000 then
          { m1 with curDl := m.curDl.incKind m.mode, notLow := now }
        else m1)
    else some { m1 with notLow := now }

/-- gprs_ms.c:754-825 `ms_update_cs_ul` and 833-840 (storing of the link quality). `range`: the
limits configured for the scheme (`cs_lqual_ranges`, `mcs_lqual_ranges`). -/
def updateCsUl (b : Cell) (range : CS → Int × Int) (m : Ms) (qual : Option Int) : Ms :=
  let mx := maxCs m.mode m.curUl b.maxCsUl b.maxMcsUl
  if mx = .unknown ∨ m.curUl = .unknown then { m with lastQual := qual.orElse fun _ => m.lastQual }
  else match qual with
  | none => m
  | some q =>
    let old := m.lastQual.getD q
    let (low, high) := range m.curUl
    let new :=
      if q < low ∧ old < low then m.curUl.decKind m.mode
      else if q > high ∧ old > high ∧ m.curUl.code < mx.code then m.curUl.incKind m.mode
      else m.curUl
    { m with curUl := new, lastQual := some q }

/-- gprs_ms.c:888: the loop `for (i = mcs_chan_code(cs); !supported(CS1 + i); i--)`; `none`: the
assertion in `bts_cs_dl_is_supported` fails at `i = -1`. -/
def findGprs (b : Cell) : Nat → Option CS
  | 0 => match dlSupported b .cs1 with
    | some true => some .cs1
    | _ => none
  | i + 1 => match (CS.ofCode (i + 2)) with
    | none => none
    | some c => match dlSupported b c with
      | none => none
      | some true => some c
      | some false => findGprs b i

/-- gprs_ms.c:878-893: restriction of the scheme to the requested kind. -/
def restrictCs (b : Cell) (cur : CS) (req : Kind) : Option CS :=
  if req = .egprsGmsk ∧ cur.isEdge ∧ cur.code > CS.mcs4.code then
    some (if dlSupported b .mcs4 = some true then .mcs4
      else if dlSupported b .mcs3 = some true then .mcs3
      else if dlSupported b .mcs2 = some true then .mcs2
      else .mcs1)
  else if req = .gprs ∧ cur.isEdge then
    findGprs b ((if cur.code > CS.mcs4.code then CS.mcs4.code else cur.code) - 5)
  else some cur

/-- gprs_ms.c:860-922 `ms_current_cs_dl`; `few`: there are few octets left and the error rate is
not low (906-912). `none`: an assertion fails. -/
def currentCsDl (b : Cell) (m : Ms) (req : Kind) (few : Bool) : Option CS :=
  (restrictCs b m.curDl req).map fun c =>
    if !few then c
    else
      let c1 := c.decKind m.mode
      if c1 = .cs2 then c1.decKind m.mode else c1

end Verif.Ms
