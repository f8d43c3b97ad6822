import Verif.Model.Mslot
/-!
# Slot allocation algorithms

Model of `src/alloc_algo.cpp` and of the TFI search in `src/bts.cpp`. Counters and log output are
left out. A TRX is the function giving its eight PDCHs.
-/

namespace Verif.Alloc

/-- `enum gprs_rlcmac_tbf_direction`. -/
inductive Dir where
  | ul
  | dl
  deriving DecidableEq, Repr

/-- tbf.h `reverse`. -/
def Dir.reverse : Dir → Dir
  | .ul => .dl
  | .dl => .ul

/-- pdch.h:47-153 `struct gprs_rlcmac_pdch`, the part used for allocation. TBFs are numbers.
`m_num_reserved` is eight bits wide in C and unbounded here. -/
structure Pdch where
  enabled : Bool
  tsc : Nat
  gprs : Dir → Nat
  egprs : Dir → Nat
  reserved : Dir → Nat
  usfMap : Nat
  tfiMap : Dir → Nat
  tbfs : Dir → Nat → Option Nat

/-- pdch.h:157-160 `num_tbfs`. -/
def Pdch.numTbfs (p : Pdch) (d : Dir) : Nat := p.gprs d + p.egprs d

abbrev Trx := Nat → Pdch

/-- alloc_algo.cpp:63-107 `find_possible_pdchs`: set found so far and last TSC. -/
def possibleStep (trx : Trx) (maxSlots mask : Nat) (acc : Nat × Option Nat) (ts : Nat) :
    Nat × Option Nat :=
  if (trx ts).enabled = false then acc
  else if mask.testBit ts = false then acc
  else if maxSlots > 1 then
    match acc.2 with
    | none => (acc.1 ||| 1 <<< ts, some (trx ts).tsc)
    | some l => if l ≠ (trx ts).tsc then acc else (acc.1 ||| 1 <<< ts, some l)
  else (acc.1 ||| 1 <<< ts, acc.2)

/-- alloc_algo.cpp:63-107 `find_possible_pdchs`. -/
def findPossible (trx : Trx) (maxSlots mask : Nat) : Nat :=
  ((List.range 8).foldl (possibleStep trx maxSlots mask) (0, none)).1

/-- alloc_algo.cpp:109-112. -/
def usageByTbfs (p : Pdch) (d : Dir) : Nat := p.numTbfs d

/-- alloc_algo.cpp:114-135 `compute_usage_for_algo_a`. -/
def usageA (p : Pdch) (d : Dir) : Nat :=
  p.numTbfs .dl + p.numTbfs .ul + (p.reserved .dl + p.reserved .ul) +
    (if p.tfiMap d.reverse = 0xffffffff then 32 else 0)

/-- Candidate of `find_least_busy_pdch`. -/
structure Cand where
  used : Nat
  ts : Nat
  tfi : Option Nat
  usf : Option Nat
  deriving DecidableEq, Repr

/-- alloc_algo.cpp:168: `num_tbfs < min_used`, where `min_used` is INT_MAX at first. -/
def better (best : Option Cand) (n : Nat) : Bool :=
  match best with
  | none => true
  | some b => decide (n < b.used)

/-- One round of the loop at alloc_algo.cpp:157-203. -/
def busyStep (trx : Trx) (d : Dir) (mask : Nat) (usage : Pdch → Dir → Nat) (wantTfi : Bool)
    (best : Option Cand) (ts : Nat) : Option Cand :=
  if mask.testBit ts = false then best
  else
    let n := usage (trx ts) d
    if better best n = false then best
    else
      let tfi := if wantTfi then findFreeTfi ((trx ts).tfiMap d) else none
      let usf := if d = .ul then findFreeUsf (trx ts).usfMap else none
      if wantTfi = true ∧ tfi = none then best
      else if d = .ul ∧ usf = none then best
      else some ⟨n, ts, tfi, usf⟩

/-- alloc_algo.cpp:147-214 `find_least_busy_pdch`. -/
def leastBusy (trx : Trx) (d : Dir) (mask : Nat) (usage : Pdch → Dir → Nat) (wantTfi : Bool) :
    Option Cand :=
  (List.range 8).foldl (busyStep trx d mask usage wantTfi) none

/-- gprs_ms.h: what the allocator reads from the mobile. `fct` is `first_common_ts->ts_no`. -/
structure Ms where
  cls : Nat
  trx : Option Nat
  ul : Nat
  dl : Nat
  fct : Option Nat
  deriving DecidableEq, Repr

/-- alloc_algo.h `struct alloc_resources_req`; `useTrx = none` is -1. -/
structure Req where
  dir : Dir
  single : Bool
  useTrx : Option Nat
  deriving DecidableEq, Repr

/-- alloc_algo.h `struct alloc_resources_res`. -/
structure Res where
  trx : Nat
  fct : Nat
  ul : Nat
  dl : Nat
  mask : Nat
  upgrade : Bool
  tfi : Nat
  usf : Nat → Option Nat

/-- alloc_algo.cpp:232-244: a PDCH with a free TFI in both directions. -/
def usablePdch (p : Pdch) : Bool :=
  p.enabled && decide (p.tfiMap .ul ≠ 0xffffffff) && decide (p.tfiMap .dl ≠ 0xffffffff)

/-- alloc_algo.cpp:216-248 `find_trx`. -/
def findTrx (bts : Nat → Trx) (ms : Ms) (req : Req) : Option Nat :=
  match ms.trx with
  | some t => some t
  | none =>
    match (match req.useTrx with | some u => if u < 8 then some u else none | none => none) with
    | some u => some u
    | none => (List.range 8).find? fun t => (List.range 8).any fun ts => usablePdch (bts t ts)

/-- alloc_algo.cpp:250-272 `idle_pdch_avail`. -/
def idlePdchAvail (bts : Nat → Trx) : Bool :=
  (List.range 8).any fun t => (List.range 8).any fun ts =>
    (bts t ts).enabled && decide ((bts t ts).numTbfs .dl ≤ 1)

/-- alloc_algo.cpp:340-346: slots algorithm A may use. -/
def maskA (ms : Ms) : Nat := match ms.fct with
  | some f => 1 <<< f
  | none => if ms.dl ≠ 0 ∨ ms.ul ≠ 0 then ms.dl &&& ms.ul else 0xff

/-- alloc_algo.cpp:313-379 `alloc_algorithm_a`; `none`: negative result. -/
def algoA (bts : Nat → Trx) (ms : Ms) (req : Req) : Option Res :=
  match findTrx bts ms req with
  | none => none
  | some t =>
    let mask := findPossible (bts t) 1 (maskA ms)
    if mask = 0 then none
    else match leastBusy (bts t) req.dir mask usageA true with
      | none => none
      | some c =>
        match c.tfi with
        | none => none
        | some tfi => some {
            trx := t, fct := c.ts, ul := 1 <<< c.ts, dl := 1 <<< c.ts, mask := 1 <<< c.ts,
            upgrade := false, tfi := tfi, usf := fun ts => if ts = c.ts then c.usf else some 0 }

/-- alloc_algo.cpp:397, 402: `OSMO_MAX(32 - num_reserved, 1)` in unsigned arithmetic, as it ends up
in the signed capacity: above 32 the subtraction wraps and the maximum has no effect. -/
def capOf (n : Nat) : Int := if n = 32 then 1 else 32 - (n : Int)

/-- alloc_algo.cpp:381-409 `compute_capacity`. -/
def capacity (trx : Trx) (rxWin txWin : Nat) : Int :=
  (List.range 8).foldl (fun c ts =>
    let c := if rxWin.testBit ts then c + capOf ((trx ts).reserved .dl) else c
    if (txWin &&& rxWin).testBit ts ∧ (findFreeUsf (trx ts).usfMap).isSome
    then c + capOf ((trx ts).reserved .ul) else c) 0

/-- State of the search in `find_multi_slots`. -/
structure Best where
  checked : List Nat
  cap : Int
  ul : Nat
  dl : Nat
  deriving DecidableEq, Repr

/-- alloc_algo.cpp:433-446: is the combination in a row of TS 45.002 table 6.4.2.2.1 for which the
other mask has to be used, or in none? -/
def wrongRow (checkTr : Bool) (rx tx : Nat) : Bool :=
  if rx + tx ≤ 6 ∧ tx < 3 then !checkTr
  else if rx + tx > 6 ∧ tx < 3 then checkTr else true

/-- alloc_algo.cpp:420-464 `skip_slot`: true to skip, and the receive windows checked so far. -/
def skipSlot (c : MsClass) (checkTr : Bool) (rxWin txWin : Nat) (checked : List Nat) :
    Bool × List Nat :=
  let rx := pop rxWin
  let tx := pop txWin
  if c.type = 1 ∧ wrongRow checkTr rx tx = true then (true, checked)
  else if rxWin ∈ checked then (true, checked)
  else
    let common := pop (txWin &&& rxWin)
    let req := if c.type = 1 then min (min tx rx) 2 else min tx rx
    (decide (req ≠ common), rxWin :: checked)

/-- alloc_algo.cpp:568-606: one mask selection (`true`: MASK_TR). -/
def maskStep (trx : Trx) (c : MsClass) (rxMask : Nat × Nat) (ulTs dlSlots rxWin0 txWin : Nat)
    (b : Best) (tr : Bool) : Best :=
  match filterBad (if tr then rxMask.2 else rxMask.1) ulTs dlSlots rxWin0 with
  | none => b
  | some rxWin =>
    let s := skipSlot c tr rxWin txWin b.checked
    let b := { b with checked := s.2 }
    if s.1 then b
    else
      let cap := capacity trx rxWin txWin
      if cap ≤ b.cap then b else { b with cap := cap, ul := txWin, dl := rxWin }

/-- alloc_algo.cpp:555-607: one receive window. -/
def rxStep (trx : Trx) (c : MsClass) (rxMask : Nat × Nat) (numRx ulTs dlSlots txWin : Nat)
    (b : Best) (dlTs : Nat) : Best :=
  let w := winAt numRx dlTs
  if c.type = 1 ∧ numRx < 8 ∧ w.testBit 0 ∧ w.testBit 7 then b
  else [false, true].foldl (maskStep trx c rxMask ulTs dlSlots w txWin) b

/-- alloc_algo.cpp:528-608: one transmit window. -/
def txStep (trx : Trx) (c : MsClass) (ulSlots dlSlots numTx : Nat) (b : Best) (ulTs : Nat) : Best :=
  let w := winAt numTx ulTs
  if c.type = 1 ∧ numTx < 8 ∧ w.testBit 0 ∧ w.testBit 7 then b
  else
    let txWin := w &&& ulSlots
    if txWin.testBit ulTs = false then b
    else if txWin.testBit ((ulTs + numTx - 1) % 8) = false then b
    else (List.range 8).foldl
      (rxStep trx c (fillRxMask c numTx) (min c.rx (c.sum - numTx)) ulTs dlSlots txWin)
      { b with checked := [] }

/-- alloc_algo.cpp:474-622 `find_multi_slots`: (UL, DL) slots; `none`: -EINVAL. -/
def findMultiSlots (trx : Trx) (c : MsClass) (ulSlots dlSlots : Nat) : Option (Nat × Nat) :=
  if c.tx = NA then none
  else
    let possible := findPossible trx (max c.rx c.tx) 0xff
    let dl := (if dlSlots = 0 then 0xff else dlSlots) &&& possible
    let ul := (if ulSlots = 0 then 0xff else ulSlots) &&& possible
    let b := (List.range' 1 c.tx).foldl
      (fun b numTx => (List.range 8).foldl (txStep trx c ul dl numTx) b) ⟨[], -1, 0, 0⟩
    if b.ul = 0 ∨ b.dl = 0 then none else some (b.ul, b.dl)

/-- bts.cpp:589-621 `trx_count_free_tfi`: number of free TFIs and the first one. -/
def countFreeTfi (trx : Trx) (d : Dir) : Nat × Nat :=
  let mask := (List.range 8).foldl
    (fun m ts => if (trx ts).enabled then m &&& (0xffffffff ^^^ (trx ts).tfiMap d) else m)
    0xffffffff
  if ((List.range 8).any fun ts => (trx ts).enabled) = false ∨ mask = 0 then (0, 255)
  else (((List.range 32).filter fun i => mask.testBit i).length,
    ((List.range 32).find? fun i => mask.testBit i).getD 255)

/-- `best_cnt`, initially 0. -/
def bestCnt (b : Option (Nat × Nat × Nat)) : Nat := match b with
  | none => 0
  | some x => x.2.1

/-- bts.cpp:644-653: best TRX so far (number, free TFIs, first TFI). -/
def tfiStep (bts : Nat → Trx) (d : Dir) (b : Option (Nat × Nat × Nat)) (t : Nat) :
    Option (Nat × Nat × Nat) :=
  let r := countFreeTfi (bts t) d
  if r.1 > bestCnt b then some (t, r.1, r.2) else b

/-- bts.cpp:628-667 `bts_tfi_find_free`: (TRX, TFI). -/
def btsTfiFindFree (bts : Nat → Trx) (d : Dir) (useTrx : Option Nat) : Option (Nat × Nat) :=
  let trxs := match useTrx with
    | some u => if u < 8 then [u] else List.range 8
    | none => List.range 8
  (trxs.foldl (tfiStep bts d) none).map fun x => (x.1, x.2.2)

/-- alloc_algo.cpp:280-306 `tfi_find_free`: (TRX, TFI). -/
def tfiFindFree (bts : Nat → Trx) (ms : Ms) (req : Req) : Option (Nat × Nat) :=
  match ms.trx with
  | some t =>
    match req.useTrx with
    | some u => if u ≠ t then none else btsTfiFindFree bts req.dir (some t)
    | none => btsTfiFindFree bts req.dir (some t)
  | none => btsTfiFindFree bts req.dir req.useTrx

/-- alloc_algo.cpp:633-650 `get_single_ts`. -/
def getSingleTs (trx : Trx) (d : Dir) (dlSlots ulSlots : Nat) (ts : Option Nat) : Nat :=
  let ret := dlSlots &&& ulSlots
  match (match ts with
    | some t => some t
    | none => (leastBusy trx d ret usageByTbfs false).map (·.ts)) with
  | none => ffs ret
  | some t => ret &&& (1 <<< t)

/-- alloc_algo.cpp:663-696 `tbf_select_slot_set`; `none`: -EINVAL. -/
def selectSlotSet (trx : Trx) (req : Req) (ulSlots dlSlots : Nat) (fct : Option Nat) : Option Nat :=
  let sl := if req.single then getSingleTs trx req.dir dlSlots ulSlots fct
    else if req.dir = .ul then ulSlots else dlSlots
  if sl = 0 then none else some sl

/-- alloc_algo.cpp:706-737 `allocate_usf`: the slots having a free USF; the USF of such a slot is
`findFreeUsf` of its map. `none`: -EBUSY. -/
def allocateUsf (trx : Trx) (selected dlSlots : Nat) : Option Nat :=
  let ul := (List.range 8).foldl (fun m ts =>
    if m.testBit ts = false then m
    else if findFreeUsf (trx ts).usfMap = none then m ^^^ (m &&& (1 <<< ts)) else m)
    (selected &&& dlSlots)
  if ul = 0 then none else some ul

/-- alloc_algo.cpp:748-849 `alloc_algorithm_b`; `dflt` is the default multislot class. -/
def algoB (dflt : Nat) (bts : Nat → Trx) (ms : Ms) (req : Req) : Option Res :=
  match tfiFindFree bts ms req with
  | none => none
  | some (t, tfi) =>
    let trx := bts t
    match (if ms.dl = 0 ∨ ms.ul = 0
      then findMultiSlots trx (getClass dflt ms.cls) ms.ul ms.dl else some (ms.ul, ms.dl)) with
    | none => none
    | some (rul, rdl) =>
      match selectSlotSet trx req rul rdl ms.fct with
      | none => none
      | some sl =>
        if req.dir = .dl then
          if sl &&& rul = 0 then none
          else some {
            trx := t, fct := ffs (sl &&& rul) - 1, ul := rul, dl := rdl, mask := sl,
            upgrade := req.single && decide (pop rdl > pop sl), tfi := tfi, usf := fun _ => none }
        else match allocateUsf trx sl rdl with
          | none => none
          | some u =>
            if rdl &&& u = 0 then none
            else some {
              trx := t, fct := ffs (rdl &&& u) - 1, ul := u, dl := rdl, mask := u,
              upgrade := false, tfi := tfi,
              usf := fun ts =>
                if ((sl &&& rdl).testBit ts : Bool) = true then findFreeUsf (trx ts).usfMap
                else none }

/-- Which algorithm is configured (pcu_vty.c `alloc-algorithm`). -/
inductive Algo where
  | a
  | b
  | dynamic
  deriving DecidableEq, Repr

/-- alloc_algo.cpp:864-887 `alloc_algorithm_dynamic` and the choice of the algorithm; also returns
the new `multislot_disabled`. -/
def allocate (algo : Algo) (dflt : Nat) (bts : Nat → Trx) (disabled : Bool) (ms : Ms) (req : Req) :
    Option Res × Bool :=
  match algo with
  | .a => (algoA bts ms req, disabled)
  | .b => (algoB dflt bts ms req, disabled)
  | .dynamic =>
    let disabled := disabled && !idlePdchAvail bts
    if disabled then (algoA bts ms req, true)
    else match algoB dflt bts ms req with
      | some r => (some r, false)
      | none => (algoA bts ms req, true)

end Verif.Alloc
