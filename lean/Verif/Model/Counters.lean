import Verif.Model.Rach
import Verif.Model.Ulc
/-!
# Counters of a cell

Model of the rate counters kept by `bts_rcv_rach` (`src/bts.cpp` 928-1055) and of those of single block
allocations (`src/bts.cpp` 924, `src/sba.c`, `src/pdch.cpp`, `src/pdch_ul_controller.c`). The counters of TBFs
are fields of `Verif.Alloc.World`.
-/

namespace Verif.Rach

/-- CTR_RACH_REQUESTS, CTR_RACH_REQUESTS_11BIT, CTR_RACH_REQUESTS_ONE_PHASE, CTR_RACH_REQUESTS_TWO_PHASE,
CTR_RACH_REQUESTS_UNEXPECTED, CTR_IMMEDIATE_ASSIGN_UL_TBF, CTR_IMMEDIATE_ASSIGN_UL_TBF_ONE_PHASE,
CTR_IMMEDIATE_ASSIGN_UL_TBF_TWO_PHASE, CTR_IMMEDIATE_ASSIGN_REJ, CTR_SBA_ALLOCATED. -/
structure Ctr where
  req : Nat := 0
  req11 : Nat := 0
  one : Nat := 0
  two : Nat := 0
  unexp : Nat := 0
  ass : Nat := 0
  assOne : Nat := 0
  assTwo : Nat := 0
  rej : Nat := 0
  sba : Nat := 0
  deriving DecidableEq, Repr

/-- bts.cpp:943-946. -/
def Ctr.arrive (c : Ctr) (i : Ind) : Ctr :=
  { c with req := c.req + 1, req11 := if i.is11 then c.req11 + 1 else c.req11 }

/-- bts.cpp:964-969. -/
def Ctr.kind (c : Ctr) (single : Bool) : Ctr :=
  if single then { c with two := c.two + 1 } else { c with one := c.one + 1 }

/-- bts.cpp:928-1055 `bts_rcv_rach`: the counters, and what the request leads to. -/
def rcvRachC (e : Env) (c : Ctr) (i : Ind) : Ctr × Res :=
  let ta := qta2ta i.qta
  let c := c.arrive i
  match parse i with
  | none => ({ c with unexp := c.unexp + 1, rej := c.rej + 1 }, sendReject e i)
  | some r =>
    let c := c.kind r.single
    if r.single || e.forceTwoPhase then
      match allocSba e ta with
      | none => ({ c with rej := c.rej + 1 }, sendReject e i)
      | some (trx, ts, p, fn) =>
        ({ c with sba := c.sba + 1, assTwo := c.assTwo + 1, ass := c.ass + 1 },
          { out := Ia.uplink p none i.ra i.rfn ta 7 (fn % 42432) e.alpha e.gamma none i.burst, sba := some (trx, ts, fn) })
    else
      match e.tbf r.cls with
      | none => ({ c with rej := c.rej + 1 }, sendReject e i)
      | some (t, p, usf) =>
        ({ c with assOne := c.assOne + 1, ass := c.ass + 1 },
          { out := Ia.uplink p (some t) i.ra i.rfn ta usf 0 e.alpha e.gamma none i.burst, tbf := some t })

/-- Requests one after the other, each in its own situation: counters and results. -/
def rachRun (c : Ctr) : List (Env × Ind) → Ctr × List Res
  | [] => (c, [])
  | (e, i) :: l =>
    let x := rcvRachC e c i
    let y := rachRun x.1 l
    (y.1, x.2 :: y.2)

end Verif.Rach

namespace Verif.Ulc

/-- The uplink controller of a PDCH with CTR_SBA_ALLOCATED and CTR_SBA_FREED, counted for this PDCH. -/
structure Sb where
  l : List Node := []
  made : Nat := 0
  freed : Nat := 0
  deriving Repr

/-- What happens on a PDCH. -/
inductive SbOp where
  /-- A USF or a poll for a TBF. -/
  | promise (fn : Nat) (o : Owner)
  /-- A request on the RACH gets a single block; `id` is a new number. -/
  | sba (lastRts id : Nat)
  /-- Packet Resource Request or Packet Measurement Report; `keep`: the request does not fit the TBF the block is
  promised to, so that the promise is kept. -/
  | message (fn : Nat) (keep : Bool)
  /-- Packet Cell Change Notification of a mobile with a TBF. -/
  | notify (fn : Nat)
  /-- A TBF is released. -/
  | free (tbf : Nat)
  /-- The end of a block; what expires may release TBFs. -/
  | expire (freed : Node → List Nat) (fn : Nat)
  /-- The PDCH is disabled, and may be enabled again. -/
  | disable

/-- Does a single block belong to the node? -/
def Owner.isSba : Owner → Bool
  | .sba _ => true
  | _ => false

/-- pdch.cpp:690-725, 845-866: the node of the frame of a message; a single block is released with
`sba_free` (sba.c:80-87), which counts. -/
def takeBlock (s : Sb) (fn : Nat) (keep : Bool) : Sb :=
  match getNode s.l fn with
  | none => s
  | some n => match n.owner with
    | .sba _ => { s with l := (releaseFn s.l n.fn).2, freed := s.freed + 1 }
    | _ => if keep then s else { s with l := (releaseFn s.l fn).2 }

/-- sba.c:53-93, pdch.cpp:194-209, 690-725, 845-866, 894, pdch_ul_controller.c:213-331. -/
def sbStep (s : Sb) : SbOp → Sb
  | .promise fn o => { s with l := (reserve s.l fn o).2 }
  | .sba lastRts id => { s with l := (sbaAlloc s.l lastRts id).2.2, made := s.made + 1 }
  | .message fn keep => takeBlock s fn keep
  | .notify fn => { s with l := (releaseFn s.l fn).2 }
  | .free t => { s with l := releaseTbf s.l t }
  | .expire freed fn =>
    let x := expireFn freed s.l fn
    { s with l := x.1, freed := s.freed + x.2.countP (·.owner.isSba) }
  | .disable => { s with l := [] }

end Verif.Ulc
