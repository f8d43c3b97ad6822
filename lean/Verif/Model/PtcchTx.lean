import Verif.Model.Tap
import Verif.Model.Ta
/-!
# The answers on the PTCCH

`pcu_rx_rts_req_ptcch`, `pcu_l1if_tx_ptcch` and `bts_rcv_ptcch_rach` for all PDCHs of a cell. Nothing in the program
reserves or releases indices (`reserve_tai`, `release_tai` are not called). Without direct access to the PHY.
-/

namespace Verif.PtcchTx

open Verif.Tap (Cell Req)

/-- A GSMTAP frame on the PTCCH, downlink. -/
structure Shown where
  arfcn : Nat
  ts : Nat
  fn : Nat
  data : List Nat
  deriving DecidableEq, Repr

/-- The message of each PDCH by TRX and time slot, and what went out. -/
structure St where
  msg : Nat → Nat → List Nat := fun _ _ => Ta.init
  phy : List Req := []
  tap : List Shown := []

/-- Events. -/
inductive Ev where
  /-- an access burst on the PTCCH with this delay in quarters of a symbol -/
  | burst (trx ts rfn : Nat) (q : Int)
  /-- the BTS requests a PTCCH block; `tbfs`: TBFs on the PDCH -/
  | rts (trx ts fn block tbfs : Nat)

/-- pcu_l1_if.cpp:236-257 `pcu_l1if_tx_ptcch`. -/
def tx (c : Cell) (s : St) (trx ts fn block : Nat) (data : List Nat) : St :=
  { s with
    tap := if data.length ≠ 0 ∧ c.mask.testBit 5 = true then s.tap ++ [⟨c.arfcn trx, ts, fn, data⟩] else s.tap
    phy := s.phy ++ [⟨trx, ts, c.arfcn trx, fn, block, data⟩] }

/-- pcu_l1_if.cpp:537-574 `pcu_rx_rts_req_ptcch`. -/
def rts (c : Cell) (s : St) (trx ts fn block tbfs : Nat) : St :=
  if 8 ≤ trx ∨ 8 ≤ ts then s
  else if c.enabled trx ts = false then s
  else if tbfs = 0 ∧ (c.idleC0 = true → trx ≠ 0) then tx c s trx ts fn block []
  else tx c s trx ts fn block (s.msg trx ts)

/-- bts.cpp:1065-1104 `bts_rcv_ptcch_rach` without GSMTAP (see `Tap.rxRach`). `none`: an assertion fails. -/
def burst (c : Cell) (s : St) (trx ts rfn : Nat) (q : Int) : Option St :=
  if 8 ≤ trx ∨ 8 ≤ ts then some s
  else if c.enabled trx ts = false then some s
  else (Ta.ptcchRach (s.msg trx ts) rfn q).map fun m => { s with msg := fun i j => if i = trx ∧ j = ts then m else s.msg i j }

/-- One event. -/
def step (c : Cell) (s : St) : Ev → Option St
  | .burst trx ts rfn q => burst c s trx ts rfn q
  | .rts trx ts fn block tbfs => some (rts c s trx ts fn block tbfs)

/-- A history. -/
def run (c : Cell) (s : St) : List Ev → Option St
  | [] => some s
  | e :: es => (step c s e).bind fun s => run c s es

end Verif.PtcchTx
