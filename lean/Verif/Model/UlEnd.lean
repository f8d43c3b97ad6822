import Verif.Model.TbfFsm
import Verif.Model.UlData
/-!
# Acknowledgements of uplink data, and the end of the transfer

`gprs_rlcmac_ul_tbf::rcv_data_block_acknowledged` and `maybe_schedule_uplink_acknack` (src/tbf_ul.cpp:246-456): reception
(`Model/UlData`) together with the state machines (`Model/TbfFsm`), which learn from the blocks that were received when an
acknowledgement is due and when the transfer is complete. `m_rx_counter` has 32 bits in the code, here it has no bound.
-/

namespace Verif.UlEnd

open Verif.UlData (Raw)
open Verif.RlcUl (isRecv Rx ring)

/-- An uplink TBF: what was received, and the state machines. -/
structure Tbf where
  data : UlData.Tbf
  ctl : Tbf.Ul

/-- src/tbf_ul.cpp:287-380: the loop over the data blocks, whether it ends the function (327-328): half of a split block that
is in the window, was not received before, and whose other half is missing. -/
def stops (edge : Bool) (junk : Nat → Nat) : UlData.Tbf → List Raw → Bool
  | _, [] => false
  | s, b :: bs =>
    if !s.rx.win.isInWindow b.bsn then stops edge junk s bs
    else if isRecv s.rx.win.vn b.bsn then stops edge junk s bs
    else if b.part then true
    else
      let k := UlData.tlliCheck edge junk s.tlli b
      stops edge junk { s with rx := (s.rx.oneBlock ⟨b.bsn, b, k.1⟩).1, tlli := k.2 } bs

/-- src/tbf_ul.cpp:394-396: `m_rlc.block(mod_sns(v_r() - 1))`. Nothing in this place of the store: its length is 0. -/
def newest (x : Rx Raw) : Option Raw := x.buf (x.win.modSns (x.win.vr + x.win.sns - 1) % ring)

/-- src/tbf_ul.cpp:414 `block->len && rdbi->cv == 0`. -/
def countdownOver (x : Rx Raw) : Bool := match newest x with
  | none => false
  | some b => decide (b.data.length ≠ 0) && decide (b.hdr.cv = 0)

/-- src/tbf_ul.cpp:421-451 without `countdown_finished`: stalled, TLLI included, every 20th radio block. `n` is
`m_rx_counter`. -/
def asks (si : Bool) (bs : List Raw) (n : Nat) : Bool :=
  si || (bs.take 2).any (·.hdr.ti) || decide (n % 20 = 0)

/-- src/tbf_ul.cpp:246-418, a radio block with the data blocks `bs` and the stall indicator `si`. -/
def radio (env : Tbf.Env) (edge : Bool) (junk : Nat → Nat) (s : Tbf) (si : Bool) (bs : List Raw) : Option Tbf :=
  if s.ctl.st = .releasing then some { s with ctl := { s.ctl with n3101 := 0 } }
  else
    let d := s.data.rcv edge junk bs
    if stops edge junk s.data bs then some ⟨d, { s.ctl with n3101 := 0, rx := s.ctl.rx + 1 }⟩
    else
      let first := s.data.tlli.isNone && d.tlli.isSome
      (Tbf.ulData env s.ctl first (decide (d.rx.win.vq = d.rx.win.vr)) (countdownOver d.rx) (asks si bs (s.ctl.rx + 1))).map
        fun c => ⟨d, c⟩

/-- src/tbf_ul_ack_fsm.c:128-136: the acknowledgement that is sent, if there is one: is it marked as final. `made`: there was
an uplink block for the answer, if one is needed. -/
def ackSent (c : Tbf.Ul) (made : Bool) : Option Bool :=
  if c.ulAck = .sched && made then some (c.st == .finished) else none

end Verif.UlEnd
