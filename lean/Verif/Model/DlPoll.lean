import Verif.Model.DlData
/-!
# When the mobile is asked for an acknowledgement of downlink data

`create_dl_acked_block` (src/tbf_dl.cpp:396-414 and 696-920) and `create_new_bsn` (559-694) as far as they decide whether a
radio block asks the mobile to acknowledge: on top of `Model/DlData`. `m_tx_counter` has 32 bits in the code, here it has no
bound. Which uplink block the answer is sent in is `Model/Ulc`; here it is an input whether there is one
(`tbf_check_polling`, tbf.cpp:794-817).
-/

namespace Verif.DlPoll

open Verif.Seg (Tx Llc Block append dummyFrame)
open Verif.RlcDl (takeNext)

/-- `m_tx_counter`, `m_dl_ack_requested`, `m_last_dl_poll_ack_lost` (tbf_dl.h:77-82; tbf_dl.cpp:162-165). -/
structure Ask where
  tx : Nat := 0
  req : Bool := false
  lost : Bool := false

structure Tbf where
  data : DlData.Tbf
  p : Ask

/-- The loop of `create_new_bsn`, tbf_dl.cpp:597-684: is `request_dl_ack` called (608, 678)? Arguments as in `Seg.fill`. -/
def fillAsks (edge : Bool) (n : Nat) (fin : Nat → Bool) : Nat → Tx → Llc → Bool
  | 0, _, _ => false
  | k + 1, t, s =>
    if s.cur.length = 0 ∧ t.num ≠ 0 then true                -- :608
    else
      let drained := decide (s.cur.length = 0)               -- :608
      let s := if s.cur.length = 0 then
          let d := dummyFrame (n - t.off - 1)
          { s with
              cur := d
              idx := 0
              loaded := s.loaded ++ [(true, d)] }
        else s
      let isFinal := s.queue.isEmpty && fin k                -- :652
      let (t', ar) := append edge n isFinal { t with
        cur := s.cur
        idx := s.idx }
      if ar = .needMore then drained                         -- :660
      else
        let s := ({ s with
          cur := []
          idx := 0 } : Llc).schedule
        drained || isFinal || (if ar = .spaceLeft then fillAsks edge n fin k t' s else false)   -- :677-678

/-- `create_new_bsn`, tbf_dl.cpp:559-694: is `request_dl_ack` called? -/
def createAsks (edge : Bool) (n : Nat) (fin : Nat → Bool) (s : Llc) : Bool :=
  fillAsks edge n fin (n + 2) { blk := List.replicate n 0x2b, off := 0, num := 0, e := 1, cv := 15, cur := [], idx := 0 } s.schedule

/-- What a call of `take_next_bsn` depends on besides the TBF: is the block that was chosen before EGPRS, is pre-emptive
retransmission configured, the size of a new block, and `!keep_open(fn)`. -/
structure Call where
  prevEdge : Bool
  preempt : Bool
  n : Nat
  fin : Nat → Bool

/-- tbf_dl.cpp:266-390 `take_next_bsn`: is `request_dl_ack` called? -/
def takeAsks (edge : Bool) (t : DlData.Tbf) (prev : Option Nat) (c : Call) : Bool :=
  match takeNext 2 (t.env prev c.prevEdge c.preempt) t.win with
  | some (_, some (_, y)) => if y = .fresh ∨ y = .dummy then createAsks edge c.n c.fin t.llc else false
  | _ => false

/-- tbf_dl.cpp:1162-1169 `need_poll_for_dl_ack_nack`. -/
def Ask.needPoll (p : Ask) : Bool := p.lost || decide (p.tx ≥ 20) || p.req

/-- tbf_dl.cpp:863-917: `ctrl`: the PDCH is the control slot of the TBF; `free`: an uplink block is free for the answer.
Does the radio block ask? -/
def Ask.poll (p : Ask) (ctrl free : Bool) : Ask × Bool :=
  if ctrl && p.needPoll && free then ({ tx := 1, req := false, lost := false }, true)
  else ({ p with tx := p.tx + 1 }, false)

/-- tbf_dl.cpp:396-414 and 696-920: one radio block. `c2`: a second data block is looked for, if the first allows it
(`may_combine`). The TBF, the data blocks that are sent and whether the mobile is asked. `none`: an endless loop. -/
def radio (edge : Bool) (t : Tbf) (ctrl free : Bool) (c1 : Call) (c2 : Option Call) : Option (Tbf × List (Nat × Block) × Bool) :=
  match t.data.send edge none c1.prevEdge c1.preempt c1.n c1.fin with
  | none => none
  | some (d, none) => some (⟨d, { t.p with req := t.p.req || takeAsks edge t.data none c1 }⟩, [], false)
  | some (d, some b) =>
    let p := { t.p with req := t.p.req || takeAsks edge t.data none c1 }
    match c2 with
    | none =>
      let q := p.poll ctrl free
      some (⟨d, q.1⟩, [b], q.2)
    | some c =>
      match d.send edge (some b.1) c.prevEdge c.preempt c.n c.fin with
      | none => none
      | some (d', b') =>
        let q := { p with req := p.req || takeAsks edge d (some b.1) c }.poll ctrl free
        some (⟨d', q.1⟩, b :: b'.toList, q.2)

/-- tbf.cpp:559-572: no answer came. -/
def Tbf.missed (t : Tbf) : Tbf := { t with p := { t.p with lost := true } }

/-- tbf_dl.cpp:1081-1113 `rcvd_dl_ack` without final indication. -/
def Tbf.acked (t : Tbf) (bits : List Bool) : Tbf := ⟨t.data.rcvAck bits, { t.p with lost := false }⟩

/-- tbf_dl.cpp:1064-1079, 1096: with final indication. -/
def Tbf.finalAcked (t : Tbf) : Tbf := ⟨{ t.data with win := t.data.win.reset }, { t.p with lost := false, tx := 0 }⟩

/-- gprs_ms.c:109-123 `ms_llc_timer_cb`, tbf_dl.cpp:1120-1123: no frame came for a while. -/
def Tbf.timer (t : Tbf) : Tbf := { t with p := { t.p with req := true } }

end Verif.DlPoll
