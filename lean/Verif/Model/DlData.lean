import Verif.Model.RlcWindowDl
import Verif.Model.Segment
/-!
# Transmission of downlink data in acknowledged mode

`gprs_rlcmac_dl_tbf::take_next_bsn` and `create_new_bsn`, src/tbf_dl.cpp:266-390 and 559-694: window (`Model/RlcWindowDl`),
block store and LLC frames (`Model/Segment`) together. Coding schemes (`Model/CodingScheme`), the layout of the radio block
(`Model/DataBlock`), polling and the final acknowledgement, which ends the TBF, are elsewhere.
-/

namespace Verif.DlData

open Verif.RlcDl (Win Env Why takeNext)
open Verif.Seg (Llc Block createBlock)

/-- A downlink TBF. `store`: `m_rlc` (rlc.h:113-128), `RLC_MAX_SNS/2` blocks, every access is `bsn & 1023`. `finished`:
the state is FINISHED. -/
structure Tbf where
  win : Win
  store : Nat → Block
  llc : Llc
  finished : Bool

def Tbf.init (sns ws : Nat) : Tbf := ⟨Win.init sns ws, fun _ => ⟨[], 0, 0⟩, ⟨[], 0, [], []⟩, false⟩

/-- `ms_append_llc_dl_data` → `llc_queue_enqueue` (gprs_ms.c, llc.c:172-195), for a TBF that exists. -/
def Tbf.give (t : Tbf) (f : List Nat) : Tbf := { t with llc := { t.llc with queue := t.llc.queue ++ [f] } }

/-- tbf_dl.cpp:1171-1175 `have_data`. Of a frame all of which was sent (EGPRS: its end is not announced yet) nothing counts. -/
def Tbf.haveData (t : Tbf) : Bool := decide (t.llc.cur.length - t.llc.idx > 0) || !t.llc.queue.isEmpty

/-- What `take_next_bsn` reads besides the window. -/
def Tbf.env (t : Tbf) (prev : Option Nat) (prevEdge preempt : Bool) : Env :=
  { prev, prevEdge, preempt, finished := t.finished, haveData := t.haveData
    len := fun b => (t.store (b % 1024)).data.length }

/-- One call of `take_next_bsn`, tbf_dl.cpp:266-390, with `create_new_bsn` (559-694) where it is called, followed by
`m_rlc.block(bsn)` of `create_dl_acked_block` (808-843): the TBF, and BSN and block to be sent (`none`: -1). `prev`,
`prevEdge`: the block chosen before for the same radio block. `n`, `fin`: see `createBlock`. `none`: an endless loop. -/
def Tbf.send (edge : Bool) (t : Tbf) (prev : Option Nat) (prevEdge preempt : Bool) (n : Nat) (fin : Nat → Bool) :
    Option (Tbf × Option (Nat × Block)) :=
  match takeNext 2 (t.env prev prevEdge preempt) t.win with
  | none => none
  | some (w, none) => some ({ t with win := w }, none)
  | some (w, some (b, y)) =>
    if y = .fresh ∨ y = .dummy then
      match createBlock edge n fin t.llc with
      | none => none
      | some (k, l) =>
        some ({ win := w, llc := l, store := fun i => if i = b % 1024 then k else t.store i, finished := decide (k.cv = 0) },
          some (b, k))
    else some ({ t with win := w }, some (b, t.store (b % 1024)))

/-- The same if the block goes out as the first half of a split block (tbf_dl.cpp:830-831). -/
def Tbf.sendHalf (edge : Bool) (t : Tbf) (prev : Option Nat) (prevEdge preempt : Bool) (n : Nat) (fin : Nat → Bool) : Option Tbf :=
  match t.send edge prev prevEdge preempt n fin with
  | none => none
  | some (u, none) => some u
  | some (u, some (b, _)) => some { u with win := u.win.markFirstSegment b }

/-- `rcvd_dl_ack` without final indication (tbf_dl.cpp:1081-1113): the window takes the bitmap `bits` that starts at V(A)
(`Model/AckNack`). -/
def Tbf.rcvAck (t : Tbf) (bits : List Bool) : Tbf := { t with win := t.win.ackNack t.win.va bits }

end Verif.DlData
