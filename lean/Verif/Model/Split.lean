import Verif.Model.DataBlock
/-!
# Retransmission of EGPRS blocks, whole or in two halves

Downlink: the part of `take_next_bsn` and `create_dl_acked_block` (src/tbf_dl.cpp) that
chooses scheme, puncturing, split indicator (SPB) and source octets of a transmission.
Uplink: `handle_egprs_ul_spb` and callees (src/tbf_ul.cpp), per block store.
-/

namespace Verif.Split

open Verif.Cs

/-! ### Downlink -/

/-- rlc.h:83-88 `egprs_rlc_dl_reseg_bsn_state`. -/
inductive DlSt where
  | dflt | firstSent | secondSent
  deriving DecidableEq, Repr

/-- The fields of `gprs_rlc_data` (rlc.h:157-189) that control retransmissions. -/
structure DlBlk where
  init : CS
  last : CS
  cur : CS
  ps : Ps
  st : DlSt
  deriving DecidableEq, Repr

/-- tbf_dl.cpp:576-585 (`create_new_bsn`) and rlc.cpp:39 (`prepare`). -/
def newBlk (c : CS) : DlBlk := { init := c, last := c, cur := c, ps := .ps1, st := .dflt }

/-- tbf_dl.cpp:300-324: scheme for a retransmission when the radio link wants `tx`;
`arq1` is the operator setting. `none`: assertion in `get_retx_mcs`. -/
def retx (b : DlBlk) (egprs : Bool) (tx : CS) (arq1 : Bool) : Option DlBlk :=
  if egprs then
    (getRetx b.init tx arq1).map fun c => { b with cur := if b.init = .mcs8 then .mcs8 else c }
  else some { b with cur := b.last }

/-- tbf_dl.cpp:1301-1334 `get_egprs_dl_spb`. -/
def spbOf (b : DlBlk) : Spb :=
  if b.cur.hdr = .type3 then
    if b.st = .firstSent then .second
    else if b.init.hdr = .type1 ∨ b.init.hdr = .type2 then .first
    else if b.init = .mcs4 ∧ b.cur = .mcs1 then .first
    else .noRetx
  else .noRetx

/-- tbf_dl.cpp:1226-1284 `egprs_dl_get_data`: first octet to send and new status. -/
def getData (b : DlBlk) : Nat × DlSt :=
  if b.cur.hdr = .type3 then
    if b.st = .firstSent then
      (match b.init with
       | .mcs6 | .mcs9 => 37
       | .mcs7 | .mcs5 => 28
       | .mcs8 => 31
       | .mcs4 => 22
       | _ => 0, .secondSent)
    else if b.init.hdr = .type1 ∨ b.init.hdr = .type2 then (0, .firstSent)
    else if b.init = .mcs4 ∧ b.cur = .mcs1 then (0, .firstSent)
    else (0, .dflt)
  else (0, .dflt)

/-- One data block in a radio block on the air: scheme, padding, split indicator and the
octets `start … start + len - 1` of the stored block; puncturing scheme. -/
structure Sent where
  cs : CS
  pad : Bool
  spb : Spb
  start : Nat
  len : Nat
  ps : Ps
  deriving DecidableEq, Repr

/-- tbf_dl.cpp:802-851: loop body of `create_dl_acked_block`. `none`: assertion 809-810. -/
def sendOne (b : DlBlk) (cs : CS) (pad : Bool) (spb : Spb) : Option (DlBlk × Sent) :=
  let p := getPunct b.ps b.last cs spb
  if cs.isEdge && p == .invalid then none
  else
    let d := getData b
    some ({ b with
            last := cs
            ps := if spb = .first then p else updatePunct p cs
            st := d.2 },
          { cs := cs, pad := pad, spb := spb, start := d.1
            len := (Blk.blockInit cs pad 0).dataLen, ps := p })

/-- tbf_dl.cpp:741-761: scheme and padding of a radio block with one BSN. -/
def aloneCs (b : DlBlk) : CS × Bool :=
  if b.init = .mcs8 ∧ (b.cur = .mcs6 ∨ b.cur = .mcs3) then
    (b.cur, b.st = .dflt || b.st = .secondSent)
  else if b.cur ≠ .mcs8 then b.cur.decToSingle
  else (b.cur, false)

/-- tbf_dl.cpp:696-856 with `index2 = -1`: a radio block with this block alone. A scheme
with two data blocks (MCS-8) carries it twice. -/
def sendAlone (b : DlBlk) : Option (DlBlk × List Sent) :=
  let (cs, pad) := aloneCs b
  let spb := spbOf b
  (sendOne b cs pad spb).bind fun (b1, s1) =>
  if cs.hdr.numBlocks = 2 then
    (sendOne b1 cs pad spb).map fun (b2, s2) => (b2, [s1, s2])
  else some (b1, [s1])

/-- tbf_dl.cpp:696-856 with two BSNs: the part of one of them. `cs` is `cs_current_trans` of
the first one; it has two data blocks, otherwise `take_next_bsn` is not called a second time
(tbf_dl.cpp:408). SPB is that of the first block: header type 1, so never a split. -/
def sendPaired (b : DlBlk) (cs : CS) : Option (DlBlk × Sent) := sendOne b cs false .noRetx

/-! ### Uplink -/

/-- rlc.h:57-62 `egprs_rlc_ul_reseg_bsn_state`. -/
inductive UlSt where
  | dflt | firstRxd | secondRxd
  deriving DecidableEq, Repr

/-- Fields of `gprs_rlc_data` used in the uplink: the store `block[RLC_MAX_LEN]`, `len`,
`block_info.data_len` and the split status. -/
structure Slot where
  mem : List Nat
  len : Nat
  infoLen : Nat
  st : UlSt
  deriving DecidableEq, Repr

/-- Copy of octets to position `i` of the store (C10 proves the bit-shifted copy);
`none`: outside of the store. -/
def put (mem : List Nat) (i : Nat) (d : List Nat) : Option (List Nat) :=
  if i + d.length ≤ mem.length then some (mem.take i ++ d ++ mem.drop (i + d.length)) else none

/-- tbf_ul.cpp:486-517 `handle_egprs_ul_second_seg`. -/
def ulSecond (s : Slot) (d : List Nat) : Option Slot :=
  match s.st with
  | .firstRxd =>
    (put s.mem s.len d).map fun m =>
      { mem := m, len := s.len + d.length, infoLen := s.infoLen + d.length, st := .dflt }
  | .dflt =>
    (put s.mem d.length d).map fun m =>
      { mem := m, len := d.length, infoLen := d.length, st := .secondRxd }
  | .secondRxd => some s

/-- tbf_ul.cpp:519-548 `handle_egprs_ul_first_seg`. -/
def ulFirst (s : Slot) (d : List Nat) : Option Slot :=
  match s.st with
  | .secondRxd =>
    (put s.mem 0 d).map fun m =>
      { mem := m, len := s.len + d.length, infoLen := s.len + d.length, st := .dflt }
  | .dflt =>
    (put s.mem 0 d).map fun m =>
      { mem := m, len := d.length, infoLen := d.length, st := .firstRxd }
  | .firstRxd => some s

/-- A transmission of a block by the mobile. -/
inductive Arr where
  | whole (d : List Nat)
  | first (d : List Nat)
  | second (d : List Nat)
  deriving DecidableEq, Repr

/-- tbf_ul.cpp:317-335 and 550-601: store one arrival; the flag says that the block is
complete (the caller goes on to `receive_bsn`; otherwise it returns, 327-328). -/
def ulStore (s : Slot) : Arr → Option (Slot × Bool)
  | .whole d => (put s.mem 0 d).map fun m =>
      ({ s with mem := m, len := d.length, infoLen := d.length }, true)
  | .first d => (ulFirst s d).map fun t => (t, t.st = .dflt)
  | .second d => (ulSecond s d).map fun t => (t, t.st = .dflt)

/-- Arrivals of one block until it is complete; later ones are ignored by the receive window
(tbf_ul.cpp:306). -/
def ulRun (s : Slot) : List Arr → Option (Slot × Bool)
  | [] => some (s, false)
  | a :: as => (ulStore s a).bind fun (t, done) => if done then some (t, true) else ulRun t as

end Verif.Split
