import Verif.Model.ImmAss
/-!
# Random access on the CCCH

Model of `src/bts.cpp` 791-1043 and of the decoder of an EGPRS Packet Channel Request
(`src/gsm_rlcmac.c` 5249-5299, 6220-6247 with `CSN_CHOICE`, csn1_dec.c:410-470).
-/

namespace Verif.Rach

open Verif.Ia

/-- bts.h `struct rach_ind_params`, as far as it is used here. `rfn`: frame number modulo 42432. -/
structure Ind where
  burst : Burst
  is11 : Bool
  ra : Nat
  rfn : Nat
  qta : Int
  deriving DecidableEq, Repr

/-- bts.h `struct chan_req_params`. -/
structure Req where
  cls : Nat := 0
  prio : Nat := 0
  single : Bool := false
  deriving DecidableEq, Repr

/-- gsm_rlcmac.h:5354-5366. -/
inductive Ty | onePhase | short | redLatency | twoPhase | signalling | unack | dedicated | emergency | twoPhaseIpa | signallingIpa
  deriving DecidableEq, Repr

/-- gsm_rlcmac.c:5281-5294: number of bits, value, type, widths of the fields that follow: first field, priority,
random bits. -/
def choices : List (Nat × Nat × Ty × Nat × Nat × Nat) :=
  [(1, 0x00, .onePhase, 5, 2, 3), (3, 0x04, .short, 3, 2, 3), (3, 0x05, .redLatency, 3, 2, 3), (6, 0x30, .twoPhase, 0, 2, 3),
   (6, 0x33, .signalling, 0, 0, 5), (6, 0x35, .unack, 0, 0, 5), (6, 0x36, .dedicated, 0, 0, 5), (6, 0x37, .emergency, 0, 0, 5),
   (6, 0x38, .twoPhaseIpa, 0, 2, 3), (6, 0x39, .signallingIpa, 0, 0, 5)]

/-- csn1_dec.c:422-466: the first choice whose bits match; `none`: no choice matches. -/
def choose (l : List Bool) : List (Nat × Nat × Ty × Nat × Nat × Nat) → Option (Ty × Nat × Nat × Nat × List Bool)
  | [] => none
  | (n, v, t, a, b, c) :: cs =>
    match Bits.get n l with
    | none => none
    | some (x, l') => if x = v then some (t, a, b, c, l') else choose l cs

/-- gsm_rlcmac.c:6220-6247 `decode_egprs_pkt_ch_req`: type, first field, priority; an error if bits are left
over. -/
def decode (ra : Nat) : Option (Ty × Nat × Nat) :=
  match choose (Bits.put 11 ra) choices with
  | none => none
  | some (t, a, b, c, l) =>
    match Bits.get a l with
    | none => none
    | some (x, l) =>
      match Bits.get b l with
      | none => none
      | some (y, l) =>
        match Bits.get c l with
        | some (_, []) => some (t, x, y)
        | _ => none

/-- bts.cpp:797-852 `parse_egprs_pkt_ch_req`; `none`: an error code. -/
def parseEgprs (ra : Nat) : Option Req :=
  match decode ra with
  | none => none
  | some (t, x, p) =>
    match t with
    | .onePhase => some { cls := x + 1, prio := p + 1 }
    | .short => some { prio := p + 1, single := x == 0 }
    | .redLatency => some { prio := p + 1 }
    | .twoPhase | .twoPhaseIpa => some { prio := p + 1, single := true }
    | .signalling | .signallingIpa => some { single := true }
    | .unack | .emergency | .dedicated => none

/-- bts.cpp:855-898 `parse_rach_ind`. -/
def parse (i : Ind) : Option Req :=
  match i.burst with
  | .none | .access0 => if i.is11 then none else some { single := (i.ra &&& 0xf8) == 0x70 }
  | .access1 | .access2 => if !i.is11 then none else parseEgprs i.ra
  | .other => none

/-- pcu_l1_if.h:35-42 `qta2ta`. -/
def qta2ta (q : Int) : Nat := if q < 0 then 0 else if q > 252 then 63 else (q / 4).toNat

/-- What a request meets: enabled PDCHs by TRX and time slot; the frame that `sba_alloc` would reserve on a
PDCH; the TBF (with its PDCH and USF) that would be allocated for a mobile with this EGPRS class (0: unknown);
configuration. -/
structure Env where
  pdch : Nat → Nat → Option Pdch
  sbaFn : Nat → Nat → Nat
  tbf : Nat → Option (Tbf × Pdch × Nat)
  forceTwoPhase : Bool
  alpha : Nat
  gamma : Nat
  t3142 : Nat

/-- bts.cpp:909-921: TRX upwards, time slots downwards; the first enabled PDCH. -/
def findPdch (e : Env) : Option (Nat × Nat × Pdch) :=
  (List.range 8).findSome? fun trx => [7, 6, 5, 4, 3, 2, 1, 0].findSome? fun ts => (e.pdch trx ts).map fun p => (trx, ts, p)

/-- bts.cpp:900-928 `bts_alloc_sba`: PDCH and frame. -/
def allocSba (e : Env) (ta : Nat) : Option (Nat × Nat × Pdch × Nat) :=
  if 64 ≤ ta then none else (findPdch e).map fun x => (x.1, x.2.1, x.2.2, e.sbaFn x.1 x.2.1)

/-- What is left behind: the message for the AGCH (`fail`: none), a reserved block (TRX, time slot, frame), an
uplink TBF. -/
structure Res where
  out : Out
  sba : Option (Nat × Nat × Nat) := none
  tbf : Option Tbf := none
  deriving DecidableEq, Repr

/-- bts.cpp:1033-1042 `send_imm_ass_rej`. -/
def sendReject (e : Env) (i : Ind) : Res := { out := reject i.ra i.rfn e.t3142 i.burst }

/-- bts.cpp:930-1043 `bts_rcv_rach`. -/
def rcvRach (e : Env) (i : Ind) : Res :=
  let ta := qta2ta i.qta
  match parse i with
  | none => sendReject e i
  | some r =>
    if r.single || e.forceTwoPhase then
      match allocSba e ta with
      | none => sendReject e i
      | some (trx, ts, p, fn) =>
        { out := uplink p none i.ra i.rfn ta 7 (fn % 42432) e.alpha e.gamma none i.burst, sba := some (trx, ts, fn) }
    else
      match e.tbf r.cls with
      | none => sendReject e i
      | some (t, p, usf) => { out := uplink p (some t) i.ra i.rfn ta usf 0 e.alpha e.gamma none i.burst, tbf := some t }

end Verif.Rach
