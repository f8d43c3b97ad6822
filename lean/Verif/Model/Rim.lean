import Verif.Model.Cache
import Verif.Model.PcuIf
/-!
# System information of other cells

Model of `src/gprs_bssgp_rim.c` and of what it connects: the messages of the BTSs (PcuIf), the two caches (Cache) and the cell change
procedures of the mobiles (Nacc). BSSGP messages are their fields, as libosmocore decodes and encodes them (`bssgp_parse_rim_pdu`,
`bssgp_tx_rim`). PCU without the options that replace MCC and MNC (`--mcc`, `--mnc`). A mobile belongs to one BTS (`home`); when it appears in
another cell it is another one.
-/

namespace Verif.Rim

open Verif.Nacc (Key Cgi Si Ctx Notif World)
open Verif.PcuIf (St Bts)
open Verif.Cache (Cache)

/-- `struct bssgp_rim_routing_info`: a GERAN cell, another one. -/
inductive Routing where
  | geran (c : Cgi)
  | other (id : List Nat)
  deriving DecidableEq, Repr

/-- `struct bssgp_ran_inf_rim_cont`: application error, or `struct bssgp_ran_inf_app_cont_nacc`. -/
inductive Report where
  | err (cause : Nat)
  | si (cell : Cgi) (psi : Bool) (si : List (List Nat))
  deriving DecidableEq, Repr

/-- Decoded RIM containers: request, information, error, the other two (application error, acknowledgement). `app`: 1 for NACC; `type`: 1
for a single report. -/
inductive Body where
  | request (app seq type ver : Nat) (cell : Cgi)
  | info (app seq type ver : Nat) (r : Report)
  | error (app ver : Nat) (pdu : List Nat)
  | otherKind
  deriving DecidableEq, Repr

/-- `struct bssgp_ran_information_pdu`. `raw`: octets of the container; `body`: `none` if it could not be decoded. -/
structure Pdu where
  dst : Routing
  src : Routing
  raw : List Nat
  body : Option Body
  deriving DecidableEq, Repr

/-- What is sent to the SGSN: RIM PDU (its octets are made by libosmocore), STATUS. -/
inductive Net where
  | pdu (dst src : Routing) (b : Body)
  | unknownApp
  | unknownDst
  deriving DecidableEq, Repr

/-- State of the PCU, as far as it matters here. `cell`: `ra_id` and `cell_id` of `the_pcu->bssgp.bctx`; `nacc`: procedures of the
mobiles. -/
structure Pcu where
  l1 : St := {}
  cell : Option Cgi := none
  now : Nat
  neigh : Cache Key Cgi
  sis : Cache Cgi Si
  nacc : Nat → Option Ctx := fun _ => none

/-- gprs_pcu.c:141-142. -/
def init (now neighSec siSec : Nat) : Pcu := { now := now, neigh := Cache.alloc Key Cgi neighSec, sis := Cache.alloc Cgi Si siSec }

/-- gprs_pcu.c:160-168 `gprs_pcu_get_bts_by_cgi_ps`. -/
def byCgi (s : St) (c : Cgi) : Option (Nat × Bts) := s.bts.find? (·.2.cgi = c)

/-- nacc_fsm.c:363-384 `bts_fill_si_cache_value`; gprs_bssgp_rim.c:57-92 `fill_app_cont_nacc`: SI 1, 3, 13 without two octets of header. -/
def siList (b : Bts) : List (List Nat) :=
  (match b.si1 with | some x => [x.drop 2] | none => []) ++ ((match b.si3 with | some x => [x.drop 2] | none => []) ++
    (match b.si13 with | some x => [x.drop 2] | none => []))

def ownSi (b : Bts) : Si := ⟨(siList b).flatten, false⟩

/-- The PCU as the procedure of a mobile of BTS `nr` finds it. Other BTSs: nacc_fsm.c:521-525. -/
def worldOf (s : Pcu) (nr : Nat) (b : Bts) (reqOk rimOk : Bool) : World :=
  { neigh := Cache.lookup s.neigh, sis := Cache.lookup s.sis
    cells := (s.l1.bts.filter (·.1 ≠ nr)).map fun x => (x.2.cgi, ownSi x.2)
    own := ownSi b, reqOk := reqOk, rimOk := rimOk }

/-- nacc_fsm.c:217-270 `fill_rim_ran_info_req`. -/
def requestFor (b : Bts) (g : Cgi) : Net := .pdu (.geran g) (.geran b.cgi) (.request 1 1 1 1 g)

/-- gprs_bssgp_rim.c:95-114 `format_response_pdu`, with 49-54 `mirror_rim_routing_info`. The reported cell is that of the BSSGP context. -/
def response (c : Cgi) (p : Pdu) (b : Bts) : Net := .pdu p.src p.dst (.info 1 1 1 1 (.si c false (siList b)))

/-- gprs_bssgp_rim.c:117-133 `format_response_pdu_err`. -/
def errorFor (p : Pdu) : Net := .pdu p.src p.dst (.error 1 1 p.raw)

/-- gprs_bssgp_rim.c:163-198 `handle_ran_info_request`. Without a BSSGP context no PDU is received. -/
def handleRequest (cell : Option Cgi) (b : Bts) (p : Pdu) (app : Nat) (c : Cgi) : List Net :=
  if app ≠ 1 then [errorFor p]
  else if b.cgi ≠ c then [errorFor p]
  else match cell with
    | some g => [response g p b]
    | none => []

/-- gprs_bssgp_rim.c:146-152: messages of `len` octets are copied one after the other to a buffer of 22 * 127 octets (neigh_cache.h:88-92).
`none`: outside the buffer or the message. -/
def copySi (len : Nat) : List Nat → List (List Nat) → Option (List Nat)
  | buf, [] => some buf
  | buf, x :: l => if buf.length + len ≤ 22 * 127 ∧ len ≤ x.length then copySi len (buf ++ x.take len) l else none

/-- Result of an event: state, what the SGSN gets, what the procedures of the mobiles do. `stopped`: the process ends; `outside`: memory
outside a message or array is accessed. -/
inductive Res where
  | ok (s : Pcu) (net : List Net) (mob : Nat → List Nacc.Out)
  | stopped
  | outside

/-- gprs_bssgp_rim.c:135-161 `handle_ran_info_response_nacc` for BTS `nr`. -/
def handleInfo (home : Nat → Nat) (s : Pcu) (nr : Nat) (cell : Cgi) (psi : Bool) (si : List (List Nat)) : Res :=
  match copySi (if psi then 22 else 21) [] si with
  | none => .outside
  | some buf =>
    .ok { s with sis := Cache.add s.now s.sis cell ⟨buf, psi⟩
                 nacc := fun i => if home i = nr then (s.nacc i).map fun c => Nacc.rxSi c cell ⟨buf, psi⟩ else s.nacc i } [] fun _ => []

/-- gprs_bssgp_rim.c:225-286 `handle_rim`, 200-223 `handle_ran_info_response`. For a PDU that was not decoded an error PDU is made but not
sent (262-264). -/
def handleRim (home : Nat → Nat) (s : Pcu) (p : Pdu) : Res :=
  match p.dst with
  | .other _ => .ok s [.unknownApp] fun _ => []
  | .geran c =>
    match byCgi s.l1 c with
    | none => .ok s [.unknownDst] fun _ => []
    | some (nr, b) =>
      match p.body with
      | none => .ok s [] fun _ => []
      | some (.request app _ _ _ cell) => .ok s (handleRequest s.cell b p app cell) fun _ => []
      | some (.info app _ _ _ (.si cell psi si)) => if app ≠ 1 then .ok s [] fun _ => [] else handleInfo home s nr cell psi si
      | some (.info _ _ _ _ (.err _)) => .ok s [] fun _ => []
      | some (.error ..) => .ok s [] fun _ => []
      | some .otherKind => .ok s [] fun _ => []

/-- What `rx` hands to BSSGP: gprs_bssgp_pcu.c:1274-1318 `gprs_bssgp_init`, the first one is kept. -/
def bssgpOf : PcuIf.Out → Option Cgi
  | .bssgp _ _ _ c => some c
  | _ => none

def neighOf : PcuIf.Out → Option (Nat × Key × Option Cgi)
  | .neigh nr k c => some (nr, k, c)
  | _ => none

/-- The BTS of a mobile. (There are mobiles in BTSs that are known only.) -/
def Pcu.bts (s : Pcu) (nr : Nat) : Bts := (s.l1.get nr).getD {}

/-- pcu_l1_if.cpp:1168-1207 `pcu_rx_neigh_addr_cnf`, behind the decoding (PcuIf). -/
def rxNeigh (home : Nat → Nat) (s : Pcu) (rimOk : Bool) (nr : Nat) (k : Key) (c : Option Cgi) : Res :=
  let s := match c with
    | some g => { s with neigh := Cache.add s.now s.neigh k g }
    | none => s
  let r := fun i => if home i = nr then
      match s.nacc i with
      | some x => let y := Nacc.addr (worldOf s nr (s.bts nr) true rimOk) x k c; (some y.1, y.2)
      | none => (none, [])
    else (s.nacc i, [])
  .ok { s with nacc := fun i => (r i).1 } [] fun i => (r i).2

/-- A message of a BTS. At most one element of the output of `PcuIf.rx` is for BSSGP, or a neighbour address. -/
def rxBts (home : Nat → Nat) (e : PcuIf.Env) (s : Pcu) (rimOk : Bool) (m : List Nat) : Res :=
  match PcuIf.rx e s.l1 m with
  | .ok l1 o _ =>
    let s := { s with l1 := l1, cell := match s.cell with | some c => some c | none => o.findSome? bssgpOf }
    match o.findSome? neighOf with
    | some (nr, k, c) => rxNeigh home s rimOk nr k c
    | none => .ok s [] fun _ => []
  | .outside => .outside
  | _ => .stopped

/-- What can happen to the PCU: messages of BTS and SGSN; for the procedure of mobile `i` a Packet Cell Change Notification, a block to
send, acknowledgement or timeout of a poll, timeout; time passes, the timers of the caches, configuration of the keep times. `rimOk`, `reqOk`:
messages to SGSN and BTS can be sent. -/
inductive In where
  | bts (rimOk : Bool) (m : List Nat)
  | rim (p : Pdu)
  | notify (reqOk rimOk : Bool) (i : Nat) (n : Notif)
  | rts (i : Nat) (poll : Option (Nat × Nat))
  | ack (i : Nat) (poll : Nat × Nat)
  | noAck (i : Nat) (poll : Nat × Nat)
  | timer (i : Nat)
  | wait (d : Nat)
  | cleanNeigh
  | cleanSi
  | keepNeigh (sec : Nat)
  | keepSi (sec : Nat)

/-- An event of the procedure of mobile `i`. -/
def one (home : Nat → Nat) (s : Pcu) (i : Nat) (ev : Bts → Nacc.Ev) : Res :=
  let b := s.bts (home i)
  let r := Nacc.step b.cgi.lac b.cgi.ci (s.nacc i) (ev b)
  .ok { s with nacc := fun j => if j = i then r.1 else s.nacc j } [] fun j => if j = i then r.2 else []

/-- Timer of a cache: does nothing before it is due. -/
def clean {κ ν : Type} [DecidableEq κ] (now : Nat) (c : Cache κ ν) : Cache κ ν :=
  match c.timer with
  | some d => if d ≤ now then Cache.cleanup now c else c
  | none => c

def step (home : Nat → Nat) (e : PcuIf.Env) (s : Pcu) : In → Res
  | .bts rimOk m => rxBts home e s rimOk m
  | .rim p => handleRim home s p
  | .notify q r i n => one home s i fun b => .notify (worldOf s (home i) b q r) n
  | .rts i p => one home s i fun _ => .rts p
  | .ack i p => one home s i fun _ => .ack p
  | .noAck i p => one home s i fun _ => .noAck p
  | .timer i => one home s i fun _ => .timer
  | .wait d => .ok { s with now := s.now + d } [] fun _ => []
  | .cleanNeigh => .ok { s with neigh := clean s.now s.neigh } [] fun _ => []
  | .cleanSi => .ok { s with sis := clean s.now s.sis } [] fun _ => []
  | .keepNeigh t => .ok { s with neigh := Cache.setKeep s.now s.neigh t } [] fun _ => []
  | .keepSi t => .ok { s with sis := Cache.setKeep s.now s.sis t } [] fun _ => []

end Verif.Rim
