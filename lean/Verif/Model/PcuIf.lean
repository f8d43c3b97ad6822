import Verif.Model.Fn
import Verif.Model.MsCs
import Verif.Model.Nacc
/-!
# The interface to the BTS

Model of the receiving side of `src/pcu_l1_if.cpp`: a message from the socket (`src/pcuif_sock.c`) is checked, decoded with the packed
structures of `include/osmocom/pcu/pcuif_proto.h` and handed on. The machine is little-endian (x86, ARM). Log output is not modelled. What other
parts do with what they are given (`Out`) is modelled there: blocks (UlRx, UlCtrl), ready-to-send (Sched), random access (Rach, Ta),
paging (Paging), application information (Analyse), BSSGP (Bvc), neighbour addresses (Nacc, Cache), confirmations (ImmAss). PCU compiled
without direct access to a PHY; memory can be allocated.
-/

namespace Verif.PcuIf

open Verif.Nacc (Cgi Key)

/-- Octet `o` of a structure. -/
def u8 (v : List Nat) (o : Nat) : Nat := v.getD o 0

/-- Little-endian fields of packed structures. -/
def u16 (v : List Nat) (o : Nat) : Nat := u8 v o + 256 * u8 v (o + 1)
def u32 (v : List Nat) (o : Nat) : Nat := u16 v o + 65536 * u16 v (o + 2)

/-- `osmo_load16be`. -/
def be16 (v : List Nat) (o : Nat) : Nat := 256 * u8 v o + u8 v (o + 1)

/-- Two's complement: `int8_t`, `int16_t` fields. -/
def signed (bits n : Nat) : Int := if n < 2 ^ (bits - 1) then n else (n : Int) - 2 ^ bits

/-- Octets `o … o + n - 1`. -/
def slice (v : List Nat) (o n : Nat) : List Nat := (v.drop o).take n

/-- pdch.h:110-120 `fh`. -/
structure Fh where
  enabled : Bool := false
  hsn : Nat := 0
  maio : Nat := 0
  octLen : Nat := 0
  bitLen : Nat := 0
  ma : List Nat := [0, 0, 0, 0, 0, 0, 0, 0]
  deriving DecidableEq, Repr

/-- The part of `struct gprs_rlcmac_pdch` that is configured: `m_is_enabled`, `tsc`, `fh`. -/
structure Pdch where
  enabled : Bool := false
  tsc : Nat := 0
  fh : Fh := {}
  deriving DecidableEq, Repr

/-- The part of `struct gprs_rlcmac_bts` that is configured (bts.h:219-300), with the values of `bts_alloc` (bts.cpp:273-335). System
information: `none` if its `is_set` flag is not set; `curFn`: `none` for FN_UNSET. -/
structure Bts where
  active : Bool := false
  cgi : Cgi := ⟨0, 0, false, 0, 0, 0⟩
  bsic : Nat := 0
  /-- coding scheme masks, greatest and initial schemes -/
  cell : Ms.Cell := { csMask := 1, mcsMask := 0 }
  n3101 : Nat := 10
  n3103 : Nat := 4
  n3105 : Nat := 8
  arfcn : Nat → Nat := fun _ => 0
  pdch : Nat → Nat → Pdch := fun _ _ => {}
  genIdle : Bool := false
  curFn : Option Nat := none
  si1 : Option (List Nat) := none
  si2 : Option (List Nat) := none
  si3 : Option (List Nat) := none
  si13 : Option (List Nat) := none

/-- bts.cpp:78-101 `T_defs_bts`, the timers set by the BTS, T3193 in milliseconds, others in seconds. One array for all BTSs. -/
structure Timers where
  t3142 : Nat := 20
  t3169 : Nat := 5
  t3191 : Nat := 5
  t3193 : Nat := 1600
  t3195 : Nat := 5
  deriving DecidableEq, Repr

/-- pcu_l1_if.cpp:61-71 `struct e1_ccu_conn_pars`. -/
structure E1 where
  bts : Nat
  trx : Nat
  ts : Nat
  line : Nat
  e1ts : Nat
  ss : Nat
  deriving DecidableEq, Repr

/-- `the_pcu->bts_list` with BTS numbers, in order; `T_defs_bts`; `e1_ccu_table`. -/
structure St where
  bts : List (Nat × Bts) := []
  timers : Timers := {}
  e1 : List E1 := []

/-- pcu_l1_if.cpp:573-585, 624-633 `struct rach_ind_params`. -/
structure Ra where
  burst : Nat
  is11 : Bool
  ra : Nat
  trx : Nat
  ts : Nat
  rfn : Nat
  fn : Nat
  qta : Int
  deriving DecidableEq, Repr

/-- pcu_l1_if.h:88-106 `struct pcu_l1_meas`, the part set here. -/
structure Meas where
  rssi : Int
  ber : Nat
  bto : Int
  lqual : Int
  deriving DecidableEq, Repr

/-- Address of an NS-VC: address type, address, ports, NSVCI. -/
structure Nsvc where
  v6 : Bool
  ip : List Nat
  lport : Nat
  rport : Nat
  nsvci : Nat
  deriving DecidableEq, Repr

/-- What is sent to the BTS (`actReq`) or handed to other parts of the PCU. -/
inductive Out where
  | actReq (bts trx ts : Nat) (on : Bool)
  | block (bts trx ts : Nat) (data : List Nat) (fn : Nat) (m : Meas)
  | rtsPdtch (bts trx ts fn blk : Nat)
  | rtsPtcch (bts trx ts fn blk : Nat)
  | immAssCnf (bts id : Nat)
  | rach (bts : Nat) (r : Ra)
  | ptcchRach (bts : Nat) (r : Ra)
  | page (bts chan : Nat) (id : List Nat)
  | suspend (bts tlli : Nat) (ra : List Nat)
  | appInfo (bts type len : Nat) (data : List Nat)
  | neigh (bts : Nat) (k : Key) (c : Option Cgi)
  | bssgp (bts nsei bvci : Nat) (c : Cgi)
  | ns (bts nsei : Nat) (l : List (Option Nsvc))
  deriving DecidableEq, Repr

/-- `ok`: state, output, whether the message was accepted (return code not negative). `exit`: the process ends; `abort`: an assertion
fails; `outside`: memory outside the message or the arrays is accessed. -/
inductive Res where
  | ok (s : St) (o : List Out) (accepted : Bool)
  | exit
  | abort
  | outside

/-- What the PCU is told from elsewhere: its configuration (`the_pcu->vty`), whether BSSGP and NS accept theirs
(`gprs_bssgp_init`, `gprs_ns_update_config`). -/
structure Env where
  vty : Ms.Cfg := {}
  bssgp : Bool := true
  ns : Bool := true

/-- gprs_pcu.c:150-158 `gprs_pcu_get_bts_by_nr`. -/
def St.get (s : St) (nr : Nat) : Option Bts := (s.bts.find? (·.1 = nr)).map (·.2)

/-- Write access through the pointer of `gprs_pcu_get_bts_by_nr`: the first BTS of this number. -/
def setFirst (nr : Nat) (b : Bts) : List (Nat × Bts) → List (Nat × Bts)
  | [] => []
  | x :: l => if x.1 = nr then (nr, b) :: l else x :: setFirst nr b l

def St.set (s : St) (nr : Nat) (b : Bts) : St := { s with bts := setFirst nr b s.bts }

/-- pcu_l1_if.cpp:1245-1253: a BTS that is not known is allocated, at the end of the list; bts.cpp:301 resets the timers. -/
def St.ensure (s : St) (nr : Nat) : St :=
  match s.get nr with
  | some _ => s
  | none => { s with bts := s.bts ++ [(nr, {})], timers := {} }

/-- pcu_l1_if.cpp:371-460 `pcu_rx_data_ind_bcch`, with `osmo_sysinfo_type` of libosmocore (sysinfo.h: SI1 1, SI2 2, SI3 3, SI13 11)
and the message types of TS 44.018. The decoding of the frequency list of SI2 and of the rest octets of SI13 (alpha, T3168, T3192) is not
modelled. -/
def dataBcch (b : Bts) (data : List Nat) (len : Nat) : Bts × Bool :=
  if len = 0 then ({ b with si13 := none }, true)
  else if len = 1 then
    if u8 data 0 = 1 then ({ b with si1 := none }, true)
    else if u8 data 0 = 2 then ({ b with si2 := none }, true)
    else if u8 data 0 = 3 then ({ b with si3 := none }, true)
    else if u8 data 0 = 11 then ({ b with si13 := none }, true)
    else (b, false)
  else if len = 23 then
    if u8 data 2 = 0x19 then ({ b with si1 := some (data.take 23) }, true)
    else if u8 data 2 = 0x1a then ({ b with si2 := some (data.take 23) }, true)
    else if u8 data 2 = 0x1b then ({ b with si3 := some (data.take 23) }, true)
    else if u8 data 2 = 0 then ({ b with si13 := some (data.take 23) }, true)
    else (b, false)
  else (b, false)

/-- pcu_l1_if.cpp:462-511 `pcu_rx_data_ind`, 336-352 `pcu_rx_data_ind_pdtch`, bts.cpp:337-352; `v`: `struct gsm_pcu_if_data`. TRX and time
slot are not checked. `rcv_block` is given the `len` octets from `data` (pdch.cpp:966-996: reads at least as many for the log if it
drops the block). -/
def rxDataInd (s : St) (nr : Nat) (b : Bts) (v : List Nat) : Res :=
  let len := u8 v 1
  let data := slice v 2 162
  let fn := u32 v 164
  let trx := u8 v 170
  let ts := u8 v 171
  if u8 v 0 = 5 then
    if trx ≥ 8 ∨ ts ≥ 8 then .outside
    else if fn ≥ Fn.H then .abort
    else
      let s := s.set nr { b with curFn := some fn }
      if !(b.pdch trx ts).enabled then .ok s [] false
      else if len > 162 then .outside
      else .ok s [.block nr trx ts (data.take len) fn
        ⟨signed 8 (u8 v 173), u16 v 174 / 100 % 256, signed 16 (u16 v 176), (signed 16 (u16 v 178)).tdiv 10⟩] true
  else if u8 v 0 = 4 then
    let r := dataBcch b data len
    .ok (s.set nr r.1) [] r.2
  else .ok s [] false

/-- pcu_l1_if.cpp:513-530 `pcu_rx_data_cnf2`; `v`: `struct gsm_pcu_if_data_cnf`. -/
def rxDataCnf (s : St) (nr : Nat) (v : List Nat) : Res :=
  if u8 v 0 = 8 ∨ u8 v 0 = 9 then .ok s [.immAssCnf nr (u32 v 1)] true else .ok s [] false

/-- pcu_l1_if.cpp:576-604 `pcu_rx_rts_req`, with the checks of 540-552 and gprs_rlcmac_sched.cpp:407-415; `v`:
`struct gsm_pcu_if_rts_req`. The return code of the handlers is not used. (The log output of level debug uses the time slot before the
check.) -/
def rxRts (s : St) (nr : Nat) (b : Bts) (v : List Nat) : Res :=
  let trx := u8 v 10
  let ts := u8 v 11
  let fn := u32 v 4
  if u8 v 0 = 5 then
    if trx ≥ 8 ∨ ts ≥ 8 then .ok s [] true
    else if !(b.pdch trx ts).enabled then .ok s [] true
    else .ok s [.rtsPdtch nr trx ts fn (u8 v 12)] true
  else if u8 v 0 = 7 then
    if trx ≥ 8 ∨ ts ≥ 8 then .ok s [] true
    else if !(b.pdch trx ts).enabled then .ok s [] true
    else .ok s [.rtsPtcch nr trx ts fn (u8 v 12)] true
  else .ok s [] false

/-- pcu_l1_if.cpp:624-679 `pcu_rx_rach_ind`; `v`: `struct gsm_pcu_if_rach_ind`. -/
def rxRach (s : St) (nr : Nat) (b : Bts) (v : List Nat) : Res :=
  let fn := u32 v 5
  let rfn := Fn.fn2rfn fn % 65536
  if fn > Fn.H - 1 then .ok s [] false
  else
    let r : Ra := { burst := u8 v 12, is11 := u8 v 11 > 0, ra := u16 v 1, trx := u8 v 13, ts := u8 v 14, rfn := rfn
                    fn := Fn.rfnToFn b.curFn rfn, qta := signed 16 (u16 v 3) }
    if u8 v 0 = 1 then .ok s [.rach nr r] true
    else if u8 v 0 = 7 then .ok s [.ptcchRach nr r] true
    else .ok s [] false

/-- pcuif_proto.h:140-147 `struct gsm_pcu_if_info_trx_ts`: time slot `ts` of TRX `trx` in an INFO indication. -/
structure TsInfo where
  tsc : Nat
  hopping : Nat
  hsn : Nat
  maio : Nat
  maBitLen : Nat
  ma : List Nat
  deriving DecidableEq, Repr

def tsInfo (v : List Nat) (trx ts : Nat) : TsInfo :=
  let o := 16 + 112 * trx + 13 * ts
  ⟨u8 v o, u8 v (o + 1), u8 v (o + 2), u8 v (o + 3), u8 v (o + 4), slice v (o + 5) 8⟩

/-- pcuif_proto.h:149-155 `struct gsm_pcu_if_info_trx`. -/
def trxArfcn (v : List Nat) (trx : Nat) : Nat := u16 v (8 + 112 * trx)
def trxMask (v : List Nat) (trx : Nat) : Nat := u8 v (8 + 112 * trx + 2)
def trxHlayer1 (v : List Nat) (trx : Nat) : Nat := u32 v (8 + 112 * trx + 4)

/-- pcu_l1_if.cpp:941-957: the parameters of frequency hopping. They are kept if there is no hopping. -/
def setFh (f : Fh) (i : TsInfo) : Fh :=
  if i.hopping = 0 then f
  else
    let n := (i.maBitLen + 7) / 8
    { enabled := true, maio := i.maio, hsn := i.hsn, octLen := n, bitLen := i.maBitLen
      ma := slice i.ma (8 - n) n ++ f.ma.drop n }

/-- pcu_l1_if.cpp:922-972: one time slot. -/
def cfgPdch (p : Pdch) (on : Bool) (i : TsInfo) : Pdch :=
  if on then { enabled := true, tsc := i.tsc, fh := setFh p.fh i } else { p with enabled := false }

/-- pcu_l1_if.cpp:934-935, 967-968: activation is requested if it changes. -/
def actOf (nr trx ts : Nat) (p : Pdch) (on : Bool) : List Out :=
  if p.enabled = on then [] else [.actReq nr trx ts on]

/-- pcu_l1_if.cpp:896-957: why the process may end in the loop over the TRXs: direct access to the PHY, which is not compiled in; the
assertion on the length of a mobile allocation. -/
def trxStop (v : List Nat) (trx : Nat) : Option Res :=
  if (u32 v 4).testBit 1 ∧ trxHlayer1 v trx ≠ 0 then some .exit
  else if (List.range 8).any fun ts => (trxMask v trx).testBit ts && decide ((tsInfo v trx ts).hopping ≠ 0) && decide ((tsInfo v trx ts).maBitLen > 64) then
    some .abort
  else none

/-- pcu_l1_if.cpp:681-735 `pcu_info_ind_ns`: NS-VC `i` of two. -/
def nsvc (v : List Nat) (i : Nat) : Option Nsvc :=
  let ty := u8 v (968 + i)
  if ty = 4 then some ⟨false, slice v (970 + 16 * i) 4, u16 v (960 + 2 * i), u16 v (964 + 2 * i), u16 v (956 + 2 * i)⟩
  else if ty = 0x29 then some ⟨true, slice v (970 + 16 * i) 16, u16 v (960 + 2 * i), u16 v (964 + 2 * i), u16 v (956 + 2 * i)⟩
  else none

/-- pcu_l1_if.cpp:838-843: the cell; `rac` has 16 bits in the message and 8 in the PCU. -/
def cgiOf (v : List Nat) : Cgi := ⟨u16 v 905, u16 v 907, decide (u8 v 909 ≠ 0), u16 v 910, u16 v 912 % 256, u16 v 934⟩

/-- pcu_l1_if.cpp:845-850, 854-859: bits of the flags from `from`. -/
def maskOf (flags start n : Nat) : Nat :=
  (List.range n).foldl (fun m i => m ||| (if flags.testBit (start + i) then 2 ^ i else 0)) 0

/-- pcu_l1_if.cpp:737-762 `decide_gen_idle_blocks`: all models known but osmo-bts-trx. -/
def genIdleOf (model : Nat) : Bool := decide (model < 7) && decide (model ≠ 5)

/-- pcu_l1_if.cpp:767-981 `pcu_rx_info_ind`; `v`: `struct gsm_pcu_if_info_ind`. The PDCHs that are disabled are released
(Model/World). -/
def rxInfo (e : Env) (s : St) (nr : Nat) (b : Bts) (v : List Nat) : Res :=
  let flags := u32 v 4
  if u32 v 0 ≠ 0x0c then .exit
  else if !flags.testBit 0 then if !b.active then .ok s [] false else .exit
  else if !e.bssgp then .exit
  else if nsvc v 0 = none ∧ nsvc v 1 = none then .exit
  else if !e.ns then .exit
  else match (List.range 8).findSome? (trxStop v) with
    | some r => r
    | none =>
      let t := u8 v 941
      let cell := Ms.cellOf { e.vty with csMask := 1 ||| maskOf flags 16 4, mcsMask := maskOf flags 20 9
                                         infoInitCs := u8 v 954, infoInitMcs := u8 v 955 }
      let on := fun trx ts => (trxMask v trx).testBit ts
      let b' : Bts :=
        { b with active := true, cgi := cgiOf v, bsic := u8 v 904, cell := cell
                 n3101 := if t ≠ 0 then u8 v 946 else b.n3101
                 n3103 := if t ≠ 0 then u8 v 947 else b.n3103
                 n3105 := if t ≠ 0 then u8 v 948 else b.n3105
                 arfcn := trxArfcn v
                 pdch := fun trx ts => if trx < 8 ∧ ts < 8 then cfgPdch (b.pdch trx ts) (on trx ts) (tsInfo v trx ts) else b.pdch trx ts
                 genIdle := genIdleOf (u8 v 1002) }
      let timers := if t ≠ 0 then { t3142 := t, t3169 := u8 v 942, t3191 := u8 v 943, t3193 := u8 v 944 * 10, t3195 := u8 v 945 } else s.timers
      .ok { s.set nr b' with timers := timers }
        (.bssgp nr (u16 v 914) (u16 v 939) (cgiOf v) :: .ns nr (u16 v 914) [nsvc v 0, nsvc v 1] ::
          (List.range 8).flatMap fun trx => (List.range 8).flatMap fun ts => actOf nr trx ts (b.pdch trx ts) (on trx ts)) true

/-- pcu_l1_if.cpp:984-997 `pcu_l1if_get_e1_ccu_conn_pars`. -/
def e1Get (l : List E1) (bts trx ts : Nat) : Option (Nat × Nat × Nat) :=
  (l.find? fun x => x.bts = bts ∧ x.trx = trx ∧ x.ts = ts).map fun x => (x.line, x.e1ts, x.ss)

/-- Update of the entry found. -/
def e1Set (n : E1) : List E1 → List E1
  | [] => []
  | x :: l => if x.bts = n.bts ∧ x.trx = n.trx ∧ x.ts = n.ts then n :: l else x :: e1Set n l

/-- pcu_l1_if.cpp:1000-1046 `pcu_rx_e1_ccu_ind`; `v`: `struct gsm_pcu_if_e1_ccu_ind`. -/
def rxE1 (s : St) (nr : Nat) (v : List Nat) : Res :=
  let n : E1 := ⟨nr, u8 v 0, u8 v 1, u8 v 2, u8 v 3, u8 v 4⟩
  .ok { s with e1 := if (e1Get s.e1 n.bts n.trx n.ts).isSome then e1Set n s.e1 else n :: s.e1 } [] true

/-- pcu_l1_if.cpp:1062-1101 `pcu_rx_pag_req`; `v`: `struct gsm_pcu_if_pag_req`. The identity is decoded by libosmocore, `Out.page` has
its octets. -/
def rxPag (s : St) (nr : Nat) (v : List Nat) : Res :=
  let n := u8 v 2
  if n ≥ 9 then .ok s [] false else .ok s [.page nr (u8 v 1) (slice v 3 n)] true

/-- pcu_l1_if.cpp:1182-1211 `pcu_rx_neigh_addr_cnf`; `v`: `struct gsm_pcu_if_neigh_addr_cnf`. -/
def rxNeigh (s : St) (nr : Nat) (v : List Nat) : Res :=
  let k : Key := ⟨be16 v 0, be16 v 2, be16 v 4, u8 v 6⟩
  let c := if u8 v 7 = 0 then some ⟨be16 v 8, be16 v 10, decide (u8 v 12 ≠ 0), be16 v 13, u8 v 15, be16 v 16⟩ else none
  .ok s [.neigh nr k c] true

/-- A pointer to a structure of `n` octets at offset `o` of a message: `outside` if the message is shorter. -/
def cast (m : List Nat) (o n : Nat) (f : List Nat → Res) : Res := if o + n ≤ m.length then f (slice m o n) else .outside

/-- pcu_l1_if.cpp:1217-1228 CHECK_IF_MSG_SIZE, followed by the use of the structure. -/
def check (s : St) (m : List Nat) (n : Nat) (f : List Nat → Res) : Res :=
  if m.length < 4 + n then .ok s [] false else cast m 4 n f

/-- pcu_l1_if.cpp:1296-1307 and 1196-1214 `pcu_rx_container`. -/
def rxContainer (s : St) (nr : Nat) (m v : List Nat) : Res :=
  let len := be16 v 2
  if m.length < 4 + 4 + len then .ok s [] false
  else if u8 v 0 = 0x82 then
    if len < 18 then .ok s [] false else cast m 8 18 (rxNeigh s nr)
  else .ok s [] false

/-- pcu_l1_if.cpp:1229-1316 `pcu_rx`, behind the check of the header in pcuif_sock.c:128-132. -/
def rx (e : Env) (s : St) (m : List Nat) : Res :=
  if m.length < 4 then .ok s [] false
  else
    let nr := u8 m 1
    let s := s.ensure nr
    match s.get nr with
    | none => .ok s [] false
    | some b =>
      let ty := u8 m 0
      if ty = 0x02 then check s m 180 (rxDataInd s nr b)
      else if ty = 0x11 then check s m 5 (rxDataCnf s nr)
      else if ty = 0x10 then check s m 13 (rxRts s nr b)
      else if ty = 0x22 then check s m 15 (rxRach s nr b)
      else if ty = 0x32 then check s m 1003 (rxInfo e s nr b)
      else if ty = 0x33 then check s m 5 (rxE1 s nr)
      else if ty = 0x52 then check s m 4 fun _ => .ok s [] true
      else if ty = 0x60 then check s m 11 (rxPag s nr)
      else if ty = 0x03 then check s m 11 fun v => .ok s [.suspend nr (u32 v 0) (slice v 4 6)] true
      else if ty = 0x04 then check s m 164 fun v => .ok s [.appInfo nr (u8 v 0) (u8 v 1) (slice v 2 162)] true
      else if ty = 0x53 then .ok s [] true
      else if ty = 0x80 then check s m 4 (rxContainer s nr m)
      else .ok s [] false

/-- Messages one after the other, as long as the process runs: output of all. -/
def run (e : Env) : St → List (List Nat) → Option (St × List Out)
  | s, [] => some (s, [])
  | s, m :: ms =>
    match rx e s m with
    | .ok s' o _ => (run e s' ms).map fun r => (r.1, o ++ r.2)
    | _ => none

end Verif.PcuIf
