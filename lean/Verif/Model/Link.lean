/-!
# What is measured about the radio link of a mobile

`struct pcu_l1_meas` (`src/pcu_l1_if.h`), how it is filled (`src/pcu_l1_if.cpp`, `src/pdch.cpp`), kept
(`ms_update_l1_meas` in `src/gprs_ms.c`) and shown (`show_ms` in `src/pcu_vty_functions.cpp`).

Left out: the other lines of `show ms`; the choice of the uplink coding scheme made from the same
values (`Verif.Model.MsCs`); merging of two records of a mobile, which drops what the older one knew.
-/

namespace Verif.Link

/-- pcu_l1_if.h:76-106 `struct pcu_l1_meas`. A value whose flag is not set is `none`. `anyLev` is the
flag `have_ms_i_level` of the whole, `lev` the levels by slot. -/
structure Meas where
  rssi : Option Int := none
  ber : Option Int := none
  bto : Option Int := none
  lq : Option Int := none
  rxq : Option Int := none
  cval : Option Int := none
  svar : Option Int := none
  anyLev : Bool := false
  lev : Nat → Option Int := fun _ => none

/-- What the BTS says about a block it received (pcuif_proto.h:99-102): `rssi` in dBm, `ber10k` in
0.01 %, `bto` in quarter bits, `lqcb` in centibel. -/
structure Ind where
  rssi : Int
  ber10k : Nat
  bto : Int
  lqcb : Int
  deriving DecidableEq, Repr

/-- gsm_rlcmac.h:134-145 `Channel_Quality_Report_t`; `slot i` is `none` if the slot is left out. -/
structure Quality where
  c : Nat
  rxqual : Nat
  svar : Nat
  slot : Nat → Option Nat

/-- gsm_rlcmac.h:1623-1628, the part of `Packet_Resource_Request_t` with measurements. -/
structure Request where
  c : Nat
  svar : Option Nat
  slot : Nat → Option Nat

/-- pcu_l1_if.cpp:478-483. The bit error rate is kept in 8 bits; C divides towards zero. -/
def ofInd (i : Ind) : Meas :=
  { rssi := some i.rssi, ber := some ((i.ber10k / 100 % 256 : Nat) : Int), bto := some i.bto
    lq := some (i.lqcb.tdiv 10) }

/-- pcu_l1_if.h:136-139 with 82-85. -/
def Meas.setLev (m : Meas) (i : Nat) (v : Int) : Meas :=
  { m with anyLev := true, lev := fun j => if j = i then some v else m.lev j }

/-- pdch.cpp:60-69. -/
def rxQualMap : List Int := [0, 0, 1, 1, 2, 5, 9, 18]

/-- pdch.cpp:87-92, 107-112: one slot. -/
def getLev (slot : Nat → Option Nat) (m : Meas) (i : Nat) : Meas := match slot i with
  | none => m
  | some l => m.setLev i (-2 * (l : Int))

/-- pdch.cpp:96-114 `get_meas` of a Channel Quality Report, with 58-74. -/
def getQuality (m : Meas) (q : Quality) : Meas :=
  (List.range 8).foldl (getLev q.slot)
    { m with rxq := some (rxQualMap.getD (min q.rxqual 7) 0), cval := some (q.c : Int)
             svar := some (((q.svar + 2) / 4 : Nat) : Int) }

/-- pdch.cpp:76-94 `get_meas` of a Packet Resource Request. -/
def getRequest (m : Meas) (r : Request) : Meas :=
  (List.range 8).foldl (getLev r.slot)
    { m with cval := some (r.c : Int)
             svar := match r.svar with
               | none => m.svar
               | some v => some (((v + 2) / 4 : Nat) : Int) }

/-- gprs_ms.c:850-855: one slot. -/
def keepLev (n : Meas) (m : Meas) (i : Nat) : Meas := match n.lev i with
  | some v => m.setLev i v
  | none => { m with lev := fun j => if j = i then none else m.lev j }

/-- gprs_ms.c:827-857 `ms_update_l1_meas`: `m` is what is kept, `n` what was measured. -/
def update (m n : Meas) : Meas :=
  let m := { m with
    rssi := n.rssi.or m.rssi
    bto := n.bto.or m.bto
    ber := n.ber.or m.ber
    lq := n.lq.or m.lq
    rxq := n.rxq.or m.rxq
    cval := n.cval.or m.cval
    svar := n.svar.or m.svar }
  if n.anyLev then (List.range 8).foldl (keepLev n) m else m

/-- A block that was received from the mobile: data, a Packet Downlink Ack/Nack, an EGPRS Packet
Downlink Ack/Nack, a Packet Resource Request, a Packet Cell Change Notification. -/
inductive Ev where
  | data (i : Ind)
  | dlAck (i : Ind) (q : Quality)
  | egprsDlAck (i : Ind)
  | request (i : Ind) (r : Request)
  | notification (i : Ind)

/-- tbf_ul.cpp:278, pdch.cpp:530-533, 618-626 (what would keep the values is commented out), 803-805,
896. -/
def step (m : Meas) : Ev → Meas
  | .data i => update m (ofInd i)
  | .dlAck i q => update m (getQuality (ofInd i) q)
  | .egprsDlAck _ => m
  | .request i r => update m (getRequest (ofInd i) r)
  | .notification i => update m (ofInd i)

/-- A new mobile has no values (gprs_ms.c:121 `talloc_zero`). -/
def run (es : List Ev) : Meas := es.foldl step {}

/-- One line of `show ms`, as far as it is about the link. -/
inductive Line where
  | rssi (dBm : Int)
  | ber (percent : Int)
  | lq (dB : Int)
  | bto (quarterBits : Int)
  | nackRate (percent : Int)
  | rxq (percent : Int)
  | cval (dB : Int)
  | svar (dB : Int)
  | lev (slot : Nat) (dB : Int)
  deriving DecidableEq, Repr

/-- pcu_vty_functions.cpp:179-207; `nack` is `ms_nack_rate_dl`. -/
def showMs (nack : Int) (m : Meas) : List Line :=
  (m.rssi.map .rssi).toList ++ (m.ber.map .ber).toList ++ (m.lq.map .lq).toList ++
    (m.bto.map .bto).toList ++ (m.rxq.map fun _ => .nackRate nack).toList ++
    (m.rxq.map .rxq).toList ++ (m.cval.map .cval).toList ++ (m.svar.map .svar).toList ++
    (List.range 8).flatMap fun i => ((m.lev i).map (.lev i)).toList

end Verif.Link
