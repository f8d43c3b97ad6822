import Verif.Model.PcuIf
/-!
# Messages of the BTS

Octets of the messages of `include/osmocom/pcu/pcuif_proto.h`, version 12, on a little-endian machine, as a BTS writes them. Octets that have
no meaning (spare ones, unused parts of arrays, NS and cell timers, …) are arbitrary: `fill`.
-/

namespace Verif.BtsMsg

open Verif.PcuIf Verif.Nacc

/-- Fields of 16 and 32 bits, low octet first; negative numbers in two's complement; 16 bits in network order. -/
def le16 (n : Nat) : List Nat := [n % 256, n / 256]
def le32 (n : Nat) : List Nat := [n % 256, n / 256 % 256, n / 65536 % 256, n / 16777216]
def int8 (x : Int) : List Nat := [(x % 256).toNat]
def int16 (x : Int) : List Nat := le16 (x % 65536).toNat
def net16 (n : Nat) : List Nat := [n / 256, n % 256]

/-- Header: type, number of the BTS, two spare octets. -/
def msg (type bts : Nat) (fill : List Nat) (body : List Nat) : List Nat := type :: bts :: (fill ++ body)

/-- DATA indication: a block received on a channel (SAPI 5), or system information (SAPI 4). -/
structure Data where
  sapi : Nat
  data : List Nat
  fn : Nat
  arfcn : Nat
  trx : Nat
  ts : Nat
  blk : Nat
  rssi : Int
  ber10k : Nat
  ta : Int
  lqual : Int
  deriving DecidableEq, Repr

/-- `len` octets of the array of 162 are used. -/
structure Data.Is (d : Data) (body : List Nat) : Prop where
  len : d.data.length ≤ 162
  fn : d.fn < 2 ^ 32
  ber : d.ber10k ≤ 10000
  rssi : -128 ≤ d.rssi ∧ d.rssi < 128
  ta : -32768 ≤ d.ta ∧ d.ta < 32768
  lqual : -32768 ≤ d.lqual ∧ d.lqual < 32768
  octets : ∃ fill, fill.length = 162 - d.data.length ∧
    body = d.sapi :: d.data.length :: (d.data ++ fill ++ (le32 d.fn ++ le16 d.arfcn ++ [d.trx, d.ts, d.blk] ++ int8 d.rssi ++
      le16 d.ber10k ++ int16 d.ta ++ int16 d.lqual))

/-- DATA confirmation: the message with this identifier was sent on PCH (8) or AGCH (9). -/
def dataCnf (sapi id : Nat) : List Nat := sapi :: le32 id

/-- READY-TO-SEND request. -/
def rts (sapi fn arfcn trx ts blk : Nat) (fill : List Nat) : List Nat := sapi :: (fill ++ (le32 fn ++ le16 arfcn ++ [trx, ts, blk]))

/-- RACH indication. -/
def rach (sapi ra : Nat) (qta : Int) (fn arfcn is11 burst trx ts : Nat) : List Nat :=
  sapi :: (le16 ra ++ int16 qta ++ le32 fn ++ le16 arfcn ++ [is11, burst, trx, ts])

/-- Paging request: channel needed, identity (at most 8 octets). -/
def page (sapi chan : Nat) (id fill : List Nat) : List Nat := sapi :: chan :: id.length :: (id ++ fill)

/-- Suspend request: TLLI, routing area, cause. -/
def suspend (tlli : Nat) (ra : List Nat) (cause : Nat) : List Nat := le32 tlli ++ ra ++ [cause]

/-- Application information request. -/
def appInfo (type : Nat) (data fill : List Nat) : List Nat := type :: data.length :: (data ++ fill)

/-- E1 CCU indication. -/
def e1Ccu (trx ts line e1ts ss : Nat) : List Nat := [trx, ts, line, e1ts, ss]

/-- Neighbour address confirmation for the cell `k`. -/
def neighBody (k : Key) (c : Option Cgi) (err : Nat) (fill10 : List Nat) : List Nat :=
  net16 k.lac ++ net16 k.ci ++ net16 k.arfcn ++ [k.bsic] ++
    (match c with
     | some c => 0 :: (net16 c.mcc ++ net16 c.mnc ++ [if c.mnc3 then 1 else 0] ++ net16 c.lac ++ [c.rac] ++ net16 c.ci)
     | none => err :: fill10)

/-- Container with a neighbour address confirmation; its length is that of what follows. -/
def neighCnf (k : Key) (c : Option Cgi) (err : Nat) (fill fill10 : List Nat) : List Nat :=
  0x82 :: (fill ++ (net16 (neighBody k c err fill10).length ++ neighBody k c err fill10))

/-- Frequency hopping: the mobile allocation has `bits` bits. -/
structure Hop where
  hsn : Nat
  maio : Nat
  bits : Nat
  ma : List Nat
  deriving DecidableEq, Repr

/-- A channel for packet data: training sequence, hopping. -/
structure Chan where
  tsc : Nat
  hop : Option Hop
  deriving DecidableEq, Repr

/-- Octets of a time slot: the mobile allocation is at the end of an array of 8 octets. -/
inductive Chan.Is : Chan → List Nat → Prop
  | plain (tsc : Nat) (fill : List Nat) : fill.length = 11 → Chan.Is ⟨tsc, none⟩ (tsc :: 0 :: fill)
  | hopping (tsc y : Nat) (h : Hop) (fill : List Nat) : 0 < y → h.bits ≤ 64 → h.ma.length = (h.bits + 7) / 8 → fill.length + h.ma.length = 8 →
      Chan.Is ⟨tsc, some h⟩ ([tsc, y, h.hsn, h.maio, h.bits] ++ fill ++ h.ma)

/-- A TRX: ARFCN, and for each of 8 time slots the channel if it is used for packet data. -/
structure Trx where
  arfcn : Nat
  chans : List (Option Chan)
  deriving DecidableEq, Repr

/-- Octets of a TRX, without direct access to the PHY. `ts`: octets of the time slots. -/
def Trx.Is (t : Trx) (o : List Nat) : Prop :=
  t.arfcn < 65536 ∧ t.chans.length = 8 ∧ ∃ mask spare, ∃ ts : List (List Nat), ts.length = 8 ∧ (∀ x ∈ ts, x.length = 13) ∧
    (∀ i < 8, mask.testBit i = ((t.chans[i]?.getD none).isSome)) ∧ (∀ (i : Nat) (c : Chan) x, t.chans[i]? = some (some c) → ts[i]? = some x → c.Is x) ∧
    o = le16 t.arfcn ++ [mask, spare, 0, 0, 0, 0] ++ ts.flatten

/-- NS-VC: IPv4 or IPv6 address of the SGSN, ports, NSVCI. -/
structure Vc where
  v6 : Bool
  ip : List Nat
  lport : Nat
  rport : Nat
  nsvci : Nat
  deriving DecidableEq, Repr

/-- INFO indication of an active BTS. `cs`, `mcs`: bit `i` set if scheme `i + 1` may be used. -/
structure Info where
  cs : Nat
  mcs : Nat
  trx : List Trx
  bsic : Nat
  cgi : Cgi
  nsei : Nat
  bvci : Nat
  t3142 : Nat
  t3169 : Nat
  t3191 : Nat
  t3193 : Nat
  t3195 : Nat
  n3101 : Nat
  n3103 : Nat
  n3105 : Nat
  initCs : Nat
  initMcs : Nat
  vcs : Option Vc × Option Vc
  model : Nat
  deriving DecidableEq, Repr

/-- Type of address, address in 16 octets, ports and NSVCI of an NS-VC. -/
inductive VcIs : Option Vc → Nat → List Nat → Nat → Nat → Nat → Prop
  | v4 (ip fill : List Nat) (l r n : Nat) : ip.length = 4 → fill.length = 12 → VcIs (some ⟨false, ip, l, r, n⟩) 4 (ip ++ fill) l r n
  | v6 (ip : List Nat) (l r n : Nat) : ip.length = 16 → VcIs (some ⟨true, ip, l, r, n⟩) 0x29 ip l r n
  | none (ty : Nat) (ip : List Nat) (l r n : Nat) : ty ≠ 4 → ty ≠ 0x29 → ip.length = 16 → VcIs none ty ip l r n

/-- Octets of an INFO indication; `rest`: anything behind it. -/
structure Info.Is (a : Info) (body : List Nat) : Prop where
  cs : a.cs < 16
  mcs : a.mcs < 512
  ntrx : a.trx.length = 8
  cgi : a.cgi.mcc < 65536 ∧ a.cgi.mnc < 65536 ∧ a.cgi.lac < 65536 ∧ a.cgi.rac < 256 ∧ a.cgi.ci < 65536
  ns : a.nsei < 65536 ∧ a.bvci < 65536
  octets : ∃ (trx : List (List Nat)) (timers rep cv ip0 ip1 rest : List Nat) (ty0 ty1 l0 l1 r0 r1 n0 n1 : Nat),
    trx.length = 8 ∧ (∀ (i : Nat) (t : Trx) x, a.trx[i]? = some t → trx[i]? = some x → t.Is x) ∧
    timers.length = 18 ∧ rep.length = 3 ∧ cv.length = 5 ∧
    VcIs a.vcs.1 ty0 ip0 l0 r0 n0 ∧ VcIs a.vcs.2 ty1 ip1 l1 r1 n1 ∧ (∀ x ∈ [l0, l1, r0, r1, n0, n1], x < 65536) ∧
    body = le32 12 ++ le32 (1 + 65536 * a.cs + 1048576 * a.mcs) ++ trx.flatten ++
      ([a.bsic] ++ le16 a.cgi.mcc ++ le16 a.cgi.mnc ++ [if a.cgi.mnc3 then 1 else 0] ++ le16 a.cgi.lac ++ le16 a.cgi.rac ++ le16 a.nsei ++ timers ++
      le16 a.cgi.ci ++ rep ++ le16 a.bvci ++ [a.t3142, a.t3169, a.t3191, a.t3193, a.t3195, a.n3101, a.n3103, a.n3105] ++ cv ++
      [a.initCs, a.initMcs] ++ le16 n0 ++ le16 n1 ++ le16 l0 ++ le16 l1 ++ le16 r0 ++ le16 r1 ++ [ty0, ty1] ++ ip0 ++ ip1 ++ [a.model] ++ rest)

/-- The channel announced for a time slot. -/
def Info.chan (a : Info) (trx ts : Nat) : Option Chan := ((a.trx[trx]?.map fun t => t.chans[ts]?.getD none).getD none)

/-- Hopping as the PCU knows it. -/
def hopOf (f : Fh) : Option Hop := if f.enabled then some ⟨f.hsn, f.maio, f.bitLen, f.ma.take f.octLen⟩ else none

end Verif.BtsMsg
