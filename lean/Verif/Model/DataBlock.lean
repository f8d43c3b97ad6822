import Verif.Model.CodingScheme
/-!
# RLC/MAC data blocks: headers and bit-shifted payload copy

Model of `rlc_copy_from_aligned_buffer`, `rlc_write_dl_data_header` (src/encoding.cpp),
`rlc_copy_to_aligned_buffer`, `rlc_parse_ul_data_header*` (src/decoding.cpp) and
`gprs_rlc_data_info_init_*` (src/rlc.cpp).

Memory is a list of octets. Every access goes through `rd`/`wr`; an access outside the list
gives `none`, so a result `some _` means that no octet outside the buffer was touched.
-/

namespace Verif.Blk

open Verif.Cs

abbrev Mem := List Nat

/-- Read one octet (undefined behaviour outside the buffer: `none`). -/
def rd (m : Mem) (i : Nat) : Option Nat := m[i]?

/-- Write one octet; the value is converted to uint8_t. -/
def wr (m : Mem) (i v : Nat) : Option Mem := if i < m.length then some (m.set i (v % 256)) else none

/-! ### Layout -/

/-- rlc.h:124-132 `gprs_rlc_data_block_info`. -/
structure BlockInfo where
  dataLen : Nat
  bsn : Nat
  ti : Nat
  e : Nat
  cv : Nat
  pi : Nat
  spb : Nat
  deriving DecidableEq, Repr

/-- rlc.h:134-149 `gprs_rlc_data_info`. Arrays of two as functions. -/
structure DataInfo where
  cs : CS
  r : Nat
  si : Nat
  tfi : Nat
  cps : Nat
  rsb : Nat
  usf : Nat
  esP : Nat
  rrbp : Nat
  pr : Nat
  num : Nat
  pad : Bool
  offs : Nat → Nat
  blk : Nat → BlockInfo

/-- rlc.cpp:97-111 `gprs_rlc_data_block_info_init`. -/
def blockInit (c : CS) (pad : Bool) (spb : Nat) : BlockInfo :=
  { dataLen := c.dataBytes - (if pad then c.optPad / 8 else 0)
    bsn := 0
    ti := 0
    e := 1
    cv := 15
    pi := 0
    spb := spb }

/-- rlc.cpp:44-75 `gprs_rlc_data_header_init`. -/
def headerInit (c : CS) (pad : Bool) (headerBits spb : Nat) : DataInfo :=
  let padBits := if pad then c.optPad else 0
  { cs := c
    r := 0
    si := 0
    tfi := 0
    cps := 0
    rsb := 0
    usf := 0
    esP := 0
    rrbp := 0
    pr := 0
    num := c.hdr.numBlocks
    pad := pad
    offs := fun i => headerBits + padBits + (i + 1) * c.hdr.blockBits + i * 8 * (blockInit c pad spb).dataLen
    blk := fun _ => blockInit c pad spb }

/-- rlc.cpp:77-83 `gprs_rlc_data_info_init_dl` (asserts a valid scheme). -/
def initDl (c : CS) (pad : Bool) (spb : Nat) : DataInfo := headerInit c pad c.hdr.bitsDl spb
/-- rlc.cpp:85-95 `gprs_rlc_data_info_init_ul`. -/
def initUl (c : CS) (pad : Bool) : DataInfo := headerInit c pad c.hdr.bitsUl 0

/-! ### Payload copy -/

/-- encoding.cpp:1368-1372: loop; `n` iterations left, `p` the write position. -/
def copyFromLoop (extra : Nat) (buf : Mem) : Nat → Nat → Mem → Nat → Nat → Option (Mem × Nat × Nat)
  | 0, _, dst, p, last => some (dst, p, last)
  | n + 1, i, dst, p, last =>
    (rd buf i).bind fun c =>
    (wr dst p ((last >>> (8 - extra)) ||| (c <<< extra))).bind fun dst' =>
    copyFromLoop extra buf n (i + 1) dst' (p + 1) c

/-- `memmove(dst + at, src, len)` between different buffers. -/
def copyLoop (src : Mem) : Nat → Nat → Mem → Nat → Option Mem
  | 0, _, dst, _ => some dst
  | n + 1, i, dst, p =>
    (rd src i).bind fun c => (wr dst p c).bind fun dst' => copyLoop src n (i + 1) dst' (p + 1)

/-- encoding.cpp:1339-1378 `rlc_copy_from_aligned_buffer`: the new radio block. `offs` is
`data_offs_bits[idx]`, `len` is `block_info[idx].data_len` (also the return value). -/
def copyFrom (offs len : Nat) (dst buf : Mem) : Option Mem :=
  let hdr := offs / 8
  let extra := offs % 8
  if extra = 0 then copyLoop buf len 0 dst hdr                                   -- 1358-1362
  else
    (rd dst hdr).bind fun d0 =>
    (copyFromLoop extra buf len 0 dst hdr ((d0 <<< (8 - extra)) % 256)).bind fun r =>
    (rd r.1 r.2.1).bind fun d =>                                                 -- 1375
    wr r.1 r.2.1 ((d &&& (0xff <<< extra)) ||| (r.2.2 >>> (8 - extra)))

/-- decoding.cpp:582-586: loop. -/
def copyToLoop (extra : Nat) (src : Mem) (base : Nat) : Nat → Nat → Mem → Nat → Nat → Option Mem
  | 0, _, dst, _, _ => some dst
  | n + 1, i, dst, p, last =>
    (rd src (base + i)).bind fun c =>
    (wr dst p ((last >>> extra) ||| (c <<< (8 - extra)))).bind fun dst' =>
    copyToLoop extra src base n (i + 1) dst' (p + 1) c

/-- decoding.cpp:553-589 `rlc_copy_to_aligned_buffer`; the destination starts at octet `at`
of `buf` (0 or, for the second half of a split block, behind the first half). -/
def copyTo (offs len : Nat) (src buf : Mem) (start : Nat) : Option Mem :=
  let hdr := offs / 8
  let extra := offs % 8
  if extra = 0 then copyLoop src len hdr buf start
  else
    (rd src hdr).bind fun last =>
    copyToLoop extra src (hdr + 1) len 0 buf start last

/-! ### Headers -/

/-- Assignment to a C bit-field of `w` bits that starts at bit `s` (LSB = 0) of octet `i`. -/
def setF (i s w v : Nat) (m : Mem) : Option Mem :=
  (rd m i).bind fun b => wr m i (b % 2 ^ s + 2 ^ s * (v % 2 ^ w + 2 ^ w * (b / 2 ^ (s + w))))

/-- Value of such a bit-field. -/
def getF (i s w : Nat) (m : Mem) : Option Nat := (rd m i).map fun b => b / 2 ^ s % 2 ^ w

/-- `data[i] = (data[i] & mask) | v`. -/
def maskOr (i mask v : Nat) (m : Mem) : Option Mem :=
  (rd m i).bind fun b => wr m i ((b &&& mask) ||| v)

/-- encoding.cpp:1249-1250 and the like: E and FBI of a data block. -/
def eFbi (b : BlockInfo) : Nat := (if b.e ≠ 0 then 1 else 0) ||| (if b.cv = 0 then 2 else 0)

/-- Common part of the three EGPRS headers (encoding.cpp:1230-1240, 1269-1279, 1293-1303);
bit-field layout of `gprs_rlc_dl_header_egprs_{1,2,3}` in libosmocore
(osmocom/gprs/protocol/gsm_04_60.h, little endian):
`usf:3, es_p:2, rrbp:2, tfi_hi:1; tfi_lo:4, pr:2, bsn1_hi:2; bsn1_mid:8; bsn1_lo:1, …`.
CPS is written by the caller because its place depends on the type. -/
def writeCommon (r : DataInfo) (m : Mem) : Option Mem :=
  (setF 0 0 3 r.usf m).bind fun m =>
  (setF 0 3 2 r.esP m).bind fun m =>
  (setF 0 5 2 r.rrbp m).bind fun m =>
  (setF 0 7 1 r.tfi m).bind fun m =>
  (setF 1 0 4 (r.tfi / 2) m).bind fun m =>
  (setF 1 4 2 r.pr m).bind fun m =>
  (setF 1 6 2 (r.blk 0).bsn m).bind fun m =>
  (setF 2 0 8 ((r.blk 0).bsn / 4) m).bind fun m =>
  setF 3 0 1 ((r.blk 0).bsn / 1024) m

/-- encoding.cpp:1197-1324 `rlc_write_dl_data_header`. `none` stands for an access outside
the block or for a failed assertion (1252, 1260, 1284, 1310); the error return for schemes
without data header (1316-1320) does not occur after `initDl`. -/
def writeDl (r : DataInfo) (m : Mem) : Option Mem :=
  match r.cs.hdr with
  | .gprs =>                                                                     -- 1210-1224
    (setF 0 0 3 r.usf m).bind fun m =>
    (setF 0 3 1 (if r.esP ≠ 0 then 1 else 0) m).bind fun m =>
    (setF 0 4 2 r.rrbp m).bind fun m =>
    (setF 0 6 2 0 m).bind fun m =>
    (setF 1 1 5 r.tfi m).bind fun m =>
    (setF 1 6 2 r.pr m).bind fun m =>
    (setF 1 0 1 (if (r.blk 0).cv = 0 then 1 else 0) m).bind fun m =>
    (setF 2 0 1 (r.blk 0).e m).bind fun m =>
    setF 2 1 7 (r.blk 0).bsn m
  | .type1 =>                                                                    -- 1226-1263
    (writeCommon r m).bind fun m =>
    (setF 4 3 5 r.cps m).bind fun m =>
    let delta := ((r.blk 1).bsn + 2048 - (r.blk 0).bsn) % 2048                   -- 1242-1243
    (setF 3 1 7 delta m).bind fun m =>
    (setF 4 0 3 (delta / 128) m).bind fun m =>
    if r.offs 0 % 8 ≠ 2 then none else
    (maskOr (r.offs 0 / 8) 0b11111100 (eFbi (r.blk 0)) m).bind fun m =>
    if r.offs 1 % 8 ≠ 4 then none else
    maskOr (r.offs 1 / 8) 0b11110011 (eFbi (r.blk 1) <<< 2) m
  | .type2 =>                                                                    -- 1265-1287
    (writeCommon r m).bind fun m =>
    (setF 3 1 3 r.cps m).bind fun m =>
    if r.offs 0 % 8 ≠ 6 then none else
    maskOr (r.offs 0 / 8) 0b11001111 (eFbi (r.blk 0) <<< 4) m
  | .type3 =>                                                                    -- 1289-1314
    (writeCommon r m).bind fun m =>
    (setF 3 1 4 r.cps m).bind fun m =>
    (setF 3 5 2 (r.blk 0).spb m).bind fun m =>
    if r.offs 0 % 8 ≠ 1 then none else
    let v := eFbi (r.blk 0) <<< 7
    (maskOr (r.offs 0 / 8 - 1) 0b01111111 v m).bind fun m =>
    maskOr (r.offs 0 / 8) 0b11111110 (v >>> 8) m
  | _ => none

/-- Fields common to the EGPRS uplink headers (decoding.cpp:381-392 and the like); layout of
`gprs_rlc_ul_header_egprs_{1,2,3}` in libosmocore:
`r:1, si:1, cv:4, tfi_hi:2; tfi_lo:3, bsn1_hi:5; bsn1_lo:6, …`. -/
structure UlCommon where
  r : Nat
  si : Nat
  cv : Nat
  tfi : Nat
  bsn1 : Nat

def parseCommon (m : Mem) : Option UlCommon :=
  (getF 0 0 1 m).bind fun r =>
  (getF 0 1 1 m).bind fun si =>
  (getF 0 2 4 m).bind fun cv =>
  (getF 0 6 2 m).bind fun tfiHi =>
  (getF 1 0 3 m).bind fun tfiLo =>
  (getF 1 3 5 m).bind fun bsnHi =>
  (getF 2 0 6 m).bind fun bsnLo =>
  some { r := r, si := si, cv := cv, tfi := tfiHi ||| (tfiLo <<< 2), bsn1 := bsnHi ||| (bsnLo <<< 5) }

/-- `info` with the common fields and those of data block 0 filled in. -/
def fillCommon (i : DataInfo) (u : UlCommon) (cps rsb num : Nat) (b0 b1 : BlockInfo → BlockInfo) : DataInfo :=
  { i with
    r := u.r
    si := u.si
    tfi := u.tfi
    cps := cps
    rsb := rsb
    num := num
    blk := fun k => if k = 0 then b0 (i.blk 0) else if k = 1 then b1 (i.blk 1) else i.blk k }

/-- decoding.cpp:338-363 `rlc_parse_ul_data_header` with its four variants (365-538). The
return value is the number of bits parsed. -/
def parseUl (c : CS) (m : Mem) : Option (DataInfo × Nat) :=
  match c.hdr with
  | .gprs =>                                                                     -- 510-538
    -- rlc_ul_header, rlc.h:220-231: r:1, si:1, cv:4, pt:2; ti:1, tfi:5, pi:1, spare:1; e:1, bsn:7
    let i := initUl c false
    (getF 0 0 1 m).bind fun r =>
    (getF 0 1 1 m).bind fun si =>
    (getF 1 1 5 m).bind fun tfi =>
    (getF 0 2 4 m).bind fun cv =>
    (getF 1 6 1 m).bind fun pi =>
    (getF 2 1 7 m).bind fun bsn =>
    (getF 2 0 1 m).bind fun e =>
    (getF 1 0 1 m).bind fun ti =>
    some ({ i with
            r := r
            si := si
            tfi := tfi
            cps := 0
            rsb := 0
            num := 1
            blk := fun k => if k = 0 then { i.blk 0 with cv := cv, pi := pi, bsn := bsn, e := e, ti := ti, spb := 0 } else i.blk k },
          i.offs 0 + c.dataBytes * 8)
  | .type3 =>                                                                    -- 365-405
    -- … bsn1_lo:6, cps_hi:2; cps_lo:2, spb:2, rsb:1, pi:1, spare:1, dummy:1
    (getF 2 6 2 m).bind fun cpsHi =>
    (getF 3 0 2 m).bind fun cpsLo =>
    let cps := cpsHi ||| (cpsLo <<< 2)
    let i := initUl c (cpsDecode cps c).pad
    (parseCommon m).bind fun u =>
    (getF 3 4 1 m).bind fun rsb =>
    (getF 3 5 1 m).bind fun pi =>
    (getF 3 2 2 m).bind fun spb =>
    if i.offs 0 % 8 ≠ 1 then none else
    (rd m (i.offs 0 / 8 - 1)).bind fun d0 =>
    (rd m (i.offs 0 / 8)).bind fun d1 =>
    let h := (d0 + d1 <<< 8) >>> 7
    some (fillCommon i u cps rsb 1
      (fun b => { b with cv := u.cv, pi := pi, spb := spb, bsn := u.bsn1, e := h % 2, ti := h / 2 % 2 }) id,
      i.offs 0 - 2 + 2 + c.dataBytes * 8)
  | .type2 =>                                                                    -- 407-449
    -- … bsn1_lo:6, cps_hi:2; cps_lo:1, rsb:1, pi:1, spare_hi:5
    (getF 2 6 2 m).bind fun cpsHi =>
    (getF 3 0 1 m).bind fun cpsLo =>
    let cps := cpsHi ||| (cpsLo <<< 2)
    let i := initUl c (cpsDecode cps c).pad
    (parseCommon m).bind fun u =>
    (getF 3 1 1 m).bind fun rsb =>
    (getF 3 2 1 m).bind fun pi =>
    if i.offs 0 % 8 ≠ 7 then none else
    (rd m (i.offs 0 / 8)).bind fun d =>
    let h := (d &&& 0x60) >>> 5
    some (fillCommon i u cps rsb 1
      (fun b => { b with cv := u.cv, pi := pi, bsn := u.bsn1, e := h % 2, ti := h / 2 % 2 }) id,
      i.offs 0 - 2 + 2 + c.dataBytes * 8)
  | .type1 =>                                                                    -- 451-508
    -- … bsn1_lo:6, bsn2_hi:2; bsn2_lo:8; cps:5, rsb:1, pi:1, spare_hi:1
    (getF 4 0 5 m).bind fun cps =>
    let i := initUl c (cpsDecode cps c).pad
    (parseCommon m).bind fun u =>
    (getF 4 5 1 m).bind fun rsb =>
    (getF 4 6 1 m).bind fun pi =>
    if i.offs 0 % 8 ≠ 0 then none else
    (rd m (i.offs 0 / 8 - 1)).bind fun d0 =>
    let h := d0 >>> 6
    (getF 2 6 2 m).bind fun b2hi =>
    (getF 3 0 8 m).bind fun b2lo =>
    let bsn2 := (u.bsn1 + (b2hi ||| (b2lo <<< 2))) % 2048
    let cv0 := if bsn2 ≠ u.bsn1 ∧ u.cv = 0 then 1 else u.cv                       -- 491-493
    if i.offs 1 % 8 ≠ 2 then none else
    (rd m (i.offs 1 / 8)).bind fun d1 =>
    some (fillCommon i u cps rsb 2
      (fun b => { b with cv := cv0, pi := pi, bsn := u.bsn1, e := h % 2, ti := h / 2 % 2 })
      (fun b => { b with cv := u.cv, pi := pi, bsn := bsn2, e := d1 % 2, ti := d1 / 2 % 2 }),
      i.offs 1 - 2 + 2 + c.dataBytes * 8)
  | _ => none

end Verif.Blk
