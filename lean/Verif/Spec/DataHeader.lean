import Verif.Model.DataBlock
import Verif.Spec.BitStream
/-!
# RLC data headers in 3GPP TS 44.060

Positions of the header fields in the bit stream of a radio block, from the figures of
TS 44.060: 10.2.1 (GPRS downlink), 10.3a.3.1–3 (EGPRS downlink types 1–3), 10.2.2 (GPRS
uplink), 10.3a.4.1–3 (EGPRS uplink types 1–3). In stream order every field is contiguous.
-/

namespace Verif.Blk

open Verif.Cs

/-- The values of a downlink header are within the widths of their fields. -/
structure DlRange (r : DataInfo) : Prop where
  usf : r.usf < 8
  esP : r.esP < 4
  rrbp : r.rrbp < 4
  tfi : r.tfi < 32
  pr : r.pr < 4
  bsn : (r.blk 0).bsn < (if r.cs.hdr = .gprs then 128 else 2048)
  bsn2 : (r.blk 1).bsn < 2048
  /-- second block number: at most 1023 ahead of the first one -/
  delta : r.cs.hdr = .type1 → ((r.blk 1).bsn + 2048 - (r.blk 0).bsn) % 2048 < 1024
  cps : r.cps < (match r.cs.hdr with | .type1 => 32 | .type2 => 8 | _ => 16)
  spb : (r.blk 0).spb < 4
  e : ∀ i, (r.blk i).e < 2

/-- Final block indicator of a data block. -/
def fbi (b : BlockInfo) : Bool := b.cv = 0

/-- E bit of a data block. -/
def eBit (b : BlockInfo) : Bool := b.e = 1

/-- What a mobile station reads in the header of a downlink data block. -/
def DlSays (r : DataInfo) (m : List Nat) : Prop :=
  match r.cs.hdr with
  | .gprs =>
    field m 0 3 = r.usf ∧ field m 3 1 = (if r.esP = 0 then 0 else 1) ∧ field m 4 2 = r.rrbp ∧
    field m 6 2 = 0 ∧ bit m 8 = fbi (r.blk 0) ∧ field m 9 5 = r.tfi ∧ field m 14 2 = r.pr ∧
    bit m 16 = eBit (r.blk 0) ∧ field m 17 7 = (r.blk 0).bsn
  | .type1 =>
    field m 0 3 = r.usf ∧ field m 3 2 = r.esP ∧ field m 5 2 = r.rrbp ∧ field m 7 5 = r.tfi ∧
    field m 12 2 = r.pr ∧ field m 14 11 = (r.blk 0).bsn ∧
    (field m 14 11 + field m 25 10) % 2048 = (r.blk 1).bsn ∧ field m 35 5 = r.cps ∧
    bit m 40 = eBit (r.blk 0) ∧ bit m 41 = fbi (r.blk 0) ∧
    bit m (42 + 8 * (r.blk 0).dataLen) = eBit (r.blk 1) ∧
    bit m (43 + 8 * (r.blk 0).dataLen) = fbi (r.blk 1)
  | .type2 =>
    field m 0 3 = r.usf ∧ field m 3 2 = r.esP ∧ field m 5 2 = r.rrbp ∧ field m 7 5 = r.tfi ∧
    field m 12 2 = r.pr ∧ field m 14 11 = (r.blk 0).bsn ∧ field m 25 3 = r.cps ∧
    bit m (28 + (if r.pad then 48 else 0)) = eBit (r.blk 0) ∧
    bit m (29 + (if r.pad then 48 else 0)) = fbi (r.blk 0)
  | .type3 =>
    field m 0 3 = r.usf ∧ field m 3 2 = r.esP ∧ field m 5 2 = r.rrbp ∧ field m 7 5 = r.tfi ∧
    field m 12 2 = r.pr ∧ field m 14 11 = (r.blk 0).bsn ∧ field m 25 4 = r.cps ∧
    field m 29 2 = (r.blk 0).spb ∧
    bit m (31 + (if r.pad then 48 else 0)) = eBit (r.blk 0) ∧
    bit m (32 + (if r.pad then 48 else 0)) = fbi (r.blk 0)
  | _ => False

/-- Bits of the stream that belong to payload or padding: behind the header and not one of
the two bits in front of a data block. -/
def payloadBit (r : DataInfo) (k : Nat) : Prop :=
  r.cs.hdr.bitsDl ≤ k ∧ ∀ i < r.num, ¬ (r.offs i - r.cs.hdr.blockBits ≤ k ∧ k < r.offs i)

/-- What a mobile station wrote into the header of an uplink data block, as reported by the
parser: the positions of the fields in the stream. -/
def UlSays (c : CS) (m : List Nat) (r : DataInfo) : Prop :=
  match c.hdr with
  | .gprs =>
    r.r = field m 0 1 ∧ r.si = field m 1 1 ∧ (r.blk 0).cv = field m 2 4 ∧ (r.blk 0).ti = field m 8 1 ∧
    r.tfi = field m 9 5 ∧ (r.blk 0).pi = field m 14 1 ∧ (r.blk 0).e = field m 16 1 ∧
    (r.blk 0).bsn = field m 17 7 ∧ r.num = 1 ∧ (r.blk 0).spb = 0
  | .type3 =>
    r.r = field m 0 1 ∧ r.si = field m 1 1 ∧ (r.blk 0).cv = field m 2 4 ∧ r.tfi = field m 6 5 ∧
    (r.blk 0).bsn = field m 11 11 ∧ r.cps = field m 22 4 ∧ (r.blk 0).spb = field m 26 2 ∧
    r.rsb = field m 28 1 ∧ (r.blk 0).pi = field m 29 1 ∧ r.num = 1 ∧
    (r.blk 0).e = field m (r.offs 0 - 2) 1 ∧ (r.blk 0).ti = field m (r.offs 0 - 1) 1
  | .type2 =>
    r.r = field m 0 1 ∧ r.si = field m 1 1 ∧ (r.blk 0).cv = field m 2 4 ∧ r.tfi = field m 6 5 ∧
    (r.blk 0).bsn = field m 11 11 ∧ r.cps = field m 22 3 ∧
    r.rsb = field m 25 1 ∧ (r.blk 0).pi = field m 26 1 ∧ r.num = 1 ∧
    (r.blk 0).e = field m (r.offs 0 - 2) 1 ∧ (r.blk 0).ti = field m (r.offs 0 - 1) 1
  | .type1 =>
    r.r = field m 0 1 ∧ r.si = field m 1 1 ∧ r.tfi = field m 6 5 ∧
    (r.blk 0).bsn = field m 11 11 ∧ (r.blk 1).bsn = (field m 11 11 + field m 22 10) % 2048 ∧
    r.cps = field m 32 5 ∧ r.rsb = field m 37 1 ∧
    (r.blk 0).pi = field m 38 1 ∧ (r.blk 1).pi = field m 38 1 ∧ r.num = 2 ∧
    (r.blk 1).cv = field m 2 4 ∧
    -- the countdown value belongs to the last block of the radio block
    ((r.blk 0).cv = field m 2 4 ∨
      (field m 2 4 = 0 ∧ (r.blk 0).cv = 1 ∧ (r.blk 0).bsn ≠ (r.blk 1).bsn)) ∧
    ((r.blk 0).cv = 0 → (r.blk 0).bsn = (r.blk 1).bsn) ∧
    (r.blk 0).e = field m (r.offs 0 - 2) 1 ∧ (r.blk 0).ti = field m (r.offs 0 - 1) 1 ∧
    (r.blk 1).e = field m (r.offs 1 - 2) 1 ∧ (r.blk 1).ti = field m (r.offs 1 - 1) 1
  | _ => False

/-- A parsed uplink block uses the layout of its scheme; padding as signalled by CPS. -/
def UlLayout (c : CS) (r : DataInfo) : Prop :=
  r.cs = c ∧ ∃ pad, r.offs = (initUl c pad).offs ∧
    (∀ i, (r.blk i).dataLen = dataLenOf c pad) ∧
    (pad = true → (cpsDecode r.cps c).pad = true)
where dataLenOf (c : CS) (pad : Bool) : Nat := c.dataBytes - (if pad then c.optPad / 8 else 0)

end Verif.Blk
