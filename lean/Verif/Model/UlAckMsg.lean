import Verif.Model.RlcWindowUl
import Verif.Model.Crbb
import Verif.Model.BitField
/-!
# Packet Uplink Ack/Nack as written

Source: /repo/src/encoding.cpp:851-1139, called from tbf_ul_ack_fsm.c:59-96 (`create_ul_ack_nack`).
-/

namespace Verif.UlAckMsg

open Verif.Bits (put)
open Verif.RlcUl (Win isRecv)
open Verif.Crbb (compress startColor)

/-- `bitvec_write_field` of libosmocore on a vector of fixed length with `wp` as write position: bits that do not fit are dropped,
and then `wp` stays. -/
def write (p : List Bool × Nat) (f : List Bool) : List Bool × Nat :=
  (p.1.take p.2 ++ f.take (p.1.length - p.2) ++ p.1.drop (p.2 + f.length),
    if p.2 + f.length ≤ p.1.length then p.2 + f.length else p.2)

/-- Consecutive fields. -/
def writes (p : List Bool × Nat) (fs : List (List Bool)) : List Bool × Nat := fs.foldl write p

/-- A flag. -/
def flag (b : Bool) : List Bool := [b]

/-- TBF as the message needs it. `code`: `mcs_chan_code(current_cs())`. -/
structure Tbf where
  egprs : Bool
  tfi : Nat
  code : Nat
  tlli : Nat
  ta : Nat
  win : Win

/-- tbf.h `is_tlli_valid`: not `GSM_RESERVED_TMSI`. -/
def Tbf.tlliValid (t : Tbf) : Bool := t.tlli ≠ 0xffffffff

/-- `gsm48_ta_is_valid` of libosmocore, for the values a TBF has: 0..63, and 220 (`GSM48_TA_INVALID`). -/
def Tbf.taValid (t : Tbf) : Bool := t.ta < 220

/-- encoding.cpp:882-887, 1077-1082. -/
def tlliFields (t : Tbf) : List (List Bool) := if t.tlliValid then [put 1 1, put 32 t.tlli] else [put 1 0]

/-- encoding.cpp:889-896, 1086-1093. -/
def taFields (t : Tbf) : List (List Bool) := if t.taValid then [put 1 1, put 1 1, put 6 t.ta, put 1 0] else [put 1 0]

/-- encoding.cpp:851-871 `write_packet_ack_nack_desc_gprs`. The text bitmap has 64 characters; only windows of 64 occur
(`rbb[65]` would be overrun by larger ones). -/
def gprsDesc (w : Win) (final : Bool) : List (List Bool) :=
  [flag final, put 7 w.vr] ++ (w.updateRbb.take 64).map flag

/-- encoding.cpp:873-905 `write_packet_uplink_ack_gprs`. -/
def gprsFields (t : Tbf) (final : Bool) : List (List Bool) :=
  [put 2 t.code] ++ gprsDesc t.win final ++ tlliFields t ++ taFields t ++
  [put 1 0, put 1 0, put 1 0, put 1 1, put 1 0, put 1 1, put 1 0]

/-- encoding.cpp:1032-1041: bits in fields of eight. `fuel` is a bound on the number of fields. -/
def octets : Nat → List Bool → List (List Bool)
  | 0, _ => []
  | fuel + 1, l => if l.length = 0 then [] else if l.length > 8 then l.take 8 :: octets fuel (l.drop 8) else [l]

/-- encoding.cpp:928, 959-964: blocks after V(Q) up to V(R) - 1, of which one less than the window size at most. -/
def numBlocks (w : Win) : Nat :=
  let n := w.modSns (w.vr + w.sns - w.vq)
  min (if n > 0 then n - 1 else n) w.ws

/-- encoding.cpp:918-1059 `write_packet_ack_nack_desc_egprs`. `restBits` is at least 102 (see `egprsFields`), so 957 and 985 do
not wrap around; 1005 can: `rest_bits - crbb_len` is computed modulo 2^32, and the results are stored in octets (1010, 1054). -/
def egprsDesc (w : Win) (final : Bool) (restBits : Nat) : List (List Bool) :=
  let rest := restBits - 24                                              -- 957
  let n := numBlocks w
  let bitmap := w.updateEgprsRbb                                         -- 970
  let c := compress (rest - 16) bitmap                                   -- 982-985
  let isC := decide (n > rest) && c.gain                                 -- 966, 982
  let rest := if isC then rest - 8 else rest                             -- 995-1001
  let uclen := if isC then c.uclen else 0
  let crbbLen := if isC then c.crbb.length % 256 else 0                  -- 991, uint8_t
  let eow := decide (n ≤ uclen + rest)                                   -- 1003
  let urbbLen := if eow then n - uclen else (rest + 2 ^ 32 - crbbLen) % 2 ^ 32
  let len := if isC then (urbbLen + crbbLen + 23) % 256 else (urbbLen + 15) % 256
  [put 1 1, put 8 len, flag final, flag true, flag eow, put 11 (w.modSns (w.vq + 1))] ++
  (if isC then [put 1 1, put 7 crbbLen, flag (startColor bitmap)] ++ octets c.crbb.length (c.crbb.take crbbLen) else [put 1 0]) ++
  (List.range (urbbLen % 256)).map fun k => flag (isRecv w.vn (w.modSns (w.vq + uclen) + (urbbLen % 256 - k)))

/-- encoding.cpp:1061-1105 `write_packet_uplink_ack_egprs`; `p`: vector and position. -/
def egprsWrite (t : Tbf) (final : Bool) (p : List Bool × Nat) : List Bool × Nat :=
  let p := writes p ([put 2 0, put 4 t.code, put 1 1, put 1 1, put 1 0, put 1 0] ++ tlliFields t ++ [put 1 1] ++ taFields t ++
    [put 1 0, put 1 0, put 1 0])
  let p := writes p (egprsDesc t.win final (p.1.length - p.2 - 2))
  writes p [put 1 0, put 1 0]

/-- encoding.cpp:1107-1139 `write_packet_uplink_ack` into the 23 octets `vec`. -/
def message (t : Tbf) (final : Bool) (rrbp : Nat) (vec : List Bool) : List Bool :=
  let p := writes (vec, 0) [put 2 1, put 2 rrbp, flag final, put 3 0, put 6 9, put 2 0, put 2 0, put 5 t.tfi]
  if t.egprs then (egprsWrite t final (writes p [put 1 1])).1
  else (writes (writes p [put 1 0]) (gprsFields t final)).1

end Verif.UlAckMsg
