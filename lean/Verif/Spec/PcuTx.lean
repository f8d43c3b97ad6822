import Verif.Model.PcuTx
/-!
# What the BTS is told

A BTS reads the messages of `include/osmocom/pcu/pcuif_proto.h`, version 12, at their octets (offsets of the packed structures behind the
four octets of header, little-endian machine).
-/

namespace Verif.PcuTx

open Verif.Nacc (Key)

/-- What a BTS can be told: the version of the PCU; to use a channel or not; to send a block on a packet channel (no octets: idle) or a timing advance
block; to send a MAC block on AGCH or PCH, with an identifier and whether to confirm it, and the subscriber; to resolve the address of a
neighbour. -/
inductive ToBts where
  | version (text : List Nat)
  | channel (nr trx ts : Nat) (on : Bool)
  | block (nr trx ts arfcn fn blk : Nat) (octets : List Nat)
  | ptcch (nr trx ts arfcn fn blk : Nat) (octets : List Nat)
  | agch (nr id : Nat) (confirm : Bool) (mac : List Nat)
  | pch (nr : Nat) (imsi : List Nat) (id : Nat) (confirm : Bool) (mac : List Nat)
  | neighbour (nr : Nat) (k : Key)
  deriving DecidableEq, Repr

/-- Octet `i`; numbers of two and four octets, low octet first; network order. -/
def oct (m : List Nat) (i : Nat) : Nat := m.getD i 0
def le2 (m : List Nat) (i : Nat) : Nat := oct m i + 256 * oct m (i + 1)
def le4 (m : List Nat) (i : Nat) : Nat := le2 m i + 65536 * le2 m (i + 2)
def be2 (m : List Nat) (i : Nat) : Nat := 256 * oct m i + oct m (i + 1)

/-- `n` octets from octet `i`; a text that ends with a zero octet. -/
def part (m : List Nat) (i n : Nat) : List Nat := (m.drop i).take n
def text (m : List Nat) (i n : Nat) : List Nat := (part m i n).takeWhile (· ≠ 0)

/-- Reading a message. Fixed messages have 1007 octets. -/
def read (m : List Nat) : Option ToBts :=
  let nr := oct m 1
  if oct m 0 = 0x80 then
    if 15 ≤ m.length ∧ oct m 4 = 0x81 ∧ be2 m 6 = 7 then some (.neighbour nr ⟨be2 m 8, be2 m 10, be2 m 12, oct m 14⟩) else none
  else if m.length ≠ 1007 then none
  else if oct m 0 = 0x70 then if oct m 4 = 0 then some (.version (text m 5 128)) else none
  else if oct m 0 = 0x40 then some (.channel nr (oct m 5) (oct m 6) (decide (oct m 4 ≠ 0)))
  else if oct m 0 = 0x00 then
    let len := oct m 5
    if len > 162 then none
    else if oct m 4 = 5 then some (.block nr (oct m 174) (oct m 175) (le2 m 172) (le4 m 168) (oct m 176) (part m 6 len))
    else if oct m 4 = 7 then some (.ptcch nr (oct m 174) (oct m 175) (le2 m 172) (le4 m 168) (oct m 176) (part m 6 len))
    else if oct m 4 = 9 ∧ len = 28 then some (.agch nr (le4 m 6) (decide (oct m 33 ≠ 0)) (part m 10 23))
    else if oct m 4 = 8 ∧ len = 45 then some (.pch nr (text m 10 17) (le4 m 6) (decide (oct m 50 ≠ 0)) (part m 27 23))
    else none
  else none

/-- The messages that are given to the socket in a history since the connection was made; the first one is the version. -/
def handed (first : List Nat) (ops : List Op) : List (List Nat) :=
  match ops.dropWhile (fun op => match op with | .tryOpen true => false | _ => true) with
  | [] => []
  | _ :: ops => first :: ops.flatMap fun op => match op with
    | .send m => [m]
    | .ready (.got ms _) _ => ms
    | _ => []

/-- A text without zero octet. -/
def Text (l : List Nat) : Prop := ∀ c ∈ l, c ≠ 0

/-- Values that can be told: octets and numbers in their ranges, a text of up to 127 octets, blocks of up to 162 octets, MAC blocks of 23 octets whose first
one gives the pseudo length, IMSIs of up to 15 digits. -/
def ToBts.Valid : ToBts → Prop
  | .version t => t.length ≤ 127 ∧ Text t
  | .channel nr trx ts _ => nr < 256 ∧ trx < 256 ∧ ts < 256
  | .block nr trx ts arfcn fn blk o => nr < 256 ∧ trx < 256 ∧ ts < 256 ∧ arfcn < 65536 ∧ fn < 2 ^ 32 ∧ blk < 256 ∧ o.length ≤ 162
  | .ptcch nr trx ts arfcn fn blk o => nr < 256 ∧ trx < 256 ∧ ts < 256 ∧ arfcn < 65536 ∧ fn < 2 ^ 32 ∧ blk < 256 ∧ o.length ≤ 162
  | .agch nr id _ mac => nr < 256 ∧ id < 2 ^ 32 ∧ ∃ p b, mac = (4 * p + 1) :: b ∧ p < 64 ∧ b.length = 22
  | .pch nr imsi id _ mac => nr < 256 ∧ id < 2 ^ 32 ∧ imsi.length ≤ 15 ∧ Text imsi ∧ ∃ p b, mac = (4 * p + 1) :: b ∧ p < 64 ∧ b.length = 22
  | .neighbour nr k => nr < 256 ∧ k.lac < 65536 ∧ k.ci < 65536 ∧ k.arfcn < 65536 ∧ k.bsic < 256

/-- The message that the PCU makes to tell this. -/
inductive Makes : ToBts → List Nat → Prop
  | version (t) : Makes (.version t) (txtInd t)
  | channel (nr trx ts on) : Makes (.channel nr trx ts on) (actReq nr trx ts on)
  | block (nr trx ts arfcn fn blk o m) : txPdtch nr trx ts arfcn fn blk (some o) = some m → Makes (.block nr trx ts arfcn fn blk o) m
  | idle (nr trx ts arfcn fn blk m) : txPdtch nr trx ts arfcn fn blk none = some m → Makes (.block nr trx ts arfcn fn blk []) m
  | ptcch (nr trx ts arfcn fn blk o m) : txPtcch nr trx ts arfcn fn blk o = some m → Makes (.ptcch nr trx ts arfcn fn blk o) m
  | agch (nr id c p b m) : txAgch nr p c id b = some m → Makes (.agch nr id c ((4 * p + 1) :: b)) m
  | pch (nr imsi id c p b m) : txPch nr p c (some imsi) id b = some m → Makes (.pch nr imsi id c ((4 * p + 1) :: b)) m
  | pchAny (nr id c p b m) : txPch nr p c none id b = some m → Makes (.pch nr [] id c ((4 * p + 1) :: b)) m
  | neighbour (nr k) : Makes (.neighbour nr k) (neighReq nr k)

end Verif.PcuTx
