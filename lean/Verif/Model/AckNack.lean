import Verif.Model.RlcWindowDl
import Verif.Model.Crbb
/-
Model of the decoding of downlink Ack/Nack descriptions.

Source: /repo/src/decoding.cpp:625-784, pdch.cpp:470-627, tbf_dl.cpp:1081-1113.
-/
namespace Verif.AckNack
open Verif.RlcDl (Win)
open Verif.Crbb (BV decompress)

/-- Appending a list of bits with `bitvec_set_bit`. -/
def push (v : BV) (l : List Bool) : BV := l.foldl BV.setBit v

/-- gsm_rlcmac.h `Ack_Nack_Description_t`: `rbb p` is bit number `p` of the 8 octet bitmap,
counted from its first transmitted bit (`bitvec_get_bit_pos`). -/
structure GprsDesc where
  final : Bool
  ssn : Nat
  rbb : Nat → Bool

/-- gsm_rlcmac.h:451-467 `EGPRS_AckNack_Desc_t`: `crbb` is present iff `Exist_CRBB`, with
starting colour code and bits; `urbb` lists the `URBB_LENGTH` bits as `bitvec_get_bit_pos` reads them. These are the
transmitted bits if the length is a multiple of eight; see `Verif.Model.DlAck` and C57 for what they are otherwise. -/
structure EgprsDesc where
  final : Bool
  bow : Bool
  ssn : Nat
  crbb : Option (Bool × List Bool)
  urbb : List Bool

/-- decoding.cpp:625-637 `handle_final_ack`. -/
def finalAckBits (v : BV) (w : Win) : BV :=
  push v (List.replicate (w.modSns (w.vs + w.sns - w.va)) true)

/-- decoding.cpp:739-784 `decode_gprs_acknack_bits`: the bits for V(A), V(A)+1, …; `none`
for the error return (the caller then still uses the empty vector, pdch.cpp:509-526). -/
def decodeGprs (d : GprsDesc) (w : Win) (v : BV) : BV × Bool :=
  if d.final then (finalAckBits v w, true)
  else
    let num := w.modSns (d.ssn + w.sns - w.va)
    if num > 64 then (v, false)
    else (push v ((List.range num).map fun j => d.rbb (64 - (num - j))), true)

/-- decoding.cpp:639-737 `decode_egprs_acknack_bits`. -/
def decodeEgprs (d : EgprsDesc) (w : Win) (v : BV) : BV :=
  if d.final then finalAckBits v w
  else
    let crbbLen := match d.crbb with | some (_, c) => c.length | none => 0
    let v1 := if d.bow then push v (List.replicate (w.modSns (d.ssn + 2 * w.sns - 1 - w.va)) true) else v
    if d.urbb.length + crbbLen = 0 then v1
    else
      let v2 := push v1 [false]
      let (v3, ok) := match d.crbb with
        | some (start, c) => if c.length > 0 then decompress start c v2 else (v2, true)
        | none => (v2, true)
      if ok then push v3 d.urbb.reverse else v3

/-- pdch.cpp:479,504-511: 64 bit vector; tbf_dl.cpp:1081-1113: window update, and reset on
final ack. -/
def rcvGprs (d : GprsDesc) (w : Win) : Win :=
  let w' := w.ackNack w.va (decodeGprs d w { bits := [], cap := 64 }).1.bits
  if d.final then w'.reset else w'

/-- pdch.cpp:544,590-610: 1024 bit vector. -/
def rcvEgprs (d : EgprsDesc) (w : Win) : Win :=
  let w' := w.ackNack w.va (decodeEgprs d w { bits := [], cap := 1024 }).bits
  if d.final then w'.reset else w'

end Verif.AckNack
