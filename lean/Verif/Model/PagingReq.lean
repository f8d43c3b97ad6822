import Verif.Model.ImmAss
import Verif.Model.PchTimer
/-!
# Paging Request on the PCH, Packet Application Information

Model of `write_paging_request` (src/encoding.cpp), `src/gprs_rlcmac.c`, `pcu_l1if_tx_pch2`
(src/pcu_l1_if.cpp) and of the reception of PAGING-PS (src/gprs_bssgp_pcu.c).
-/

namespace Verif.Ia

open Verif.Bits

/-- `struct osmo_mobile_identity`: TMSI or IMSI (digits). -/
inductive Ident
  | tmsi (n : Nat)
  | imsi (digits : List Nat)
  deriving DecidableEq, Repr

/-- libosmocore `osmo_str2bcd`: two digits per octet, the first one in the low half; filler `0xf`. -/
def bcd : List Nat → List Nat
  | [] => []
  | [a] => [0xf0 + a]
  | a :: b :: l => (b * 16 + a) :: bcd l

/-- libosmocore `osmo_mobile_identity_encode_buf` for an IMSI or TMSI. No digits: it fails. -/
def encodeMi : Ident → List Nat
  | .tmsi n => [0xf4, n / 2 ^ 24 % 256, n / 2 ^ 16 % 256, n / 2 ^ 8 % 256, n % 256]
  | .imsi [] => []
  | .imsi (d :: l) => (d * 16 + (if (d :: l).length % 2 = 1 then 8 else 0) + 1) :: bcd l

/-- encoding.cpp:803-834 `write_paging_request` with 22 octets of padding (gprs_rlcmac.c:38-39): length
and bits. The six bits after the identity are plain bits. `none`: the identity cannot be encoded. -/
def pagingRequest (mi : Ident) : Option (Nat × List Bool) :=
  let m := encodeMi mi
  if m = [] then none
  else
    let h := fld 4 0 ++ (fld 4 6 ++ (fld 8 0x21 ++ (fld 4 0 ++ (fld 4 0 ++ (fld 8 m.length ++ m.flatMap (fld 8))))))
    let r := fld 1 0 ++ (fld 1 0 ++ (fld 1 1 ++ (fld 1 0 ++ (fld 1 0 ++ fld 1 1))))
    some (h.length / 8, render 0 (h ++ (r ++ List.replicate (176 - (h ++ r).length) .L)))

/-- pcu_l1_if.cpp:280-302 `pcu_l1if_tx_pch2`: what the BTS is told to send, with the IMSI that
determines the paging group. -/
structure Pch where
  imsi : List Nat
  bits : List Bool
  deriving DecidableEq, Repr

def txPch (plen : Nat) (block : List Bool) (imsi : List Nat) : Pch :=
  ⟨imsi, put 8 (plen * 4 + 1) ++ block⟩

/-- gprs_rlcmac.c:30-51 `gprs_rlcmac_paging_request`. -/
def pageOnPch (mi : Ident) (imsi : List Nat) : Option Pch :=
  (pagingRequest mi).map fun x => txPch x.1 x.2 imsi

/-- IMSI element of a PDU after `osmo_mobile_identity_decode`: missing, not an IMSI, or digits. -/
inductive ImsiIe | absent | invalid | digits (l : List Nat)
  deriving DecidableEq, Repr

/-- PAGING-PS: IMSI and octets of the TMSI element. -/
structure PsReq where
  imsi : ImsiIe
  tmsi : Option (List Nat)
  deriving DecidableEq, Repr

/-- Causes in BSSGP STATUS (48.018 table 11.3.8). -/
inductive Cause | missingMandatory | invalidMandatory | conditional | missingConditional
  deriving DecidableEq, Repr

/-- `osmo_load32be`. -/
def load32 (l : List Nat) : Nat := l.foldl (fun a o => a * 256 + o) 0

/-- gprs_bssgp_pcu.c:256-285 `get_paging_ps_mi`. -/
def pagingMi (r : PsReq) : Except Cause Ident :=
  match r.tmsi with
  | some l => if l.length ≠ 4 then .error .conditional else .ok (.tmsi (load32 l))
  | none =>
    match r.imsi with
    | .digits d => .ok (.imsi d)
    | .invalid => .error .conditional
    | .absent => .error .missingConditional

/-- An IMSI as a string. -/
def imsiStr (d : List Nat) : String := String.ofList (d.map Nat.digitChar)

/-- gprs_bssgp_pcu.c:310-321: one BTS. -/
def pageBts (q : List Verif.Pch.Rec) (now t3113 : Nat) (mi : Ident) (imsi : List Nat) : List Verif.Pch.Rec × Option Pch :=
  match Verif.Pch.byImsi q (imsiStr imsi) with
  | some _ => (q, none)
  | none =>
    match pageOnPch mi imsi with
    | none => (q, none)
    | some m => (Verif.Pch.start q now t3113 (match mi with | .tmsi n => some n | .imsi _ => none) (imsiStr imsi), some m)

/-- gprs_bssgp_pcu.c:287-322 `gprs_bssgp_pcu_rx_paging_ps` for the BTSs of the PCU: STATUS, or the
new list of subscribers being paged and the message of each BTS. -/
def rxPagingPs (r : PsReq) (now t3113 : Nat) (bts : List (List Verif.Pch.Rec)) :
    Except Cause (List (List Verif.Pch.Rec × Option Pch)) :=
  match r.imsi with
  | .absent => .error .missingMandatory
  | .invalid => .error .invalidMandatory
  | .digits d =>
    match pagingMi r with
    | .error c => .error c
    | .ok mi => .ok (bts.map fun q => pageBts q now t3113 mi d)

/-- gprs_rlcmac.c:53-75 `gprs_rlcmac_app_info_msg`; `junk`: the last two bits are what was in the
memory before. -/
def appInfoMsg (ty : Nat) (data : List Nat) (junk : Bool × Bool) : Option (List Bool) :=
  if data = [] then none
  else some (put 2 0 ++ (put 4 ty ++ (putOctets data ++ [junk.1, junk.2])))

/-- gprs_rlcmac_sched.cpp:517-519: the USF is written into the lowest three bits of the first octet of
any block. -/
def setUsf (usf : Nat) (m : List Bool) : List Bool := m.take 5 ++ (put 3 usf ++ m.drop 8)

end Verif.Ia
