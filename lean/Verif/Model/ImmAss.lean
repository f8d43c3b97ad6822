import Verif.Model.BitField
/-!
# Immediate Assignment and Immediate Assignment Reject

Model of the messages on the AGCH and PCH, `src/encoding.cpp` 40-543. The 22 octets are filled with
the padding `0x2B` before they are written (bts.cpp:942-943, 1118-1119); a bit that is set to `L` or
`H` is the padding bit at this place or its inverse (libosmocore `bitvec_set_bit`).
-/

namespace Verif.Ia

open Verif.Bits

/-- libosmocore `enum bit_value`. -/
inductive Sym | bit (b : Bool) | L | H
  deriving DecidableEq, Repr

/-- Padding bit at position `p`: bits of `0x2B`, most significant first. -/
def pad (p : Nat) : Bool := Nat.testBit 0x2b (7 - p % 8)

/-- libosmocore `bitval2mask`: bits from position `p` on. -/
def render : Nat → List Sym → List Bool
  | _, [] => []
  | p, .bit b :: s => b :: render (p + 1) s
  | p, .L :: s => pad p :: render (p + 1) s
  | p, .H :: s => (!pad p) :: render (p + 1) s

/-- `bitvec_write_field(.., v, w)`, `bitvec_set_u64(.., v, w, false)`. -/
def fld (w v : Nat) : List Sym := (put w v).map .bit

/-- `(bit_value) n` as a bit: other values than the four are written as 0. -/
def ofNat : Nat → Sym
  | 1 => .bit true
  | 2 => .L
  | 3 => .H
  | _ => .bit false

/-- `enum ph_burst_type` (pcuif_proto.h); `other`: any other value. -/
inductive Burst | none | access0 | access1 | access2 | other
  deriving DecidableEq, Repr

/-- encoding.cpp:385, 472, 506: `ACCESS_1` or `ACCESS_2`. -/
def Burst.egprs : Burst → Bool
  | .access1 | .access2 => true
  | _ => false

/-- pdch.h:111-121 `fh`. -/
structure Hop where
  maio : Nat
  hsn : Nat
  ma : List Nat
  deriving DecidableEq, Repr

/-- What the messages say of a PDCH: `ts_no`, `tsc`, `fh`, and the ARFCN of its TRX (with flags). -/
structure Pdch where
  ts : Nat
  tsc : Nat
  hop : Option Hop
  arfcn : Nat
  deriving DecidableEq, Repr

/-- What the messages say of a TBF; `code`: `mcs_chan_code(current_cs())`. -/
structure Tbf where
  tlli : Nat
  tfi : Nat
  egprs : Bool
  ws : Nat
  code : Nat := 0
  deriving DecidableEq, Repr

/-- encoding.cpp:48-63 `write_alpha_gamma`. -/
def alphaGamma (alpha gamma : Nat) : List Sym :=
  (if alpha ≠ 0 then fld 1 1 ++ fld 4 alpha else fld 1 0) ++ fld 5 gamma

/-- encoding.cpp:65-84 `write_tbf_start_time`; also the frame in a request reference (392-395, 479-481). -/
def startTime (rfn : Nat) : List Sym :=
  fld 5 (rfn / (26 * 51) % 32) ++ (fld 6 (rfn % 51) ++ fld 5 (rfn % 26))

/-- encoding.cpp:94-113 `write_tfi_usf`. -/
def tfiUsf (tfi usf : Nat) : List Sym := fld 5 tfi ++ (fld 1 0 ++ (fld 1 0 ++ (fld 3 usf ++ (fld 1 0 ++ fld 1 0))))

/-- encoding.cpp:116-129 `write_ta_index`; `none`: negative. -/
def taIndex : Option Nat → List Sym
  | none => fld 1 0
  | some i => fld 1 1 ++ fld 4 i

/-- encoding.cpp:154-157 `enc_ws` (unsigned 16 bits; the result is used in 5 bits). -/
def encWs (ws : Nat) : Nat := (ws - 64) / 32

/-- encoding.cpp:184-241 `write_ia_rest_downlink`. -/
def restDl (t : Tbf) (polling taValid : Bool) (rfn alpha gamma : Nat) (tai : Option Nat) : List Sym :=
  [.H, .H] ++ (fld 1 0 ++ (fld 1 1 ++ (fld 32 t.tlli ++ (fld 1 1 ++ (fld 5 t.tfi ++ (fld 1 0 ++
  (alphaGamma alpha gamma ++ (fld 1 polling.toNat ++ (fld 1 taValid.toNat ++ (taIndex tai ++
  ((if polling then fld 1 1 ++ startTime rfn else fld 1 0) ++ (fld 1 0 ++
  (if t.egprs then [.H] ++ (fld 5 (encWs t.ws) ++ (fld 1 0 ++ (fld 1 0 ++ fld 1 1))) else [.L])))))))))))))

/-- encoding.cpp:243-272 `write_ia_rest_uplink_sba`. -/
def restUlSba (rfn alpha gamma : Nat) : List Sym :=
  fld 1 0 ++ (alphaGamma alpha gamma ++ (fld 1 0 ++ (fld 1 1 ++ (startTime rfn ++ [.L, .L, .L]))))

/-- encoding.cpp:274-302 `write_ia_rest_uplink_mba`. -/
def restUlMba (t : Tbf) (usf alpha gamma : Nat) (tai : Option Nat) : List Sym :=
  fld 1 1 ++ (tfiUsf t.tfi usf ++ (fld 2 t.code ++ (fld 1 1 ++ (alphaGamma alpha gamma ++ (taIndex tai ++ fld 1 0)))))

/-- encoding.cpp:304-321 `write_ia_rest_egprs_uplink_mba`. -/
def restEgprsMba (rfn alpha gamma : Nat) : List Sym :=
  fld 1 0 ++ (alphaGamma alpha gamma ++ (startTime rfn ++ (fld 1 0 ++ (fld 1 0 ++ fld 1 0))))

/-- encoding.cpp:323-353 `write_ia_rest_egprs_uplink_sba`; the TLLI is cast to a bit. -/
def restEgprsSba (t : Tbf) (usf alpha gamma : Nat) (tai : Option Nat) : List Sym :=
  fld 1 1 ++ (tfiUsf t.tfi usf ++ (fld 4 t.code ++ ([ofNat t.tlli] ++ (fld 1 0 ++ (fld 1 0 ++
  (fld 5 (encWs t.ws) ++ (alphaGamma alpha gamma ++ (taIndex tai ++ (fld 1 0 ++ fld 1 0)))))))))

/-- encoding.cpp:462-468: frequency of the channel. -/
def freq (p : Pdch) : List Sym :=
  match p.hop with
  | some h => fld 1 1 ++ (fld 6 h.maio ++ fld 6 h.hsn)
  | none => fld 3 0 ++ fld 10 p.arfcn

/-- encoding.cpp:487-495: Mobile Allocation. -/
def mobAlloc (p : Pdch) : List Sym :=
  match p.hop with
  | some h => fld 8 h.ma.length ++ h.ma.flatMap (fld 8)
  | none => fld 8 0

/-- encoding.cpp:441-495: the message up to the rest octets. -/
def header (p : Pdch) (downlink : Bool) (ra refRfn ta : Nat) (b : Burst) : List Sym :=
  fld 4 0 ++ (fld 4 6 ++ (fld 8 0x3f ++ (fld 1 0 ++ (fld 1 0 ++ (fld 1 downlink.toNat ++ (fld 1 1 ++ (fld 4 0 ++
  (fld 5 1 ++ (fld 3 p.ts ++ (fld 3 p.tsc ++ (freq p ++ (fld 8 (if b.egprs then 0x7f else ra) ++
  (startTime refRfn ++ (fld 2 0 ++ (fld 6 ta ++ mobAlloc p)))))))))))))))

/-- Outcomes of the writer: an assertion fails; a negative return code (nothing is sent); the L2
pseudo length and the 176 bits. -/
inductive Out | crash | fail | msg (plen : Nat) (m : List Bool)
  deriving DecidableEq, Repr

/-- The bits written, over the padding; writing past the 22 octets fails (`CHECK(rc)`, 520-526). -/
def finish (h s : List Sym) : Out :=
  if (h ++ s).length > 176 then .fail
  else .msg (h.length / 8) (render 0 (h ++ (s ++ List.replicate (176 - (h ++ s).length) .L)))

/-- encoding.cpp:431-529 `write_immediate_assignment`, downlink: the TBF is a downlink TBF. -/
def downlink (p : Pdch) (t : Tbf) (ra refRfn ta : Nat) (polling : Bool) (rfn alpha gamma : Nat) (tai : Option Nat)
    (b : Burst) : Out :=
  finish (header p true ra refRfn ta b) (restDl t polling (ta < 64) rfn alpha gamma tai)

/-- encoding.cpp:431-529, uplink; `t`: the uplink TBF, if any. -/
def uplink (p : Pdch) (t : Option Tbf) (ra refRfn ta usf rfn alpha gamma : Nat) (tai : Option Nat) (b : Burst) : Out :=
  if b.egprs then
    finish (header p false ra refRfn ta b) ([.L, .H] ++ (fld 1 0 ++ (fld 1 0 ++ (fld 5 (ra % 32) ++ (fld 1 0 ++
      match t with
      | some t => restEgprsSba t usf alpha gamma tai
      | none => restEgprsMba rfn alpha gamma)))))
  else if (t.map (·.egprs)).getD false then .crash
  else finish (header p false ra refRfn ta b) ([.H, .H] ++ (fld 1 0 ++ (fld 1 0 ++
      match t with
      | some t => restUlMba t usf alpha gamma tai
      | none => restUlSba rfn alpha gamma)))

/-- bts.cpp:1107-1160 `bts_snd_dl_ass`: message for a downlink TBF in packet idle mode; `last`: frame
of the last request of a block for the channel. -/
def sndDlAss (p : Pdch) (t : Tbf) (last ta alpha gamma : Nat) : Out :=
  downlink p t 125 ((last + 21216) % 2715648 % 42432) ta false 0 alpha gamma none .access0

/-- encoding.cpp:384-400: one request reference and wait indication of a reject. -/
def rejRef (ra refRfn t3142 : Nat) (b : Burst) : List Sym :=
  fld 8 (if b.egprs then 0x7f else ra) ++ (startTime refRfn ++ fld 8 t3142)

/-- encoding.cpp:359-429 `write_immediate_assignment_reject`: everything is written as plain bits. -/
def reject (ra refRfn t3142 : Nat) (b : Burst) : Out :=
  finish (fld 4 0 ++ (fld 4 6 ++ (fld 8 0x3a ++ (fld 1 0 ++ (fld 1 0 ++ (fld 1 0 ++ (fld 1 1 ++ (fld 4 0 ++
      (rejRef ra refRfn t3142 b ++ (rejRef ra refRfn t3142 b ++ (rejRef ra refRfn t3142 b ++ rejRef ra refRfn t3142 b)))))))))))
    ((if b.egprs then fld 1 1 ++ fld 5 (ra % 32) else fld 1 0) ++ (fld 1 0 ++ (fld 1 0 ++ fld 1 0)))

end Verif.Ia
