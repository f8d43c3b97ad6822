/-!
# Messages from the SGSN

Source: /repo/src/gprs_bssgp_pcu.c: gprs_bssgp_pcu_rcvmsg 481-575, gprs_bssgp_pcu_rx_ptp 324-398, gprs_bssgp_pcu_rx_sign 401-479,
gprs_bssgp_pcu_rx_dl_ud 97-182, get_paging_cs_mi 184-228, gprs_bssgp_pcu_rx_paging_cs 230-256, get_paging_ps_mi 258-289,
gprs_bssgp_pcu_rx_paging_ps 291-322, parse_ra_cap 70-95.

Functions of libosmocore are not part of the repository. `bssgp_tlv_parse` is taken as TS 48.016 10.1.2 with the first of several
elements of a kind kept; `osmo_mobile_identity_decode` and `bssgp_rcvmsg` are left open.
-/

namespace Verif.Bssgp

/-- An information element found in a message: identifier, length, and the octets of the message from its value on
(`struct tlv_p_entry`). -/
structure Ie where
  tag : Nat
  len : Nat
  at_ : List Nat
  deriving DecidableEq, Repr

def Ie.val (e : Ie) : List Nat := e.at_.take e.len

/-- `bssgp_tlv_parse` (libosmocore): all elements; `none` if they do not fit. The number is at least that of the octets. -/
def parse : Nat → List Nat → Option (List Ie)
  | _, [] => some []
  | 0, _ => none
  | n + 1, t :: a :: r =>
    if 128 ≤ a then
      if r.length < a - 128 then none else (parse n (r.drop (a - 128))).map (⟨t, a - 128, r⟩ :: ·)
    else
      match r with
      | [] => none
      | b :: r => if r.length < a * 256 + b then none else (parse n (r.drop (a * 256 + b))).map (⟨t, a * 256 + b, r⟩ :: ·)
  | _ + 1, [_] => none

/-- `TLVP_PRESENT`, `TLVP_VAL`, `TLVP_LEN`. -/
def get (l : List Ie) (t : Nat) : Option Ie := l.find? (·.tag = t)

/-- Octets read from the value of an element on, whatever its length; `none`: beyond the message. -/
def Ie.read (e : Ie) (n : Nat) : Option (List Nat) := if n ≤ e.at_.length then some (e.at_.take n) else none

/-- Octets, most significant first (`osmo_load32be`, `osmo_load16be`). -/
def be (l : List Nat) : Nat := l.foldl (fun v o => v * 256 + o) 0

/-- libosmocore gprs_bssgp.h `enum gprs_bssgp_cause`, those used. -/
inductive Cause
  | unknownBvci
  | bvciBlocked
  | invalidMandatory
  | missingMandatory
  | missingConditional
  | conditionalError
  | protocolError
  | incompatibleFeature
  deriving DecidableEq, Repr

/-- What is passed to `dl_tbf_handle`. -/
structure Ud where
  tlli : Nat
  old : Nat
  imsi : Option (List Nat)
  gprs : Nat
  egprs : Nat
  csec : Nat
  data : List Nat
  deriving DecidableEq, Repr

/-- `struct paging_req_cs`, src/gsm_rlcmac.h / bts.h. -/
structure PagingCs where
  chan : Nat
  imsi : List Nat
  tmsi : Option Nat
  tlli : Nat
  deriving DecidableEq, Repr

/-- The identity for a packet paging and the IMSI (for the paging group). -/
structure PagingPs where
  tmsi : Option Nat
  imsi : List Nat
  deriving DecidableEq, Repr

/-- What is done with a message. `generic`: passed to `bssgp_rcvmsg`. `overrun`: octets beyond the message are read.
`assertion`: the program ends. -/
inductive Act
  | ignored
  | generic
  | status (cause : Cause) (bvci : Option Nat)
  | unitdata (u : Ud)
  | pagingCs (p : PagingCs)
  | pagingPs (p : PagingPs)
  | resetAck
  | unblockAck
  | overrun
  | assertion
  deriving DecidableEq, Repr

/-- `known`: BVCIs with a context (`btsctx_by_bvci_nsei`); `blocked`: BVCIs whose context is marked blocked; `own`: the BVCI of
the cell. `mi`: the digits of an IMSI (`osmo_mobile_identity_decode`), none if it is not one. `ra`: GPRS and EGPRS multislot class
of a radio access capability (C67). -/
structure Ctx where
  known : Nat → Bool
  blocked : Nat → Bool
  own : Nat
  mi : List Nat → Option (List Nat)
  ra : List Nat → Nat × Nat

def noTlli : Nat := 0xffffffff

/-- gprs_bssgp_pcu.c:152-165. The length is kept in eight bits. -/
def csec (l : List Ie) : Option Nat :=
  match get l 0x16 with
  | none => some 0xffff
  | some e => if e.len % 256 = 2 then (e.read 2).map be else some 0xffff

/-- gprs_bssgp_pcu.c:167-176. The length of an absent element is 0. -/
def oldTlli (l : List Ie) : Option Nat :=
  match get l 0x1f with
  | none => some noTlli
  | some e => if ((get l 0x16).map (·.len)).getD 0 % 256 = 2 then (e.read 2).map be else some noTlli

/-- gprs_bssgp_pcu.c:70-95, 139-147. The length is kept in eight bits. -/
def classes (c : Ctx) (l : List Ie) : Nat × Nat :=
  match get l 0x13 with
  | none => (0, 0)
  | some e => c.ra (e.at_.take (e.len % 256))

/-- gprs_bssgp_pcu.c:149-181: after the checks. -/
def accept (c : Ctx) (tlli : Nat) (imsi : Option (List Nat)) (l : List Ie) (data : List Nat) : Act :=
  match csec l, oldTlli l with
  | some t, some o => .unitdata ⟨tlli, o, imsi, (classes c l).1, (classes c l).2, t, data⟩
  | _, _ => .overrun

/-- gprs_bssgp_pcu.c:97-182 `gprs_bssgp_pcu_rx_dl_ud`. -/
def rxDlUd (c : Ctx) (msg : List Nat) (l : List Ie) : Act :=
  if msg.length < 5 then .overrun
  else
    let tlli := be ((msg.drop 1).take 4)
    match get l 0x0e with
    | none => .status .missingMandatory none
    | some e =>
      if e.len > 1543 then .status .conditionalError none
      else
        match get l 0x0d with
        | none => accept c tlli none l e.val
        | some i =>
          match c.mi i.val with
          | none => .status .conditionalError none
          | some d => accept c tlli (some d) l e.val

/-- gprs_bssgp_pcu.c:222-227: the TLLI of a circuit switched paging. -/
def pagingTlli (l : List Ie) : Option Nat :=
  match get l 0x1f with
  | none => some noTlli
  | some e => (e.read 4).map be

/-- gprs_bssgp_pcu.c:189: the channel needed. `tlvp_val8` looks at the length. -/
def pagingChan (l : List Ie) : Nat :=
  match get l 0x09 with
  | none => 0
  | some e => e.val.headD 0

/-- gprs_bssgp_pcu.c:184-240 `get_paging_cs_mi`, `gprs_bssgp_pcu_rx_paging_cs`. -/
def rxPagingCs (c : Ctx) (l : List Ie) : Act :=
  match get l 0x0d with
  | none => .status .missingMandatory none
  | some i =>
    match c.mi i.val with
    | none => .status .invalidMandatory none
    | some d =>
      match get l 0x20 with
      | none =>
        match pagingTlli l with
        | none => .overrun
        | some t => .pagingCs ⟨pagingChan l, d, none, t⟩
      | some m =>
        if m.len ≠ 4 then .status .conditionalError none
        else
          match pagingTlli l with
          | none => .overrun
          | some t => .pagingCs ⟨pagingChan l, d, some (be m.val), t⟩

/-- gprs_bssgp_pcu.c:258-309 `get_paging_ps_mi`, `gprs_bssgp_pcu_rx_paging_ps`. (Without a TMSI the IMSI is decoded a second
time.) -/
def rxPagingPs (c : Ctx) (l : List Ie) : Act :=
  match get l 0x0d with
  | none => .status .missingMandatory none
  | some i =>
    match c.mi i.val with
    | none => .status .invalidMandatory none
    | some d =>
      match get l 0x20 with
      | none => .pagingPs ⟨none, d⟩
      | some m => if m.len ≠ 4 then .status .conditionalError none else .pagingPs ⟨some (be m.val), d⟩

/-- gprs_bssgp_pcu.c:324-398 `gprs_bssgp_pcu_rx_ptp`. PDU types: libosmocore gprs_bssgp.h `enum bssgp_pdu_type`. -/
def rxPtp (c : Ctx) (bvci : Nat) (type : Nat) (msg : List Nat) (l : List Ie) : Act :=
  if c.blocked bvci && type ≠ 0x41 then .status .bvciBlocked (some bvci)
  else if type = 0x41 then .assertion
  else if type = 0x00 then rxDlUd c msg l
  else if type = 0x27 ∨ type = 0x29 then .ignored
  else if type = 0x07 then rxPagingCs c l
  else if type = 0x06 then rxPagingPs c l
  else if type = 0x02 ∨ type = 0x09 then .ignored
  else .status .protocolError none

/-- gprs_bssgp_pcu.c:446-469: no message of the signalling BVC, or not implemented. -/
def signIgnored : List Nat :=
  [0x0c, 0x0f, 0x21, 0x0d, 0x10, 0x2a, 0x40, 0x01, 0x00, 0x02, 0x03, 0x08, 0x09, 0x0a, 0x26, 0x27, 0x28, 0x29,
   0x50, 0x51, 0x52, 0x53, 0x54, 0x55, 0x56, 0x57]

/-- gprs_bssgp_pcu.c:401-479 `gprs_bssgp_pcu_rx_sign`. -/
def rxSign (c : Ctx) (type : Nat) (l : List Ie) : Act :=
  if type = 0x41 then .assertion
  else if type = 0x23 then .resetAck
  else if type = 0x07 then rxPagingCs c l
  else if type = 0x06 then rxPagingPs c l
  else if type = 0x25 then .unblockAck
  else if type ∈ signIgnored then .ignored
  else .status .protocolError none

/-- gprs_bssgp_pcu.c:522-537: BVC-RESET. -/
def rxReset (c : Ctx) (bvci : Nat) (l : List Ie) : Act :=
  match get l 0x04 with
  | none => .status .invalidMandatory none
  | some e =>
    if bvci ≠ 0 then .status .invalidMandatory none
    else
      match e.read 2 with
      | none => .overrun
      | some v => if be v ≠ 0 ∧ be v ≠ c.own then .status .unknownBvci (some (be v)) else .generic

/-- gprs_bssgp_pcu.c:481-575 `gprs_bssgp_pcu_rcvmsg`, a message received on BVCI `bvci`. -/
def rcv (c : Ctx) (bvci : Nat) (msg : List Nat) : Act :=
  match msg with
  | [] => .overrun
  | type :: r =>
    if type = 0x41 ∨ type = 0x70 ∨ type = 0x71 ∨ type = 0x72 ∨ type = 0x73 ∨ type = 0x74 then .generic
    else
      match parse msg.length (if type = 0x01 ∨ type = 0x00 then r.drop 7 else r) with
      | none => .status .invalidMandatory none
      | some l =>
        if type = 0x22 then rxReset c bvci l
        else if !c.known bvci && bvci ≠ 0 then .status .unknownBvci none
        else if bvci = 0 then rxSign c type l
        else if bvci = 1 then .status .incompatibleFeature none
        else rxPtp c bvci type msg l

end Verif.Bssgp
