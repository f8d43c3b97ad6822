import Verif.Model.BitField
/-!
# Paging on a PDCH

Model of `gprs_rlcmac_pdch::packet_paging_request` and `add_paging` (`src/pdch.cpp`), of the encoder
in `src/encoding.cpp` and of the decoder the message goes through before it is sent
(`src/gsm_rlcmac.c`, `src/csn1_dec.c`), for this message. Logging is not modelled, allocation
succeeds.
-/

namespace Verif.Paging

open Verif.Bits

/-- gprs_rlcmac.h:54-58 `struct gprs_rlcmac_paging`: `len` is `identity_lv[0]`, `id` the 8 octets
behind it. -/
structure Rec where
  chan : Nat
  len : Nat
  id : List Nat
  deriving DecidableEq, Repr

/-- pdch.cpp:315-335 `add_paging`. `mi`: the identity as encoded by libosmocore
(`osmo_mobile_identity_encode_buf`), which fails if it does not fit into the 8 octets. -/
def addPaging (q : List Rec) (chan : Nat) (mi : Option (List Nat)) : List Rec × Bool :=
  match mi with
  | none => (q, false)
  | some l =>
    if l.length > 8 ∨ l = [] then (q, false)
    else ({ chan := chan, len := l.length, id := l ++ List.replicate (8 - l.length) 0 } :: q, true)

/-- pdch.cpp:259-276: size of the entry; `none`: not sent. -/
def recLen (r : Rec) : Option Nat :=
  if r.id.headD 0 % 8 = 4 then
    if r.len ≠ 5 then none else some (1 + 1 + 1 + 32 + 2 + 1)
  else if r.len > 8 then none else some (1 + 1 + 1 + 4 + r.len * 8 + 2 + 1)

/-- encoding.cpp:1141-1156 `write_packet_paging_request`. -/
def header : List Bool :=
  put 2 0x1 ++ put 3 0x0 ++ put 3 0x0 ++ put 6 0x22 ++ put 2 0x0 ++ put 1 0x0 ++ put 1 0x0

/-- encoding.cpp:1172-1195 `write_repeated_page_info`. -/
def pageInfo (r : Rec) : List Bool :=
  put 1 0x1 ++ put 1 0x1 ++
    (if r.id.headD 0 % 8 = 4 then put 1 0x0 ++ putOctets ((r.id.drop 1).take (r.len - 1))
     else put 1 0x1 ++ put 4 r.len ++ putOctets (r.id.take r.len)) ++
    put 2 r.chan ++ put 1 0x0

/-- pdch.cpp:249-288: the loop; `w`: the bits written so far. Bits written and records left. -/
def fill : List Rec → List Bool → List Bool × List Rec
  | [], w => (w, [])
  | r :: q, w =>
    match recLen r with
    | none => fill q w
    | some n => if w.length + n > 184 then (w, r :: q) else fill q (w ++ pageInfo r)

/-- The 23 octets of the bit vector; what is written past the end is lost. -/
def pack (w : List Bool) : List Bool := (w ++ List.replicate (184 - w.length) false).take 184

/-- gsm_rlcmac.c:2326-2355: one decoded entry. `tbf`: page request for TBF establishment. -/
inductive Dec
  | tbf (tmsi : Option (List Nat)) (mi : List Nat)
  | rr (tmsi : Option (List Nat)) (mi : List Nat) (chan : Nat) (prio : Option Nat)
  deriving DecidableEq, Repr

/-- gsm_rlcmac.c:2326-2342: TMSI or mobile identity. More than 8 octets would be written past the
end of the structure; such a length is refused here. -/
def decIdentity (l : List Bool) : Option ((Option (List Nat) × List Nat) × List Bool) :=
  match get 1 l with
  | none => none
  | some (0, l) => (getOctets 4 l).map fun x => ((some x.1, []), x.2)
  | some (_, l) =>
    match get 4 l with
    | none => none
    | some (n, l) => if n > 8 then none else (getOctets n l).map fun x => ((none, x.1), x.2)

/-- gsm_rlcmac.c:2338-2355: an entry. -/
def decEntry (l : List Bool) : Option (Dec × List Bool) :=
  match get 1 l with
  | none => none
  | some (0, l) => (decIdentity l).map fun x => (.tbf x.1.1 x.1.2, x.2)
  | some (_, l) =>
    match decIdentity l with
    | none => none
    | some (i, l) =>
      match get 2 l with
      | none => none
      | some (c, l) =>
        match get 1 l with
        | none => none
        | some (0, l) => some (.rr i.1 i.2 c none, l)
        | some (_, l) => (get 3 l).map fun x => (.rr i.1 i.2 c (some x.1), x.2)

/-- csn1_dec.c:1233-1292: the list of entries, at most `n` (gsm_rlcmac.h:2458: 5). At the end of the
message the tag is missing, which is found by the handling of the padding (1140-1143). -/
def decList : Nat → List Bool → Option (List Dec)
  | _, [] => none
  | _, false :: _ => some []
  | 0, true :: _ => none
  | n + 1, true :: l =>
    match decEntry l with
    | none => none
    | some (d, l) => (decList n l).map (d :: ·)

/-- gsm_rlcmac.c:5490-5570, 2357-2370: the message. -/
def decode (l : List Bool) : Option (List Dec) :=
  match get 2 l with
  | some (1, l) =>
    match get 6 l with
    | none => none
    | some (_, l) =>
      match get 6 l with
      | some (0x22, l) =>
        match get 2 l with
        | none => none
        | some (_, l) =>
          match get 1 l with
          | none => none
          | some (p, l) =>
            match get (if p = 1 then 16 else 0) l with
            | none => none
            | some (_, l) =>
              match get 1 l with
              | none => none
              | some (n, l) =>
                match get (if n = 1 then 2 else 0) l with
                | none => none
                | some (_, l) => decList 5 l
      | _ => none
  | _ => none

/-- pdch.cpp:221-313 `packet_paging_request`: the message and the records left. -/
def request (q : List Rec) : Option (List Bool) × List Rec :=
  match q with
  | [] => (none, [])
  | _ =>
    let (w, rest) := fill q header
    let m := pack w
    (if (decode m).isSome then some m else none, rest)

/-! ### Where to page: `bts_add_paging` -/

/-- A TBF as seen here: its TRX and the time slots it uses. -/
structure Tbf where
  trx : Nat
  slots : List Nat
  deriving DecidableEq, Repr

/-- bts.cpp:461-490: one TBF. The loop over the time slots ends early at a slot that is marked. -/
def mark (mask : List (Nat × Nat)) (t : Tbf) : List (Nat × Nat) :=
  let used := (List.range 8).filter (t.slots.contains ·)
  if used.any (fun ts => mask.contains (t.trx, ts)) then mask
  else match used with
    | [] => mask
    | ts :: _ => mask ++ [(t.trx, ts)]

/-- bts.cpp:459-490: the marked slots, TBFs in the order of the list. -/
def marked (tbfs : List Tbf) : List (Nat × Nat) := tbfs.foldl mark []

/-- bts.cpp:391-419 `bts_add_paging_known_ms`: the slot used for a known mobile; identities can
always be encoded. -/
def knownSlot (ul dl : Option Tbf) : Option (Nat × Nat) :=
  match ul.bind fun t => ((List.range 8).find? (t.slots.contains ·)).map fun ts => (t.trx, ts) with
  | some x => some x
  | none => dl.bind fun t => ((List.range 8).find? (t.slots.contains ·)).map fun ts => (t.trx, ts)

end Verif.Paging
