import Verif.Model.BitField
import Verif.Model.MsStore
import Verif.Model.UlRx
/-!
# The answer to a Packet Resource Request

* `rcv_resource_request`, src/pdch.cpp:629-826: who asks, whether the request is answered, and what with
* `create_packet_access_reject`, src/tbf_ul_ass_fsm.c:60-81, `write_packet_access_reject`, src/encoding.cpp:1728-1751
* the mobile named by `create_packet_ul_assign`, src/tbf_ul_ass_fsm.c:123-128, src/encoding.cpp:612-622

Left out: radio access capability, measurements and timing advance taken from the request (C61, C67, C68), the TBFs that
are given up (C81), the choice of the resources (C21, C23), and the rest of the assignment (C59).
-/

namespace Verif.Req

open Verif.Bits Verif.Store

/-- src/encoding.cpp:1728-1751: the fields in the order in which they are written. `ms`: timer T3172 in milliseconds. -/
def rejectBits (tlli ms : Nat) : List Bool :=
  put 2 1 ++ (put 2 0 ++ (put 1 0 ++ (put 3 0 ++ (put 6 0x21 ++ (put 2 0 ++ (put 1 0 ++ (put 32 tlli ++ (put 1 1 ++
    (if ms / 20 ≤ 255 then put 8 (ms / 20) ++ put 1 1 else put 8 (ms / 1000) ++ put 1 0)))))))))

/-- src/gprs_rlcmac.h:44 `DUMMY_VEC`: 23 octets 2b. -/
def dummyVec : List Bool := putOctets (List.replicate 23 0x2b)

/-- src/tbf_ul_ass_fsm.c:60-81: the fields are written over the octets 2b. -/
def rejectBlock (tlli ms : Nat) : List Bool := rejectBits tlli ms ++ dummyVec.drop (rejectBits tlli ms).length

/-- A TBF as far as it is looked at: direction and record of its mobile. -/
structure Tb where
  up : Bool
  ms : Nat
  deriving DecidableEq, Repr

/-- src/pdch_ul_controller.h:32-77: for what an uplink block is reserved. `ulAck`: the reason of the poll is
`PDCH_ULC_POLL_UL_ACK`. -/
inductive Node
  | usf (t : Tb)
  | sba
  | poll (t : Tb) (ulAck : Bool)
  deriving DecidableEq, Repr

/-- A PDCH: uplink blocks reserved, TBFs by TFI (src/pdch.h:150-160). -/
structure Pdch where
  node : Nat → Option Node
  ul : Nat → Option Tb
  dl : Nat → Option Tb

/-- src/pdch.cpp:649-679: the record of the mobile that asks, found or made. -/
def mobile (codel : Nat) (s : St) (p : Pdch) : Csn1.Who → Option (St × Nat)
  | .tlli t => some (reqMs codel s t)
  | .dlTfi i => (p.dl i).map fun t => (s, t.ms)
  | .ulTfi i => (p.ul i).map fun t => (s, t.ms)

/-- src/pdch.cpp:689-787: is the block one in which mobile `i` may ask? -/
def accepts (i : Nat) : Node → Bool
  | .usf t => !(t.ms != i)
  | .sba => true
  | .poll t r => !(t.up != true) && !(r != true) && !(t.ms != i)

/-- An answer: record of the mobile, TLLI in the message (`none`: a TFI instead), whether resources are assigned, and
the slot on which it is sent. -/
structure Answer where
  ms : Nat
  name : Option Nat
  assigned : Bool
  ts : Nat
  deriving DecidableEq, Repr

/-- src/pdch.cpp:629-826 for a request received in block `fn` of slot `ts`; `ok`: there are resources
(src/gprs_ms.c:1134-1180). The name is that of src/tbf_ul_ass_fsm.c:71 and 124-127. A reject has a TLLI in any case. -/
def request (codel : Nat) (s : St) (p : Pdch) (ts fn : Nat) (who : Csn1.Who) (ok : Bool) : St × Option Answer :=
  match p.node fn with
  | none => (s, none)
  | some n =>
    match mobile codel s p who with
    | none => (s, none)
    | some (s1, i) =>
      match get? s1 i with
      | none => (s1, none)
      | some m =>
        if accepts i n then
          (s1, some ⟨i, if ok && m.anyTlli == noTlli then none else some m.anyTlli, ok, ts⟩)
        else (s1, none)

end Verif.Req
