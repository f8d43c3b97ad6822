import Verif.Model.RlcWindowUl
import Verif.Model.Segment
/-!
# Reception of uplink data in acknowledged mode

`gprs_rlcmac_ul_tbf::rcv_data_block_acknowledged`, src/tbf_ul.cpp:246-418: window (`Model/RlcWindowUl`), check of the TLLI,
and LLC frames (`Model/Segment`) together. Bit alignment of EGPRS data is in `Model/DataBlock`, putting together of split
blocks in `Model/Split`; here a data block has the octets that result from them. RSSI, link quality, acknowledgements and the
state of the TBF are elsewhere.
-/

namespace Verif.UlData

open Verif.RlcUl (Kind Rx isRecv)
open Verif.Seg

/-- A data block of a radio block: BSN, the fields of its header, its octets. `part`: one half of a split block whose other
half is missing (`handle_egprs_ul_spb` is not `EGPRS_RESEG_DEFAULT`). -/
structure Raw where
  bsn : Nat
  hdr : Hdr
  data : List Nat
  part : Bool := false

/-- GSM_RESERVED_TMSI: no TLLI. -/
def noTlli : Nat := 0xffffffff

/-- `rlc_data_from_ul_data` (decoding.cpp:188-260) called without an array, as for the TLLI (tbf_ul.cpp:342): the TLLI, or
`none` for a negative result. -/
def ulTlli (edge : Bool) (mem : Nat → Nat) (len : Nat) (h : Hdr) : Option Nat :=
  let last := decide (h.cv = 0)
  let p : Parsed :=
    if h.e ≠ 0 then .ok [] 0 []
    else if edge then parseEgprs mem len last none (len + 2) 0 [] []
    else parseGprs mem len last none (len + 2) 0 [] []
  match p with
  | .err _ => none
  | .ok _ offs _ =>
    if offs + 4 > len then none
    else if h.pi then none
    else if edge then some (mem offs + mem (offs + 1) * 2 ^ 8 + mem (offs + 2) * 2 ^ 16 + mem (offs + 3) * 2 ^ 24)
    else some (mem offs * 2 ^ 24 + mem (offs + 1) * 2 ^ 16 + mem (offs + 2) * 2 ^ 8 + mem (offs + 3))

/-- tbf_ul.cpp:340-378: is the block taken, and the TLLI of the TBF afterwards. The TLLI of the mobile is taken not to change
otherwise while the TBF lasts. -/
def tlliCheck (edge : Bool) (junk : Nat → Nat) (t : Option Nat) (b : Raw) : Kind × Option Nat :=
  if b.hdr.ti then
    match ulTlli edge (memOf b.data junk) b.data.length b.hdr with
    | none => (.rejected, t)
    | some v =>
      match t with
      | none => if v = noTlli then (.rejected, none) else (.ok, some v)
      | some u => if v ≠ noTlli ∧ v ≠ u then (.rejected, t) else (.ok, t)
  else match t with
    | none => (.rejected, none)
    | some _ => (.ok, t)

/-- An uplink TBF: window and block store, TLLI, LLC frame under construction, and the PDUs sent to the SGSN with their
TLLI. -/
structure Tbf where
  rx : Rx Raw
  tlli : Option Nat
  asm : Asm
  sent : List (Nat × List Nat)

def Tbf.init (sns ws : Nat) (tlli : Option Nat) : Tbf := ⟨Rx.init Raw sns ws, tlli, ⟨[], []⟩, []⟩

/-- `assemble_forward_llc` (tbf_ul.cpp:161-205) for a block of the store. -/
def assemble (edge : Bool) (junk : Nat → Nat) (a : Asm) (b : Option Raw) : Asm :=
  match b with
  | none => a
  | some b => a.block edge (memOf b.data junk) b.data.length b.hdr

/-- tbf_ul.cpp:382-392: V(Q) is raised and the blocks that are ready give LLC frames, which are sent (`snd_ul_ud`,
tbf_ul.cpp:458-485). -/
def Tbf.forward (edge : Bool) (junk : Nat → Nat) (s : Tbf) : Tbf :=
  let rx := s.rx.flush
  let asm := (rx.out.drop s.rx.out.length).foldl (assemble edge junk) s.asm
  { rx := rx, tlli := s.tlli, asm := asm
    sent := s.sent ++ (asm.out.drop s.asm.out.length).map fun f => (s.tlli.getD noTlli, f) }

/-- tbf_ul.cpp:287-392: the data blocks of a radio block, one after the other, then forwarding. Half of a split block ends
the function at once (327-328). -/
def Tbf.rcv (edge : Bool) (junk : Nat → Nat) : Tbf → List Raw → Tbf
  | s, [] => s.forward edge junk
  | s, b :: bs =>
    if !s.rx.win.isInWindow b.bsn then Tbf.rcv edge junk s bs
    else if isRecv s.rx.win.vn b.bsn then Tbf.rcv edge junk s bs
    else if b.part then { s with rx := (s.rx.oneBlock ⟨b.bsn, b, .partialSeg⟩).1 }
    else
      let k := tlliCheck edge junk s.tlli b
      Tbf.rcv edge junk { s with rx := (s.rx.oneBlock ⟨b.bsn, b, k.1⟩).1, tlli := k.2 } bs

end Verif.UlData
