import Verif.Model.Mslot
import Verif.Model.BitField
/-!
# EGPRS window size

Model of `egprs_window_size` (src/tbf.cpp:284-290), of its use (tbf_ul.cpp:664-671, tbf_dl.cpp:1336-1342), of
`gprs_rlc_window::set_ws` and of the field in the assignment messages.
-/

namespace Verif.Ws

/-- Configuration: `window-size <0-1024> [<0-256>]` (pcu_vty.c:605-622). -/
structure Cfg where
  base : Nat
  pdch : Nat
  deriving DecidableEq, Repr

/-- tbf.cpp:284-290 `egprs_window_size`; `slots`: bit mask. The values fit into 16 bits. -/
def windowSize (c : Cfg) (slots : Nat) : Nat :=
  let n := Verif.Alloc.pop slots
  min (if n ≠ 1 then 128 * n else 192) (max 64 ((c.base + n * c.pdch) / 32 * 32))

/-- rlc_window.cpp:35-42 `set_ws`; `none`: an assertion fails. -/
def setWs (ws : Nat) : Option Nat := if ws < 64 then none else if ws > 1024 then none else some ws

/-- encoding.cpp:154-157 `enc_ws`, in the 5 bits of Immediate Assignment (225, 338) and Packet Downlink Assignment
(796). -/
def fieldEncWs (ws : Nat) : List Bool := Bits.put 5 ((ws - 64) / 32)

/-- encoding.cpp:647, gsm_rlcmac.c:2081: Packet Uplink Assignment; the window size is stored in 8 bits and its low 5
bits are written. -/
def fieldPua (ws : Nat) : List Bool := Bits.put 5 (ws % 256)

end Verif.Ws
