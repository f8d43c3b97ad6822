import Verif.Spec.DlMsg
import Verif.Model.DlCtrl
/-!
# What assignments have to say

The messages of the standard that describe a TBF, from the TBF and the configuration.
-/

namespace Verif.DlMsg

open Verif.DlCtrl (Hop Chan DlTbf UlTbf)

/-- The frequencies of a channel in the terms of the standard. -/
def freqOf (c : Chan) : Freq :=
  ⟨c.tsc, match c.hop with
    | none => .arfcn c.arfcn
    | some h => .hop h.maio h.hsn (lastBits h.bitLen h.ma)⟩

/-- Values of a channel are in range: the Mobile Allocation has 1 to 64 bits and as many octets as needed. -/
def ChanOk (c : Chan) : Prop :=
  c.tsc < 8 ∧ c.arfcn < 1024 ∧
    ∀ h, c.hop = some h → h.maio < 64 ∧ h.hsn < 64 ∧ 1 ≤ h.bitLen ∧ h.bitLen ≤ 64 ∧ h.ma.length = (h.bitLen + 7) / 8

/-- Timing advance if it is known, index and time slot if there is one. -/
def timingOf (ta : Nat) (index : Option (Nat × Nat)) : Timing :=
  ⟨if ta ≤ 63 then some ta else none, index⟩

/-- The coded window size (44.060 table 12.5.2.1): 64 + 32 n. -/
def windowCode (ws : Nat) : Nat := (ws - 64) / 32

/-- Assignment of a downlink TBF to a mobile which is addressed by the TFI of one of its TBFs (`old`), or by its TLLI:
time slots, frequencies, TFI, timing advance and power control of the TBF; the window size if it is an EGPRS TBF. -/
def dlAssignment (old : Option (Nat × Bool)) (t : DlTbf) (poll : Bool) (rrbp alpha gamma : Nat) (index : Option (Nat × Nat)) (egprs ctrlAck : Bool) : DownlinkAssignment where
  rrbp := rrbp
  poll := poll
  pageMode := 0
  id := match old with
    | some (n, d) => .tfi d n
    | none => .tlli t.tlli
  macMode := 0
  unacknowledged := false
  controlAck := ctrlAck
  slots := t.slots
  timing := timingOf t.ta index
  freq := some (freqOf t.chan)
  tfi := some t.tfi
  power := some (alpha, fun tn => if t.slots tn then some gamma else none)
  egprs := if egprs then some ⟨windowCode t.ws, 0⟩ else none

/-- Assignment of an uplink TBF: time slots with USFs, frequencies, TFI, timing advance, the coding, and the power
control parameters unless they are all 0; `window`: coded window size. -/
def ulAssignment (id : Nat ⊕ (Nat × Bool)) (t : UlTbf) (poll : Bool) (rrbp alpha gamma : Nat) (index : Option (Nat × Nat)) (egprs : Bool) (window : Nat) : UplinkAssignment where
  rrbp := rrbp
  poll := poll
  pageMode := 0
  id := match id with
    | .inl n => .tlli n
    | .inr (n, d) => .tfi d n
  coding := if egprs then .egprs t.code true window else .gprs t.code
  sameCoding := true
  timing := timingOf t.ta index
  freq := some (freqOf t.chan)
  alloc := {
    extended := false
    granularity := false
    tfi := some t.tfi
    slots := if alpha = 0 ∧ gamma = 0 then .plain t.usf else .power alpha fun tn => (t.usf tn).map fun u => (u, gamma) }

end Verif.DlMsg
