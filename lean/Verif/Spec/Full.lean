import Verif.Spec.Pdch
/-!
# When a cell is full

Stated in terms of the TBFs that exist and the PDCHs that are enabled.
-/

namespace Verif.Alloc

/-- Slot `s` of TRX `t` is a PDCH in operation. -/
def Up (w : World) (t s : Nat) : Prop := t < 8 ∧ s < 8 ∧ (w.pdch t s).enabled = true

/-- A TBF of direction `d` on slot `s` of TRX `t` has TFI `i`. -/
def TfiUsed (w : World) (d : Dir) (t s i : Nat) : Prop :=
  ∃ b x, w.tbf b = some x ∧ x.dir = d ∧ x.uses t s = true ∧ x.tfi = some i

/-- An uplink TBF on slot `s` of TRX `t` has USF `u` there. -/
def UsfUsed (w : World) (t s u : Nat) : Prop :=
  ∃ b x, w.tbf b = some x ∧ x.dir = .ul ∧ x.uses t s = true ∧ x.usf s = u

/-- There is room for a downlink TBF on slot `s` of TRX `t`: one of the 32 TFIs is free there. -/
def RoomDl (w : World) (t s : Nat) : Prop := Up w t s ∧ ∃ i, i < 32 ∧ ¬ TfiUsed w .dl t s i

/-- There is room for an uplink TBF on slot `s` of TRX `t`: one of the seven USFs is free there. -/
def RoomUl (w : World) (t s : Nat) : Prop := Up w t s ∧ ∃ u, u < 7 ∧ ¬ UsfUsed w t s u

/-- Mobile `m` is known and has no resources. -/
def Idle (w : World) (m : Nat) : Prop := m < w.msN ∧ (w.ms m).trx = none ∧ (w.ms m).fct = none

/-- Between `w` and `w'`, mobile `m` got a TBF of direction `d` on a PDCH in operation. -/
def Served (w w' : World) (m : Nat) (d : Dir) : Prop :=
  ∃ b x t s, w.tbf b = none ∧ w'.tbf b = some x ∧ x.ms = m ∧ x.dir = d ∧ x.uses t s = true ∧ Up w t s

end Verif.Alloc
