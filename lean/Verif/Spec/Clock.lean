import Verif.Model.Clock
/-! # Frame numbers on a circle -/

namespace Verif.Clock

/-- The number of TDMA frames in a hyperframe (3GPP TS 45.002, 4.3.3). -/
def hyper : Nat := 26 * 51 * 2048

/-- `b` is `k` frames after `a`. -/
def After (a : Nat) (k : Nat) (b : Nat) : Prop := b = (a + k) % hyper

/-- `b` is after `a`, by less than half of the circle. -/
def Newer (a b : Nat) : Prop := ∃ k, 0 < k ∧ k < hyper / 2 ∧ After a k b

/-- All histories with frame numbers that there are. -/
inductive Reach : Clk → Prop
  | start : Reach {}
  | ev {c c'} (e : Ev) : Reach c → (∀ f, e = .data f ∨ e = .block f → f < hyper) → step c e = some c' → Reach c'

end Verif.Clock
