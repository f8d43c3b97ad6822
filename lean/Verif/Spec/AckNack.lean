import Verif.Spec.DlStream
import Verif.Spec.Crbb
import Verif.Model.AckNack
/-!
Meaning of downlink Ack/Nack descriptions, following 3GPP TS 44.060 9.1.8, 12.3, 12.3.1.
-/
namespace Verif.AckNack
open Verif.RlcDl

/-- GPRS (12.3): bit number `k` = 1..64 stands for BSN (SSN - k) mod 128; bit number 1 is
the last one of the bitmap. -/
def gprsSays (d : GprsDesc) (bsn : Nat) (v : Bool) : Prop :=
  ∃ k, 1 ≤ k ∧ k ≤ 64 ∧ (bsn + k) % 128 = d.ssn ∧ d.rbb (64 - k) = v

/-- The description carries a bitmap (compressed, uncompressed or both). -/
def hasBitmap (d : EgprsDesc) : Bool :=
  d.urbb ≠ [] || (match d.crbb with | some (_, code) => decide (code ≠ []) | none => false)

/-- EGPRS (12.3.1), for a mobile that means the absolute block number `m` by SSN and the
bits `crbb` by its compressed bitmap. Block m-1 is V(Q): not received, not transmitted in
the bitmap. Blocks before that are received if "beginning of window" is set. -/
def egprsSays (d : EgprsDesc) (m : Nat) (crbb : List Bool) (n : Nat) : Option Bool :=
  if n + 1 < m then (if d.bow then some true else none)
  else if n + 1 = m then (if hasBitmap d then some false else none)
  else (crbb ++ d.urbb.reverse)[n - m]?

/-- The sender with window `w` and `created` blocks treats block `n` as acknowledged: it
has left the window or is marked so. -/
def ackedIn (w : Win) (created n : Nat) : Prop :=
  n < created - w.distance ∨ w.st (n % w.sns) = .acked

end Verif.AckNack
