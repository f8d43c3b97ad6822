import Verif.Model.RlcWindowDl
/-!
# Analysis of a report of the mobile

Model of `gprs_rlcmac_dl_tbf::analyse_errors` (`src/tbf_dl.cpp` 927-1011) as called by `update_window` (1018-1037).
-/

namespace Verif.Analyse

open Verif.RlcDl

/-- What the analysis reads of the blocks (ring of `m_rlc`): the scheme each was last sent with and its length; and the
current scheme. -/
structure Sent (κ : Type) where
  cs : Nat → κ
  len : Nat → Nat
  cur : κ

/-- Counters of the loop (935-939). -/
structure Acc where
  lost : Nat := 0
  received : Nat := 0
  bytes : Nat := 0
  packets : Nat := 0
  lostPackets : Nat := 0
  deriving DecidableEq, Repr

variable {κ : Type} [DecidableEq κ]

/-- tbf_dl.cpp:962-995: one block; `r`: reported as received. -/
def one (w : Win) (s : Sent κ) (r : Bool) (bsn : Nat) (a : Acc) : Acc :=
  let a := if r = true ∧ w.st bsn ≠ .acked then { a with packets := a.packets + 1, bytes := a.bytes + s.len (bsn % ring) }
    else if r = false ∧ w.st bsn ≠ .nacked then { a with lostPackets := a.lostPackets + 1 }
    else a
  if s.cs (bsn % ring) ≠ s.cur then a
  else if r then (if w.st bsn ≠ .acked then { a with received := a.received + 1 } else a)
  else { a with lost := a.lost + 1 }

/-- tbf_dl.cpp:946-996: the loop, from the last reported block backwards; `n`: number of the next block, not reduced. -/
def loop (w : Win) (s : Sent κ) : List Bool → Nat → Acc → Acc
  | [], _, a => a
  | r :: l, n, a =>
    let bsn := w.modSns n
    if bsn = w.modSns (w.va + w.sns - 1) then a else loop w s l (n - 1) (one w s r bsn a)

/-- tbf_dl.cpp:1028-1037, 927-1011: report `rbb` of the blocks from `first` on. `behind_last_bsn` is passed as an octet.
Result: counters and error rate in percent (`none`: -1). -/
def analyse (w : Win) (s : Sent κ) (rbb : List Bool) (first : Nat) : Acc × Option Nat :=
  let bits := rbb.take w.distance
  let ssn := w.modSns (first + bits.length) % 256
  let a := loop w s bits.reverse (ssn + w.sns - 1) {}
  (a, if a.lost + a.received ≤ 1 then none else some (a.lost * 100 / (a.lost + a.received)))

end Verif.Analyse
