import Verif.Model.Analyse
/-!
# Analysis of a report: specification
-/

namespace Verif.Analyse

open Verif.RlcDl

/-- The reported blocks: number of the block and whether the mobile has received it. -/
def reported (sns first : Nat) (rbb : List Bool) : List (Nat × Bool) :=
  (List.range rbb.length).map fun i => ((first + i) % sns, rbb.getD i false)

/-- The report is about blocks between V(A) and V(S). -/
def InWindow (w : Win) (first n : Nat) : Prop := (first + w.sns - w.va) % w.sns + n ≤ w.distance

variable {κ : Type} [DecidableEq κ]

/-- Blocks sent with the current scheme that are reported as lost. -/
def lostNow (s : Sent κ) (l : List (Nat × Bool)) : Nat := (l.filter fun x => !x.2 && s.cs (x.1 % ring) = s.cur).length

/-- Blocks sent with the current scheme that are reported as received for the first time. -/
def newNow (w : Win) (s : Sent κ) (l : List (Nat × Bool)) : Nat :=
  (l.filter fun x => x.2 && w.st x.1 ≠ .acked && s.cs (x.1 % ring) = s.cur).length

/-- Octets of all blocks that are reported as received for the first time. -/
def newOctets (w : Win) (s : Sent κ) (l : List (Nat × Bool)) : Nat :=
  ((l.filter fun x => x.2 && w.st x.1 ≠ .acked).map fun x => s.len (x.1 % ring)).sum

/-- Blocks that are reported as received, or as lost, for the first time. -/
def newReports (w : Win) (l : List (Nat × Bool)) : Nat :=
  (l.filter fun x => if x.2 then w.st x.1 ≠ .acked else w.st x.1 ≠ .nacked).length

/-- Error rate in percent, if there are at least two blocks to tell it from. -/
def errorRate (w : Win) (s : Sent κ) (l : List (Nat × Bool)) : Option Nat :=
  if lostNow s l + newNow w s l < 2 then none else some (100 * lostNow s l / (lostNow s l + newNow w s l))

end Verif.Analyse
