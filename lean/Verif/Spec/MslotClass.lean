import Verif.Spec.Pdch
/-!
# Multislot classes

The limits of 3GPP TS 45.002 table B.1, written down independently of the table in the program.
-/

namespace Verif.Alloc

/-- Largest number of receive slots, of transmit slots and (where the class has one) of both. -/
structure Limits where
  rx : Nat
  tx : Nat
  sum : Option Nat
  deriving DecidableEq, Repr

/-- TS 45.002 table B.1. -/
def limits : Nat → Option Limits
  | 1 => some ⟨1, 1, some 2⟩
  | 2 => some ⟨2, 1, some 3⟩
  | 3 => some ⟨2, 2, some 3⟩
  | 4 => some ⟨3, 1, some 4⟩
  | 5 => some ⟨2, 2, some 4⟩
  | 6 => some ⟨3, 2, some 4⟩
  | 7 => some ⟨3, 3, some 4⟩
  | 8 => some ⟨4, 1, some 5⟩
  | 9 => some ⟨3, 2, some 5⟩
  | 10 => some ⟨4, 2, some 5⟩
  | 11 => some ⟨4, 3, some 5⟩
  | 12 => some ⟨4, 4, some 5⟩
  | 13 => some ⟨3, 3, none⟩
  | 14 => some ⟨4, 4, none⟩
  | 15 => some ⟨5, 5, none⟩
  | 16 => some ⟨6, 6, none⟩
  | 17 => some ⟨7, 7, none⟩
  | 18 => some ⟨8, 8, none⟩
  | 19 => some ⟨6, 2, none⟩
  | 20 => some ⟨6, 3, none⟩
  | 21 => some ⟨6, 4, none⟩
  | 22 => some ⟨6, 4, none⟩
  | 23 => some ⟨6, 6, none⟩
  | 24 => some ⟨8, 2, none⟩
  | 25 => some ⟨8, 3, none⟩
  | 26 => some ⟨8, 4, none⟩
  | 27 => some ⟨8, 4, none⟩
  | 28 => some ⟨8, 6, none⟩
  | 29 => some ⟨8, 8, none⟩
  | 30 => some ⟨5, 1, some 6⟩
  | 31 => some ⟨5, 2, some 6⟩
  | 32 => some ⟨5, 3, some 6⟩
  | 33 => some ⟨5, 4, some 6⟩
  | 34 => some ⟨5, 5, some 6⟩
  | 35 => some ⟨5, 1, some 6⟩
  | 36 => some ⟨5, 2, some 6⟩
  | 37 => some ⟨5, 3, some 6⟩
  | 38 => some ⟨5, 4, some 6⟩
  | 39 => some ⟨5, 5, some 6⟩
  | 40 => some ⟨6, 1, some 7⟩
  | 41 => some ⟨6, 2, some 7⟩
  | 42 => some ⟨6, 3, some 7⟩
  | 43 => some ⟨6, 4, some 7⟩
  | 44 => some ⟨6, 5, some 7⟩
  | 45 => some ⟨6, 6, some 7⟩
  | _ => none

/-- `tx` transmit slots and `rx` receive slots are within the limits. -/
def Limits.allows (l : Limits) (tx rx : Nat) : Prop :=
  tx ≤ l.tx ∧ rx ≤ l.rx ∧ ∀ n, l.sum = some n → tx + rx ≤ n

/-- The class that applies to a mobile: its own or, while that is unknown (0), the configured one. -/
def effClass (dflt cls : Nat) : Nat := if cls = 0 then dflt else cls

/-- The time slots the TBFs of mobile `m` use in a direction. -/
def slotsOf (w : World) (m : Nat) (d : Dir) : List Nat :=
  (List.range 8).filter fun s => (List.range w.tbfN).any fun b => match w.tbf b with
    | some x => decide (x.ms = m) && decide (x.dir = d) && x.slots s
    | none => false

/-- The slots of a mask. -/
def slotsIn (mask : Nat) : List Nat := (List.range 8).filter fun s => mask.testBit s

/-! ## Histories for which the limits are proved to be kept -/

/-- A PDCH has a USF left. -/
def FreeUsf (p : Pdch) : Prop := ∃ u, u < 7 ∧ p.usfMap.testBit u = false

/-- Requests that do not run into the fallback of the single slot selection. -/
def ReqOk (bts : Nat → Trx) (ms : Ms) (req : Req) : Prop :=
  req.dir = .ul → req.single = true → ms.fct = none →
    ∀ t s, (bts t s).enabled = true → FreeUsf (bts t s)

/-- Operations for which the class limits are kept: the multislot class does not change and no access
is rejected while slots are reserved, no PDCH is disabled, and a single slot uplink request finds free
USFs. -/
def Tame (w : World) : Op → Prop
  | .setClass m _ => (w.ms m).ul = 0 ∧ (w.ms m).dl = 0
  | .reject m _ _ _ => (w.ms m).ul = 0 ∧ (w.ms m).dl = 0
  | .alloc m req _ => ReqOk w.pdch (w.ms m) req
  | .disable _ _ _ => False
  | _ => True

/-- A history of such operations. -/
def TameRun (cfg : Cfg) (w : World) : List Op → Prop
  | [] => True
  | op :: ops => Tame w op ∧ ∀ w', step cfg w op = some w' → TameRun cfg w' ops

end Verif.Alloc
