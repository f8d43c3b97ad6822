import Verif.Spec.UlMsg
/-!
# More control messages a mobile sends

Writers of messages of 3GPP TS 44.060 clause 11.2, from the CSN.1 text of the standard.
-/

namespace Verif.UlMsg

open Verif.Bits (put)

/-- Packet Control Acknowledgement (11.2.2). `r5`: the parts of releases 5 (time slot and RRBP, extension of the
G-RNTI) and 6 (extension of the answer), if there are any. -/
structure ControlAck where
  spare : Nat
  retry : Bool
  tlli : Nat
  ack : Nat
  r5 : Option (Option Nat × Option Nat × Option (Option Nat))

def ControlAck.bits (m : ControlAck) : List Bool :=
  header m.spare m.retry 1 ++ put 32 m.tlli ++ put 2 m.ack
    ++ opt (m.r5.map fun x => opt (x.1.map (put 3)) ++ opt (x.2.1.map (put 4)) ++ opt (x.2.2.map fun y => opt (y.map (put 9))))

def ControlAck.Valid (m : ControlAck) : Prop :=
  m.spare < 32 ∧ m.tlli < 2 ^ 32 ∧ m.ack < 4
    ∧ ∀ x, m.r5 = some x → (∀ v, x.1 = some v → v < 8) ∧ (∀ v, x.2.1 = some v → v < 16) ∧ (∀ v, x.2.2 = some (some v) → v < 512)

/-- Measurement of a neighbour cell (11.2.9): index of the frequency, BSIC, level. -/
structure Neighbour where
  freq : Nat
  bsic : Option Nat
  rxlev : Nat

def Neighbour.bits (n : Neighbour) : List Bool := put 6 n.freq ++ opt (n.bsic.map (put 6)) ++ put 6 n.rxlev

def Neighbour.Valid (n : Neighbour) : Prop := n.freq < 64 ∧ (∀ b, n.bsic = some b → b < 64) ∧ n.rxlev < 64

/-- Packet Measurement Report (11.2.9) with the report of network control, without later additions. -/
structure MeasReport where
  spare : Nat
  retry : Bool
  tlli : Nat
  psi5 : Option Nat
  mode : Bool
  rxlev : Nat
  cells : List Neighbour

def MeasReport.bits (m : MeasReport) : List Bool :=
  header m.spare m.retry 4 ++ put 32 m.tlli ++ opt (m.psi5.map (put 2)) ++ bit false
    ++ (bit m.mode ++ put 6 m.rxlev ++ bit false ++ put 3 m.cells.length ++ m.cells.flatMap Neighbour.bits) ++ bit false

def MeasReport.Valid (m : MeasReport) : Prop :=
  m.spare < 32 ∧ m.tlli < 2 ^ 32 ∧ (∀ v, m.psi5 = some v → v < 4) ∧ m.rxlev < 64 ∧ m.cells.length ≤ 6
    ∧ ∀ n ∈ m.cells, n.Valid

/-- A UTRAN cell: frequency, bandwidth and scrambling code (FDD) or cell parameter and diversity (TDD), and the reported
quantity. -/
structure Utran where
  fdd : Option (Nat × Option Nat × Nat)
  tdd : Option (Nat × Option Nat × Nat × Bool)
  quantity : Nat

def Utran.bits (u : Utran) : List Bool :=
  opt (u.fdd.map fun x => put 14 x.1 ++ opt (x.2.1.map (put 3)) ++ put 9 x.2.2)
    ++ opt (u.tdd.map fun x => put 14 x.1 ++ opt (x.2.1.map (put 3)) ++ put 7 x.2.2.1 ++ bit x.2.2.2)
    ++ put 6 u.quantity

def Utran.Valid (u : Utran) : Prop :=
  (∀ x, u.fdd = some x → x.1 < 16384 ∧ (∀ b, x.2.1 = some b → b < 8) ∧ x.2.2 < 512)
    ∧ (∀ x, u.tdd = some x → x.1 < 16384 ∧ (∀ b, x.2.1 = some b → b < 8) ∧ x.2.2.1 < 128) ∧ u.quantity < 64

/-- An E-UTRAN cell: frequency, bandwidth, physical layer cell identity, quantity. -/
structure Eutran where
  earfcn : Nat
  bandwidth : Option Nat
  identity : Nat
  quantity : Nat

def Eutran.bits (u : Eutran) : List Bool := put 16 u.earfcn ++ opt (u.bandwidth.map (put 3)) ++ put 9 u.identity ++ put 6 u.quantity

def Eutran.Valid (u : Eutran) : Prop :=
  u.earfcn < 65536 ∧ (∀ b, u.bandwidth = some b → b < 8) ∧ u.identity < 512 ∧ u.quantity < 64

/-- Target cell of a change (11.2.3a): a GSM cell (0), a UTRAN cell (10), or (110) any of them or an E-UTRAN cell, then
without a report on E-UTRAN cells. -/
inductive Target
  | gsm (arfcn bsic : Nat)
  | utran (u : Utran)
  | any (gsm : Option (Nat × Nat)) (utran : Option Utran) (eutran : Option Eutran)

def Target.bits : Target → List Bool
  | .gsm arfcn bsic => bit false ++ put 10 arfcn ++ put 6 bsic
  | .utran u => bit true ++ bit false ++ u.bits
  | .any g u e =>
    bit true ++ bit true ++ bit false ++ opt (g.map fun x => put 10 x.1 ++ put 6 x.2) ++ opt (u.map Utran.bits)
      ++ opt (e.map Eutran.bits) ++ bit false

def Target.Valid : Target → Prop
  | .gsm arfcn bsic => arfcn < 1024 ∧ bsic < 64
  | .utran u => u.Valid
  | .any g u e =>
    (∀ x, g = some x → x.1 < 1024 ∧ x.2 < 64) ∧ (∀ x, u = some x → x.Valid) ∧ (∀ x, e = some x → x.Valid)

/-- Packet Cell Change Notification (11.2.3a), without the additions of release 6. `psi3`: change mark of PSI3, else
the BA indication. -/
structure CellChange where
  spare : Nat
  retry : Bool
  downlink : Bool
  tfi : Nat
  target : Target
  psi3 : Option Nat
  baInd : Bool
  pmo : Bool
  sending : Bool
  rxlev : Nat
  cells : List Neighbour

def CellChange.bits (m : CellChange) : List Bool :=
  header m.spare m.retry 12 ++ (bit m.downlink ++ put 5 m.tfi) ++ m.target.bits
    ++ (match m.psi3 with | none => bit false ++ bit m.baInd | some v => bit true ++ put 2 v)
    ++ bit m.pmo ++ bit m.sending
    ++ (put 6 m.rxlev ++ bit false ++ put 3 m.cells.length ++ m.cells.flatMap Neighbour.bits) ++ bit false

def CellChange.Valid (m : CellChange) : Prop :=
  m.spare < 32 ∧ m.tfi < 32 ∧ m.target.Valid ∧ (∀ v, m.psi3 = some v → v < 4) ∧ m.rxlev < 64 ∧ m.cells.length ≤ 6
    ∧ (∀ n ∈ m.cells, n.Valid) ∧ m.bits.length ≤ 184

end Verif.UlMsg
