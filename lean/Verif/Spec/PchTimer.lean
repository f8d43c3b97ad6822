import Verif.Model.PchTimer
/-!
# Being paged

What has happened to the subscribers of a cell, latest first.
-/

namespace Verif.Pch

inductive Event
  /-- paging of this subscriber was asked for and possible, at this time -/
  | request (imsi : String) (time : Nat)
  /-- the subscriber has been heard -/
  | heard (imsi : String)
  /-- T3113 of the subscriber has expired -/
  | timeout (imsi : String)
  /-- the cell is shut down -/
  | stopAll

/-- Being paged: asked for, not heard, timed out or stopped since. -/
def Paged : List Event → String → Prop
  | [], _ => False
  | .request j _ :: l, i => j = i ∨ Paged l i
  | .heard j :: l, i => j ≠ i ∧ Paged l i
  | .timeout j :: l, i => j ≠ i ∧ Paged l i
  | .stopAll :: _, _ => False

/-- When the paging that is going on was asked for first. -/
def Since : List Event → String → Nat → Prop
  | [], _, _ => False
  | .request j t :: l, i, s => (j = i ∧ ¬ Paged l i ∧ s = t) ∨ ((j ≠ i ∨ Paged l i) ∧ Since l i s)
  | .heard j :: l, i, s => j ≠ i ∧ Since l i s
  | .timeout j :: l, i, s => j ≠ i ∧ Since l i s
  | .stopAll :: _, _, _ => False

/-- The PCU can tell that a mobile with this TLLI and IMSI is subscriber `i`: nobody else is paged by
a P-TMSI equal to the TLLI, the IMSI is `i` or not known; if not known, `i` is not paged or paged by a
P-TMSI equal to the TLLI. -/
def Identifies (q : List Rec) (tlli : Nat) (imsi i : String) : Prop :=
  (∀ r ∈ q, r.ptmsi = tlli → tlli ≠ noTmsi → r.imsi = i) ∧
  (imsi = i ∨ imsi = "" ∧ ∀ r ∈ q, r.imsi = i → r.ptmsi = tlli ∧ tlli ≠ noTmsi)

/-- Histories with a fixed value of T3113. -/
inductive Hist (t3113 : Nat) : List Rec → List Event → Nat → Prop
  | init (now : Nat) : Hist t3113 [] [] now
  | wait {q l now} (d : Nat) : Hist t3113 q l now → Hist t3113 q l (now + d)
  | page {q l now} (tmsi : Option Nat) (i : String) : i ≠ "" → Hist t3113 q l now →
      Hist t3113 (page q now t3113 tmsi i true) (.request i now :: l) now
  | unsent {q l now} (tmsi : Option Nat) (i : String) : Hist t3113 q l now → Hist t3113 (page q now t3113 tmsi i false) l now
  | heard {q l now} (tlli : Nat) (imsi i : String) : i ≠ "" → Identifies q tlli imsi i → Hist t3113 q l now →
      Hist t3113 (stop q tlli imsi) (.heard i :: l) now
  | timeout {q l now} (r : Rec) : r ∈ q → r.due ≤ now → Hist t3113 q l now → Hist t3113 (remove q r) (.timeout r.imsi :: l) now
  | stopAll {q l now} : Hist t3113 q l now → Hist t3113 (stopAll q) (.stopAll :: l) now

end Verif.Pch
