import Verif.Lemmas.UlMsg2
/-!
# C61: acknowledgements, measurement reports and cell change notifications of mobiles are understood

The messages are written in `Spec/UlMsg2` from the text of the standard; `rest` is the padding and whatever else is
in the block.
-/

namespace Verif.Csn1

open Verif.Bits (put length_put)
open Verif.UlMsg

/-- **C61**, a control acknowledgement reaches its handler with the TLLI that was sent. -/
theorem C61_control_ack (m : ControlAck) (h : m.Valid) (rest : List Bool) :
    rcvControl (m.bits ++ rest) = some (.ctrlAck m.tlli) := pca_rx m h rest

/-- **C61**, a measurement report is attributed to the TLLI that was sent. -/
theorem C61_measurement (m : MeasReport) (h : m.Valid) (rest : List Bool) :
    rcvControl (m.bits ++ rest) = some (.measReport m.tlli) := pmr_rx m h rest

/-- **C61**, a notification of a change to a GSM cell starts the assistance for the TBF that was named and the cell
that was named. -/
theorem C61_cell_change (m : CellChange) (h : m.Valid) (rest : List Bool) (arfcn bsic : Nat) (ht : m.target = .gsm arfcn bsic) :
    rcvControl (m.bits ++ rest) = some (.cellChange m.downlink m.tfi (.gsm arfcn bsic)) := by
  rw [pccn_rx m h rest, ht]; rfl

/-- **C61**, a change to a UTRAN cell is recognised as one to another kind of network. -/
theorem C61_cell_change_utran (m : CellChange) (h : m.Valid) (rest : List Bool) (u : Utran) (ht : m.target = .utran u) :
    rcvControl (m.bits ++ rest) = some (.cellChange m.downlink m.tfi .otherRat) := by
  rw [pccn_rx m h rest, ht]; rfl

/-- **C61**, in the form that release 8 added a GSM cell is recognised as well, -/
theorem C61_cell_change_r8 (m : CellChange) (h : m.Valid) (rest : List Bool) (arfcn bsic : Nat) (u : Option Utran) (e : Option Eutran)
    (ht : m.target = .any (some (arfcn, bsic)) u e) : rcvControl (m.bits ++ rest) = some (.cellChange m.downlink m.tfi (.gsm arfcn bsic)) := by
  rw [pccn_rx m h rest, ht]; rfl

/-- and UTRAN and E-UTRAN cells are recognised as those of other kinds of network. -/
theorem C61_cell_change_r8_other (m : CellChange) (h : m.Valid) (rest : List Bool) (u : Option Utran) (e : Option Eutran)
    (ht : m.target = .any none u e) (hs : u ≠ none ∨ e ≠ none) :
    rcvControl (m.bits ++ rest) = some (.cellChange m.downlink m.tfi .otherRat) := by
  rw [pccn_rx m h rest, ht]
  cases u with
  | some u => rfl
  | none =>
    cases e with
    | some e => rfl
    | none => simp at hs

/-- Two mobiles that send different acknowledgements are told apart, whatever the padding. -/
theorem C61_tlli_distinct (m m' : ControlAck) (h : m.Valid) (h' : m'.Valid) (rest rest' : List Bool)
    (he : m.bits ++ rest = m'.bits ++ rest') : m.tlli = m'.tlli := by
  have a := C61_control_ack m h rest
  rw [he, C61_control_ack m' h' rest'] at a
  injection a with a
  injection a with a
  exact a.symm

/-! ### Cases -/

/-- An acknowledgement with the time slot it answers (release 5). -/
def exAck : ControlAck := { spare := 0, retry := false, tlli := 0xc0001234, ack := 3, r5 := some (some 5, none, none) }

theorem exAck_valid : exAck.Valid :=
  ⟨by decide, by decide, by decide, fun x e => by
    cases e; exact ⟨fun v e => (by cases e; decide), fun v e => (by cases e), fun v e => (by cases e)⟩⟩

example : rcvControl (exAck.bits ++ List.replicate 120 true) = some (.ctrlAck 0xc0001234) := C61_control_ack exAck exAck_valid _

/-- A report on two neighbours. -/
def exReport : MeasReport :=
  { spare := 0, retry := true, tlli := 0x80000001, psi5 := none, mode := true, rxlev := 40, cells := [⟨3, some 17, 30⟩, ⟨9, none, 22⟩] }

theorem exReport_valid : exReport.Valid :=
  ⟨by decide, by decide, fun v e => (by cases e), by decide, by decide, fun n hn => by
    rcases List.mem_cons.1 hn with rfl | hn
    · exact ⟨by decide, fun b e => (by cases e; decide), by decide⟩
    · rcases List.mem_cons.1 hn with rfl | hn
      · exact ⟨by decide, fun b e => (by cases e), by decide⟩
      · cases hn⟩

example : rcvControl (exReport.bits ++ [false, true]) = some (.measReport 0x80000001) := C61_measurement exReport exReport_valid _

/-- A change to ARFCN 871 with BSIC 12. -/
def exChange : CellChange :=
  { spare := 0, retry := false, downlink := true, tfi := 11, target := .gsm 871 12, psi3 := none, baInd := true,
    pmo := false, sending := false, rxlev := 33, cells := [⟨3, some 17, 30⟩] }

theorem exChange_valid : exChange.Valid :=
  ⟨by decide, by decide, ⟨by decide, by decide⟩, fun v e => (by cases e), by decide, by decide, fun n hn => (by
    rcases List.mem_cons.1 hn with rfl | hn
    · exact ⟨by decide, fun b e => (by cases e; decide), by decide⟩
    · cases hn), by decide⟩

example : rcvControl (exChange.bits ++ [false, true]) = some (.cellChange true 11 (.gsm 871 12)) :=
  C61_cell_change exChange exChange_valid _ _ _ rfl

/-- A change to a UTRAN cell. -/
example : ({ exChange with target := .utran ⟨some (10700, none, 100), none, 20⟩ } : CellChange).Valid :=
  ⟨by decide, by decide, ⟨fun x e => (by cases e; exact ⟨by decide, fun b e => (by cases e), by decide⟩), fun x e => (by cases e), by decide⟩,
    fun v e => (by cases e), by decide, by decide, exChange_valid.2.2.2.2.2.2.1, by decide⟩

/-- A change to an E-UTRAN cell, and to a GSM cell in the same form. -/
example : ∀ g ∈ [none, some (871, 12)], ({ exChange with target := .any g none (some ⟨6300, some 3, 217, 40⟩) } : CellChange).Valid := by
  intro g hg
  obtain ⟨h1, h2, -, h4, h5, h6, h7, -⟩ := exChange_valid
  refine ⟨h1, h2, ⟨fun x e => ?_, fun x e => (by cases e), fun x e => (by cases e; exact ⟨by decide, fun b e => (by cases e; decide), by decide, by decide⟩)⟩,
    h4, h5, h6, h7, ?_⟩
  · simp only [List.mem_cons, List.not_mem_nil, or_false] at hg
    rcases hg with h | h <;> rw [h] at e <;> cases e
    decide
  · revert g
    decide

end Verif.Csn1
