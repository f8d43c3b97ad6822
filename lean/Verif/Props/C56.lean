import Verif.Model.UlCtrl
import Verif.Lemmas.Csn1Safe
import Verif.Lemmas.Csn1Dec
/-!
# C56: a control block from a mobile is stored inside the arrays meant for it

A control block is two bits of payload type, six more bits of MAC header, six bits of message type and the
rest. `ulDecode` is `.spill` when an element is stored outside of the array it belongs to.
-/

namespace Verif.Csn1

open Verif.Bits (put length_put)
open T

/-- Largest values of the members that say how many elements follow, from their widths. -/
def ulCounts : List (Nat × Nat) :=
  [(EUTRAN_Measurement_Report_t.N_EUTRAN, 4), (Extension_Bits_t.extension_length, 64),
   (EGPRS_AckNack_Desc_t.CRBB_LENGTH, 127), (ENH_NC_Measurement_Report_t.Count_REPORTING_QUANTITY_Instances, 0),
   (PEMR_AdditionsR8_t.BITMAP_LENGTH, 128)]

set_option maxRecDepth 10000 in
theorem ulTables_safe : ∀ mt, mt ≠ 4 → mt ≠ 9 → mt ≠ 12 → ∀ d, ulTable mt = some d → safeItems ulCounts d = true := by
  intro mt h4 h9 h12 d hd
  unfold ulTable at hd
  split at hd <;> first
    | (rw [← Option.some.inj hd]; decide +kernel)
    | exact absurd rfl h4
    | exact absurd rfl h9
    | exact absurd rfl h12
    | cases hd

theorem ulCounts_members : ∀ c, c < 1000 → ulCounts.lookup c = none := by
  intro c hc
  cases h : ulCounts.lookup c with
  | none => rfl
  | some b =>
    have hm : (c, b) ∈ ulCounts := by
      have := List.lookup_eq_some_iff.1 h
      obtain ⟨l1, l2, e, _⟩ := this
      rw [e]
      exact List.mem_append_right _ List.mem_cons_self
    have : ∀ x ∈ ulCounts, 1000 ≤ x.1 := by decide
    have := this _ hm
    omega

theorem header_at (pt x mt : Nat) (rest : List Bool) :
    At (put 2 pt ++ put 6 x ++ put 6 mt ++ rest) 8 (put 6 mt ++ rest) := by
  have h : At (put 2 pt ++ (put 6 x ++ (put 6 mt ++ rest))) 0 (put 2 pt ++ (put 6 x ++ (put 6 mt ++ rest))) := rfl
  have h2 := h.step.step
  rw [length_put, length_put] at h2
  rw [List.append_assoc, List.append_assoc]
  exact h2

/-- **C56, proved part**: apart from measurement reports (4), pause (9) and cell change notifications (12), no
control block, of any length and with any bits, makes the decoder store an element outside of its array. -/
theorem C56_partial (pt x mt : Nat) (rest : List Bool) (hm : mt < 64) (h4 : mt ≠ 4) (h9 : mt ≠ 9) (h12 : mt ≠ 12) :
    ulDecode (put 2 pt ++ put 6 x ++ put 6 mt ++ rest) ≠ .spill := by
  intro h
  unfold ulDecode at h
  rw [(header_at pt x mt rest).read hm] at h
  dsimp only at h
  split at h
  · exact absurd h (nomatch ·)
  · split at h
    · exact absurd h (nomatch ·)
    · rename_i d hd
      unfold decode at h
      rw [if_neg (show ¬ (184 : Int) < 0 by omega)] at h
      have hs : Safe ulCounts _ := safe_items (put 2 pt ++ put 6 x ++ put 6 mt ++ rest) ulCounts_members d 0 [] ⟨184, 0, fun _ => 0⟩
        (ulTables_safe mt h4 h9 h12 d hd) (fun _ _ _ _ => Nat.zero_le _)
      rw [h] at hs
      exact hs

/-- Whether an element is stored outside of its array. -/
def R.spilled : R → Bool
  | .spill => true
  | _ => false

theorem R.spilled_iff {r : R} : r.spilled = true ↔ r = .spill := by
  cases r <;> unfold R.spilled <;> simp

/-- A measurement report of 23 octets: TLLI 0, no change mark, NC measurement report with 7 neighbour cells for
which there are 6 elements, rest zero. -/
def reportOf7 : List Bool :=
  put 2 1 ++ put 5 0 ++ put 1 0 ++ put 6 4 ++ put 32 0 ++ put 1 0 ++ put 1 0 ++ put 1 0 ++ put 6 0 ++ put 1 0 ++ put 3 7 ++ put 125 0

set_option maxRecDepth 10000 in
/-- **C56 does not hold** for measurement reports: one with seven neighbour cells is stored beyond the six elements
there are for them. -/
theorem C56_measurement_report : reportOf7.length = 184 ∧ ulDecode reportOf7 = .spill :=
  ⟨by decide +kernel, R.spilled_iff.1 (by decide +kernel)⟩

/-- A cell change notification of 23 octets with measurements of 7 neighbour cells. -/
def notificationOf7 : List Bool :=
  put 2 1 ++ put 5 0 ++ put 1 0 ++ put 6 12 ++ put 1 0 ++ put 5 0 ++ put 1 0 ++ put 10 0 ++ put 6 0 ++ put 1 0 ++ put 1 0 ++ put 1 0 ++ put 1 0 ++ put 6 0 ++ put 1 0 ++ put 3 7 ++ put 133 0

set_option maxRecDepth 10000 in
/-- **C56 does not hold** for cell change notifications. -/
theorem C56_cell_change : notificationOf7.length = 184 ∧ ulDecode notificationOf7 = .spill :=
  ⟨by decide +kernel, R.spilled_iff.1 (by decide +kernel)⟩

set_option maxRecDepth 10000 in
/-- **C56 does not hold** for any pause message with payload type 1: 8 octets are stored to a routing area
identification of 6. -/
theorem C56_pause (x : Nat) (rest : List Bool) : ulDecode (put 2 1 ++ put 6 x ++ put 6 9 ++ rest) = .spill := by
  unfold ulDecode
  have hp : readField (put 2 1 ++ put 6 x ++ put 6 9 ++ rest) 0 2 = (1, 2) :=
    At.read (b := put 6 x ++ put 6 9 ++ rest) (by unfold At; rw [List.drop_zero]; simp only [List.append_assoc]) (by decide)
  rw [(header_at 1 x 9 rest).read (by decide), hp]
  rfl

/-- The hypotheses of `C56_partial` are met by an acknowledgement. -/
example : ulDecode (put 2 1 ++ put 6 0 ++ put 6 1 ++ (put 32 0xc0ffee01 ++ put 2 3 ++ put 136 0)) ≠ .spill :=
  C56_partial 1 0 1 _ (by decide) (by decide) (by decide) (by decide)

end Verif.Csn1
