import Verif.Lemmas.AckNack
import Verif.Props.C03
/-!
C05: GPRS Ack/Nack decoding is exact.
-/
namespace Verif.AckNack
open Verif.RlcDl
open Verif.Crbb

/-- A Packet Downlink Ack/Nack whose SSN lies at most 64 ahead of the window start:
every outstanding block gets exactly the verdict the bitmap carries for it, and keeps its
state if the bitmap is silent about it. -/
theorem C05_gprs_exact (s : Sys) (h : Reach 128 64 s) (d : GprsDesc) (hf : d.final = false)
    (m : Nat) (hm1 : s.oldest ≤ m) (hm2 : m ≤ s.oldest + 64) (hssn : d.ssn = m % 128)
    (n : Nat) (h1 : s.oldest ≤ n) (h2 : n < s.created) :
    (gprsSays d (n % 128) true → ackedIn (rcvGprs d s.win) s.created n) ∧
    (gprsSays d (n % 128) false → ¬ ackedIn (rcvGprs d s.win) s.created n ∧
      (rcvGprs d s.win).st (n % 128) = .nacked) ∧
    ((∀ v, ¬ gprsSays d (n % 128) v) →
      (ackedIn (rcvGprs d s.win) s.created n ↔ ackedIn s.win s.created n)) := by
  have hi := reach_inv (Or.inl ⟨rfl, rfl⟩) h
  have hws : s.win.ws = 64 := by
    rcases hi.cfg with ⟨_, x⟩ | ⟨x, _⟩
    · exact x
    · cases x
  have hb := hi.bound
  rw [hws] at hb
  have hnum : s.win.modSns (d.ssn + s.win.sns - s.win.va) = m - s.oldest := by
    unfold Win.modSns; rw [hi.hsns, hi.ha, hssn]; omega
  generalize hbits : (decodeGprs d s.win { bits := [], cap := 64 }).1.bits = bits
  have hB : bits = (List.range (m - s.oldest)).map fun j => d.rbb (64 - (m - s.oldest - j)) := by
    rw [← hbits]
    unfold decodeGprs
    rw [hf]
    simp only [Bool.false_eq_true, if_false, hnum]
    rw [if_neg (by omega)]
    simp only
    rw [(push_bits _ _ (by simp)).1]
    simp only [List.nil_append]
    exact List.take_of_length_le (by simp; omega)
  have hr : rcvGprs d s.win = s.win.ackNack s.win.va bits := by
    unfold rcvGprs; simp only [hf, Bool.false_eq_true, if_false, hbits]
  rw [hr]
  obtain ⟨r1, r2, r3⟩ := rcv_bits hi bits n h1 h2
  -- what the bitmap says about n
  have hsays : ∀ v, gprsSays d (n % 128) v ↔ (n < m ∧ d.rbb (64 - (m - n)) = v) := by
    intro v
    unfold gprsSays
    rw [hssn]
    constructor
    · rintro ⟨k, k1, k2, k3, k4⟩
      have : n + k = m := by omega
      exact ⟨by omega, by rw [show m - n = k by omega]; exact k4⟩
    · rintro ⟨x, y⟩
      exact ⟨m - n, by omega, by omega, by omega, y⟩
  have hget : bits[n - s.oldest]? = if n < m then some (d.rbb (64 - (m - n))) else none := by
    rw [hB, List.getElem?_map]
    by_cases hnm : n < m
    · rw [List.getElem?_range (by omega), if_pos hnm]
      simp only [Option.map_some]
      rw [show m - s.oldest - (n - s.oldest) = m - n by omega]
    · rw [List.getElem?_eq_none (by simp; omega), if_neg hnm]; rfl
  refine ⟨fun hs => ?_, fun hs => ?_, fun hs => ?_⟩
  · obtain ⟨x, y⟩ := (hsays true).1 hs
    exact r1 (by rw [hget, if_pos x, y])
  · obtain ⟨x, y⟩ := (hsays false).1 hs
    exact r2 (by rw [hget, if_pos x, y])
  · have : ¬ n < m := fun x => hs _ ((hsays _).2 ⟨x, rfl⟩)
    exact r3 (by rw [hget, if_neg this])

/-- A message with any other SSN changes nothing. -/
theorem C05_gprs_out_of_range_ignored (s : Sys) (h : Reach 128 64 s) (d : GprsDesc) (hf : d.final = false)
    (hssn : d.ssn < 128) (hout : ∀ m, s.oldest ≤ m → m ≤ s.oldest + 64 → d.ssn ≠ m % 128) :
    rcvGprs d s.win = s.win := by
  have hi := reach_inv (Or.inl ⟨rfl, rfl⟩) h
  have hnum : s.win.modSns (d.ssn + s.win.sns - s.win.va) > 64 := by
    rcases Nat.lt_or_ge 64 (s.win.modSns (d.ssn + s.win.sns - s.win.va)) with x | x
    · exact x
    · exfalso
      unfold Win.modSns at x
      rw [hi.hsns, hi.ha] at x
      exact hout (s.oldest + (d.ssn + 128 - s.oldest % 128) % 128) (by omega) (by omega) (by omega)
  have hd : decodeGprs d s.win { bits := [], cap := 64 } = ({ bits := [], cap := 64 }, false) := by
    unfold decodeGprs
    rw [hf]
    simp only [Bool.false_eq_true, if_false]
    rw [if_pos hnum]
  unfold rcvGprs
  rw [hd, hf]
  simp only [Bool.false_eq_true, if_false]
  exact ackNack_nil hi

/-- The final ack acknowledges exactly the outstanding blocks. -/
theorem C05_gprs_final (s : Sys) (h : Reach 128 64 s) (d : GprsDesc) (hf : d.final = true) :
    (decodeGprs d s.win { bits := [], cap := 64 }).1.bits = List.replicate (s.created - s.oldest) true := by
  have hi := reach_inv (Or.inl ⟨rfl, rfl⟩) h
  have hws : s.win.ws = 64 := by
    rcases hi.cfg with ⟨_, x⟩ | ⟨x, _⟩
    · exact x
    · cases x
  have hb := hi.bound
  unfold decodeGprs
  rw [if_pos hf]
  exact finalAck_bits hi 64 (by omega)

/-- Non-vacuity: with 64 blocks outstanding, SSN = 3 and the bitmap …101: blocks 0 and 2 are
received, block 1 is missing, block 3 is not covered. -/
example : ∃ s : Sys, Reach 128 64 s ∧ s.created = 64 ∧ s.oldest = 0 ∧
    gprsSays ⟨false, 3, fun p => p == 61 || p == 63⟩ 0 true ∧
    gprsSays ⟨false, 3, fun p => p == 61 || p == 63⟩ 1 false ∧
    (∀ v, ¬ gprsSays ⟨false, 3, fun p => p == 61 || p == 63⟩ 3 v) := by
  obtain ⟨s, h1, h2, h3, _⟩ := reach_fill 128 64 (Or.inl ⟨rfl, rfl⟩) 64 (Nat.le_refl _)
  exact ⟨s, h1, h2, h3, ⟨3, by decide⟩, ⟨2, by decide⟩, fun v ⟨k, k1, k2, k3, _⟩ => by
    simp only at k3; omega⟩

end Verif.AckNack
