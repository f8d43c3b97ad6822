import Verif.Spec.AckNack
import Verif.Lemmas.DlWindow
import Verif.Lemmas.Crbb
namespace Verif.AckNack
open Verif.RlcDl
open Verif.Crbb

theorem push_bits (l : List Bool) : ∀ (v : BV), v.bits.length ≤ v.cap →
    (push v l).bits = (v.bits ++ l).take v.cap ∧ (push v l).cap = v.cap := by
  induction l with
  | nil => intro v h; simp [push, List.take_of_length_le h]
  | cons b l ih =>
    intro v h
    show (push (v.setBit b) l).bits = _ ∧ (push (v.setBit b) l).cap = _
    unfold BV.setBit
    split
    · rename_i hlt
      have := ih { v with bits := v.bits ++ [b] } (by simp; omega)
      simpa using this
    · rename_i hlt
      have hl : v.bits.length = v.cap := by omega
      have := ih v h
      rw [this.1, this.2]
      refine ⟨?_, rfl⟩
      rw [List.take_append_of_le_length (by omega), List.take_append_of_le_length (by omega)]

theorem push_len {v : BV} (h : v.bits.length ≤ v.cap) (l : List Bool) :
    (push v l).bits.length ≤ (push v l).cap := by
  obtain ⟨h1, h2⟩ := push_bits l v h
  rw [h1, h2, List.length_take]; omega

theorem Inv.ackedIn_iff {sns w a s acked} (h : Inv sns w a s acked) (n : Nat) :
    ackedIn w s n ↔ n < a ∨ w.vb (idx sns n) = .acked := by
  unfold ackedIn Win.st
  rw [h.hsns, h.distance, show s - (s - a) = a by have := h.le; omega]
  rfl

/-- Effect of a bitmap on one outstanding block. -/
theorem rcv_bits {sns w a s acked} (h : Inv sns w a s acked) (bits : List Bool) (n : Nat)
    (h1 : a ≤ n) (h2 : n < s) :
    (bits[n - a]? = some true → ackedIn (w.ackNack w.va bits) s n) ∧
    (bits[n - a]? = some false → ¬ ackedIn (w.ackNack w.va bits) s n ∧
      (w.ackNack w.va bits).st (n % sns) = .nacked) ∧
    (bits[n - a]? = none → (ackedIn (w.ackNack w.va bits) s n ↔ ackedIn w s n)) := by
  obtain ⟨a', a1, a2, a3, a4, a5⟩ := h.ackNack bits
  have h5 := a5 n h1 h2
  have e : (w.ackNack w.va bits).st (n % sns) = (w.ackNack w.va bits).vb (idx sns n) := rfl
  refine ⟨fun hb => ?_, fun hb => ?_, fun hb => ?_⟩
  · rw [Inv.ackedIn_iff a4]
    have hl : n - a < bits.length := by
      rcases Nat.lt_or_ge (n - a) bits.length with x | x
      · exact x
      · rw [List.getElem?_eq_none x] at hb; cases hb
    rw [if_pos hl, if_pos hb] at h5
    split at h5
    · left; assumption
    · right; exact h5
  · rw [Inv.ackedIn_iff a4, e]
    have hl : n - a < bits.length := by
      rcases Nat.lt_or_ge (n - a) bits.length with x | x
      · exact x
      · rw [List.getElem?_eq_none x] at hb; cases hb
    rw [if_pos hl, hb] at h5
    simp only [Option.some.injEq, Bool.false_eq_true, if_false] at h5
    split at h5
    · cases h5
    · rename_i hx
      refine ⟨?_, h5⟩
      rintro (x | x)
      · exact hx x
      · rw [h5] at x; cases x
  · rw [Inv.ackedIn_iff a4, Inv.ackedIn_iff h]
    have hl : ¬ n - a < bits.length := by
      have := List.getElem?_eq_none_iff.1 hb; omega
    rw [if_neg hl] at h5
    split at h5
    · rename_i hx
      exact ⟨fun _ => Or.inr h5.symm, fun _ => Or.inl hx⟩
    · rename_i hx
      rw [h5]
      constructor
      · rintro (x | x)
        · exact absurd x hx
        · exact Or.inr x
      · rintro (x | x)
        · omega
        · exact Or.inr x

/-- An empty bitmap changes nothing. -/
theorem ackNack_nil {sns w a s acked} (h : Inv sns w a s acked) : w.ackNack w.va [] = w := by
  have hf := cfg_facts h.cfg
  have hmv : w.moveWindow = (w, 0) := by
    unfold Win.moveWindow
    obtain ⟨k, hk⟩ : ∃ k, w.sns = k + 1 := ⟨w.sns - 1, by have := h.hsns; omega⟩
    rw [hk, moveLoop]
    split
    · rfl
    · rename_i hne
      have hlt : a < s := by
        rcases Nat.lt_or_ge a s with x | x
        · exact x
        · have := h.le
          have : a = s := by omega
          exact absurd (by rw [h.ha, h.hs, this]) hne
      rw [if_neg]
      have := h.head hlt
      unfold Win.st
      rw [h.ha]; exact this
  unfold Win.ackNack Win.update
  simp only [List.take_nil, updateLoop, hmv]
  unfold Win.raise Win.modSns
  have : (w.va + 0) % w.sns = w.va := by
    rw [Nat.add_zero, h.hsns, h.ha, Nat.mod_mod]
  rw [this]

theorem finalAck_bits {sns w a s acked} (h : Inv sns w a s acked) (cap : Nat) (hcap : s - a ≤ cap) :
    (finalAckBits { bits := [], cap := cap } w).bits = List.replicate (s - a) true := by
  unfold finalAckBits
  have hd : w.modSns (w.vs + w.sns - w.va) = s - a := h.distance
  rw [hd, (push_bits _ _ (by simp)).1]
  simp only [List.nil_append]
  rw [List.take_of_length_le (by simpa using hcap)]

end Verif.AckNack
