import Verif.Model.WindowSize
import Verif.Spec.WindowSize
/-!
# C38: EGPRS window size

For all configurations and all non-empty sets of time slots.
-/

namespace Verif.Ws

theorem pop_count : ∀ m, m < 256 → Verif.Alloc.pop m = slotCount m := by
  intro m hm
  have h : ∀ m, m < 256 → Verif.Alloc.pop m = (m % 2 + (m / 2 % 2 + (m / 4 % 2 + (m / 8 % 2 + (m / 16 % 2 + (m / 32 % 2 + (m / 64 % 2 + m / 128 % 2))))))) := by
    decide +kernel
  have s0 : ∀ n, slotCount n = n % 2 + slotCount (n / 2) := by
    intro n
    cases n with
    | zero => simp [slotCount]
    | succ n => rw [slotCount]
  rw [h m hm]
  rw [s0 m, s0 (m / 2), s0 (m / 2 / 2), s0 (m / 2 / 2 / 2), s0 (m / 2 / 2 / 2 / 2), s0 (m / 2 / 2 / 2 / 2 / 2), s0 (m / 2 / 2 / 2 / 2 / 2 / 2),
    s0 (m / 2 / 2 / 2 / 2 / 2 / 2 / 2)]
  simp only [Nat.div_div_eq_div_mul, Nat.reduceMul]
  have : m / 256 = 0 := by omega
  rw [this]
  simp [slotCount]

theorem pop_range : ∀ m, m < 256 → m ≠ 0 → 1 ≤ Verif.Alloc.pop m ∧ Verif.Alloc.pop m ≤ 8 := by decide +kernel

theorem read_put : ∀ k, k ≤ 30 → read (Bits.put 5 k) = some (64 + 32 * k) := by decide +kernel

/-- **C38.** The window size is legal, within the limit for the number of time slots, and accepted by the window. -/
theorem C38_legal (c : Cfg) {slots : Nat} (h : slots < 256) (h0 : slots ≠ 0) :
    Legal (windowSize c slots) ∧ windowSize c slots ≤ limit (slotCount slots) ∧
      setWs (windowSize c slots) = some (windowSize c slots) := by
  obtain ⟨p1, p2⟩ := pop_range slots h h0
  rw [← pop_count slots h]
  unfold windowSize
  dsimp only
  generalize hn : Verif.Alloc.pop slots = n at p1 p2
  generalize hx : c.base + n * c.pdch = x
  clear hx hn
  have key : ∃ y, max 64 (x / 32 * 32) = 64 + 32 * y := by
    by_cases hx : x / 32 ≤ 2
    · exact ⟨0, by omega⟩
    · exact ⟨x / 32 - 2, by omega⟩
  obtain ⟨y, hy⟩ := key
  rw [hy]
  have hl : limit n = if n ≠ 1 then 128 * n else 192 := by
    have : ∀ n, n < 9 → 1 ≤ n → limit n = if n ≠ 1 then 128 * n else 192 := by decide
    exact this n (by omega) p1
  rw [hl]
  have hlegal : ∃ k, k ≤ 30 ∧ min (if n ≠ 1 then 128 * n else 192) (64 + 32 * y) = 64 + 32 * k := by
    by_cases h1 : n = 1
    · rw [if_neg (by simp [h1])]
      refine ⟨min 4 y, by omega, by omega⟩
    · rw [if_pos h1]
      refine ⟨min (4 * n - 2) y, by omega, by omega⟩
  obtain ⟨k, hk, e⟩ := hlegal
  refine ⟨⟨k, hk, e⟩, by omega, ?_⟩
  rw [e]
  unfold setWs
  rw [if_neg (by omega), if_neg (by omega)]

/-- **C38**, Immediate Assignment and Packet Downlink Assignment: the mobile reads the window size that is used. -/
theorem C38_read (c : Cfg) {slots : Nat} (h : slots < 256) (h0 : slots ≠ 0) :
    read (fieldEncWs (windowSize c slots)) = some (windowSize c slots) := by
  obtain ⟨⟨k, hk, e⟩, -, -⟩ := C38_legal c h h0
  rw [e]
  unfold fieldEncWs
  rw [show (64 + 32 * k - 64) / 32 = k by omega]
  exact read_put k hk

/-- The window size is the configured value, rounded down, as far as the limits allow. -/
theorem C38_configured (c : Cfg) {slots : Nat} (h : slots < 256) (h0 : slots ≠ 0)
    (hx : 64 ≤ c.base + slotCount slots * c.pdch) (hl : c.base + slotCount slots * c.pdch ≤ limit (slotCount slots)) :
    windowSize c slots ≤ c.base + slotCount slots * c.pdch ∧ c.base + slotCount slots * c.pdch < windowSize c slots + 32 := by
  obtain ⟨p1, p2⟩ := pop_range slots h h0
  rw [← pop_count slots h] at *
  unfold windowSize
  dsimp only
  generalize Verif.Alloc.pop slots = n at *
  have : limit n = if n ≠ 1 then 128 * n else 192 := by
    have : ∀ n, n < 9 → 1 ≤ n → limit n = if n ≠ 1 then 128 * n else 192 := by decide
    exact this n (by omega) p1
  rw [this] at hl
  generalize c.base + n * c.pdch = x at *
  split at hl
  · rename_i h1; rw [if_pos h1]; omega
  · rename_i h1; rw [if_neg h1]; omega

/-- **C38**, false for Packet Uplink Assignment: the window size itself is written into the field; whatever it is, the
mobile reads 64. -/
theorem C38_uplink_assignment (c : Cfg) {slots : Nat} (h : slots < 256) (h0 : slots ≠ 0) :
    read (fieldPua (windowSize c slots)) = some 64 := by
  obtain ⟨⟨k, hk, e⟩, -, -⟩ := C38_legal c h h0
  rw [e]
  have key : ∀ k, k ≤ 30 → read (fieldPua (64 + 32 * k)) = some 64 := by decide +kernel
  exact key k hk

/-- The default configuration (gprs_pcu.c: 64, 0) gives 64; with `window-size 64 64` and four slots the window has 320
blocks, but an uplink assignment says 64. -/
example : windowSize ⟨64, 0⟩ 0b11110 = 64 ∧ windowSize ⟨64, 64⟩ 0b11110 = 320 ∧ windowSize ⟨1024, 256⟩ 0b10 = 192 ∧
    windowSize ⟨1024, 256⟩ 0xff = 1024 ∧ windowSize ⟨0, 0⟩ 0xff = 64 ∧ read (fieldPua 320) = some 64 := by decide +kernel

/-- Without a time slot the window size would not be accepted; the code does not ask for it then. -/
example : setWs (windowSize ⟨1024, 256⟩ 0) = none := by decide +kernel

end Verif.Ws
