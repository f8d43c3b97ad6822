import Verif.Spec.CodingScheme
/-!
# C12 — Coding and puncturing scheme signalling is unambiguous
-/

namespace Verif.Cs

/-- Every legal combination has a CPS value, and it fits the header field. -/
theorem C12_cps_defined (s : Sig) (h : s.Legal) :
    ∃ v, cps s.c s.p s.p2 s.pad = some v ∧ v < 2 ^ cpsWidth s.c.hdr := by
  have all : ∀ s ∈ Sig.all, ((cps s.c s.p s.p2 s.pad).any
      fun v => decide (v < 2 ^ cpsWidth s.c.hdr)) = true := by decide +kernel
  obtain ⟨v, hv, h⟩ := (Option.any_eq_true ..).1 (all s (Sig.mem_all h))
  exact ⟨v, hv, of_decide_eq_true h⟩

/-- The CPS value together with the header type determines scheme, puncturing schemes and
padding: no two legal combinations share one. -/
theorem C12_cps_unambiguous (s t : Sig) (hs : s.Legal) (ht : t.Legal)
    (hh : s.c.hdr = t.c.hdr) (hv : cps s.c s.p s.p2 s.pad = cps t.c t.p t.p2 t.pad) : s = t := by
  have all : ∀ s ∈ Sig.all, ∀ t ∈ Sig.all, s.c.hdr = t.c.hdr →
      cps s.c s.p s.p2 s.pad = cps t.c t.p t.p2 t.pad → s = t := by decide +kernel
  exact all s (Sig.mem_all hs) t (Sig.mem_all ht) hh hv

/-- Decoding gives back what was encoded, for every scheme except MCS-9. For MCS-9 see
`C12_violated`. -/
theorem C12_decode_partial (s : Sig) (h : s.Legal) (h9 : s.c ≠ .mcs9) (v : Nat)
    (hv : cps s.c s.p s.p2 s.pad = some v) : s.decodedAs (cpsDecode v s.c) = true := by
  have all : ∀ s ∈ Sig.all, s.c ≠ .mcs9 → ∀ v < 32,
      cps s.c s.p s.p2 s.pad = some v → s.decodedAs (cpsDecode v s.c) = true := by
    decide +kernel
  obtain ⟨v', hv', hlt⟩ := C12_cps_defined s h
  have : v = v' := by rw [hv] at hv'; exact Option.some.inj hv'
  have : v < 32 := by
    have : 2 ^ cpsWidth s.c.hdr ≤ 32 := by cases s.c <;> decide
    omega
  exact all s (Sig.mem_all h) h9 v this hv

/-- For MCS-9 the first puncturing scheme and the padding flag are decoded correctly, the
second puncturing scheme exactly when the first one is PS 1. -/
theorem C12_decode_mcs9 (s : Sig) (h : s.Legal) (h9 : s.c = .mcs9) (v : Nat)
    (hv : cps s.c s.p s.p2 s.pad = some v) :
    (cpsDecode v s.c).punct = some s.p.code ∧ (cpsDecode v s.c).pad = s.pad ∧
    ((cpsDecode v s.c).punct2 = some s.p2.code ↔ s.p = .ps1) := by
  have all : ∀ s ∈ Sig.all, s.c = .mcs9 → ∀ v < 32,
      cps s.c s.p s.p2 s.pad = some v →
      (cpsDecode v s.c).punct = some s.p.code ∧ (cpsDecode v s.c).pad = s.pad ∧
      ((cpsDecode v s.c).punct2 = some s.p2.code ↔ s.p = .ps1) := by
    decide +kernel
  obtain ⟨v', hv', hlt⟩ := C12_cps_defined s h
  have : v = v' := by rw [hv] at hv'; exact Option.some.inj hv'
  have : v < 32 := by
    have : 2 ^ cpsWidth s.c.hdr ≤ 32 := by cases s.c <;> decide
    omega
  exact all s (Sig.mem_all h) h9 v this hv

/-- The full property fails: for MCS-9 with puncturing schemes PS 2 / PS 1 the decoder
reports PS 2 / PS 2. -/
theorem C12_violated : ¬ ∀ s : Sig, s.Legal → ∀ v, cps s.c s.p s.p2 s.pad = some v →
    s.decodedAs (cpsDecode v s.c) = true := by
  intro h
  have := h ⟨.mcs9, .ps2, .ps1, false⟩ ⟨by decide, by decide, by decide⟩ 4 (by decide)
  exact absurd this (by decide)

/-- Padding is only ever reported for the two schemes that have it, whatever the received
CPS value. -/
theorem C12_padding_only_where_defined (v : Nat) (c : CS) (h : (cpsDecode v c).pad = true) :
    c = .mcs3 ∨ c = .mcs6 := by
  cases c <;> simp [cpsDecode] at h <;> simp

/-! Non-vacuity. -/
example : Sig.Legal ⟨.mcs7, .ps3, .ps2, false⟩ := ⟨by decide, by decide, by decide⟩
example : cps .mcs7 .ps3 .ps2 false = some 27 := rfl
example : Sig.Legal ⟨.mcs3, .ps3, .ps1, true⟩ := ⟨by decide, by decide, by decide⟩
example : Sig.decodedAs ⟨.mcs3, .ps3, .ps1, true⟩ (cpsDecode 8 .mcs3) = true := by decide

end Verif.Cs
