import Verif.Props.C50
/-!
# C47: TBF starting time
-/

namespace Verif.Ia

/-- **C47.** The starting time that the mobile reads from the assignment of a single block (8-bit or EGPRS
request) is that of exactly one of the next 42432 frames: the frame that the PCU has reserved, `d` frames
after `base`. Frame numbers are modulo 2715648. -/
theorem C47_start {p : Pdch} {ra refRfn ta usf alpha gamma n base d : Nat} {b : Burst} {m : List Bool}
    (hp : PdchOk p) (hq : ParOk alpha gamma none) (hra : ra < 2048) (h8 : b.egprs = false → ra < 256) (hr : refRfn < 42432)
    (hta : ta < 64) (hd : d < 42432)
    (h : uplink p none ra refRfn ta usf ((base + d) % 2715648 % 42432) alpha gamma none b = .msg n m) :
    ∃ x start, understood m = some x ∧
      (x.rest = .ulBlock (alphaOf alpha) gamma start ∨ x.rest = .egprsUlBlocks (ra % 32) (alphaOf alpha) gamma start 1 none) ∧
      ∀ d', d' < 42432 → ((base + d') % 2715648 % 42432 = start ↔ d' = d) := by
  have key : ∀ d', d' < 42432 → ((base + d') % 2715648 % 42432 = (base + d) % 2715648 % 42432 ↔ d' = d) := by
    intro d' hd'
    have e1 : (base + d) % 2715648 % 42432 = (base + d) % 42432 := Nat.mod_mod_of_dvd _ ⟨64, by decide⟩
    have e2 : (base + d') % 2715648 % 42432 = (base + d') % 42432 := Nat.mod_mod_of_dvd _ ⟨64, by decide⟩
    rw [e1, e2]
    omega
  have hlt : (base + d) % 2715648 % 42432 < 42432 := Nat.mod_lt _ (by decide)
  cases hb : b.egprs
  · obtain ⟨-, -, e⟩ := C50_ul_block hp hq (h8 hb) hr hta hlt hb h
    exact ⟨_, _, e, .inl rfl, key⟩
  · obtain ⟨-, -, e⟩ := C50_egprs_ul_block hp hq hr hta hlt hb h
    exact ⟨_, _, e, .inr rfl, key⟩

/-- Every remainder is announced differently: no two frames of a period have the same three fields. -/
theorem C47_unique {a b : Nat} (ha : a < 42432) (hb : b < 42432) (h : startTime a = startTime b) : a = b := by
  have e := reads_frame ha 0 []
  rw [h, reads_frame hb 0 []] at e
  cases e
  rfl

/-- An assignment across the end of the frame numbers. -/
example : (understood (bitsOf (uplink pdch₁ none 0x73 4711 17 7 ((2715640 + 41) % 2715648 % 42432) 0 12 none .access0))).map (·.rest) =
    some (.ulBlock none 12 33) := by decide +kernel

end Verif.Ia
