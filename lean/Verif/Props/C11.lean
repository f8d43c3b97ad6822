import Verif.Lemmas.DataHeader
import Verif.Props.C10
/-!
# C11: headers of RLC data blocks

The writer of downlink headers and the parser of uplink headers against the header figures
of TS 44.060 (`Verif.Spec.DataHeader`).
-/

namespace Verif.Blk

open Verif.Cs

/-- **Downlink.** For every coding scheme with its layout and all header values within their
widths, the writer touches only octets of the radio block; afterwards the mobile reads
exactly the given values (`DlSays`, positions from TS 44.060); and no payload or padding bit
of the block has changed. -/
theorem C11_dl_header (c : CS) (hc : c ≠ .unknown) (pad : Bool) (r : DataInfo)
    (hr : IsDl c pad r) (hv : DlRange r) (m : List Nat) (hm : Octets m) (hl : m.length = c.sizeDl) :
    ∃ m', writeDl r m = some m' ∧ Octets m' ∧ m'.length = m.length ∧ DlSays r m' ∧
      ∀ k, payloadBit r k → bit m' k = bit m k := by
  have hx : ∀ c : CS, c ≠ .unknown → c.hdr ≠ .invalid ∧ c.hdr ≠ .control := by decide +kernel
  cases hh : c.hdr with
  | invalid => exact absurd hh (hx c hc).1
  | control => exact absurd hh (hx c hc).2
  | gprs => exact dl_gprs c hc pad r hr hv m hm hl hh
  | type1 => exact dl_type1 c hc pad r hr hv m hm hl hh
  | type2 => exact dl_type2 c hc pad r hr hv m hm hl hh
  | type3 => exact dl_type3 c hc pad r hr hv m hm hl hh

/-- The header values are also the only ones a receiver can read: two different value sets
never produce the same radio block. -/
theorem C11_dl_unambiguous (r r' : DataInfo) (hcs : r.cs = r'.cs) (m : List Nat)
    (h : DlSays r m) (h' : DlSays r' m) :
    r.usf = r'.usf ∧ r.rrbp = r'.rrbp ∧ r.tfi = r'.tfi ∧ r.pr = r'.pr ∧
    (r.blk 0).bsn = (r'.blk 0).bsn ∧
    (r.cs.hdr = .type1 → (r.blk 1).bsn = (r'.blk 1).bsn) ∧
    (r.cs.hdr ≠ .gprs → r.cps = r'.cps ∧ r.esP = r'.esP) ∧
    (r.cs.hdr = .type3 → (r.blk 0).spb = (r'.blk 0).spb) := by
  unfold DlSays at h h'
  rw [← hcs] at h'
  cases hh : r.cs.hdr <;> simp only [hh] at h h' <;> (try exact h.elim)
  · obtain ⟨a1, a2, a3, a4, a5, a6, a7, a8, a9⟩ := h
    obtain ⟨b1, b2, b3, b4, b5, b6, b7, b8, b9⟩ := h'
    exact ⟨a1 ▸ b1, a3 ▸ b3, a6 ▸ b6, a7 ▸ b7, a9 ▸ b9, by simp, by simp, by simp⟩
  · obtain ⟨a1, a2, a3, a4, a5, a6, a7, a8, a9⟩ := h
    obtain ⟨b1, b2, b3, b4, b5, b6, b7, b8, b9⟩ := h'
    exact ⟨a1 ▸ b1, a3 ▸ b3, a4 ▸ b4, a5 ▸ b5, a6 ▸ b6, fun _ => a7 ▸ b7, fun _ => ⟨a8 ▸ b8, a2 ▸ b2⟩, by simp⟩
  · obtain ⟨a1, a2, a3, a4, a5, a6, a7, a8, a9⟩ := h
    obtain ⟨b1, b2, b3, b4, b5, b6, b7, b8, b9⟩ := h'
    exact ⟨a1 ▸ b1, a3 ▸ b3, a4 ▸ b4, a5 ▸ b5, a6 ▸ b6, by simp, fun _ => ⟨a7 ▸ b7, a2 ▸ b2⟩, by simp⟩
  · obtain ⟨a1, a2, a3, a4, a5, a6, a7, a8, a9⟩ := h
    obtain ⟨b1, b2, b3, b4, b5, b6, b7, b8, b9⟩ := h'
    exact ⟨a1 ▸ b1, a3 ▸ b3, a4 ▸ b4, a5 ▸ b5, a6 ▸ b6, by simp, fun _ => ⟨a7 ▸ b7, a2 ▸ b2⟩, fun _ => a8 ▸ b8⟩

theorem rd_field {m : List Nat} {j d : Nat} (h : rd m j = some d) (s : Nat) (hs : s < 8) :
    d / 2 ^ s % 2 = field m (8 * j + s) 1 := by
  have hj : j < m.length := by
    unfold rd at h; exact (List.getElem?_eq_some_iff.1 h).1
  have := getF_spec j s 1 m hj (by omega)
  unfold getF at this
  rw [h, Option.map_some] at this
  simpa using Option.some.inj this

theorem parseCommon_spec (m : List Nat) (hl : 3 ≤ m.length) :
    parseCommon m = some { r := field m 0 1, si := field m 1 1, cv := field m 2 4,
                           tfi := field m 6 5, bsn1 := field m 11 11 } := by
  unfold parseCommon
  rw [getF_spec 0 0 1 m (by omega) (by omega), getF_spec 0 1 1 m (by omega) (by omega),
    getF_spec 0 2 4 m (by omega) (by omega), getF_spec 0 6 2 m (by omega) (by omega),
    getF_spec 1 0 3 m (by omega) (by omega), getF_spec 1 3 5 m (by omega) (by omega),
    getF_spec 2 0 6 m (by omega) (by omega)]
  simp only [Option.bind_some]
  rw [field_join m 6 2 3, field_join m 11 5 6]

theorem ul_sizes (c : CS) (hc : c ≠ .unknown) :
    23 ≤ c.sizeUl ∧ c.hdr ≠ .invalid ∧ c.hdr ≠ .control := by
  revert c; decide +kernel

theorem ul_layout_len (c : CS) (pad : Bool) (i : Nat) :
    ((initUl c pad).blk i).dataLen = UlLayout.dataLenOf c pad := rfl

/-- **Uplink.** Every received radio block of the size of a coding scheme is parsed without
touching an octet outside of it. The result has exactly the values at the positions of
TS 44.060, for both data blocks of a type 1 header, and the layout of the scheme (padding
as signalled). -/
theorem C11_ul_header (c : CS) (hc : c ≠ .unknown) (m : List Nat) (hm : Octets m)
    (hl : m.length = c.sizeUl) :
    ∃ r n, parseUl c m = some (r, n) ∧ UlSays c m r ∧ UlLayout c r := by
  obtain ⟨hS, hi, hx⟩ := ul_sizes c hc
  have hlay := layout_ul c hc
  have hpc := parseCommon_spec m (by omega)
  unfold parseUl UlSays UlLayout
  cases hh : c.hdr with
  | invalid => exact absurd hh hi
  | control => exact absurd hh hx
  | gprs =>
    dsimp only
    rw [getF_spec 0 0 1 m (by omega) (by omega), getF_spec 0 1 1 m (by omega) (by omega),
      getF_spec 1 1 5 m (by omega) (by omega), getF_spec 0 2 4 m (by omega) (by omega),
      getF_spec 1 6 1 m (by omega) (by omega), getF_spec 2 1 7 m (by omega) (by omega),
      getF_spec 2 0 1 m (by omega) (by omega), getF_spec 1 0 1 m (by omega) (by omega)]
    simp only [Option.bind_some]
    refine ⟨_, _, rfl, ⟨rfl, rfl, rfl, rfl, rfl, rfl, rfl, rfl, rfl, rfl⟩, rfl, false, rfl, ?_, by simp⟩
    intro i
    dsimp only
    split <;> rfl
  | type3 =>
    dsimp only
    rw [getF_spec 2 6 2 m (by omega) (by omega), getF_spec 3 0 2 m (by omega) (by omega)]
    simp only [Option.bind_some]
    rw [field_join m 22 2 2, hpc, getF_spec 3 4 1 m (by omega) (by omega),
      getF_spec 3 5 1 m (by omega) (by omega), getF_spec 3 2 2 m (by omega) (by omega)]
    simp only [Option.bind_some]
    generalize hpad : (cpsDecode (field m (8 * 2 + 6) (2 + 2)) c).pad = pad
    have h1 : (initUl c pad).offs 0 % 8 = 1 ∧ 9 ≤ (initUl c pad).offs 0 := by
      cases c <;> first | (exact absurd hh (by decide)) | (cases pad <;> decide)
    have h2 := (hlay pad 0 (by show 0 < c.hdr.numBlocks; rw [hh]; decide)).2.1
    rw [if_neg (by omega)]
    obtain ⟨d0, e0⟩ : ∃ d, rd m ((initUl c pad).offs 0 / 8 - 1) = some d := ⟨_, rd_some (by omega)⟩
    obtain ⟨d1, e1⟩ : ∃ d, rd m ((initUl c pad).offs 0 / 8) = some d := ⟨_, rd_some (by omega)⟩
    have b0 : d0 < 256 := hm _ (List.mem_of_getElem? e0)
    have f0 := rd_field e0 7 (by decide)
    have f1 := rd_field e1 0 (by decide)
    rw [e0, e1]
    simp only [Option.bind_some]
    refine ⟨_, _, rfl, ⟨rfl, rfl, rfl, rfl, rfl, rfl, rfl, rfl, rfl, rfl, ?_, ?_⟩, rfl, pad, rfl, ?_, ?_⟩
    · show (d0 + d1 <<< 8) >>> 7 % 2 = field m ((initUl c pad).offs 0 - 2) 1
      rw [show (initUl c pad).offs 0 - 2 = 8 * ((initUl c pad).offs 0 / 8 - 1) + 7 by omega, ← f0,
        Nat.shiftRight_eq_div_pow, Nat.shiftLeft_eq]
      omega
    · show (d0 + d1 <<< 8) >>> 7 / 2 % 2 = field m ((initUl c pad).offs 0 - 1) 1
      rw [show (initUl c pad).offs 0 - 1 = 8 * ((initUl c pad).offs 0 / 8) + 0 by omega, ← f1,
        Nat.shiftRight_eq_div_pow, Nat.shiftLeft_eq]
      omega
    · intro i
      dsimp only [fillCommon]
      split <;> (try split) <;> rfl
    · intro h; rw [h] at hpad; exact hpad
  | type2 =>
    dsimp only
    rw [getF_spec 2 6 2 m (by omega) (by omega), getF_spec 3 0 1 m (by omega) (by omega)]
    simp only [Option.bind_some]
    rw [field_join m 22 2 1, hpc, getF_spec 3 1 1 m (by omega) (by omega),
      getF_spec 3 2 1 m (by omega) (by omega)]
    simp only [Option.bind_some]
    generalize hpad : (cpsDecode (field m (8 * 2 + 6) (2 + 1)) c).pad = pad
    have h1 : (initUl c pad).offs 0 % 8 = 7 := by
      cases c <;> first | (exact absurd hh (by decide)) | (cases pad <;> decide)
    have h2 := (hlay pad 0 (by show 0 < c.hdr.numBlocks; rw [hh]; decide)).2.1
    rw [if_neg (by omega)]
    obtain ⟨d, e0⟩ : ∃ d, rd m ((initUl c pad).offs 0 / 8) = some d := ⟨_, rd_some (by omega)⟩
    have b0 : d < 256 := hm _ (List.mem_of_getElem? e0)
    have f0 := rd_field e0 5 (by decide)
    have f1 := rd_field e0 6 (by decide)
    have hm5 : ∀ d < 256, (d &&& 0x60) >>> 5 % 2 = d / 2 ^ 5 % 2 := by decide +kernel
    have hm6 : ∀ d < 256, (d &&& 0x60) >>> 5 / 2 % 2 = d / 2 ^ 6 % 2 := by decide +kernel
    rw [e0]
    simp only [Option.bind_some]
    refine ⟨_, _, rfl, ⟨rfl, rfl, rfl, rfl, rfl, rfl, rfl, rfl, rfl, ?_, ?_⟩, rfl, pad, rfl, ?_, ?_⟩
    · show (d &&& 0x60) >>> 5 % 2 = field m ((initUl c pad).offs 0 - 2) 1
      rw [show (initUl c pad).offs 0 - 2 = 8 * ((initUl c pad).offs 0 / 8) + 5 by omega, ← f0, hm5 d b0]
    · show (d &&& 0x60) >>> 5 / 2 % 2 = field m ((initUl c pad).offs 0 - 1) 1
      rw [show (initUl c pad).offs 0 - 1 = 8 * ((initUl c pad).offs 0 / 8) + 6 by omega, ← f1, hm6 d b0]
    · intro i
      dsimp only [fillCommon]
      split <;> (try split) <;> rfl
    · intro h; rw [h] at hpad; exact hpad
  | type1 =>
    dsimp only
    rw [getF_spec 4 0 5 m (by omega) (by omega)]
    simp only [Option.bind_some]
    rw [hpc, getF_spec 4 5 1 m (by omega) (by omega), getF_spec 4 6 1 m (by omega) (by omega),
      getF_spec 2 6 2 m (by omega) (by omega), getF_spec 3 0 8 m (by omega) (by omega)]
    simp only [Option.bind_some]
    rw [field_join m 22 2 8]
    generalize hpad : (cpsDecode (field m (8 * 4 + 0) 5) c).pad = pad
    have h1 : (initUl c pad).offs 0 % 8 = 0 ∧ 8 ≤ (initUl c pad).offs 0 ∧ (initUl c pad).offs 1 % 8 = 2 := by
      cases c <;> first | (exact absurd hh (by decide)) | (cases pad <;> decide)
    have h2 := (hlay pad 0 (by show 0 < c.hdr.numBlocks; rw [hh]; decide)).2.1
    have h3 := (hlay pad 1 (by show 1 < c.hdr.numBlocks; rw [hh]; decide)).2.1
    rw [if_neg (by omega)]
    obtain ⟨d0, e0⟩ : ∃ d, rd m ((initUl c pad).offs 0 / 8 - 1) = some d := ⟨_, rd_some (by omega)⟩
    obtain ⟨d1, e1⟩ : ∃ d, rd m ((initUl c pad).offs 1 / 8) = some d := ⟨_, rd_some (by omega)⟩
    have f0 := rd_field e0 6 (by decide)
    have f0' := rd_field e0 7 (by decide)
    have f1 := rd_field e1 0 (by decide)
    have f1' := rd_field e1 1 (by decide)
    have b0 : d0 < 256 := hm _ (List.mem_of_getElem? e0)
    rw [e0]
    simp only [Option.bind_some]
    rw [if_neg (show ¬ ((initUl c pad).offs 1 % 8 ≠ 2) by omega), e1]
    simp only [Option.bind_some]
    refine ⟨_, _, rfl, ⟨rfl, rfl, rfl, rfl, rfl, rfl, rfl, rfl, rfl, rfl, rfl, ?_, ?_, ?_, ?_, ?_, ?_⟩,
      rfl, pad, rfl, ?_, ?_⟩
    · dsimp only [fillCommon]
      simp only [if_true, Nat.one_ne_zero, if_false]
      split
      · rename_i h; exact .inr ⟨h.2, rfl, fun h' => h.1 h'.symm⟩
      · exact .inl rfl
    · dsimp only [fillCommon]
      simp only [if_true, Nat.one_ne_zero, if_false]
      split
      · intro h; exact absurd h (by decide)
      · rename_i h
        intro h0
        exact Decidable.byContradiction fun hne => h ⟨fun h' => hne h'.symm, h0⟩
    · show d0 >>> 6 % 2 = field m ((initUl c pad).offs 0 - 2) 1
      rw [show (initUl c pad).offs 0 - 2 = 8 * ((initUl c pad).offs 0 / 8 - 1) + 6 by omega, ← f0,
        Nat.shiftRight_eq_div_pow]
    · show d0 >>> 6 / 2 % 2 = field m ((initUl c pad).offs 0 - 1) 1
      rw [show (initUl c pad).offs 0 - 1 = 8 * ((initUl c pad).offs 0 / 8 - 1) + 7 by omega, ← f0',
        Nat.shiftRight_eq_div_pow]
      omega
    · show d1 % 2 = field m ((initUl c pad).offs 1 - 2) 1
      rw [show (initUl c pad).offs 1 - 2 = 8 * ((initUl c pad).offs 1 / 8) + 0 by omega, ← f1]
      omega
    · show d1 / 2 % 2 = field m ((initUl c pad).offs 1 - 1) 1
      rw [show (initUl c pad).offs 1 - 1 = 8 * ((initUl c pad).offs 1 / 8) + 1 by omega, ← f1']
    · intro i
      dsimp only [fillCommon]
      split <;> (try split) <;> rfl
    · intro h; rw [h] at hpad; exact hpad

/-! ### Concrete cases -/

/-- A description of an MCS-9 block with two data blocks across the wrap of the block
numbers. -/
def exInfo : DataInfo :=
  { initDl .mcs9 false 0 with
    usf := 5
    esP := 2
    rrbp := 3
    tfi := 21
    pr := 1
    cps := 13
    blk := fun i => { blockInit .mcs9 false 0 with
      bsn := if i = 0 then 2047 else 0
      cv := if i = 0 then 15 else 0
      e := 1 - i } }

example : IsDl .mcs9 false exInfo :=
  ⟨rfl, by decide, rfl, rfl, rfl, fun _ => rfl⟩

example : DlRange exInfo :=
  ⟨by decide, by decide, by decide, by decide, by decide, by decide, by decide, fun _ => by decide,
    by decide, by decide, fun i => by show 1 - i < 2; omega⟩

example : ((writeDl exInfo (List.replicate 154 0)).map fun m =>
    (field m 0 3, field m 14 11, (field m 14 11 + field m 25 10) % 2048, field m 35 5, bit m 40, bit m 41)) =
    some (5, 2047, 0, 13, true, false) := by decide +kernel

example : ((parseUl .mcs7 ([0xC3, 0x41, 0x7F, 0xFE, 0x45] ++ List.replicate 114 0)).map fun p =>
    (p.1.tfi, (p.1.blk 0).bsn, p.1.num)) = some (7, 2024, 2) := by decide +kernel

end Verif.Blk
