import Verif.Lemmas.DataBlock
import Verif.Spec.CodingScheme
/-!
# C10 — Bit-shifted EGPRS payload copy is lossless and bounded
-/

namespace Verif.Blk

open Verif.Cs

theorem layout_dl (c : CS) (hc : c ≠ .unknown) (pad : Bool) (spb i : Nat)
    (hi : i < (initDl c pad spb).num) :
    (initDl c pad spb).offs i + 8 * ((initDl c pad spb).blk i).dataLen ≤ 8 * c.sizeDl := by
  have all : ∀ c : CS, c ≠ .unknown → ∀ pad ∈ [false, true], ∀ i < (initDl c pad 0).num,
    (initDl c pad 0).offs i + 8 * ((initDl c pad 0).blk i).dataLen ≤ 8 * c.sizeDl := by decide +kernel
  exact all c hc pad (by cases pad <;> simp) i hi

theorem layout_ul (c : CS) (hc : c ≠ .unknown) (pad : Bool) (i : Nat)
    (hi : i < (initUl c pad).num) :
    (initUl c pad).offs i + 8 * ((initUl c pad).blk i).dataLen ≤ 8 * c.sizeUl ∧
    (initUl c pad).offs i < 8 * c.sizeUl ∧ ((initUl c pad).blk i).dataLen ≤ 74 := by
  have all : ∀ c : CS, c ≠ .unknown → ∀ pad ∈ [false, true], ∀ i < (initUl c pad).num,
    (initUl c pad).offs i + 8 * ((initUl c pad).blk i).dataLen ≤ 8 * c.sizeUl ∧
    (initUl c pad).offs i < 8 * c.sizeUl ∧ ((initUl c pad).blk i).dataLen ≤ 74 := by decide +kernel
  exact all c hc pad (by cases pad <;> simp) i hi

/-- **Writing.** Whatever the scheme, data-block number, payload and previous contents of
the radio block: the copy stays inside the radio block and the payload buffer, the payload
bits end up at the data block's bit offset, and every other bit keeps its value. -/
theorem C10_copy_in (c : CS) (hc : c ≠ .unknown) (pad : Bool) (spb idx : Nat)
    (hidx : idx < (initDl c pad spb).num) (radio buf : List Nat)
    (hr : Octets radio) (hb : Octets buf) (hlen : radio.length = c.sizeDl)
    (hbuf : ((initDl c pad spb).blk idx).dataLen ≤ buf.length) :
    ∃ radio', copyFrom ((initDl c pad spb).offs idx) ((initDl c pad spb).blk idx).dataLen radio buf
        = some radio' ∧ Octets radio' ∧ radio'.length = radio.length ∧
      ∀ k, bit radio' k =
        if (initDl c pad spb).offs idx ≤ k ∧
           k < (initDl c pad spb).offs idx + 8 * ((initDl c pad spb).blk idx).dataLen
        then bit buf (k - (initDl c pad spb).offs idx) else bit radio k :=
  copyFrom_spec _ _ radio buf hr hb hbuf (by rw [hlen]; exact layout_dl c hc pad spb idx hidx)

/-- **Reading.** Likewise the copy out of a received radio block: inside both buffers, the
destination receives exactly the payload bits, its other octets keep their value. `start`
is where the data goes in the 74-octet block store (not 0 for the second half of a split
block, see C44). -/
theorem C10_copy_out (c : CS) (hc : c ≠ .unknown) (pad : Bool) (idx start : Nat)
    (hidx : idx < (initUl c pad).num) (radio buf : List Nat)
    (hr : Octets radio) (hb : Octets buf) (hlen : radio.length = c.sizeUl)
    (hbuf : start + ((initUl c pad).blk idx).dataLen ≤ buf.length) :
    ∃ buf', copyTo ((initUl c pad).offs idx) ((initUl c pad).blk idx).dataLen radio buf start
        = some buf' ∧ Octets buf' ∧ buf'.length = buf.length ∧
      ∀ k, bit buf' k =
        if 8 * start ≤ k ∧ k < 8 * (start + ((initUl c pad).blk idx).dataLen)
        then bit radio ((initUl c pad).offs idx + (k - 8 * start)) else bit buf k :=
  have h := layout_ul c hc pad idx hidx
  copyTo_spec _ _ radio buf start hr hb hbuf (by rw [hlen]; exact h.2.1) (by rw [hlen]; exact h.1)

/-- A block store of 74 octets (`RLC_MAX_LEN`) is large enough for every data block. -/
theorem C10_store_large_enough (c : CS) (hc : c ≠ .unknown) (pad : Bool) (idx : Nat)
    (hidx : idx < (initUl c pad).num) : 0 + ((initUl c pad).blk idx).dataLen ≤ 74 := by
  have := (layout_ul c hc pad idx hidx).2.2; omega

theorem octets_eq_of_bits {a b : List Nat} (ha : Octets a) (hb : Octets b) (hl : a.length = b.length)
    (h : ∀ k < 8 * a.length, bit a k = bit b k) : a = b := by
  apply List.ext_getElem? 
  intro i
  by_cases hi : i < a.length
  · have e : a.getD i 0 = b.getD i 0 := by
      apply octet_ext (getD_octet ha i) (getD_octet hb i)
      intro t ht
      rw [← bit_oct a i t ht, ← bit_oct b i t ht]
      exact h _ (by omega)
    rw [← rd, ← rd, rd_some hi, rd_some (by omega), e]
  · rw [List.getElem?_eq_none (by omega), List.getElem?_eq_none (by omega)]

theorem bit_take (m : List Nat) (n k : Nat) (h : k < 8 * n) : bit (m.take n) k = bit m k := by
  unfold bit
  rw [List.getD_eq_getElem?_getD, List.getD_eq_getElem?_getD, List.getElem?_take_of_lt (by omega)]

/-- **Round trip.** Copying a payload into a radio block at any bit offset that fits and
copying it out again gives back the payload, octet for octet, whatever was in the radio
block and in the destination before. -/
theorem C10_roundtrip (offs len : Nat) (radio buf store : List Nat) (hr : Octets radio)
    (hb : Octets buf) (hs : Octets store) (hbl : len ≤ buf.length) (hsl : len ≤ store.length)
    (hpos : offs < 8 * radio.length) (hfit : offs + 8 * len ≤ 8 * radio.length) :
    ∃ radio' store', copyFrom offs len radio buf = some radio' ∧
      copyTo offs len radio' store 0 = some store' ∧ store'.take len = buf.take len ∧
      store'.drop len = store.drop len := by
  obtain ⟨m, h1, h2, h3, h4⟩ := copyFrom_spec offs len radio buf hr hb hbl hfit
  obtain ⟨s, g1, g2, g3, g4⟩ := copyTo_spec offs len m store 0 h2 hs (by omega) (by omega) (by omega)
  refine ⟨m, s, h1, g1, ?_, ?_⟩
  · apply octets_eq_of_bits (fun b hb' => g2 b (List.mem_of_mem_take hb'))
      (fun b hb' => hb b (List.mem_of_mem_take hb'))
    · rw [List.length_take, List.length_take]; omega
    · intro k hk
      have hk' : k < 8 * len := by rw [List.length_take] at hk; omega
      rw [bit_take _ _ _ hk', bit_take _ _ _ hk', g4 k, if_pos (by omega), h4, if_pos (by omega)]
      congr 1; omega
  · apply octets_eq_of_bits (fun b hb' => g2 b (List.mem_of_mem_drop hb'))
      (fun b hb' => hs b (List.mem_of_mem_drop hb'))
    · rw [List.length_drop, List.length_drop, g3]
    · intro k _
      have key : ∀ m : List Nat, bit (m.drop len) k = bit m (8 * len + k) := by
        intro m
        unfold bit
        rw [List.getD_eq_getElem?_getD, List.getD_eq_getElem?_getD, List.getElem?_drop,
          show (8 * len + k) / 8 = len + k / 8 by omega, show (8 * len + k) % 8 = k % 8 by omega]
      rw [key, key, g4, if_neg (by omega)]

/-- The two payloads of an MCS-7..9 block do not disturb each other: after both have been
copied in, both can be read back. -/
theorem C10_two_blocks (c : CS) (hc : c.hdr = .type1) (radio b0 b1 : List Nat)
    (hr : Octets radio) (h0 : Octets b0) (h1 : Octets b1) (hlen : radio.length = c.sizeDl)
    (hl0 : b0.length = c.dataBytes) (hl1 : b1.length = c.dataBytes) :
    ∃ r1 r2, copyFrom ((initDl c false 0).offs 0) c.dataBytes radio b0 = some r1 ∧
      copyFrom ((initDl c false 0).offs 1) c.dataBytes r1 b1 = some r2 ∧
      (∀ k < 8 * c.dataBytes, bit r2 ((initDl c false 0).offs 0 + k) = bit b0 k) ∧
      (∀ k < 8 * c.dataBytes, bit r2 ((initDl c false 0).offs 1 + k) = bit b1 k) := by
  have hu : c ≠ .unknown := by rintro rfl; exact absurd hc (by decide)
  have hn : (initDl c false 0).num = 2 := by
    show c.hdr.numBlocks = 2; rw [hc]; rfl
  have hd : ∀ i, ((initDl c false 0).blk i).dataLen = c.dataBytes := fun i => by
    show c.dataBytes - 0 = _; omega
  obtain ⟨r1, a1, a2, a3, a4⟩ := C10_copy_in c hu false 0 0 (by omega) radio b0 hr h0 hlen (by rw [hd]; omega)
  obtain ⟨r2, e1, e2, e3, e4⟩ := C10_copy_in c hu false 0 1 (by omega) r1 b1 a2 h1 (by omega) (by rw [hd]; omega)
  rw [hd] at a1 e1
  have hoffs : (initDl c false 0).offs 1 = (initDl c false 0).offs 0 + 2 + 8 * c.dataBytes := by
    show c.hdr.bitsDl + 0 + (1 + 1) * c.hdr.blockBits + 1 * 8 * (c.dataBytes - 0)
      = c.hdr.bitsDl + 0 + (0 + 1) * c.hdr.blockBits + 0 * 8 * (c.dataBytes - 0) + 2 + 8 * c.dataBytes
    rw [hc]; simp only [Hdr.bitsDl, Hdr.blockBits]; omega
  refine ⟨r1, r2, a1, e1, ?_, ?_⟩
  · intro k hk
    rw [e4, if_neg (by rw [hoffs]; omega), a4, if_pos (by rw [hd]; omega)]
    congr 1; omega
  · intro k hk
    rw [e4, if_pos (by rw [hd]; omega)]
    congr 1; omega

/-! Non-vacuity: an MCS-1 block, offset 33, and an MCS-9 block. -/
example : copyFrom 33 2 [0xff, 0, 0, 0, 1, 0, 0xf0] [0xa5, 0x5a] = some [0xff, 0, 0, 0, 0x4b, 0xb5, 0xf0] := by decide
example : copyTo 33 2 [0xff, 0, 0, 0, 0x4b, 0xb5, 0xf0] [9, 9, 9] 0 = some [0xa5, 0x5a, 9] := by decide
example : (1 : Nat) < (initDl .mcs9 false 0).num ∧ CS.hdr .mcs9 = .type1 := by decide
/-- Undefined behaviour is visible in the model: a block that is too short. -/
example : copyTo 33 2 [0xff, 0, 0, 0, 0x4b, 0xb5] [9, 9, 9] 0 = none := by decide

end Verif.Blk
