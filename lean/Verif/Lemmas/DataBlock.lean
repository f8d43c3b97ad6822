import Verif.Model.DataBlock
import Verif.Spec.BitStream

namespace Verif.Blk

open Verif.Cs

/-! ### Octets and bits -/

theorem octet_testBit {b : Nat} (h : b < 256) {i : Nat} (hi : 8 ≤ i) : b.testBit i = false :=
  Nat.testBit_lt_two_pow (Nat.lt_of_lt_of_le h (Nat.le_trans (by decide) (Nat.pow_le_pow_right (by decide) hi)))

theorem getD_octet {m : List Nat} (h : Octets m) (i : Nat) : m.getD i 0 < 256 := by
  rw [List.getD_eq_getElem?_getD]
  cases hm : m[i]? with
  | none => decide
  | some b => exact h b (List.mem_of_getElem? hm)

theorem Octets.set {m : List Nat} (h : Octets m) (i v : Nat) (hv : v < 256) : Octets (m.set i v) := by
  intro b hb
  rcases List.mem_or_eq_of_mem_set hb with h' | h'
  · exact h b h'
  · omega

theorem wr_some {m : List Nat} {i : Nat} (v : Nat) (h : i < m.length) :
    wr m i v = some (m.set i (v % 256)) := if_pos h

theorem rd_some {m : List Nat} {i : Nat} (h : i < m.length) : rd m i = some (m.getD i 0) := by
  simp [rd, List.getElem?_eq_getElem h]

theorem getD_set {m : List Nat} {i : Nat} (v j : Nat) (h : i < m.length) :
    (m.set i v).getD j 0 = if j = i then v else m.getD j 0 := by
  simp only [List.getD_eq_getElem?_getD, List.getElem?_set]
  by_cases hji : j = i
  · subst hji; simp [h]
  · simp [hji, Ne.symm hji]

/-- Bits after writing one octet. -/
theorem bit_set {m : List Nat} {i : Nat} (v k : Nat) (h : i < m.length) :
    bit (m.set i (v % 256)) k = if k / 8 = i then v.testBit (k % 8) else bit m k := by
  unfold bit
  rw [getD_set _ _ h]
  split
  · have : v % 256 = v % 2 ^ 8 := rfl
    rw [this, Nat.testBit_mod_two_pow]
    have : k % 8 < 8 := Nat.mod_lt _ (by decide)
    simp [this]
  · rfl

theorem octet_ext {a b : Nat} (ha : a < 256) (hb : b < 256)
    (h : ∀ i < 8, a.testBit i = b.testBit i) : a = b := by
  apply Nat.eq_of_testBit_eq
  intro i
  by_cases hi : i < 8
  · exact h i hi
  · rw [octet_testBit ha (by omega), octet_testBit hb (by omega)]

theorem bit_oct (m : List Nat) (p t : Nat) (ht : t < 8) : bit m (8 * p + t) = (m.getD p 0).testBit t := by
  unfold bit
  rw [show (8 * p + t) / 8 = p by omega, show (8 * p + t) % 8 = t by omega]

/-! ### Copy into the radio block -/

theorem copyFromLoop_spec (extra : Nat) (he : 0 < extra) (he8 : extra < 8) (buf : Mem)
    (hbuf : Octets buf) (W : Nat → Bool) :
    ∀ (n i : Nat) (dst : Mem) (p last : Nat), Octets dst → last < 256 →
      p + n ≤ dst.length → i + n ≤ buf.length →
      (∀ t < extra, last.testBit (8 - extra + t) = W (8 * p + t)) →
      (∀ k, 8 * p + extra ≤ k → k < 8 * (p + n) + extra → W k = bit buf (k - (8 * p + extra) + 8 * i)) →
      ∃ dst' last', copyFromLoop extra buf n i dst p last = some (dst', p + n, last') ∧
        Octets dst' ∧ last' < 256 ∧ dst'.length = dst.length ∧
        (∀ t < extra, last'.testBit (8 - extra + t) = W (8 * (p + n) + t)) ∧
        ∀ k, bit dst' k = if 8 * p ≤ k ∧ k < 8 * (p + n) then W k else bit dst k := by
  intro n
  induction n with
  | zero =>
    intro i dst p last hd hl _ _ hlast _
    refine ⟨dst, last, rfl, hd, hl, rfl, hlast, ?_⟩
    intro k
    rw [if_neg (by omega)]
  | succ n ih =>
    intro i dst p last hd hl hp hi hlast hW
    have hcl := getD_octet hbuf i
    have hib : i < buf.length := by omega
    have hpd : p < dst.length := by omega
    let v := (last >>> (8 - extra)) ||| (buf.getD i 0 <<< extra)
    have hset := bit_set (m := dst) v (h := hpd)
    obtain ⟨dst', last', h1, h2, h3, h4, h5, h6⟩ := ih (i + 1) (dst.set p (v % 256)) (p + 1) (buf.getD i 0)
      (hd.set _ _ (Nat.mod_lt _ (by decide))) hcl (by rw [List.length_set]; omega) (by omega)
      (by
        intro t ht
        rw [hW (8 * (p + 1) + t) (by omega) (by omega)]
        rw [show 8 * (p + 1) + t - (8 * p + extra) + 8 * i = 8 * i + (8 - extra + t) by omega,
          bit_oct _ _ _ (by omega)])
      (by
        intro k h1 h2
        rw [hW k (by omega) (by omega)]
        congr 1; omega)
    refine ⟨dst', last', ?_, h2, h3, by rw [h4, List.length_set], ?_, ?_⟩
    · show ((rd buf i).bind fun c => (wr dst p ((last >>> (8 - extra)) ||| (c <<< extra))).bind fun dst' =>
        copyFromLoop extra buf n (i + 1) dst' (p + 1) c) = _
      rw [rd_some hib, Option.bind_some, wr_some _ hpd, Option.bind_some, show p + (n + 1) = p + 1 + n by omega]
      exact h1
    · rw [show p + (n + 1) = p + 1 + n by omega]; exact h5
    · intro k
      rw [h6 k]
      by_cases hk : 8 * (p + 1) ≤ k ∧ k < 8 * (p + 1 + n)
      · rw [if_pos hk, if_pos (by omega)]
      · rw [if_neg hk, hset]
        by_cases hkp : k / 8 = p
        · rw [if_pos hkp, if_pos (by omega)]
          show ((last >>> (8 - extra)) ||| (buf.getD i 0 <<< extra)).testBit (k % 8) = W k
          rw [Nat.testBit_or, Nat.testBit_shiftRight, Nat.testBit_shiftLeft]
          by_cases hx : k % 8 < extra
          · rw [hlast (k % 8) hx, show 8 * p + k % 8 = k by omega]
            simp [show ¬ (k % 8 ≥ extra) by omega]
          · rw [octet_testBit hl (by omega), hW k (by omega) (by omega),
              show k - (8 * p + extra) + 8 * i = 8 * i + (k % 8 - extra) by omega, bit_oct _ _ _ (by omega)]
            simp [show k % 8 ≥ extra by omega]
        · rw [if_neg hkp, if_neg (by omega)]

theorem copyLoop_spec (src : Mem) (hsrc : Octets src) :
    ∀ (n i : Nat) (dst : Mem) (p : Nat), Octets dst → p + n ≤ dst.length → i + n ≤ src.length →
      ∃ dst', copyLoop src n i dst p = some dst' ∧ Octets dst' ∧ dst'.length = dst.length ∧
        ∀ k, bit dst' k = if 8 * p ≤ k ∧ k < 8 * (p + n) then bit src (k - 8 * p + 8 * i) else bit dst k := by
  intro n
  induction n with
  | zero =>
    intro i dst p hd _ _
    exact ⟨dst, rfl, hd, rfl, fun k => by rw [if_neg (by omega)]⟩
  | succ n ih =>
    intro i dst p hd hp hi
    have hib : i < src.length := by omega
    have hpd : p < dst.length := by omega
    have hset := bit_set (m := dst) (src.getD i 0) (h := hpd)
    obtain ⟨dst', h1, h2, h4, h6⟩ := ih (i + 1) (dst.set p (src.getD i 0 % 256)) (p + 1)
      (hd.set _ _ (Nat.mod_lt _ (by decide))) (by rw [List.length_set]; omega) (by omega)
    refine ⟨dst', ?_, h2, by rw [h4, List.length_set], ?_⟩
    · show ((rd src i).bind fun c => (wr dst p c).bind fun dst' => copyLoop src n (i + 1) dst' (p + 1)) = _
      rw [rd_some hib, Option.bind_some, wr_some _ hpd, Option.bind_some]
      exact h1
    · intro k
      rw [h6 k]
      by_cases hk : 8 * (p + 1) ≤ k ∧ k < 8 * (p + 1 + n)
      · rw [if_pos hk, if_pos (by omega)]
        congr 1; omega
      · rw [if_neg hk, hset]
        by_cases hkp : k / 8 = p
        · rw [if_pos hkp, if_pos (by omega), show k - 8 * p + 8 * i = 8 * i + k % 8 by omega,
            bit_oct _ _ _ (by omega)]
        · rw [if_neg hkp, if_neg (by omega)]

/-- What `rlc_copy_from_aligned_buffer` does to the bits of the radio block. -/
theorem copyFrom_spec (offs len : Nat) (dst buf : Mem) (hd : Octets dst) (hb : Octets buf)
    (hlen : len ≤ buf.length) (hfit : offs + 8 * len ≤ 8 * dst.length) :
    ∃ dst', copyFrom offs len dst buf = some dst' ∧ Octets dst' ∧ dst'.length = dst.length ∧
      ∀ k, bit dst' k = if offs ≤ k ∧ k < offs + 8 * len then bit buf (k - offs) else bit dst k := by
  unfold copyFrom
  dsimp only
  by_cases hx : offs % 8 = 0
  · rw [if_pos hx]
    obtain ⟨d, h1, h2, h3, h4⟩ := copyLoop_spec buf hb len 0 dst (offs / 8) hd (by omega) (by omega)
    refine ⟨d, h1, h2, h3, fun k => ?_⟩
    rw [h4 k]
    by_cases hk : offs ≤ k ∧ k < offs + 8 * len
    · rw [if_pos (by omega), if_pos hk]; congr 1; omega
    · rw [if_neg (by omega), if_neg hk]
  · rw [if_neg hx]
    have hh : offs / 8 < dst.length := by omega
    let W : Nat → Bool := fun k => if offs ≤ k then bit buf (k - offs) else bit dst k
    have h0 := getD_octet hd (offs / 8)
    obtain ⟨d, l, h1, h2, h3, h4, h5, h6⟩ := copyFromLoop_spec (offs % 8) (by omega) (by omega) buf hb W
      len 0 dst (offs / 8) ((dst.getD (offs / 8) 0 <<< (8 - offs % 8)) % 256) hd (Nat.mod_lt _ (by decide))
      (by omega) (by omega)
      (by
        intro t ht
        have : (256 : Nat) = 2 ^ 8 := rfl
        rw [this, Nat.testBit_mod_two_pow, Nat.testBit_shiftLeft]
        show _ = if offs ≤ 8 * (offs / 8) + t then _ else _
        rw [if_neg (by omega), bit_oct _ _ _ (by omega)]
        simp only [show 8 - offs % 8 + t < 8 by omega, show 8 - offs % 8 + t ≥ 8 - offs % 8 by omega,
          decide_true, Bool.true_and]
        congr 1; omega)
      (by
        intro k k1 k2
        show (if offs ≤ k then _ else _) = _
        rw [if_pos (by omega)]; congr 1; omega)
    have hend : offs / 8 + len < d.length := by omega
    rw [rd_some hh, Option.bind_some, h1, Option.bind_some]
    dsimp only
    rw [rd_some hend, Option.bind_some, wr_some _ hend]
    refine ⟨_, rfl, h2.set _ _ (Nat.mod_lt _ (by decide)), by rw [List.length_set, h4], fun k => ?_⟩
    rw [bit_set _ _ hend]
    by_cases hk : k / 8 = offs / 8 + len
    · rw [if_pos hk, Nat.testBit_or, Nat.testBit_and, Nat.testBit_shiftLeft, Nat.testBit_shiftRight]
      have hd' : (d.getD (offs / 8 + len) 0).testBit (k % 8) = bit dst k := by
        have := h6 k
        rw [if_neg (by omega)] at this
        rw [← this, ← hk]; rfl
      rw [hd']
      by_cases hx : k % 8 < offs % 8
      · rw [h5 (k % 8) hx]
        show (_ || (if offs ≤ 8 * (offs / 8 + len) + k % 8 then _ else _)) = _
        simp only [show ¬ (k % 8 ≥ offs % 8) by omega, decide_false, Bool.false_and, Bool.and_false, Bool.false_or]
        rw [show 8 * (offs / 8 + len) + k % 8 = k by omega]
        by_cases hz : offs ≤ k
        · rw [if_pos hz, if_pos (by omega)]
        · rw [if_neg hz, if_neg (by omega)]
      · rw [octet_testBit h3 (by omega), if_neg (by omega)]
        have : (255 : Nat).testBit (k % 8 - offs % 8) = true := by
          have : k % 8 - offs % 8 < 8 := by omega
          have h255 : (255 : Nat) = 2 ^ 8 - 1 := rfl
          rw [h255, Nat.testBit_two_pow_sub_one]
          simpa using this
        simp [show k % 8 ≥ offs % 8 by omega, this]
    · rw [if_neg hk, h6 k]
      by_cases hz : 8 * (offs / 8) ≤ k ∧ k < 8 * (offs / 8 + len)
      · rw [if_pos hz]
        show (if offs ≤ k then _ else _) = _
        by_cases ho : offs ≤ k
        · rw [if_pos ho, if_pos (by omega)]
        · rw [if_neg ho, if_neg (by omega)]
      · rw [if_neg hz, if_neg (by omega)]

/-! ### Copy out of the radio block -/

theorem copyToLoop_spec (extra : Nat) (he : 0 < extra) (he8 : extra < 8) (src : Mem)
    (hsrc : Octets src) (base : Nat) (hb : 0 < base) :
    ∀ (n i : Nat) (dst : Mem) (p last : Nat), Octets dst →
      last = src.getD (base + i - 1) 0 →
      p + n ≤ dst.length → base + i + n ≤ src.length →
      ∃ dst', copyToLoop extra src base n i dst p last = some dst' ∧ Octets dst' ∧
        dst'.length = dst.length ∧
        ∀ k, bit dst' k = if 8 * p ≤ k ∧ k < 8 * (p + n)
          then bit src (k - 8 * p + 8 * (base + i - 1) + extra) else bit dst k := by
  intro n
  induction n with
  | zero =>
    intro i dst p last hd _ _ _
    exact ⟨dst, rfl, hd, rfl, fun k => by rw [if_neg (by omega)]⟩
  | succ n ih =>
    intro i dst p last hd hlast hp hi
    have hib : base + i < src.length := by omega
    have hpd : p < dst.length := by omega
    have hl : last < 256 := by rw [hlast]; exact getD_octet hsrc _
    let v := (last >>> extra) ||| (src.getD (base + i) 0 <<< (8 - extra))
    have hset := bit_set (m := dst) v (h := hpd)
    obtain ⟨dst', h1, h2, h4, h6⟩ := ih (i + 1) (dst.set p (v % 256)) (p + 1) (src.getD (base + i) 0)
      (hd.set _ _ (Nat.mod_lt _ (by decide))) (by congr 1) (by rw [List.length_set]; omega) (by omega)
    refine ⟨dst', ?_, h2, by rw [h4, List.length_set], ?_⟩
    · show ((rd src (base + i)).bind fun c => (wr dst p ((last >>> extra) ||| (c <<< (8 - extra)))).bind fun dst' =>
        copyToLoop extra src base n (i + 1) dst' (p + 1) c) = _
      rw [rd_some hib, Option.bind_some, wr_some _ hpd, Option.bind_some]
      exact h1
    · intro k
      rw [h6 k]
      by_cases hk : 8 * (p + 1) ≤ k ∧ k < 8 * (p + 1 + n)
      · rw [if_pos hk, if_pos (by omega)]
        congr 1; omega
      · rw [if_neg hk, hset]
        by_cases hkp : k / 8 = p
        · rw [if_pos hkp, if_pos (by omega)]
          show ((last >>> extra) ||| (src.getD (base + i) 0 <<< (8 - extra))).testBit (k % 8) = _
          rw [Nat.testBit_or, Nat.testBit_shiftRight, Nat.testBit_shiftLeft]
          by_cases hx : k % 8 < 8 - extra
          · rw [show k - 8 * p + 8 * (base + i - 1) + extra = 8 * (base + i - 1) + (extra + k % 8) by omega,
              bit_oct _ _ _ (by omega), hlast]
            simp [show ¬ (k % 8 ≥ 8 - extra) by omega]
          · rw [octet_testBit hl (by omega),
              show k - 8 * p + 8 * (base + i - 1) + extra = 8 * (base + i) + (k % 8 - (8 - extra)) by omega,
              bit_oct _ _ _ (by omega)]
            simp [show k % 8 ≥ 8 - extra by omega]
        · rw [if_neg hkp, if_neg (by omega)]

/-- What `rlc_copy_to_aligned_buffer` does to the bits of the buffer. When the offset is
not a multiple of 8 the last octet read is the one behind the last full octet, which must
be part of the radio block. -/
theorem copyTo_spec (offs len : Nat) (src buf : Mem) (start : Nat) (hs : Octets src)
    (hb : Octets buf) (hlen : start + len ≤ buf.length) (hpos : offs < 8 * src.length)
    (hfit : offs + 8 * len ≤ 8 * src.length) :
    ∃ buf', copyTo offs len src buf start = some buf' ∧ Octets buf' ∧ buf'.length = buf.length ∧
      ∀ k, bit buf' k = if 8 * start ≤ k ∧ k < 8 * (start + len)
        then bit src (offs + (k - 8 * start)) else bit buf k := by
  unfold copyTo
  dsimp only
  by_cases hx : offs % 8 = 0
  · rw [if_pos hx]
    obtain ⟨d, h1, h2, h3, h4⟩ := copyLoop_spec src hs len (offs / 8) buf start hb (by omega) (by omega)
    refine ⟨d, h1, h2, h3, fun k => ?_⟩
    rw [h4 k]
    by_cases hk : 8 * start ≤ k ∧ k < 8 * (start + len)
    · rw [if_pos hk, if_pos hk]; congr 1; omega
    · rw [if_neg hk, if_neg hk]
  · rw [if_neg hx]
    have hh : offs / 8 < src.length := by omega
    rw [rd_some hh, Option.bind_some]
    obtain ⟨d, h1, h2, h3, h4⟩ := copyToLoop_spec (offs % 8) (by omega) (by omega) src hs (offs / 8 + 1)
      (by omega) len 0 buf start _ hb (by congr 1) hlen (by omega)
    refine ⟨d, h1, h2, h3, fun k => ?_⟩
    rw [h4 k]
    by_cases hk : 8 * start ≤ k ∧ k < 8 * (start + len)
    · rw [if_pos hk, if_pos hk]; congr 1; omega
    · rw [if_neg hk, if_neg hk]

/-! ### Bit-fields -/

theorem bitfield_testBit (b s w v i : Nat) :
    (b % 2 ^ s + 2 ^ s * (v % 2 ^ w + 2 ^ w * (b / 2 ^ (s + w)))).testBit i =
      if s ≤ i ∧ i < s + w then v.testBit (i - s) else b.testBit i := by
  rw [Nat.add_comm, Nat.testBit_two_pow_mul_add _ (Nat.mod_lt _ (Nat.two_pow_pos s))]
  by_cases h1 : i < s
  · rw [if_pos h1, if_neg (by omega), Nat.testBit_mod_two_pow]; simp [h1]
  · rw [if_neg h1, Nat.add_comm (v % 2 ^ w), Nat.testBit_two_pow_mul_add _ (Nat.mod_lt _ (Nat.two_pow_pos w))]
    by_cases h2 : i - s < w
    · rw [if_pos h2, if_pos (by omega), Nat.testBit_mod_two_pow]; simp [h2]
    · rw [if_neg h2, if_neg (by omega), Nat.testBit_div_two_pow]
      congr 1; omega

theorem setF_spec (i s w v : Nat) (m : Mem) (hm : Octets m) (hi : i < m.length) (hsw : s + w ≤ 8) :
    ∃ m', setF i s w v m = some m' ∧ Octets m' ∧ m'.length = m.length ∧
      ∀ k, bit m' k = if 8 * i + s ≤ k ∧ k < 8 * i + s + w then v.testBit (k - (8 * i + s)) else bit m k := by
  unfold setF
  rw [rd_some hi, Option.bind_some, wr_some _ hi]
  refine ⟨_, rfl, hm.set _ _ (Nat.mod_lt _ (by decide)), by rw [List.length_set], fun k => ?_⟩
  rw [bit_set _ _ hi, bitfield_testBit]
  by_cases hk : k / 8 = i
  · rw [if_pos hk]
    by_cases hr : s ≤ k % 8 ∧ k % 8 < s + w
    · rw [if_pos hr, if_pos (by omega)]; congr 1; omega
    · rw [if_neg hr, if_neg (by omega), ← hk]; rfl
  · rw [if_neg hk, if_neg (by omega)]

theorem maskOr_spec (i mask v : Nat) (m : Mem) (hm : Octets m) (hi : i < m.length) :
    ∃ m', maskOr i mask v m = some m' ∧ Octets m' ∧ m'.length = m.length ∧
      ∀ k, bit m' k = if k / 8 = i then (bit m k && mask.testBit (k % 8)) || v.testBit (k % 8) else bit m k := by
  unfold maskOr
  rw [rd_some hi, Option.bind_some, wr_some _ hi]
  refine ⟨_, rfl, hm.set _ _ (Nat.mod_lt _ (by decide)), by rw [List.length_set], fun k => ?_⟩
  rw [bit_set _ _ hi, Nat.testBit_or, Nat.testBit_and]
  by_cases hk : k / 8 = i
  · rw [if_pos hk, if_pos hk, ← hk]; rfl
  · rw [if_neg hk, if_neg hk]

theorem field_eq_of_bits (m : List Nat) : ∀ (w s v : Nat),
    (∀ i < w, bit m (s + i) = v.testBit i) → field m s w = v % 2 ^ w
  | 0, s, v, _ => by simp [field, Nat.mod_one]
  | w + 1, s, v, h => by
    have h0 := h 0 (by omega)
    have ih := field_eq_of_bits m w (s + 1) (v / 2) (by
      intro i hi
      have := h (i + 1) (by omega)
      rw [Nat.testBit_succ] at this
      rw [← this]; congr 1; omega)
    rw [field, ih, show s = s + 0 from rfl, h0, Nat.testBit_zero, Nat.pow_succ, Nat.mul_comm _ 2,
      Nat.mod_mul]
    congr 1
    rcases Nat.mod_two_eq_zero_or_one v with h | h <;> simp [h]

theorem testBit_field (m : List Nat) : ∀ (w s i : Nat),
    (field m s w).testBit i = (decide (i < w) && bit m (s + i))
  | 0, s, i => by simp [field]
  | w + 1, s, i => by
    have ih := testBit_field m w (s + 1)
    rw [field]
    have hb : (bit m s).toNat < 2 ^ 1 := by cases bit m s <;> decide
    have := Nat.testBit_two_pow_mul_add (field m (s + 1) w) hb i
    rw [Nat.pow_one] at this
    rw [Nat.add_comm, this]
    cases i with
    | zero => simp; cases bit m s <;> rfl
    | succ i =>
      rw [if_neg (by omega), Nat.add_sub_cancel, ih, show s + 1 + i = s + (i + 1) by omega]
      simp

theorem field_lt (m : List Nat) : ∀ (w s : Nat), field m s w < 2 ^ w
  | 0, _ => by simp [field]
  | w + 1, s => by
    have := field_lt m w (s + 1)
    have hb : (bit m s).toNat < 2 := by cases bit m s <;> decide
    rw [field, Nat.pow_succ]; omega

theorem getF_spec (i s w : Nat) (m : Mem) (hi : i < m.length) (hsw : s + w ≤ 8) :
    getF i s w m = some (field m (8 * i + s) w) := by
  unfold getF
  rw [rd_some hi, Option.map_some]
  congr 1
  apply Nat.eq_of_testBit_eq
  intro j
  rw [testBit_field, Nat.testBit_mod_two_pow, Nat.testBit_div_two_pow]
  by_cases hj : j < w
  · rw [show 8 * i + s + j = 8 * i + (s + j) by omega, bit_oct _ _ _ (by omega), Nat.add_comm j s]
  · simp [hj]

/-- Two adjacent fields joined as the code does. -/
theorem field_join (m : List Nat) (s a b : Nat) :
    field m s a ||| (field m (s + a) b <<< a) = field m s (a + b) := by
  apply Nat.eq_of_testBit_eq
  intro j
  rw [Nat.testBit_or, Nat.testBit_shiftLeft, testBit_field, testBit_field, testBit_field]
  by_cases hj : j < a
  · simp [hj, show j < a + b by omega, show ¬ (j ≥ a) by omega]
  · simp [hj, show j ≥ a by omega, show s + a + (j - a) = s + j by omega, show (j - a < b) = (j < a + b) by
      simp; omega]

end Verif.Blk
