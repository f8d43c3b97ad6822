import Verif.Model.Fn
/-!
# C20: Frame number arithmetic is correct modulo the hyperframe
-/

namespace Verif.Fn

/-- First frames of the 12 radio blocks of a 52-multiframe (3GPP TS 45.002 clause 7, table 9);
frames 12, 25, 38 and 51 carry PTCCH or are idle. -/
def blockStarts : List Nat := [0, 4, 8, 13, 17, 21, 26, 30, 34, 39, 43, 47]

/-- A radio block starts at this frame. -/
def BlockStart (fn : Nat) : Prop := fn < H ∧ fn % 52 ∈ blockStarts

instance (fn : Nat) : Decidable (BlockStart fn) := inferInstanceAs (Decidable (_ ∧ _))

/-- Number of radio blocks of a hyperframe. -/
def numBlocks : Nat := 12 * (H / 52)

/-- First frame of the `k`-th radio block of the hyperframe. -/
def blockFn (k : Nat) : Nat := 52 * (k / 12) + blockStarts.getD (k % 12) 0

theorem starts_at (r : Nat) (h : r < 12) : blockStarts.getD r 0 = 4 * r + r / 3 := by
  have : ∀ r < 12, blockStarts.getD r 0 = 4 * r + r / 3 := by decide
  exact this r h

theorem blockFn_eq (k : Nat) : blockFn k = 52 * (k / 12) + (4 * (k % 12) + k % 12 / 3) := by
  unfold blockFn; rw [starts_at _ (by omega)]

/-- The numbering is strictly increasing … -/
theorem C20_blocks_ordered (j k : Nat) (h : j < k) : blockFn j < blockFn k := by
  rw [blockFn_eq, blockFn_eq]; omega

/-- … and meets exactly the block starts. -/
theorem C20_blocks_all (fn : Nat) : BlockStart fn ↔ ∃ k < numBlocks, fn = blockFn k := by
  constructor
  · rintro ⟨h, hm⟩
    have hi : ∀ r < 52, r ∈ blockStarts → ∃ i < 12, blockStarts.getD i 0 = r := by decide
    obtain ⟨i, hi, e⟩ := hi (fn % 52) (by omega) hm
    refine ⟨12 * (fn / 52) + i, ?_, ?_⟩
    · unfold numBlocks; unfold H at *; omega
    · unfold blockFn
      rw [show (12 * (fn / 52) + i) % 12 = i by omega, e]
      omega
  · rintro ⟨k, hk, rfl⟩
    have hg : ∀ i < 12, blockStarts.getD i 0 < 52 ∧ blockStarts.getD i 0 ∈ blockStarts := by decide
    obtain ⟨h1, h2⟩ := hg (k % 12) (by omega)
    constructor
    · unfold numBlocks at hk; unfold blockFn; unfold H at *; omega
    · unfold blockFn
      rw [Nat.mul_add_mod, Nat.mod_eq_of_lt h1]
      exact h2

theorem bn_aux (q r : Nat) (hr : r < 12) :
    fn2bn (52 * q + (4 * r + r / 3)) = r ∧
    (52 * q + (4 * r + r / 3)) - (52 * q + (4 * r + r / 3)) % 52 = 52 * q := by
  unfold fn2bn
  rw [Nat.mul_add_mod]
  have : ∀ r < 12, (4 * r + r / 3) % 52 / 4 = r ∧ (4 * r + r / 3) % 52 = 4 * r + r / 3 := by decide
  obtain ⟨h1, h2⟩ := this r hr
  refine ⟨h1, ?_⟩
  omega

/-- The next-block computation goes to the next block of the hyperframe, with wrap-around. -/
theorem C20_next_block (k : Nat) (hk : k < numBlocks) :
    fnNextBlock (blockFn k) = blockFn ((k + 1) % numBlocks) := by
  obtain ⟨hb, hs⟩ := bn_aux (k / 12) (k % 12) (by omega)
  unfold fnNextBlock
  dsimp only
  rw [blockFn_eq, blockFn_eq, hb, hs]
  unfold numBlocks at *
  unfold H at *
  by_cases h : k + 1 < 12 * (2715648 / 52)
  · rw [Nat.mod_eq_of_lt h]
    rcases (by omega : k % 12 = 11 ∨ k % 12 < 11) with h11 | h11
    · rw [show (k + 1) % 12 = 0 by omega, show (k + 1) / 12 = k / 12 + 1 by omega, h11]
      omega
    · rw [show (k + 1) % 12 = k % 12 + 1 by omega, show (k + 1) / 12 = k / 12 by omega]
      omega
  · have : k = 626687 := by omega
    subst this
    rfl

/-- Repeating it from any block start visits every block start. -/
theorem C20_next_block_visits (a b : Nat) (ha : BlockStart a) (hb : BlockStart b) :
    ∃ n, (Nat.repeat fnNextBlock n a) = b := by
  obtain ⟨j, hj, rfl⟩ := (C20_blocks_all a).1 ha
  obtain ⟨k, hk, rfl⟩ := (C20_blocks_all b).1 hb
  have hN : 0 < numBlocks := by decide
  have hrep : ∀ n, Nat.repeat fnNextBlock n (blockFn j) = blockFn ((j + n) % numBlocks) := by
    intro n
    induction n with
    | zero => rw [Nat.add_zero, Nat.mod_eq_of_lt hj]; rfl
    | succ n ih =>
      rw [Nat.repeat, ih, C20_next_block _ (Nat.mod_lt _ hN), Nat.mod_add_mod, Nat.add_assoc]
  refine ⟨k + numBlocks - j, ?_⟩
  rw [hrep, show j + (k + numBlocks - j) = k + numBlocks by omega, Nat.add_mod_right,
    Nat.mod_eq_of_lt hk]

/-- Validity of a frame number is exactly: a radio block starts there. -/
theorem C20_valid (fn : Nat) (h : fn < H) : fnValid fn = true ↔ BlockStart fn := by
  have hm : ∀ r < 52, (r % 13 = 0 ∨ r % 13 = 4 ∨ r % 13 = 8) ↔ r ∈ blockStarts := by decide
  unfold BlockStart fnValid
  rw [← hm (fn % 52) (by omega)]
  simp only [Bool.or_eq_true, beq_iff_eq]
  omega

/-- The block number derived from a block start is its number in the multiframe. -/
theorem C20_block_number (k : Nat) : fn2bn (blockFn k) = k % 12 := by
  rw [blockFn_eq]
  exact (bn_aux (k / 12) (k % 12) (by omega)).1

/-- The uplink block answering a downlink request is the next block. -/
theorem C20_rts_next (k : Nat) (hk : k < numBlocks) :
    rtsNextFn (blockFn k) (fn2bn (blockFn k)) = fnNextBlock (blockFn k) := by
  rw [C20_next_block k hk, C20_block_number]
  unfold rtsNextFn
  rw [blockFn_eq, blockFn_eq]
  unfold numBlocks at *
  unfold H at *
  have ha : ∀ r < 12, 4 * r + r / 3 + 4 + (if r % 3 = 2 then 1 else 0) = 4 * (r + 1) + (r + 1) / 3 := by
    decide
  have := ha (k % 12) (by omega)
  rw [show 52 * (k / 12) + (4 * (k % 12) + k % 12 / 3) + 4 + (if k % 12 % 3 = 2 then 1 else 0)
    = 52 * (k / 12) + (4 * (k % 12) + k % 12 / 3 + 4 + (if k % 12 % 3 = 2 then 1 else 0)) by omega, this]
  by_cases h : k + 1 < 12 * (2715648 / 52)
  · rw [Nat.mod_eq_of_lt h]
    rcases (by omega : k % 12 = 11 ∨ k % 12 < 11) with h11 | h11
    · rw [show (k + 1) % 12 = 0 by omega, show (k + 1) / 12 = k / 12 + 1 by omega, h11]
      omega
    · rw [show (k + 1) % 12 = k % 12 + 1 by omega, show (k + 1) / 12 = k / 12 by omega]
      omega
  · have : k = 626687 := by omega
    subst this
    rfl

theorem fnSub_le (a b : Nat) (h : b ≤ a) (ha : a < H) : fnSub a b = a - b := by
  unfold fnSub
  rw [show a + H - b = (a - b) + H by omega, Nat.add_mod_right, Nat.mod_eq_of_lt (by omega)]

theorem fnSub_gt (a b : Nat) (h : a < b) (hb : b ≤ H) : fnSub a b = a + H - b := by
  unfold fnSub
  exact Nat.mod_eq_of_lt (by omega)

theorem fnSum_lt (a b : Nat) (h : a + b < H) : fnSum a b = a + b := Nat.mod_eq_of_lt h

theorem fnSub_H (b : Nat) (h0 : 0 < b) (h : b ≤ H) : fnSub H b = H - b := by
  unfold fnSub
  rw [show H + H - b = (H - b) + H by omega, Nat.add_mod_right, Nat.mod_eq_of_lt (by omega)]

/-- From the relative frame number alone the true frame number is recovered, if that frame is
less than half a period (21216 frames) old. -/
theorem C20_rfn (cur age : Nat) (hc : cur < H) (ha : age < 21216) :
    rfnToFn (some cur) (fn2rfn (fnSub cur age)) = fnSub cur age := by
  have hH : H = 64 * rfnMod := by decide
  have hM : rfnMod = 42432 := rfl
  obtain ⟨p, c, hc', rfl⟩ : ∃ p c, c < rfnMod ∧ cur = rfnMod * p + c :=
    ⟨cur / rfnMod, cur % rfnMod, Nat.mod_lt _ (by decide), (Nat.div_add_mod cur rfnMod).symm⟩
  rw [hM] at hc' hc hH ⊢
  have hp : p < 64 := by omega
  have hcr : fn2rfn (42432 * p + c) = c := by
    unfold fn2rfn; rw [hM, Nat.mul_add_mod, Nat.mod_eq_of_lt hc']
  have hround : fnSub (42432 * p + c) c = 42432 * p := by
    rw [fnSub_le _ _ (by omega) (by omega)]; omega
  unfold rfnToFn
  dsimp only
  rw [hcr, hround, hM]
  by_cases h1 : age ≤ c
  · have hf : fnSub (42432 * p + c) age = 42432 * p + (c - age) := by
      rw [fnSub_le _ _ (by omega) (by omega)]; omega
    have hr : fn2rfn (42432 * p + (c - age)) = c - age := by
      unfold fn2rfn; rw [hM, Nat.mul_add_mod, Nat.mod_eq_of_lt (by omega)]
    rw [hf, hr]
    have hd : ¬ fnDiff (c - age) c > 42432 / 2 := by
      have h2 := fnSub_le c (c - age) (by omega) (by omega)
      have h3 : fnDiff (c - age) c ≤ fnSub c (c - age) := Nat.min_le_right _ _
      rw [h2] at h3
      have h4 : (42432 / 2 : Nat) = 21216 := rfl
      rw [h4]
      omega
    rw [if_neg hd]
    unfold fnSum
    rw [Nat.mod_eq_of_lt (by omega)]
  · -- the frame belongs to the previous period
    have hd : ∀ r, r = 42432 + c - age → fnDiff r c > 42432 / 2 := by
      intro r hr
      have h2 := fnSub_le r c (by omega) (by omega)
      have h3 := fnSub_gt c r (by omega) (by omega)
      have h4 : (42432 / 2 : Nat) = 21216 := rfl
      have h5 : 21216 < fnSub r c ∧ 21216 < fnSub c r := by rw [h2, h3]; omega
      rw [h4]
      exact Nat.lt_min.2 h5
    by_cases hp0 : p = 0
    · subst hp0
      have hf : fnSub (42432 * 0 + c) age = 42432 * 63 + (42432 + c - age) := by
        rw [fnSub_gt _ _ (by omega) (by omega)]; omega
      have hr : fn2rfn (42432 * 63 + (42432 + c - age)) = 42432 + c - age := by
        unfold fn2rfn; rw [hM, Nat.mul_add_mod, Nat.mod_eq_of_lt (by omega)]
      rw [hf, hr]
      · rw [if_pos (hd _ rfl), if_pos (by omega), fnSub_le 42432 (42432 * 0) (by omega) (by omega)]
        rw [fnSub_H _ (by omega) (by omega), fnSum_lt _ _ (by omega)]
        omega
    · have hf : fnSub (42432 * p + c) age = 42432 * (p - 1) + (42432 + c - age) := by
        rw [fnSub_le _ _ (by omega) (by omega)]; omega
      have hr : fn2rfn (42432 * (p - 1) + (42432 + c - age)) = 42432 + c - age := by
        unfold fn2rfn; rw [hM, Nat.mul_add_mod, Nat.mod_eq_of_lt (by omega)]
      rw [hf, hr]
      · rw [if_pos (hd _ rfl), if_neg (by omega), fnSub_le (42432 * p) 42432 (by omega) (by omega)]
        rw [fnSum_lt _ _ (by omega)]
        omega

/-! Concrete cases: last block of the hyperframe; relative frame number from before the wrap. -/
example : BlockStart 2715643 ∧ fnNextBlock 2715643 = 0 := ⟨by decide, by decide⟩
example : fnSub 5 10 = 2715643 ∧ rfnToFn (some 5) (fn2rfn 2715643) = 2715643 := by decide +kernel

end Verif.Fn
