import Verif.Lemmas.DataBlock
import Verif.Spec.DataHeader
import Verif.Props.C10

/-! Lemmas for C11: the header writers, type by type. -/

namespace Verif.Blk

open Verif.Cs

/-- Resolve all `if`s whose condition is decided by linear arithmetic. -/
macro "ifs" : tactic => `(tactic| repeat (first | rw [if_pos (by omega)] | rw [if_neg (by omega)]))

theorem bitsOfField {m : List Nat} {s w v : Nat} (hv : v < 2 ^ w)
    (h : ∀ i < w, bit m (s + i) = v.testBit i) : field m s w = v := by
  rw [field_eq_of_bits m w s v h, Nat.mod_eq_of_lt hv]

theorem writeCommon_spec (r : DataInfo) (m : Mem) (hm : Octets m) (hl : 4 ≤ m.length) :
    ∃ m', writeCommon r m = some m' ∧ Octets m' ∧ m'.length = m.length ∧
      ∀ k, bit m' k =
        if k < 3 then r.usf.testBit k
        else if k < 5 then r.esP.testBit (k - 3)
        else if k < 7 then r.rrbp.testBit (k - 5)
        else if k < 12 then r.tfi.testBit (k - 7)
        else if k < 14 then r.pr.testBit (k - 12)
        else if k < 25 then (r.blk 0).bsn.testBit (k - 14)
        else bit m k := by
  unfold writeCommon
  obtain ⟨m1, e1, o1, l1, b1⟩ := setF_spec 0 0 3 r.usf m hm (by omega) (by omega)
  obtain ⟨m2, e2, o2, l2, b2⟩ := setF_spec 0 3 2 r.esP m1 o1 (by omega) (by omega)
  obtain ⟨m3, e3, o3, l3, b3⟩ := setF_spec 0 5 2 r.rrbp m2 o2 (by omega) (by omega)
  obtain ⟨m4, e4, o4, l4, b4⟩ := setF_spec 0 7 1 r.tfi m3 o3 (by omega) (by omega)
  obtain ⟨m5, e5, o5, l5, b5⟩ := setF_spec 1 0 4 (r.tfi / 2) m4 o4 (by omega) (by omega)
  obtain ⟨m6, e6, o6, l6, b6⟩ := setF_spec 1 4 2 r.pr m5 o5 (by omega) (by omega)
  obtain ⟨m7, e7, o7, l7, b7⟩ := setF_spec 1 6 2 (r.blk 0).bsn m6 o6 (by omega) (by omega)
  obtain ⟨m8, e8, o8, l8, b8⟩ := setF_spec 2 0 8 ((r.blk 0).bsn / 4) m7 o7 (by omega) (by omega)
  obtain ⟨m9, e9, o9, l9, b9⟩ := setF_spec 3 0 1 ((r.blk 0).bsn / 1024) m8 o8 (by omega) (by omega)
  refine ⟨m9, ?_, o9, by omega, ?_⟩
  · rw [e1, Option.bind_some, e2, Option.bind_some, e3, Option.bind_some, e4, Option.bind_some,
      e5, Option.bind_some, e6, Option.bind_some, e7, Option.bind_some, e8, Option.bind_some, e9]
  · intro k
    have t1 := Nat.testBit_div_two_pow (n := 1) r.tfi
    have t2 := Nat.testBit_div_two_pow (n := 2) (r.blk 0).bsn
    have t3 := Nat.testBit_div_two_pow (n := 10) (r.blk 0).bsn
    simp only [Nat.pow_one, show 2 ^ 2 = 4 from rfl, show 2 ^ 10 = 1024 from rfl] at t1 t2 t3
    rw [b9, b8, b7, b6, b5, b4, b3, b2, b1, t1, t2, t3]
    rcases (by omega : k < 3 ∨ (3 ≤ k ∧ k < 5) ∨ (5 ≤ k ∧ k < 7) ∨ k = 7 ∨ (8 ≤ k ∧ k < 12) ∨
      (12 ≤ k ∧ k < 14) ∨ (14 ≤ k ∧ k < 16) ∨ (16 ≤ k ∧ k < 24) ∨ k = 24 ∨ 25 ≤ k)
      with h | h | h | h | h | h | h | h | h | h
    all_goals ifs
    all_goals first
      | rfl
      | (exact congrArg _ (by omega))

theorem eFbi_bits (b : BlockInfo) (he : b.e < 2) :
    (eFbi b).testBit 0 = eBit b ∧ (eFbi b).testBit 1 = fbi b ∧ ∀ i, 2 ≤ i → (eFbi b).testBit i = false := by
  have h : eFbi b < 2 ^ 2 := by unfold eFbi; split <;> split <;> decide
  refine ⟨?_, ?_, fun i hi => Nat.testBit_lt_two_pow (Nat.lt_of_lt_of_le h (Nat.pow_le_pow_right (by decide) hi))⟩
  · unfold eFbi eBit
    rcases (by omega : b.e = 0 ∨ b.e = 1) with h | h <;> rw [h] <;> by_cases hc : b.cv = 0 <;> simp [hc]
  · unfold eFbi fbi
    rcases (by omega : b.e = 0 ∨ b.e = 1) with h | h <;> rw [h] <;> by_cases hc : b.cv = 0 <;> simp [hc] <;> decide

/-- `r` describes a downlink block of scheme `c` with the layout made by
`gprs_rlc_data_info_init_dl`; padding only where it is defined. -/
structure IsDl (c : CS) (pad : Bool) (r : DataInfo) : Prop where
  cs : r.cs = c
  padOk : pad ∈ validPad c
  padEq : r.pad = pad
  num : r.num = c.hdr.numBlocks
  offs : r.offs = (initDl c pad 0).offs
  len : ∀ i, (r.blk i).dataLen = ((initDl c pad 0).blk 0).dataLen

theorem dl_sizes (c : CS) (hc : c ≠ .unknown) :
    23 ≤ c.sizeDl ∧ (c.hdr = .type1 → 116 ≤ c.sizeDl) ∧ (c.hdr = .type3 → 27 ≤ c.sizeDl) ∧
    (c.hdr = .type2 → 60 ≤ c.sizeDl) := by
  revert c; decide +kernel

def DlGoal (r : DataInfo) (m : Mem) : Prop :=
  ∃ m', writeDl r m = some m' ∧ Octets m' ∧ m'.length = m.length ∧ DlSays r m' ∧
      ∀ k, payloadBit r k → bit m' k = bit m k

theorem dl_gprs (c : CS) (hc : c ≠ .unknown) (pad : Bool) (r : DataInfo)
    (hr : IsDl c pad r) (hv : DlRange r) (m : List Nat) (hm : Octets m)
    (hl : m.length = c.sizeDl) (hh : c.hdr = .gprs) : DlGoal r m := by
  obtain ⟨hcs, hpo, hpad, hnum, hoffs, hlen⟩ := hr
  have hcps := hv.cps
  have hbsn := hv.bsn
  have hsz := dl_sizes c hc
  unfold DlGoal writeDl DlSays payloadBit
  rw [hcs, hh]
  rw [hcs, hh] at hbsn
  dsimp only
  obtain ⟨m1, e1, o1, l1, b1⟩ := setF_spec 0 0 3 r.usf m hm (by omega) (by omega)
  generalize hx1 : (if r.esP ≠ 0 then 1 else 0 : Nat) = x1
  generalize hx2 : (if (r.blk 0).cv = 0 then 1 else 0 : Nat) = x2
  obtain ⟨m2, e2, o2, l2, b2⟩ := setF_spec 0 3 1 x1 m1 o1 (by omega) (by omega)
  obtain ⟨m3, e3, o3, l3, b3⟩ := setF_spec 0 4 2 r.rrbp m2 o2 (by omega) (by omega)
  obtain ⟨m4, e4, o4, l4, b4⟩ := setF_spec 0 6 2 0 m3 o3 (by omega) (by omega)
  obtain ⟨m5, e5, o5, l5, b5⟩ := setF_spec 1 1 5 r.tfi m4 o4 (by omega) (by omega)
  obtain ⟨m6, e6, o6, l6, b6⟩ := setF_spec 1 6 2 r.pr m5 o5 (by omega) (by omega)
  obtain ⟨m7, e7, o7, l7, b7⟩ := setF_spec 1 0 1 x2 m6 o6 (by omega) (by omega)
  obtain ⟨m8, e8, o8, l8, b8⟩ := setF_spec 2 0 1 (r.blk 0).e m7 o7 (by omega) (by omega)
  obtain ⟨m9, e9, o9, l9, b9⟩ := setF_spec 2 1 7 (r.blk 0).bsn m8 o8 (by omega) (by omega)
  refine ⟨m9, ?_, o9, by omega, ⟨?_, ?_, ?_, ?_, ?_, ?_, ?_, ?_, ?_⟩, ?_⟩
  · rw [e1, Option.bind_some, e2, Option.bind_some, e3, Option.bind_some, e4, Option.bind_some,
      e5, Option.bind_some, e6, Option.bind_some, e7, Option.bind_some, e8, Option.bind_some, e9]
  · refine bitsOfField hv.usf fun i hi => ?_
    rw [b9, b8, b7, b6, b5, b4, b3, b2, b1]; ifs; exact congrArg _ (by omega)
  · rw [field_eq_of_bits m9 1 3 x1 fun i hi => by
      rw [b9, b8, b7, b6, b5, b4, b3, b2, b1]; ifs; exact congrArg _ (by omega), ← hx1]
    by_cases h : r.esP = 0 <;> simp [h]
  · refine bitsOfField hv.rrbp fun i hi => ?_
    rw [b9, b8, b7, b6, b5, b4, b3, b2, b1]; ifs; exact congrArg _ (by omega)
  · refine bitsOfField (by decide) fun i hi => ?_
    rw [b9, b8, b7, b6, b5, b4, b3, b2, b1]; ifs; exact congrArg _ (by omega)
  · rw [b9, b8, b7, b6, b5, b4, b3, b2, b1]; ifs
    rw [← hx2]; unfold fbi
    by_cases h : (r.blk 0).cv = 0 <;> simp [h]
  · refine bitsOfField hv.tfi fun i hi => ?_
    rw [b9, b8, b7, b6, b5, b4, b3, b2, b1]; ifs; exact congrArg _ (by omega)
  · refine bitsOfField hv.pr fun i hi => ?_
    rw [b9, b8, b7, b6, b5, b4, b3, b2, b1]; ifs; exact congrArg _ (by omega)
  · rw [b9, b8, b7, b6, b5, b4, b3, b2, b1]; ifs
    unfold eBit
    have := hv.e 0
    rcases (by omega : (r.blk 0).e = 0 ∨ (r.blk 0).e = 1) with h | h <;> simp [h]
  · refine bitsOfField (v := (r.blk 0).bsn) (w := 7) (by simpa using hbsn) fun i hi => ?_
    rw [b9, b8, b7, b6, b5, b4, b3, b2, b1]; ifs; exact congrArg _ (by omega)
  · rintro k ⟨hk, -⟩
    have hk : 24 ≤ k := hk
    rw [b9, b8, b7, b6, b5, b4, b3, b2, b1]; ifs

set_option maxHeartbeats 1000000 in
theorem dl_type1 (c : CS) (hc : c ≠ .unknown) (pad : Bool) (r : DataInfo)
    (hr : IsDl c pad r) (hv : DlRange r) (m : List Nat) (hm : Octets m)
    (hl : m.length = c.sizeDl) (hh : c.hdr = .type1) : DlGoal r m := by
  obtain ⟨hcs, hpo, hpad, hnum, hoffs, hlen⟩ := hr
  have hcps := hv.cps
  have hbsn := hv.bsn
  have hd := hv.delta (by rw [hcs, hh])
  have hS := (dl_sizes c hc).2.1 hh
  have hlay := layout_dl c hc pad 0
  have hpad0 : pad = false := by
    cases c <;> first | exact absurd hh (by decide) | simpa [validPad] using hpo
  subst hpad0
  unfold DlGoal writeDl DlSays payloadBit
  rw [hcs, hh]
  rw [hcs, hh] at hbsn hcps
  rw [hh] at hnum
  dsimp only at hcps ⊢
  have off0 : r.offs 0 = 42 := by
    rw [hoffs]; show c.hdr.bitsDl + 0 + (0 + 1) * c.hdr.blockBits + 0 * 8 * _ = 42
    rw [hh]; simp [Hdr.bitsDl, Hdr.blockBits]
  have off1 : r.offs 1 = 44 + 8 * (r.blk 0).dataLen := by
    rw [hlen, hoffs]
    show c.hdr.bitsDl + 0 + (1 + 1) * c.hdr.blockBits + 1 * 8 * (blockInit c false 0).dataLen
      = 44 + 8 * (blockInit c false 0).dataLen
    rw [hh]; simp [Hdr.bitsDl, Hdr.blockBits]
  have hfit := hlay 1 (by show 1 < c.hdr.numBlocks; rw [hh]; decide)
  rw [← hoffs, off1] at hfit
  have hpos : 0 < (r.blk 0).dataLen := by
    rw [hlen]; cases c <;> first | (exact absurd hh (by decide)) | decide
  have hdl : ((initDl c false 0).blk 1).dataLen = (r.blk 0).dataLen := (hlen 0).symm
  rw [hdl] at hfit
  clear hlay hlen hoffs hdl
  generalize hL : (r.blk 0).dataLen = L at *
  generalize hD : ((r.blk 1).bsn + 2048 - (r.blk 0).bsn) % 2048 = D at *
  obtain ⟨m0, e0, o0, l0, b0⟩ := writeCommon_spec r m hm (by omega)
  obtain ⟨m1, e1, o1, l1, b1⟩ := setF_spec 4 3 5 r.cps m0 o0 (by omega) (by omega)
  obtain ⟨m2, e2, o2, l2, b2⟩ := setF_spec 3 1 7 D m1 o1 (by omega) (by omega)
  obtain ⟨m3, e3, o3, l3, b3⟩ := setF_spec 4 0 3 (D / 128) m2 o2 (by omega) (by omega)
  obtain ⟨m4, e4, o4, l4, b4⟩ := maskOr_spec (r.offs 0 / 8) 0b11111100 (eFbi (r.blk 0)) m3 o3 (by omega)
  obtain ⟨m5, e5, o5, l5, b5⟩ := maskOr_spec (r.offs 1 / 8) 0b11110011 (eFbi (r.blk 1) <<< 2) m4 o4 (by omega)
  have t := Nat.testBit_div_two_pow (n := 7) D
  simp only [show 2 ^ 7 = 128 from rfl] at t
  have m1s : ∀ i < 8, (0b11111100 : Nat).testBit i = decide (2 ≤ i) := by decide
  have m2s : ∀ i < 8, (0b11110011 : Nat).testBit i = decide (i < 2 ∨ 4 ≤ i) := by decide
  have f0 := eFbi_bits (r.blk 0) (hv.e 0)
  have f1 := eFbi_bits (r.blk 1) (hv.e 1)
  have B : ∀ k, bit m5 k =
      if k < 40 then bit m3 k
      else if k = 40 then eBit (r.blk 0)
      else if k = 41 then fbi (r.blk 0)
      else if k = 42 + 8 * L then eBit (r.blk 1)
      else if k = 43 + 8 * L then fbi (r.blk 1)
      else bit m3 k := by
    intro k
    have hk8 : k % 8 < 8 := Nat.mod_lt _ (by decide)
    rw [b5, m2s _ hk8, Nat.testBit_shiftLeft, b4, m1s _ hk8, off0, off1]
    by_cases c1 : k / 8 = (44 + 8 * L) / 8
    · rw [if_pos c1, if_neg (show ¬ (k / 8 = 42 / 8) by omega), if_neg (by omega), if_neg (by omega), if_neg (by omega)]
      by_cases q : k % 8 < 2 ∨ 4 ≤ k % 8
      · rw [if_neg (by omega), if_neg (by omega), decide_eq_true q, Bool.and_true]
        by_cases q2 : k % 8 ≥ 2
        · rw [f1.2.2 _ (by omega)]; simp
        · simp [q2]
      · rw [decide_eq_false q]
        by_cases q3 : k % 8 = 2
        · rw [if_pos (by omega), q3, f1.1]; simp
        · rw [if_neg (by omega), if_pos (by omega), show k % 8 - 2 = 1 by omega, f1.2.1]
          simp [show k % 8 ≥ 2 by omega]
    · rw [if_neg c1]
      by_cases c2 : k / 8 = 42 / 8
      · rw [if_pos c2, if_neg (by omega)]
        by_cases q : 2 ≤ k % 8
        · rw [f0.2.2 _ q, if_neg (by omega), if_neg (by omega), if_neg (by omega), if_neg (by omega)]; simp [q]
        · by_cases q3 : k % 8 = 0
          · rw [if_pos (by omega), q3, f0.1]; simp
          · rw [if_neg (by omega), if_pos (by omega), show k % 8 = 1 by omega, f0.2.1]; simp
      · rw [if_neg c2]
        by_cases q : k < 40
        · rw [if_pos q]
        · ifs
  have hb : (r.blk 0).bsn < 2048 := by simpa using hbsn
  have hbf : field m5 14 11 = (r.blk 0).bsn := by
    refine bitsOfField (v := (r.blk 0).bsn) (w := 11) hb fun i hi => ?_
    rw [B, b3, b2, b1, b0]; ifs; exact congrArg _ (by omega)
  refine ⟨m5, ?_, o5, by omega, ⟨?_, ?_, ?_, ?_, ?_, hbf, ?_, ?_, ?_, ?_, ?_, ?_⟩, ?_⟩
  · rw [e0, Option.bind_some, e1, Option.bind_some, e2, Option.bind_some, e3, Option.bind_some,
      if_neg (by omega), e4, Option.bind_some, if_neg (by omega), e5]
  · refine bitsOfField hv.usf fun i hi => ?_
    rw [B, b3, b2, b1, b0]; ifs; exact congrArg _ (by omega)
  · refine bitsOfField hv.esP fun i hi => ?_
    rw [B, b3, b2, b1, b0]; ifs; exact congrArg _ (by omega)
  · refine bitsOfField hv.rrbp fun i hi => ?_
    rw [B, b3, b2, b1, b0]; ifs; exact congrArg _ (by omega)
  · refine bitsOfField hv.tfi fun i hi => ?_
    rw [B, b3, b2, b1, b0]; ifs; exact congrArg _ (by omega)
  · refine bitsOfField hv.pr fun i hi => ?_
    rw [B, b3, b2, b1, b0]; ifs; exact congrArg _ (by omega)
  · have : field m5 25 10 = D := by
      refine bitsOfField (v := D) (w := 10) hd fun i hi => ?_
      by_cases q : i < 7
      · rw [B, b3, b2]; ifs; exact congrArg _ (by omega)
      · rw [B, b3, t]; ifs; exact congrArg _ (by omega)
    rw [this, hbf]
    have := hv.bsn2
    omega
  · refine bitsOfField (v := r.cps) (w := 5) hcps fun i hi => ?_
    rw [B, b3, b2, b1]; ifs; exact congrArg _ (by omega)
  · rw [B]; ifs
  · rw [B]; ifs
  · rw [B]; ifs
  · rw [B]; ifs
  · rintro k ⟨hk, hk'⟩
    have hk : 40 ≤ k := hk
    have k0 := hk' 0 (by rw [hnum]; decide)
    have k1 := hk' 1 (by rw [hnum]; decide)
    rw [off0] at k0
    rw [off1] at k1
    simp only [Hdr.blockBits] at k0 k1
    rw [B, b3, b2, b1, b0]; ifs

theorem dl_type2 (c : CS) (hc : c ≠ .unknown) (pad : Bool) (r : DataInfo)
    (hr : IsDl c pad r) (hv : DlRange r) (m : List Nat) (hm : Octets m)
    (hl : m.length = c.sizeDl) (hh : c.hdr = .type2) : DlGoal r m := by
  obtain ⟨hcs, hpo, hpad, hnum, hoffs, hlen⟩ := hr
  have hcps := hv.cps
  have hbsn := hv.bsn
  have hS := (dl_sizes c hc).2.2.2 hh
  unfold DlGoal writeDl DlSays payloadBit
  rw [hcs, hh, hpad]
  rw [hcs, hh] at hbsn hcps
  rw [hh] at hnum
  dsimp only at hcps ⊢
  have hb : (r.blk 0).bsn < 2048 := by simpa using hbsn
  generalize hP : (if pad = true then 48 else 0 : Nat) = P
  have hP8 : P = 0 ∨ P = 48 := by cases pad <;> simp at hP <;> omega
  have off0 : r.offs 0 = 30 + P := by
    rw [hoffs, ← hP]
    cases c <;> first | (exact absurd hh (by decide)) | (cases pad <;> first | decide | exact absurd hpo (by decide))
  clear hoffs hlen
  obtain ⟨m0, e0, o0, l0, b0⟩ := writeCommon_spec r m hm (by omega)
  obtain ⟨m1, e1, o1, l1, b1⟩ := setF_spec 3 1 3 r.cps m0 o0 (by omega) (by omega)
  obtain ⟨m2, e2, o2, l2, b2⟩ := maskOr_spec (r.offs 0 / 8) 0b11001111 (eFbi (r.blk 0) <<< 4) m1 o1 (by omega)
  have ms : ∀ i < 8, (0b11001111 : Nat).testBit i = decide (i < 4 ∨ 6 ≤ i) := by decide
  have f := eFbi_bits (r.blk 0) (hv.e 0)
  have B : ∀ k, bit m2 k =
      if k = 28 + P then eBit (r.blk 0)
      else if k = 29 + P then fbi (r.blk 0)
      else bit m1 k := by
    intro k
    have hk8 : k % 8 < 8 := Nat.mod_lt _ (by decide)
    rw [b2, ms _ hk8, Nat.testBit_shiftLeft, off0]
    by_cases c1 : k / 8 = (30 + P) / 8
    · rw [if_pos c1]
      by_cases q : k % 8 < 4 ∨ 6 ≤ k % 8
      · rw [if_neg (by omega), if_neg (by omega), decide_eq_true q, Bool.and_true]
        by_cases q2 : k % 8 ≥ 4
        · rw [f.2.2 _ (by omega)]; simp
        · simp [q2]
      · rw [decide_eq_false q]
        by_cases q3 : k % 8 = 4
        · rw [if_pos (by omega), q3, f.1]; simp
        · rw [if_neg (by omega), if_pos (by omega), show k % 8 - 4 = 1 by omega, f.2.1]
          simp [show k % 8 ≥ 4 by omega]
    · ifs
  refine ⟨m2, ?_, o2, by omega, ⟨?_, ?_, ?_, ?_, ?_, ?_, ?_, ?_, ?_⟩, ?_⟩
  · rw [e0, Option.bind_some, e1, Option.bind_some, if_neg (by omega), e2]
  · refine bitsOfField hv.usf fun i hi => ?_
    rw [B, b1, b0]; ifs; exact congrArg _ (by omega)
  · refine bitsOfField hv.esP fun i hi => ?_
    rw [B, b1, b0]; ifs; exact congrArg _ (by omega)
  · refine bitsOfField hv.rrbp fun i hi => ?_
    rw [B, b1, b0]; ifs; exact congrArg _ (by omega)
  · refine bitsOfField hv.tfi fun i hi => ?_
    rw [B, b1, b0]; ifs; exact congrArg _ (by omega)
  · refine bitsOfField hv.pr fun i hi => ?_
    rw [B, b1, b0]; ifs; exact congrArg _ (by omega)
  · refine bitsOfField (v := (r.blk 0).bsn) (w := 11) hb fun i hi => ?_
    rw [B, b1, b0]; ifs; exact congrArg _ (by omega)
  · refine bitsOfField (v := r.cps) (w := 3) hcps fun i hi => ?_
    rw [B, b1]; ifs; exact congrArg _ (by omega)
  · rw [B]; ifs
  · rw [B]; ifs
  · rintro k ⟨hk, hk'⟩
    have hk : 28 ≤ k := hk
    have k0 := hk' 0 (by rw [hnum]; decide)
    rw [off0] at k0
    simp only [Hdr.blockBits] at k0
    rw [B, b1, b0]; ifs

theorem dl_type3 (c : CS) (hc : c ≠ .unknown) (pad : Bool) (r : DataInfo)
    (hr : IsDl c pad r) (hv : DlRange r) (m : List Nat) (hm : Octets m)
    (hl : m.length = c.sizeDl) (hh : c.hdr = .type3) : DlGoal r m := by
  obtain ⟨hcs, hpo, hpad, hnum, hoffs, hlen⟩ := hr
  have hcps := hv.cps
  have hbsn := hv.bsn
  have hS := (dl_sizes c hc).2.2.1 hh
  unfold DlGoal writeDl DlSays payloadBit
  rw [hcs, hh, hpad]
  rw [hcs, hh] at hbsn hcps
  rw [hh] at hnum
  dsimp only at hcps ⊢
  have hb : (r.blk 0).bsn < 2048 := by simpa using hbsn
  generalize hP : (if pad = true then 48 else 0 : Nat) = P
  have hP8 : P = 0 ∨ P = 48 := by cases pad <;> simp at hP <;> omega
  have off0 : r.offs 0 = 33 + P := by
    rw [hoffs, ← hP]
    cases c <;> first | (exact absurd hh (by decide)) | (cases pad <;> first | decide | exact absurd hpo (by decide))
  clear hoffs hlen
  obtain ⟨m0, e0, o0, l0, b0⟩ := writeCommon_spec r m hm (by omega)
  obtain ⟨m1, e1, o1, l1, b1⟩ := setF_spec 3 1 4 r.cps m0 o0 (by omega) (by omega)
  obtain ⟨m2, e2, o2, l2, b2⟩ := setF_spec 3 5 2 (r.blk 0).spb m1 o1 (by omega) (by omega)
  obtain ⟨m3, e3, o3, l3, b3⟩ := maskOr_spec (r.offs 0 / 8 - 1) 0b01111111 (eFbi (r.blk 0) <<< 7) m2 o2 (by omega)
  obtain ⟨m4, e4, o4, l4, b4⟩ := maskOr_spec (r.offs 0 / 8) 0b11111110 ((eFbi (r.blk 0) <<< 7) >>> 8) m3 o3 (by omega)
  have ms1 : ∀ i < 8, (0b01111111 : Nat).testBit i = decide (i < 7) := by decide
  have ms2 : ∀ i < 8, (0b11111110 : Nat).testBit i = decide (0 < i) := by decide
  have f := eFbi_bits (r.blk 0) (hv.e 0)
  have B : ∀ k, bit m4 k =
      if k = 31 + P then eBit (r.blk 0)
      else if k = 32 + P then fbi (r.blk 0)
      else bit m2 k := by
    intro k
    have hk8 : k % 8 < 8 := Nat.mod_lt _ (by decide)
    rw [b4, ms2 _ hk8, Nat.testBit_shiftRight, Nat.testBit_shiftLeft, b3, ms1 _ hk8, Nat.testBit_shiftLeft, off0]
    by_cases c1 : k / 8 = (33 + P) / 8
    · rw [if_pos c1, if_neg (show ¬ (k / 8 = (33 + P) / 8 - 1) by omega), if_neg (by omega)]
      by_cases q : 0 < k % 8
      · rw [if_neg (by omega), f.2.2 _ (by omega)]; simp [q]
      · rw [if_pos (by omega), show k % 8 = 0 by omega, show 8 + 0 - 7 = 1 by omega, f.2.1]; simp
    · rw [if_neg c1]
      by_cases c2 : k / 8 = (33 + P) / 8 - 1
      · rw [if_pos c2]
        by_cases q : k % 8 < 7
        · rw [if_neg (by omega), if_neg (by omega)]; simp [q]; omega
        · rw [if_pos (by omega), show k % 8 = 7 by omega, f.1]; simp
      · ifs
  refine ⟨m4, ?_, o4, by omega, ⟨?_, ?_, ?_, ?_, ?_, ?_, ?_, ?_, ?_, ?_⟩, ?_⟩
  · rw [e0, Option.bind_some, e1, Option.bind_some, e2, Option.bind_some, if_neg (by omega), e3, Option.bind_some, e4]
  · refine bitsOfField hv.usf fun i hi => ?_
    rw [B, b2, b1, b0]; ifs; exact congrArg _ (by omega)
  · refine bitsOfField hv.esP fun i hi => ?_
    rw [B, b2, b1, b0]; ifs; exact congrArg _ (by omega)
  · refine bitsOfField hv.rrbp fun i hi => ?_
    rw [B, b2, b1, b0]; ifs; exact congrArg _ (by omega)
  · refine bitsOfField hv.tfi fun i hi => ?_
    rw [B, b2, b1, b0]; ifs; exact congrArg _ (by omega)
  · refine bitsOfField hv.pr fun i hi => ?_
    rw [B, b2, b1, b0]; ifs; exact congrArg _ (by omega)
  · refine bitsOfField (v := (r.blk 0).bsn) (w := 11) hb fun i hi => ?_
    rw [B, b2, b1, b0]; ifs; exact congrArg _ (by omega)
  · refine bitsOfField (v := r.cps) (w := 4) hcps fun i hi => ?_
    rw [B, b2, b1]; ifs; exact congrArg _ (by omega)
  · refine bitsOfField hv.spb fun i hi => ?_
    rw [B, b2]; ifs; exact congrArg _ (by omega)
  · rw [B]; ifs
  · rw [B]; ifs
  · rintro k ⟨hk, hk'⟩
    have hk : 31 ≤ k := hk
    have k0 := hk' 0 (by rw [hnum]; decide)
    rw [off0] at k0
    simp only [Hdr.blockBits] at k0
    rw [B, b2, b1, b0]; ifs

end Verif.Blk
