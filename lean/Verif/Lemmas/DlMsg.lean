import Verif.Spec.DlAssign
import Verif.Lemmas.Csn1Enc
import Verif.Lemmas.UlMsg
/-!
# Lemmas: messages for mobiles and their tables
-/

namespace Verif.Csn1

open Verif.Bits (put length_put)
open Verif.UlMsg (opt bit)
open Verif.DlMsg
open Verif.DlCtrl
open T

/-- Every item of a table can be encoded. -/
def okAll (σ : Data) : Items → Path → Prop
  | .nil, _ => True
  | .cons i is, p => okItem σ i p ∧ okAll σ is p
  | .opt _ _ _ _ is, p => okAll σ is p

theorem ok_of_all (σ : Data) : ∀ (is : Items) (skip : Nat) (p : Path), okAll σ is p → okItems σ is skip p
  | .nil, _, _, _ => by unfold okItems; trivial
  | .cons _ is, skip + 1, p, h => by unfold okItems; exact ok_of_all σ is skip p h.2
  | .opt _ _ _ _ is, skip + 1, p, h => by unfold okItems; exact ok_of_all σ is skip p h
  | .cons i is, 0, p, h => by unfold okItems; exact ⟨h.1, ok_of_all σ is 0 p h.2⟩
  | .opt _ _ _ _ is, 0, p, h => by unfold okItems; exact ok_of_all σ is _ p h

theorem ok_type (σ : Data) (d : Items) (f : Nat) (o : Bool) (p : Path) (h : okAll σ d (f :: p)) : okItem σ (.type d f o) p := by
  unfold okItem; exact ok_of_all σ d 0 _ h

theorem drop_put (b v : Nat) : ∀ a, (put (a + b) v).drop a = put b v
  | 0 => by rw [Nat.zero_add]; rfl
  | a + 1 => by
    rw [show a + 1 + b = (a + b) + 1 by omega, put, List.drop_succ_cons, drop_put b v a]

/-- A right aligned bitmap is the last bits of its octets. -/
theorem rightBits_last (σ : Data) (q : Path) (n : Nat) (l : List Nat) (hl : l.length = (n + 7) / 8)
    (h : ∀ k, k < l.length → σ (k :: q) = l.getD k 0) : rightBits σ n q = lastBits n l := by
  have hm : ∀ (l : List Nat) (q : Path) (j : Nat), (∀ k, k < l.length → σ ((k + j) :: q) = l.getD k 0) →
      (List.range l.length).flatMap (fun k => put 8 (σ ((k + j) :: q))) = l.flatMap (put 8) := by
    intro l
    induction l with
    | nil => intro q j _; rfl
    | cons o l ih =>
      intro q j h
      rw [List.length_cons, List.range_succ_eq_map, List.flatMap_cons, List.flatMap_map, List.flatMap_cons]
      have h0 := h 0 (by simp)
      rw [h0]
      have := ih q (j + 1) (fun k hk => by
        have := h (k + 1) (by simpa using hk)
        rw [show k + (j + 1) = k + 1 + j by omega, this]; rfl)
      rw [← this]
      congr 1
      congr 1
      funext k
      rw [show Nat.succ k + j = k + (j + 1) by omega]
  unfold rightBits lastBits
  by_cases hz : n % 8 = 0
  · rw [if_pos hz, elems, show n / 8 = l.length by omega, show 8 * l.length - n = 0 by omega, List.drop_zero]
    have := hm l q 0 (fun k hk => h k hk)
    exact this
  · rw [if_neg hz]
    match l, hl, h with
    | [], hl, _ => simp at hl; omega
    | o :: l, hl, h =>
      rw [List.length_cons] at hl
      have h0 := h 0 (by simp)
      have hr : n / 8 = l.length := by omega
      rw [h0, hr, hm l q 1 (fun k hk => h (k + 1) (by simpa using hk)), List.flatMap_cons, List.length_cons,
        List.drop_append_of_le_length (by rw [length_put]; omega), show 8 * (l.length + 1) - n = 8 - n % 8 by omega]
      congr 1
      have := drop_put (n % 8) ([o] ++ l |>.getD 0 0) (8 - n % 8)
      rw [show 8 - n % 8 + n % 8 = 8 by omega] at this
      exact this.symm

theorem arr_at (p : Path) (l : List Nat) (d : Data) (k : Nat) : arr p l d (k :: p) = l.getD k 0 := by
  unfold arr; rw [List.tail_cons, if_pos rfl]; rfl

/-! ## Parts of the messages -/

/-- Option that depends on a condition. -/
theorem opt_if {α} (c : Prop) [Decidable c] (x : α) (F : α → List Bool) (B r : List Bool) (h : c → B = F x) :
    put 1 (if c then 1 else 0) ++ ((if (if c then 1 else 0) = 0 then [] else B) ++ r)
      = opt ((if c then some x else none).map F) ++ r := by
  by_cases hc : c
  · simp only [if_pos hc, h hc]; rfl
  · simp only [if_neg hc]; rfl

/-- Values of Frequency Parameters. -/
structure FreqAt (σ : Data) (p : Path) (c : Chan) : Prop where
  tsc : σ (Frequency_Parameters_t.TSC :: p) = c.tsc
  kind : σ (Frequency_Parameters_t.UnionType :: p) = if c.hop.isNone then 0 else 2
  arfcn : σ (Frequency_Parameters_t.u_ARFCN :: p) = if c.hop.isNone then c.arfcn else 0
  maio : σ (Direct_encoding_1_t.MAIO :: Frequency_Parameters_t.u_Direct_encoding_1 :: p) = (c.hop.map (·.maio)).getD 0
  hsn : σ (GPRS_Mobile_Allocation_t.HSN :: Direct_encoding_1_t.GPRS_Mobile_Allocation :: Frequency_Parameters_t.u_Direct_encoding_1 :: p) = (c.hop.map (·.hsn)).getD 0
  rfl : σ (GPRS_Mobile_Allocation_t.ElementsOf_RFL_NUMBER :: Direct_encoding_1_t.GPRS_Mobile_Allocation :: Frequency_Parameters_t.u_Direct_encoding_1 :: p) = 0
  union : σ (GPRS_Mobile_Allocation_t.UnionType :: Direct_encoding_1_t.GPRS_Mobile_Allocation :: Frequency_Parameters_t.u_Direct_encoding_1 :: p) = 0
  len : σ (MobileAllocation_t.MA_BitLength :: GPRS_Mobile_Allocation_t.u_MA :: Direct_encoding_1_t.GPRS_Mobile_Allocation :: Frequency_Parameters_t.u_Direct_encoding_1 :: p) = (c.hop.map (·.bitLen)).getD 0
  ma : ∀ k, σ (k :: maPath p) = (maOctets c).getD k 0

theorem length_octets (l : List Nat) : (l.flatMap (put 8)).length = 8 * l.length := by
  induction l with
  | nil => rfl
  | cons o l ih => rw [List.flatMap_cons, List.length_append, ih, length_put, List.length_cons]; omega

theorem length_lastBits (n : Nat) (l : List Nat) (h : l.length = (n + 7) / 8) : (lastBits n l).length = n := by
  unfold lastBits
  rw [List.length_drop, length_octets]; omega

theorem freq_valid (c : Chan) (h : ChanOk c) : (freqOf c).Valid := by
  obtain ⟨h1, h2, h3⟩ := h
  refine ⟨h1, ?_⟩
  unfold freqOf
  cases hc : c.hop with
  | none => exact h2
  | some x =>
    obtain ⟨a1, a2, a3, a4, a5⟩ := h3 x hc
    exact ⟨a1, a2, by rw [length_lastBits _ _ a5]; exact a3, by rw [length_lastBits _ _ a5]; exact a4⟩

theorem freq_ok (σ : Data) (p : Path) (c : Chan) (h : FreqAt σ p c) (hc : ChanOk c) : okAll σ Frequency_Parameters_t p := by
  unfold Frequency_Parameters_t
  refine ⟨by unfold okItem; trivial, ?_, trivial⟩
  unfold okItem
  rw [h.kind]
  cases hh : c.hop with
  | none =>
    refine ⟨by decide, ?_⟩
    rw [show (if (none : Option Hop).isNone = true then 0 else 2) = 0 from rfl]
    unfold okUnion
    rw [if_pos (by decide)]
    unfold okItem; trivial
  | some x =>
    rw [show (if (some x).isNone = true then 0 else 2) = 2 from rfl]
    refine ⟨by decide, ?_⟩
    simp only [okUnion, Items.isEnd, Nat.reduceSub, Nat.reduceEqDiff, decide_false, Bool.or_self, Bool.false_eq_true, if_false, decide_true, Bool.true_or, if_true]
    refine ok_type σ _ _ _ _ ?_
    unfold Direct_encoding_1_t
    refine ⟨by unfold okItem; trivial, ok_type σ _ _ _ _ ?_, trivial⟩
    unfold GPRS_Mobile_Allocation_t
    refine ⟨by unfold okItem; trivial, by unfold okItem; trivial, ?_, trivial⟩
    unfold okItem
    rw [h.union]
    refine ⟨by decide, ?_⟩
    unfold okUnion
    rw [if_pos (by decide)]
    refine ok_type σ _ _ _ _ ?_
    unfold MobileAllocation_t
    refine ⟨?_, by unfold okItem; trivial, trivial⟩
    unfold okItem
    rw [h.len, hh]
    obtain ⟨_, _, b3, b4, _⟩ := hc.2.2 x hh
    exact ⟨b3, Nat.lt_of_le_of_lt b4 (by decide)⟩

theorem freq_bits (σ : Data) (p : Path) (c : Chan) (h : FreqAt σ p c) (hc : ChanOk c) :
    bitsItems σ Frequency_Parameters_t 0 p = (freqOf c).bits := by
  simp only [Frequency_Parameters_t, bits_nil, bits_cons, bitsItem, h.tsc, h.kind]
  unfold Freq.bits freqOf
  cases hh : c.hop with
  | none =>
    rw [show (if (none : Option Hop).isNone = true then 0 else 2) = 0 from rfl]
    simp only [bitsUnion, Items.isEnd, decide_true, Bool.true_or, if_true, bitsItem, h.arfcn, hh, Option.isNone_none, List.append_nil]
  | some x =>
    obtain ⟨b1, b2, b3, b4, b5⟩ := hc.2.2 x hh
    rw [show (if (some x).isNone = true then 0 else 2) = 2 from rfl]
    have hma := rightBits_last σ (maPath p) x.bitLen x.ma b5 (fun k _ => by rw [h.ma k]; unfold maOctets; rw [hh]; rfl)
    simp only [bitsUnion, Items.isEnd, Nat.reduceSub, Nat.reduceEqDiff, decide_false, Bool.or_self, Bool.false_eq_true, if_false, decide_true, Bool.true_or, if_true,
      bitsItem, Direct_encoding_1_t, GPRS_Mobile_Allocation_t, MobileAllocation_t, bits_nil, bits_cons, h.maio, h.hsn, h.rfl, h.union, h.len, hh, Option.map_some, Option.getD_some,
      List.range_zero, List.flatMap_nil, List.nil_append, List.append_nil]
    rw [show (MobileAllocation_t.MA_BITMAP :: GPRS_Mobile_Allocation_t.u_MA :: Direct_encoding_1_t.GPRS_Mobile_Allocation :: Frequency_Parameters_t.u_Direct_encoding_1 :: p) = maPath p from rfl, hma]
    rw [length_lastBits _ _ b5, show put 1 0 = [false] from rfl]
    simp only [List.append_assoc]


theorem timing_ok (σ : Data) (p : Path) : okAll σ Packet_Timing_Advance_t p := by
  unfold Packet_Timing_Advance_t
  refine ⟨?_, ?_, ?_, trivial⟩ <;> (unfold okItem; trivial)

/-- Packet Timing Advance with conditions for its parts. -/
theorem timing_bits (σ : Data) (p : Path) (c d : Prop) [Decidable c] [Decidable d] (ta i s : Nat)
    (h1 : σ (Packet_Timing_Advance_t.Exist_TIMING_ADVANCE_VALUE :: p) = if c then 1 else 0)
    (h2 : c → σ (Packet_Timing_Advance_t.TIMING_ADVANCE_VALUE :: p) = ta)
    (h3 : σ (Packet_Timing_Advance_t.Exist_IndexAndtimeSlot :: p) = if d then 1 else 0)
    (h4 : d → σ (Packet_Timing_Advance_t.TIMING_ADVANCE_INDEX :: p) = i)
    (h5 : d → σ (Packet_Timing_Advance_t.TIMING_ADVANCE_TIMESLOT_NUMBER :: p) = s) :
    bitsItems σ Packet_Timing_Advance_t 0 p
      = (Timing.mk (if c then some ta else none) (if d then some (i, s) else none)).bits := by
  simp only [Packet_Timing_Advance_t, bits_nil, bits_opt1, bits_opt2, bitsItem, h1, h3]
  rw [opt_if c ta (put 6) _ _ (fun hc => by rw [h2 hc]),
    opt_if d (i, s) (fun x => put 4 x.1 ++ put 3 x.2) _ _ (fun hd => by rw [h4 hd, h5 hd]), List.append_nil]
  rfl

theorem global_ok (σ : Data) (p : Path) (dl : Bool) (h : σ (Global_TFI_t.UnionType :: p) = dl.toNat) : okAll σ Global_TFI_t p := by
  unfold Global_TFI_t
  refine ⟨?_, trivial⟩
  unfold okItem
  rw [h]
  cases dl with
  | false => exact ⟨by decide, by unfold okUnion; rw [if_pos (by decide)]; unfold okItem; trivial⟩
  | true =>
    refine ⟨by decide, ?_⟩
    simp only [okUnion, Items.isEnd, Bool.toNat_true, Nat.reduceSub, Nat.reduceEqDiff, decide_false, Bool.or_self, Bool.false_eq_true, if_false, decide_true, if_true]
    unfold okItem; trivial

theorem global_bits (σ : Data) (p : Path) (dl : Bool) (n : Nat) (h : σ (Global_TFI_t.UnionType :: p) = dl.toNat)
    (h1 : σ (Global_TFI_t.u_UPLINK_TFI :: p) = n) (h2 : σ (Global_TFI_t.u_DOWNLINK_TFI :: p) = n) :
    bitsItems σ Global_TFI_t 0 p = bit dl ++ put 5 n := by
  simp only [Global_TFI_t, bits_nil, bits_cons, bitsItem, h, put_bit, List.append_nil]
  cases dl with
  | false => simp only [bitsUnion, Bool.toNat_false, decide_true, Bool.true_or, if_true, bitsItem, h1]
  | true =>
    simp only [bitsUnion, Items.isEnd, Bool.toNat_true, Nat.reduceSub, Nat.reduceEqDiff, decide_false, Bool.or_self, Bool.false_eq_true, if_false, decide_true, if_true, bitsItem, h2]

theorem power_ok (σ : Data) (p : Path) : okAll σ Power_Control_Parameters_t p := by
  unfold Power_Control_Parameters_t
  refine ⟨?_, ?_, ?_, ?_, ?_, ?_, ?_, ?_, ?_, trivial⟩ <;> (unfold okItem; trivial)

theorem power_bits (σ : Data) (p : Path) (alpha gamma : Nat) (slots : Nat → Bool)
    (h1 : σ (Power_Control_Parameters_t.ALPHA :: p) = alpha)
    (h2 : ∀ t, t < 8 → σ (Power_Control_Parameters_t.Slot_Exist t :: p) = (slots t).toNat)
    (h3 : ∀ t, t < 8 → σ (Power_Control_Parameters_t.Slot_GAMMA_TN t :: p) = if slots t then gamma else 0) :
    bitsItems σ Power_Control_Parameters_t 0 p
      = put 4 alpha ++ tns.flatMap fun t => opt ((if slots t then some gamma else none).map (put 5)) := by
  have hs : ∀ t, t < 8 → ∀ r, put 1 (slots t).toNat ++ ((if (slots t).toNat = 0 then [] else put 5 (if slots t = true then gamma else 0)) ++ r)
      = opt ((if slots t then some gamma else none).map (put 5)) ++ r := by
    intro t _ r
    cases slots t <;> rfl
  simp only [Power_Control_Parameters_t, bits_nil, bits_cons, bits_opt1, bitsItem, h1, h2 0 (by decide), h2 1 (by decide), h2 2 (by decide), h2 3 (by decide), h2 4 (by decide), h2 5 (by decide), h2 6 (by decide), h2 7 (by decide),
    h3 0 (by decide), h3 1 (by decide), h3 2 (by decide), h3 3 (by decide), h3 4 (by decide), h3 5 (by decide), h3 6 (by decide), h3 7 (by decide)]
  rw [hs 0 (by decide), hs 1 (by decide), hs 2 (by decide), hs 3 (by decide), hs 4 (by decide), hs 5 (by decide), hs 6 (by decide), hs 7 (by decide)]
  simp only [tns, List.flatMap_cons, List.flatMap_nil, List.append_nil]

theorem slotMask_bits (slots : Nat → Bool) : put 8 (slotMask slots) = tns.map slots := by
  unfold slotMask tns
  simp only [List.map_cons, List.map_nil, List.foldl_cons, List.foldl_nil]
  generalize slots 0 = a; generalize slots 1 = b; generalize slots 2 = c; generalize slots 3 = d
  generalize slots 4 = e; generalize slots 5 = f; generalize slots 6 = g; generalize slots 7 = h
  revert a b c d e f g h
  decide

/-- Padding of the encoder is that of the standard. -/
theorem padding_eq : ∀ n, n ≤ 176 → padBits n = padding n := by
  have : ∀ n, n < 177 → padBits n = padding n := by decide +kernel
  exact fun n h => this n (by omega)

/-! ## Whole tables -/

/-- The end of a table. -/
def pad : Items := .cons .padding .nil

theorem enc_pad (σ : Data) (p : Path) (e : E) : encItems σ pad 0 p e = if e.rem < 0 then none else some ⟨0, e.out ++ padBits e.rem.toNat⟩ := by
  unfold pad
  rw [encItems, encItem]
  by_cases h : e.rem < 0
  · rw [if_pos h]; rfl
  · rw [if_neg h]
    dsimp only [Option.bind_some]
    rw [if_neg (by decide), encItems]

/-- A table without parts that may be left out at the end: all of the message and padding, or nothing. -/
theorem enc_strict (σ : Data) (a : Items) (ha : a.closed = true) (hs : a.strict = true) (ho : okItems σ a 0 []) (l : List Bool)
    (hl : bitsItems σ a 0 [] = l) :
    encItems σ (a.app pad) 0 [] ⟨176, []⟩ = if l.length ≤ 176 then some ⟨0, fill l⟩ else none := by
  have w := enc_items σ a 0 [] ⟨176, []⟩ ho
  rw [hl] at w
  rw [enc_app σ pad [] a 0 _ ha (Nat.zero_le _)]
  by_cases h : l.length ≤ 176
  · rw [if_pos h, w.1 (by show (l.length : Int) ≤ 176; omega), Option.bind_some, enc_pad]
    have hr : (E.add ⟨176, []⟩ l).rem = ((176 - l.length : Nat) : Int) := by show (176 : Int) - l.length = _; omega
    rw [hr, if_neg (by omega), Int.toNat_natCast, padding_eq _ (by omega)]
    rfl
  · rw [if_neg h]
    cases hr : encItems σ a 0 [] ⟨176, []⟩ with
    | none => rfl
    | some e =>
      rw [Option.bind_some, enc_pad, if_pos (w.2 hs (by show (176 : Int) < l.length; omega) e hr)]

/-- A table that ends with additions which may be left out when the block is full. -/
theorem enc_later (σ : Data) (a : Items) (f : Nat) (nu : Bool) (i : Item) (ha : a.closed = true) (hs : a.strict = true) (ho : okItems σ a 0 [])
    (hi : okItem σ i []) (hsi : i.strict = true) (l b : List Bool) (hl : bitsItems σ a 0 [] = l) (c : Bool) (hb : c = true → bitsItem σ i [] = b) (hc : σ [f] = c.toNat) :
    encItems σ (a.app (.opt f true nu 1 (.cons i pad))) 0 [] ⟨176, []⟩
      = if l.length = 176 then some ⟨0, l⟩
        else if (l ++ later 1 (if c then some b else none)).length ≤ 176 then some ⟨0, fill (l ++ later 1 (if c then some b else none))⟩ else none := by
  have w := enc_items σ a 0 [] ⟨176, []⟩ ho
  rw [hl] at w
  have wi := fun e => enc_item σ i [] e hi
  rw [enc_app σ _ [] a 0 _ ha (Nat.zero_le _)]
  by_cases h : l.length ≤ 176
  · rw [w.1 (by show (l.length : Int) ≤ 176; omega), Option.bind_some]
    have hr : (E.add ⟨176, []⟩ l).rem = ((176 - l.length : Nat) : Int) := by show (176 : Int) - l.length = _; omega
    have hout : (E.add ⟨176, []⟩ l).out = l := rfl
    generalize E.add ⟨176, []⟩ l = e at hr hout
    rw [encItems]
    by_cases he : l.length = 176
    · have h0 : e.rem = 0 := by omega
      rw [if_pos he, if_pos (by simp [h0]), pad, encItems, ← pad, enc_pad, if_neg (by omega), h0, hout]
      show some (E.mk 0 (l ++ [])) = _
      rw [List.append_nil]
    · have h0 : ¬ e.rem = 0 := by omega
      rw [if_neg he, if_neg (by simp [h0]), emit_add, hc, put_bit]
      have hr1 : (e.add (bit c)).rem = ((175 - l.length : Nat) : Int) := by show e.rem - ((1 : Nat) : Int) = _; omega
      have hout1 : (e.add (bit c)).out = l ++ [c] := by show e.out ++ [c] = _; rw [hout]
      dsimp only
      generalize e.add (bit c) = e1 at hr1 hout1
      rw [if_neg (by omega)]
      cases c with
      | false =>
        rw [show (if false.toNat = 0 then 1 else 0) = 1 from rfl, encItems, enc_pad, if_neg (by omega), hr1, hout1, Int.toNat_natCast, padding_eq _ (by omega)]
        have hlen : (l ++ later 1 (if false = true then some b else none)).length = l.length + 1 := by
          show (l ++ [false]).length = _
          rw [List.length_append]; rfl
        rw [if_pos (by omega)]
        unfold fill
        rw [hlen, show 176 - (l.length + 1) = 175 - l.length by omega]
        rfl
      | true =>
        rw [hb rfl] at wi
        rw [show (if true.toNat = 0 then 1 else 0) = 0 from rfl, encItems]
        have hlen : (l ++ later 1 (if true = true then some b else none)).length = l.length + 1 + b.length := by
          show (l ++ (true :: b)).length = _
          rw [List.length_append, List.length_cons]; omega
        by_cases hb2 : (b.length : Int) ≤ e1.rem
        · have hfit : (l ++ later 1 (if true = true then some b else none)).length ≤ 176 := by omega
          rw [(wi e1).1 hb2, Option.bind_some, if_pos hfit]
          have hr2 : (e1.add b).rem = ((176 - (l.length + 1 + b.length) : Nat) : Int) := by show e1.rem - (b.length : Int) = _; omega
          rw [if_neg (by omega), enc_pad, if_neg (by omega), hr2, Int.toNat_natCast, padding_eq _ (by omega)]
          unfold fill
          rw [hlen]
          congr 2
          show (e1.out ++ b) ++ _ = _
          rw [hout1, if_pos rfl]
          show _ = l ++ (true :: b) ++ _
          simp only [List.append_assoc, List.cons_append, List.nil_append]
        · have hfit : ¬ (l ++ later 1 (if true = true then some b else none)).length ≤ 176 := by omega
          rw [if_neg hfit]
          cases hx : encItem σ i [] e1 with
          | none => rfl
          | some e2 =>
            rw [Option.bind_some, if_pos ((wi e1).2 hsi (by omega) e2 hx)]
  · rw [if_neg (by omega), if_neg (by rw [List.length_append]; omega)]
    cases hr : encItems σ a 0 [] ⟨176, []⟩ with
    | none => rfl
    | some e =>
      have hn := w.2 hs (by show (176 : Int) < l.length; omega) e hr
      rw [Option.bind_some, encItems, if_neg (by simp; omega)]
      dsimp only
      rw [if_pos (by show e.rem - ((1 : Nat) : Int) < 0; omega)]

/-- The same with the additions the standard asks for. -/
theorem enc_later' (σ : Data) (a : Items) (f : Nat) (nu : Bool) (i : Item) (ha : a.closed = true) (hs : a.strict = true) (ho : okItems σ a 0 [])
    (hi : okItem σ i []) (hsi : i.strict = true) (l b : List Bool) (hl : bitsItems σ a 0 [] = l) (c : Bool) (hb : c = true → bitsItem σ i [] = b) (hc : σ [f] = c.toNat) :
    encItems σ (a.app (.opt f true nu 1 (.cons i pad))) 0 [] ⟨176, []⟩
      = if l.length = 176 then some ⟨0, l⟩
        else if (l ++ later (176 - l.length) (if c then some b else none)).length ≤ 176
          then some ⟨0, fill (l ++ later (176 - l.length) (if c then some b else none))⟩ else none := by
  rw [enc_later σ a f nu i ha hs ho hi hsi l b hl c hb hc]
  by_cases h : l.length = 176
  · rw [if_pos h, if_pos h]
  · rw [if_neg h, if_neg h]
    by_cases h2 : l.length < 176
    · have : ∀ x, later 1 x = later (176 - l.length) x := by
        intro x
        cases x with
        | none => show [false] = if 176 - l.length = 0 then [] else [false]; rw [if_neg (by omega)]
        | some _ => rfl
      rw [this]
    · rw [if_neg (by rw [List.length_append]; omega), if_neg (by rw [List.length_append]; omega)]

/-- The block, from what the tables yield. -/
theorem encode_some (rrbp : Nat) (poll : Bool) (usf : Nat) (d : Items) (σ : Data) (l : List Bool)
    (h : encItems σ d 0 [] ⟨176, []⟩ = some ⟨0, l⟩) : encode rrbp poll.toNat usf d σ = some (DlMsg.header rrbp poll usf ++ l) := by
  unfold encode
  rw [h, Option.bind_some, if_pos rfl, put_bit]
  rfl

theorem encode_none (rrbp : Nat) (sp : Nat) (usf : Nat) (d : Items) (σ : Data)
    (h : encItems σ d 0 [] ⟨176, []⟩ = none) : encode rrbp sp usf d σ = none := by
  unfold encode
  rw [h]; rfl

end Verif.Csn1
