import Verif.Lemmas.DlPda
/-!
# C58: a downlink assignment says what the mobile has been given

`pdaBlock` is the radio block the PCU sends; `dlAssignment` is the Packet Downlink Assignment of 3GPP TS 44.060 which
describes the TBF (`Verif/Spec/DlMsg.lean`, `Verif/Spec/DlAssign.lean`).
-/

namespace Verif.C58

open Verif.Bits (put length_put)
open Verif.UlMsg (opt bit)
open Verif.DlMsg Verif.DlCtrl Verif.Csn1 Verif.Csn1.T

/-- Values of the TBF and the configuration are in the ranges of the standard. -/
structure Ok (old : Option (Nat × Bool)) (t : DlTbf) (rrbp alpha gamma : Nat) (taIdx : Int) (taTs : Nat) : Prop where
  old : ∀ n d, old = some (n, d) → n < 32
  tlli : t.tlli < 2 ^ 32
  tfi : t.tfi < 32
  ws : 64 ≤ t.ws ∧ t.ws ≤ 1024
  chan : ChanOk t.chan
  rrbp : rrbp < 4
  alpha : alpha < 16
  gamma : gamma < 32
  idx : taIdx < 16
  ts : taTs < 8

/-- Index and time slot of the timing advance, if there is an index. -/
abbrev index (taIdx : Int) (taTs : Nat) : Option (Nat × Nat) := if 0 ≤ taIdx then some (taIdx.toNat, taTs) else none

section
variable (old : Option (Nat × Bool)) (t : DlTbf) (poll : Bool) (rrbp alpha gamma : Nat) (taIdx : Int) (taTs : Nat) (egprs ctrlAck : Bool)

/-- The message the mobile has to get. -/
abbrev msg : DownlinkAssignment := dlAssignment old t poll rrbp alpha gamma (index taIdx taTs) egprs ctrlAck

theorem valid (h : Ok old t rrbp alpha gamma taIdx taTs) : (msg old t poll rrbp alpha gamma taIdx taTs egprs ctrlAck).Valid := by
  refine ⟨h.rrbp, Nat.zero_lt_succ _, ?_, Nat.zero_lt_succ _, ⟨?_, ?_⟩, ?_, ?_, ?_, ?_⟩
  · cases old with
    | none => exact h.tlli
    | some x => exact h.old x.1 x.2 rfl
  · intro v hv
    dsimp only [msg, dlAssignment, timingOf] at hv
    by_cases hh : t.ta ≤ 63
    · rw [if_pos hh] at hv; cases hv; omega
    · rw [if_neg hh] at hv; cases hv
  · intro i hi
    dsimp only [msg, dlAssignment, timingOf, index] at hi
    have := h.idx
    by_cases hh : 0 ≤ taIdx
    · rw [if_pos hh] at hi; cases hi; exact ⟨by dsimp only; omega, h.ts⟩
    · rw [if_neg hh] at hi; cases hi
  · intro f hf
    cases hf
    exact freq_valid _ h.chan
  · intro n hn
    cases hn
    exact h.tfi
  · intro p hp
    cases hp
    refine ⟨h.alpha, fun tn g hg => ?_⟩
    dsimp only at hg
    by_cases hh : t.slots tn = true
    · rw [if_pos hh] at hg; cases hg; exact h.gamma
    · rw [if_neg hh] at hg; cases hg
  · intro e he
    dsimp only [msg, dlAssignment] at he
    cases egprs with
    | false => cases he
    | true =>
      rw [if_pos rfl] at he
      cases he
      have := h.ws
      exact ⟨by dsimp only [windowCode]; omega, Nat.zero_lt_succ _⟩

/-- All the PCU does, by the length of the message. -/
theorem block_eq (hc : ChanOk t.chan) :
    pdaBlock old t poll rrbp alpha gamma taIdx taTs egprs ctrlAck
      = let m := msg old t poll rrbp alpha gamma taIdx taTs egprs ctrlAck
        if m.base.length = 176 then some (DlMsg.header rrbp poll 0 ++ m.base)
        else if m.content.length ≤ 176 then some m.block else none := by
  have hl := pda_bits old t alpha gamma taIdx taTs egprs ctrlAck hc poll rrbp
  have he := enc_later' _ pdaPre Packet_Downlink_Assignment_t.Exist_AdditionsR99 false _ rfl rfl (pda_pre_ok old t alpha gamma taIdx taTs egprs ctrlAck hc)
    (pda_r99_ok old t alpha gamma taIdx taTs egprs ctrlAck) rfl _
    (DlEgprs.mk (windowCode t.ws) 0).bits hl egprs (fun h => by subst h; exact pda_r99_bits old t alpha gamma taIdx taTs ctrlAck) rfl
  rw [← pda_split] at he
  have hcont : ∀ n, later n (if egprs = true then some (DlEgprs.mk (windowCode t.ws) 0).bits else none)
      = later n ((msg old t poll rrbp alpha gamma taIdx taTs egprs ctrlAck).egprs.map DlEgprs.bits) := by
    intro n; cases egprs <;> rfl
  rw [hcont] at he
  replace he : encItems (writePda old t alpha gamma taIdx taTs egprs ctrlAck) Packet_Downlink_Assignment_t 0 [] ⟨176, []⟩
    = if (msg old t poll rrbp alpha gamma taIdx taTs egprs ctrlAck).base.length = 176 then some ⟨0, (msg old t poll rrbp alpha gamma taIdx taTs egprs ctrlAck).base⟩
      else if (msg old t poll rrbp alpha gamma taIdx taTs egprs ctrlAck).content.length ≤ 176
        then some ⟨0, fill (msg old t poll rrbp alpha gamma taIdx taTs egprs ctrlAck).content⟩ else none := he
  dsimp only
  unfold pdaBlock
  by_cases h1 : (msg old t poll rrbp alpha gamma taIdx taTs egprs ctrlAck).base.length = 176
  · rw [if_pos h1] at he ⊢
    exact encode_some _ _ _ _ _ _ he
  · rw [if_neg h1] at he ⊢
    by_cases h2 : (msg old t poll rrbp alpha gamma taIdx taTs egprs ctrlAck).content.length ≤ 176
    · rw [if_pos h2] at he ⊢
      exact encode_some _ _ _ _ _ _ he
    · rw [if_neg h2] at he ⊢
      exact encode_none _ _ _ _ _ he

theorem length_padding (n : Nat) : (padding n).length = n := by
  cases n with
  | zero => rfl
  | succ n => unfold padding; simp

theorem length_block (m : DownlinkAssignment) (h : m.content.length ≤ 176) : m.block.length = 184 := by
  unfold DownlinkAssignment.block fill DlMsg.header
  simp only [List.length_append, length_put, length_padding, bit, List.length_singleton]
  omega

/-- Without the additions of release 99 the block is full at 176 bits. -/
theorem gprs_full (hg : egprs = false) (h : (msg old t poll rrbp alpha gamma taIdx taTs egprs ctrlAck).base.length = 176) :
    (msg old t poll rrbp alpha gamma taIdx taTs egprs ctrlAck).content = (msg old t poll rrbp alpha gamma taIdx taTs egprs ctrlAck).base := by
  subst hg
  unfold DownlinkAssignment.content
  rw [h]
  show _ ++ [] = _
  rw [List.append_nil]

/-- **C58**. For every downlink TBF, with values in range: if a Packet Downlink Assignment which describes the TBF
fits into a radio block, the block sent is this assignment, with all values valid, and has 23 octets. -/
theorem C58_fits (h : Ok old t rrbp alpha gamma taIdx taTs)
    (hf : (msg old t poll rrbp alpha gamma taIdx taTs egprs ctrlAck).content.length ≤ 176) :
    pdaBlock old t poll rrbp alpha gamma taIdx taTs egprs ctrlAck = some (msg old t poll rrbp alpha gamma taIdx taTs egprs ctrlAck).block
    ∧ (msg old t poll rrbp alpha gamma taIdx taTs egprs ctrlAck).Valid
    ∧ (msg old t poll rrbp alpha gamma taIdx taTs egprs ctrlAck).block.length = 184 := by
  refine ⟨?_, valid old t poll rrbp alpha gamma taIdx taTs egprs ctrlAck h, length_block _ hf⟩
  rw [block_eq _ _ _ _ _ _ _ _ _ _ h.chan]
  dsimp only
  by_cases h1 : (msg old t poll rrbp alpha gamma taIdx taTs egprs ctrlAck).base.length = 176
  · rw [if_pos h1]
    have hg : egprs = false := by
      cases egprs with
      | false => rfl
      | true =>
        unfold DownlinkAssignment.content at hf
        rw [List.length_append, h1] at hf
        exact absurd hf (by
          show ¬ 176 + (true :: _).length ≤ 176
          rw [List.length_cons]; omega)
    unfold DownlinkAssignment.block fill
    rw [gprs_full _ _ _ _ _ _ _ _ _ _ hg h1, h1]
    show _ = some (_ ++ (_ ++ []))
    rw [List.append_nil]
    rfl
  · rw [if_neg h1, if_pos hf]

/-- **C58 (partial)**. A block that is sent is the assignment which describes the TBF, except if the EGPRS parameters
are all that does not fit. That a block is sent for every TBF is missing (`C58_fits`, `C58_too_long`). -/
theorem C58_sent_partial (h : Ok old t rrbp alpha gamma taIdx taTs) (b : List Bool)
    (hb : pdaBlock old t poll rrbp alpha gamma taIdx taTs egprs ctrlAck = some b) :
    (b = (msg old t poll rrbp alpha gamma taIdx taTs egprs ctrlAck).block ∧ b.length = 184)
    ∨ (egprs = true ∧ (msg old t poll rrbp alpha gamma taIdx taTs egprs ctrlAck).base.length = 176) := by
  by_cases h1 : (msg old t poll rrbp alpha gamma taIdx taTs egprs ctrlAck).base.length = 176
  · cases hg : egprs with
    | true => rw [hg] at h1; exact .inr ⟨rfl, h1⟩
    | false =>
      have hf : (msg old t poll rrbp alpha gamma taIdx taTs egprs ctrlAck).content.length ≤ 176 := by
        rw [gprs_full _ _ _ _ _ _ _ _ _ _ hg h1, h1]
        exact Nat.le_refl _
      obtain ⟨e, _, e2⟩ := C58_fits old t poll rrbp alpha gamma taIdx taTs egprs ctrlAck h hf
      rw [hb] at e
      cases e
      rw [hg] at e2
      rw [hg]
      exact .inl ⟨rfl, e2⟩
  · rw [block_eq _ _ _ _ _ _ _ _ _ _ h.chan] at hb
    dsimp only at hb
    rw [if_neg h1] at hb
    by_cases h2 : (msg old t poll rrbp alpha gamma taIdx taTs egprs ctrlAck).content.length ≤ 176
    · rw [if_pos h2] at hb
      cases hb
      exact .inl ⟨rfl, length_block _ h2⟩
    · rw [if_neg h2] at hb
      cases hb

/-- An assignment that does not fit is not sent at all, not even in parts, except if only the EGPRS parameters do
not fit. -/
theorem C58_too_long (hc : ChanOk t.chan)
    (h : 176 < (msg old t poll rrbp alpha gamma taIdx taTs egprs ctrlAck).content.length)
    (hb : (msg old t poll rrbp alpha gamma taIdx taTs egprs ctrlAck).base.length ≠ 176) :
    pdaBlock old t poll rrbp alpha gamma taIdx taTs egprs ctrlAck = none := by
  rw [block_eq _ _ _ _ _ _ _ _ _ _ hc]
  dsimp only
  rw [if_neg hb, if_neg (by omega)]

/-- The exception: an EGPRS TBF is announced as if it were a GPRS TBF. -/
theorem C58_exact_fit (hc : ChanOk t.chan)
    (hb : (msg old t poll rrbp alpha gamma taIdx taTs true ctrlAck).base.length = 176) :
    pdaBlock old t poll rrbp alpha gamma taIdx taTs true ctrlAck = some (msg old t poll rrbp alpha gamma taIdx taTs false ctrlAck).block := by
  rw [block_eq _ _ _ _ _ _ _ _ _ _ hc]
  dsimp only
  rw [if_pos hb]
  have hb' : (msg old t poll rrbp alpha gamma taIdx taTs false ctrlAck).base.length = 176 := hb
  unfold DownlinkAssignment.block fill
  rw [gprs_full _ _ _ _ _ _ _ _ _ _ rfl hb', hb']
  show _ = some (_ ++ (_ ++ []))
  rw [List.append_nil]
  rfl

/-- Number of slots. -/
def count (s : Nat → Bool) : Nat := (tns.map fun t => (s t).toNat).sum

/-- Length of what describes the frequencies. -/
def freqLen (c : Chan) : Nat := match c.hop with | none => 15 | some x => 25 + x.bitLen

theorem freq_length (c : Chan) (h : ChanOk c) : (freqOf c).bits.length = freqLen c := by
  unfold Freq.bits freqOf freqLen
  cases hh : c.hop with
  | none => simp only [List.length_append, length_put]
  | some x =>
    obtain ⟨_, _, _, _, b5⟩ := h.2.2 x hh
    simp only [List.length_append, length_put, length_lastBits _ _ b5, List.length_singleton]
    omega

theorem slot_length (s : Nat → Bool) (gamma : Nat) :
    (tns.flatMap fun t => opt ((if s t = true then some gamma else none).map (put 5))).length = 8 + 5 * count s := by
  have h : ∀ tn, (opt ((if s tn = true then some gamma else none).map (put 5))).length = 1 + 5 * (s tn).toNat := by
    intro tn
    cases s tn <;> rfl
  simp only [tns, List.flatMap_cons, List.flatMap_nil, List.length_append, h, List.length_nil, count, List.map_cons, List.map_nil, List.sum_cons, List.sum_nil]
  omega

theorem opt_length (l : List Bool) : (opt (some l)).length = l.length + 1 := rfl

/-- Length of the assignment without the additions of release 99. -/
theorem base_length (h : ChanOk t.chan) :
    (msg old t poll rrbp alpha gamma taIdx taTs egprs ctrlAck).base.length
      = 45 + (if old.isSome then 7 else 34) + (if t.ta ≤ 63 then 8 else 2) + (if 0 ≤ taIdx then 7 else 0) + freqLen t.chan + 5 * count t.slots := by
  have hid : (msg old t poll rrbp alpha gamma taIdx taTs egprs ctrlAck).id.bits.length = if old.isSome then 7 else 34 := by
    cases old with
    | none => rfl
    | some x => rfl
  have ht : (msg old t poll rrbp alpha gamma taIdx taTs egprs ctrlAck).timing.bits.length = (if t.ta ≤ 63 then 8 else 2) + (if 0 ≤ taIdx then 7 else 0) := by
    show (timingOf t.ta (index taIdx taTs)).bits.length = _
    unfold timingOf Timing.bits index
    by_cases h1 : t.ta ≤ 63 <;> by_cases h2 : 0 ≤ taIdx <;> simp only [h1, h2, if_true, if_false] <;> rfl
  unfold DownlinkAssignment.base
  simp only [List.length_append, hid, ht, length_put]
  show 6 + 2 + 1 + _ + 1 + 2 + 1 + 1 + 8 + _ + 1 + (opt (some (freqOf t.chan).bits)).length + (opt (some (put 5 t.tfi))).length
    + (opt (some (put 4 alpha ++ tns.flatMap fun tn => opt ((if t.slots tn = true then some gamma else none).map (put 5))))).length + 1 + 1 = _
  simp only [opt_length, List.length_append, length_put, slot_length, freq_length _ h]
  omega

theorem count_le (s : Nat → Bool) : count s ≤ 8 := by
  have h : ∀ b : Bool, b.toNat ≤ 1 := by decide
  have h0 := h (s 0); have h1 := h (s 1); have h2 := h (s 2); have h3 := h (s 3)
  have h4 := h (s 4); have h5 := h (s 5); have h6 := h (s 6); have h7 := h (s 7)
  simp only [count, tns, List.map_cons, List.map_nil, List.sum_cons, List.sum_nil]
  omega

theorem content_length : (msg old t poll rrbp alpha gamma taIdx taTs egprs ctrlAck).content.length
    ≤ (msg old t poll rrbp alpha gamma taIdx taTs egprs ctrlAck).base.length + 12 := by
  unfold DownlinkAssignment.content
  rw [List.length_append]
  generalize (msg old t poll rrbp alpha gamma taIdx taTs egprs ctrlAck).base.length = n
  cases egprs with
  | true =>
    show n + (true :: (opt (some (put 5 (windowCode t.ws) ++ put 2 0 ++ [false])) ++ [false] ++ [false])).length ≤ _
    simp only [opt, List.length_cons, List.length_append, length_put, List.length_nil]
    omega
  | false =>
    show n + (if 176 - n = 0 then [] else [false]).length ≤ _
    split <;> simp

/-- Without frequency hopping an assignment is sent for every TBF. -/
theorem C58_single_arfcn (h : Ok old t rrbp alpha gamma taIdx taTs) (hh : t.chan.hop = none) :
    pdaBlock old t poll rrbp alpha gamma taIdx taTs egprs ctrlAck = some (msg old t poll rrbp alpha gamma taIdx taTs egprs ctrlAck).block := by
  refine (C58_fits old t poll rrbp alpha gamma taIdx taTs egprs ctrlAck h ?_).1
  have h1 := content_length old t poll rrbp alpha gamma taIdx taTs egprs ctrlAck
  have h2 := base_length old t poll rrbp alpha gamma taIdx taTs egprs ctrlAck h.chan
  have h3 := count_le t.slots
  have h4 : freqLen t.chan = 15 := by unfold freqLen; rw [hh]
  have h5 : (if old.isSome = true then 7 else 34) ≤ 34 := by split <;> omega
  have h6 : (if t.ta ≤ 63 then 8 else 2) ≤ 8 := by split <;> omega
  have h7 : (if 0 ≤ taIdx then 7 else 0) ≤ 7 := by split <;> omega
  omega

end

/-! ## Cases -/

/-- Four time slots, hopping over 44 frequencies. -/
def hopTbf : DlTbf := ⟨0xc0ffee01, 5, 3, 192, fun t => decide (2 ≤ t ∧ t < 6), ⟨7, 871, some ⟨1, 33, 44, [0x0f, 0xff, 0xff, 0xff, 0xff, 0xff]⟩⟩⟩

/-- Two time slots, one frequency. -/
def tbf : DlTbf := ⟨0xc0ffee01, 5, 3, 192, fun t => decide (t = 6 ∨ t = 7), ⟨7, 871, none⟩⟩

theorem ok_hop : Ok none hopTbf 0 3 12 (-1) 0 :=
  ⟨by simp, by decide, by decide, by decide, ⟨by decide, by decide, fun h hh => by cases hh; decide⟩, by decide, by decide, by decide, by decide, by decide⟩

theorem ok_tbf : Ok (some (9, false)) tbf 0 3 12 (-1) 0 :=
  ⟨fun n d h => by cases h; decide, by decide, by decide, by decide, ⟨by decide, by decide, fun h hh => by cases hh⟩, by decide, by decide, by decide, by decide, by decide⟩

/-- The exact fit is met: the EGPRS parameters of an EGPRS TBF are not sent. -/
theorem C58_egprs_lost : ∃ b, pdaBlock none hopTbf true 0 3 12 (-1) 0 true true = some b
    ∧ b = (msg none hopTbf true 0 3 12 (-1) 0 false true).block
    ∧ b ≠ (msg none hopTbf true 0 3 12 (-1) 0 true true).block := by
  have hb : (msg none hopTbf true 0 3 12 (-1) 0 true true).base.length = 176 := by decide +kernel
  refine ⟨_, C58_exact_fit none hopTbf true 0 3 12 (-1) 0 true ok_hop.chan hb, rfl, fun h => ?_⟩
  have := congrArg List.length h
  exact absurd this (by decide +kernel)

/-- With one time slot more nothing is sent. -/
example : pdaBlock none { hopTbf with slots := fun t => decide (2 ≤ t ∧ t < 7) } true 0 3 12 (-1) 0 true true = none :=
  C58_too_long _ _ _ _ _ _ _ _ _ _ ok_hop.chan (by decide +kernel) (by decide +kernel)

/-- A plain assignment of two time slots, addressed by the TFI of an uplink TBF. -/
example : pdaBlock (some (9, false)) tbf true 0 3 12 (-1) 0 true true = some (msg (some (9, false)) tbf true 0 3 12 (-1) 0 true true).block :=
  C58_single_arfcn _ _ _ _ _ _ _ _ _ _ ok_tbf rfl

example : (msg (some (9, false)) tbf true 0 3 12 (-1) 0 true true).block.take 40
    = [false, true, false, false, true, false, false, false,  false, false, false, false, true, false, false, false,
       false, false, false, false, true, false, false, true,  false, false, false, false, true, false, false, false,
       false, false, false, true, true, true, false, false] := by decide +kernel

end Verif.C58
