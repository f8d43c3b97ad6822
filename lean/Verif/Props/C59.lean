import Verif.Lemmas.DlPua
import Verif.Lemmas.Csn1Dec
import Verif.Props.C58
/-!
# C59: an uplink assignment says what the mobile has been given

`puaBlock` is the radio block the PCU sends; `ulAssignment` is the Packet Uplink Assignment of 3GPP TS 44.060 which
describes the TBF (`Verif/Spec/DlMsg.lean`, `Verif/Spec/DlAssign.lean`).
-/

namespace Verif.C59

open Verif.Bits (put length_put)
open Verif.UlMsg (opt bit)
open Verif.DlMsg Verif.DlCtrl Verif.Csn1 Verif.Csn1.T
open Verif.C58 (length_padding freqLen freq_length opt_length)

/-- Values of the TBF and the configuration are in the ranges of the standard. -/
structure Ok (id : Nat ⊕ (Nat × Bool)) (t : UlTbf) (rrbp alpha gamma : Nat) (egprs : Bool) : Prop where
  tlli : ∀ n, id = .inl n → n < 2 ^ 32
  old : ∀ n d, id = .inr (n, d) → n < 32
  tfi : t.tfi < 32
  code : t.code < if egprs then 16 else 4
  usf : ∀ tn u, t.usf tn = some u → u < 8
  ws : 64 ≤ t.ws ∧ t.ws ≤ 1024
  chan : ChanOk t.chan
  rrbp : rrbp < 4
  alpha : alpha < 16
  gamma : gamma < 32

/-- Index of the timing advance, if there is one; the time slot is always 0. -/
abbrev index (taIdx : Int) : Option (Nat × Nat) := if 0 ≤ taIdx ∧ taIdx < 16 then some (taIdx.toNat, 0) else none

section
variable (id : Nat ⊕ (Nat × Bool)) (t : UlTbf) (poll : Bool) (rrbp alpha gamma : Nat) (taIdx : Int)

/-- The message the mobile has to get for a GPRS TBF. -/
abbrev gprs : UplinkAssignment := ulAssignment id t poll rrbp alpha gamma (index taIdx) false 0

/-- The message with a coded window size for an EGPRS TBF. The mobile has to get the one with `windowCode t.ws`. -/
abbrev egprs (window : Nat) : UplinkAssignment := ulAssignment id t poll rrbp alpha gamma (index taIdx) true window

theorem valid (eg : Bool) (w : Nat) (hw : w < 32) (h : Ok id t rrbp alpha gamma eg) : (ulAssignment id t poll rrbp alpha gamma (index taIdx) eg w).Valid := by
  refine ⟨h.rrbp, Nat.zero_lt_succ _, ?_, ?_, ⟨?_, ?_⟩, ?_, ?_, ?_⟩
  · cases id with
    | inl n => exact h.tlli n rfl
    | inr x => exact h.old x.1 x.2 rfl
  · have hc := h.code
    cases eg with
    | false => exact hc
    | true => exact ⟨hc, hw⟩
  · intro v hv
    dsimp only [ulAssignment, timingOf] at hv
    by_cases hh : t.ta ≤ 63
    · rw [if_pos hh] at hv; cases hv; omega
    · rw [if_neg hh] at hv; cases hv
  · intro i hi
    dsimp only [ulAssignment, timingOf, index] at hi
    by_cases hh : 0 ≤ taIdx ∧ taIdx < 16
    · rw [if_pos hh] at hi; cases hi; exact ⟨by dsimp only; omega, Nat.zero_lt_succ _⟩
    · rw [if_neg hh] at hi; cases hi
  · intro f hf
    cases hf
    exact freq_valid _ h.chan
  · intro n hn
    cases hn
    exact h.tfi
  · show Slots.Valid (if alpha = 0 ∧ gamma = 0 then Slots.plain t.usf else Slots.power alpha fun tn => (t.usf tn).map fun u => (u, gamma))
    by_cases hh : alpha = 0 ∧ gamma = 0
    · rw [if_pos hh]; exact h.usf
    · rw [if_neg hh]
      refine ⟨h.alpha, fun tn x hx => ?_⟩
      dsimp only at hx
      cases hu : t.usf tn with
      | none => rw [hu] at hx; cases hx
      | some u => rw [hu] at hx; cases hx; exact ⟨h.usf tn u hu, h.gamma⟩

theorem length_block (m : UplinkAssignment) (h : m.content.length ≤ 176) : m.block.length = 184 := by
  unfold UplinkAssignment.block fill DlMsg.header
  simp only [List.length_append, length_put, length_padding, bit, List.length_singleton]
  omega

/-- **C59, GPRS**. For every GPRS uplink TBF, with values in range: the block sent is the Packet Uplink Assignment
which describes the TBF, if it fits into a radio block, with all values valid and 23 octets; otherwise nothing is sent. -/
theorem C59_gprs (h : Ok id t rrbp alpha gamma false) :
    puaBlock id t poll rrbp alpha gamma taIdx false
      = (if (gprs id t poll rrbp alpha gamma taIdx).content.length ≤ 176 then some (gprs id t poll rrbp alpha gamma taIdx).block else none)
    ∧ (gprs id t poll rrbp alpha gamma taIdx).Valid
    ∧ ∀ b, puaBlock id t poll rrbp alpha gamma taIdx false = some b → b.length = 184 := by
  have key : puaBlock id t poll rrbp alpha gamma taIdx false
      = (if (gprs id t poll rrbp alpha gamma taIdx).content.length ≤ 176 then some (gprs id t poll rrbp alpha gamma taIdx).block else none) := by
    have hw := wend_pad (writePua id t alpha gamma taIdx false) _ _ (pua_gprs id t alpha gamma taIdx h.chan ⟨176, []⟩)
    rw [← enc_pua] at hw
    have hb : put 6 10 ++ put 2 0 ++ [false] ++ (idOf id).bits ++ ([false] ++ gprsBits t alpha gamma taIdx) = (gprs id t poll rrbp alpha gamma taIdx).base := by
      unfold gprsBits UplinkAssignment.base
      simp only [List.append_assoc]
      rfl
    rw [hb] at hw
    replace hw : encItems (writePua id t alpha gamma taIdx false) Packet_Uplink_Assignment_t 0 [] ⟨176, []⟩
      = if (gprs id t poll rrbp alpha gamma taIdx).content.length ≤ 176 then some ⟨0, fill (gprs id t poll rrbp alpha gamma taIdx).content⟩ else none := hw
    by_cases hf : (gprs id t poll rrbp alpha gamma taIdx).content.length ≤ 176
    · rw [if_pos hf] at hw ⊢
      exact encode_some _ _ _ _ _ _ hw
    · rw [if_neg hf] at hw ⊢
      exact encode_none _ _ _ _ _ hw
  refine ⟨key, valid id t poll rrbp alpha gamma taIdx false 0 (by decide) h, fun b hb => ?_⟩
  rw [key] at hb
  by_cases hf : (gprs id t poll rrbp alpha gamma taIdx).content.length ≤ 176
  · rw [if_pos hf] at hb; cases hb; exact length_block _ hf
  · rw [if_neg hf] at hb; cases hb

theorem put_mod : ∀ (n v : Nat), put n (v % 2 ^ n) = put n v := by
  intro n v
  have h := put_num (put n v)
  rw [length_put, num_put] at h
  exact h

/-- **C59, EGPRS (partial)**. For every EGPRS uplink TBF, with values in range: the block sent is the Packet Uplink
Assignment which describes the TBF, except for the window size: 5 low bits of the number of blocks instead of the coded
size (`C59_window_wrong`). If it does not fit, nothing is sent. -/
theorem C59_egprs_partial (h : Ok id t rrbp alpha gamma true) :
    puaBlock id t poll rrbp alpha gamma taIdx true
      = (if (egprs id t poll rrbp alpha gamma taIdx (t.ws % 32)).content.length ≤ 176 then some (egprs id t poll rrbp alpha gamma taIdx (t.ws % 32)).block else none)
    ∧ (egprs id t poll rrbp alpha gamma taIdx (t.ws % 32)).Valid
    ∧ ∀ b, puaBlock id t poll rrbp alpha gamma taIdx true = some b → b.length = 184 := by
  have key : puaBlock id t poll rrbp alpha gamma taIdx true
      = (if (egprs id t poll rrbp alpha gamma taIdx (t.ws % 32)).content.length ≤ 176 then some (egprs id t poll rrbp alpha gamma taIdx (t.ws % 32)).block else none) := by
    have hw := writes_pad (writePua id t alpha gamma taIdx true) _ _ (pua_egprs id t alpha gamma taIdx h.chan ⟨176, []⟩)
    rw [← enc_pua] at hw
    have hb : put 6 10 ++ put 2 0 ++ [false] ++ (idOf id).bits ++ ([true] ++ egprsBits t alpha gamma taIdx)
        = (egprs id t poll rrbp alpha gamma taIdx (t.ws % 32)).content := by
      have hp : put 5 (t.ws % 256) = put 5 (t.ws % 32) := by
        rw [show t.ws % 32 = t.ws % 256 % 2 ^ 5 by omega, put_mod]
      unfold egprsBits UplinkAssignment.content UplinkAssignment.base
      rw [hp]
      simp only [List.append_assoc]
      rfl
    rw [hb] at hw
    by_cases hf : (egprs id t poll rrbp alpha gamma taIdx (t.ws % 32)).content.length ≤ 176
    · rw [if_pos hf] at hw ⊢
      exact encode_some _ _ _ _ _ _ hw
    · rw [if_neg hf] at hw ⊢
      exact encode_none _ _ _ _ _ hw
  refine ⟨key, valid id t poll rrbp alpha gamma taIdx true _ (Nat.mod_lt _ (by decide)) h, fun b hb => ?_⟩
  rw [key] at hb
  by_cases hf : (egprs id t poll rrbp alpha gamma taIdx (t.ws % 32)).content.length ≤ 176
  · rw [if_pos hf] at hb; cases hb; exact length_block _ hf
  · rw [if_neg hf] at hb; cases hb

/-- Blocks with different window sizes differ. -/
theorem window_inj (w v : Nat) (hw : w < 32) (hv : v < 32)
    (h : (egprs id t poll rrbp alpha gamma taIdx w).block = (egprs id t poll rrbp alpha gamma taIdx v).block) : w = v := by
  obtain ⟨P, S, hs⟩ : ∃ P S, ∀ x, (egprs id t poll rrbp alpha gamma taIdx x).content = P ++ (put 5 x ++ S) :=
    ⟨put 6 10 ++ put 2 0 ++ [false] ++ (idOf id).bits ++ [true] ++ put 2 0 ++ [false] ++ [false] ++ put 4 t.code ++ bit true,
     [false] ++ bit false ++ bit true ++ [false] ++ (timingOf t.ta (index taIdx)).bits ++ [false] ++ opt (some (freqOf t.chan).bits) ++ put 2 1 ++ (dynOf t alpha gamma).bits,
     fun x => by
      unfold UplinkAssignment.content UplinkAssignment.base
      simp only [List.append_assoc]
      rfl⟩
  unfold UplinkAssignment.block fill at h
  rw [hs, hs] at h
  have h1 := List.append_cancel_left h
  simp only [List.append_assoc] at h1
  have h2 := List.append_cancel_left h1
  have h3 := (List.append_inj h2 (by rw [length_put, length_put])).1
  have h4 := congrArg num h3
  rw [num_put, num_put] at h4
  rw [Nat.mod_eq_of_lt hw, Nat.mod_eq_of_lt hv] at h4
  exact h4

/-- For every window of an EGPRS mobile except the smallest, the window size in the assignment is not the one of the
TBF. -/
theorem C59_window_wrong (h : Ok id t rrbp alpha gamma true) (n : Nat) (hn : t.ws = 64 + 32 * n) (h0 : 1 ≤ n) (b : List Bool)
    (hb : puaBlock id t poll rrbp alpha gamma taIdx true = some b) :
    b ≠ (egprs id t poll rrbp alpha gamma taIdx (windowCode t.ws)).block := by
  rw [(C59_egprs_partial id t poll rrbp alpha gamma taIdx h).1] at hb
  by_cases hf : (egprs id t poll rrbp alpha gamma taIdx (t.ws % 32)).content.length ≤ 176
  · rw [if_pos hf] at hb
    cases hb
    intro hx
    have hw := h.ws
    have hc : windowCode t.ws = n := by unfold windowCode; omega
    have := window_inj id t poll rrbp alpha gamma taIdx (t.ws % 32) (windowCode t.ws) (Nat.mod_lt _ (by decide)) (by omega) hx
    omega
  · rw [if_neg hf] at hb; cases hb

/-- Number of slots. -/
def count (s : Nat → Option Nat) : Nat := (tns.map fun t => (s t).isSome.toNat).sum

theorem slots_length : ((dynOf t alpha gamma).slots).bits.length ≤ 13 + 8 * count t.usf := by
  unfold dynOf
  by_cases hh : alpha = 0 ∧ gamma = 0
  · dsimp only
    rw [if_pos hh]
    have h : ∀ tn, (opt ((t.usf tn).map (put 3))).length = 1 + 3 * (t.usf tn).isSome.toNat := by
      intro tn
      cases t.usf tn <;> rfl
    simp only [Slots.bits, tns, List.flatMap_cons, List.flatMap_nil, List.length_append, h, List.length_cons, List.length_nil, count, List.map_cons, List.map_nil, List.sum_cons, List.sum_nil]
    omega
  · dsimp only
    rw [if_neg hh]
    have h : ∀ tn, (opt (((t.usf tn).map fun u => (u, gamma)).map fun x => put 3 x.1 ++ put 5 x.2)).length = 1 + 8 * (t.usf tn).isSome.toNat := by
      intro tn
      cases t.usf tn <;> rfl
    simp only [Slots.bits, tns, List.flatMap_cons, List.flatMap_nil, List.length_append, h, List.length_cons, List.length_nil, length_put, count, List.map_cons, List.map_nil, List.sum_cons, List.sum_nil]
    omega

theorem timing_length (i : Option (Nat × Nat)) : (timingOf t.ta i).bits.length ≤ if i.isSome then 15 else 8 := by
  unfold timingOf Timing.bits
  by_cases h1 : t.ta ≤ 63 <;> cases i <;> simp [h1, opt, length_put]

theorem id_length : (idOf id).bits.length ≤ 34 := by
  cases id with
  | inl n => simp [idOf, Id.bits, length_put]
  | inr x => simp [idOf, Id.bits, length_put, bit]

theorem content_length (eg : Bool) (w : Nat) (h : ChanOk t.chan) :
    (ulAssignment id t poll rrbp alpha gamma (index taIdx) eg w).content.length
      ≤ 84 + (if eg then 14 else 0) + (if 0 ≤ taIdx ∧ taIdx < 16 then 7 else 0) + freqLen t.chan + 8 * count t.usf := by
  have hs := slots_length t alpha gamma
  have ht := timing_length t (index taIdx)
  have hi := id_length id
  have hd : (dynOf t alpha gamma).bits.length = 11 + ((dynOf t alpha gamma).slots).bits.length := by
    unfold DlMsg.Dynamic.bits
    simp only [List.length_append, bit, List.length_singleton]
    rw [show (dynOf t alpha gamma).tfi.map (put 5) = some (put 5 t.tfi) from rfl, opt_length, length_put]
  have hx : (if (index taIdx).isSome = true then 15 else 8) = 8 + if 0 ≤ taIdx ∧ taIdx < 16 then 7 else 0 := by
    unfold index
    by_cases hh : 0 ≤ taIdx ∧ taIdx < 16
    · rw [if_pos hh, if_pos hh]; rfl
    · rw [if_neg hh, if_neg hh]; rfl
  rw [hx] at ht
  cases eg with
  | true =>
    have hs : (ulAssignment id t poll rrbp alpha gamma (index taIdx) true w).content
        = (put 6 10 ++ put 2 0 ++ [false] ++ (idOf id).bits ++ [true] ++ put 2 0 ++ [false] ++ [false] ++ put 4 t.code ++ bit true)
          ++ (put 5 w ++ ([false] ++ bit false ++ bit true ++ [false] ++ (timingOf t.ta (index taIdx)).bits ++ [false] ++ opt (some (freqOf t.chan).bits) ++ put 2 1 ++ (dynOf t alpha gamma).bits)) := by
      unfold UplinkAssignment.content UplinkAssignment.base
      simp only [List.append_assoc]
      rfl
    rw [hs]
    simp only [List.length_append, length_put, List.length_singleton, bit, opt_length, freq_length _ h, hd, if_true]
    omega
  | false =>
    have hs : (ulAssignment id t poll rrbp alpha gamma (index taIdx) false w).content
        = (ulAssignment id t poll rrbp alpha gamma (index taIdx) false w).base ++ later (176 - (ulAssignment id t poll rrbp alpha gamma (index taIdx) false w).base.length) none := rfl
    have hb : (ulAssignment id t poll rrbp alpha gamma (index taIdx) false w).base
        = (put 6 10 ++ put 2 0 ++ [false] ++ (idOf id).bits)
          ++ ([false] ++ put 2 t.code ++ bit true ++ (timingOf t.ta (index taIdx)).bits ++ opt (some (freqOf t.chan).bits) ++ put 2 1 ++ (dynOf t alpha gamma).bits) := by
      unfold UplinkAssignment.base
      simp only [List.append_assoc]
      rfl
    have hl : ∀ n, (later n none).length ≤ 1 := by
      intro n
      show (if n = 0 then [] else [false]).length ≤ 1
      split <;> simp
    rw [hs, List.length_append, hb]
    have hl' := hl (176 - ((put 6 10 ++ put 2 0 ++ [false] ++ (idOf id).bits)
          ++ ([false] ++ put 2 t.code ++ bit true ++ (timingOf t.ta (index taIdx)).bits ++ opt (some (freqOf t.chan).bits) ++ put 2 1 ++ (dynOf t alpha gamma).bits)).length)
    generalize (later _ none).length = q at hl' ⊢
    simp only [List.length_append, length_put, List.length_singleton, bit, opt_length, freq_length _ h, hd, Bool.false_eq_true, if_false]
    omega
end

theorem count_le (s : Nat → Option Nat) : count s ≤ 8 := by
  have h : ∀ b : Bool, b.toNat ≤ 1 := by decide
  have h0 := h (s 0).isSome; have h1 := h (s 1).isSome; have h2 := h (s 2).isSome; have h3 := h (s 3).isSome
  have h4 := h (s 4).isSome; have h5 := h (s 5).isSome; have h6 := h (s 6).isSome; have h7 := h (s 7).isSome
  simp only [count, tns, List.map_cons, List.map_nil, List.sum_cons, List.sum_nil]
  omega

section
variable (id : Nat ⊕ (Nat × Bool)) (t : UlTbf) (poll : Bool) (rrbp alpha gamma : Nat)

/-- Without frequency hopping and without an index an assignment is sent for every GPRS TBF, -/
theorem C59_gprs_single_arfcn (h : Ok id t rrbp alpha gamma false) (hh : t.chan.hop = none) :
    puaBlock id t poll rrbp alpha gamma (-1) false = some (gprs id t poll rrbp alpha gamma (-1)).block := by
  have hl := content_length id t poll rrbp alpha gamma (-1) false 0 h.chan
  have h3 := count_le t.usf
  have h4 : freqLen t.chan = 15 := by unfold freqLen; rw [hh]
  rw [(C59_gprs id t poll rrbp alpha gamma (-1) h).1, if_pos]
  rw [if_neg (by decide), if_neg (by decide)] at hl
  show (ulAssignment id t poll rrbp alpha gamma (index (-1)) false 0).content.length ≤ 176
  omega

/-- and for every EGPRS TBF with at most seven time slots (with the wrong window size). -/
theorem C59_egprs_single_arfcn_partial (h : Ok id t rrbp alpha gamma true) (hh : t.chan.hop = none) (hs : count t.usf ≤ 7) :
    puaBlock id t poll rrbp alpha gamma (-1) true = some (egprs id t poll rrbp alpha gamma (-1) (t.ws % 32)).block := by
  have hl := content_length id t poll rrbp alpha gamma (-1) true (t.ws % 32) h.chan
  have h4 : freqLen t.chan = 15 := by unfold freqLen; rw [hh]
  rw [(C59_egprs_partial id t poll rrbp alpha gamma (-1) h).1, if_pos]
  rw [if_pos rfl, if_neg (by decide)] at hl
  show (ulAssignment id t poll rrbp alpha gamma (index (-1)) true (t.ws % 32)).content.length ≤ 176
  omega
end

/-! ## Cases -/

/-- Two time slots with USFs 3 and 5, MCS-7 or CS-3. -/
def tbf (code : Nat) : UlTbf := ⟨11, 4, 192, code, fun tn => if tn = 6 then some 3 else if tn = 7 then some 5 else none, ⟨7, 871, none⟩⟩

theorem ok_tbf (eg : Bool) : Ok (.inl 0xc0ffee01) (tbf (if eg then 6 else 2)) 0 3 12 eg := by
  refine ⟨fun n h => by (cases h; decide), fun n d h => (by cases h), by cases eg <;> decide, by cases eg <;> decide, ?_, by cases eg <;> decide,
    ⟨by cases eg <;> decide, by cases eg <;> decide, fun h hh => (by cases eg <;> cases hh)⟩, by decide, by decide, by decide⟩
  intro tn u h
  dsimp only [tbf] at h
  by_cases h6 : tn = 6
  · rw [if_pos h6] at h; cases h; decide
  · rw [if_neg h6] at h
    by_cases h7 : tn = 7
    · rw [if_pos h7] at h; cases h; decide
    · rw [if_neg h7] at h; cases h

example : puaBlock (.inl 0xc0ffee01) (tbf 2) true 0 3 12 (-1) false = some (gprs (.inl 0xc0ffee01) (tbf 2) true 0 3 12 (-1)).block :=
  C59_gprs_single_arfcn _ _ _ _ _ _ (ok_tbf false) rfl

/-- The wrong window size is met: window 192 is announced as 64. -/
example : puaBlock (.inl 0xc0ffee01) (tbf 6) true 0 3 12 (-1) true = some (egprs (.inl 0xc0ffee01) (tbf 6) true 0 3 12 (-1) 0).block :=
  C59_egprs_single_arfcn_partial _ _ _ _ _ _ (ok_tbf true) rfl (by decide)

example : (egprs (.inl 0xc0ffee01) (tbf 6) true 0 3 12 (-1) 0).block ≠ (egprs (.inl 0xc0ffee01) (tbf 6) true 0 3 12 (-1) 4).block :=
  C59_window_wrong _ _ _ _ _ _ _ (ok_tbf true) 4 rfl (by decide) _ (C59_egprs_single_arfcn_partial _ _ _ _ _ _ (ok_tbf true) rfl (by decide))

/-- Eight time slots of an EGPRS TBF: the assignment is one bit too long, nothing is sent. -/
theorem C59_eight_slots_not_sent :
    puaBlock (.inl 0xc0ffee01) { tbf 6 with usf := fun _ => some 1 } true 0 3 12 (-1) true = none
    ∧ Ok (.inl 0xc0ffee01) { tbf 6 with usf := fun _ => some 1 } 0 3 12 true := by
  have ok : Ok (.inl 0xc0ffee01) { tbf 6 with usf := fun _ => some 1 } 0 3 12 true :=
    { ok_tbf true with usf := fun tn u h => by cases h; decide }
  refine ⟨?_, ok⟩
  rw [(C59_egprs_partial _ _ _ _ _ _ _ ok).1, if_neg (by decide +kernel)]

end Verif.C59
