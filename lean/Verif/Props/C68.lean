import Verif.Lemmas.ResReq
/-!
C68: a Packet Resource Request is understood as the mobile meant it.

`Spec/ResReq`: the message as the standard defines it, for mobiles of releases 97 to 12. `rcvControl` (Model/UlRx): what the PCU makes of
a control block. A list of further access technologies must not have more than three entries (C67), and there must be no measurements of
type 2: the theorem marked `fails` shows what happens otherwise.
-/

namespace Verif.ResReq

open Verif.Csn1
open Verif.Bits (put)

/-- Who the request is from, for the PCU. -/
def Name.who : Name → Who
  | .uplink t => .ulTfi t
  | .downlink t => .dlTfi t
  | .tlli v => .tlli v

/-- The request is not dropped, whatever is behind it in the block: it is taken as one of the mobile with that TLLI or TFI, with the
multislot classes the mobile states and the levels it has measured. C value, SIGN_VAR in steps of a quarter dB rounded to dB, and the
interference in steps of -2 dB. -/
theorem C68_request_partial (m : Request) (rest : List Bool) (h : m.Valid) (hl : m.bits.length ≤ 184) (h2 : m.noType2)
    (hf : ∀ e, m.capability = some e → ∀ y ∈ e.1 :: e.2, y.further ≤ 3) :
    ∃ r, rcvControl (m.bits ++ rest) = some (.resReq r) ∧ r.who = m.name.who ∧
      r.gprs = (m.capability.elim 0 fun e => RaCap.gprs (e.1 :: e.2)) ∧ r.egprs = (m.capability.elim 0 fun e => RaCap.egprs (e.1 :: e.2)) ∧
      r.cValue = m.cValue ∧ r.signVar = (m.signVar.map fun v => (v + 2) / 4) ∧
      ∀ t, t < 8 → r.iLevel t = ((m.iLevel t).map fun v => -2 * (v : Int)) := by
  obtain ⟨pos, d, e, who, cl, cv, sv, il⟩ := prr_at (blk := m.bits ++ rest) (b := rest) m h hf h2 rfl hl
  obtain ⟨l, hb⟩ : ∃ l, m.bits ++ rest = put 2 1 ++ (put 5 m.spare ++ (put 1 m.retry.toNat ++ (put 6 5 ++ l))) := by
    have key : ∀ t, UlMsg.header m.spare m.retry 5 ++ t ++ rest =
        put 2 1 ++ (put 5 m.spare ++ (put 1 m.retry.toNat ++ (put 6 5 ++ (t ++ rest)))) := by
      intro t
      unfold UlMsg.header
      rw [put_bit]
      simp only [List.append_assoc]
    exact ⟨_, key _⟩
  have hat : At (m.bits ++ rest) 0 (put 2 1 ++ (put 5 m.spare ++ (put 1 m.retry.toNat ++ (put 6 5 ++ l)))) := hb
  have h0 := hat.read (by decide)
  have h8 := hat.step.step.step
  simp only [Bits.length_put, Nat.zero_add, Nat.reduceAdd] at h8
  have h8 := h8.read (by decide)
  have hu : ulDecode (m.bits ++ rest) = .ok ⟨0, pos, d⟩ := by
    unfold ulDecode
    rw [h0, h8]
    exact e
  refine ⟨resReqOf d, ?_, ?_, ?_, ?_, cv, ?_, ?_⟩
  · unfold rcvControl
    rw [hu, h8]
    rfl
  · have : whoAt d [T.Packet_Resource_Request_t.ID] = m.name.who := by rw [who]; cases m.name <;> rfl
    rw [← this]; rfl
  · show (if d [T.Packet_Resource_Request_t.Exist_MS_Radio_Access_capability2] ≠ 0 then _ else _) = _
    cases hc : m.capability with
    | none => rw [hc] at cl; rw [if_neg (fun h => h cl)]; rfl
    | some x => rw [hc] at cl; rw [cl.1, if_pos (by decide)]; exact cl.2.1
  · show (if d [T.Packet_Resource_Request_t.Exist_MS_Radio_Access_capability2] ≠ 0 then _ else _) = _
    cases hc : m.capability with
    | none => rw [hc] at cl; rw [if_neg (fun h => h cl)]; rfl
    | some x => rw [hc] at cl; rw [cl.1, if_pos (by decide)]; exact cl.2.2
  · show (if d [T.Packet_Resource_Request_t.Exist_SIGN_VAR] ≠ 0 then _ else _) = _
    cases hc : m.signVar with
    | none => rw [hc] at sv; rw [if_neg (fun h => h sv)]; rfl
    | some x => rw [hc] at sv; rw [sv.1, sv.2, if_pos (by decide)]; rfl
  · intro t ht
    have il := il t ht
    show (if t < 8 ∧ d [T.InterferenceMeasurementReport_t.Exist, t, T.Packet_Resource_Request_t.I_LEVEL_TN] ≠ 0 then _ else _) = _
    cases hc : m.iLevel t with
    | none => rw [hc] at il; rw [if_neg (fun h => h.2 il)]; rfl
    | some x => rw [hc] at il; rw [il.1, il.2, if_pos ⟨ht, by decide⟩]; rfl

/-! ## Where it fails -/

/-- A mobile of release 7 asks with its TLLI and reports the link quality of type 2 of one time slot. -/
def withType2 : Request where
  spare := 0
  retry := false
  access := some 1
  name := .tlli 0xc0a81234
  capability := none
  request := ⟨4, 2, 0, 0, 120⟩
  changeMark := none
  cValue := 33
  signVar := some 9
  iLevel := fun t => if t = 2 ∨ t = 3 ∨ t = 4 then some 7 else none
  additions := some ⟨none, none, some 3, false, false, some ⟨none, some ⟨some ⟨false, none,
    some ⟨some fun t => if t = 2 then some (1, 9) else none, some fun t => if t = 2 ∨ t = 3 ∨ t = 4 then some 15 else none⟩, none⟩⟩⟩⟩

theorem withType2_name : withType2.name.Valid := by simp [withType2, Name.Valid]

theorem withType2_cap : withType2.capability = none := rfl

theorem withType2_valid : withType2.Valid := by
  refine ⟨by decide, ?_, withType2_name, fun _ h => absurd (withType2_cap.symm.trans h) (Option.some_ne_none _).symm, ⟨by decide, by decide, by decide, by decide, by decide⟩, nofun, by decide, ?_, ?_, ?_⟩
  · intro v hv; cases hv; decide
  · intro v hv; cases hv; decide
  · intro t v hv
    have hv : (if t = 2 ∨ t = 3 ∨ t = 4 then some 7 else none) = some v := hv
    split at hv <;> cases hv; decide
  · intro r hr; cases hr
    refine ⟨nofun, nofun, ?_, ?_⟩
    · intro v hv; cases hv; decide
    · intro r5 hr; cases hr
      refine ⟨nofun, ?_⟩
      intro r6 hr; cases hr
      intro r7 hr; cases hr
      refine ⟨nofun, ?_, nofun⟩
      intro q hq; cases hq
      refine ⟨?_, ?_⟩
      · intro f hf t x hx; cases hf
        have hx : (if t = 2 then some (1, 9) else none) = some x := hx
        split at hx <;> cases hx; decide
      · intro f hf t x hx; cases hf
        have hx : (if t = 2 ∨ t = 3 ∨ t = 4 then some 15 else none) = some x := hx
        split at hx <;> cases hx; decide

/-- With the usual padding behind it (11.1: octets 2b) the PCU drops it: for each time slot without a mean it still reads one, and so runs out of bits. -/
theorem C68_fails_type2 : ∃ (m : Request) (rest : List Bool), m.Valid ∧ (m.bits ++ rest).length = 184 ∧
    ¬ ∃ r, rcvControl (m.bits ++ rest) = some (.resReq r) := by
  refine ⟨withType2, put 16 0x2b2b, withType2_valid, by decide +kernel, ?_⟩
  have h : (match rcvControl (withType2.bits ++ put 16 0x2b2b) with | some .dropped => true | _ => false) = true := by
    decide +kernel
  rintro ⟨r, hr⟩
  rw [hr] at h
  cases h

/-! ## Cases that meet the hypotheses -/

/-- The same mobile without measurements of type 2, but with EGPRS ones and its capability. -/
def plain : Request :=
  { withType2 with
    capability := some (.access 1 (.r97 ⟨4, none, true, true, false, false⟩ (some ⟨none, some (10, true), none⟩) 2), [])
    additions := some ⟨none, none, some 3, false, false, some ⟨none, some ⟨some ⟨false, none, none, none⟩⟩⟩⟩ }

example : plain.Valid ∧ plain.bits.length ≤ 184 ∧ plain.noType2 ∧ (∀ e, plain.capability = some e → ∀ y ∈ e.1 :: e.2, y.further ≤ 3) ∧
    ∃ r, rcvControl (plain.bits ++ List.replicate 30 true) = some (.resReq r) ∧ r.who = .tlli 0xc0a81234 ∧ r.gprs = 10 ∧ r.egprs = 0 ∧
      r.cValue = 33 ∧ r.signVar = some 2 ∧ r.iLevel 2 = some (-14) ∧ r.iLevel 5 = none := by
  have hv : plain.Valid := by
    refine ⟨by decide, ?_, withType2_valid.2.2.1, ?_, withType2_valid.2.2.2.2.1, nofun, by decide, ?_, withType2_valid.2.2.2.2.2.2.2.2.1, ?_⟩
    · intro v hv; cases hv; decide
    · intro x hx; cases hx
      refine ⟨?_, by decide⟩
      intro e he
      rcases List.mem_cons.1 he with rfl | he
      · refine ⟨by decide, ⟨⟨by decide, nofun⟩, ?_⟩, by decide⟩
        intro x hx; cases hx
        refine ⟨nofun, ?_, nofun⟩
        intro y hy; cases hy; decide
      · cases he
    · intro v hv; cases hv; decide
    · intro r hr; cases hr
      refine ⟨nofun, nofun, ?_, ?_⟩
      · intro v hv; cases hv; decide
      · intro r5 hr; cases hr
        refine ⟨nofun, ?_⟩
        intro r6 hr; cases hr
        intro r7 hr; cases hr
        exact ⟨nofun, nofun, nofun⟩
  have h2 : plain.noType2 := by
    intro a ha; cases ha
    intro r5 hr; cases hr
    intro r6 hr; cases hr
    intro r7 hr; cases hr
    exact ⟨rfl, rfl⟩
  have hf : ∀ e, plain.capability = some e → ∀ y ∈ e.1 :: e.2, y.further ≤ 3 := by
    intro e he; cases he
    intro y hy
    rcases List.mem_cons.1 hy with rfl | hy
    · decide
    · cases hy
  obtain ⟨r, h1, w, g, e, c, sv, il⟩ := C68_request_partial plain (List.replicate 30 true) hv (by decide +kernel) h2 hf
  exact ⟨hv, by decide +kernel, h2, hf, r, h1, w, g, e, c, sv, il 2 (by decide), il 5 (by decide)⟩

end Verif.ResReq
