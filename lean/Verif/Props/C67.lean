import Verif.Lemmas.RaCap
import Verif.Props.C66
/-!
C67: the multislot classes of a mobile are those it states in its radio access capability.

`Spec/RaCap`: the capability as the standard defines it, for mobiles of any release. `raCap` (Model/RaCap): the GPRS and EGPRS class the
PCU takes from the octets of the element. A list of further technologies must not have more than three entries (`further`): the theorems
marked `fails` show what happens otherwise.
-/

namespace Verif.RaCap

open Verif.Csn1 Verif.Bssgp Verif.Bssgp.Gb
open Verif.Bits (put putOctets)

theorem length_putOctets : ∀ l : List Nat, (putOctets l).length = 8 * l.length
  | [] => rfl
  | x :: l => by
    have := length_putOctets l
    unfold putOctets at this ⊢
    rw [List.flatMap_cons, List.length_append, this, Bits.length_put, List.length_cons]
    omega

/-- The classes are the stated ones, whatever the release the mobile is made for, and whatever follows the capability in its octets. -/
theorem C67_classes_partial (e : Entry) (es : List Entry) (octets : List Nat) (rest : List Bool) (hv : ∀ x ∈ e :: es, x.Valid)
    (hf : ∀ x ∈ e :: es, x.further ≤ 3) (hn : (e :: es).length ≤ 11) (ho : putOctets octets = bits e es ++ rest) :
    raCap octets = (gprs (e :: es), egprs (e :: es)) := by
  have hl := congrArg List.length ho
  rw [length_putOctets, List.length_append] at hl
  obtain ⟨d', e1, g1, g2, _⟩ := raItem_at (blk := putOctets octets) (p := []) (b := rest) (s := ⟨(8 * octets.length : Nat), 0, fun _ => 0⟩) e es
    (fun x hx => ⟨hv x hx, hf x hx⟩) (by rw [List.length_cons] at hn; omega) (fun _ => rfl) ho
    (by show _ ≤ ((8 * octets.length : Nat) : Int); omega)
  unfold raCap
  rw [e1]
  dsimp only
  rw [g1, g2]

/-- So the frames of the SGSN come with the classes of the mobile they are for. -/
theorem C67_unitdata_partial (c : Ctx) (hra : c.ra = raCap) (b t life : Nat) (es : List (Nat × List Nat)) (msg data : List Nat)
    (im : Option (List Nat)) (hs : Serves c b) (h : IsUnitdata t es msg) (hd : value llcPdu es = some data) (hl : data.length ≤ 1543)
    (hi : ImsiIs c es im) (hlt : value pduLifetime es = some (octets16 life)) (hlife : life < 2 ^ 16)
    (ho : ∀ v, value tlli es = some v → v.length = 4)
    (x : Entry) (xs : List Entry) (octets : List Nat) (rest : List Bool) (hc : value radioAccessCapability es = some octets)
    (h256 : octets.length < 256) (hv : ∀ y ∈ x :: xs, y.Valid) (hf : ∀ y ∈ x :: xs, y.further ≤ 3) (hn : (x :: xs).length ≤ 11)
    (hb : putOctets octets = bits x xs ++ rest) :
    ∃ u, rcv c b msg = .unitdata u ∧ u.tlli = t ∧ u.data = data ∧ u.imsi = im ∧ u.gprs = gprs (x :: xs) ∧ u.egprs = egprs (x :: xs) := by
  obtain ⟨u, h1, h2, h3, h4, h5, _, h7⟩ := C66_unitdata c b t life es msg data im hs h hd hl hi hlt hlife ho
  have := h7 octets hc h256
  rw [hra, C67_classes_partial x xs octets rest hv hf hn hb] at this
  exact ⟨u, h1, h2, h3, h4, congrArg Prod.fst this, congrArg Prod.snd this⟩

/-- Whatever the octets are, no store leaves the structure and the classes are ones that five bits can state. -/
theorem C67_any_octets (octets : List Nat) :
    (raCap octets).1 < 32 ∧ (raCap octets).2 < 32 ∧
    decItem (putOctets octets) raItem [] ⟨(8 * octets.length : Nat), 0, fun _ => 0⟩ ≠ .spill := by
  have h := ra_safe (putOctets octets) ⟨(8 * octets.length : Nat), 0, fun _ => 0⟩ (fun _ _ _ _ => Nat.zero_le _)
  unfold raCap
  cases hr : decItem (putOctets octets) raItem [] ⟨(8 * octets.length : Nat), 0, fun _ => 0⟩ with
  | err => exact ⟨by decide, by decide, nofun⟩
  | spill => rw [hr] at h; exact absurd h id
  | ok s =>
    rw [hr] at h
    have h1 := gprs_bound (p := []) h
    have h2 := egprs_bound (p := []) h
    exact ⟨Nat.lt_succ_of_le h1, Nat.lt_succ_of_le h2, nofun⟩

/-! ## Where it fails -/

/-- A mobile of release 4 with GPRS class 10 for E-GSM: no EGPRS. -/
def gprsOnly : Entry :=
  .access 1 (.r99 ⟨4, some 0x40, true, true, false, false⟩ (some (⟨none, some (10, true), none⟩, ⟨none, none, none⟩))
    ⟨none, false, true, true, false, false⟩ (.r4 ⟨false, true, none, false⟩ (.spare 3)))

/-- Seven further technologies. -/
def seven : Entry := .additional [(0, 4, 0), (3, 1, 0), (4, 1, 0), (7, 4, 0), (5, 4, 0), (6, 4, 2), (12, 4, 0)] 0

theorem gprsOnly_valid : gprsOnly.Valid := by
  refine ⟨by decide, ⟨⟨by decide, ?_⟩, ?_, nofun, nofun, trivial⟩, by decide⟩
  · intro v hv; cases hv; decide
  · intro x hx
    cases hx
    refine ⟨⟨nofun, ?_, nofun⟩, nofun, nofun, nofun⟩
    intro v hv; cases hv; decide

/-- Seven of the further technologies: a mobile without EGPRS is taken for one of EGPRS class 12, as that is the type of the seventh
technology. -/
theorem C67_fails_additional : gprsOnly.Valid ∧ seven.Valid ∧ gprs [gprsOnly, seven] = 10 ∧ egprs [gprsOnly, seven] = 0 ∧
    ∃ octets, putOctets octets = bits gprsOnly [seven] ∧ raCap octets = (10, 12) :=
  ⟨gprsOnly_valid, ⟨by decide, by decide⟩, rfl, rfl,
    [21, 51, 3, 42, 160, 98, 15, 199, 132, 38, 74, 18, 240, 172, 45, 46, 64], by decide +kernel, by decide +kernel⟩

/-- An entry of the type that is not in use, to be skipped by its length: the classes of the first entry are lost. -/
theorem C67_fails_unknown : let other : Entry := .access 14 (.r97 ⟨4, none, true, true, false, false⟩ none 0)
    gprsOnly.Valid ∧ gprs [gprsOnly, other] = 10 ∧ ∃ octets rest, putOctets octets = bits gprsOnly [other] ++ rest ∧ raCap octets = (0, 0) :=
  ⟨gprsOnly_valid, rfl, [21, 51, 3, 42, 160, 98, 15, 9, 140, 0], [false, false, false, false, false, false],
    by decide +kernel, by decide +kernel⟩

/-! ## The hypotheses can be met -/

/-- A mobile newer than release 8, of GPRS class 12 and EGPRS class 29. -/
def modern : Entry :=
  .access 1 (.r99 ⟨4, some 0x7f, true, true, false, false⟩ (some (⟨none, some (12, true), none⟩, ⟨none, some (29, true), some (2, true, some 1)⟩))
    ⟨some 1, false, true, true, false, false⟩ (.r4 ⟨false, true, some (1, 2), false⟩ (.r5 ⟨some 1, none, 0, 1⟩
      (.r6 ⟨true, 1, true, false, some (3, some 4), true⟩ (.r7 ⟨false, some (1, true), true, false, false, true, 0, 2⟩
        (.r8 ⟨true, false, 1, true⟩ [true, true, false, true]))))))

def otherBand : Entry :=
  .access 3 (.r99 ⟨1, none, true, true, false, false⟩ none ⟨some 2, false, true, true, false, false⟩ (.spare 2))

theorem modern_valid : modern.Valid ∧ otherBand.Valid := by
  refine ⟨⟨by decide, ⟨⟨by decide, ?_⟩, ?_, ?_, ?_, ?_, ?_, ?_, ?_⟩, by decide⟩, ⟨by decide, ⟨⟨by decide, nofun⟩, nofun, ?_, trivial⟩, by decide⟩⟩
  · intro v hv; cases hv; decide
  · intro x hx
    cases hx
    refine ⟨⟨nofun, ?_, nofun⟩, nofun, ?_, ?_⟩
    · intro v hv; cases hv; decide
    · intro v hv; cases hv; decide
    · intro v hv; cases hv; exact ⟨by decide, fun e he => by cases he; decide⟩
  · intro v hv; cases hv; decide
  · intro v hv; cases hv; decide
  · exact ⟨fun v hv => by cases hv; decide, nofun, by decide, by decide⟩
  · exact ⟨by decide, fun v hv => by cases hv; exact ⟨by decide, fun e he => by cases he; decide⟩⟩
  · exact ⟨fun v hv => by cases hv; decide, by decide, by decide⟩
  · exact show (1 : Nat) < 4 by decide
  · intro v hv; cases hv; decide

example : raCap [28, 179, 255, 43, 39, 189, 181, 141, 148, 54, 188, 167, 37, 61, 153, 50, 198, 97, 243, 84, 53, 226, 0] = (12, 29) :=
  C67_classes_partial modern [otherBand, .additional [(4, 1, 2), (7, 4, 1)] 5] _ [false, false]
    (fun x hx => by
      rcases List.mem_cons.1 hx with rfl | hx
      · exact modern_valid.1
      · rcases List.mem_cons.1 hx with rfl | hx
        · exact modern_valid.2
        · rcases List.mem_cons.1 hx with rfl | hx
          · exact ⟨by decide, by decide⟩
          · cases hx)
    (by decide) (by decide) (by decide +kernel)

end Verif.RaCap
