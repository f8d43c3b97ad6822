import Verif.Lemmas.DlAckMsg
import Verif.Props.C05
import Verif.Props.C06
/-!
# C57: acknowledgements reach the window as the mobile sent them

The mobile writes a message (`Spec/UlMsg.lean`, from TS 44.060), the block goes through the CSN.1 decoder and the
decoder of the bitmaps, and the window of the downlink TBF that was polled is updated (`rcvDlAckBlock`). `rest` is
whatever follows the message in the block.
-/

namespace Verif.Csn1

open Verif.UlMsg
open Verif.AckNack (EgprsDesc egprsSays crbbMeans ackedIn)
open Verif.RlcDl

/-- **C57 for GPRS**: the mobile means the absolute block number `M` by its SSN; bit `64 - k` of its bitmap is about
block `M - k`. Every outstanding block before `M` is acknowledged afterwards iff its bit is set, the others keep
their state. -/
theorem C57_gprs (s : Sys) (h : Reach 128 64 s) (m : DownlinkAck) (hv : m.Valid) (hf : m.final = false)
    (M : Nat) (hm1 : s.oldest ≤ M) (hm2 : M ≤ s.oldest + 64) (hssn : m.ssn = M % 128) (rest : List Bool)
    (n : Nat) (h1 : s.oldest ≤ n) (h2 : n < s.created) :
    (n < M → (ackedIn (rcvDlAckBlock m.tfi (m.bits ++ rest) s.win) s.created n ↔ m.rbb[64 - (M - n)]? = some true)) ∧
    (M ≤ n → (ackedIn (rcvDlAckBlock m.tfi (m.bits ++ rest) s.win) s.created n ↔ ackedIn s.win s.created n)) := by
  rw [pdan_window m hv]
  have hlen := hv.2.2.2.1
  obtain ⟨r1, r2, r3⟩ := AckNack.C05_gprs_exact s h ⟨m.final, m.ssn, fun i => m.rbb.getD i false⟩ hf M hm1 hm2 hssn n h1 h2
  refine ⟨fun hn => ?_, fun hn => ?_⟩
  · have hg : m.rbb[64 - (M - n)]? = some (m.rbb.getD (64 - (M - n)) false) := by
      rw [List.getD_eq_getElem?_getD, List.getElem?_eq_getElem (by omega), Option.getD_some]
    have hs : ∀ v, m.rbb.getD (64 - (M - n)) false = v → AckNack.gprsSays ⟨m.final, m.ssn, fun i => m.rbb.getD i false⟩ (n % 128) v :=
      fun v e => ⟨M - n, by omega, by omega, by show _ = m.ssn; rw [hssn]; omega, e⟩
    rw [hg]
    cases hb : m.rbb.getD (64 - (M - n)) false with
    | true => exact ⟨fun _ => rfl, fun _ => r1 (hs true hb)⟩
    | false => exact ⟨fun x => absurd x (r2 (hs false hb)).1, fun x => by cases x⟩
  · apply r3
    rintro v ⟨k, k1, k2, k3, k4⟩
    have k3 : (n % 128 + k) % 128 = M % 128 := by rw [← hssn]; exact k3
    have := reach_inv (Or.inl ⟨rfl, rfl⟩) h
    have hb := this.bound
    have hws : s.win.ws = 64 := by
      rcases this.cfg with ⟨_, x⟩ | ⟨x, _⟩
      · exact x
      · cases x
    omega

/-- A final acknowledgement empties the window. -/
theorem C57_gprs_final (m : DownlinkAck) (hv : m.Valid) (hf : m.final = true) (rest : List Bool) (w : Win) :
    (rcvDlAckBlock m.tfi (m.bits ++ rest) w).distance = 0 := by
  rw [pdan_window m hv]
  unfold AckNack.rcvGprs
  rw [if_pos hf]
  unfold Win.distance Win.reset Win.modSns
  show (0 + _ - 0) % _ = 0
  rw [Nat.zero_add, Nat.sub_zero, Nat.mod_self]

/-- An acknowledgement with the TFI of another TBF is ignored. -/
theorem C57_wrong_tfi (m : DownlinkAck) (hv : m.Valid) (rest : List Bool) (w : Win) (tfi : Nat) (h : tfi ≠ m.tfi) :
    rcvDlAckBlock tfi (m.bits ++ rest) w = w := by
  obtain ⟨s, e1, e2, e3⟩ := pdan_read m hv rest
  unfold rcvDlAckBlock
  rw [e1, e2]
  have hT : s.data [T.Packet_Downlink_Ack_Nack_t.DOWNLINK_TFI] = m.tfi := e3 _ (pdan_members m _ (.inl rfl))
  show (if s.data [T.Packet_Downlink_Ack_Nack_t.DOWNLINK_TFI] = tfi then _ else w) = _
  rw [hT, if_neg (fun e => h e.symm)]

theorem C57_wrong_tfi_egprs (m : EgprsDownlinkAck) (hv : m.Valid) (rest : List Bool) (w : Win) (tfi : Nat) (h : tfi ≠ m.tfi) :
    rcvDlAckBlock tfi (m.bits ++ rest) w = w := by
  obtain ⟨s, e1, e2, e3⟩ := egprs_read m hv rest
  unfold rcvDlAckBlock
  rw [e1, e2]
  have hT : s.data [T.EGPRS_PD_AckNack_t.DOWNLINK_TFI] = m.tfi := e3 _ (egprs_members m _ (.inl rfl))
  show (if s.data [T.EGPRS_PD_AckNack_t.DOWNLINK_TFI] = tfi then _ else w) = _
  rw [hT, if_neg (fun e => h e.symm)]

/-- What the mobile wrote, in the form of `Spec/AckNack.lean`. -/
def written (d : AckDesc) : EgprsDesc := ⟨d.final, d.bow, d.ssn, d.crbb, d.urbb⟩

/-- **C57 for EGPRS, proved part**: if both bitmaps are whole octets, each outstanding block gets exactly the verdict
of the message (with "beginning of window" and an SSN of the window, see C06). Missing: bitmaps of other lengths. -/
theorem C57_egprs_partial (ws : Nat) (hc : LegalCfg 2048 ws) (s : Sys) (h : Reach 2048 ws s) (m : EgprsDownlinkAck) (hv : m.Valid)
    (hf : m.desc.final = false) (hbow : m.desc.bow = true)
    (hu8 : m.desc.urbb.length % 8 = 0) (hc8 : ∀ c, m.desc.crbb = some c → c.2.length % 8 = 0)
    (M : Nat) (hm1 : s.oldest < M) (hm2 : M ≤ s.created + 1) (hssn : m.desc.ssn = M % 2048)
    (crbb : List Bool) (hcr : crbbMeans (written m.desc) crbb) (hcap : m.desc.crbb ≠ none → M - s.oldest + crbb.length ≤ 1024)
    (rest : List Bool) (n : Nat) (h1 : s.oldest ≤ n) (h2 : n < s.created) :
    (egprsSays (written m.desc) M crbb n = some true → ackedIn (rcvDlAckBlock m.tfi (m.bits ++ rest) s.win) s.created n) ∧
    (egprsSays (written m.desc) M crbb n = some false → ¬ ackedIn (rcvDlAckBlock m.tfi (m.bits ++ rest) s.win) s.created n) ∧
    (egprsSays (written m.desc) M crbb n = none →
      (ackedIn (rcvDlAckBlock m.tfi (m.bits ++ rest) s.win) s.created n ↔ ackedIn s.win s.created n)) := by
  have hw : rcvDlAckBlock m.tfi (m.bits ++ rest) s.win = AckNack.rcvEgprs (written m.desc) s.win := by
    rw [egprs_window m hv, asRead_whole _ hu8]
    have : m.desc.crbb.map (fun c => (c.1, asRead c.2)) = m.desc.crbb := by
      cases hcb : m.desc.crbb with
      | none => rfl
      | some c => show some (c.1, asRead c.2) = some c; rw [asRead_whole _ (hc8 c hcb)]
    rw [this]
    rfl
  rw [hw]
  obtain ⟨r1, r2, r3⟩ := AckNack.C06_egprs_exact_partial ws hc s h (written m.desc) hf hbow M hm1 hm2 hssn crbb hcr hcap n h1 h2
  exact ⟨r1, fun x => (r2 x).1, r3⟩

/-- A message of seven bits: block 1 is missing, block 2 arrived. -/
def sevenBits : EgprsDownlinkAck :=
  ⟨0, false, 5, false, none, none, none, true, ⟨false, true, false, 1, none, [false, false, false, false, false, true, false]⟩⟩

/-- **C57 is false for EGPRS**: five blocks 0 to 4 are outstanding, the mobile reports with a bitmap of seven bits that
block 1 is missing and block 2 arrived. The PCU takes block 1 as acknowledged and will never send it again; block 2 is
sent again. -/
theorem C57_egprs_misread : sevenBits.Valid ∧ ∃ s : Sys, Reach 2048 64 s ∧ s.oldest = 0 ∧ s.created = 5 ∧
    egprsSays (written sevenBits.desc) 1 [] 1 = some false ∧ egprsSays (written sevenBits.desc) 1 [] 2 = some true ∧
    ¬ ackedIn s.win s.created 1 ∧
    ∀ rest, ackedIn (rcvDlAckBlock sevenBits.tfi (sevenBits.bits ++ rest) s.win) s.created 1 ∧
      ¬ ackedIn (rcvDlAckBlock sevenBits.tfi (sevenBits.bits ++ rest) s.win) s.created 2 := by
  have hv : sevenBits.Valid := by
    refine ⟨by decide, by decide, fun _ e => (by cases e), fun _ e => (by cases e), fun _ e => (by cases e), by decide, fun _ e => (by cases e), by decide, by decide⟩
  have hc : LegalCfg 2048 64 := Or.inr ⟨rfl, by omega, by omega⟩
  obtain ⟨s, h1, h2, h3, h4, h5, h6⟩ := reach_fill 2048 64 hc 5 (by omega)
  refine ⟨hv, s, h1, h3, h2, by decide, by decide, ?_, fun rest => ?_⟩
  · rw [AckNack.Inv.ackedIn_iff (reach_inv hc h1), h3, h5 1 (by omega)]; simp
  · rw [egprs_window sevenBits hv]
    have r := fun n => AckNack.C06_egprs_exact_partial 64 hc s h1
      ⟨false, true, 1, none, asRead [false, false, false, false, false, true, false]⟩ rfl rfl 1 (by omega) (by omega) rfl [] rfl (fun x => absurd rfl x) n
    exact ⟨(r 1 (by omega) (by omega)).1 (by decide), ((r 2 (by omega) (by omega)).2.1 (by decide)).1⟩

/-- Non-vacuity: a message with a request for an uplink TBF, interference levels and all of its parts is valid. -/
example : (⟨3, true, 7, false, 12, List.replicate 64 true, some ⟨3, 1, 0, 1, 500⟩, 20, 3, 10,
    fun t => if t = 2 then some 9 else none, some (some 4)⟩ : DownlinkAck).Valid := by
  refine ⟨by decide, by decide, by decide, by decide, ?_, by decide, by decide, by decide, ?_, ?_⟩
  · intro c e; cases e; exact ⟨by decide, by decide, by decide, by decide, by decide⟩
  · intro t v e
    dsimp only at e
    split at e
    · cases e; decide
    · cases e
  · intro p e; cases e; decide

end Verif.Csn1
