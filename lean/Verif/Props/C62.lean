import Verif.Lemmas.UlService
import Verif.Props.C01
/-!
C62: the uplink carries LLC frames to the SGSN: in order, each once, unchanged, under the TLLI of the mobile.

A mobile (`Mobile`, Spec/UlService and Spec/LlcSeg, written from TS 44.060) cuts its frames into data blocks and sends them in a
sliding window; the radio loses, repeats and reorders blocks (`Reach`); the network runs `rcv_data_block_acknowledged`
(Model/UlData) and reports what it received. `s.tbf.sent` is what was sent to the SGSN.
-/

namespace Verif.UlService

open Verif.LlcSeg
open Verif.UlData (Tbf)

/-- Nothing else is sent: at any time what was sent are the first frames of the mobile, unchanged, in order, each once, with its
TLLI. All windows, all histories. -/
theorem C62_in_order_unchanged (edge : Bool) (sns ws t : Nat) (frames rest : List (List Nat)) (blks : List UlBlk) (t0 : Option Nat)
    (hc : LegalCfg edge sns ws) (hm : Mobile edge t frames blks rest) (ht : t0 = none ∨ t0 = some t) (s : Sys)
    (h : Reach edge sns ws blks Any t0 s) : s.tbf.sent <+: frames.map fun f => (t, f) :=
  sent_prefix hm (sim (G' := RlcUl.Any) hc hm ht (fun _ _ _ => trivial) h)

/-- No loss after acknowledgement: when the mobile knows its first `s.va` blocks to be received, all frames that end with
them have been sent to the SGSN. All windows, all histories. -/
theorem C62_acknowledged_is_sent (edge : Bool) (sns ws t : Nat) (frames rest : List (List Nat)) (blks : List UlBlk) (t0 : Option Nat)
    (hc : LegalCfg edge sns ws) (hm : Mobile edge t frames blks rest) (ht : t0 = none ∨ t0 = some t) (s : Sys)
    (h : Reach edge sns ws blks Any t0 s) (left : List (List Nat)) (hk : Cuts edge frames (blks.take s.va) left) :
    frames.length - left.length ≤ s.tbf.sent.length := by
  have hs := sim (G' := RlcUl.Any) hc hm ht (fun _ _ _ => trivial) h
  have := sent_most hs hk (reachG_acked (legal hc) hs.reach)
  omega

/-- The whole transfer: if the mobile knows all its blocks to be received and nothing is left, exactly its frames have been
sent. -/
theorem C62_all_acknowledged (edge : Bool) (sns ws t : Nat) (frames : List (List Nat)) (blks : List UlBlk) (t0 : Option Nat)
    (hc : LegalCfg edge sns ws) (hm : Mobile edge t frames blks []) (ht : t0 = none ∨ t0 = some t) (s : Sys)
    (h : Reach edge sns ws blks Any t0 s) (hva : s.va = blks.length) : s.tbf.sent = frames.map fun f => (t, f) := by
  have h1 := C62_in_order_unchanged edge sns ws t frames [] blks t0 hc hm ht s h
  have h2 := C62_acknowledged_is_sent edge sns ws t frames [] blks t0 hc hm ht s h [] (by rw [hva, List.take_length]; exact hm.cuts)
  exact h1.eq_of_length_le (by simpa using h2)

/-- EGPRS with windows of up to 512 blocks: frames are sent as soon as the blocks up to their end have arrived. Missing: larger
windows, where the claim is false (`C01_egprs_ws1024_first_copy_lost`). -/
theorem C62_arrived_is_sent_egprs_partial (ws t : Nat) (h1 : 64 ≤ ws) (h2 : ws ≤ 512) (frames rest : List (List Nat))
    (blks : List UlBlk) (t0 : Option Nat) (hm : Mobile true t frames blks rest) (ht : t0 = none ∨ t0 = some t) (s : Sys)
    (h : Reach true 2048 ws blks Any t0 s) (k : Nat) (hg : ∀ n, n < k → n ∈ s.got) (left : List (List Nat))
    (hk : Cuts true frames (blks.take k) left) : frames.length - left.length ≤ s.tbf.sent.length := by
  have hc : LegalCfg true 2048 ws := ⟨rfl, h1, by omega⟩
  have hs := sim (G' := RlcUl.Any) hc hm ht (fun _ _ _ => trivial) h
  have hq : k ≤ s.tbf.rx.out.length := by
    cases k with
    | zero => omega
    | succ k => exact (RlcUl.C01_complete_egprs_partial _ ws h1 h2 _ hs.reach k).2 fun m hm => hg m (by omega)
  have := sent_most hs hk hq
  omega

/-- The same for GPRS, if no arriving block is the one 63 ahead of V(R). Missing: that case, where the claim is false
(`C62_gprs_frame_lost`). -/
theorem C62_arrived_is_sent_gprs_partial (t : Nat) (frames rest : List (List Nat))
    (blks : List UlBlk) (t0 : Option Nat) (hm : Mobile false t frames blks rest) (ht : t0 = none ∨ t0 = some t) (s : Sys)
    (h : Reach false 128 64 blks NoEdge t0 s) (k : Nat) (hg : ∀ n, n < k → n ∈ s.got) (left : List (List Nat))
    (hk : Cuts false frames (blks.take k) left) : frames.length - left.length ≤ s.tbf.sent.length := by
  have hc : LegalCfg false 128 64 := ⟨rfl, rfl⟩
  have hs := sim (G' := RlcUl.NoEdge) hc hm ht (fun s ns hn => ⟨by simpa using hn.1, fun b hb => by
    obtain ⟨n, hn', rfl⟩ := List.mem_map.1 hb
    exact hn.2 n hn'⟩) h
  have hq : k ≤ s.tbf.rx.out.length := by
    cases k with
    | zero => omega
    | succ k => exact (RlcUl.C01_complete_gprs_partial _ _ hs.reach k).2 fun m hm => hg m (by omega)
  have := sent_most hs hk hq
  omega

/-! ### The case that is missing in GPRS -/

/-- A block full of one frame. -/
def full (last : Bool) : UlBlk := ⟨⟨[], .tail (List.replicate 20 7)⟩, none, last, if last then 0 else 15⟩

theorem full_ok (last : Bool) : (full last).content.Valid false ∧ ((full last).cv = 0 ↔ (full last).last = true)
    ∧ 20 ≤ ((full last).octets false).length ∧ ((full last).octets false).length ≤ 74 := by
  refine ⟨?_, ?_, ?_, ?_⟩
  · simp [full, Content.Valid]
  · cases last <;> simp [full]
  · cases last <;> decide
  · cases last <;> decide

theorem full_cuts (k : Nat) : Cuts false [List.replicate (20 * (k + 1)) 7] (List.replicate k (full false) ++ [full true]) [] := by
  induction k with
  | zero =>
    obtain ⟨h1, h2, h3, h4⟩ := full_ok true
    exact Cuts.cons _ _ _ _ _ h1 h2 h3 h4 (Takes.final [] (List.replicate 20 7) (by decide)) (Cuts.nil _)
  | succ k ih =>
    obtain ⟨h1, h2, h3, h4⟩ := full_ok false
    have e : List.replicate (20 * (k + 1 + 1)) 7 = List.replicate 20 7 ++ List.replicate (20 * (k + 1)) 7 := by
      rw [List.replicate_append_replicate]; congr 1; omega
    rw [e]
    exact Cuts.cons _ _ _ _ _ h1 h2 h3 h4
      (Takes.tail [] (List.replicate 20 7) _ [] (by decide) (by intro h; rw [List.replicate_eq_nil_iff] at h; omega)) ih

theorem reach_sends {edge : Bool} {sns ws : Nat} {blks : List UlBlk} {G} {t0 : Option Nat} (k : Nat) : ∀ {s : Sys},
    Reach edge sns ws blks G t0 s → s.vs + k ≤ s.va + ws → s.vs + k ≤ blks.length →
    Reach edge sns ws blks G t0 { s with vs := s.vs + k } := by
  induction k with
  | zero => intro s h _ _; exact h
  | succ k ih =>
    intro s h hk hl
    have := ih (Reach.step h (Step.sendNew s (by omega) (by omega))) (by simp; omega) (by simp; omega)
    simpa [Nat.add_assoc, Nat.add_comm 1 k] using this

/-- One block per radio block. -/
def deliver (edge : Bool) (sns : Nat) (blks : List UlBlk) (junk : Nat → Nat) : List Nat → Tbf → Tbf
  | [], x => x
  | n :: ns, x => deliver edge sns blks junk ns (x.rcv edge junk [raw edge sns blks n])

theorem rcv_tlli (edge : Bool) (junk : Nat → Nat) (l : List UlData.Raw) : ∀ x : Tbf, x.tlli ≠ none → (x.rcv edge junk l).tlli ≠ none := by
  induction l with
  | nil => intro x h; exact h
  | cons b bs ih =>
    intro x h
    simp only [Tbf.rcv]
    split
    · exact ih x h
    · split
      · exact ih x h
      · split
        · exact h
        · apply ih
          show (UlData.tlliCheck edge junk x.tlli b).2 ≠ none
          cases ht : x.tlli with
          | none => exact (h ht).elim
          | some u =>
            simp only [UlData.tlliCheck]
            repeat' split
            all_goals simp

theorem reach_deliver {edge : Bool} {sns ws : Nat} {blks : List UlBlk} {t0 : Option Nat} (junk : Nat → Nat) (ns : List Nat) : ∀ {s : Sys},
    Reach edge sns ws blks Any t0 s → s.tbf.tlli ≠ none → (∀ n ∈ ns, s.va ≤ n ∧ n < s.vs) →
    Reach edge sns ws blks Any t0 { s with tbf := deliver edge sns blks junk ns s.tbf, got := s.got ++ ns } := by
  induction ns with
  | nil => intro s h _ _; simpa [deliver] using h
  | cons n ns ih =>
    intro s h ht hk
    have h1 := Reach.step h (Step.radio s [n] junk
      (by intro b hb; rw [List.mem_singleton] at hb; subst hb; exact hk b (List.mem_cons_self ..)) (fun h => (ht h).elim) trivial)
    have := ih h1 (rcv_tlli edge junk _ s.tbf ht) (fun m hm => hk m (List.mem_cons_of_mem _ hm))
    simpa [deliver] using this

/-- GPRS, negation: a frame of 1280 octets in 64 blocks, all of which have arrived; nothing is sent, and the block that the
mobile goes on repeating changes nothing. -/
theorem C62_gprs_frame_lost : ∃ (frame : List Nat) (blks : List UlBlk) (s : Sys), frame.length = 1280 ∧
    Mobile false 0xc0000001 [frame] blks [] ∧ Reach false 128 64 blks Any (some 0xc0000001) s ∧ blks.length = 64 ∧
    (∀ n, n < 64 → n ∈ s.got) ∧ s.tbf.sent = [] ∧ ∀ junk, s.tbf.rcv false junk [raw false 128 blks 63] = s.tbf := by
  let blks := List.replicate 63 (full false) ++ [full true]
  have hl : blks.length = 64 := by simp [blks]
  have hm : Mobile false 0xc0000001 [List.replicate (20 * (63 + 1)) 7] blks [] := by
    refine ⟨full_cuts 63, ?_, ?_, by decide⟩
    · intro f hf; rw [List.mem_singleton.1 hf, List.length_replicate]; omega
    intro b hb u hu
    rcases List.mem_append.1 hb with hb | hb
    · rw [(List.mem_replicate.1 hb).2] at hu; cases hu
    · rw [List.mem_singleton.1 hb] at hu; cases hu
  let ns := 63 :: List.range 63
  have h0 : Reach false 128 64 blks Any (some 0xc0000001) _ := reach_sends 64 Reach.start (by simp) (by simp [hl])
  have h1 := reach_deliver (fun _ => 0) ns h0 (by simp [Tbf.init]) (by intro n hn; simp [ns] at hn; simp; omega)
  have hw : (deliver false 128 blks (fun _ => 0) ns (Tbf.init 128 64 (some 0xc0000001))).rx.win.vq = 63 ∧
      (deliver false 128 blks (fun _ => 0) ns (Tbf.init 128 64 (some 0xc0000001))).rx.win.vr = 63 ∧
      (deliver false 128 blks (fun _ => 0) ns (Tbf.init 128 64 (some 0xc0000001))).rx.win.sns = 128 ∧
      (deliver false 128 blks (fun _ => 0) ns (Tbf.init 128 64 (some 0xc0000001))).rx.win.isInWindow 63 = true ∧
      RlcUl.isRecv (deliver false 128 blks (fun _ => 0) ns (Tbf.init 128 64 (some 0xc0000001))).rx.win.vn 63 = true ∧
      (deliver false 128 blks (fun _ => 0) ns (Tbf.init 128 64 (some 0xc0000001))).sent = [] := by decide +kernel
  dsimp only at h1
  generalize deliver false 128 blks (fun _ => 0) ns (Tbf.init 128 64 (some 0xc0000001)) = x at hw h1
  obtain ⟨w1, w2, w3, w4, w5, w6⟩ := hw
  refine ⟨_, blks, _, List.length_replicate, hm, h1, hl, ?_, w6, ?_⟩
  · intro n hn; simp [ns]; omega
  · intro junk
    have hb : (raw false 128 blks 63).bsn = 63 := by decide
    show x.rcv false junk [raw false 128 blks 63] = x
    simp only [Tbf.rcv, hb, w4, w5, Bool.not_true, Bool.false_eq_true, if_false, if_true]
    have e2 : x.rx.flush = x.rx := by
      have e2 : x.rx.win.raiseVq = (x.rx.win, 0) := by
        unfold RlcUl.Win.raiseVq; rw [w3]
        show RlcUl.raiseVqLoop (127 + 1) x.rx.win 0 = _
        rw [RlcUl.raiseVqLoop, if_neg (by simp [w1, w2])]
      simp only [RlcUl.Rx.flush, e2]; simp
    simp only [Tbf.forward, e2]
    simp

/-! ### Non-vacuity -/

/-- GPRS, frames of 30 and 6 octets, TLLI in all blocks: in the second block the first frame ends and the second begins. -/
def exG : List UlBlk :=
  [⟨⟨[], .tail (List.replicate 16 1)⟩, some 0x80000001, false, 15⟩,
   ⟨⟨[List.replicate 14 1], .tail [2]⟩, some 0x80000001, false, 15⟩,
   ⟨⟨[List.replicate 5 2], .fill (List.replicate 10 0x2b)⟩, some 0x80000001, true, 0⟩]

theorem exG_mobile : Mobile false 0x80000001 [List.replicate 30 1, List.replicate 6 2] exG [] := by
  refine ⟨?_, by simp, ?_, by decide⟩
  · refine Cuts.cons _ _ [List.replicate 14 1, List.replicate 6 2] _ _ (by simp [Content.Valid]) (by simp) (by decide) (by decide)
      (Takes.tail [] (List.replicate 16 1) (List.replicate 14 1) [List.replicate 6 2] (by decide) (by decide)) ?_
    refine Cuts.cons _ _ [List.replicate 5 2] _ _ (by simp [Content.Valid]) (by simp) (by decide) (by decide)
      (Takes.tail [List.replicate 14 1] [2] (List.replicate 5 2) [] (by decide) (by decide)) ?_
    exact Cuts.cons _ _ [] _ _ (by simp [Content.Valid]) (by simp) (by decide) (by decide)
      (Takes.fill true [List.replicate 5 2] _ [] (by simp)) (Cuts.nil _)
  · simp [exG]

/-- The last block arrives first. -/
example : ∃ s : Sys, Reach false 128 64 exG NoEdge none s ∧ (∀ n, n < 3 → n ∈ s.got) ∧
    s.tbf.sent = [(0x80000001, List.replicate 30 1), (0x80000001, List.replicate 6 2)] := by
  have h0 : Reach false 128 64 exG NoEdge none _ := reach_sends 3 Reach.start (by simp) (by decide)
  have h1 := Reach.step h0 (Step.radio _ [2] (fun _ => 0) (by simp) (by simp [exG]) (by simp [NoEdge, Tbf.init, RlcUl.Rx.init, RlcUl.Win.init]))
  have h2 := Reach.step h1 (Step.radio _ [0] (fun _ => 0) (by simp) (by simp [exG]) ⟨by simp, by
    intro n hn; rw [List.mem_singleton] at hn; subst hn; show (0 : Nat) % 128 ≠ _; decide +kernel⟩)
  have h3 := Reach.step h2 (Step.radio _ [1] (fun _ => 0) (by simp) (by simp [exG]) ⟨by simp, by
    intro n hn; rw [List.mem_singleton] at hn; subst hn; show (1 : Nat) % 128 ≠ _; decide +kernel⟩)
  refine ⟨_, h3, ?_, ?_⟩
  · intro n hn; simp; omega
  · decide +kernel

/-- EGPRS, frames of 40 and 10 octets: the first ends exactly with the second block, which the third one says. -/
def exE : List UlBlk :=
  [⟨⟨[], .tail (List.replicate 18 1)⟩, some 0x80000001, false, 15⟩,
   ⟨⟨[], .tail (List.replicate 22 1)⟩, none, false, 15⟩,
   ⟨⟨[[], List.replicate 10 2], .fill (List.replicate 9 0x2b)⟩, none, true, 0⟩]

theorem exE_mobile : Mobile true 0x80000001 [List.replicate 40 1, List.replicate 10 2] exE [] := by
  refine ⟨?_, by simp, ?_, by decide⟩
  · refine Cuts.cons _ _ [List.replicate 22 1, List.replicate 10 2] _ _ (by simp [Content.Valid]) (by simp) (by decide) (by decide)
      (Takes.tail [] (List.replicate 18 1) (List.replicate 22 1) [List.replicate 10 2] (by decide) (by decide)) ?_
    refine Cuts.cons _ _ [[], List.replicate 10 2] _ _ (by simp [Content.Valid]) (by simp) (by decide) (by decide)
      (Takes.tail [] (List.replicate 22 1) [] [List.replicate 10 2] (by decide) (by decide)) ?_
    exact Cuts.cons _ _ [] _ _ (by simp [Content.Valid]) (by simp) (by decide) (by decide)
      (Takes.fill true [[], List.replicate 10 2] _ [] (by simp)) (Cuts.nil _)
  · simp [exE]

/-- Repetition and reordering; in the end all is acknowledged. -/
example : ∃ s : Sys, Reach true 2048 64 exE Any none s ∧ s.va = exE.length ∧
    s.tbf.sent = [(0x80000001, List.replicate 40 1), (0x80000001, List.replicate 10 2)] := by
  have h0 : Reach true 2048 64 exE Any none _ := reach_sends 3 Reach.start (by simp) (by decide)
  have h1 := Reach.step h0 (Step.radio _ [0] (fun _ => 0) (by simp) (by simp [exE]) trivial)
  have h2 := reach_deliver (fun _ => 0) [2, 2, 1] h1 (by simp; decide +kernel) (by simp)
  have h3 := Reach.step h2 (Step.acked _ 3 (by simp) (by simp) (by
    intro n _ hn
    left
    have e : (deliver true 2048 exE (fun _ => 0) [2, 2, 1] ((Tbf.init 2048 64 none).rcv true (fun _ => 0) [raw true 2048 exE 0])).rx.out.length = 3 := by
      decide +kernel
    show n < _
    exact Nat.lt_of_lt_of_eq hn e.symm))
  refine ⟨_, h3, rfl, ?_⟩
  decide +kernel

end Verif.UlService
