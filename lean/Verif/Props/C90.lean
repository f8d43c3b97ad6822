import Verif.Lemmas.UlEnd
import Verif.Props.C01
/-!
C90: a mobile that sends data is told when its transfer is complete, exactly when it is, and gets acknowledgements while it
sends.

Mobile, radio and network as in C62 (`Spec/UlService`), with the state machines of the TBF (`Spec/UlEnd`). `s.acks` are the
acknowledgements that were sent, `true` for those marked as final; `s.u.tbf.sent` is what was sent to the SGSN.
-/

namespace Verif.UlEnd

open Verif.LlcSeg
open Verif.UlService (raw Mobile LegalCfg Any NoEdge)

theorem takes_last {edge last : Bool} {st st' : List (List Nat)} {c : Content} (h : Takes edge last st c st') (hl : last = true) :
    st' = [] := by
  cases h with
  | fill _ _ _ _ g => exact g hl
  | exact _ _ _ _ g => exact g hl
  | tail _ _ _ _ _ _ => cases hl
  | final _ _ _ => rfl
  | li0 _ _ _ _ _ => cases hl

/-- After the last block nothing is left. -/
theorem cuts_last {edge : Bool} {st : List (List Nat)} {bs : List UlBlk} {st' : List (List Nat)} (h : Cuts edge st bs st') :
    ∀ (k : Nat) (b : UlBlk), bs[k]? = some b → b.last = true → Cuts edge st (bs.take (k + 1)) [] := by
  induction h with
  | nil => intro k b hk; simp at hk
  | cons st b st1 bs st2 h1 h2 h3 h4 ht hcut ih =>
    intro k x hk hl
    cases k with
    | zero =>
      simp only [List.getElem?_cons_zero, Option.some.injEq] at hk
      subst hk
      have e := takes_last ht hl
      subst e
      exact Cuts.cons _ _ _ _ _ h1 h2 h3 h4 ht (Cuts.nil _)
    | succ k =>
      simp only [List.getElem?_cons_succ] at hk
      exact Cuts.cons _ _ _ _ _ h1 h2 h3 h4 ht (ih k x hk hl)

theorem final_inv {lim : Tbf.Lim} {edge : Bool} {sns ws t : Nat} {frames rest : List (List Nat)} {blks : List UlBlk} {t0 : Option Nat}
    (hc : LegalCfg edge sns ws) (hw : ws < 1024) (hm : Mobile edge t frames blks rest) (ht : t0 = none ∨ t0 = some t) {s : Sys}
    (h : Reach lim edge sns ws blks Any t0 s) : s.ctl.st = .finished ∨ true ∈ s.acks →
    ∃ k b, blks[k]? = some b ∧ b.last = true ∧ k < s.u.tbf.rx.out.length := by
  induction h with
  | start => rintro (h | h) <;> cases h
  | @step s t' hr hst ih =>
    have hstep := hr.step hst
    have hsim := UlService.sim (G' := RlcUl.Any) hc hm ht (fun _ _ _ => trivial) (project hstep)
    have grow : s.u.tbf.rx.out.length ≤ t'.u.tbf.rx.out.length →
        (s.ctl.st = .finished ∨ true ∈ s.acks) → ∃ k b, blks[k]? = some b ∧ b.last = true ∧ k < t'.u.tbf.rx.out.length := by
      intro hle hx
      obtain ⟨k, b, h1, h2, h3⟩ := ih hx
      exact ⟨k, b, h1, h2, by omega⟩
    have fresh : t'.u.tbf.rx.win.vq = t'.u.tbf.rx.win.vr → countdownOver t'.u.tbf.rx = true →
        ∃ k b, blks[k]? = some b ∧ b.last = true ∧ k < t'.u.tbf.rx.out.length := by
      intro h1 h2
      obtain ⟨n, h3, h4⟩ := over_last hc hw hsim.reach h1 h2
      simp only [UlService.Sys.g] at h3
      cases hb : blks[n]? with
      | none => simp [raw, hb] at h4
      | some b =>
        simp only [raw, hb] at h4
        refine ⟨n, b, hb, ?_, by omega⟩
        have := (hm.fine b (List.mem_of_getElem? hb)).last
        rw [h4] at this
        simpa using this.symm
    have arrived : ∀ {env junk si bs} {r : Tbf}, s.ctl.st ≠ .releasing → radio env edge junk ⟨s.u.tbf, s.ctl⟩ si bs = some r →
        t'.u.tbf = r.data → t'.ctl = r.ctl → t'.acks = s.acks → s.u.tbf.rx.out.length ≤ r.data.rx.out.length →
        (t'.ctl.st = .finished ∨ true ∈ t'.acks) → ∃ k b, blks[k]? = some b ∧ b.last = true ∧ k < t'.u.tbf.rx.out.length := by
      intro env junk si bs r h1 h2 h3 h4 h5 h6 hx
      rcases hx with hx | hx
      · rw [h4] at hx
        rcases (radio_any (s := ⟨s.u.tbf, s.ctl⟩) h1 h2).2 hx with y | ⟨y, z⟩
        · exact grow (by rw [h3]; exact h6) (Or.inl y)
        · exact fresh (by rw [h3]; exact y) (by rw [h3]; exact z)
      · exact grow (by rw [h3]; exact h6) (Or.inr (by rw [← h5]; exact hx))
    have hsim0 := UlService.sim (G' := RlcUl.Any) hc hm ht (fun _ _ _ => trivial) (project hr)
    cases hst with
    | sendNew h1 h2 => exact grow (Nat.le_refl _)
    | acked a h1 h2 h3 => exact grow (Nat.le_refl _)
    | radio ns si t ha hg =>
      obtain ⟨h1, h2, _, h4, env, junk, r, h5, rfl⟩ := ha
      refine arrived h4 h5 rfl rfl rfl ?_
      have hv := hsim0.vs
      rw [radio_data (s := ⟨s.u.tbf, s.ctl⟩) h4 h5]
      obtain ⟨e1, _⟩ := UlService.rcv_spec (sns := sns) (ws := ws) hm.fine hm.tlli hm.range junk ns s.u.tbf hsim0.tlli hsim0.fresh
        (fun n hn => by have := (h1 n hn).2; omega) h2
      simp only
      rw [e1]
      obtain ⟨m, hm⟩ := UlService.rcvBlocks_out (ns.map fun n => (⟨n % sns, raw edge sns blks n, .ok⟩ : RlcUl.Arrival _)) s.u.tbf.rx
      rw [hm]; simp
    | half n si t ha =>
      obtain ⟨h1, h2, _, h4, env, junk, b, r, h5, h6, h7, rfl⟩ := ha
      refine arrived h4 h7 rfl rfl rfl ?_
      rw [radio_data (s := ⟨s.u.tbf, s.ctl⟩) h4 h7]
      obtain ⟨e1, _⟩ := UlService.half_spec edge sns ws _ junk s.u.tbf b hsim0.tlli hsim0.fresh h6
      simp only
      rw [e1]
      obtain ⟨m, hm⟩ := UlService.rcvBlocks_out [(⟨b.bsn, b, .partialSeg⟩ : RlcUl.Arrival _)] s.u.tbf.rx
      rw [hm]; simp
    | other op env c h1 h2 =>
      intro hx
      refine grow (Nat.le_refl _) ?_
      rcases hx with hx | hx
      · exact Or.inl ((other_keep h1 h2).fin hx)
      · simp only [List.mem_append, Option.mem_toList] at hx
        rcases hx with hx | hx
        · exact Or.inr hx
        · left
          unfold sends at hx
          split at hx
          · split at hx
            · cases hx
            · unfold ackSent at hx
              split at hx
              · simpa using hx
              · cases hx
          · cases hx

/-- A mobile is told that its transfer is complete only if all its frames have been sent to the SGSN. All histories. Missing:
windows of 1024 blocks, where the claim is false (`C90_final_too_early`). -/
theorem C90_final_partial (lim : Tbf.Lim) (edge : Bool) (sns ws t : Nat) (frames rest : List (List Nat)) (blks : List UlBlk)
    (t0 : Option Nat) (hc : LegalCfg edge sns ws) (hw : ws < 1024) (hm : Mobile edge t frames blks rest)
    (ht : t0 = none ∨ t0 = some t) (s : Sys) (h : Reach lim edge sns ws blks Any t0 s) (hf : true ∈ s.acks) :
    s.u.tbf.sent = frames.map fun f => (t, f) := by
  obtain ⟨k, b, h1, h2, h3⟩ := final_inv hc hw hm ht h (Or.inr hf)
  have hs := UlService.sim (G' := RlcUl.Any) hc hm ht (fun _ _ _ => trivial) (project h)
  have hp := UlService.sent_prefix hm hs
  have := UlService.sent_most hs (cuts_last hm.cuts k b h1 h2) (by omega)
  exact hp.eq_of_length_le (by simpa using this)

/-- The same for the state in which all further acknowledgements are marked as final. -/
theorem C90_finished_partial (lim : Tbf.Lim) (edge : Bool) (sns ws t : Nat) (frames rest : List (List Nat)) (blks : List UlBlk)
    (t0 : Option Nat) (hc : LegalCfg edge sns ws) (hw : ws < 1024) (hm : Mobile edge t frames blks rest)
    (ht : t0 = none ∨ t0 = some t) (s : Sys) (h : Reach lim edge sns ws blks Any t0 s) (hf : s.ctl.st = .finished) :
    s.u.tbf.sent = frames.map fun f => (t, f) := by
  obtain ⟨k, b, h1, h2, h3⟩ := final_inv hc hw hm ht h (Or.inl hf)
  have hs := UlService.sim (G' := RlcUl.Any) hc hm ht (fun _ _ _ => trivial) (project h)
  have hp := UlService.sent_prefix hm hs
  have := UlService.sent_most hs (cuts_last hm.cuts k b h1 h2) (by omega)
  exact hp.eq_of_length_le (by simpa using this)

/-- An acknowledgement is marked as final if and only if the transfer is complete. -/
theorem C90_marked (s : Sys) (tlli : Bool) (hs : s.ctl.ulAck = .sched) (hf : s.ctl.freed = false) :
    sends s.ctl (.createAck true tlli) = some (decide (s.ctl.st = .finished)) := by
  simp only [sends, hf, ackSent, hs, Bool.false_eq_true, if_false, decide_true, Bool.and_self, if_true]
  cases s.ctl.st <;> rfl

theorem last_at {blks : List UlBlk} (h : LastOnly blks) : ∃ n b, blks.length = n + 1 ∧ blks[n]? = some b ∧ b.last = true := by
  obtain ⟨l, b, rfl, h1, _⟩ := h
  exact ⟨l.length, b, by simp, by simp, h1⟩

theorem cuts_octets {edge : Bool} {st : List (List Nat)} {bs : List UlBlk} {st' : List (List Nat)} (h : Cuts edge st bs st') :
    ∀ b ∈ bs, 20 ≤ (b.octets edge).length := by
  induction h with
  | nil => intro b hb; cases hb
  | cons _ b _ _ _ _ _ h3 _ _ _ ih =>
    intro x hx
    rcases List.mem_cons.1 hx with rfl | hx
    · exact h3
    · exact ih x hx

/-- What is used of the two configurations. -/
theorem arrives_spec {lim : Tbf.Lim} {edge : Bool} {sns ws t : Nat} {frames rest : List (List Nat)} {blks : List UlBlk} {t0 : Option Nat}
    {G : UlService.Sys → List Nat → Prop} {G' : RlcUl.SysG UlData.Raw → List (Nat × RlcUl.Arrival UlData.Raw) → Prop}
    (hc : LegalCfg edge sns ws) (hgc : RlcUl.GoodCfg sns ws) (hm : Mobile edge t frames blks rest) (hl : LastOnly blks)
    (ht : t0 = none ∨ t0 = some t)
    (hG : ∀ s ns, G s ns → G' s.g (ns.map fun n => (n, ⟨n % sns, raw edge sns blks n, .ok⟩)))
    (hG' : ∀ s blocks, sns = 128 → G' s blocks → RlcUl.NoEdge s blocks) {s s' : Sys}
    (h : Reach lim edge sns ws blks G t0 s) {ns : List Nat} {si : Bool} (ha : Arrives edge sns blks s ns si s') (hg : G s.u ns)
    (hlast : blks.length - 1 ∈ s'.u.got) :
    AckDue s' ∧ ((∀ n, n < blks.length → n ∈ s'.u.got) → (s.ctl.st = .flow ∨ s.ctl.st = .finished) → s'.ctl.st = .finished) := by
  have hsim := UlService.sim (G' := G') hc hm ht hG (project (h.step (.radio s ns si s' ha hg)))
  obtain ⟨n, b, h1, h2, h3⟩ := last_at hl
  obtain ⟨n1, n2⟩ := newest_good hgc hG' hsim.reach n (by rw [h1] at hlast; exact hlast) (by
    have := hsim.vs
    simp only [UlService.Sys.g]
    omega)
  simp only [UlService.Sys.g] at n1 n2
  obtain ⟨_, _, _, h4, env, junk, r, h5, rfl⟩ := ha
  simp only at n1 n2 hlast
  obtain ⟨first, hd⟩ := radio_whole (s := ⟨s.u.tbf, s.ctl⟩) h4 (by
    intro x hx
    obtain ⟨m, _, rfl⟩ := List.mem_map.1 hx
    exact raw_part _ _ _ _) h5
  have hbm : b ∈ blks := List.mem_of_getElem? h2
  have hover : countdownOver r.data.rx = true := by
    unfold countdownOver
    rw [n1]
    have hcv : b.cv = 0 := by
      have := (hm.fine b hbm).last
      rw [h3] at this
      simpa using this
    have := cuts_octets hm.cuts b hbm
    simp only [raw, h2, hcv, decide_true, Bool.and_true, decide_eq_true_eq]
    omega
  obtain ⟨_, _, d3, d4⟩ := data_spec h4 hd
  refine ⟨d4 (Or.inr hover), fun hall hst => d3 hst ?_ hover⟩
  rw [decide_eq_true_eq]
  exact n2 fun m hm => hall m (by omega)

/-- EGPRS, windows up to 512 blocks: if the last block of the mobile has arrived, every radio block is answered; if all its
blocks have arrived, the answer is marked as final. Missing: larger windows, where arrived blocks are forgotten
(`C01_egprs_ws1024_first_copy_lost`). -/
theorem C90_complete_egprs_partial (lim : Tbf.Lim) (ws t : Nat) (h1 : 64 ≤ ws) (h2 : ws ≤ 512) (frames rest : List (List Nat))
    (blks : List UlBlk) (t0 : Option Nat) (hm : Mobile true t frames blks rest) (hl : LastOnly blks) (ht : t0 = none ∨ t0 = some t)
    (s s' : Sys) (h : Reach lim true 2048 ws blks Any t0 s) (ns : List Nat) (si : Bool) (ha : Arrives true 2048 blks s ns si s')
    (hlast : blks.length - 1 ∈ s'.u.got) :
    AckDue s' ∧ ((∀ n, n < blks.length → n ∈ s'.u.got) → (s.ctl.st = .flow ∨ s.ctl.st = .finished) → s'.ctl.st = .finished) :=
  arrives_spec (G' := RlcUl.Any) (show LegalCfg true 2048 ws from ⟨rfl, h1, by omega⟩) (Or.inr ⟨rfl, h1, h2⟩) hm hl ht (fun _ _ _ => trivial)
    (fun _ _ x _ => by cases x) h ha trivial hlast

/-- The same for GPRS, if no arriving block is the one 63 ahead of V(R). Missing: that case, see
`C01_gprs_window_edge_deadlock`. -/
theorem C90_complete_gprs_partial (lim : Tbf.Lim) (t : Nat) (frames rest : List (List Nat))
    (blks : List UlBlk) (t0 : Option Nat) (hm : Mobile false t frames blks rest) (hl : LastOnly blks) (ht : t0 = none ∨ t0 = some t)
    (s s' : Sys) (h : Reach lim false 128 64 blks NoEdge t0 s) (ns : List Nat) (si : Bool) (ha : Arrives false 128 blks s ns si s')
    (hg : NoEdge s.u ns) (hlast : blks.length - 1 ∈ s'.u.got) :
    AckDue s' ∧ ((∀ n, n < blks.length → n ∈ s'.u.got) → (s.ctl.st = .flow ∨ s.ctl.st = .finished) → s'.ctl.st = .finished) :=
  arrives_spec (G' := RlcUl.NoEdge) (show LegalCfg false 128 64 from ⟨rfl, rfl⟩) (Or.inl ⟨rfl, rfl⟩) hm hl ht
    (fun s ns hn => ⟨by simpa using hn.1, fun b hb => by
      obtain ⟨n, hn', rfl⟩ := List.mem_map.1 hb
      exact hn.2 n hn'⟩) (fun _ _ _ x => x) h ha hg hlast

/-- A radio block is answered if the mobile says that it is stalled, if one of its (at most two) blocks has the TLLI, and every
20th one is, in all configurations. Missing: halves of split blocks, where the claim is false (`C90_halves_unanswered`). -/
theorem C90_answered_partial (lim : Tbf.Lim) (edge : Bool) (sns ws : Nat) (blks : List UlBlk) (t0 : Option Nat)
    (G : UlService.Sys → List Nat → Prop) (s s' : Sys) (h : Reach lim edge sns ws blks G t0 s) (ns : List Nat) (si : Bool)
    (ha : Arrives edge sns blks s ns si s') (h2 : ns.length ≤ 2)
    (hr : si = true ∨ (∃ n ∈ ns, ∃ b, blks[n]? = some b ∧ b.tlli ≠ none) ∨ s'.seen % 20 = 0) : AckDue s' := by
  have hseen := reach_seen h
  obtain ⟨_, _, _, h4, env, junk, r, h5, rfl⟩ := ha
  obtain ⟨first, hd⟩ := radio_whole (s := ⟨s.u.tbf, s.ctl⟩) h4 (by
    intro x hx
    obtain ⟨m, _, rfl⟩ := List.mem_map.1 hx
    exact raw_part _ _ _ _) h5
  refine (data_spec h4 hd).2.2.2 (Or.inl ?_)
  unfold asks
  rcases hr with rfl | ⟨n, hn, b, hb, ht⟩ | hr
  · simp
  · have : ((ns.map (raw edge sns blks)).take 2).any (·.hdr.ti) = true := by
      rw [List.take_of_length_le (by simpa using h2), List.any_eq_true]
      refine ⟨raw edge sns blks n, List.mem_map.2 ⟨n, hn, rfl⟩, ?_⟩
      simp only [raw, hb]
      cases hbt : b.tlli with
      | none => exact (ht hbt).elim
      | some u => rfl
    rw [this]; simp
  · simp only at hr hseen
    simp only [hseen, hr, decide_true, Bool.or_true]

/-! ### Cases -/

/-- A block full of one frame. -/
def full (last : Bool) : UlBlk := ⟨⟨[], .tail (List.replicate 22 7)⟩, none, last, if last then 0 else 15⟩

/-- A frame in `k + 1` blocks. -/
def blocks (k : Nat) : List UlBlk := List.replicate k (full false) ++ [full true]

theorem full_ok (edge last : Bool) : (full last).content.Valid edge ∧ ((full last).cv = 0 ↔ (full last).last = true)
    ∧ 20 ≤ ((full last).octets edge).length ∧ ((full last).octets edge).length ≤ 74 := by
  refine ⟨?_, ?_, ?_, ?_⟩
  · simp [full, Content.Valid]
  · cases last <;> simp [full]
  · cases edge <;> cases last <;> decide
  · cases edge <;> cases last <;> decide

theorem blocks_cuts (edge : Bool) (k : Nat) : Cuts edge [List.replicate (22 * (k + 1)) 7] (blocks k) [] := by
  unfold blocks
  induction k with
  | zero =>
    obtain ⟨h1, h2, h3, h4⟩ := full_ok edge true
    exact Cuts.cons _ _ _ _ _ h1 h2 h3 h4 (Takes.final [] (List.replicate 22 7) (by decide)) (Cuts.nil _)
  | succ k ih =>
    obtain ⟨h1, h2, h3, h4⟩ := full_ok edge false
    have e : List.replicate (22 * (k + 1 + 1)) 7 = List.replicate 22 7 ++ List.replicate (22 * (k + 1)) 7 := by
      rw [List.replicate_append_replicate]; congr 1; omega
    rw [e]
    exact Cuts.cons _ _ _ _ _ h1 h2 h3 h4
      (Takes.tail [] (List.replicate 22 7) _ [] (by decide) (by intro h; rw [List.replicate_eq_nil_iff] at h; omega)) ih

theorem blocks_mobile (edge : Bool) (k : Nat) : Mobile edge 1 [List.replicate (22 * (k + 1)) 7] (blocks k) [] where
  cuts := blocks_cuts edge k
  llc := by intro f hf; rw [List.mem_singleton] at hf; subst hf; rw [List.length_replicate]; omega
  tlli := by
    intro b hb u hu
    have : b.tlli = none := by
      unfold blocks at hb
      rcases List.mem_append.1 hb with h | h
      · rw [(List.mem_replicate.1 h).2]; rfl
      · rw [List.mem_singleton] at h; rw [h]; rfl
    rw [this] at hu; cases hu
  range := by decide

theorem blocks_last (k : Nat) : LastOnly (blocks k) :=
  ⟨_, _, rfl, rfl, fun x hx => by rw [(List.mem_replicate.1 hx).2]; rfl⟩

/-- The TBF was assigned on the PACCH. -/
def flowing : Tbf.Ul := { st := .flow, pacch := true }

theorem reach_flow (lim : Tbf.Lim) (edge : Bool) (sns ws : Nat) (G : UlService.Sys → List Nat → Prop) (blks : List UlBlk) (n : Nat)
    (h1 : n ≤ ws) (h2 : n ≤ blks.length) :
    Reach lim edge sns ws blks G (some 1) ⟨⟨0, n, UlData.Tbf.init sns ws (some 1), []⟩, flowing, [], 0⟩ := by
  induction n with
  | zero =>
    exact ((Reach.start.step (.other _ (.ev .addPacch) {} { st := .assign, pacch := true, tmr := some .t3168 } trivial rfl)).step
      (.other _ (.ev .ackPacch) {} flowing trivial rfl))
  | succ n ih => exact (ih (by omega) (by omega)).step (.sendNew _ (by simp; omega) (by simp; omega))

/-- Block `n`, the last one, as it arrives. -/
def lastRaw (sns n : Nat) : UlData.Raw := ⟨n % sns, ⟨1, 0, false, false⟩, List.replicate 22 7, false⟩

theorem raw_last (edge : Bool) (sns n : Nat) : raw edge sns (blocks n) n = lastRaw sns n := by
  have h : (blocks n)[n]? = some (full true) := by simp [blocks]
  unfold raw
  rw [h]
  cases edge <;> rfl

/-- What the network has after block `n`, the first to arrive. -/
def after (edge : Bool) (sns ws n : Nat) : UlData.Tbf := (UlData.Tbf.init sns ws (some 1)).rcv edge (fun _ => 0) [lastRaw sns n]

theorem after_arrives (edge : Bool) (sns ws n : Nat) (hv : (after edge sns ws n).rx.win.vq = (after edge sns ws n).rx.win.vr)
    (ho : countdownOver (after edge sns ws n).rx = true) :
    Arrives edge sns (blocks n) ⟨⟨0, n + 1, UlData.Tbf.init sns ws (some 1), []⟩, flowing, [], 0⟩ [n] false
      ⟨⟨0, n + 1, after edge sns ws n, [n]⟩, { flowing with st := .finished, ulAck := .sched, rx := 1 }, [], 1⟩ := by
  refine ⟨by simp, by simp [UlData.Tbf.init], rfl, (by intro h; cases h), {}, fun _ => 0,
    ⟨after edge sns ws n, { flowing with st := .finished, ulAck := .sched, rx := 1 }⟩, ?_, rfl⟩
  simp only [List.map_cons, List.map_nil, raw_last]
  unfold radio
  rw [if_neg (by intro h; cases h)]
  simp only
  rw [stops_whole edge (fun _ => 0) [lastRaw sns n] (by intro b hb; rw [List.mem_singleton] at hb; subst hb; rfl)]
  simp only [Bool.false_eq_true, if_false]
  rw [show UlData.Tbf.rcv edge (fun _ => 0) (UlData.Tbf.init sns ws (some 1)) [lastRaw sns n] = after edge sns ws n from rfl, ho,
    decide_eq_true hv]
  rfl

theorem after_reach (lim : Tbf.Lim) (edge : Bool) (sns ws n : Nat) (G : UlService.Sys → List Nat → Prop) (hw : n + 1 ≤ ws)
    (hg : G ⟨0, n + 1, UlData.Tbf.init sns ws (some 1), []⟩ [n])
    (hv : (after edge sns ws n).rx.win.vq = (after edge sns ws n).rx.win.vr) (ho : countdownOver (after edge sns ws n).rx = true) :
    ∃ c, Reach lim edge sns ws (blocks n) G (some 1) ⟨⟨0, n + 1, after edge sns ws n, [n]⟩, c, [true], 1⟩ :=
  ⟨_, ((reach_flow lim edge sns ws G (blocks n) (n + 1) hw (by simp [blocks])).step
      (.radio _ [n] false _ (after_arrives edge sns ws n hv ho) hg)).step
    (.other _ (.createAck true true) {} { flowing with st := .finished, ulAck := .wait, rx := 1 } trivial rfl)⟩

/-- A frame in one block: the mobile is told that all was received. -/
example (lim : Tbf.Lim) : ∃ s, Reach lim true 2048 64 (blocks 0) Any (some 1) s ∧ true ∈ s.acks ∧
    s.u.tbf.sent = [(1, List.replicate 22 7)] := by
  obtain ⟨c, h⟩ := after_reach lim true 2048 64 0 Any (by decide) trivial (by decide) (by decide)
  exact ⟨_, h, by simp, show (after true 2048 64 0).sent = _ by decide⟩

example : ∃ s s', Reach ⟨10, 10⟩ true 2048 64 (blocks 0) Any (some 1) s ∧ Arrives true 2048 (blocks 0) s [0] false s' ∧
    LastOnly (blocks 0) ∧ (blocks 0).length - 1 ∈ s'.u.got ∧ s.ctl.st = .flow :=
  ⟨_, _, reach_flow _ true 2048 64 Any (blocks 0) 1 (by decide) (by decide), after_arrives true 2048 64 0 (by decide) (by decide),
    blocks_last 0, by decide, rfl⟩

example : ∃ s s', Reach ⟨10, 10⟩ false 128 64 (blocks 0) NoEdge (some 1) s ∧ Arrives false 128 (blocks 0) s [0] false s' ∧ NoEdge s.u [0] ∧
    LastOnly (blocks 0) ∧ (blocks 0).length - 1 ∈ s'.u.got ∧ s.ctl.st = .flow :=
  ⟨_, _, reach_flow _ false 128 64 NoEdge (blocks 0) 1 (by decide) (by decide), after_arrives false 128 64 0 (by decide) (by decide),
    ⟨by decide, by decide⟩, blocks_last 0, by decide, rfl⟩

/-- With a window of 1024 blocks, a mobile is told that all was received although 1023 of its 1024 blocks are missing: the last
one arrived, V(R) stays behind (`C01_egprs_ws1024_first_copy_lost`), and the block is found where the one before V(R) should
be. -/
theorem C90_final_too_early : ∃ (frames : List (List Nat)) (blks : List UlBlk) (s : Sys), Mobile true 1 frames blks [] ∧ LastOnly blks ∧
    Reach ⟨10, 10⟩ true 2048 1024 blks Any (some 1) s ∧ true ∈ s.acks ∧ s.u.got = [1023] ∧ s.u.tbf.sent = [] ∧ frames ≠ [] := by
  obtain ⟨c, h⟩ := after_reach ⟨10, 10⟩ true 2048 1024 1023 Any (by decide) trivial (by decide) (by decide)
  exact ⟨_, blocks 1023, _, blocks_mobile true 1023, blocks_last 1023, h, List.mem_cons_self, rfl,
    show (after true 2048 1024 1023).sent = _ by decide, List.cons_ne_nil _ _⟩

/-- Half of a block, with the mobile stalled. -/
theorem halves (lim : Tbf.Lim) (k : Nat) : ∃ s, Reach lim true 2048 64 (blocks 0) Any (some 1) s ∧ s.seen = k ∧
    s.ctl.st = .flow ∧ s.ctl.freed = false ∧ s.ctl.ulAck = .idle ∧ s.u.va = 0 ∧ s.u.vs = 1 ∧ s.u.tbf.rx.win = RlcUl.Win.init 2048 64 ∧ s.acks = [] ∧
    ∃ s', HalfArrives true 2048 s 0 true s' ∧ s'.seen = k + 1 ∧ s'.ctl.st = .flow ∧ s'.ctl.freed = false ∧ s'.ctl.ulAck = .idle ∧
      s'.u.va = 0 ∧ s'.u.vs = 1 ∧ s'.u.tbf.rx.win = RlcUl.Win.init 2048 64 ∧ s'.acks = [] := by
  have one : ∀ s : Sys, s.ctl.st = .flow → s.ctl.freed = false → s.ctl.ulAck = .idle → s.u.va = 0 → s.u.vs = 1 →
      s.u.tbf.rx.win = RlcUl.Win.init 2048 64 → s.acks = [] →
      ∃ s', HalfArrives true 2048 s 0 true s' ∧ s'.seen = s.seen + 1 ∧ s'.ctl.st = .flow ∧ s'.ctl.freed = false ∧ s'.ctl.ulAck = .idle ∧
        s'.u.va = 0 ∧ s'.u.vs = 1 ∧ s'.u.tbf.rx.win = RlcUl.Win.init 2048 64 ∧ s'.acks = [] := by
    intro s h1 h2 h3 h4 h5 h6 h7
    have hin : s.u.tbf.rx.win.isInWindow 0 = true := by rw [h6]; decide
    have hrc : RlcUl.isRecv s.u.tbf.rx.win.vn 0 = false := by rw [h6]; rfl
    have hr : radio {} true (fun _ => 0) ⟨s.u.tbf, s.ctl⟩ true [⟨0, ⟨1, 0, false, false⟩, List.replicate 22 7, true⟩] =
        some ⟨s.u.tbf.rcv true (fun _ => 0) [⟨0, ⟨1, 0, false, false⟩, List.replicate 22 7, true⟩], { s.ctl with n3101 := 0, rx := s.ctl.rx + 1 }⟩ := by
      unfold radio
      rw [if_neg (by simp [h1])]
      simp [stops, hin, hrc]
    refine ⟨_, ⟨by omega, by omega, h2, by simp [h1], {}, fun _ => 0, ⟨0, ⟨1, 0, false, false⟩, List.replicate 22 7, true⟩, _, rfl, rfl, hr, rfl⟩,
      rfl, h1, h2, h3, h4, h5, ?_, h7⟩
    simp only [UlData.Tbf.rcv, hin, hrc, Bool.not_true, Bool.false_eq_true, if_false, if_true]
    simp only [RlcUl.Rx.oneBlock, hin, hrc, Bool.not_true, Bool.false_eq_true, if_false]
    exact h6
  induction k with
  | zero =>
    obtain ⟨s', h⟩ := one ⟨⟨0, 1, UlData.Tbf.init 2048 64 (some 1), []⟩, flowing, [], 0⟩ rfl rfl rfl rfl rfl rfl rfl
    exact ⟨_, reach_flow lim true 2048 64 Any (blocks 0) 1 (by decide) (by decide), rfl, rfl, rfl, rfl, rfl, rfl, rfl, rfl, s', h⟩
  | succ k ih =>
    obtain ⟨s, h0, h1, _, _, _, _, _, _, _, s', g0, g1, g2, g3, g4, g5, g6, g7, g8⟩ := ih
    obtain ⟨s2, h⟩ := one s' g2 g3 g4 g5 g6 g7 g8
    rw [g1] at h
    exact ⟨s', h0.step (.half s 0 true s' g0), g1, g2, g3, g4, g5, g6, g7, g8, s2, h⟩

/-- A mobile that says with halves of a split block that it is stalled gets no answer, however often it does: after any number
of them no acknowledgement is due. -/
theorem C90_halves_unanswered (k : Nat) : ∃ s s', Reach ⟨10, 10⟩ true 2048 64 (blocks 0) Any (some 1) s ∧ HalfArrives true 2048 s 0 true s' ∧
    s'.seen = k + 1 ∧ s'.acks = [] ∧ ¬ AckDue s' := by
  obtain ⟨s, h0, _, _, _, _, _, _, _, _, s', g0, g1, _, _, g4, _, _, _, g8⟩ := halves ⟨10, 10⟩ k
  exact ⟨s, s', h0, g0, g1, g8, by simp [AckDue, g4]⟩

end Verif.UlEnd
