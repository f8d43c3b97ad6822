import Verif.Props.C01
import Verif.Lemmas.Bits
/-!
C02: the uplink receive bitmap tells the truth.

`s.got` records the absolute numbers of all complete blocks that arrived.
`s.rx.win.updateRbb` is the text bitmap of the Packet Uplink Ack/Nack; position `p`
(0 .. ws-1) is the transmitted bit `p`, and stands for sequence number
`SSN - 1 - i` with `i = ws - 1 - p`; SSN is V(R).
-/
namespace Verif.RlcUl

theorem updateRbb_get (w : Win) (p : Nat) (hp : p < w.ws) :
    w.updateRbb[p]? = some (isRecv w.vn (w.modSns (w.vr + w.sns - 1 - (w.ws - 1 - p)))) := by
  simp [Win.updateRbb, hp]

/-- No false acknowledgement, for GPRS and all EGPRS window sizes and all histories:
if the bitmap acknowledges a sequence number, and the mobile has an outstanding block
with this sequence number, then this very block has been received. -/
theorem C02_never_acks_unreceived {α} (f : Nat → α) (sns ws : Nat) (hc : LegalCfg sns ws)
    (s : SysG α) (h : ReachG f sns ws Any s) (n p : Nat) (hp : p < ws)
    (hout : s.va ≤ n ∧ n < s.vs)
    (hn : n % sns = (s.rx.win.vr + sns - 1 - (ws - 1 - p)) % sns)
    (hbit : s.rx.win.updateRbb[p]? = some true) : n ∈ s.got := by
  obtain ⟨q, r, hi, hS⟩ := reachG_sound hc h
  rw [updateRbb_get _ _ (by rw [hi.hws]; exact hp)] at hbit
  simp only [hi.hsns, hi.hws, Win.modSns, Option.some.injEq] at hbit
  rw [← hn] at hbit
  have hrec : s.rx.win.vn (idx sns n) = .received := by
    simp only [isRecv, beq_iff_eq] at hbit; exact hbit
  have e4 := hi.hr; have := hi.qr; have := hi.rq; have := hi.vsva; have := hi.rvs
  have hva : s.va ≤ r := by
    rcases Nat.lt_or_ge q s.va with hh | hh
    · have := (hi.acked (s.va-1) (by omega) (by omega)).1; omega
    · omega
  rw [e4] at hn
  have hnr : n < r := by
    rcases hc with ⟨rfl, rfl⟩ | ⟨rfl, h1', h2'⟩ <;> omega
  by_cases hnq : n < q
  · exact hS.s1 n hnq
  · exact hS.s2 n (by omega) hnr hrec

/-- Exactness of the 64-bit GPRS bitmap. `V` is one more than the highest block number
received so far (0 if nothing was received). SSN is `V` modulo 128, and bit `p` is set iff
block number `V - 64 + p` exists and was received. Partial: assumes `NoEdge`; without it a
received block may be reported as missing (`C02_edge_block_reported_missing`), never the
other way round (`C02_never_acks_unreceived`). -/
theorem C02_bitmap_exact_partial {α} (f : Nat → α) (s : SysG α) (h : ReachG f 128 64 NoEdge s)
    (V : Nat) (hV : ∀ m ∈ s.got, m < V) (hV' : V = 0 ∨ V - 1 ∈ s.got) :
    s.rx.win.vr = V % 128 ∧ s.rx.win.updateRbb.length = 64 ∧
    ∀ p, p < 64 →
      (s.rx.win.updateRbb[p]? = some true ↔ 64 ≤ V + p ∧ (V + p - 64) ∈ s.got) := by
  obtain ⟨q, r, hi, hE, hF⟩ := reachG_inv (Or.inl ⟨rfl, rfl⟩) (by intro _ _ _ h; exact h) h
  have hrV : r = V := by
    rcases hE.e5 with x | x
    · rcases hV' with y | y
      · omega
      · have := hE.e3 _ y; omega
    · have := hV _ x
      rcases hV' with y | y
      · omega
      · have := hE.e3 _ y; omega
  subst hrV
  refine ⟨hi.hr, by simp [Win.updateRbb, hi.hws], ?_⟩
  intro p hp
  rw [updateRbb_get _ _ (by rw [hi.hws]; exact hp)]
  have hm := hE.e1 (r + p + 2048 - 64) (by omega) (by omega)
  have e : (r % 128 + 128 - 1 - (64 - 1 - p)) % 128 % ring = idx 128 (r + p + 2048 - 64) := by
    unfold idx ring; omega
  simp only [hi.hsns, hi.hws, hi.hr, Win.modSns, Option.some.injEq, isRecv, beq_iff_eq, e, hm]
  constructor
  · rintro ⟨x, y⟩
    exact ⟨by omega, by rw [show r + p - 64 = r + p + 2048 - 64 - 2048 by omega]; exact y⟩
  · rintro ⟨x, y⟩
    exact ⟨by omega, by rw [show r + p + 2048 - 64 - 2048 = r + p - 64 by omega]; exact y⟩

/-- Without `NoEdge` the "if" direction fails: block 63 was received (first, before any
other), but after 62 and 64 arrived too, the bitmap shows it as not received. -/
theorem C02_edge_block_reported_missing : ∃ s : SysG Nat, ReachG id 128 64 Any s ∧
    63 ∈ s.got ∧ s.rx.win.vr = 65 ∧ s.rx.win.updateRbb[62]? = some false := by
  let ns := 63 :: List.range 63
  have h0 : ReachG id 128 64 Any _ :=
    reach_sends 64 (ReachG.start (f := id) (sns := 128) (ws := 64) (G := Any)) (by simp)
  have h1 := reach_deliver ns h0 (by intro n hn; simp [ns] at hn; simp; omega)
  have hw : (deliver id 128 ns (Rx.init Nat 128 64)).out.length = 63 ∧
      (deliver id 128 [64] (deliver id 128 ns (Rx.init Nat 128 64))).win.vr = 65 ∧
      (deliver id 128 [64] (deliver id 128 ns (Rx.init Nat 128 64))).win.updateRbb[62]? = some false := by
    decide +kernel
  dsimp only at h1
  generalize deliver id 128 ns (Rx.init Nat 128 64) = x at hw h1
  have h2 := ReachG.step h1 (StepG.acked _ 63 (by simp) (by simp)
    (fun n _ hn => Or.inl (by dsimp only; omega)))
  have h3 := ReachG.step h2 (StepG.sendNew _ (by simp))
  have h4 := reach_deliver [64] h3 (by simp)
  exact ⟨_, h4, by simp [ns], hw.2.1, hw.2.2⟩

/-! ### EGPRS bitmap -/

theorem egprsRbbLoop_spec (w : Win) (hs : w.sns = 2048) (hvr : w.vr < 2048) :
    ∀ (k fuel b : Nat), b + k = w.vr → k ≤ fuel →
    egprsRbbLoop w fuel b = (List.range k).map (fun i => isRecv w.vn (b + i)) := by
  intro k
  induction k with
  | zero =>
    intro fuel b hb _
    cases fuel with
    | zero => rfl
    | succ n => simp only [egprsRbbLoop]; rw [if_neg (by omega)]; rfl
  | succ k ih =>
    intro fuel b hb hf
    cases fuel with
    | zero => omega
    | succ n =>
      simp only [egprsRbbLoop]
      rw [if_pos (by omega)]
      have : w.modSns (b + 1) = b + 1 := by unfold Win.modSns; rw [hs]; omega
      rw [this, ih n (b+1) (by omega) (by omega), List.range_succ_eq_map]
      simp only [List.map_cons, List.map_map, Nat.add_zero, Function.comp_def]
      congr 1
      apply List.map_congr_left
      intro i _
      rw [show b + 1 + i = b + (i + 1) by omega]

/-- The uncompressed EGPRS bitmap, when the window does not straddle the sequence number
wrap. `Q` blocks were forwarded, `V` is one more than the highest number received: the
bitmap has one bit for each block `Q+1 .. V-1`, set iff the block was received.
Partial: windows up to 512, and no wrap between `Q+1` and `V`; with a wrap the bitmap
degenerates (`C02_egprs_bitmap_empty_at_wrap`). -/
theorem C02_egprs_bitmap_exact_partial {α} (f : Nat → α) (ws : Nat) (h1 : 64 ≤ ws) (h2 : ws ≤ 512)
    (s : SysG α) (h : ReachG f 2048 ws Any s)
    (V : Nat) (hV : ∀ m ∈ s.got, m < V) (hV' : V = 0 ∨ V - 1 ∈ s.got)
    (hnw : s.rx.out.length / 2048 = V / 2048) (hgap : s.rx.out.length < V) :
    s.rx.win.updateEgprsRbb = (List.range (V - 1 - s.rx.out.length)).map
      (fun i => decide (s.rx.out.length + 1 + i ∈ s.got)) := by
  obtain ⟨q, r, hi, hE, hF⟩ := reachG_inv (Or.inr ⟨rfl, h1, h2⟩) (by intro _ _ h; cases h) h
  have hlen : s.rx.out.length = q := by rw [hi.out]; simp
  have hrV : r = V := by
    rcases hE.e5 with x | x
    · rcases hV' with y | y
      · omega
      · have := hE.e3 _ y; omega
    · have := hV _ x
      rcases hV' with y | y
      · omega
      · have := hE.e3 _ y; omega
  subst hrV
  rw [hlen] at *
  have hrq := hi.rq
  unfold Win.updateEgprsRbb
  rw [egprsRbbLoop_spec s.rx.win hi.hsns (by rw [hi.hr]; omega) (r - 1 - q) s.rx.win.ws (s.rx.win.vq + 1)
    (by rw [hi.hq, hi.hr]; omega) (by rw [hi.hws]; omega)]
  apply List.map_congr_left
  intro i hmem
  have hik := List.mem_range.1 hmem
  have hb := isRecv_iff (n := q + 1 + i) (Or.inr ⟨rfl, h1, h2⟩) hi hE (by omega) (by omega)
  have e : (s.rx.win.vq + 1 + i) % ring = idx 2048 (q + 1 + i) := by
    rw [hi.hq]; unfold idx ring; omega
  by_cases hg : q + 1 + i ∈ s.got
  · simp [hg, isRecv, e, hb.2 hg]
  · have : ¬ s.rx.win.vn (idx 2048 (q + 1 + i)) = .received := fun hh => hg (hb.1 hh)
    simp [hg, isRecv, e, this]

/-- An in-order transmission of any length is possible. -/
theorem reach_inorder (ws : Nat) (h1 : 64 ≤ ws) (h2 : ws ≤ 512) (n : Nat) :
    ∃ s : SysG Nat, ReachG id 2048 ws Any s ∧ s.va = n ∧ s.vs = n ∧ s.rx.out.length = n ∧
      ∀ m, m ∈ s.got ↔ m < n := by
  induction n with
  | zero => exact ⟨_, ReachG.start, rfl, rfl, rfl, by simp⟩
  | succ n ih =>
    obtain ⟨s, hs, hva, hvs, hlen, hgot⟩ := ih
    have a1 := ReachG.step hs (StepG.sendNew s (by omega))
    have a2 := reach_deliver [n] a1 (by simp; omega)
    dsimp only at a2
    have hg2 : ∀ m, m ∈ s.got ++ [n] ↔ m < n + 1 := by
      intro m; simp [hgot]; omega
    have hc := fun k => C01_complete_egprs_partial id ws h1 h2 _ a2 k
    dsimp only at hc
    have hlen' : (deliver id 2048 [n] s.rx).out.length = n + 1 := by
      have x1 := (hc n).2 (fun m hm => (hg2 m).2 (by omega))
      have x2 := (hc (n+1))
      have x3 : ¬ (n + 1 < (deliver id 2048 [n] s.rx).out.length) := fun hh => by
        have := (hg2 (n+1)).1 (x2.1 hh (n+1) (Nat.le_refl _)); omega
      omega
    have a3 := ReachG.step a2 (StepG.acked _ (n+1) (by dsimp only; omega) (by dsimp only; omega)
      (fun m _ hm => Or.inl (by dsimp only; omega)))
    exact ⟨_, a3, rfl, by dsimp only; omega, hlen', hg2⟩

/-- At the wrap of the sequence number the EGPRS bitmap loses information: blocks
0 .. 2046 and 2048, 2049 were received, 2047 is missing, but the bitmap is empty
although it should report 2048 and 2049. -/
theorem C02_egprs_bitmap_empty_at_wrap : ∃ s : SysG Nat, ReachG id 2048 64 Any s ∧
    s.rx.out.length = 2047 ∧ 2048 ∈ s.got ∧ 2049 ∈ s.got ∧ 2047 ∉ s.got ∧
    s.rx.win.updateEgprsRbb = [] := by
  obtain ⟨s, hs, hva, hvs, hlen, hgot⟩ := reach_inorder 64 (by omega) (by omega) 2047
  have a1 := reach_sends 3 hs (by omega)
  have a2 := reach_deliver [2048, 2049] a1 (by simp; omega)
  dsimp only at a2
  have hg2 : ∀ m, m ∈ s.got ++ [2048, 2049] ↔ (m < 2047 ∨ m = 2048 ∨ m = 2049) := by
    intro m; simp [hgot]
  have hc := fun k => C01_complete_egprs_partial id 64 (by omega) (by omega) _ a2 k
  dsimp only at hc
  have hlen' : (deliver id 2048 [2048, 2049] s.rx).out.length = 2047 := by
    have x1 := (hc 2046).2 (fun m hm => (hg2 m).2 (by omega))
    have x3 : ¬ (2047 < (deliver id 2048 [2048, 2049] s.rx).out.length) := fun hh => by
      have := (hg2 2047).1 ((hc 2047).1 hh 2047 (Nat.le_refl _)); omega
    omega
  refine ⟨_, a2, hlen', (hg2 _).2 (by omega), (hg2 _).2 (by omega), fun hh => ?_, ?_⟩
  · have := (hg2 2047).1 hh; omega
  · obtain ⟨q, r, hi⟩ := reach_inv (Or.inr ⟨rfl, by omega, by omega⟩) a2.toReach
    have hi : Inv id 2048 64 _ _ (deliver id 2048 [2048, 2049] s.rx) q r := hi
    have hq : q = 2047 := by rw [← hlen', hi.out]; simp
    show egprsRbbLoop _ _ ((deliver id 2048 [2048, 2049] s.rx).win.vq + 1) = []
    rw [hi.hq, hi.hws, hq]
    have : (deliver id 2048 [2048, 2049] s.rx).win.vr < 2048 := by rw [hi.hr]; omega
    show (if 2047 % 2048 + 1 < (deliver id 2048 [2048, 2049] s.rx).win.vr then _ else _) = _
    rw [if_neg (by omega)]

/-! ### Non-vacuity -/

/-- A GPRS state with a hole: 0 and 2 received; SSN 3, bits 61 and 63 set, bit 62 clear. -/
example : ∃ s : SysG Nat, ReachG id 128 64 NoEdge s ∧ s.got = [0, 2] ∧
    (s.rx.win.updateRbb.drop 61) = [true, false, true] := by
  have h0 : ReachG id 128 64 NoEdge _ :=
    reach_sends 3 (ReachG.start (f := id) (sns := 128) (ws := 64) (G := NoEdge)) (by simp)
  have h1 := ReachG.step h0 (StepG.radio _ [(0, { bsn := 0, data := 0, kind := .ok })]
    (by simp) (by simp) (by simp [NoEdge, Rx.init, Win.init]))
  have h2 := ReachG.step h1 (StepG.radio _ [(2, { bsn := 2, data := 2, kind := .ok })]
    (by simp) (by simp) ⟨by simp, by
      intro b hb; rw [List.mem_singleton] at hb; subst hb
      show (2 : Nat) ≠ _
      decide +kernel⟩)
  refine ⟨_, h2, rfl, ?_⟩
  decide +kernel

end Verif.RlcUl
