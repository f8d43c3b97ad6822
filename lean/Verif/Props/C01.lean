import Verif.Lemmas.UlComplete
/-!
C01: uplink blocks are reassembled in order, each exactly once.

`Reach f sns ws s` (Spec/UlStream.lean) says: `s` is reachable by any interleaving of
the mobile sending blocks of its stream `f 0, f 1, …` within its window, the radio
losing, repeating and reordering them, and Ack/Nack information coming back.
`s.rx.out` is the sequence of blocks handed to LLC reassembly.
-/
namespace Verif.RlcUl

/-- Safety, for GPRS and all EGPRS window sizes 64..1024 and histories of any length:
the blocks handed to LLC reassembly are exactly block 0, 1, 2, … of the stream. -/
theorem C01_in_order_exactly_once {α} (f : Nat → α) (sns ws : Nat) (hc : LegalCfg sns ws)
    (s : Sys α) (h : Reach f sns ws s) :
    s.rx.out = (List.range s.rx.out.length).map (fun n => some (f n)) := by
  obtain ⟨q, r, hi⟩ := reach_inv hc h
  have := hi.out
  rw [this]; simp

/-- The receiver only ever appends to what it has forwarded. -/
theorem C01_forwarded_is_final {α} (f : Nat → α) (sns ws : Nat)
    (s t : Sys α) (hst : Step f sns ws s t) :
    ∃ more, t.rx.out = s.rx.out ++ more := by
  have key : ∀ (blocks : List (Arrival α)) (x : Rx α), ∃ more, (x.rcvBlocks blocks).out = x.out ++ more := by
    intro blocks
    induction blocks with
    | nil => intro x; exact ⟨_, rfl⟩
    | cons a rest ih =>
      intro x
      have ho : (x.oneBlock a).1.out = x.out := by
        unfold Rx.oneBlock
        split
        · rfl
        · split
          · rfl
          · cases a.kind <;> rfl
      simp only [Rx.rcvBlocks]
      rcases hres : x.oneBlock a with ⟨x', c⟩
      rw [hres] at ho
      cases c
      · obtain ⟨m, hm⟩ := ih x'
        exact ⟨m, by rw [← ho]; exact hm⟩
      · exact ⟨[], by simp [← ho]⟩
  cases hst with
  | sendNew => exact ⟨[], by simp⟩
  | acked => exact ⟨[], by simp⟩
  | radio blocks _ => exact key blocks s.rx

/-- Completeness for EGPRS with windows up to 512: block `n` has been forwarded as soon
as all blocks up to `n` have arrived (and not before). -/
theorem C01_complete_egprs_partial {α} (f : Nat → α) (ws : Nat) (h1 : 64 ≤ ws) (h2 : ws ≤ 512)
    (s : SysG α) (h : ReachG f 2048 ws Any s) (n : Nat) :
    n < s.rx.out.length ↔ ∀ m, m ≤ n → m ∈ s.got := by
  obtain ⟨q, r, hi, hE, hF⟩ := reachG_inv (Or.inr ⟨rfl, h1, h2⟩) (by intro _ _ h; cases h) h
  have hlen : s.rx.out.length = q := by rw [hi.out]; simp
  rw [hlen]
  constructor
  · intro hn m hm; exact hE.e4 m (by omega)
  · intro hall
    rcases Nat.lt_or_ge n q with hq | hq
    · exact hq
    · exfalso
      have hg := hall q hq
      rcases hF with x | x
      · have := hE.e3 q hg; omega
      · exact x ((isRecv_iff (Or.inr ⟨rfl, h1, h2⟩) hi hE (Nat.le_refl _) (by omega)).2 hg)

/-- Completeness for GPRS, under the assumption `NoEdge` that no arriving block is
exactly 63 ahead of V(R). Missing for the full claim: exactly that case, for which
the claim is false (`C01_gprs_window_edge_deadlock`). -/
theorem C01_complete_gprs_partial {α} (f : Nat → α)
    (s : SysG α) (h : ReachG f 128 64 NoEdge s) (n : Nat) :
    n < s.rx.out.length ↔ ∀ m, m ≤ n → m ∈ s.got := by
  obtain ⟨q, r, hi, hE, hF⟩ := reachG_inv (Or.inl ⟨rfl, rfl⟩) (by intro _ _ _ h; exact h) h
  have hlen : s.rx.out.length = q := by rw [hi.out]; simp
  rw [hlen]
  constructor
  · intro hn m hm; exact hE.e4 m (by omega)
  · intro hall
    rcases Nat.lt_or_ge n q with hq | hq
    · exact hq
    · exfalso
      have hg := hall q hq
      rcases hF with x | x
      · have := hE.e3 q hg; omega
      · exact x ((isRecv_iff (Or.inl ⟨rfl, rfl⟩) hi hE (Nat.le_refl _) (by omega)).2 hg)

/-! ### Building concrete reachable states -/

theorem reach_sends {α} {f : Nat → α} {sns ws : Nat} {G} (k : Nat) : ∀ {s : SysG α},
    ReachG f sns ws G s → s.vs + k ≤ s.va + ws → ReachG f sns ws G { s with vs := s.vs + k } := by
  induction k with
  | zero => intro s h _; exact h
  | succ k ih =>
    intro s h hk
    have := ReachG.step h (StepG.sendNew s (by omega))
    have := ih this (by simp; omega)
    simpa [Nat.add_assoc, Nat.add_comm 1 k] using this

/-- one complete data block per radio block, in the given order -/
def deliver {α} (f : Nat → α) (sns : Nat) : List Nat → Rx α → Rx α
  | [], x => x
  | n :: ns, x => deliver f sns ns (x.rcvBlocks [{ bsn := n % sns, data := f n, kind := .ok }])

theorem reach_deliver {α} {f : Nat → α} {sns ws : Nat} (ns : List Nat) : ∀ {s : SysG α},
    ReachG f sns ws Any s → (∀ n ∈ ns, s.va ≤ n ∧ n < s.vs) →
    ReachG f sns ws Any { s with rx := deliver f sns ns s.rx, got := s.got ++ ns } := by
  induction ns with
  | nil => intro s h _; simpa [deliver] using h
  | cons n ns ih =>
    intro s h hk
    have h1 := ReachG.step h (StepG.radio s [(n, { bsn := n % sns, data := f n, kind := .ok })]
      (by intro b hb; rw [List.mem_singleton] at hb; subst hb
          exact ⟨(hk n (List.mem_cons_self ..)).1, (hk n (List.mem_cons_self ..)).2, rfl, fun _ => rfl⟩)
      (by intro b hb; rw [List.mem_singleton] at hb; subst hb; simp) trivial)
    have := ih h1 (fun m hm => hk m (List.mem_cons_of_mem _ hm))
    simpa [deliver, okNumbers] using this

/-- Negation of progress for GPRS: there is a reachable state in which block 63 was
received (it is in the record), all blocks before it were forwarded, block 63 was not, and
every further copy of block 63 is ignored, so a transmission that ends with this block
never completes. -/
theorem C01_gprs_window_edge_deadlock : ∃ s : SysG Nat, ReachG id 128 64 Any s ∧
    (∀ m, m ≤ 63 → m ∈ s.got) ∧ s.rx.out.length = 63 ∧
    ∀ k, (deliver id 128 (List.replicate k 63) s.rx).out.length = 63 := by
  let ns := 63 :: List.range 63
  have h0 : ReachG id 128 64 Any _ :=
    reach_sends 64 (ReachG.start (f := id) (sns := 128) (ws := 64) (G := Any)) (by simp)
  have h1 := reach_deliver ns h0 (by intro n hn; simp [ns] at hn; simp; omega)
  have hw : (deliver id 128 ns (Rx.init Nat 128 64)).win.vq = 63 ∧
        (deliver id 128 ns (Rx.init Nat 128 64)).win.vr = 63 ∧
        (deliver id 128 ns (Rx.init Nat 128 64)).win.sns = 128 ∧
        (deliver id 128 ns (Rx.init Nat 128 64)).win.isInWindow 63 = true ∧
        isRecv (deliver id 128 ns (Rx.init Nat 128 64)).win.vn 63 = true ∧
        (deliver id 128 ns (Rx.init Nat 128 64)).out.length = 63 := by decide +kernel
  dsimp only at h1
  generalize deliver id 128 ns (Rx.init Nat 128 64) = x at hw h1
  refine ⟨_, h1, ?_, hw.2.2.2.2.2, ?_⟩
  · intro m hm; simp [ns]; omega
  · show ∀ k, (deliver id 128 (List.replicate k 63) x).out.length = 63
    obtain ⟨w1, w2, w3, w4, w5, w6⟩ := hw
    have hfix : x.rcvBlocks [{ bsn := 63 % 128, data := id 63, kind := .ok }] = x := by
      have e : x.oneBlock { bsn := 63 % 128, data := id 63, kind := .ok } = (x, false) := by
        unfold Rx.oneBlock; simp [w4, w5]
      have e2 : x.win.raiseVq = (x.win, 0) := by
        unfold Win.raiseVq; rw [w3]
        show raiseVqLoop (127 + 1) x.win 0 = _
        rw [raiseVqLoop, if_neg (by simp [w1, w2])]
      simp only [Rx.rcvBlocks, e, Rx.flush, e2]; simp
    intro k
    induction k with
    | zero => exact w6
    | succ k ih => simp only [List.replicate_succ, deliver, hfix]; exact ih

/-- Negation of completeness for EGPRS window size 1024: the first copy of every
in-order block is erased again, so block 0 has arrived but is not forwarded. -/
theorem C01_egprs_ws1024_first_copy_lost : ∃ s : SysG Nat, ReachG id 2048 1024 Any s ∧
    0 ∈ s.got ∧ s.rx.out.length = 0 := by
  have h0 : ReachG id 2048 1024 Any _ :=
    reach_sends 1 (ReachG.start (f := id) (sns := 2048) (ws := 1024) (G := Any)) (by simp)
  have h1 := reach_deliver [0] h0 (by simp)
  refine ⟨_, h1, by simp, ?_⟩
  show (deliver id 2048 [0] (Rx.init Nat 2048 1024)).out.length = 0
  decide +kernel

/-! ### Non-vacuity -/

/-- A run with reordering and repetition: 1, 2, 2, 0 arrive; 0, 1, 2 are forwarded. -/
example : ∃ s : SysG Nat, ReachG id 2048 64 Any s ∧ Reach id 2048 64 s.toSys ∧
    s.rx.out = [some 0, some 1, some 2] := by
  have h0 : ReachG id 2048 64 Any _ :=
    reach_sends 3 (ReachG.start (f := id) (sns := 2048) (ws := 64) (G := Any)) (by simp)
  have h1 := reach_deliver [1, 2, 2, 0] h0 (by simp)
  refine ⟨_, h1, h1.toReach, ?_⟩
  show (deliver id 2048 [1, 2, 2, 0] (Rx.init Nat 2048 64)).out = _
  decide +kernel

/-- `NoEdge` runs exist: a GPRS run with a gap that is closed later. -/
example : ∃ s : SysG Nat, ReachG id 128 64 NoEdge s ∧ s.rx.out = [some 0, some 1] := by
  have h0 : ReachG id 128 64 NoEdge _ :=
    reach_sends 2 (ReachG.start (f := id) (sns := 128) (ws := 64) (G := NoEdge)) (by simp)
  have h1 := ReachG.step h0 (StepG.radio _ [(1, { bsn := 1, data := 1, kind := .ok })]
    (by simp) (by simp) (by simp [NoEdge, Rx.init, Win.init]))
  have h2 := ReachG.step h1 (StepG.radio _ [(0, { bsn := 0, data := 0, kind := .ok })]
    (by simp) (by simp) ⟨by simp, by
      intro b hb; rw [List.mem_singleton] at hb; subst hb
      show (0 : Nat) ≠ _
      decide +kernel⟩)
  refine ⟨_, h2, ?_⟩
  decide +kernel

end Verif.RlcUl
