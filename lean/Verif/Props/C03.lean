import Verif.Lemmas.DlWindow
/-!
C03: the downlink window never overruns and only forgets acknowledged blocks.
C04: which block is sent next.

`Reach sns ws s` (Spec/DlStream.lean): any interleaving of block requests in any TBF
situation, Ack/Nack bitmaps, split retransmissions, final acks and window size changes.
`s.created` counts blocks ever created (= absolute number of the next new block);
`s.acked` lists the blocks the mobile has acknowledged.
-/
namespace Verif.RlcDl

/-- The sender still keeps block number `n` for retransmission. -/
def Sys.keeps (s : Sys) (n : Nat) : Prop :=
  s.win.st (n % s.win.sns) = .unacked ∨ s.win.st (n % s.win.sns) = .nacked ∨
    s.win.st (n % s.win.sns) = .resend

/-- Never more than the window size outstanding, and V(A), V(S) are the sequence numbers of
the oldest outstanding and the next new block. -/
theorem C03_never_overrun (sns ws : Nat) (hc : LegalCfg sns ws) (s : Sys) (h : Reach sns ws s) :
    s.oldest ≤ s.created ∧ s.created - s.oldest ≤ s.win.ws ∧
    s.win.va = s.oldest % sns ∧ s.win.vs = s.created % sns := by
  have hi := reach_inv hc h
  exact ⟨hi.le, by have := hi.bound; omega, hi.ha, hi.hs⟩

/-- A block not yet acknowledged is never forgotten: it is among the outstanding blocks and
in a state from which it can be sent again. -/
theorem C03_unacked_is_kept (sns ws : Nat) (hc : LegalCfg sns ws) (s : Sys) (h : Reach sns ws s)
    (n : Nat) (hn : n < s.created) (hna : n ∉ s.acked) :
    s.oldest ≤ n ∧ s.keeps n := by
  have hi := reach_inv hc h
  have h1 : s.oldest ≤ n := by
    rcases Nat.lt_or_ge n s.oldest with x | x
    · exact absurd (hi.old n x) hna
    · exact x
  refine ⟨h1, ?_⟩
  have hv := hi.valid n h1 hn
  have ha : s.win.vb (idx sns n) ≠ .acked := fun x => hna (hi.ack n h1 hn x)
  unfold Sys.keeps Win.st
  rw [hi.hsns]
  have e : n % sns % ring = idx sns n := rfl
  rw [e]
  cases hh : s.win.vb (idx sns n) <;> simp_all

theorem countUnackedLoop_spec (w : Win) (ws s : Nat) (hc : LegalCfg w.sns ws) (hs : w.vs = s % w.sns) :
    ∀ (fuel a c : Nat), a ≤ s → s ≤ a + ws → s - a ≤ fuel →
      countUnackedLoop w fuel (a % w.sns) c =
        c + ((List.range (s - a)).filter fun i => w.st ((a + i) % w.sns) ≠ .acked).length
  | 0, a, c, h1, _, h3 => by
    have : s - a = 0 := by omega
    simp [countUnackedLoop, this]
  | fuel + 1, a, c, h1, h2, h3 => by
    unfold countUnackedLoop
    rcases Nat.eq_or_lt_of_le h1 with rfl | h1
    · rw [if_pos hs.symm]; simp
    · rw [if_neg (by rw [hs]; exact mod_ne hc h1 h2)]
      have e : w.modSns (a % w.sns + 1) = (a + 1) % w.sns := by
        unfold Win.modSns; rw [Nat.mod_add_mod]
      rw [e, countUnackedLoop_spec w ws s hc hs fuel (a + 1) _ (by omega) (by omega) (by omega)]
      rw [show s - a = (s - (a + 1)) + 1 by omega, List.range_succ_eq_map, List.filter_cons, List.filter_map,
        Nat.add_zero]
      have e2 : ((fun i => decide (w.st ((a + i) % w.sns) ≠ .acked)) ∘ Nat.succ) =
          fun i => decide (w.st ((a + 1 + i) % w.sns) ≠ .acked) := by
        funext i
        show decide (w.st ((a + (i + 1)) % w.sns) ≠ .acked) = _
        rw [show a + (i + 1) = a + 1 + i by omega]
      rw [e2]
      by_cases hh : w.st (a % w.sns) = .acked
      · simp [hh]
      · simp [hh]; omega

/-- The counter the code keeps for its decisions (`num_pending`, keep-alive) is the number of
outstanding blocks not marked as acknowledged, and never less than the number of blocks the
mobile has not acknowledged. -/
theorem C03_count_unacked (sns ws : Nat) (hc : LegalCfg sns ws) (s : Sys) (h : Reach sns ws s) :
    s.win.countUnacked =
      ((List.range (s.created - s.oldest)).filter fun i =>
        s.win.st ((s.oldest + i) % sns) ≠ .acked).length ∧
    ((List.range s.created).filter fun n => n ∉ s.acked).length ≤ s.win.countUnacked := by
  have hi := reach_inv hc h
  have key : s.win.countUnacked =
      ((List.range (s.created - s.oldest)).filter fun i =>
        s.win.st ((s.oldest + i) % sns) ≠ .acked).length := by
    have hf := cfg_facts hi.cfg
    have hb := hi.bound
    have := countUnackedLoop_spec s.win s.win.ws s.created (by rw [hi.hsns]; exact hi.cfg)
      (by rw [hi.hsns]; exact hi.hs) s.win.sns s.oldest 0 hi.le hi.bound (by rw [hi.hsns]; omega)
    unfold Win.countUnacked
    rw [hi.ha, ← hi.hsns, this, Nat.zero_add]
  refine ⟨key, ?_⟩
  rw [key]
  have hsplit : List.range s.created = List.range s.oldest ++
      (List.range (s.created - s.oldest)).map (s.oldest + ·) := by
    have := List.range_add (n := s.oldest) (m := s.created - s.oldest)
    rw [← this, Nat.add_sub_cancel' hi.le]
  rw [hsplit, List.filter_append, List.length_append, List.filter_map, List.length_map]
  have h0 : (List.range s.oldest).filter (fun n => decide (n ∉ s.acked)) = [] := by
    rw [List.filter_eq_nil_iff]
    intro n hn
    have := hi.old n (List.mem_range.1 hn)
    simp [this]
  rw [h0, List.length_nil, Nat.zero_add]
  rw [← List.countP_eq_length_filter, ← List.countP_eq_length_filter]
  apply List.countP_mono_left
  intro n hn hna
  have hn := List.mem_range.1 hn
  have hna : s.oldest + n ∉ s.acked := by simpa using hna
  have ha := fun x => hna (hi.ack (s.oldest + n) (by omega) (by omega) x)
  exact decide_eq_true ha

/-- The next new block is fresh: while the window is open, no outstanding block has the
sequence number, or the storage slot (`bsn & 1023`), of the next new block. -/
theorem C03_next_is_fresh (sns ws : Nat) (hc : LegalCfg sns ws) (s : Sys) (h : Reach sns ws s)
    (hopen : s.win.stalled = false) (n : Nat) (h1 : s.oldest ≤ n) (h2 : n < s.created) :
    n % sns ≠ s.win.vs ∧ n % sns % 1024 ≠ s.win.vs % 1024 := by
  have hi := reach_inv hc h
  have hlt : s.created < s.oldest + s.win.ws := by
    have := hi.bound
    have : s.created ≠ s.oldest + s.win.ws := fun x => by
      rw [hi.stalled_iff.2 x] at hopen; cases hopen
    omega
  have hne : idx sns n ≠ idx sns s.created := fun hh => by
    have := idx_inj hi.cfg (by omega) (by omega) hh; omega
  rw [hi.hs]
  exact ⟨fun hh => hne (by unfold idx; rw [hh]), hne⟩

/-- Two outstanding blocks never share a sequence number or storage slot. -/
theorem C03_outstanding_distinct (sns ws : Nat) (hc : LegalCfg sns ws) (s : Sys) (h : Reach sns ws s)
    (n m : Nat) (h1 : s.oldest ≤ n) (h2 : n < s.created) (h3 : s.oldest ≤ m) (h4 : m < s.created)
    (hslot : n % sns % 1024 = m % sns % 1024) : n = m := by
  have hi := reach_inv hc h
  have := hi.bound
  exact idx_inj' hi.cfg h1 (by omega) h3 (by omega) hslot

/-- The blocks leave the window in order: the oldest outstanding number never decreases
except through a final Ack. -/
theorem C03_oldest_monotone (sns ws : Nat) (hc : LegalCfg sns ws) (s : Sys) (h : Reach sns ws s)
    (bits : List Bool) :
    let t : Sys := { s with win := s.win.ackNack s.win.va bits, acked := s.acked ++ ackedBy s bits }
    s.oldest ≤ t.oldest := by
  have hi := reach_inv hc h
  obtain ⟨a', a1, a2, a3, a4, _⟩ := hi.ackNack bits
  have := a4.distance
  show s.oldest ≤ s.created - (s.win.ackNack s.win.va bits).distance
  omega

/-- If window shrinking below the outstanding count were allowed, the window would be
overrun: the test for a full window is an equality. This is why `setWs` carries its
guard; the code itself has none (tbf_dl.cpp:1336-1344). -/
theorem C03_shrinking_defeats_stall_check :
    ∃ w : Win, w.ws = 64 ∧ w.distance = 100 ∧ w.stalled = false :=
  ⟨{ sns := 2048, ws := 64, vs := 100, va := 0, vb := fun _ => .unacked }, rfl, by decide, by decide⟩

/-! ### Non-vacuity: a full window -/

def flowEnv : Env :=
  { prev := none, prevEdge := false, len := fun _ => 20, finished := false, haveData := true, preempt := false }

theorem reach_fill (sns ws : Nat) (hc : LegalCfg sns ws) (k : Nat) : k ≤ ws → ∃ s : Sys, Reach sns ws s ∧ s.created = k ∧ s.oldest = 0 ∧
    s.win.ws = ws ∧ (∀ n, n < k → s.win.vb (idx sns n) = .unacked) ∧ s.acked = [] := by
  induction k with
  | zero =>
    intro _
    exact ⟨_, Reach.start, rfl, by simp [Sys.oldest], rfl, fun n hn => by omega, rfl⟩
  | succ k ih =>
    intro hk
    obtain ⟨s, h1, h2, h3, h4, h5, h6⟩ := ih (by omega)
    have hi := reach_inv hc h1
    have hnr : s.win.resendNeeded = none := by
      have := hi.resend
      revert this
      cases s.win.resendNeeded with
      | none => simp
      | some b =>
        rintro ⟨n, _, n2, _, n4, _⟩
        rw [h5 n (by omega)] at n4; simp at n4
    have hst : s.win.stalled = false := by
      cases hh : s.win.stalled with
      | false => rfl
      | true => have := hi.stalled_iff.1 hh; omega
    have htake : takeNext 2 flowEnv s.win = some (s.win.createNew.1, some (s.win.createNew.2, .fresh)) := by
      simp [takeNext, hnr, flowEnv, hst]
    have hs := Step.take s flowEnv _ _ htake
    have hr := Reach.step h1 hs
    have hi' := reach_inv hc hr
    obtain ⟨_, c2⟩ := hi.createNew (by omega)
    refine ⟨_, hr, by simp [isNew, h2], ?_, h4, ?_, h6⟩
    · have := c2.distance
      simp only [Sys.oldest, isNew, if_true]
      omega
    · intro n hn
      show mark s.win.vb s.win.vs .unacked (idx sns n) = .unacked
      rw [mark_apply, hi.hs]
      split
      · rfl
      · rename_i hh
        by_cases hn' : n = k
        · rw [hn', ← h2] at hh; exact absurd rfl hh
        · exact h5 n (by omega)

/-- A stalled GPRS window with 64 outstanding, unacknowledged blocks is reachable. -/
example : ∃ s : Sys, Reach 128 64 s ∧ s.created = 64 ∧ s.oldest = 0 ∧ 3 ∉ s.acked ∧ s.win.stalled = true := by
  obtain ⟨s, h1, h2, h3, h4, _, h6⟩ := reach_fill 128 64 (Or.inl ⟨rfl, rfl⟩) 64 (Nat.le_refl _)
  have hi := reach_inv (Or.inl ⟨rfl, rfl⟩) h1
  exact ⟨s, h1, h2, h3, by simp [h6], hi.stalled_iff.2 (by omega)⟩

end Verif.RlcDl
