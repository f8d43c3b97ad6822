import Verif.Props.C03
/-!
C04: downlink scheduling choice of the next block.
-/
namespace Verif.RlcDl

/-- Block `n` is outstanding and was reported missing or marked for resend. -/
def Sys.wantsResend (s : Sys) (n : Nat) : Prop :=
  s.oldest ≤ n ∧ n < s.created ∧
    (s.win.st (n % s.win.sns) = .nacked ∨ s.win.st (n % s.win.sns) = .resend)

/-- The TBF is finished, or the window is full, or there is no data and preemptive
retransmission is configured while blocks are outstanding. -/
def Sys.mustRepeat (s : Sys) (e : Env) : Prop :=
  e.finished = true ∨ s.created - s.oldest = s.win.ws ∨
    (e.haveData = false ∧ e.preempt = true ∧ s.oldest < s.created)

/-- Choice of the (first) block of a radio block: a complete decision table.
1. the oldest block wanted for resend, if there is one;
2. otherwise, if blocks must be repeated, the oldest outstanding block;
3. if nothing at all is outstanding and the TBF is finished, the last block once more;
4. otherwise a new block, which then fits into the window; it carries user data iff there is any.
-/
theorem C04_first_block (sns ws : Nat) (hc : LegalCfg sns ws) (s : Sys) (h : Reach sns ws s)
    (e : Env) (hp : e.prev = none) :
    ∃ w' b y, takeNext 2 e s.win = some (w', some (b, y)) ∧
      ((∃ n, s.wantsResend n) → y = .resend ∧ ∃ n, s.wantsResend n ∧ b = n % sns ∧
        ∀ m, s.wantsResend m → n ≤ m) ∧
      ((∀ n, ¬ s.wantsResend n) → s.mustRepeat e → s.oldest < s.created →
        y = .resend ∧ b = s.oldest % sns ∧ s.win.st b = .unacked) ∧
      ((∀ n, ¬ s.wantsResend n) → s.mustRepeat e → s.oldest = s.created →
        y = .final ∧ b = (s.created + sns - 1) % sns) ∧
      ((∀ n, ¬ s.wantsResend n) → ¬ s.mustRepeat e →
        b = s.created % sns ∧ s.created - s.oldest < s.win.ws ∧
        ((e.haveData = true ∧ y = .fresh) ∨ (e.haveData = false ∧ y = .dummy))) := by
  have hi := reach_inv hc h
  have hle := hi.le
  have hf := cfg_facts hi.cfg
  obtain ⟨w', r, x1, x2, x3, x4⟩ := takeNext_spec hi e
  have hst : ∀ n, s.win.st (n % s.win.sns) = s.win.vb (idx sns n) := by
    intro n; unfold Win.st; rw [hi.hsns]; rfl
  have hagain : e.again (s.created = s.oldest + s.win.ws) (s.oldest = s.created) ↔ s.mustRepeat e := by
    unfold Env.again Sys.mustRepeat
    constructor
    · rintro (a | a | ⟨a, b, c⟩)
      · exact Or.inl a
      · exact Or.inr (Or.inl (by omega))
      · exact Or.inr (Or.inr ⟨a, b, by omega⟩)
    · rintro (a | a | ⟨a, b, c⟩)
      · exact Or.inl a
      · exact Or.inr (Or.inl (by omega))
      · exact Or.inr (Or.inr ⟨a, b, by omega⟩)
  cases r with
  | none => rw [hp] at x4; cases x4
  | some r =>
    obtain ⟨b, y⟩ := r
    refine ⟨w', b, y, x1, ?_⟩
    have none_of : (∀ m, s.oldest ≤ m → m < s.created →
        s.win.vb (idx sns m) ≠ .nacked ∧ s.win.vb (idx sns m) ≠ .resend) → ∀ n, ¬ s.wantsResend n := by
      intro hh n hn
      obtain ⟨a1, a2, a3⟩ := hn
      rw [hst] at a3
      have := hh n a1 a2
      rcases a3 with a3 | a3
      · exact this.1 a3
      · exact this.2 a3
    cases y with
    | resend =>
      obtain ⟨n, n1, n2, n3, n4, n5, n6, n7⟩ := x4
      rcases n7 with ⟨n7, n8⟩ | ⟨n7, n8, n9⟩
      · have hw : s.wantsResend n := ⟨n1, n2, by rw [hst]; exact n7⟩
        refine ⟨fun _ => ⟨rfl, n, hw, n3, ?_⟩, fun hh => absurd hw (hh n), fun hh => absurd hw (hh n),
          fun hh => absurd hw (hh n)⟩
        intro m hm
        rcases Nat.lt_or_ge m n with z | z
        · obtain ⟨m1, m2, m3⟩ := hm
          rw [hst] at m3
          have := n8 m m1 z
          rcases m3 with m3 | m3
          · exact absurd m3 this.1
          · exact absurd m3 this.2
        · exact z
      · have hno := none_of n9
        subst n7
        refine ⟨fun ⟨m, hm⟩ => absurd hm (hno m), fun _ _ _ => ⟨rfl, n3, ?_⟩, fun _ _ hh => by omega,
          fun _ hh => absurd (hagain.1 n8) hh⟩
        rw [n3]
        have := hi.valid _ n1 n2
        have := n9 _ n1 n2
        show s.win.vb (idx sns s.oldest) = _
        cases hh : s.win.vb (idx sns s.oldest) <;> simp_all
    | final =>
      obtain ⟨n1, n2, n3, n4⟩ := x4
      have hno : ∀ n, ¬ s.wantsResend n := by
        intro n hn; obtain ⟨a1, a2, _⟩ := hn; omega
      refine ⟨fun ⟨m, hm⟩ => absurd hm (hno m), fun _ _ hh => by omega, fun _ _ _ => ⟨rfl, n2⟩,
        fun _ hh => absurd (Or.inl n3) hh⟩
    | fresh =>
      obtain ⟨n1, n2, n3, n4, n5⟩ := x4
      have hno := none_of n4
      have hd : e.haveData = true := n5.1 rfl
      have hmr : ¬ s.mustRepeat e := by
        rintro (a | a | ⟨a, _, _⟩)
        · rw [n3] at a; cases a
        · omega
        · rw [hd] at a; cases a
      refine ⟨fun ⟨m, hm⟩ => absurd hm (hno m), fun _ hh => absurd hh hmr, fun _ hh => absurd hh hmr,
        fun _ _ => ⟨n1, by omega, Or.inl ⟨hd, rfl⟩⟩⟩
    | dummy =>
      obtain ⟨n1, n2, n3, n4, n5⟩ := x4
      have hno := none_of n4
      have hd : e.haveData = false := by
        cases hh : e.haveData with
        | false => rfl
        | true => have := n5.2 hh; cases this
      have hmr : ¬ s.mustRepeat e := by
        intro hm
        have hfin : e.finished = false := n3
        rcases hm with a | a | ⟨_, a2, a3⟩
        · rw [hfin] at a; cases a
        · omega
        · -- the code would have restarted instead of creating a dummy block
          have hnr : s.win.resendNeeded = none := by
            have hres := hi.resend
            revert hres
            cases s.win.resendNeeded with
            | none => intro _; rfl
            | some b' =>
              rintro ⟨m, m1, m2, m3, m4, m5⟩
              have := n4 m m1 m2
              rcases m4 with m4 | m4
              · exact absurd m4 this.1
              · exact absurd m4 this.2
          have hstl : s.win.stalled = false := by
            cases hh : s.win.stalled with
            | false => rfl
            | true => have := hi.stalled_iff.1 hh; omega
          have hem : s.win.empty = false := by
            cases hh : s.win.empty with
            | false => rfl
            | true => have := hi.empty_iff.1 hh; omega
          rcases hi.restart n4 with ⟨z, _⟩ | ⟨z1, z2, z3, z4, z5⟩
          · omega
          · have : takeNext 2 e s.win = takeNext 1 e s.win.restart.1 := by
              rw [takeNext]
              simp only [hp, hnr, hfin, hstl, hd, a2, hem, z2]
              simp
            rw [this] at x1
            rcases takeNext_resend 0 e _ _ z5 with ⟨q1, q2⟩ | ⟨q1, _⟩
            · rw [hp] at q2; cases q2
            · rw [q1] at x1; simp at x1
      refine ⟨fun ⟨m, hm⟩ => absurd hm (hno m), fun _ hh => absurd hh hmr, fun _ hh => absurd hh hmr,
        fun _ _ => ⟨n1, by omega, Or.inr ⟨hd, rfl⟩⟩⟩

/-- Safety for every request, first or second block of a radio block: what is sent is an
outstanding, not acknowledged block, or a new block inside the window, or — only if
nothing is outstanding any more — the last block. A second block is never the same as
the first one (except in that last case). -/
theorem C04_sends_only_window_blocks (sns ws : Nat) (hc : LegalCfg sns ws) (s : Sys) (h : Reach sns ws s)
    (e : Env) (w' : Win) (b : Nat) (y : Why) (ht : takeNext 2 e s.win = some (w', some (b, y))) :
    (∃ n, s.oldest ≤ n ∧ n < s.created ∧ b = n % sns ∧ s.win.st b ≠ .acked ∧ e.prev ≠ some b) ∨
    (b = s.created % sns ∧ s.created < s.oldest + s.win.ws) ∨
    (s.oldest = s.created ∧ b = (s.created + sns - 1) % sns) := by
  have hi := reach_inv hc h
  obtain ⟨w2, r, x1, x2, x3, x4⟩ := takeNext_spec hi e
  rw [ht] at x1
  injection x1 with x1; injection x1 with q1 q2
  subst q1; subst q2
  cases y with
  | resend =>
    obtain ⟨n, n1, n2, n3, n4, n5, _⟩ := x4
    exact Or.inl ⟨n, n1, n2, n3, by rw [n3]; exact n5, n4⟩
  | final => exact Or.inr (Or.inr ⟨x4.1, x4.2.1⟩)
  | fresh => exact Or.inr (Or.inl ⟨x4.1, x4.2.1⟩)
  | dummy => exact Or.inr (Or.inl ⟨x4.1, x4.2.1⟩)

/-- Only the second block of a radio block can be refused. -/
theorem C04_refusal_only_for_second (sns ws : Nat) (hc : LegalCfg sns ws) (s : Sys) (h : Reach sns ws s)
    (e : Env) (w' : Win) (ht : takeNext 2 e s.win = some (w', none)) : e.prev.isSome := by
  have hi := reach_inv hc h
  obtain ⟨w2, r, x1, x2, x3, x4⟩ := takeNext_spec hi e
  rw [ht] at x1
  injection x1 with x1; injection x1 with q1 q2
  subst q1; subst q2
  exact x4

/-- Termination: the recursion of `take_next_bsn` never goes deeper than one restart; any
larger recursion budget gives the same (defined) result. -/
theorem C04_terminates (sns ws : Nat) (hc : LegalCfg sns ws) (s : Sys) (h : Reach sns ws s)
    (e : Env) (k : Nat) :
    takeNext (k + 2) e s.win = takeNext 2 e s.win ∧ (takeNext 2 e s.win).isSome := by
  have hi := reach_inv hc h
  refine ⟨?_, ?_⟩
  · have base : ∀ (w : Win) (b f : Nat), w.resendNeeded = some b → takeNext (f + 1) e w = takeNext 1 e w := by
      intro w b f hb
      simp only [takeNext, hb]
    cases hr : s.win.resendNeeded with
    | some b => rw [base _ b (k+1) hr, base _ b 1 hr]
    | none =>
      have hres := hi.resend
      rw [hr] at hres
      rcases hi.restart hres with ⟨_, y⟩ | ⟨_, _, _, _, x5⟩
      · rw [takeNext, takeNext]; simp only [hr, y]; simp
      · have := base _ _ k x5
        rw [takeNext, takeNext]; simp only [hr, this]
  · obtain ⟨w2, r, x1, _⟩ := takeNext_spec hi e
    rw [x1]; rfl

/-- The branch flagged as "software error" in `restart_bsn_cycle` (tbf_dl.cpp:255-261)
cannot be reached from `take_next_bsn`. -/
theorem C04_no_software_error (sns ws : Nat) (hc : LegalCfg sns ws) (s : Sys) (h : Reach sns ws s)
    (hno : ∀ n, ¬ s.wantsResend n) (hne : s.win.empty = false) : s.win.markForResend.2 ≠ 0 := by
  have hi := reach_inv hc h
  have hres : ∀ n, s.oldest ≤ n → n < s.created →
      s.win.vb (idx sns n) ≠ .nacked ∧ s.win.vb (idx sns n) ≠ .resend := by
    intro n n1 n2
    have := hno n
    unfold Sys.wantsResend Win.st at this
    rw [hi.hsns] at this
    exact ⟨fun hh => this ⟨n1, n2, Or.inl hh⟩, fun hh => this ⟨n1, n2, Or.inr hh⟩⟩
  rcases hi.restart hres with ⟨x, _⟩ | ⟨_, x, _⟩
  · rw [hi.empty_iff.2 x] at hne; cases hne
  · unfold Win.restart at x
    rw [hne] at x
    simpa using x

/-! ### Non-vacuity -/

/-- From a full window: nothing to resend, the window is stalled, and block 0 is repeated. -/
example : ∃ s : Sys, Reach 128 64 s ∧ (∀ n, ¬ s.wantsResend n) ∧ s.mustRepeat flowEnv ∧ s.oldest < s.created := by
  obtain ⟨s, h1, h2, h3, h4, h5, h6⟩ := reach_fill 128 64 (Or.inl ⟨rfl, rfl⟩) 64 (Nat.le_refl _)
  have hi := reach_inv (Or.inl ⟨rfl, rfl⟩) h1
  refine ⟨s, h1, ?_, Or.inr (Or.inl (by omega)), by omega⟩
  intro n hn
  obtain ⟨_, n2, n3⟩ := hn
  have e : s.win.st (n % s.win.sns) = s.win.vb (idx 128 n) := by unfold Win.st; rw [hi.hsns]; rfl
  rw [e, h5 n (by omega)] at n3
  simp at n3

/-- After a bitmap reporting block 1 missing, block 1 is wanted for resend. -/
example : ∃ s : Sys, Reach 128 64 s ∧ s.wantsResend 1 := by
  obtain ⟨s, h1, h2, h3, h4, h5, h6⟩ := reach_fill 128 64 (Or.inl ⟨rfl, rfl⟩) 2 (by omega)
  have hi := reach_inv (Or.inl ⟨rfl, rfl⟩) h1
  have hr := Reach.step h1 (Step.ack s [false, false])
  have hi2 := reach_inv (Or.inl ⟨rfl, rfl⟩) hr
  have hnot : 1 ∉ s.acked ++ ackedBy s [false, false] := by
    rw [List.mem_append, mem_ackedBy, h6, h3]; simp
  refine ⟨_, hr, ?_⟩
  obtain ⟨k1, k2⟩ := C03_unacked_is_kept 128 64 (Or.inl ⟨rfl, rfl⟩) _ hr 1 (by dsimp only; omega) hnot
  refine ⟨k1, by dsimp only; omega, ?_⟩
  -- state of block 1 after the bitmap
  have hd : s.win.distance = 2 := by have := hi.distance; omega
  have hva : s.win.va = 0 := by rw [hi.ha, h3]
  have hvs : s.win.vs = 2 := by rw [hi.hs, h2]
  have hsn : s.win.sns = 128 := hi.hsns
  have hvb0 := h5 0 (by omega)
  have hvb1 := h5 1 (by omega)
  have : (s.win.ackNack s.win.va [false, false]).st 1 = .nacked := by
    simp only [Win.ackNack, Win.update, hd, hva, List.take, updateLoop, Win.modSns, hsn]
    simp [Win.moveWindow, hsn, hva, hvs, moveLoop, Win.st, mark, ring, Win.raise]
  left
  show (s.win.ackNack s.win.va [false, false]).st (1 % (s.win.ackNack s.win.va [false, false]).sns) = _
  rw [hi2.hsns]; exact this

end Verif.RlcDl
