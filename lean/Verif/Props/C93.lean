import Verif.Spec.Clock
/-!
# C93: The clock of the PCU follows the radio blocks

When a radio block arrives that is newer than the blocks before, the frame number of the PCU is afterwards that of the block or at
most 500 frames later, also around the end of the hyperframe. An older block changes nothing. A block is counted as late if and only
if the clock was 13 frames or more ahead of it. No frame number that there is stops the PCU.
-/

namespace Verif.Clock

/-- `delta_fn` is the way from `to` to `fn` on the circle, forward or backward, whichever is shorter. -/
theorem deltaFn_eq (fn to : Int) (h1 : 0 ≤ fn) (h2 : fn < 2715648) (h3 : -1 ≤ to) (h4 : to < 2715648) :
    deltaFn fn to = if fn - to ≥ 1357824 then fn - to - 2715648 else if fn - to < -1357824 then fn - to + 2715648 else fn - to := by
  have e1 : Int.tdiv (maxFn * 3) 2 = 4073472 := by decide
  have e2 : Int.tdiv maxFn 2 = 1357824 := by decide
  unfold deltaFn
  rw [e1, e2, Int.tmod_eq_emod_of_nonneg (by omega)]
  unfold maxFn
  split
  · omega
  · split <;> omega

theorem hyper_eq : hyper = 2715648 := by decide

/-- Numbers that are known are those of frames. -/
structure Ok (c : Clk) : Prop where
  cur : -1 ≤ c.cur ∧ c.cur < 2715648
  blk : -1 ≤ c.blk ∧ c.blk < 2715648

theorem setFn_some {c : Clk} {fn : Nat} (h : fn < 2715648) : setFn c fn = some { c with cur := fn } := by
  unfold setFn maxFn
  rw [if_pos (by omega)]

/-- How far a block is from the clock, as the code sees it. -/
theorem setBlk_eq {c : Clk} {fn : Nat} (hf : fn < 2715648) (hgo : ¬ (c.blk ≥ 0 ∧ deltaFn fn c.blk ≤ 0)) :
    ∀ d, d = (if c.cur ≠ 0 then deltaFn fn c.cur else 0) → setBlk c fn =
      some ⟨if d < -500 ∨ d > 0 ∨ c.cur = -1 then fn else c.cur, fn, if d ≤ -13 then c.late + 1 else c.late⟩ := by
  intro d hd
  unfold setBlk
  rw [if_neg hgo, ← hd]
  simp only
  by_cases h1 : d ≤ -13
  · simp only [if_pos h1]
    by_cases h2 : d < -500 ∨ d > 0 ∨ c.cur = -1
    · rw [if_pos h2, if_pos h2, setFn_some hf]
    · rw [if_neg h2, if_neg h2]
  · simp only [if_neg h1]
    by_cases h2 : d < -500 ∨ d > 0 ∨ c.cur = -1
    · rw [if_pos h2, if_pos h2, setFn_some hf]
    · rw [if_neg h2, if_neg h2]

theorem ok_step {c : Clk} (o : Ok c) (e : Ev) (he : ∀ f, e = .data f ∨ e = .block f → f < hyper) : ∃ c', step c e = some c' ∧ Ok c' := by
  rw [hyper_eq] at he
  obtain ⟨⟨o1, o2⟩, o3, o4⟩ := o
  cases e with
  | data f =>
    have hf := he f (Or.inl rfl)
    exact ⟨_, setFn_some hf, ⟨by simp only; omega, ⟨o3, o4⟩⟩⟩
  | block f =>
    have hf := he f (Or.inr rfl)
    by_cases hgo : c.blk ≥ 0 ∧ deltaFn f c.blk ≤ 0
    · refine ⟨c, ?_, ⟨⟨o1, o2⟩, o3, o4⟩⟩
      show setBlk c f = some c
      unfold setBlk
      rw [if_pos hgo]
    · refine ⟨_, setBlk_eq hf hgo _ rfl, ⟨?_, by simp only; omega⟩⟩
      generalize (if c.cur ≠ 0 then deltaFn f c.cur else 0) = d
      simp only
      split <;> omega

theorem ok_reach {c : Clk} (h : Reach c) : Ok c := by
  induction h with
  | start => exact ⟨by decide, by decide⟩
  | ev e _ he hs ih =>
    obtain ⟨c', h1, h2⟩ := ok_step ih e he
    rw [h1] at hs
    cases hs
    exact h2

/-- **C93**: no frame number stops the PCU. -/
theorem C93_goes_on {c : Clk} (h : Reach c) (e : Ev) (he : ∀ f, e = .data f ∨ e = .block f → f < hyper) : ∃ c', step c e = some c' := by
  obtain ⟨c', h1, _⟩ := ok_step (ok_reach h) e he
  exact ⟨c', h1⟩

/-- A block is looked at if and only if it is the first or newer than the last one that was looked at. -/
theorem newer_iff {c : Clk} (o : Ok c) {fn : Nat} (hf : fn < 2715648) (hb : 0 ≤ c.blk) : 0 < deltaFn fn c.blk ↔ Newer c.blk.toNat fn := by
  obtain ⟨_, o3, o4⟩ := o
  rw [deltaFn_eq fn c.blk (by omega) (by omega) (by omega) o4]
  unfold Newer After
  rw [hyper_eq]
  constructor
  · intro h
    refine ⟨(fn + 2715648 - c.blk.toNat) % 2715648, ?_, ?_, ?_⟩ <;>
    · split at h
      · omega
      · split at h <;> omega
  · rintro ⟨k, h1, h2, h3⟩
    split
    · omega
    · split <;> omega

/-- **C93**: a block that is not newer than the last one changes nothing. -/
theorem C93_older {c : Clk} (h : Reach c) {fn : Nat} (hf : fn < hyper) (hb : 0 ≤ c.blk) (hn : ¬ Newer c.blk.toNat fn) : step c (.block fn) = some c := by
  rw [hyper_eq] at hf
  show setBlk c fn = some c
  unfold setBlk
  have hd : ¬ 0 < deltaFn fn c.blk := fun x => hn ((newer_iff (ok_reach h) hf hb).1 x)
  rw [if_pos ⟨hb, by omega⟩]

/-- **C93** (the clock is not at frame 0): after a block that is the first or newer than the last one, the clock is that of the block
or at most 500 frames ahead of it; it is not changed if it was so before. -/
theorem C93_follows_partial {c : Clk} (h : Reach c) {fn : Nat} (hf : fn < hyper) (hn : c.blk = -1 ∨ Newer c.blk.toNat fn) (h0 : c.cur ≠ 0) :
    ∃ c', step c (.block fn) = some c' ∧ c'.blk = fn ∧ 0 ≤ c'.cur ∧ (∃ k ≤ 500, After fn k c'.cur.toNat) ∧
      ((0 ≤ c.cur ∧ ∃ k ≤ 500, After fn k c.cur.toNat) → c'.cur = c.cur) := by
  have o := ok_reach h
  rw [hyper_eq] at hf
  obtain ⟨⟨o1, o2⟩, o3, o4⟩ := id o
  have hgo : ¬ (c.blk ≥ 0 ∧ deltaFn fn c.blk ≤ 0) := by
    rintro ⟨hb, hd⟩
    rcases hn with hn | hn
    · omega
    · have := (newer_iff o hf hb).2 hn
      omega
  refine ⟨_, setBlk_eq hf hgo _ rfl, rfl, ?_⟩
  rw [if_pos h0, deltaFn_eq fn c.cur (by omega) (by omega) o1 o2]
  unfold After
  rw [hyper_eq]
  generalize hd : (if (fn : Int) - c.cur ≥ 1357824 then (fn : Int) - c.cur - 2715648 else if (fn : Int) - c.cur < -1357824 then fn - c.cur + 2715648 else fn - c.cur) = d
  simp only
  have hd' : d = fn - c.cur ∨ (d = fn - c.cur - 2715648 ∧ (fn : Int) - c.cur ≥ 1357824) ∨ (d = fn - c.cur + 2715648 ∧ (fn : Int) - c.cur < -1357824) := by
    split at hd
    · omega
    · split at hd <;> omega
  by_cases h2 : d < -500 ∨ d > 0 ∨ c.cur = -1
  · rw [if_pos h2]
    refine ⟨by omega, ⟨0, by omega, by omega⟩, ?_⟩
    rintro ⟨hc, k, hk, e⟩
    exfalso
    omega
  · rw [if_neg h2]
    exact ⟨by omega, ⟨(c.cur.toNat + 2715648 - fn) % 2715648, by omega, by omega⟩, fun _ => rfl⟩

/-- **C93** (the clock is set, and not at frame 0): such a block is counted as late, once, if and only if the clock was 13 frames or
more ahead of it, by at most half of the circle. -/
theorem C93_late_partial {c : Clk} (h : Reach c) {fn : Nat} (hf : fn < hyper) (hn : c.blk = -1 ∨ Newer c.blk.toNat fn) (h0 : 0 < c.cur) :
    ∃ c', step c (.block fn) = some c' ∧
      ((∃ k, 13 ≤ k ∧ k ≤ hyper / 2 ∧ After fn k c.cur.toNat) → c'.late = c.late + 1) ∧
      ((¬ ∃ k, 13 ≤ k ∧ k ≤ hyper / 2 ∧ After fn k c.cur.toNat) → c'.late = c.late) := by
  have o := ok_reach h
  rw [hyper_eq] at hf
  obtain ⟨⟨o1, o2⟩, o3, o4⟩ := id o
  have hgo : ¬ (c.blk ≥ 0 ∧ deltaFn fn c.blk ≤ 0) := by
    rintro ⟨hb, hd⟩
    rcases hn with hn | hn
    · omega
    · have := (newer_iff o hf hb).2 hn
      omega
  have key : deltaFn fn c.cur ≤ -13 ↔ ∃ k, 13 ≤ k ∧ k ≤ hyper / 2 ∧ After fn k c.cur.toNat := by
    rw [deltaFn_eq fn c.cur (by omega) (by omega) o1 o2]
    unfold After
    rw [hyper_eq]
    constructor
    · intro hd
      refine ⟨(c.cur.toNat + 2715648 - fn) % 2715648, ?_, ?_, ?_⟩ <;>
      · split at hd
        · omega
        · split at hd <;> omega
    · rintro ⟨k, h1, h2, h3⟩
      split
      · omega
      · split <;> omega
  rw [← key]
  refine ⟨_, setBlk_eq hf hgo (deltaFn fn c.cur) (by rw [if_pos (by omega)]), ?_⟩
  exact ⟨fun hk => if_pos hk, fun hk => if_neg hk⟩

/-- **C93** fails at frame 0, which the code takes for a clock that is not set: a block of frame 1000 leaves the clock 1000 frames
behind. -/
theorem C93_zero_fails : ∃ c c' : Clk, Reach c ∧ c.cur = 0 ∧ c.blk = -1 ∧ step c (.block 1000) = some c' ∧ c'.cur = 0 :=
  ⟨{ cur := 0 }, { cur := 0, blk := 1000 }, .ev (.data 0) .start (by intro f hf; rcases hf with hf | hf <;> cases hf; decide) (by decide),
    rfl, rfl, by decide, rfl⟩

/-- **C93** fails for the first block of all: without a clock a block of the second half of the hyperframe is counted as late. -/
theorem C93_first_fails : ∃ c' : Clk, step {} (.block 2000000) = some c' ∧ c'.late = 1 := ⟨⟨2000000, 2000000, 1⟩, by decide, rfl⟩

/-- A block of data from the socket with a number that no frame has stops the PCU, whatever the clock is: the assertion is
not guarded by a check of the message. -/
theorem C93_no_frame_stops {c : Clk} {fn : Nat} (h : hyper ≤ fn) : step c (.data fn) = none := by
  rw [hyper_eq] at h
  show setFn c fn = none
  unfold setFn maxFn
  rw [if_neg (by omega)]

/-! ### Non-vacuity -/

theorem exReach : Reach ⟨5, -1, 0⟩ :=
  .ev (.data 5) .start (by intro f hf; rcases hf with hf | hf <;> cases hf; decide) (by decide)

/-- Around the end of the hyperframe: a block of 12 frames ago is in time, the clock stays. -/
example : step ⟨5, -1, 0⟩ (.block 2715641) = some ⟨5, 2715641, 0⟩ := by decide
/-- One of 13 frames ago is late. -/
example : step ⟨5, -1, 0⟩ (.block 2715640) = some ⟨5, 2715640, 1⟩ := by decide
/-- One that is ahead sets the clock. -/
example : step ⟨5, 2715641, 0⟩ (.block 9) = some ⟨9, 9, 0⟩ := by decide
/-- One of 501 frames ago sets the clock back. -/
example : step ⟨505, -1, 0⟩ (.block 4) = some ⟨4, 4, 1⟩ := by decide
/-- One that is older than the last is ignored. -/
example : step ⟨9, 9, 0⟩ (.block 9) = some ⟨9, 9, 0⟩ ∧ ¬ Newer 9 9 :=
  ⟨by decide, by rintro ⟨k, h1, h2, h3⟩; unfold After at h3; rw [hyper_eq] at h2 h3; omega⟩

end Verif.Clock
