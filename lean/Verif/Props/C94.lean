import Verif.Spec.Ccu
/-!
# C94: With an Ericsson RBS, blocks have the frame numbers of the channel coding unit

From the moment on that the PCU is in step with the CCU, and as long as the CCU counts right, the PCU is told the right first frame of
every uplink block, and for every TRAU frame it is asked for exactly one downlink block: the one that is as far ahead as the sequence
numbers say. When the CCU names other numbers than expected, the PCU is asked for nothing until the CCU confirms what is expected.
-/

namespace Verif.Ccu

theorem next_start (j : Nat) : next (start j) = start (j + 1) := by
  unfold next fnSum incTable start hyper
  rcases (by omega : j % 3 = 0 ∨ j % 3 = 1 ∨ j % 3 = 2) with h | h | h
  · rw [h, show (13 * (j / 3) + 4 * 0) % (26 * 51 * 2048) % 13 / 4 = 0 by omega]
    simp only [List.getD_cons_zero]
    omega
  · rw [h, show (13 * (j / 3) + 4 * 1) % (26 * 51 * 2048) % 13 / 4 = 1 by omega]
    simp only [List.getD_cons_succ, List.getD_cons_zero]
    omega
  · rw [h, show (13 * (j / 3) + 4 * 2) % (26 * 51 * 2048) % 13 / 4 = 2 by omega]
    simp only [List.getD_cons_succ, List.getD_cons_zero]
    omega

theorem start_eq (k : Nat) : start k = 13 * (k / 3 % 208896) + 4 * (k % 3) := by
  unfold start
  have h := Nat.div_add_mod (k / 3) 208896
  have h1 : k / 3 % 208896 < 208896 := Nat.mod_lt _ (by decide)
  have h2 : k % 3 < 3 := Nat.mod_lt _ (by decide)
  generalize k / 3 / 208896 = t at *
  generalize k / 3 % 208896 = m at *
  generalize k % 3 = r at *
  rw [← h, show 13 * (208896 * t + m) + 4 * r = (26 * 51 * 2048) * t + (13 * m + 4 * r) by omega, Nat.mul_add_mod]
  exact Nat.mod_eq_of_lt (by omega)

theorem start_mod (k : Nat) : start k % 13 = 4 * (k % 3) ∧ start k < 2715648 := by
  unfold start; omega

theorem start_lt (k : Nat) : start k + 3 < 2715648 := by
  rw [start_eq]
  have h1 : k / 3 % 208896 < 208896 := Nat.mod_lt _ (by decide)
  have h2 : k % 3 < 3 := Nat.mod_lt _ (by decide)
  omega

theorem next_last (k : Nat) : next (last k) = last (k + 1) := by
  have h1 := start_mod k
  have h2 := next_start k
  have h3 := start_lt (k + 1)
  have e : last k % 13 / 4 = start k % 13 / 4 := by unfold last; omega
  unfold next at h2 ⊢
  rw [e]
  unfold fnSum hyper last at *
  rcases (by omega : k % 3 = 0 ∨ k % 3 = 1 ∨ k % 3 = 2) with h | h | h
  · rw [show start k % 13 / 4 = 0 by omega] at h2 ⊢
    simp only [incTable, List.getD_cons_zero] at h2 ⊢
    omega
  · rw [show start k % 13 / 4 = 1 by omega] at h2 ⊢
    simp only [incTable, List.getD_cons_succ, List.getD_cons_zero] at h2 ⊢
    omega
  · rw [show start k % 13 / 4 = 2 by omega] at h2 ⊢
    simp only [incTable, List.getD_cons_succ, List.getD_cons_zero] at h2 ⊢
    omega

theorem advance_start (n j : Nat) : advance n (start j) = start (j + n) := by
  induction n generalizing j with
  | zero => rfl
  | succ n ih =>
    unfold advance
    rw [next_start, ih]
    congr 1
    omega

theorem blockNr_start (k : Nat) : blockNr (start k) = inMulti k := by
  rw [start_eq]
  unfold blockNr inMulti
  have h3 : k % 12 = k / 3 % 4 * 3 + k % 3 := by omega
  have h4 : k / 3 % 208896 % 4 = k / 3 % 4 := by omega
  have h1 : k / 3 % 4 < 4 := Nat.mod_lt _ (by decide)
  have h2 : k % 3 < 3 := Nat.mod_lt _ (by decide)
  rw [h3]
  have h5 := Nat.div_add_mod (k / 3 % 208896) 4
  rw [h4] at h5
  rw [← h5]
  generalize k / 3 % 208896 / 4 = t at *
  generalize k / 3 % 4 = q at *
  generalize k % 3 = r at *
  have e : (13 * (4 * t + q) + 4 * r) % 52 = 13 * q + 4 * r := by omega
  rw [e]
  have e1 : (13 * q + 4 * r) / 13 = q := by omega
  have e2 : (13 * q + 4 * r) % 13 = 4 * r := by omega
  rw [e1, e2]
  omega

theorem comp_last (k : Nat) : fnSub (last k) 3 = start k := by
  have := start_lt k
  unfold fnSub last hyper
  omega

theorem noise_iff (f : Frame) : noise f = some false ↔ Good f := by
  unfold Good
  constructor
  · intro h
    cases f with
    | gprs ok => cases ok <;> simp_all [noise]
    | egprs a b c => cases a <;> cases b <;> cases c <;> simp_all [noise]
    | bad => cases h
    | sync p u d => cases h
    | access => cases h
    | other => cases h
  · rintro (h | h | h | h) <;> subst h <;> rfl

theorem acts_noise (f : Frame) (x : Nat) : dataOf f x = if Good f then [Act.data x] else [] := by
  unfold dataOf
  by_cases h : Good f
  · rw [if_pos h, (noise_iff f).2 h]
  · rw [if_neg h]
    split
    · rename_i hx; exact absurd ((noise_iff f).1 hx) h
    · rfl

/-- One frame of a CCU with which the PCU is in step. -/
theorem rx_honest {s : Sync} {k j : Nat} {f : Frame} (hs : InStep s k j) (hf : Honest (k + 1) (j + 1) f) :
    InStep (rx s f).1 (k + 1) (j + 1) ∧
    ((s.synced = true ∨ ¬ Mute f) → (rx s f).1.synced = true ∧
      (rx s f).2 = (if Good f then [Act.data (start (k + 1))] else []) ++
        [Act.time (start (k + 1)), Act.rts (start (j + 2 + fnDiff s.pcu s.ccu)) (inMulti (j + 2 + fnDiff s.pcu s.ccu))]) := by
  obtain ⟨h1, h2⟩ := hs
  have e : j + 1 + (fnDiff s.pcu s.ccu + 1) = j + 2 + fnDiff s.pcu s.ccu := by omega
  unfold rx InStep
  simp only [h1, h2, next_last, next_start, comp_last, advance_start, blockNr_start, e, acts_noise]
  cases f with
  | sync p u d =>
    obtain ⟨e1, e2⟩ := hf
    subst e1 e2
    simp
  | bad => exact ⟨⟨rfl, rfl⟩, fun h => ⟨h.elim id (fun h => absurd trivial h), by rw [if_pos (h.elim id (fun h => absurd trivial h))]⟩⟩
  | gprs a => exact ⟨⟨rfl, rfl⟩, fun h => ⟨h.elim id (fun h => absurd trivial h), by rw [if_pos (h.elim id (fun h => absurd trivial h))]⟩⟩
  | egprs a b c => exact ⟨⟨rfl, rfl⟩, fun h => ⟨h.elim id (fun h => absurd trivial h), by rw [if_pos (h.elim id (fun h => absurd trivial h))]⟩⟩
  | access => exact ⟨⟨rfl, rfl⟩, fun h => ⟨h.elim id (fun h => absurd trivial h), by rw [if_pos (h.elim id (fun h => absurd trivial h))]⟩⟩
  | other => exact ⟨⟨rfl, rfl⟩, fun h => ⟨h.elim id (fun h => absurd trivial h), by rw [if_pos (h.elim id (fun h => absurd trivial h))]⟩⟩

/-- **C94**: in step and confirmed, for all frames of an honest CCU: the `i`-th frame is that of the uplink block `k + 1 + i`: if it has
data it is handed on with the first frame of this block, the clock is set to it, and exactly one downlink block is asked for, at or
after block `j + 2 + i`, with its number in the multiframe. -/
theorem C94_in_step {s : Sync} {k j : Nat} {fs : List Frame} (hs : InStep s k j) (hy : s.synced = true) (hf : AllHonest k j fs)
    (i : Nat) (hi : i < fs.length) :
    ∃ d, (run s fs).2[i]? = some ((if Good fs[i] then [Act.data (start (k + 1 + i))] else []) ++
      [Act.time (start (k + 1 + i)), Act.rts (start (j + 2 + i + d)) (inMulti (j + 2 + i + d))]) := by
  induction fs generalizing s k j i with
  | nil => cases hi
  | cons f fs ih =>
    obtain ⟨h1, h2⟩ := rx_honest hs hf.1
    obtain ⟨h3, h4⟩ := h2 (Or.inl hy)
    cases i with
    | zero =>
      refine ⟨fnDiff s.pcu s.ccu, ?_⟩
      unfold run
      simp only [List.getElem?_cons_zero, List.getElem_cons_zero, Nat.add_zero, h4]
    | succ i =>
      obtain ⟨d, hd⟩ := ih h1 h3 hf.2 i (by simpa using hi)
      refine ⟨d, ?_⟩
      unfold run
      simp only [List.getElem?_cons_succ, List.getElem_cons_succ]
      rw [hd, show k + 1 + 1 + i = k + 1 + (i + 1) by omega, show j + 1 + 2 + i + d = j + 2 + (i + 1) + d by omega]

theorem diff_step {a b : Nat} : fnDiff ((a + 1) % 2 ^ 32) ((b + 1) % 2 ^ 32) = fnDiff (a % 2 ^ 32) (b % 2 ^ 32) := by
  unfold fnDiff fnSub hyper
  have h1 : ((a + 1) % 2 ^ 32 + 2715648 + 2 ^ 32 - (b + 1) % 2 ^ 32) % 2 ^ 32 = (a % 2 ^ 32 + 2715648 + 2 ^ 32 - b % 2 ^ 32) % 2 ^ 32 := by omega
  have h2 : ((b + 1) % 2 ^ 32 + 2715648 + 2 ^ 32 - (a + 1) % 2 ^ 32) % 2 ^ 32 = (b % 2 ^ 32 + 2715648 + 2 ^ 32 - a % 2 ^ 32) % 2 ^ 32 := by omega
  rw [h1, h2]

theorem rx_mute {s : Sync} {f : Frame} (h : Mute f) : (rx s f).1.pcu = (s.pcu + 1) % 2 ^ 32 ∧ (rx s f).1.ccu = (s.ccu + 1) % 2 ^ 32 ∧ (rx s f).1.synced = s.synced := by
  cases f <;> first | exact absurd h id | exact ⟨rfl, rfl, rfl⟩

theorem rx_mute_diff {s : Sync} {f : Frame} (h : Mute f) (hp : s.pcu < 2 ^ 32) (hc : s.ccu < 2 ^ 32) :
    fnDiff (rx s f).1.pcu (rx s f).1.ccu = fnDiff s.pcu s.ccu ∧ (rx s f).1.pcu < 2 ^ 32 ∧ (rx s f).1.ccu < 2 ^ 32 := by
  obtain ⟨m1, m2, _⟩ := rx_mute (s := s) h
  rw [m1, m2]
  refine ⟨?_, Nat.mod_lt _ (by decide), Nat.mod_lt _ (by decide)⟩
  rw [diff_step, Nat.mod_eq_of_lt hp, Nat.mod_eq_of_lt hc]

theorem mute_honest {k j : Nat} {f : Frame} (h : Mute f) : Honest k j f := by
  cases f with
  | sync p u d => exact absurd h id
  | bad => exact True.intro
  | gprs a => exact True.intro
  | egprs a b c => exact True.intro
  | access => exact True.intro
  | other => exact True.intro

theorem no_gap_aux (d : Nat) {s : Sync} {k j : Nat} {fs : List Frame} (hs : InStep s k j) (hy : s.synced = true) (hp : s.pcu < 2 ^ 32) (hc : s.ccu < 2 ^ 32)
    (hd : fnDiff s.pcu s.ccu = d) (hf : ∀ f ∈ fs, Mute f) (i : Nat) (hi : i < fs.length) :
    ∃ a, (run s fs).2[i]? = some (a ++ [Act.rts (start (j + 2 + d + i)) (inMulti (j + 2 + d + i))]) := by
  induction fs generalizing s k j i with
  | nil => cases hi
  | cons f fs ih =>
    have hm := hf f List.mem_cons_self
    obtain ⟨h1, h2⟩ := rx_honest hs (mute_honest hm)
    obtain ⟨h3, h4⟩ := h2 (Or.inl hy)
    obtain ⟨m1, m2, m3⟩ := rx_mute_diff hm hp hc
    rw [hd] at m1 h4
    unfold run
    generalize rx s f = r at *
    cases i with
    | zero =>
      refine ⟨(if Good f then [Act.data (start (k + 1))] else []) ++ [Act.time (start (k + 1))], ?_⟩
      simp only [List.getElem?_cons_zero, Nat.add_zero, h4, List.append_assoc, List.cons_append, List.nil_append]
    | succ i =>
      obtain ⟨a, ha⟩ := ih h1 h3 m2 m3 m1 (fun g hg => hf g (List.mem_cons_of_mem _ hg)) i (by simpa using hi)
      refine ⟨a, ?_⟩
      simp only [List.getElem?_cons_succ]
      rw [ha, show j + 1 + 2 + d + i = j + 2 + d + (i + 1) by omega]

/-- **C94**: while no numbers come, the downlink blocks that are asked for follow each other without gap. -/
theorem C94_no_gap {s : Sync} {k j : Nat} {fs : List Frame} (hs : InStep s k j) (hy : s.synced = true) (hp : s.pcu < 2 ^ 32) (hc : s.ccu < 2 ^ 32)
    (hf : ∀ f ∈ fs, Mute f) : ∃ d, ∀ i < fs.length,
    ∃ a, (run s fs).2[i]? = some (a ++ [Act.rts (start (j + 2 + d + i)) (inMulti (j + 2 + d + i))]) :=
  ⟨fnDiff s.pcu s.ccu, fun i hi => no_gap_aux _ hs hy hp hc rfl hf i hi⟩

/-- **C94**: nothing is asked for and the clock is not set, unless the last numbers that the CCU named were those expected. -/
theorem C94_quiet (s : Sync) (f : Frame) (h : (rx s f).1.synced = false) : ∀ a ∈ (rx s f).2, ∃ fn, a = .data fn := by
  intro a ha
  unfold rx at h ha
  simp only at h ha
  rw [h] at ha
  simp only [acts_noise] at ha
  split at ha
  · simp only [Bool.false_eq_true, if_false, List.append_nil, List.mem_singleton] at ha
    exact ⟨_, ha⟩
  · simp at ha

/-- … numbers that are not those expected end it … -/
theorem C94_lost {s : Sync} {k j : Nat} (hs : InStep s k j) {p u d} (h : u ≠ last (k + 1) ∨ d ≠ start (j + 1)) :
    (rx s (.sync p u d)).1.synced = false ∧ (rx s (.sync p u d)).2 = [] := by
  obtain ⟨h1, h2⟩ := hs
  have hn : ¬ (last (k + 1) = u ∧ start (j + 1) = d) := fun e => h.elim (fun h => h e.1.symm) (fun h => h e.2.symm)
  unfold rx
  rw [h1, h2, next_last, next_start]
  simp only [decide_eq_false hn, Bool.false_eq_true, if_false]
  exact ⟨trivial, rfl⟩

theorem run_mute {s : Sync} {k j : Nat} (hs : InStep s k j) (fs : List Frame) (hf : ∀ f ∈ fs, Mute f) :
    InStep (run s fs).1 (k + fs.length) (j + fs.length) := by
  induction fs generalizing s k j with
  | nil => exact hs
  | cons f fs ih =>
    have hm := hf f List.mem_cons_self
    have := ih (rx_honest hs (mute_honest hm)).1 (fun g hg => hf g (List.mem_cons_of_mem _ hg))
    unfold run
    simp only [List.length_cons]
    rw [show k + (fs.length + 1) = k + 1 + fs.length by omega, show j + (fs.length + 1) = j + 1 + fs.length by omega]
    exact this

/-- … and, from every state whatever, the PCU is in step and confirmed after a CCU that is honest has named its numbers twice, with any
number of other frames in between. -/
theorem C94_recovers (s : Sync) (k j : Nat) (p q : Option Nat) (fs : List Frame) (hf : ∀ f ∈ fs, Mute f) :
    let t := (rx (run (rx s (.sync p (last k) (start j))).1 fs).1 (.sync q (last (k + fs.length + 1)) (start (j + fs.length + 1)))).1
    InStep t (k + fs.length + 1) (j + fs.length + 1) ∧ t.synced = true := by
  have h0 : InStep (rx s (.sync p (last k) (start j))).1 k j := ⟨rfl, rfl⟩
  have h1 := run_mute h0 fs hf
  have hh : Honest (k + fs.length + 1) (j + fs.length + 1) (.sync q (last (k + fs.length + 1)) (start (j + fs.length + 1))) := ⟨rfl, rfl⟩
  obtain ⟨h2, h3⟩ := rx_honest h1 hh
  exact ⟨h2, (h3 (Or.inr id)).1⟩

/-! ### How far ahead -/

theorem run_pcu (s : Sync) (hp : s.pcu < 2 ^ 32) (fs : List Frame) : (run s fs).1.pcu = (s.pcu + fs.length) % 2 ^ 32 := by
  induction fs generalizing s with
  | nil =>
    show s.pcu = (s.pcu + 0) % 2 ^ 32
    omega
  | cons f fs ih =>
    have h : (rx s f).1.pcu = (s.pcu + 1) % 2 ^ 32 := by cases f <;> rfl
    unfold run
    simp only [List.length_cons]
    rw [ih _ (by rw [h]; omega), h]
    omega

theorem ahead_aux (s : Sync) (fs : List Frame) (u d : Nat) (hp : s.pcu < 2 ^ 22) (hn : fs.length ≤ 1000000) :
    fnDiff (rx (run s fs).1 (.sync (some (sent s % 2 ^ 22)) u d)).1.pcu (rx (run s fs).1 (.sync (some (sent s % 2 ^ 22)) u d)).1.ccu = fs.length := by
  have h := run_pcu s (by omega) fs
  have e : sent s % 2 ^ 22 = s.pcu := Nat.mod_eq_of_lt hp
  simp only [e]
  have h1 : (rx (run s fs).1 (.sync (some s.pcu) u d)).1.pcu = s.pcu + fs.length + 1 := by
    show ((run s fs).1.pcu + 1) % 2 ^ 32 = _
    rw [h]; omega
  have h2 : (rx (run s fs).1 (.sync (some s.pcu) u d)).1.ccu = s.pcu + 1 := by
    show (s.pcu + 1) % 2 ^ 32 = _
    omega
  rw [h1, h2]
  unfold fnDiff fnSub hyper
  omega

/-- **C94** (the counter is below 2^22, the range of the field): when the CCU gives back the sequence number that was sent to it
`n` TRAU frames ago, the PCU asks for the block that is `n` blocks further ahead, with the next frame and all that follow without
numbers. -/
theorem C94_ahead_partial (s : Sync) (k j : Nat) (fs gs : List Frame) (hp : s.pcu < 2 ^ 22) (hn : fs.length ≤ 1000000)
    (hs : InStep (run s fs).1 k j) (hg : ∀ f ∈ gs, Mute f) (i : Nat) (hi : i < gs.length) :
    ∃ a, (run (rx (run s fs).1 (.sync (some (sent s % 2 ^ 22)) (last (k + 1)) (start (j + 1)))).1 gs).2[i]? =
      some (a ++ [Act.rts (start (j + 3 + fs.length + i)) (inMulti (j + 3 + fs.length + i))]) := by
  have ha := ahead_aux s fs (last (k + 1)) (start (j + 1)) hp hn
  obtain ⟨h1, h2⟩ := rx_honest (f := .sync (some (sent s % 2 ^ 22)) (last (k + 1)) (start (j + 1))) hs ⟨rfl, rfl⟩
  have h3 := (h2 (Or.inr id)).1
  have b : ∀ f, (rx (run s fs).1 f).1.pcu < 2 ^ 32 ∧ (rx (run s fs).1 f).1.ccu < 2 ^ 32 := by
    intro f
    unfold rx
    exact ⟨Nat.mod_lt _ (by decide), Nat.mod_lt _ (by decide)⟩
  have b := b (.sync (some (sent s % 2 ^ 22)) (last (k + 1)) (start (j + 1)))
  generalize (rx (run s fs).1 (.sync (some (sent s % 2 ^ 22)) (last (k + 1)) (start (j + 1)))).1 = t at *
  obtain ⟨a, hx⟩ := no_gap_aux fs.length h1 h3 b.1 b.2 ha hg i hi
  exact ⟨a, by rw [hx, show j + 1 + 2 + fs.length + i = j + 3 + fs.length + i by omega]⟩

theorem pcu_grows (n : Nat) (h : n < 2 ^ 32) : (run {} (List.replicate n .bad)).1.pcu = n := by
  rw [run_pcu _ (by decide), List.length_replicate]
  show (0 + n) % 2 ^ 32 = n
  omega

theorem wrap_aux (s : Sync) (h : s.pcu = 4194304) (u d : Nat) :
    fnDiff (rx s (.sync (some (sent s % 2 ^ 22)) u d)).1.pcu (rx s (.sync (some (sent s % 2 ^ 22)) u d)).1.ccu = 49152 := by
  have h1 : (rx s (.sync (some (sent s % 2 ^ 22)) u d)).1.pcu = (s.pcu + 1) % 2 ^ 32 := rfl
  have h2 : (rx s (.sync (some (sent s % 2 ^ 22)) u d)).1.ccu = (s.pcu % 2 ^ 22 + 1) % 2 ^ 32 := rfl
  rw [h1, h2, h]
  unfold fnDiff fnSub hyper
  omega

/-- **C94** fails when the counter of the PCU has passed the field of 22 bits, after less than a day: the answer of the CCU, which can
only give back these bits, then means 49152 blocks (16 minutes) ahead. -/
theorem C94_wrap_fails : ∃ s : Sync, (∃ fs, s = (run {} fs).1) ∧
    ∀ u d, fnDiff (rx s (.sync (some (sent s % 2 ^ 22)) u d)).1.pcu (rx s (.sync (some (sent s % 2 ^ 22)) u d)).1.ccu = 49152 := by
  obtain ⟨n, hn⟩ : ∃ n : Nat, n = 4194304 := ⟨_, rfl⟩
  exact ⟨(run {} (List.replicate n .bad)).1, ⟨_, rfl⟩, wrap_aux _ (by rw [pcu_grows n (by omega), hn])⟩

/-- **C94** fails before the first numbers of the CCU: data is handed on with the frame number 1, at which no block begins. -/
theorem C94_data_fails : (rx {} (.gprs true)).2 = [.data 1] ∧ ∀ k, start k ≠ 1 :=
  ⟨by decide, fun k => by unfold start; omega⟩

/-- **C94** fails for a CCU that names a frame where no block begins: the number does not move on, and the same numbers again are
taken for a confirmation. -/
theorem C94_stuck_fails : ∃ s : Sync, s = (run {} [.sync none 12 12, .sync none 12 12]).1 ∧ s.synced = true ∧ s.ul = 12 :=
  ⟨_, rfl, by decide, by decide⟩

/-! ### Blocks to send -/

/-- The header that 3GPP TS 44.060 (10.3a.3) gives a downlink block of each scheme. -/
def header : Cs.CS → Option Coding
  | .unknown => none
  | .cs1 => some .cs1 | .cs2 => some .cs2 | .cs3 => some .cs3 | .cs4 => some .cs4
  | .mcs1 => some .hdr3 | .mcs2 => some .hdr3 | .mcs3 => some .hdr3 | .mcs4 => some .hdr3
  | .mcs5 => some .hdr2 | .mcs6 => some .hdr2
  | .mcs7 => some .hdr1 | .mcs8 => some .hdr1 | .mcs9 => some .hdr1

/-- **C94**: a block that has the size of its scheme is sent as such; blocks of other lengths are not sent. -/
theorem C94_type (len : Nat) (t : Coding) : typeOfLen len = some t ↔ ∃ c : Cs.CS, c ≠ .unknown ∧ c.sizeDl = len ∧ header c = some t := by
  constructor
  · intro h
    unfold typeOfLen at h
    split at h
    all_goals first | cases h | skip
    · exact ⟨.cs1, by decide, by decide, rfl⟩
    · exact ⟨.cs2, by decide, by decide, rfl⟩
    · exact ⟨.cs3, by decide, by decide, rfl⟩
    · exact ⟨.cs4, by decide, by decide, rfl⟩
    · exact ⟨.mcs1, by decide, by decide, rfl⟩
    · exact ⟨.mcs2, by decide, by decide, rfl⟩
    · exact ⟨.mcs3, by decide, by decide, rfl⟩
    · exact ⟨.mcs4, by decide, by decide, rfl⟩
    · exact ⟨.mcs5, by decide, by decide, rfl⟩
    · exact ⟨.mcs6, by decide, by decide, rfl⟩
    · exact ⟨.mcs7, by decide, by decide, rfl⟩
    · exact ⟨.mcs8, by decide, by decide, rfl⟩
    · exact ⟨.mcs9, by decide, by decide, rfl⟩
  · rintro ⟨c, hc, rfl, h⟩
    cases c <;> first | exact absurd rfl hc | exact h

/-! ### Non-vacuity -/

/-- The blocks of a multiframe. -/
example : (List.range 13).map start = [0, 4, 8, 13, 17, 21, 26, 30, 34, 39, 43, 47, 52] := by decide
/-- The last block of the hyperframe is followed by the first. -/
example : start 626687 = 2715643 ∧ start 626688 = 0 := by decide
/-- In step at blocks 5 and 6, with one block on the way: data, then a bad frame, then the numbers. -/
example : InStep ⟨24, 26, 7, 6, true⟩ 5 6 ∧ AllHonest 5 6 [.gprs true, .bad, .sync none 37 39] ∧
    (run ⟨24, 26, 7, 6, true⟩ [.gprs true, .bad, .sync none 37 39]).2 =
      [[.data 26, .time 26, .rts 39 9], [.time 30, .rts 43 10], [.time 34, .rts 47 11]] :=
  ⟨by unfold InStep last; decide, ⟨trivial, trivial, (by unfold Honest last; decide), trivial⟩, by decide⟩
/-- The CCU gives back the number 0 two frames later: two blocks further ahead. -/
example : (run ⟨24, 26, 0, 0, true⟩ [.bad, .bad, .sync (some 0) 37 39, .bad, .bad]).2.drop 2 =
    [[.time 34, .rts 43 10], [.time 39, .rts 56 1], [.time 43, .rts 60 2]] ∧ start 13 = 56 := by decide
/-- From the start: the numbers twice. -/
example : (run {} [.sync (some 0) 3 0, .other, .sync none 11 8]).1.synced = true := by decide

end Verif.Ccu
