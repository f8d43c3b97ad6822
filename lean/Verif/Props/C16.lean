import Verif.Model.Codel
/-!
# C16: CoDel never drops while the queue is short or delay is below target
-/

namespace Verif.Codel

/-- One call of the queue manager: arrival time of the frame, current time and number of octets
left in the queue (negative: unknown). -/
structure Call where
  recv : Option Int
  now : Int
  bytes : Int
  deriving DecidableEq, Repr

/-- A call that sees congestion: the frame waited at least `target` and more than one maximum
size packet (or an unknown amount) is queued. -/
def Congested (target : Int) (maxpacket : Nat) (c : Call) : Prop :=
  (∃ r, c.recv = some r ∧ target ≤ c.now - r) ∧ (c.bytes < 0 ∨ (maxpacket : Int) < c.bytes)

/-- States after a history of calls (latest first), from a start state. -/
inductive Reach (s0 : St) : St → List Call → Prop
  | nil : Reach s0 s0 []
  | call {s h} (c : Call) : Reach s0 s h → 0 ≤ c.now →
      Reach s0 (control s c.recv c.now c.bytes).1 (c :: h)

/-- A freshly configured state. -/
def start (ms : Int) (maxpacket : Int) : St := setMaxpacket (setInterval init ms) maxpacket

theorem control_params (s : St) (r n b) :
    (control s r n b).1.interval = s.interval ∧ (control s r n b).1.target = s.target ∧
    (control s r n b).1.maxpacket = s.maxpacket := by
  unfold control okToDrop leave
  grind

/-- A drop is asked for only at a congested call. -/
theorem control_cong (s : St) (r n : Int) (b : Nat) (hd : (control s (some r) n b).2 = true) :
    s.target ≤ n - r ∧ s.maxpacket < b := by
  unfold control at hd
  dsimp only at hd
  split at hd
  · simp at hd
  split at hd
  · simp at hd
  omega

theorem reach_params {s0 s h} (hr : Reach s0 s h) :
    s.interval = s0.interval ∧ s.target = s0.target ∧ s.maxpacket = s0.maxpacket := by
  induction hr with
  | nil => exact ⟨rfl, rfl, rfl⟩
  | call c _ _ ih =>
    have := control_params (s := ‹St›) c.recv c.now c.bytes
    grind

theorem start_interval (ms mp : Int) : 0 < (start ms mp).interval ∧ (start ms mp).firstAbove = 0 ∧
    (start ms mp).dropping = false := by
  refine ⟨?_, rfl, rfl⟩
  simp only [start, setMaxpacket, setInterval]
  split <;> omega

/-- Any state whose `firstAbove` is set saw only congested calls since `firstAbove - interval`. -/
theorem reach_inv {s0 s h} (hi : 0 < s0.interval) (hf : s0.firstAbove = 0) (hr : Reach s0 s h) :
    s.firstAbove ≠ 0 → ∃ pre c suf, h = pre ++ c :: suf ∧ s.firstAbove = c.now + s0.interval ∧
      ∀ x ∈ pre ++ [c], Congested s0.target s0.maxpacket x := by
  induction hr with
  | nil => intro h; exact absurd hf h
  | @call s h c hr hn ih =>
    obtain ⟨p1, p2, p3⟩ := reach_params hr
    intro hne
    unfold control at hne ⊢
    cases hrec : c.recv with
    | none => rw [hrec] at hne; simp [leave] at hne
    | some r =>
      rw [hrec] at hne
      dsimp only at hne ⊢
      by_cases h1 : c.now - r < s.target
      · rw [if_pos h1] at hne; simp [leave] at hne
      rw [if_neg h1] at hne ⊢
      by_cases h2 : 0 ≤ c.bytes ∧ c.bytes.toNat ≤ s.maxpacket
      · rw [if_pos h2] at hne; simp [leave] at hne
      rw [if_neg h2] at hne ⊢
      have hc : Congested s0.target s0.maxpacket c := ⟨⟨r, hrec, by omega⟩, by omega⟩
      by_cases h3 : s.firstAbove = 0
      · rw [if_pos h3] at hne ⊢
        refine ⟨[], c, h, rfl, ?_, ?_⟩
        · simp [leave, p1]
        · intro x hx
          simp at hx
          rw [hx]; exact hc
      rw [if_neg h3] at hne ⊢
      obtain ⟨pre, c0, suf, e1, e2, e3⟩ := ih h3
      have hfa : (if c.now < s.firstAbove then (leave s false, false) else okToDrop s c.now).1.firstAbove
          = s.firstAbove := by
        unfold leave okToDrop
        grind
      refine ⟨c :: pre, c0, suf, by rw [e1]; rfl, by rw [hfa, e2], ?_⟩
      intro x hx
      simp only [List.cons_append, List.mem_cons] at hx
      rcases hx with rfl | hx
      · exact hc
      · exact e3 x hx

/-- A drop is only asked for if the current call is congested and every call of a period of at
least one interval before it was congested as well. -/
theorem C16_drop_only_if_congested (ms mp : Int) {s : St} {h : List Call}
    (hr : Reach (start ms mp) s h) (c : Call) (hn : 0 ≤ c.now)
    (hd : (control s c.recv c.now c.bytes).2 = true) :
    ∃ pre c0 suf, h = pre ++ c0 :: suf ∧ c0.now + (start ms mp).interval ≤ c.now ∧
      ∀ x ∈ c :: pre ++ [c0], Congested (start ms mp).target (start ms mp).maxpacket x := by
  obtain ⟨hi, hf, -⟩ := start_interval ms mp
  generalize start ms mp = s0 at *
  obtain ⟨p1, p2, p3⟩ := reach_params hr
  have hinv := reach_inv hi hf hr
  unfold control at hd
  cases hrec : c.recv with
  | none => rw [hrec] at hd; simp at hd
  | some r =>
    rw [hrec] at hd
    dsimp only at hd
    split at hd
    · simp at hd
    split at hd
    · simp at hd
    split at hd
    · simp at hd
    split at hd
    · simp at hd
    rename_i h1 h2 h3 h4
    obtain ⟨pre, c0, suf, e1, e2, e3⟩ := hinv h3
    refine ⟨pre, c0, suf, e1, by omega, ?_⟩
    intro x hx
    simp only [List.cons_append, List.mem_cons] at hx
    rcases hx with rfl | hx
    · exact ⟨⟨r, hrec, by omega⟩, by omega⟩
    · exact e3 x hx

/-- The table is non-increasing and stays above the value used beyond its end. -/
theorem invSqrt_step (n : Nat) : invSqrt (n + 1) ≤ invSqrt n := by
  unfold invSqrt
  by_cases h : n < invSqrtTab.length
  · have ht : ∀ k, k < invSqrtTab.length → invSqrtTab.getD (k + 1) 16 ≤ invSqrtTab.getD k 16 := by
      decide +kernel
    exact ht n h
  · rw [List.getD_eq_getElem?_getD, List.getD_eq_getElem?_getD,
      List.getElem?_eq_none (by omega), List.getElem?_eq_none (by omega)]
    exact Nat.le_refl _

/-- Time between scheduled drops for drop number `n` of a dropping period. -/
def gap (interval : Int) (n : Nat) : Int := interval / 1000 * invSqrt n / 256 * 1000

theorem gap_step (i : Int) (hi : 0 < i) (n : Nat) : gap i (n + 1) ≤ gap i n := by
  have h := invSqrt_step n
  unfold gap
  have h0 : 0 ≤ i / 1000 := Int.ediv_nonneg (by omega) (by omega)
  have h1 : i / 1000 * (invSqrt (n + 1) : Int) ≤ i / 1000 * (invSqrt n : Int) :=
    Int.mul_le_mul_of_nonneg_left (by omega) h0
  have h2 := Int.ediv_le_ediv (a := i / 1000 * (invSqrt (n + 1) : Int)) (b := i / 1000 * (invSqrt n : Int)) (c := 256) (by omega) h1
  omega

/-- Drops of one history: the times scheduled for the next drop after each drop, latest first,
while the dropping state was not left since. -/
def drops (s0 : St) : List Call → St × List Int
  | [] => (s0, [])
  | c :: h =>
    let p := drops s0 h
    let r := control p.1 c.recv c.now c.bytes
    if r.2 then (r.1, if p.1.dropping then r.1.dropNext :: p.2 else [r.1.dropNext, c.now])
    else (r.1, if r.1.dropping then p.2 else [])

/-- Differences of neighbours (latest first) never grow with time. -/
def NonGrowing : List Int → Prop
  | a :: b :: c :: l => a - b ≤ b - c ∧ NonGrowing (b :: c :: l)
  | _ => True

/-- What one call can do. -/
theorem control_cases (s : St) (r : Option Int) (n b : Int) :
    ((control s r n b).2 = false ∧ (control s r n b).1.dropping = false ∧
      (control s r n b).1.count = s.count) ∨
    ((control s r n b).2 = false ∧ (control s r n b).1 = s) ∨
    ((control s r n b).2 = true ∧ s.dropping = false ∧ (control s r n b).1.dropping = true ∧
      (control s r n b).1.dropNext = n + gap s.interval (control s r n b).1.count ∧
      (control s r n b).1.count ≤ max 1 s.count) ∨
    ((control s r n b).2 = true ∧ s.dropping = true ∧ (control s r n b).1.dropping = true ∧
      s.dropNext ≤ n ∧
      (control s r n b).1.dropNext = s.dropNext + gap s.interval (control s r n b).1.count ∧
      (control s r n b).1.count = (s.count + 1) % 2 ^ 32) := by
  have hok : ∀ s : St, ((okToDrop s n).2 = false ∧ (okToDrop s n).1 = s) ∨
    ((okToDrop s n).2 = true ∧ s.dropping = false ∧ (okToDrop s n).1.dropping = true ∧
      (okToDrop s n).1.dropNext = n + gap s.interval (okToDrop s n).1.count ∧
      (okToDrop s n).1.count ≤ max 1 s.count) ∨
    ((okToDrop s n).2 = true ∧ s.dropping = true ∧ (okToDrop s n).1.dropping = true ∧
      s.dropNext ≤ n ∧
      (okToDrop s n).1.dropNext = s.dropNext + gap s.interval (okToDrop s n).1.count ∧
      (okToDrop s n).1.count = (s.count + 1) % 2 ^ 32) := by
    intro s
    unfold okToDrop
    cases hd : s.dropping
    · simp only [Bool.not_false, if_true]
      split
      · exact Or.inl ⟨rfl, rfl⟩
      · refine Or.inr (Or.inl ⟨rfl, trivial, rfl, rfl, ?_⟩)
        dsimp only
        split <;> omega
    · simp only [Bool.not_true, Bool.false_eq_true, if_false]
      split
      · exact Or.inl ⟨rfl, rfl⟩
      · exact Or.inr (Or.inr ⟨rfl, trivial, rfl, by omega, rfl, rfl⟩)
  unfold control
  cases r with
  | none => exact Or.inl ⟨rfl, rfl, rfl⟩
  | some r =>
    dsimp only
    split
    · exact Or.inl ⟨rfl, rfl, rfl⟩
    split
    · exact Or.inl ⟨rfl, rfl, rfl⟩
    split
    · exact Or.inl ⟨rfl, rfl, rfl⟩
    split
    · exact Or.inl ⟨rfl, rfl, rfl⟩
    exact Or.inr (hok s)

theorem invSqrt_floor (n : Nat) (h2 : 2 ≤ n) (h : n ≤ 256) :
    invSqrt n * invSqrt n * n ≤ 65536 ∧ 65536 < (invSqrt n + 1) * (invSqrt n + 1) * n := by
  have : ∀ k, k < 257 → 2 ≤ k → invSqrt k * invSqrt k * k ≤ 65536 ∧ 65536 < (invSqrt k + 1) * (invSqrt k + 1) * k := by
    decide +kernel
  exact this n (by omega) h2

theorem gap_floor (q n : Nat) (hq : 0 < q) (h2 : 2 ≤ n) (h : n ≤ 256) :
    let d := (gap (1000 * (q : Int)) n).toNat
    d * d * n ≤ (1000 * q) * (1000 * q) ∧
      (256 * (1000 * q)) * (256 * (1000 * q)) < (256 * (d + 1000) + 1000 * q) * (256 * (d + 1000) + 1000 * q) * n ∧
      (d : Int) = gap (1000 * (q : Int)) n := by
  obtain ⟨t1, t2⟩ := invSqrt_floor n h2 h
  generalize ht : invSqrt n = t at t1 t2
  have hg : gap (1000 * (q : Int)) n = ((q * t / 256 * 1000 : Nat) : Int) := by
    unfold gap
    rw [ht, Int.mul_ediv_cancel_left _ (by decide)]
    simp only [Int.natCast_mul, Int.natCast_ediv]
    rfl
  intro d
  have hd : d = q * t / 256 * 1000 := by
    show (gap (1000 * (q : Int)) n).toNat = _
    rw [hg]
    rfl
  generalize hm : q * t / 256 = m at hd
  have m1 : 256 * m ≤ q * t := by omega
  have m2 : q * t < 256 * (m + 1) := by omega
  clear_value d
  subst hd
  refine ⟨?_, ?_, by rw [hg, hm]⟩
  · -- m² n ≤ q²
    have a1 := Nat.mul_le_mul m1 m1
    have a2 := Nat.mul_le_mul_right n a1
    have a3 : q * t * (q * t) * n = q * q * (t * t * n) := by
      simp only [Nat.mul_assoc, Nat.mul_comm, Nat.mul_left_comm]
    have a4 := Nat.mul_le_mul_left (q * q) t1
    have a5 : 256 * m * (256 * m) * n = 65536 * (m * m * n) := by
      rw [show 256 * m * (256 * m) = 65536 * (m * m) from by rw [Nat.mul_mul_mul_comm], Nat.mul_assoc]
    have a6 : m * 1000 * (m * 1000) * n = 1000000 * (m * m * n) := by
      rw [show m * 1000 * (m * 1000) = 1000000 * (m * m) from by rw [Nat.mul_mul_mul_comm, Nat.mul_comm], Nat.mul_assoc]
    have a7 : 1000 * q * (1000 * q) = 1000000 * (q * q) := by rw [Nat.mul_mul_mul_comm]
    rw [a6, a7]
    omega
  · have b1 : q * (t + 1) < 256 * (m + 1) + q := by rw [Nat.mul_add]; omega
    have b2 := Nat.mul_le_mul (Nat.le_of_lt b1) (Nat.le_of_lt b1)
    have b3 := Nat.mul_le_mul_right n b2
    have b4 : q * (t + 1) * (q * (t + 1)) * n = q * q * ((t + 1) * (t + 1) * n) := by
      rw [Nat.mul_mul_mul_comm, Nat.mul_assoc]
    have b5 : q * q * 65536 < q * q * ((t + 1) * (t + 1) * n) :=
      Nat.mul_lt_mul_of_pos_left t2 (Nat.mul_pos hq hq)
    have b6 : 256 * (m * 1000 + 1000) + 1000 * q = 1000 * (256 * (m + 1) + q) := by omega
    have b7 : 256 * (1000 * q) * (256 * (1000 * q)) = 1000000 * (q * q * 65536) := by
      rw [show 256 * (1000 * q) = 256000 * q from by omega, Nat.mul_mul_mul_comm]
      omega
    rw [b6, b7, show 1000 * (256 * (m + 1) + q) * (1000 * (256 * (m + 1) + q)) * n =
      1000000 * ((256 * (m + 1) + q) * (256 * (m + 1) + q) * n) from by
        rw [Nat.mul_mul_mul_comm, Nat.mul_assoc]]
    generalize (256 * (m + 1) + q) * (256 * (m + 1) + q) * n = X at b3
    omega

theorem drops_inv (s0 : St) (hi : 0 < s0.interval) (hs : s0.dropping = false) (hc0 : s0.count = 0)
    (h : List Call) (hlen : h.length < 2 ^ 32) :
    (drops s0 h).1.interval = s0.interval ∧ (drops s0 h).1.count ≤ h.length ∧
    ((drops s0 h).1.dropping = true → ∃ b l, (drops s0 h).2 = (drops s0 h).1.dropNext :: b :: l ∧
        (drops s0 h).1.dropNext - b = gap s0.interval (drops s0 h).1.count) ∧
    ((drops s0 h).1.dropping = false → (drops s0 h).2 = []) ∧
    NonGrowing (drops s0 h).2 := by
  induction h with
  | nil => simp [drops, hs, NonGrowing, hc0]
  | cons c h ih =>
    simp only [List.length_cons] at hlen
    have ih := ih (by omega)
    obtain ⟨i1, i2, i3, i4, i5⟩ := ih
    revert i1 i2 i3 i4 i5
    simp only [drops, List.length_cons]
    generalize drops s0 h = p
    obtain ⟨s, ds⟩ := p
    dsimp only
    intro i1 i2 i3 i4 i5
    have hp := (control_params s c.recv c.now c.bytes).1
    have hcs := control_cases s c.recv c.now c.bytes
    revert hp hcs
    generalize control s c.recv c.now c.bytes = r
    obtain ⟨s', d⟩ := r
    dsimp only
    intro hp hcs
    rcases hcs with ⟨rfl, h2, h3⟩ | ⟨rfl, rfl⟩ | ⟨rfl, h2, h3, h4, h5⟩ | ⟨rfl, h2, h3, h4, h5, h6⟩
    · simp only [Bool.false_eq_true, if_false, h2]
      refine ⟨by omega, by omega, fun h => h.elim, fun _ => trivial, trivial⟩
    · simp only [Bool.false_eq_true, if_false]
      refine ⟨i1, by omega, ?_, ?_, ?_⟩
      · intro h; rw [h]; simpa using i3 h
      · intro h; rw [h]; rfl
      · split
        · exact i5
        · trivial
    · simp only [if_true, h2, h3, Bool.false_eq_true, if_false]
      refine ⟨by omega, by omega, fun _ => ⟨c.now, [], rfl, ?_⟩, fun h => by simp at h, trivial⟩
      rw [h4, i1]; omega
    · simp only [if_true, h2, h3]
      obtain ⟨b, l, e1, e2⟩ := i3 h2
      have hm : (s.count + 1) % 2 ^ 32 = s.count + 1 := Nat.mod_eq_of_lt (by omega)
      rw [e1] at i5 ⊢
      refine ⟨by omega, by omega, fun _ => ⟨s.dropNext, b :: l, rfl, ?_⟩, ?_, ?_⟩
      · rw [h5, i1]; omega
      · intro h; simp at h
      · refine ⟨?_, i5⟩
        have := gap_step s0.interval hi s.count
        rw [h5, e2, h6, hm, i1]
        omega

/-- While dropping, the spacing of the scheduled drops never grows, for any history of fewer than
2^32 calls (the drop counter is 32 bits wide). -/
theorem C16_drop_spacing (ms mp : Int) (h : List Call) (hlen : h.length < 2 ^ 32) :
    NonGrowing (drops (start ms mp) h).2 := by
  obtain ⟨hi, -, hd⟩ := start_interval ms mp
  exact (drops_inv _ hi hd rfl h hlen).2.2.2.2

/-- While dropping, the `k`-th drop puts off the next one by the interval divided by the square root of `k`,
up to 1/256 of the interval and a microsecond less (for `k` up to 256; `d`, in ns, is the time put off). -/
theorem C16_inverse_sqrt (s : St) (c : Call) (q : Nat) (hq : 0 < q) (hi : s.interval = 1000 * (q : Int))
    (hs : s.dropping = true) (hd : (control s c.recv c.now c.bytes).2 = true) (k : Nat)
    (hk : k = s.count + 1) (h2 : 2 ≤ k) (h : k ≤ 256) :
    ∃ d : Nat, (control s c.recv c.now c.bytes).1.dropNext = s.dropNext + d ∧
      d * d * k ≤ (1000 * q) * (1000 * q) ∧
      (256 * (1000 * q)) * (256 * (1000 * q)) < (256 * (d + 1000) + 1000 * q) * (256 * (d + 1000) + 1000 * q) * k := by
  rcases control_cases s c.recv c.now c.bytes with ⟨h1, -⟩ | ⟨h1, -⟩ | ⟨-, h1, -⟩ | ⟨-, -, -, -, h4, h5⟩
  · rw [hd] at h1; cases h1
  · rw [hd] at h1; cases h1
  · rw [hs] at h1; cases h1
  · have hc : (control s c.recv c.now c.bytes).1.count = k := by rw [h5, hk]; omega
    rw [hc, hi] at h4
    obtain ⟨g1, g2, g3⟩ := gap_floor q k hq h2 h
    exact ⟨_, by rw [h4, g3], g1, g2⟩

example : (start 100 512).interval = 1000 * ((100000 : Nat) : Int) := by decide

/-- While dropping, no frame is dropped before the time scheduled by the previous drop. -/
theorem C16_drop_not_early (s : St) (c : Call) (hs : s.dropping = true)
    (hd : (control s c.recv c.now c.bytes).2 = true) : s.dropNext ≤ c.now := by
  have := control_cases s c.recv c.now c.bytes
  grind

/-- A call that sees no congestion leaves the dropping state; a drop is then only possible after
a further full interval of congestion (`C16_drop_only_if_congested`). -/
theorem C16_leaves_when_relieved (s : St) (c : Call)
    (hn : ¬ Congested s.target s.maxpacket c) :
    (control s c.recv c.now c.bytes).1.dropping = false ∧
    (control s c.recv c.now c.bytes).1.firstAbove = 0 ∧
    (control s c.recv c.now c.bytes).2 = false := by
  unfold control
  cases hrec : c.recv with
  | none => simp [leave]
  | some r =>
    dsimp only
    by_cases h1 : c.now - r < s.target
    · rw [if_pos h1]; simp [leave]
    rw [if_neg h1]
    by_cases h2 : 0 ≤ c.bytes ∧ c.bytes.toNat ≤ s.maxpacket
    · rw [if_pos h2]; simp [leave]
    exact absurd ⟨⟨r, hrec, by omega⟩, by omega⟩ hn

/-- A reachable drop: default settings, congestion for more than two intervals, then spacing
shrinks from 99.6 to 70.7 ms. -/
def demo : List Call :=
  [⟨some 0, 1400000000, 9000⟩, ⟨some 0, 1300000000, 9000⟩, ⟨some 0, 1200000000, 9000⟩,
   ⟨some 0, 1150000000, 9000⟩, ⟨some 0, 1000000000, 9000⟩]

example : (drops (start (-1) (-1)) demo).2 = [1427733000, 1370312000, 1299609000, 1200000000] := by
  decide +kernel

example : (drops (start (-1) (-1)) (demo.drop 1)).1.dropping = true ∧ (drops (start (-1) (-1)) (demo.drop 1)).1.count = 2 ∧
    (drops (start (-1) (-1)) (demo.drop 1)).1.interval = 1000 * ((100000 : Nat) : Int) ∧ (drops (start (-1) (-1)) demo).1.count = 3 := by
  decide +kernel

end Verif.Codel
