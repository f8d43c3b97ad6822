import Verif.Spec.FlowCtl
/-!
# C48: flow-control parameters sent to the SGSN are within protocol limits
-/

namespace Verif.Fc

theorem cap_le (b : Nat) : (if b > 6553500 then 6553500 else b) ≤ 6553500 := by split <;> omega

theorem cap_pos {b : Nat} (h : 0 < b) : 0 < (if b > 6553500 then 6553500 else b) := by split <;> omega

theorem or_pos {b f : Nat} (h : 0 < f) : 0 < (if b = 0 then f else b) := by split <;> omega

theorem bucketSize_le (c : Cfg) (l f : Nat) : bucketSize c l f ≤ 6553500 := by
  unfold bucketSize
  exact cap_le _

theorem bucketSize_pos (c : Cfg) {l f : Nat} (h : 0 < f) : 0 < bucketSize c l f := by
  unfold bucketSize
  exact cap_pos (or_pos h)

theorem highest_le (m : Nat) : ∀ n, highest m n ≤ n
  | 0 => Nat.le_refl 0
  | n + 1 => by
    unfold highest
    split
    · exact Nat.le_refl _
    · exact Nat.le_succ_of_le (highest_le m n)

/-- The scheme is one of CS-1 to MCS-9. -/
theorem maxScheme_valid {c : Cfg} (h : CfgOk c) : 20 ≤ octets (maxScheme c) ∧ octets (maxScheme c) ≤ 148 := by
  have k1 : ∀ n, 1 ≤ n → n ≤ 9 → 20 ≤ octets (Cs.getEgprsByNum n) ∧ octets (Cs.getEgprsByNum n) ≤ 148 := by
    have : ∀ n, n < 10 → 1 ≤ n → 20 ≤ octets (Cs.getEgprsByNum n) ∧ octets (Cs.getEgprsByNum n) ≤ 148 := by decide
    intro n h1 h2; exact this n (by omega) h1
  have k2 : ∀ n, 1 ≤ n → n ≤ 4 → 20 ≤ octets (Cs.getGprsByNum n) ∧ octets (Cs.getGprsByNum n) ≤ 148 := by
    have : ∀ n, n < 5 → 1 ≤ n → 20 ≤ octets (Cs.getGprsByNum n) ∧ octets (Cs.getGprsByNum n) ≤ 148 := by decide
    intro n h1 h2; exact this n (by omega) h1
  have := h.imcs; have := h.ics; have := h.mmcs; have := h.mcs
  have := highest_le c.mcsMask 9
  have := highest_le c.csMask 4
  unfold maxScheme
  dsimp only
  split
  · apply k1
    · split
      · split <;> omega
      · split <;> omega
    · split
      · split <;> omega
      · split <;> omega
  · have k3 : ∀ n, n ≤ 4 → 1 ≤ (if n = 0 then 4 else n) ∧ (if n = 0 then 4 else n) ≤ 4 := by intro n hn; split <;> omega
    have k4 := k3 (if !c.csAdj then (if c.initialCs ≠ 0 then c.initialCs else highest c.csMask 4) else c.maxCs) (by
      split
      · split <;> omega
      · omega)
    exact k2 _ k4.1 k4.2

/-- The rate of the code is what the channels carry. -/
theorem maxLeak_eq {cs : Cs.CS} {n : Nat} (hn : n ≤ 64) : maxLeak cs n = capacity cs n := by
  unfold maxLeak capacity u32
  have : cs.dataBytes * cs.hdr.numBlocks = octets cs ∧ octets cs ≤ 148 := by cases cs <;> decide
  obtain ⟨e, h⟩ := this
  rw [e, Nat.mul_comm 50 (octets cs)]
  apply Nat.mod_eq_of_lt
  have : octets cs * 50 * n ≤ 148 * 50 * 64 := Nat.mul_le_mul (Nat.mul_le_mul h (Nat.le_refl _)) hn
  exact Nat.lt_of_le_of_lt this (by decide)

/-- A message that is sent. -/
theorem txFc_some {c : Cfg} {m : Meas} {x : Msg} (h : (txFc c m).1 = some x) :
    ∃ leak₀, (c.bvcLeak ≠ 0 → leak₀ = c.bvcLeak) ∧ (c.bvcLeak = 0 → estimate (maxLeak (maxScheme c) c.numPdch) (measured m c.numPdch).1 = some leak₀) ∧
      let leak := if leak₀ = 0 then maxLeak (maxScheme c) c.numPdch else leak₀
      let msLeak := if c.msLeak = 0 then maxLeak (maxScheme c) (min c.numPdch (if c.singleSlot then 1 else 4)) else c.msLeak
      x.bucket = (if c.bvcBucket = 0 then bucketSize c leak 2000 else c.bvcBucket) ∧
      x.msBucket = (if c.msBucket = 0 then bucketSize c msLeak (x.bucket / 2 + 500) else c.msBucket) ∧
      x.leak = min leak 819187 ∧ x.msLeak = min msLeak 819187 ∧ x.delay = (avgDelay m).1 := by
  unfold txFc at h
  dsimp only at h
  by_cases hb : c.bvcLeak = 0
  · simp only [if_pos hb] at h
    have hd : (avgDelay (measured m c.numPdch).2).1 = (avgDelay m).1 := by
      unfold measured avgDelay
      split
      · rfl
      · split <;> rfl
    cases he : estimate (maxLeak (maxScheme c) c.numPdch) (measured m c.numPdch).1 with
    | none => rw [he] at h; cases h
    | some l =>
      rw [he] at h
      cases h
      exact ⟨l, fun h => absurd hb h, fun _ => rfl, rfl, rfl, rfl, rfl, hd⟩
  · simp only [if_neg hb] at h
    cases h
    refine ⟨c.bvcLeak, fun _ => rfl, fun h => absurd h hb, ?_⟩
    simp only [if_neg hb]
    exact ⟨trivial, trivial, trivial, trivial, trivial⟩

/-- **C48**, no parameter exceeds the protocol maximum, for every configuration and all measurements. -/
theorem C48_limits {c : Cfg} {m : Meas} {x : Msg} (hc : CfgOk c) (h : (txFc c m).1 = some x) : Codable x := by
  obtain ⟨l, -, -, h1, h2, h3, h4, -⟩ := txFc_some h
  have b1 : x.bucket ≤ 6553500 := by
    rw [h1]
    split
    · exact bucketSize_le _ _ _
    · exact hc.bucket
  have b2 : x.msBucket ≤ 6553500 := by
    rw [h2]
    split
    · exact bucketSize_le _ _ _
    · exact hc.msBucket
  have b3 : x.leak ≤ 819187 := by rw [h3]; exact Nat.min_le_right _ _
  have b4 : x.msLeak ≤ 819187 := by rw [h4]; exact Nat.min_le_right _ _
  unfold Codable
  omega

/-- **C48**, no parameter is zero while a channel is available. -/
theorem C48_nonzero {c : Cfg} {m : Meas} {x : Msg} (hc : CfgOk c) (hn : 0 < c.numPdch) (h : (txFc c m).1 = some x) :
    0 < x.bucket ∧ 0 < x.leak ∧ 0 < x.msBucket ∧ 0 < x.msLeak := by
  obtain ⟨l, -, -, h1, h2, h3, h4, -⟩ := txFc_some h
  have hv := (maxScheme_valid hc).1
  have hp : ∀ n, 0 < n → n ≤ 64 → 0 < maxLeak (maxScheme c) n := by
    intro n n1 n2
    rw [maxLeak_eq n2]
    unfold capacity
    exact Nat.mul_pos (by omega) n1
  have hpd := hc.pdch
  refine ⟨?_, ?_, ?_, ?_⟩
  · rw [h1]
    split
    · exact bucketSize_pos _ (by decide)
    · omega
  · rw [h3]
    have := hp _ hn hc.pdch
    split <;> omega
  · rw [h2]
    split
    · exact bucketSize_pos _ (by omega)
    · omega
  · rw [h4]
    have := hp (min c.numPdch (if c.singleSlot = true then 1 else 4)) (by split <;> omega) (by split <;> omega)
    split <;> omega

/-- **C48**, a bucket size or leak rate that the user fixed is announced, as far as it can be coded. -/
theorem C48_forced {c : Cfg} {m : Meas} {x : Msg} (h : (txFc c m).1 = some x) :
    (c.bvcBucket ≠ 0 → x.bucket = c.bvcBucket) ∧ (c.msBucket ≠ 0 → x.msBucket = c.msBucket) ∧
    (c.bvcLeak ≠ 0 → x.leak = min c.bvcLeak 819187) ∧ (c.msLeak ≠ 0 → x.msLeak = min c.msLeak 819187) := by
  obtain ⟨l, k1, -, h1, h2, h3, h4, -⟩ := txFc_some h
  refine ⟨fun e => ?_, fun e => ?_, fun e => ?_, fun e => ?_⟩
  · rw [h1, if_neg e]
  · rw [h2, if_neg e]
  · rw [h3, k1 e, if_neg e]
  · rw [h4, if_neg e]

/-- **C48**, the user gives a leak rate in bit/s ("Leak rate in bit/s", pcu_vty.c:381, 422); eight times as much is
announced. -/
theorem C48_leak_unit {c : Cfg} {m : Meas} {x : Msg} (h : (txFc c m).1 = some x) (h0 : c.bvcLeak ≠ 0) (h1 : c.bvcLeak ≤ 819187) :
    x.leak * 8 = 8 * c.bvcLeak := by
  rw [(C48_forced h).2.2.1 h0]; omega

/-- **C48**, a bucket whose size is not fixed holds what drains at the fixed leak rate in the bucket time, which is in
hundredths of a second; without bucket time, in the lifetime of a frame. -/
theorem C48_bucket {c : Cfg} {m : Meas} {x : Msg} (h : (txFc c m).1 = some x) (t : Nat)
    (ht : t = if c.bucketTime = 0 then c.llcLifetime else c.bucketTime) (ht1 : t < 0xffff) :
    (c.bvcBucket = 0 → c.bvcLeak ≤ 819187 → 100 ≤ c.bvcLeak * t → x.bucket = min 6553500 (c.bvcLeak * t / 100)) ∧
    (c.msBucket = 0 → c.msLeak ≤ 819187 → 100 ≤ c.msLeak * t → x.msBucket = min 6553500 (c.msLeak * t / 100)) := by
  have key : ∀ l f, l ≤ 819187 → 100 ≤ l * t → bucketSize c l f = min 6553500 (l * t / 100) := by
    intro l f hl h100
    have h0 : t ≠ 0 := by intro e; rw [e, Nat.mul_zero] at h100; omega
    have h1 : l ≠ 0 := by intro e; rw [e, Nat.zero_mul] at h100; omega
    have h2 : l * t ≤ 819187 * 65535 := Nat.mul_le_mul hl (by omega)
    have h3 : u32 (l * t / 100) = l * t / 100 := Nat.mod_eq_of_lt (by omega)
    unfold bucketSize
    simp only [← ht]
    have c3 : ¬ l * t / 100 = 0 := by omega
    have c4 : ¬ t = 0xffff := by omega
    simp only [h0, h1, c3, c4, h3, if_false, if_true, ne_eq, not_false_eq_true, and_self, false_and]
    split <;> omega
  obtain ⟨l, k1, -, h1, h2, -, -, -⟩ := txFc_some h
  refine ⟨fun e a b => ?_, fun e a b => ?_⟩
  · have h0 : c.bvcLeak ≠ 0 := by intro e; rw [e, Nat.zero_mul] at b; omega
    rw [h1, if_pos e, k1 h0, if_neg h0, key _ _ a b]
  · have h0 : c.msLeak ≠ 0 := by intro e; rw [e, Nat.zero_mul] at b; omega
    rw [h2, if_pos e, if_neg h0, key _ _ a b]

example : ((txFc { numPdch := 4, bucketTime := 250, bvcLeak := 4000, msLeak := 1000 } {}).1.map fun x => (x.bucket, x.msBucket)) = some (10000, 2500) := by decide

/-! ## Average delay -/

theorem delayed_sum (m : Meas) (d : Nat) (h : m.delayNsec < 1000000000) :
    (delayed m d).delaySec * 1000000000 + (delayed m d).delayNsec = m.delaySec * 1000000000 + m.delayNsec + d ∧
    (delayed m d).delayNsec < 1000000000 := by
  unfold delayed
  dsimp only
  split <;> omega

/-- Measurements agree with the delays since the last message. -/
def Agree (m : Meas) (l : List Nat) : Prop :=
  m.delaySec * 1000000000 + m.delayNsec = l.sum ∧ m.delayNsec < 1000000000 ∧ m.delayCount = l.length % 2 ^ 32

theorem txFc_delay (c : Cfg) (m : Meas) : Agree (txFc c m).2 [] ∨ (txFc c m).1 = none ∧ ∀ l, Agree m l → Agree (txFc c m).2 l := by
  unfold txFc
  dsimp only
  have hm : ∀ l, Agree m l → Agree (measured m c.numPdch).2 l := by
    intro l h
    unfold measured
    split
    · exact h
    · split
      · exact h
      · exact h
  split
  · rename_i e
    right
    refine ⟨rfl, ?_⟩
    dsimp only
    by_cases hb : c.bvcLeak = 0
    · simp only [if_pos hb]; exact hm
    · simp only [if_neg hb]; exact fun _ h => h
  · left
    unfold avgDelay Agree
    refine ⟨?_, ?_, ?_⟩
    · show 0 * 1000000000 + 0 = _; rfl
    · show 0 < 1000000000; decide
    · show 0 = 0 % 2 ^ 32; decide

/-- A history without overflow in the estimate: every `tx` sends a message. -/
def Sends (c : Cfg) : Meas → List Ev → Bool
  | _, [] => true
  | m, e :: es => (e != .tx || (txFc c m).1.isSome) && Sends c (ev c m e) es

theorem sends_tail {c : Cfg} {m : Meas} {e : Ev} {es : List Ev} (h : Sends c m (e :: es) = true) : Sends c (ev c m e) es = true := by
  unfold Sends at h
  exact (Bool.and_eq_true_iff.1 h).2

theorem agree_ev {c : Cfg} {m : Meas} {e : Ev} {l : List Nat} (h : Agree m l) (hs : e = .tx → (txFc c m).1 ≠ none) :
    Agree (ev c m e) (delays [e] l) := by
  cases e with
  | sent => exact h
  | received b f => exact h
  | delayed d =>
    obtain ⟨h1, h2, h3⟩ := h
    obtain ⟨a, b⟩ := delayed_sum m d h2
    unfold ev delays delays
    refine ⟨?_, b, ?_⟩
    · rw [a, h1, List.sum_append, List.sum_singleton]
    · have : (delayed m d).delayCount = (m.delayCount + 1) % 2 ^ 32 := by unfold delayed u32; rfl
      rw [this, h3, List.length_append, List.length_singleton]
      exact Nat.mod_add_mod _ _ _
  | tx =>
    rcases txFc_delay c m with h | ⟨h, -⟩
    · exact h
    · exact absurd h (hs rfl)

theorem delays_cons (e : Ev) (es : List Ev) (l : List Nat) : delays (e :: es) l = delays es (delays [e] l) := by
  cases e <;> rfl

theorem agree_run (c : Cfg) (es : List Ev) : ∀ (m : Meas) (l : List Nat), Agree m l → Sends c m es →
    Agree (es.foldl (ev c) m) (delays es l) := by
  induction es with
  | nil => intro m l h _; exact h
  | cons e es ih =>
    intro m l h hs
    rw [List.foldl_cons, delays_cons]
    refine ih _ _ (agree_ev h ?_) (sends_tail hs)
    rintro rfl hn
    unfold Sends at hs
    rw [hn] at hs
    simp at hs

/-- **C48**, the announced delay is the average of the delays of the frames since the last message, but of their sum only
whole seconds count: it is less than the average by up to one second over the number of frames. -/
theorem C48_delay_partial {c : Cfg} {es : List Ev} {x : Msg} (hs : Sends c {} es)
    (hl : (delays es []).length < 2 ^ 32) (hd : (delays es []).sum < 2 ^ 32 * 1000000)
    (h : (txFc c (es.foldl (ev c) {})).1 = some x) :
    x.delay = (delays es []).sum / 1000000000 * 1000 / (delays es []).length := by
  obtain ⟨_, -, -, -, -, -, -, h5⟩ := txFc_some h
  obtain ⟨a1, a2, a3⟩ := agree_run c es {} [] ⟨rfl, by decide, rfl⟩ hs
  rw [h5]
  unfold avgDelay u32
  dsimp only
  generalize hm : es.foldl (ev c) {} = m at *
  generalize (delays es []).length = n at *
  generalize (delays es []).sum = s at *
  have e1 : m.delaySec = s / 1000000000 := by omega
  have e2 : m.delayNsec / 1000000000 = 0 := by omega
  rw [Nat.mod_eq_of_lt hl] at a3
  rw [e2, e1, a3, Nat.add_zero, Nat.mod_eq_of_lt (by omega)]
  by_cases hn : n > 0
  · rw [if_pos hn]
  · rw [if_neg hn]
    have : n = 0 := by omega
    rw [this, Nat.div_zero]

/-- **C48**, if the frames since the last message waited for less than a second in total, no delay is announced. -/
theorem C48_delay_lost {c : Cfg} {es : List Ev} {x : Msg} (hs : Sends c {} es) (hl : (delays es []).length < 2 ^ 32)
    (hd : (delays es []).sum < 1000000000) (h : (txFc c (es.foldl (ev c) {})).1 = some x) : x.delay = 0 := by
  rw [C48_delay_partial hs hl (by omega) h]
  have : (delays es []).sum / 1000000000 = 0 := by omega
  rw [this]; simp

/-- Two frames that waited for 400 ms each since the last message: 0 is announced. Frames of 1.5 s and 2.5 s: 2000 ms. -/
example : let c : Cfg := { numPdch := 4, csMask := 15 }
    Sends c {} [.delayed 3000000000, .sent, .tx, .delayed 400000000, .sent, .delayed 400000000] ∧
    (txFc c ([Ev.delayed 3000000000, .sent, .tx, .delayed 400000000, .sent, .delayed 400000000].foldl (ev c) {})).1 =
      some { bucket := 100000, leak := 10000, msBucket := 100000, msLeak := 10000, delay := 0 } ∧
    (txFc c ([Ev.delayed 1500000000, .delayed 2500000000].foldl (ev c) {})).1.map (·.delay) = some 2000 := by
  decide +kernel

example : CfgOk { numPdch := 4, csMask := 15 } := by constructor <;> decide

end Verif.Fc
