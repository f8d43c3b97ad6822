import Verif.Props.C48
/-!
# C52: the announced leak rate is not more than the channels can carry
-/

namespace Verif.Fc

/-- **C52**, the leak rate of the cell is not more than its channels can carry with the best scheme, if in the measured
time not more blocks were reported than sent, with not more data than the best scheme carries, and the numbers do not
overflow. Missing: other measurements, see below. -/
theorem C52_leak_partial {c : Cfg} {m : Meas} (hc : CfgOk c) (h0 : c.bvcLeak = 0) (h1 : m.framesRecv ≤ m.framesSent)
    (h2 : m.bytesRecv ≤ m.framesRecv * octets (maxScheme c)) (h3 : m.bytesRecv * 1000 * c.numPdch < 2 ^ 32)
    (h4 : m.framesRecv * 1000 < 2 ^ 32) :
    ∃ x, (txFc c m).1 = some x ∧ x.leak ≤ capacity (maxScheme c) c.numPdch := by
  have hp := hc.pdch
  obtain ⟨v1, v2⟩ := maxScheme_valid hc
  have hmax : capacity (maxScheme c) c.numPdch ≤ 473600 := by
    unfold capacity
    have : 50 * octets (maxScheme c) * c.numPdch ≤ 50 * 148 * 64 := Nat.mul_le_mul (Nat.mul_le_mul (Nat.le_refl _) v2) hp
    omega
  have est : ∃ l, estimate (maxLeak (maxScheme c) c.numPdch) (measured m c.numPdch).1 = some l ∧ l ≤ capacity (maxScheme c) c.numPdch := by
    rw [maxLeak_eq hp]
    unfold measured
    split
    · exact ⟨0, rfl, Nat.zero_le _⟩
    · rename_i hs
      split
      · exact ⟨0, rfl, Nat.zero_le _⟩
      · rename_i hf
        dsimp only
        have e1 : u32 (m.bytesRecv * 1000 * c.numPdch) = m.bytesRecv * 1000 * c.numPdch := Nat.mod_eq_of_lt h3
        have e2 : u32 (20 * m.framesRecv) = 20 * m.framesRecv := Nat.mod_eq_of_lt (by omega)
        have e3 : u32 (m.framesRecv * 1000) = m.framesRecv * 1000 := Nat.mod_eq_of_lt h4
        rw [e1, e2, e3]
        have hr : m.bytesRecv * 1000 * c.numPdch / (20 * m.framesRecv) ≤ capacity (maxScheme c) c.numPdch := by
          apply Nat.div_le_of_le_mul
          unfold capacity
          have : m.bytesRecv * (1000 * c.numPdch) ≤ m.framesRecv * octets (maxScheme c) * (1000 * c.numPdch) := Nat.mul_le_mul_right _ h2
          calc m.bytesRecv * 1000 * c.numPdch = m.bytesRecv * (1000 * c.numPdch) := Nat.mul_assoc _ _ _
            _ ≤ m.framesRecv * octets (maxScheme c) * (1000 * c.numPdch) := this
            _ = 20 * m.framesRecv * (50 * octets (maxScheme c) * c.numPdch) := by
              generalize octets (maxScheme c) = o
              simp only [Nat.mul_comm, Nat.mul_left_comm, Nat.mul_assoc]
        have hu : m.framesRecv * 1000 / m.framesSent ≤ 1000 := by
          apply Nat.div_le_of_le_mul
          exact Nat.mul_le_mul_right _ h1
        generalize m.bytesRecv * 1000 * c.numPdch / (20 * m.framesRecv) = r at *
        generalize m.framesRecv * 1000 / m.framesSent = u at *
        generalize capacity (maxScheme c) c.numPdch = k at *
        have t1 : toInt r = r := by unfold toInt; rw [if_pos (by omega)]
        have t2 : toInt u = u := by unfold toInt; rw [if_pos (by omega)]
        rw [t1, t2]
        unfold estimate
        dsimp only
        have hru : r * u ≤ k * 1000 := Nat.mul_le_mul hr hu
        by_cases hz : (r : Int) ≤ 0
        · rw [if_pos hz]; exact ⟨0, rfl, Nat.zero_le _⟩
        · rw [if_neg hz, if_neg (by
            have : ((r : Int) * u) = ((r * u : Nat) : Int) := by rw [Int.natCast_mul]
            rw [this]; omega)]
          refine ⟨_, rfl, ?_⟩
          have hsum : r * u + k * (1000 - u) ≤ k * 1000 := by
            have a : r * u ≤ k * u := Nat.mul_le_mul_right _ hr
            have b : k * u + k * (1000 - u) = k * 1000 := by rw [← Nat.mul_add]; congr 1; omega
            omega
          have e : ((r : Int) * u + k * (1000 - u)) = ((r * u + k * (1000 - u) : Nat) : Int) := by
            rw [Int.natCast_add, Int.natCast_mul, Int.natCast_mul, Int.ofNat_sub hu]; rfl
          rw [e]
          generalize r * u + k * (1000 - u) = s at *
          omega
  obtain ⟨l, hl, hle⟩ := est
  have hx : ∃ x, (txFc c m).1 = some x := by
    unfold txFc
    dsimp only
    simp only [if_pos h0, hl]
    exact ⟨_, rfl⟩
  obtain ⟨x, hx⟩ := hx
  refine ⟨x, hx, ?_⟩
  obtain ⟨l', -, k2, -, -, k3, -, -⟩ := txFc_some hx
  have := k2 h0
  rw [hl] at this
  cases this
  rw [k3, maxLeak_eq hp]
  split <;> omega

/-- **C52**, the default leak rate of a mobile is never more than four channels carry. -/
theorem C52_ms_leak {c : Cfg} {m : Meas} {x : Msg} (h : (txFc c m).1 = some x) (h0 : c.msLeak = 0) (hc : CfgOk c) :
    x.msLeak ≤ capacity (maxScheme c) (min c.numPdch 4) := by
  obtain ⟨l, -, -, -, -, -, h4, -⟩ := txFc_some h
  have hp := hc.pdch
  rw [h4, if_pos h0, maxLeak_eq (by split <;> omega)]
  refine Nat.le_trans (Nat.min_le_left _ _) ?_
  unfold capacity
  refine Nat.mul_le_mul_left _ ?_
  split <;> omega

/-- Four channels with up to CS-4, of which 40 of 100 blocks were used for 1600 octets. -/
example : (txFc { numPdch := 4, csMask := 15 } { framesSent := 100, framesRecv := 40, bytesRecv := 1600 }).1.map (·.leak) = some 9200 ∧
    capacity .cs4 4 = 10000 := by decide +kernel

/-- **C52**, with MCS-7 and better two reports come for each block that is sent: one lost block in a hundred is enough
to announce the largest leak rate, more than a hundred times of what the channel carries. -/
theorem C52_two_per_block : let c : Cfg := { numPdch := 1, mcsMask := 0x1ff }
    let m := (List.replicate 50 Ev.sent ++ [Ev.received (49 * 148 + 74) 100]).foldl (ev c) {}
    capacity (maxScheme c) c.numPdch = 7400 ∧ (txFc c m).1.map (·.leak) = some 819187 := by decide +kernel

/-- **C52**, the same happens with one report per block if the reports come later than the blocks: 60 blocks of CS-1
are sent and one of them reported, then 50 more are reported while 10 are sent. -/
theorem C52_late_reports : let c : Cfg := { numPdch := 1, csMask := 0xf }
    let m := (List.replicate 60 Ev.sent ++ [Ev.received 20 1, Ev.tx] ++ List.replicate 10 Ev.sent ++ [Ev.received 1000 50]).foldl (ev c) {}
    capacity (maxScheme c) c.numPdch = 2500 ∧ (txFc c m).1.map (·.leak) = some 819187 := by decide +kernel

/-- **C52**, with eight channels and the longest interval of ten seconds the measured rate overflows: 4000 blocks of
MCS-9 with all data received are measured as 2756 octets per second instead of 29600. -/
theorem C52_overflow : let c : Cfg := { numPdch := 8, mcsMask := 0x1ff }
    let m : Meas := { framesSent := 8 * 50 * 10, framesRecv := 2 * (8 * 50 * 10), bytesRecv := 148 * (8 * 50 * 10) }
    m.bytesRecv = 10 * capacity (maxScheme c) c.numPdch ∧ m.bytesRecv * 1000 * c.numPdch / (20 * m.framesRecv) = 29600 ∧
    (measured m c.numPdch).1 = some (2756, 2000) := by decide +kernel

end Verif.Fc
