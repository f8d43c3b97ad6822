import Verif.Spec.Analyse
/-!
# C53: the error rate of a report is that of the reported blocks
-/

namespace Verif.Analyse

open Verif.RlcDl

variable {κ : Type} [DecidableEq κ]

/-- Counters of a list of blocks. -/
def counters (w : Win) (s : Sent κ) (l : List (Nat × Bool)) : Acc :=
  { lost := lostNow s l, received := newNow w s l, bytes := newOctets w s l,
    packets := (l.filter fun x => x.2 && w.st x.1 ≠ .acked).length,
    lostPackets := (l.filter fun x => !x.2 && w.st x.1 ≠ .nacked).length }

def Acc.add (a b : Acc) : Acc := ⟨a.lost + b.lost, a.received + b.received, a.bytes + b.bytes, a.packets + b.packets, a.lostPackets + b.lostPackets⟩

theorem counters_snoc (w : Win) (s : Sent κ) (l : List (Nat × Bool)) (x : Nat × Bool) :
    counters w s (l ++ [x]) = (counters w s l).add (one w s x.2 x.1 {}) := by
  obtain ⟨n, r⟩ := x
  unfold counters Acc.add one lostNow newNow newOctets
  by_cases hc : s.cs (n % ring) = s.cur <;> by_cases ha : w.st n = .acked <;> by_cases hn : w.st n = .nacked <;> cases r <;>
    simp [hc, ha, hn]

theorem one_acc (w : Win) (s : Sent κ) (r : Bool) (n : Nat) (a : Acc) : one w s r n a = (one w s r n {}).add a := by
  unfold one Acc.add
  by_cases hc : s.cs (n % ring) = s.cur <;> by_cases ha : w.st n = .acked <;> by_cases hn : w.st n = .nacked <;> cases r <;>
    simp [hc, ha, hn, Nat.add_comm]

theorem Acc.add_assoc (a b c : Acc) : (a.add b).add c = a.add (b.add c) := by
  unfold Acc.add; simp [Nat.add_assoc]

theorem Acc.add_comm (a b : Acc) : a.add b = b.add a := by
  unfold Acc.add; simp [Nat.add_comm]

theorem Acc.add_zero (a : Acc) : a.add {} = a := rfl

theorem reported_snoc (sns first : Nat) (l : List Bool) (b : Bool) :
    reported sns first (l ++ [b]) = reported sns first l ++ [((first + l.length) % sns, b)] := by
  unfold reported
  rw [List.length_append, List.length_singleton, List.range_succ, List.map_append]
  congr 1
  · apply List.map_congr_left
    intro i hi
    have := List.mem_range.1 hi
    simp [List.getElem?_append_left this]
  · simp

theorem loop_eq (w : Win) (s : Sent κ) {first q : Nat} (hq : q % w.sns = first % w.sns) : ∀ (k : Nat) (l : List Bool) (a : Acc) (m : Nat),
    l.length = k → (∀ i < l.length, (first + i) % w.sns ≠ (w.va + w.sns - 1) % w.sns) → (m + 1 = q + l.length ∨ l = []) →
    loop w s l.reverse m a = (counters w s (reported w.sns first l)).add a := by
  intro k
  induction k with
  | zero =>
    intro l a m hk _ _
    rw [List.length_eq_zero_iff.1 hk]
    show a = _
    unfold Acc.add counters lostNow newNow newOctets reported
    simp
  | succ k ih =>
    intro l a m hk hne hm
    obtain ⟨l, b, rfl⟩ : ∃ l' b, l = l' ++ [b] := by
      rcases List.eq_nil_or_concat l with h | ⟨l', b, h⟩
      · rw [h] at hk; cases hk
      · exact ⟨l', b, by rw [h, List.concat_eq_append]⟩
    replace hm := hm.resolve_right (by simp)
    rw [List.length_append, List.length_singleton] at hk hm hne
    rw [List.reverse_append, List.reverse_singleton, List.singleton_append]
    unfold loop
    dsimp only
    have hmod : w.modSns m = (first + l.length) % w.sns := by
      unfold Win.modSns
      rw [show m = q + l.length by omega, Nat.add_mod, hq, ← Nat.add_mod]
    have hva : w.modSns (w.va + w.sns - 1) = (w.va + w.sns - 1) % w.sns := rfl
    rw [hmod, hva, if_neg (hne l.length (by omega)), reported_snoc, counters_snoc, one_acc,
      ih l _ (m - 1) (by omega) (fun i hi => hne i (by omega)), Acc.add_assoc]
    by_cases hl : l = []
    · exact .inr hl
    · have : l.length ≠ 0 := fun h => hl (List.length_eq_zero_iff.1 h)
      left; omega

theorem packets_eq (w : Win) (l : List (Nat × Bool)) :
    (l.filter fun x => x.2 && w.st x.1 ≠ .acked).length + (l.filter fun x => !x.2 && w.st x.1 ≠ .nacked).length = newReports w l := by
  unfold newReports
  induction l with
  | nil => rfl
  | cons x l ih =>
    obtain ⟨n, r⟩ := x
    by_cases ha : w.st n = .acked <;> by_cases hn : w.st n = .nacked <;> cases r <;> simp_all <;> omega

/-- The analysis, if the number behind the last reported block fits into an octet. -/
theorem analyse_eq {w : Win} {s : Sent κ} {rbb : List Bool} {first : Nat} (hs : 0 < w.sns) (hva : w.va < w.sns)
    (hd : w.distance < w.sns) (hw : InWindow w first (rbb.take w.distance).length) (h8 : (first + (rbb.take w.distance).length) % w.sns < 256) :
    (analyse w s rbb first).1 = counters w s (reported w.sns first (rbb.take w.distance)) := by
  unfold analyse
  dsimp only
  generalize hl : rbb.take w.distance = l at *
  have hlen : l.length ≤ w.distance := by rw [← hl]; exact List.length_take_le _ _
  have e : w.modSns (first + l.length) % 256 = (first + l.length) % w.sns := Nat.mod_eq_of_lt h8
  rw [e]
  by_cases hz : l = []
  · subst hz; rfl
  have hpos : l.length ≠ 0 := fun h => hz (List.length_eq_zero_iff.1 h)
  have hne : ∀ i < l.length, (first + i) % w.sns ≠ (w.va + w.sns - 1) % w.sns := by
    intro i hi heq
    unfold InWindow at hw
    have hb : (first + w.sns - w.va) % w.sns + i < w.distance := by omega
    have h1 : ((first + w.sns - w.va) % w.sns + i) % w.sns = (first + i + w.sns - w.va) % w.sns := by
      rw [Nat.mod_add_mod]
      congr 1; omega
    have h2 : (first + i + w.sns - w.va) % w.sns = w.sns - 1 := by
      have e1 : (first + i + (w.sns - w.va)) % w.sns = ((w.va + w.sns - 1) + (w.sns - w.va)) % w.sns := by
        rw [Nat.add_mod, heq, ← Nat.add_mod]
      rw [show first + i + w.sns - w.va = first + i + (w.sns - w.va) by omega, e1,
        show w.va + w.sns - 1 + (w.sns - w.va) = w.sns - 1 + w.sns by omega, Nat.add_mod_right, Nat.mod_eq_of_lt (by omega)]
    rw [Nat.mod_eq_of_lt (by omega)] at h1
    omega
  have hq : ((first + l.length) % w.sns + w.sns - l.length) % w.sns = first % w.sns := by
    have e1 : (first + l.length) % w.sns + w.sns - l.length = (first + l.length) % w.sns + (w.sns - l.length) := by omega
    rw [e1, Nat.mod_add_mod, show first + l.length + (w.sns - l.length) = first + w.sns by omega, Nat.add_mod_right]
  rw [loop_eq w s hq l.length l {} _ rfl hne (.inl (by omega)), Acc.add_zero]

/-- **C53**, the error rate is the percentage of lost blocks among the reported blocks that were sent with the current
scheme and whose report is new, and the octets and blocks counted for the leak rate are those of the new reports; if the
number behind the last reported block is below 256. This is always so for GPRS. Missing: EGPRS beyond, see below. -/
theorem C53_error_rate_partial {w : Win} {s : Sent κ} {rbb : List Bool} {first : Nat} (hva : w.va < w.sns)
    (hw : InWindow w first (rbb.take w.distance).length) (h8 : (first + (rbb.take w.distance).length) % w.sns < 256) :
    let l := reported w.sns first (rbb.take w.distance)
    (analyse w s rbb first).2 = errorRate w s l ∧ (analyse w s rbb first).1.bytes = newOctets w s l ∧
    (analyse w s rbb first).1.packets + (analyse w s rbb first).1.lostPackets = newReports w l := by
  have hs : 0 < w.sns := by omega
  have hd : w.distance < w.sns := Nat.mod_lt _ hs
  have h := analyse_eq (s := s) hs hva hd hw h8
  refine ⟨?_, ?_, ?_⟩
  · have e : (analyse w s rbb first).2 = if (analyse w s rbb first).1.lost + (analyse w s rbb first).1.received ≤ 1 then none
        else some ((analyse w s rbb first).1.lost * 100 / ((analyse w s rbb first).1.lost + (analyse w s rbb first).1.received)) := rfl
    rw [e, h]
    unfold errorRate counters
    dsimp only
    generalize lostNow s _ = a
    generalize newNow w s _ = b
    by_cases hab : a + b ≤ 1
    · rw [if_pos hab, if_pos (by omega)]
    · rw [if_neg hab, if_neg (by omega), Nat.mul_comm]
  · rw [h]; rfl
  · rw [h]; exact packets_eq w _

/-- **C53** for GPRS: sequence numbers below 128. -/
theorem C53_gprs {w : Win} {s : Sent κ} {rbb : List Bool} {first : Nat} (hsn : w.sns = 128) (hva : w.va < w.sns)
    (hw : InWindow w first (rbb.take w.distance).length) :
    (analyse w s rbb first).2 = errorRate w s (reported w.sns first (rbb.take w.distance)) :=
  (C53_error_rate_partial hva hw (Nat.lt_of_lt_of_le (Nat.mod_lt _ (by omega)) (by omega))).1

/-- GPRS across the wrap of the sequence numbers: blocks 120 to 3 are out, 124 to 1 reported, 2 of 6 lost; block 125 was
sent with another scheme. -/
example : let w : Win := { sns := 128, ws := 64, vs := 4, va := 120, vb := fun i => if i ≥ 120 ∨ i < 4 then .unacked else .invalid }
    let s : Sent Nat := { cs := fun i => if i = 125 then 1 else 2, len := fun _ => 30, cur := 2 }
    InWindow w 124 6 ∧ analyse w s [true, true, false, true, false, true] 124 = ({ lost := 2, received := 3, bytes := 120, packets := 4, lostPackets := 2 }, some 40) ∧
    errorRate w s (reported 128 124 [true, true, false, true, false, true]) = some 40 := by
  unfold InWindow
  decide

/-- A window of EGPRS: blocks 300 to 319 are out. -/
def win₁ : Win := { sns := 2048, ws := 192, vs := 320, va := 300, vb := fun i => if 300 ≤ i ∧ i < 320 then .unacked else .invalid }

/-- They were sent with MCS-1 (scheme 1), earlier blocks with MCS-9. -/
def sent₁ : Sent Nat := { cs := fun i => if 300 ≤ i ∧ i < 320 then 1 else 9, len := fun _ => 22, cur := 1 }

/-- **C53** is false for EGPRS: all 20 blocks are reported as lost, no error rate is found, since the schemes of the blocks 44
to 63 are looked at; the other way round, blocks that were not sent with the current scheme are judged. -/
theorem C53_egprs_wrong : InWindow win₁ 300 20 ∧ errorRate win₁ sent₁ (reported 2048 300 (List.replicate 20 false)) = some 100 ∧
    (analyse win₁ sent₁ (List.replicate 20 false) 300).2 = none ∧
    errorRate win₁ { sent₁ with cur := 9 } (reported 2048 300 (List.replicate 20 false)) = none ∧
    (analyse win₁ { sent₁ with cur := 9 } (List.replicate 20 false) 300).2 = some 100 := by
  unfold InWindow
  decide +kernel

end Verif.Analyse
