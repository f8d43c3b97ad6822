import Verif.Props.C05
/-!
C06: EGPRS Ack/Nack decoding.

The full property (every verdict applied is the one the message carries) is *false*:
without "beginning of window" the bitmap is applied to the wrong blocks
(`C06_not_bow_misplaced`), and an SSN behind the window acknowledges everything
(`C06_stale_ssn_acks_all`). It is proved for messages with "beginning of window" whose SSN
belongs to the window (`C06_egprs_exact_partial`).
-/
namespace Verif.AckNack
open Verif.RlcDl
open Verif.Crbb

/-- The compressed bitmap of `d`, if any, stands for `crbb`. -/
def crbbMeans (d : EgprsDesc) (crbb : List Bool) : Prop :=
  match d.crbb with
  | none => crbb = []
  | some (c, code) => Means c code crbb

theorem decodeEgprs_bits {ws} {s : Sys} (hi : Inv 2048 s.win s.oldest s.created (· ∈ s.acked))
    (hws : s.win.ws = ws) (hws2 : ws ≤ 1024)
    (d : EgprsDesc) (hf : d.final = false) (hbow : d.bow = true)
    (m : Nat) (hm1 : s.oldest < m) (hm2 : m ≤ s.created + 1) (hssn : d.ssn = m % 2048)
    (crbb : List Bool) (hcr : crbbMeans d crbb)
    (hcap : d.crbb ≠ none → m - s.oldest + crbb.length ≤ 1024) :
    ∃ extra, (decodeEgprs d s.win { bits := [], cap := 1024 }).bits =
      (List.replicate (m - 1 - s.oldest) true ++ extra).take 1024 ∧
      extra = if hasBitmap d then false :: (crbb ++ d.urbb.reverse) else [] := by
  have hb := hi.bound
  rw [hws] at hb
  have hnum : s.win.modSns (d.ssn + 2 * s.win.sns - 1 - s.win.va) = m - 1 - s.oldest := by
    unfold Win.modSns; rw [hi.hsns, hi.ha, hssn]; omega
  have hp1 := push_bits (List.replicate (m - 1 - s.oldest) true) { bits := [], cap := 1024 } (by simp)
  simp only [List.nil_append] at hp1
  have hl1 : m - 1 - s.oldest ≤ 1024 := by omega
  rw [List.take_of_length_le (by simpa using hl1)] at hp1
  refine ⟨_, ?_, rfl⟩
  unfold decodeEgprs
  rw [hf, hbow]
  simp only [Bool.false_eq_true, if_false, if_true, hnum]
  generalize hv1 : push { bits := [], cap := 1024 } (List.replicate (m - 1 - s.oldest) true) = v1 at hp1
  obtain ⟨hv1b, hv1c⟩ := hp1
  have hp2 := push_bits [false] v1 (by rw [hv1b, hv1c]; simpa using hl1)
  have hp2l := push_len (v := v1) (by rw [hv1b, hv1c]; simpa using hl1) [false]
  rw [hv1b, hv1c] at hp2
  generalize hv2 : push v1 [false] = v2 at hp2 hp2l
  obtain ⟨hv2b, hv2c⟩ := hp2
  unfold crbbMeans at hcr
  cases hc : d.crbb with
  | none =>
    rw [hc] at hcr
    simp only at hcr
    subst hcr
    have hhb : hasBitmap d = !decide (d.urbb.length = 0) := by
      unfold hasBitmap; rw [hc]; cases d.urbb <;> simp
    simp only [Nat.add_zero, List.nil_append, if_true]
    by_cases h0 : d.urbb.length = 0
    · rw [if_pos h0, hhb, if_neg (by simp [h0]), List.append_nil, hv1b, List.take_of_length_le (by simpa using hl1)]
    · rw [if_neg h0, hhb, if_pos (by simp [h0])]
      rw [(push_bits _ _ hp2l).1, hv2b, hv2c]
      rw [show (List.replicate (m - 1 - s.oldest) true ++ false :: d.urbb.reverse) =
        (List.replicate (m - 1 - s.oldest) true ++ [false]) ++ d.urbb.reverse by simp]
      rw [List.take_append (l₁ := List.take 1024 _), List.take_append (i := 1024) (l₂ := d.urbb.reverse)]
      rw [List.take_take, Nat.min_self]
      congr 2
      rw [List.length_take]
      simp only [List.length_append, List.length_replicate, List.length_singleton]
      omega
  | some p =>
    obtain ⟨c, code⟩ := p
    rw [hc] at hcr
    have hme : Means c code crbb := hcr
    have hcap := hcap (by rw [hc]; simp)
    have hv2b : v2.bits = List.replicate (m - 1 - s.oldest) true ++ [false] := by
      rw [hv2b, List.take_of_length_le]
      simp only [List.length_append, List.length_replicate, List.length_singleton]; omega
    have hcode : code.length = 0 → crbb = [] := by
      intro h0
      cases hme with
      | nil => rfl
      | term _ i _ _ hx _ =>
        have := search_pos (search_word c i (by omega))
        rw [List.length_append] at h0; omega
      | makeUp _ k _ _ h1 h2 _ =>
        have := search_pos (search_word c (63 + k) (by omega))
        rw [List.length_append] at h0; omega
    have hhb : hasBitmap d = !decide (d.urbb.length + code.length = 0) := by
      unfold hasBitmap; rw [hc]; cases d.urbb <;> cases code <;> simp
    have hdec := hme.decodes code.length v2 (Nat.le_refl _) (by
      rw [hv2b, hv2c]; simp only [List.length_append, List.length_replicate, List.length_singleton]; omega)
    have hlen : (v2.bits ++ crbb).length ≤ 1024 := by
      rw [hv2b]; simp only [List.length_append, List.length_replicate, List.length_singleton]; omega
    have h3 : (if code.length > 0 then decompress c code v2 else (v2, true)) =
        ({ v2 with bits := v2.bits ++ crbb }, true) := by
      by_cases h0 : code.length = 0
      · rw [if_neg (by omega), hcode h0, List.append_nil]
      · rw [if_pos (by omega)]; exact hdec
    simp only [h3, if_true]
    rw [hhb]
    by_cases h0 : d.urbb.length + code.length = 0
    · rw [if_pos h0, if_neg (by simp [h0]), List.append_nil, hv1b, List.take_of_length_le (by simpa using hl1)]
    · rw [if_neg h0, if_pos (by simp only [h0]; rfl)]
      rw [(push_bits _ { v2 with bits := v2.bits ++ crbb } (by rw [hv2c]; exact hlen)).1]
      simp only [hv2c, hv2b]
      simp

/-- Messages with "beginning of window" whose V(Q) = SSN-1 is one of the outstanding blocks
(or the next new one): every outstanding block gets exactly the verdict the message
carries for it, and keeps its state if the message is silent about it. Missing from the
full property: messages without "beginning of window" and stale SSNs, see the two
negations below. The last hypothesis excludes compressed bitmaps longer than any window. -/
theorem C06_egprs_exact_partial (ws : Nat) (hc : LegalCfg 2048 ws) (s : Sys) (h : Reach 2048 ws s)
    (d : EgprsDesc) (hf : d.final = false) (hbow : d.bow = true)
    (m : Nat) (hm1 : s.oldest < m) (hm2 : m ≤ s.created + 1) (hssn : d.ssn = m % 2048)
    (crbb : List Bool) (hcr : crbbMeans d crbb)
    (hcap : d.crbb ≠ none → m - s.oldest + crbb.length ≤ 1024)
    (n : Nat) (h1 : s.oldest ≤ n) (h2 : n < s.created) :
    (egprsSays d m crbb n = some true → ackedIn (rcvEgprs d s.win) s.created n) ∧
    (egprsSays d m crbb n = some false → ¬ ackedIn (rcvEgprs d s.win) s.created n ∧
      (rcvEgprs d s.win).st (n % 2048) = .nacked) ∧
    (egprsSays d m crbb n = none →
      (ackedIn (rcvEgprs d s.win) s.created n ↔ ackedIn s.win s.created n)) := by
  have hi := reach_inv hc h
  have hws : s.win.ws ≤ 1024 := by
    rcases hi.cfg with ⟨x, _⟩ | ⟨_, _, x⟩
    · cases x
    · exact x
  have hb := hi.bound
  obtain ⟨extra, he, hex⟩ := decodeEgprs_bits hi rfl hws d hf hbow m hm1 hm2 hssn crbb hcr hcap
  have hr : rcvEgprs d s.win = s.win.ackNack s.win.va
      ((List.replicate (m - 1 - s.oldest) true ++ extra).take 1024) := by
    unfold rcvEgprs; simp only [hf, Bool.false_eq_true, if_false, he]
  rw [hr]
  have hget : ((List.replicate (m - 1 - s.oldest) true ++ extra).take 1024)[n - s.oldest]? =
      egprsSays d m crbb n := by
    rw [List.getElem?_take_of_lt (by omega)]
    unfold egprsSays
    by_cases c1 : n + 1 < m
    · rw [if_pos c1, hbow, if_pos rfl, List.getElem?_append_left (by simp; omega)]
      rw [List.getElem?_replicate, if_pos (by omega)]
    · rw [if_neg c1, List.getElem?_append_right (by simp; omega), List.length_replicate, hex]
      by_cases c2 : n + 1 = m
      · rw [if_pos c2, show n - s.oldest - (m - 1 - s.oldest) = 0 by omega]
        cases hasBitmap d <;> rfl
      · rw [if_neg c2, show n - s.oldest - (m - 1 - s.oldest) = (n - m) + 1 by omega]
        cases hhb : hasBitmap d with
        | true => simp
        | false =>
          have hu : d.urbb = [] := by
            unfold hasBitmap at hhb; cases hh : d.urbb with
            | nil => rfl
            | cons x xs => rw [hh] at hhb; simp at hhb
          have hcb : crbb = [] := by
            unfold hasBitmap at hhb
            unfold crbbMeans at hcr
            cases hh : d.crbb with
            | none => rw [hh] at hcr; exact hcr
            | some p =>
              obtain ⟨c, code⟩ := p
              rw [hh] at hhb hcr
              have hcode : code = [] := by
                cases code with
                | nil => rfl
                | cons x xs => simp at hhb
              have hcr : Means c code crbb := hcr
              rw [hcode] at hcr
              generalize hz : ([] : List Bool) = z at hcr
              cases hcr with
              | nil => rfl
              | term _ i _ _ hx _ =>
                have := search_pos (search_word c i (by omega))
                have h0 := congrArg List.length hz
                rw [List.length_append, List.length_nil] at h0; omega
              | makeUp _ k _ _ x1 x2 _ =>
                have := search_pos (search_word c (63 + k) (by omega))
                have h0 := congrArg List.length hz
                rw [List.length_append, List.length_nil] at h0; omega
          rw [hu, hcb]; simp
  have := rcv_bits hi ((List.replicate (m - 1 - s.oldest) true ++ extra).take 1024) n h1 h2
  rw [hget] at this
  exact this

/-- Any final ack acknowledges exactly the outstanding blocks. -/
theorem C06_egprs_final (ws : Nat) (hc : LegalCfg 2048 ws) (s : Sys) (h : Reach 2048 ws s)
    (d : EgprsDesc) (hf : d.final = true) :
    (decodeEgprs d s.win { bits := [], cap := 1024 }).bits = List.replicate (s.created - s.oldest) true := by
  have hi := reach_inv hc h
  have hb := hi.bound
  have hws : s.win.ws ≤ 1024 := by
    rcases hi.cfg with ⟨x, _⟩ | ⟨_, _, x⟩
    · cases x
    · exact x
  unfold decodeEgprs
  rw [if_pos hf]
  exact finalAck_bits hi 1024 (by omega)

/-- However the message looks, blocks outside of the outstanding range are not touched:
the window only shrinks from its start, and only over blocks treated as acknowledged. -/
theorem C06_window_respected (ws : Nat) (hc : LegalCfg 2048 ws) (s : Sys) (h : Reach 2048 ws s)
    (d : EgprsDesc) (hf : d.final = false) :
    (rcvEgprs d s.win).vs = s.win.vs ∧ (rcvEgprs d s.win).distance ≤ s.win.distance := by
  have hi := reach_inv hc h
  unfold rcvEgprs
  rw [hf]
  simp only [Bool.false_eq_true, if_false]
  obtain ⟨a', a1, a2, a3, a4, _⟩ := hi.ackNack (decodeEgprs d s.win { bits := [], cap := 1024 }).bits
  exact ⟨by rw [a4.hs, hi.hs], by rw [a4.distance, hi.distance]; omega⟩

/-- Counterexample to the full property: five blocks outstanding, the mobile reports, without
"beginning of window", that block 4 arrived and block 3 did not. The message is silent
about block 1, yet block 1 is taken as acknowledged (and block 4 is not). -/
theorem C06_not_bow_misplaced :
    ∃ (s : Sys) (d : EgprsDesc), Reach 2048 64 s ∧ s.oldest = 0 ∧ s.created = 5 ∧ s.acked = [] ∧
      d.final = false ∧ d.ssn = 4 ∧ d.crbb = none ∧
      egprsSays d 4 [] 1 = none ∧ egprsSays d 4 [] 4 = some true ∧
      ¬ ackedIn s.win s.created 1 ∧
      ackedIn (rcvEgprs d s.win) s.created 1 ∧ ¬ ackedIn (rcvEgprs d s.win) s.created 4 := by
  have hc : LegalCfg 2048 64 := Or.inr ⟨rfl, by omega, by omega⟩
  obtain ⟨s, h1, h2, h3, h4, h5, h6⟩ := reach_fill 2048 64 hc 5 (by omega)
  have hi := reach_inv hc h1
  let d : EgprsDesc := { final := false, bow := false, ssn := 4, crbb := none, urbb := [true] }
  have hr : rcvEgprs d s.win = s.win.ackNack s.win.va [false, true] := rfl
  have b1 := rcv_bits hi [false, true] 1 (by omega) (by omega)
  have b4 := rcv_bits hi [false, true] 4 (by omega) (by omega)
  rw [h3] at b1 b4
  have n1 : ¬ ackedIn s.win s.created 1 := by
    rw [Inv.ackedIn_iff hi, h3, h5 1 (by omega)]; simp
  have n4 : ¬ ackedIn s.win s.created 4 := by
    rw [Inv.ackedIn_iff hi, h3, h5 4 (by omega)]; simp
  refine ⟨s, d, h1, h3, h2, h6, rfl, rfl, rfl, by decide, by decide, n1, ?_, ?_⟩
  · rw [hr]; exact b1.1 rfl
  · rw [hr]; intro hh; exact n4 ((b4.2.2 rfl).1 hh)

/-- Counterexample: an SSN whose V(Q) lies just behind the window start. One block (1) is
outstanding; the message (V(Q) = 0, no bitmap) says nothing about it, yet it is taken as
acknowledged. -/
theorem C06_stale_ssn_acks_all :
    ∃ (s : Sys) (d : EgprsDesc), Reach 2048 64 s ∧ s.oldest = 1 ∧ s.created = 2 ∧
      d.final = false ∧ d.bow = true ∧ d.ssn = 1 ∧ d.crbb = none ∧
      egprsSays d 1 [] 1 = none ∧ ¬ ackedIn s.win s.created 1 ∧
      ackedIn (rcvEgprs d s.win) s.created 1 := by
  have hc : LegalCfg 2048 64 := Or.inr ⟨rfl, by omega, by omega⟩
  obtain ⟨s, h1, h2, h3, h4, h5, h6⟩ := reach_fill 2048 64 hc 2 (by omega)
  have hi := reach_inv hc h1
  have hr := Reach.step h1 (Step.ack s [true])
  have hi2 := reach_inv hc hr
  have b0 := rcv_bits hi [true] 0 (by omega) (by omega)
  have b1 := rcv_bits hi [true] 1 (by omega) (by omega)
  rw [h3] at b0 b1
  have n1 : ¬ ackedIn s.win s.created 1 := by
    rw [Inv.ackedIn_iff hi, h3, h5 1 (by omega)]; simp
  have n1' : ¬ ackedIn (s.win.ackNack s.win.va [true]) s.created 1 := fun x => n1 ((b1.2.2 rfl).1 x)
  have p0 := b0.1 rfl
  generalize ht : ({ s with win := s.win.ackNack s.win.va [true], acked := s.acked ++ ackedBy s [true] } : Sys) = t at hr hi2
  have htw : t.win = s.win.ackNack s.win.va [true] := by rw [← ht]
  have htc : t.created = 2 := by rw [← ht]; exact h2
  rw [← htw] at n1' p0
  rw [h2, ← htc, Inv.ackedIn_iff hi2] at n1' p0
  have hle := hi2.le
  have hold : t.oldest = 1 := by
    have a1 : ¬ 1 < t.oldest := fun x => n1' (Or.inl x)
    rcases p0 with x | x
    · omega
    · rcases Nat.lt_or_ge 0 t.oldest with y | y
      · omega
      · have h0 : t.oldest = 0 := by omega
        have := hi2.head (by omega)
        rw [h0] at this
        exact absurd x this
  let d : EgprsDesc := { final := false, bow := true, ssn := 1, crbb := none, urbb := [] }
  have hnum : t.win.modSns (1 + 2 * t.win.sns - 1 - t.win.va) = 2047 := by
    unfold Win.modSns; rw [hi2.hsns, hi2.ha, hold]
  have hdec : (decodeEgprs d t.win { bits := [], cap := 1024 }).bits = (List.replicate 2047 true).take 1024 := by
    unfold decodeEgprs
    simp only [d, Bool.false_eq_true, if_false, if_true, hnum, List.length_nil, Nat.add_zero]
    exact (push_bits _ _ (by simp)).1
  have hrc : rcvEgprs d t.win = t.win.ackNack t.win.va ((List.replicate 2047 true).take 1024) := by
    unfold rcvEgprs
    rw [hdec]; rfl
  refine ⟨t, d, hr, hold, htc, rfl, rfl, rfl, rfl, by decide, ?_, ?_⟩
  · rw [Inv.ackedIn_iff hi2]; exact n1'
  · rw [hrc]
    refine (rcv_bits hi2 _ 1 (by omega) (by omega)).1 ?_
    rw [hold, List.getElem?_take_of_lt (by omega), List.getElem?_replicate, if_pos (by omega)]

/-- Non-vacuity: 40 blocks outstanding, V(Q) = 2, compressed bitmap of three ones (blocks 3
to 5) followed by the uncompressed bits 0, 1 for blocks 6, 7 (transmitted last bit first). -/
example : ∃ (s : Sys) (d : EgprsDesc) (crbb : List Bool), Reach 2048 64 s ∧ s.oldest = 0 ∧ s.created = 40 ∧
    d.final = false ∧ d.bow = true ∧ d.ssn = 3 ∧ crbbMeans d crbb ∧ 3 - s.oldest + crbb.length ≤ 1024 ∧
    egprsSays d 3 crbb 1 = some true ∧ egprsSays d 3 crbb 2 = some false ∧ egprsSays d 3 crbb 5 = some true ∧
    egprsSays d 3 crbb 6 = some false ∧ egprsSays d 3 crbb 7 = some true ∧ egprsSays d 3 crbb 8 = none := by
  have hc : LegalCfg 2048 64 := Or.inr ⟨rfl, by omega, by omega⟩
  obtain ⟨s, h1, h2, h3, _⟩ := reach_fill 2048 64 hc 40 (by omega)
  refine ⟨s, { final := false, bow := true, ssn := 3, crbb := some (true, [true, false, false, false]),
                  urbb := [true, false] }, [true, true, true], h1, h3, h2, rfl, rfl, rfl, ?_, ?_, by decide, by decide,
              by decide, by decide, by decide, by decide⟩
  · have := Means.term true 3 [] [] (by omega) (Means.nil _)
    exact this
  · simp; omega

end Verif.AckNack
