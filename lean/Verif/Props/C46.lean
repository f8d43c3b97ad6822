import Verif.Props.C21
/-!
# C46: slot reservations of mobiles balance
-/

namespace Verif.Alloc

/-- After any history the reservation counter of a slot is the number of mobiles reserving it. -/
theorem C46_counters (cfg : Cfg) (ops : List Op) (w : World) (h : run cfg World.init ops = some w)
    (t s : Nat) (d : Dir) : (w.pdch t s).reserved d = (reserving w t s d).length := by
  have hi := reachable_inv h
  rw [hi.r.res, reserving, ← List.countP_eq_length_filter]
  rfl

/-- The slots a mobile reserves are enabled PDCHs of one TRX of the BTS. -/
theorem C46_enabled (cfg : Cfg) (ops : List Op) (w : World) (h : run cfg World.init ops = some w)
    (m : Nat) (hm : m < w.msN) (t s : Nat) (d : Dir) (hr : (w.ms m).reserves t s d = true) :
    t < 8 ∧ s < 8 ∧ (w.pdch t s).enabled = true := by
  have hi := reachable_inv h
  have hh : (w.ms m).holds t s d = true := hr
  unfold Ms.holds at hh
  simp only [Bool.and_eq_true, beq_iff_eq] at hh
  obtain ⟨h1, t', h2, h3, h4⟩ := (hi.r.msok m hm).bit hh.2
  rw [hh.1] at h2
  cases h2
  exact ⟨h3, h1, h4⟩

theorem hasTbf_none {w : World} (h : ∀ b, w.tbf b = none) (m : Nat) : hasTbf w m = false := by
  unfold hasTbf
  rw [List.any_eq_false]
  intro b _
  rw [h b]
  simp

/-- When the TBFs are gone and the mobiles have become idle, all counters are zero. -/
theorem C46_idle (cfg : Cfg) (ops : List Op) (w : World) (h : run cfg World.init ops = some w)
    (hno : ∀ b, w.tbf b = none) :
    ∃ w', run cfg World.init (ops ++ (List.range w.msN).map Op.idle) = some w' ∧
      ∀ t s d, (w'.pdch t s).reserved d = 0 := by
  have hi := reachable_inv h
  have key := foldlM_range (fun w m => step cfg w (.idle m)) (fun k v => Inv v ∧ v.msN = w.msN ∧
      (∀ b, v.tbf b = none) ∧ ∀ m, m < k → (v.ms m).trx = none) w.msN w
    ⟨hi, rfl, hno, fun m hm => absurd hm (Nat.not_lt_zero m)⟩ (by
      intro k hk v ⟨v1, v2, v3, v4⟩
      obtain ⟨v', a1, a2, a3, a4, -, -, a5⟩ := msIdle_inv v1 (m := k) (by omega)
      have a5 := a5 (hasTbf_none v3 k)
      refine ⟨v', ?_, a2, a4.trans v2, by rw [a3]; exact v3, ?_⟩
      · simp only [step]
        rw [if_pos (by omega)]
        exact a1
      · intro m hm
        rw [a5]
        split
        · rfl
        · exact v4 m (by omega))
  obtain ⟨w', h1, h2, h3, -, h4⟩ := key
  refine ⟨w', ?_, ?_⟩
  · unfold run at h ⊢
    rw [List.foldlM_append, h]
    simp only [Option.bind_eq_bind, Option.bind_some, List.foldlM_map]
    exact h1
  · intro t s d
    rw [h2.r.res, List.countP_eq_zero]
    intro m hm
    have := h4 m (by rw [← h3]; exact List.mem_range.1 hm)
    simp [Ms.holds, this]

/-- Two mobiles reserving slots, the release of their TBFs, and both becoming idle. -/
example :
    let ops : List Op := [.enable 0 3 7, .enable 0 4 7, .newMs 12, .newMs 1,
      .alloc 0 ⟨.ul, false, none⟩ true, .alloc 1 ⟨.ul, false, none⟩ false]
    let c : Option World → Option (List (Nat × Nat)) := fun w => w.map fun w =>
      [3, 4].map fun s => ((w.pdch 0 s).reserved .ul, (w.pdch 0 s).reserved .dl)
    c (run ⟨.b, 1⟩ World.init ops) = some [(2, 2), (1, 1)] ∧
    c (run ⟨.b, 1⟩ World.init (ops ++ [.free 0, .free 1])) = some [(2, 2), (1, 1)] ∧
    c (run ⟨.b, 1⟩ World.init (ops ++ [.free 0, .free 1, .idle 0, .idle 1])) = some [(0, 0), (0, 0)] := by
  decide +kernel

end Verif.Alloc
