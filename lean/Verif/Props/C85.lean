import Verif.Props.C23
import Verif.Spec.SwitchTimes
/-!
# C85: a mobile has the time it needs to switch between receiving and transmitting
-/

namespace Verif.Alloc

theorem Leaves.of {a b x y u d : Nat} {tx rx : List Nat} (h : TimeOk x y u d) (ha : a ≤ x) (hb : b ≤ y)
    (hu : ∀ s ∈ tx, s < 8 ∧ u.testBit s = true) (hd : ∀ s ∈ rx, s < 8 ∧ d.testBit s = true) : Leaves a b tx rx := by
  intro i hi j hj n k
  obtain ⟨i8, ib⟩ := hu i hi
  obtain ⟨j8, jb⟩ := hd j hj
  obtain ⟨h1, h2, h3⟩ := h i j ib jb
  unfold rxTime txTime
  refine ⟨?_, ?_, ?_⟩
  · omega
  · omega
  · omega

/-- The table of the program has the times of TS 45.002, and knows which classes are of type 1. -/
theorem C85_table (cls : Nat) (hlt : 1 ≤ cls ∧ cls ≤ 45) (dflt : Nat) :
    match times cls with
    | some t => (getClass dflt cls).type = 1 ∧ (getClass dflt cls).ta = t.tta ∧ (getClass dflt cls).getTb = t.ttb ∧
        (getClass dflt cls).getRa = t.tra ∧ (getClass dflt cls).getRb = t.trb
    | none => 13 ≤ cls ∧ cls ≤ 18 ∧ (getClass dflt cls).type = 2 := by
  have e : getClass dflt cls = getClass 0 cls := by
    unfold getClass
    rw [if_neg (by omega), if_pos (by omega), if_neg (by omega), if_pos (by omega)]
  rw [e]
  have all : ∀ k, k < 46 → 1 ≤ k → (match times k with
    | some t => (getClass 0 k).type = 1 ∧ (getClass 0 k).ta = t.tta ∧ (getClass 0 k).getTb = t.ttb ∧
        (getClass 0 k).getRa = t.tra ∧ (getClass 0 k).getRb = t.trb
    | none => 13 ≤ k ∧ k ≤ 18 ∧ (getClass 0 k).type = 2) := by
    intro k hk h1
    have : ∀ k, k < 46 → 1 ≤ k → (match times k with
      | some t => decide ((getClass 0 k).type = 1 ∧ (getClass 0 k).ta = t.tta ∧ (getClass 0 k).getTb = t.ttb ∧
        (getClass 0 k).getRa = t.tra ∧ (getClass 0 k).getRb = t.trb)
      | none => decide (13 ≤ k ∧ k ≤ 18 ∧ (getClass 0 k).type = 2)) = true := by decide
    have := this k hk h1
    cases ht : times k with
    | none => rw [ht] at this; exact of_decide_eq_true this
    | some t => rw [ht] at this; exact of_decide_eq_true this
  exact all cls (by omega) hlt.1

theorem times_lt {cls : Nat} {t : Times} (h : times cls = some t) : 1 ≤ cls ∧ cls ≤ 45 := by
  refine Decidable.byContradiction fun hc => ?_
  have : times cls = none := by
    unfold times
    repeat rw [if_neg (by omega)]
  rw [this] at h
  cases h

theorem getClass_eff {dflt cls : Nat} (h : 1 ≤ effClass dflt cls ∧ effClass dflt cls ≤ 45) :
    getClass dflt cls = getClass dflt (effClass dflt cls) := by
  unfold effClass at h ⊢
  by_cases h0 : cls = 0
  · subst h0
    simp only [if_true] at h ⊢
    unfold getClass
    rw [if_neg (by omega), if_neg (by omega), if_neg (by omega), if_pos (by omega)]
  · rw [if_neg h0]

/-- What the class asks for, for any sets of slots within those found for it. -/
theorem classTimes_kept {dflt cls u d : Nat} {t : Times} {l : Limits} {tx rx : List Nat}
    (ht : times (effClass dflt cls) = some t) (hl : limits (effClass dflt cls) = some l)
    (h : ClassTimes (getClass dflt cls) u d)
    (hu : ∀ s ∈ tx, s < 8 ∧ u.testBit s = true) (hd : ∀ s ∈ rx, s < 8 ∧ d.testBit s = true) :
    t.kept tx rx ∧ consecutive l.tx tx ∧ consecutive l.rx rx := by
  have hlt := times_lt ht
  have tab := C85_table _ hlt dflt
  rw [ht] at tab
  obtain ⟨t1, t2, t3, t4, t5⟩ := tab
  obtain ⟨l1, l2, -⟩ := C23_table _ _ hl dflt
  rw [getClass_eff hlt] at h
  obtain ⟨⟨a, a1, a2⟩, ⟨b, b1, b2⟩, h3⟩ := h t1
  rw [t2, t3, t4, t5] at h3
  refine ⟨?_, ⟨a, by omega, ?_⟩, ⟨b, by omega, ?_⟩⟩
  · rcases h3 with h3 | h3
    · exact ⟨Leaves.of h3 (Nat.le_refl _) (Nat.le_max_left _ _) hu hd,
        Or.inl (Leaves.of h3 (Nat.le_refl _) (Nat.le_max_right _ _) hu hd)⟩
    · exact ⟨Leaves.of h3 (Nat.le_max_left _ _) (Nat.le_refl _) hu hd,
        Or.inr (Leaves.of h3 (Nat.le_max_right _ _) (Nat.le_refl _) hu hd)⟩
  · intro s hs
    rw [← l1]
    exact a2 s (hu s hs).2
  · intro s hs
    rw [← l2]
    exact b2 s (hd s hs).2

theorem slotsIn_bit {m s : Nat} : s ∈ slotsIn m → s < 8 ∧ m.testBit s = true := by
  intro h
  unfold slotsIn at h
  rw [List.mem_filter, List.mem_range] at h
  exact h

/-- One allocation, for any load of the cell: the slots a mobile of type 1 holding nothing is given leave it the
time to switch between receiving and transmitting and, once per frame, to measure a neighbour, and are within
windows of as many consecutive slots as its class allows.

Requests for a single uplink slot are included only when every enabled PDCH has a free USF. -/
theorem C85_allocation_partial (algo : Algo) (dflt : Nat) (bts : Nat → Trx) (disabled : Bool) (ms : Ms)
    (req : Req) (r : Res) (t : Times) (l : Limits) (ht : times (effClass dflt ms.cls) = some t)
    (hl : limits (effClass dflt ms.cls) = some l)
    (hms : ms.ul = 0 ∧ ms.dl = 0 ∧ ms.trx = none)
    (hreq : req.dir = .ul → req.single = true → ms.fct = none → ∀ t s, (bts t s).enabled = true →
      ∃ u, u < 7 ∧ (bts t s).usfMap.testBit u = false)
    (h : (allocate algo dflt bts disabled ms req).1 = some r) :
    t.kept (slotsIn r.ul) (slotsIn r.dl) ∧ consecutive l.tx (slotsIn r.ul) ∧ consecutive l.rx (slotsIn r.dl) := by
  have hmsok : MsOk bts ms := by
    unfold MsOk
    simp [hms.1, hms.2.1, hms.2.2]
  obtain ⟨U, D, hf, hr⟩ := (allocate_in hmsok (fun a b c t s d => by
    obtain ⟨u, h1, h2⟩ := hreq a b c t s d
    exact ⟨u, h1, h2⟩) h).2 hms.1 hms.2.1
  refine classTimes_kept ht hl hf.2.2.2 ?_ ?_
  · exact fun s hs => ⟨(slotsIn_bit hs).1, hr.ul s (slotsIn_bit hs).2⟩
  · exact fun s hs => ⟨(slotsIn_bit hs).1, hr.dl s (slotsIn_bit hs).2⟩

/-- The slots found for a mobile of type 1 are in the row of TS 45.002 table 6.4.2.2.1 for their number: up to
six slots together leave the time to measure before receiving, more leave it before transmitting; there are no
more than two transmit slots, and (§6.4.2.2) as many of them as there are receive slots for have the number of
a receive slot. -/
theorem C85_row (dflt cls : Nat) (trx : Trx) (ul dl u d : Nat) (t : Times) (ht : times (effClass dflt cls) = some t)
    (h : findMultiSlots trx (getClass dflt cls) ul dl = some (u, d)) :
    ((slotsIn u).length + (slotsIn d).length ≤ 6 → Leaves t.ttb t.tra (slotsIn u) (slotsIn d)) ∧
    ((slotsIn u).length + (slotsIn d).length > 6 → Leaves t.tta t.trb (slotsIn u) (slotsIn d)) ∧
    (slotsIn u).length ≤ 2 ∧
    ((slotsIn u).filter fun s => d.testBit s).length = min (slotsIn u).length (slotsIn d).length := by
  have hlt := times_lt ht
  have tab := C85_table _ hlt dflt
  rw [ht] at tab
  obtain ⟨t1, t2, t3, t4, t5⟩ := tab
  rw [← getClass_eff hlt] at t1 t2 t3 t4 t5
  obtain ⟨⟨-, -, -, -, -, -, -, hr⟩, -⟩ := findMultiSlots_class h
  obtain ⟨h1, h2, h3, h4⟩ := hr t1
  have pp : ∀ x, pop x = (slotsIn x).length := by intro x; unfold pop slotsIn; rw [List.countP_eq_length_filter]
  rw [t3, t4, t5] at h1
  rw [t2, t3, t5] at h2
  rw [pp, pp] at h1 h2
  have pc : pop (u &&& d) = ((slotsIn u).filter fun s => d.testBit s).length := by
    unfold pop slotsIn
    rw [List.filter_filter, List.countP_eq_length_filter]
    congr 2
    funext s
    rw [Nat.testBit_and, Bool.and_comm]
  rw [pp u] at h3
  rw [pc, pp u, pp d] at h4
  have bu : ∀ s ∈ slotsIn u, s < 8 ∧ u.testBit s = true := fun s => slotsIn_bit
  have bd : ∀ s ∈ slotsIn d, s < 8 ∧ d.testBit s = true := fun s => slotsIn_bit
  exact ⟨fun hc => Leaves.of (h1 hc) (Nat.le_refl _) (Nat.le_max_right _ _) bu bd,
    fun hc => Leaves.of (h2 hc) (Nat.le_max_right _ _) (Nat.le_refl _) bu bd, h3, h4⟩

/-- Five slots of a mobile of class 10 in an empty cell, and eight of a mobile of class 41 (seven together). -/
example : (findMultiSlots (fun _ => { Pdch.init with enabled := true }) (getClass 8 10) 0 0).isSome = true ∧
    (findMultiSlots (fun _ => { Pdch.init with enabled := true }) (getClass 8 41) 0 0).map
      (fun p => (slotsIn p.1).length + (slotsIn p.2).length) = some 7 := by decide +kernel

/-- Histories: under the conditions of `C23_history_partial`, the slots of all TBFs of a mobile of type 1
together leave it the time to switch and to measure, and are within windows of consecutive slots.

Missing: the other histories. `C85_fails` shows that the property fails for some of them. -/
theorem C85_history_partial (cfg : Cfg) (ops : List Op) (w : World)
    (ht : TameRun cfg World.init ops) (h : run cfg World.init ops = some w)
    (m : Nat) (hm : m < w.msN) (t : Times) (l : Limits) (htm : times (effClass cfg.dflt (w.ms m).cls) = some t)
    (hl : limits (effClass cfg.dflt (w.ms m).cls) = some l) :
    t.kept (slotsOf w m .ul) (slotsOf w m .dl) ∧ consecutive l.tx (slotsOf w m .ul) ∧
      consecutive l.rx (slotsOf w m .dl) := by
  have hc : CInv cfg.dflt w := run_class ops init_inv (fun m hm => absurd hm (Nat.not_lt_zero m)) ht h
  have hmem : ∀ d s, s ∈ slotsOf w m d → s < 8 ∧ ∃ b x, w.tbf b = some x ∧ x.ms = m ∧ x.dir = d ∧ x.slots s = true := by
    intro d s hs
    unfold slotsOf at hs
    rw [List.mem_filter, List.mem_range, List.any_eq_true] at hs
    obtain ⟨h8, b, -, hb⟩ := hs
    refine ⟨h8, b, ?_⟩
    cases hq : w.tbf b with
    | none => rw [hq] at hb; cases hb
    | some x =>
      rw [hq] at hb
      simp only [Bool.and_eq_true, decide_eq_true_eq] at hb
      exact ⟨x, rfl, hb.1.1, hb.1.2, hb.2⟩
  rcases hc m hm with hb | ⟨U, D, hh⟩
  · refine classTimes_kept (u := 0) (d := 0) htm hl ?_ ?_ ?_
    · intro hty
      obtain ⟨-, -, -, k1, k2⟩ := classTable_times _ (getClass_mem _ _) hty
      refine ⟨⟨0, by omega, by intro s hs; simp at hs⟩, ⟨0, by omega, by intro s hs; simp at hs⟩,
        Or.inl fun i j hi _ => by simp at hi⟩
    all_goals
      intro s hs
      obtain ⟨-, b, x, h1, h2, -, h4⟩ := hmem _ s hs
      rw [hb.tbf b x s h1 h2] at h4
      cases h4
  · refine classTimes_kept htm hl hh.fits.2.2.2 ?_ ?_
    all_goals
      intro s hs
      obtain ⟨h8, b, x, h1, h2, h3, h4⟩ := hmem _ s hs
      refine ⟨h8, ?_⟩
      have := (hh.tbf b x s h1 h2 h4).2
      rw [h3] at this
      exact this

/-- The history of `C23_history_partial`: a mobile of class 10 receiving in slots 0 to 3 transmits in slot 2,
that is from time 5 on. -/
example : times (effClass 8 10) = some ⟨3, 1, 2, 1⟩ ∧
    ((run ⟨.b, 8⟩ World.init c23Ops).map fun w => ((w.ms 0).cls, slotsOf w 0 .ul, slotsOf w 0 .dl)) =
      some (10, [2], [0, 1, 2, 3]) := by decide +kernel

/-- The history of `C85_fails`: slots of the default class, then a class that needs more time. -/
def c85Ops : List Op := [.enable 0 0 0, .enable 0 1 0, .enable 0 2 0, .enable 0 3 0, .newMs 0,
  .alloc 0 ⟨.dl, false, none⟩ true, .setClass 0 1, .alloc 0 ⟨.ul, false, none⟩ true]

/-- A class that becomes known after slots were reserved under the default class: a mobile of class 1 receives
in slots 0 to 3 and transmits in slot 2, one slot after receiving in slot 3. It needs two. -/
theorem C85_fails : ∃ w t, run ⟨.b, 12⟩ World.init c85Ops = some w ∧
    times (effClass 12 (w.ms 0).cls) = some t ∧ ¬ t.kept (slotsOf w 0 .ul) (slotsOf w 0 .dl) := by
  have h : ((run ⟨.b, 12⟩ World.init c85Ops).map fun w => ((w.ms 0).cls, slotsOf w 0 .ul, slotsOf w 0 .dl)) =
      some (1, [2], [0, 1, 2, 3]) := by decide +kernel
  cases hr : run ⟨.b, 12⟩ World.init c85Ops with
  | none => rw [hr] at h; cases h
  | some w =>
    rw [hr] at h
    simp only [Option.map_some, Option.some.injEq, Prod.mk.injEq] at h
    refine ⟨w, ⟨3, 2, 4, 2⟩, rfl, by rw [h.1]; rfl, ?_⟩
    rw [h.2.1, h.2.2]
    intro hk
    exact absurd ((hk.1 2 (by decide) 3 (by decide) 0 0).2.1 (by decide)) (by decide)

end Verif.Alloc
