import Verif.Model.AllFull
import Verif.Props.C83
/-!
# C96: The statistic "all PDCHs allocated" tells when the cell is full

`run cfg World.init ops` is the BTS after any history. The flag is compared with the TBFs that exist (`Spec.Full`) and with what
happens to a mobile that asks for a TBF.
-/

namespace Verif.Alloc

theorem full_map {n m : Nat} (h : ∀ i, m.testBit i = true ↔ i < n) : m = 2 ^ n - 1 := by
  apply Nat.eq_of_testBit_eq
  intro i
  rw [Nat.testBit_two_pow_sub_one]
  by_cases hi : i < n
  · rw [(h i).2 hi, decide_eq_true hi]
  · rw [decide_eq_false hi]
    cases hb : m.testBit i with
    | false => rfl
    | true => exact absurd ((h i).1 hb) hi

theorem pdchFull_iff {p : Pdch} {eg : Nat → Bool} {us : Nat → Nat} (h : PInv p eg us) :
    pdchFull p = true ↔ (∀ i, i < 32 → (p.tfiMap .dl).testBit i = true) ∨ (∀ u, u < 7 → p.usfMap.testBit u = true) := by
  unfold pdchFull
  simp only [Bool.or_eq_true, decide_eq_true_eq, Option.isNone_iff_eq_none]
  constructor
  · rintro ((h1 | h1) | h1)
    · obtain ⟨j, hj, h3⟩ := ul_tfi_free h
      exact absurd h1 (tfi_ne_full hj h3)
    · refine .inl fun i hi => ?_
      rw [h1]
      exact testBit_full (n := 32) hi
    · exact .inr fun u hu => findFreeUsf_none h1 hu
  · rintro (h1 | h1)
    · refine .inl (.inr (full_map (n := 32) fun i => ⟨fun hb => ?_, h1 i⟩))
      rw [h.tfi] at hb
      obtain ⟨b, hb⟩ := Option.isSome_iff_exists.1 hb
      exact h.lt _ _ _ hb
    · refine .inr ?_
      cases hf : findFreeUsf p.usfMap with
      | none => rfl
      | some u =>
        obtain ⟨h2, h3⟩ := findFreeUsf_spec hf
        rw [h1 u h2] at h3
        cases h3

/-- **C96**: the flag is set if and only if on every PDCH in operation all 32 TFIs of the downlink or all seven USFs are in use by TBFs that
exist. -/
theorem C96_flag (cfg : Cfg) (ops : List Op) (w : World) (h : run cfg World.init ops = some w) :
    allAllocated w.pdch = true ↔
      ∀ t s, Up w t s → (∀ i, i < 32 → TfiUsed w .dl t s i) ∨ (∀ u, u < 7 → UsfUsed w t s u) := by
  have key : ∀ t s, pdchFull (w.pdch t s) = true ↔ (∀ i, i < 32 → TfiUsed w .dl t s i) ∨ (∀ u, u < 7 → UsfUsed w t s u) := by
    intro t s
    rw [pdchFull_iff ((reachable_inv h).t.p t s)]
    refine ⟨fun hx => hx.imp (fun hx i hi => ?_) (fun hx u hu => ?_), fun hx => hx.imp (fun hx i hi => ?_) (fun hx u hu => ?_)⟩
    · exact ((C21_no_leak cfg ops w h t s).1 .dl i).1 (hx i hi)
    · exact ((C21_no_leak cfg ops w h t s).2 u).1 (hx u hu)
    · exact ((C21_no_leak cfg ops w h t s).1 .dl i).2 (hx i hi)
    · exact ((C21_no_leak cfg ops w h t s).2 u).2 (hx u hu)
  unfold allAllocated
  simp only [List.all_eq_true, List.mem_range, Bool.or_eq_true, Bool.not_eq_true', key]
  constructor
  · intro hx t s hu
    rcases hx t hu.1 s hu.2.1 with he | he
    · rw [hu.2.2] at he; cases he
    · exact he
  · intro hx t ht s hs
    cases he : (w.pdch t s).enabled with
    | false => exact .inl rfl
    | true => exact .inr (hx t s ⟨ht, hs, he⟩)

/-- The flag is not set: there is a PDCH with room in both directions. -/
theorem not_full {cfg : Cfg} {ops : List Op} {w : World} (h : run cfg World.init ops = some w) :
    allAllocated w.pdch = false ↔ ∃ t s, RoomDl w t s ∧ RoomUl w t s := by
  constructor
  · intro hf
    refine Classical.byContradiction fun hn => ?_
    have : allAllocated w.pdch = true := (C96_flag cfg ops w h).2 fun t s hu => by
      refine Classical.byContradiction fun hc => hn ⟨t, s, ⟨hu, ?_⟩, ⟨hu, ?_⟩⟩
      · exact Classical.byContradiction fun hx => hc (.inl fun i hi => Classical.byContradiction fun hy => hx ⟨i, hi, hy⟩)
      · exact Classical.byContradiction fun hx => hc (.inr fun i hi => Classical.byContradiction fun hy => hx ⟨i, hi, hy⟩)
    rw [hf] at this
    cases this
  · rintro ⟨t, s, ⟨hu, i, hi, h1⟩, _, u, hu7, h2⟩
    cases hf : allAllocated w.pdch with
    | false => rfl
    | true =>
      rcases (C96_flag cfg ops w h).1 hf t s hu with hx | hx
      · exact absurd (hx i hi) h1
      · exact absurd (hx u hu7) h2

/-- **C96**: while the flag is not set, with the algorithms A and dynamic, a mobile without resources that is to get a downlink TBF gets
one. -/
theorem C96_room_dl (cfg : Cfg) (hc : cfg.algo = .a ∨ cfg.algo = .dynamic) (ops : List Op) (w : World)
    (h : run cfg World.init ops = some w) (hf : allAllocated w.pdch = false) (m : Nat) (hm : Idle w m) (single egprs : Bool) :
    ∃ w', run cfg World.init (ops ++ [.alloc m ⟨.dl, single, none⟩ egprs]) = some w' ∧ Served w w' m .dl := by
  obtain ⟨t, s, h1, _⟩ := (not_full h).1 hf
  obtain ⟨w', h2, h3⟩ := C83_dl cfg hc ops w h m hm single egprs
  exact ⟨w', h2, h3.2 ⟨t, s, h1⟩⟩

/-- **C96** (cells with one TRX): while the flag is not set, it also gets an uplink TBF. Missing: several TRX, where this is false
(`C96_fails_ul`). -/
theorem C96_room_ul_partial (cfg : Cfg) (hc : cfg.algo = .a ∨ cfg.algo = .dynamic) (ops : List Op) (w : World)
    (h : run cfg World.init ops = some w) (hf : allAllocated w.pdch = false) (t : Nat) (hone : ∀ t' s, Up w t' s → t' = t)
    (m : Nat) (hm : Idle w m) (single egprs : Bool) :
    ∃ w', run cfg World.init (ops ++ [.alloc m ⟨.ul, single, none⟩ egprs]) = some w' ∧ Served w w' m .ul := by
  obtain ⟨t', s, h1, h1'⟩ := (not_full h).1 hf
  have := hone t' s h1.1
  subst this
  obtain ⟨w', h2, h3⟩ := C83_ul_one_trx cfg hc ops w h m hm t' hone ⟨s, h1⟩ single egprs
  exact ⟨w', h2, h3.2 ⟨s, h1'⟩⟩

/-- **C96** (cells with one PDCH): the flag is set exactly when a mobile without resources is refused in one direction at least. -/
theorem C96_one_pdch_partial (cfg : Cfg) (hc : cfg.algo = .a ∨ cfg.algo = .dynamic) (ops : List Op) (w : World)
    (h : run cfg World.init ops = some w) (t s : Nat) (hup : Up w t s) (hone : ∀ t' s', Up w t' s' → t' = t ∧ s' = s)
    (m : Nat) (hm : Idle w m) (single egprs : Bool) :
    ∃ wd wu, run cfg World.init (ops ++ [.alloc m ⟨.dl, single, none⟩ egprs]) = some wd ∧
      run cfg World.init (ops ++ [.alloc m ⟨.ul, single, none⟩ egprs]) = some wu ∧
      (allAllocated w.pdch = true ↔ ¬ (Served w wd m .dl ∧ Served w wu m .ul)) := by
  obtain ⟨wd, h1, h2⟩ := C83_dl cfg hc ops w h m hm single egprs
  obtain ⟨wu, h3, h4⟩ := served_iff h hm.1 ⟨.ul, single, none⟩ egprs
  refine ⟨wd, wu, h1, h3, fun hf => ?_, fun hn => ?_⟩
  · rintro ⟨a, b⟩
    obtain ⟨t1, s1, hr⟩ := h2.1 a
    obtain ⟨rfl, rfl⟩ := hone t1 s1 hr.1
    obtain ⟨r, hr'⟩ := Option.isSome_iff_exists.1 (h4.1 b)
    obtain ⟨t2, s2, -, h5, h6⟩ := some_room h (allocate_ok ((reachable_inv h).r.msok m hm.1) hr')
    obtain ⟨rfl, rfl⟩ := hone t2 s2 h5
    have := (not_full h).2 ⟨_, _, hr, h6 rfl⟩
    rw [hf] at this
    cases this
  · cases hf : allAllocated w.pdch with
    | true => rfl
    | false =>
      obtain ⟨w1, g1, g2⟩ := C96_room_dl cfg hc ops w h hf m hm single egprs
      obtain ⟨w2, g3, g4⟩ := C96_room_ul_partial cfg hc ops w h hf t (fun t' s' hx => (hone t' s' hx).1) m hm single egprs
      rw [h1] at g1
      rw [h3] at g3
      cases g1
      cases g3
      exact absurd ⟨g2, g4⟩ hn

/-! ### What the code does not do -/

/-- **C96** fails in a cell with several TRX: the flag is not set and a mobile is refused an uplink TBF, with each of the algorithms. -/
theorem C96_fails_ul (algo : Algo) : ∃ w w', run ⟨algo, 8⟩ World.init c83Ul = some w ∧ allAllocated w.pdch = false ∧ Idle w 15 ∧
    run ⟨algo, 8⟩ World.init (c83Ul ++ [.alloc 15 ⟨.ul, true, none⟩ true]) = some w' ∧ ¬ Served w w' 15 .ul := by
  obtain ⟨w, w', h1, h2, _, _, h5, h6⟩ := C83_fails_ul algo
  have hx : ((run ⟨algo, 8⟩ World.init c83Ul).map fun w => allAllocated w.pdch) = some false := by
    cases algo <;> decide +kernel
  rw [h1] at hx
  simp only [Option.map_some, Option.some.injEq] at hx
  exact ⟨w, w', h1, hx, h2, h5, h6⟩

/-- One PDCH and seven uplink TBFs. -/
def c96Usf : List Op := [.enable 0 0 0] ++ newUl 0 7 1 false ++ [.newMs 1]

/-- **C96** fails in the other direction: the flag is set with seven uplink TBFs on the only PDCH, although all downlink TFIs are free and a
mobile gets a downlink TBF. -/
theorem C96_fails_dl : ∃ w w', run ⟨.a, 8⟩ World.init c96Usf = some w ∧ allAllocated w.pdch = true ∧ Idle w 7 ∧
    run ⟨.a, 8⟩ World.init (c96Usf ++ [.alloc 7 ⟨.dl, true, none⟩ true]) = some w' ∧ Served w w' 7 .dl := by
  have h : ((run ⟨.a, 8⟩ World.init c96Usf).map fun w => decide (allAllocated w.pdch = true ∧ w.msN = 8 ∧ (w.ms 7).trx = none ∧
      (w.ms 7).fct = none ∧ (w.pdch 0 0).enabled = true ∧ ((w.pdch 0 0).tfiMap .dl).testBit 0 = false)) = some true := by
    decide +kernel
  cases h1 : run ⟨.a, 8⟩ World.init c96Usf with
  | none => rw [h1] at h; cases h
  | some w =>
    rw [h1] at h
    simp only [Option.map_some, Option.some.injEq, decide_eq_true_eq] at h
    obtain ⟨a1, a2, a3, a4, a5, a6⟩ := h
    have hm : Idle w 7 := ⟨by omega, a3, a4⟩
    obtain ⟨w', h2, h3⟩ := C83_dl ⟨.a, 8⟩ (.inl rfl) c96Usf w h1 7 hm true true
    exact ⟨w, w', rfl, a1, hm, h2, h3.2 ⟨0, 0, ⟨by decide, by decide, a5⟩, 0, by decide, (tfi_free h1).1 a6⟩⟩

/-- Without any PDCH the flag is set: the time during which a cell has no PDCH counts as time during which all are allocated. -/
theorem C96_none (cfg : Cfg) : allAllocated World.init.pdch = true :=
  (C96_flag cfg [] World.init rfl).2 fun t s hu => by cases hu.2.2

/-! ### Non-vacuity -/

/-- A cell with one PDCH and few mobiles: not full; a mobile without resources. -/
example : ((run ⟨.a, 8⟩ World.init ([.enable 0 0 0] ++ newUl 0 6 1 false ++ [.newMs 1])).map fun w =>
    decide (allAllocated w.pdch = false ∧ 6 < w.msN ∧ (w.ms 6).trx = none ∧ (w.ms 6).fct = none)) = some true := by
  decide +kernel

example : ((run ⟨.a, 8⟩ World.init ([.enable 0 0 0] ++ newDl 0 32 1 ++ [.newMs 1])).map fun w =>
    decide (allAllocated w.pdch = true)) = some true := by
  decide +kernel

end Verif.Alloc
