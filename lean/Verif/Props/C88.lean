import Verif.Lemmas.Link
/-!
# C88: what `show ms` says about the radio link of a mobile is what was last measured
-/

namespace Verif.Link

theorem mem_show {nack : Int} {m : Meas} {l : Line} : l ∈ showMs nack m ↔
    match l with
    | .rssi v => m.rssi = some v
    | .ber v => m.ber = some v
    | .lq v => m.lq = some v
    | .bto v => m.bto = some v
    | .nackRate v => m.rxq.isSome ∧ v = nack
    | .rxq v => m.rxq = some v
    | .cval v => m.cval = some v
    | .svar v => m.svar = some v
    | .lev i v => i < 8 ∧ m.lev i = some v := by
  unfold showMs
  simp only [List.mem_append, List.mem_flatMap, List.mem_range, Option.mem_toList, Option.map_eq_some_iff]
  cases l <;> simp
  case nackRate v =>
    cases m.rxq <;> simp [eq_comm]

/-- The signal strength, the burst timing and the quality of the link are those of the last block,
EGPRS acknowledgements left aside, and are shown from the first such block on. -/
theorem C88_link (es : List Ev) (nack v : Int) :
    (.rssi v ∈ showMs nack (run es) ↔ LastOf Ev.rssi es v) ∧
    (.bto v ∈ showMs nack (run es) ↔ LastOf Ev.bto es v) ∧
    (.lq v ∈ showMs nack (run es) ↔ LastOf Ev.lq es v) := by
  have hlq : ∀ i : Ind, i.lqcb.tdiv 10 = Int.sign i.lqcb * ((i.lqcb.natAbs / 10 : Nat) : Int) := by
    intro i
    generalize i.lqcb = x
    cases x with
    | ofNat n => cases n with
      | zero => rfl
      | succ n =>
        show ((n + 1 : Nat) : Int).tdiv 10 = 1 * (((n + 1 : Nat) / 10 : Nat) : Int)
        rw [Int.one_mul]
        rfl
    | negSucc n => simp [Int.tdiv, Int.sign]
  refine ⟨?_, ?_, ?_⟩ <;> rw [mem_show] <;> dsimp only
  · refine run_iff (g := Meas.rssi) (f := Ev.rssi) ?_ rfl es v
    rintro m (i | ⟨i, q⟩ | i | ⟨i, r⟩ | i) <;> simp only [step, (update_other _ _).1] <;>
      simp [ofInd, getQuality, getRequest, (getLev_other _ _ _).1, Ev.rssi, Ev.ind]
  · refine run_iff (g := Meas.bto) (f := Ev.bto) ?_ rfl es v
    rintro m (i | ⟨i, q⟩ | i | ⟨i, r⟩ | i) <;> simp only [step, (update_other _ _).2.2.1] <;>
      simp [ofInd, getQuality, getRequest, (getLev_other _ _ _).2.2.1, Ev.bto, Ev.ind]
  · refine run_iff (g := Meas.lq) (f := Ev.lq) ?_ rfl es v
    rintro m (i | ⟨i, q⟩ | i | ⟨i, r⟩ | i) <;> simp only [step, (update_other _ _).2.2.2.1] <;>
      simp [ofInd, getQuality, getRequest, (getLev_other _ _ _).2.2.2.1, Ev.lq, Ev.ind, hlq]

theorem lastOf_congr {α : Type} {f g : Ev → Option α} {es : List Ev} (h : ∀ e ∈ es, f e = g e) (v : α) :
    LastOf f es v ↔ LastOf g es v := by
  constructor
  · rintro ⟨a, e, b, h1, h2, h3⟩
    subst h1
    refine ⟨a, e, b, rfl, (h e (by simp)).symm.trans h2, fun x hx => (h x ?_).symm.trans (h3 x hx)⟩
    simp [hx]
  · rintro ⟨a, e, b, h1, h2, h3⟩
    subst h1
    refine ⟨a, e, b, rfl, (h e (by simp)).trans h2, fun x hx => (h x ?_).trans (h3 x hx)⟩
    simp [hx]

/-- So is the bit error rate, in percent. -/
theorem C88_ber (es : List Ev) (h : Rates es) (nack v : Int) :
    .ber v ∈ showMs nack (run es) ↔ LastOf Ev.ber es v := by
  rw [mem_show]
  dsimp only
  rw [run_iff (g := Meas.ber) (f := fun e => e.ind.map fun i => ((i.ber10k / 100 % 256 : Nat) : Int)) ?_ rfl es v]
  · refine lastOf_congr (fun e he => ?_) v
    have := h e he
    unfold Ev.ber
    cases e <;> simp only [Ev.ind, Ev.indOfAny, Option.map_some, Option.map_none] at this ⊢ <;>
      (congr 1; omega)
  · rintro m (i | ⟨i, q⟩ | i | ⟨i, r⟩ | i) <;> simp only [step, (update_other _ _).2.1] <;>
      simp [ofInd, getQuality, getRequest, (getLev_other _ _ _).2.1, Ev.ind]

theorem lastOf_map {α β : Type} {f : Ev → Option α} {g : α → β} {es : List Ev} {v : β} :
    LastOf (fun e => (f e).map g) es v ↔ ∃ u, LastOf f es u ∧ g u = v := by
  constructor
  · rintro ⟨a, e, b, h1, h2, h3⟩
    obtain ⟨u, h4, h5⟩ := Option.map_eq_some_iff.1 h2
    exact ⟨u, ⟨a, e, b, h1, h4, fun x hx => Option.map_eq_none_iff.1 (h3 x hx)⟩, h5⟩
  · rintro ⟨u, ⟨a, e, b, h1, h2, h3⟩, h4⟩
    exact ⟨a, e, b, h1, by simp [h2, h4], fun x hx => by simp [h3 x hx]⟩

/-- The reception quality shown is the nearest percentage to the bit error rate that the RXQUAL of the last
Packet Downlink Ack/Nack stands for; with it the share of lost blocks is shown. -/
theorem C88_rx_quality (es : List Ev) (nack v : Int) :
    (.rxq v ∈ showMs nack (run es) → ∃ r, LastOf Ev.rxqual es r ∧ Nearest v (assumedBer r) 100) ∧
    ((∃ r, LastOf Ev.rxqual es r) → ∃ v, .rxq v ∈ showMs nack (run es)) ∧
    (.nackRate v ∈ showMs nack (run es) ↔ v = nack ∧ ∃ r, LastOf Ev.rxqual es r) := by
  have hrun : ∀ v, (run es).rxq = some v ↔ ∃ r, LastOf Ev.rxqual es r ∧ rxQualMap.getD (min r 7) 0 = v := by
    intro v
    rw [← lastOf_map]
    refine run_iff (g := Meas.rxq) (f := fun e => (Ev.rxqual e).map fun r => rxQualMap.getD (min r 7) 0) ?_ rfl es v
    rintro m (i | ⟨i, q⟩ | i | ⟨i, r⟩ | i) <;> simp only [step, (update_other _ _).2.2.2.2.1] <;>
      simp [ofInd, getQuality, getRequest, (getLev_other _ _ _).2.2.2.2.1, Ev.rxqual]
  refine ⟨?_, ?_, ?_⟩
  · rw [mem_show]
    intro h
    obtain ⟨r, h1, h2⟩ := (hrun v).1 h
    refine ⟨r, h1, ?_⟩
    subst h2
    match r with
    | 0 | 1 | 2 | 3 | 4 | 5 | 6 => unfold Nearest; decide
    | n + 7 =>
      have h7 : min (n + 7) 7 = 7 := by omega
      have ha : assumedBer (n + 7) = 1810 := rfl
      rw [h7, ha]
      unfold Nearest
      decide
  · rintro ⟨r, hr⟩
    exact ⟨_, mem_show.2 ((hrun _).2 ⟨r, hr, rfl⟩)⟩
  · rw [mem_show]
    dsimp only
    rw [Option.isSome_iff_exists]
    constructor
    · rintro ⟨⟨u, hu⟩, hv⟩
      obtain ⟨r, hr, -⟩ := (hrun u).1 hu
      exact ⟨hv, r, hr⟩
    · rintro ⟨hv, r, hr⟩
      exact ⟨⟨_, (hrun _).2 ⟨r, hr, rfl⟩⟩, hv⟩

/-- The C value is the one last reported, the variance the one last reported, to the nearest dB. -/
theorem C88_reported (es : List Ev) (nack : Int) :
    (∀ c : Nat, .cval (c : Int) ∈ showMs nack (run es) ↔ LastOf Ev.cval es c) ∧
    (∀ v, .svar v ∈ showMs nack (run es) → ∃ r : Nat, LastOf Ev.svar es r ∧ Nearest v r 4) ∧
    ((∃ r, LastOf Ev.svar es r) → ∃ v, .svar v ∈ showMs nack (run es)) := by
  have hs : ∀ v, (run es).svar = some v ↔ ∃ r, LastOf Ev.svar es r ∧ (((r + 2) / 4 : Nat) : Int) = v := by
    intro v
    rw [← lastOf_map]
    refine run_iff (g := Meas.svar) (f := fun e => (Ev.svar e).map fun r => (((r + 2) / 4 : Nat) : Int)) ?_ rfl es v
    rintro m (i | ⟨i, q⟩ | i | ⟨i, r⟩ | i) <;> simp only [step, (update_other _ _).2.2.2.2.2.2] <;>
      simp only [ofInd, getQuality, getRequest, (getLev_other _ _ _).2.2.2.2.2.2, Ev.svar, Option.map_none,
        Option.map_some, Option.none_or, Option.some_or]
    cases r.svar <;> rfl
  refine ⟨?_, ?_, ?_⟩
  · intro c
    rw [mem_show]
    dsimp only
    rw [run_iff (g := Meas.cval) (f := fun e => (Ev.cval e).map fun r : Nat => (r : Int)) ?_ rfl es, lastOf_map]
    · constructor
      · rintro ⟨u, h1, h2⟩; cases (Int.ofNat_inj.1 h2); exact h1
      · exact fun h => ⟨c, h, rfl⟩
    · rintro m (i | ⟨i, q⟩ | i | ⟨i, r⟩ | i) <;> simp only [step, (update_other _ _).2.2.2.2.2.1] <;>
        simp [ofInd, getQuality, getRequest, (getLev_other _ _ _).2.2.2.2.2.1, Ev.cval]
  · intro v h
    rw [mem_show] at h
    obtain ⟨r, h1, h2⟩ := (hs v).1 h
    refine ⟨r, h1, ?_⟩
    unfold Nearest
    omega
  · rintro ⟨r, hr⟩
    exact ⟨_, mem_show.2 ((hs _).2 ⟨r, hr, rfl⟩)⟩

/-- The interference levels shown are those of the last message that has any level at all: the slots it
names are shown, with 2 dB for each step below, and no others. Missing from the full claim: a message
without any level leaves the former ones, see `C88_fails`. -/
theorem C88_levels_partial (es : List Ev) (nack v : Int) (i : Nat) :
    .lev i v ∈ showMs nack (run es) ↔
      i < 8 ∧ ∃ s, LastOf Ev.levels es s ∧ ∃ l : Nat, s i = some l ∧ v = -2 * l := by
  rw [mem_show]
  dsimp only
  by_cases hn : ¬ i < 8
  · simp [hn]
  have hi : i < 8 := Decidable.not_not.1 hn
  have key : ∀ (m : Meas) (e : Ev), (step m e).lev i =
      match e.levels with
      | some s => (s i).map fun l : Nat => -2 * (l : Int)
      | none => m.lev i := by
    have hm : i ∈ List.range 8 := List.mem_range.2 hi
    intro m e
    cases e with
    | data j | notification j =>
      simp only [step]
      rw [update_lev _ _ _ hi]
      rfl
    | egprsDlAck j => rfl
    | dlAck j q =>
      simp only [step]
      rw [update_lev _ _ _ hi]
      simp only [getQuality, getLev_any, getLev_lev, if_pos hm, any_range, Ev.levels, Ev.slots, ofInd, Bool.false_or,
        Option.filter, Option.or_none]
      split <;> rfl
    | request j q =>
      simp only [step]
      rw [update_lev _ _ _ hi]
      simp only [getRequest, getLev_any, getLev_lev, if_pos hm, any_range, Ev.levels, Ev.slots, ofInd, Bool.false_or,
        Option.filter, Option.or_none]
      split <;> rfl
  have hind : ∀ (es : List Ev) (m : Meas), (es.foldl step m).lev i = some v ↔
      (∃ s, LastOf Ev.levels es s ∧ ∃ l : Nat, s i = some l ∧ v = -2 * l) ∨
        (m.lev i = some v ∧ ∀ e ∈ es, e.levels = none) := by
    intro es
    induction es with
    | nil =>
      intro m
      constructor
      · exact fun h => Or.inr ⟨h, nofun⟩
      · rintro (⟨s, ⟨a, e, b, h, -⟩, -⟩ | ⟨h, -⟩)
        · cases a <;> cases h
        · exact h
    | cons e es ih =>
      intro m
      rw [List.foldl_cons, ih, key]
      constructor
      · rintro (⟨s, ⟨a, e', b, h1, h2, h3⟩, h4⟩ | ⟨h1, h2⟩)
        · exact Or.inl ⟨s, ⟨e :: a, e', b, by rw [h1]; rfl, h2, h3⟩, h4⟩
        · cases hf : e.levels with
          | some s =>
            rw [hf] at h1
            obtain ⟨l, h3, h4⟩ := Option.map_eq_some_iff.1 h1
            exact Or.inl ⟨s, ⟨[], e, es, rfl, hf, h2⟩, l, h3, h4.symm⟩
          | none =>
            rw [hf] at h1
            refine Or.inr ⟨h1, fun x hx => ?_⟩
            rcases List.mem_cons.1 hx with rfl | hx
            · exact hf
            · exact h2 x hx
      · rintro (⟨s, ⟨a, e', b, h1, h2, h3⟩, l, h4, h5⟩ | ⟨h1, h2⟩)
        · cases a with
          | nil =>
            cases h1
            refine Or.inr ⟨?_, h3⟩
            rw [h2]
            simp [h4, h5]
          | cons a1 a =>
            cases h1
            exact Or.inl ⟨s, ⟨a, e', b, rfl, h2, h3⟩, l, h4, h5⟩
        · refine Or.inr ⟨?_, fun x hx => h2 x (List.mem_cons_of_mem _ hx)⟩
          rw [h2 e (List.mem_cons_self ..)]
          exact h1
  unfold run
  rw [hind]
  simp [hi]

/-- Two blocks of a mobile: the first reports interference on slot 3, the second on none. -/
def exGone : List Ev :=
  [.dlAck ⟨-60, 50, 0, 120⟩ ⟨40, 2, 9, fun i => if i = 3 then some 5 else none⟩,
   .dlAck ⟨-61, 50, 0, 118⟩ ⟨41, 2, 9, fun _ => none⟩]

/-- A block with an EGPRS acknowledgement after a data block, the signal now 30 dB weaker. -/
def exEgprs : List Ev := [.data ⟨-60, 50, 0, 120⟩, .egprsDlAck ⟨-90, 800, 2, 40⟩]

/-- Not so: the last message of the mobile says nothing about interference on slot 3, `show ms` does. And
after an EGPRS acknowledgement the values shown are those of an earlier block. -/
theorem C88_fails :
    (LastOf Ev.slots exGone (fun _ => none) ∧ .lev 3 (-10) ∈ showMs 0 (run exGone)) ∧
    (LastOf (fun e => some e.indOfAny.rssi) exEgprs (-90) ∧ .rssi (-90) ∉ showMs 0 (run exEgprs) ∧
      .rssi (-60) ∈ showMs 0 (run exEgprs)) := by
  refine ⟨⟨⟨[.dlAck ⟨-60, 50, 0, 120⟩ ⟨40, 2, 9, fun i => if i = 3 then some 5 else none⟩], _, [], rfl, rfl, nofun⟩,
    by decide⟩, ⟨[.data ⟨-60, 50, 0, 120⟩], _, [], rfl, rfl, nofun⟩, by decide, by decide⟩

/-- Blocks of all kinds. -/
def exLink : List Ev :=
  [.data ⟨-70, 120, 1, -35⟩,
   .request ⟨-71, 0, 0, 150⟩ ⟨33, some 10, fun i => if i = 1 then some 4 else none⟩,
   .dlAck ⟨-72, 199, -2, 159⟩ ⟨40, 5, 9, fun i => if i = 2 ∨ i = 6 then some (i + 1) else none⟩,
   .notification ⟨-73, 10000, 3, -159⟩]

example : Rates exLink := by
  intro e he
  simp only [exLink, List.mem_cons, List.not_mem_nil, or_false] at he
  rcases he with rfl | rfl | rfl | rfl <;> decide

example : showMs 7 (run exLink) = [.rssi (-73), .ber 100, .lq (-15), .bto 3, .nackRate 7, .rxq 5, .cval 40, .svar 2,
    .lev 2 (-6), .lev 6 (-14)] := by decide

end Verif.Link
