import Verif.Lemmas.Class
import Verif.Spec.MslotClass
import Verif.Props.C21
/-!
# C23: allocations respect the multislot class
-/

namespace Verif.Alloc

/-- The table of the program has the limits of TS 45.002. -/
theorem C23_table (cls : Nat) (l : Limits) (h : limits cls = some l) (dflt : Nat) :
    (getClass dflt cls).tx = l.tx ∧ (getClass dflt cls).rx = l.rx ∧
    (∀ n, l.sum = some n → (getClass dflt cls).sum = n) := by
  have hlt : cls < 46 := by
    refine Decidable.byContradiction fun hc => ?_
    have : limits cls = none := by
      unfold limits
      split <;> first | rfl | omega
    rw [this] at h
    cases h
  have h0 : cls ≠ 0 := by
    rintro rfl
    cases h
  have e : getClass dflt cls = getClass 0 cls := by
    unfold getClass
    rw [if_neg (by omega), if_pos h0, if_neg (by omega), if_pos h0]
  rw [e]
  have all : ∀ k, k < 46 → limits k = none ∨
      (limits k).all (fun l => (getClass 0 k).tx == l.tx && (getClass 0 k).rx == l.rx &&
        l.sum.all fun n => (getClass 0 k).sum == n) = true := by decide
  rcases all cls hlt with this | this
  · rw [h] at this; cases this
  · rw [h] at this
    simp only [Option.all_some, Bool.and_eq_true, beq_iff_eq] at this
    refine ⟨this.1.1, this.1.2, ?_⟩
    intro n hn
    have := this.2
    rw [hn] at this
    simpa using this

theorem fits_allows {dflt cls U D : Nat} {l : Limits} (hl : limits (effClass dflt cls) = some l)
    (hf : Fits (getClass dflt cls) U D) : l.allows (slotsIn U).length (slotsIn D).length := by
  have e : getClass dflt cls = getClass dflt (effClass dflt cls) := by
    unfold effClass
    by_cases h0 : cls = 0
    · rw [if_pos h0]
      subst h0
      have hlt : dflt < 46 := by
        refine Decidable.byContradiction fun hc => ?_
        have : limits (effClass dflt 0) = none := by
          unfold effClass limits
          simp only [if_true]
          split <;> first | rfl | omega
        rw [this] at hl
        cases hl
      unfold getClass
      by_cases hd : dflt = 0
      · subst hd; rfl
      · rw [if_neg (by omega), if_neg (by omega), if_neg (by omega), if_pos hd]
    · rw [if_neg h0]
  rw [e] at hf
  obtain ⟨h1, h2, h3⟩ := C23_table _ _ hl dflt
  obtain ⟨f1, f2, f3, -⟩ := hf
  have pu : pop U = (slotsIn U).length := by unfold pop slotsIn; rw [List.countP_eq_length_filter]
  have pd : pop D = (slotsIn D).length := by unfold pop slotsIn; rw [List.countP_eq_length_filter]
  rw [pu] at f1 f3
  rw [pd] at f2 f3
  refine ⟨by omega, by omega, ?_⟩
  intro n hn
  rw [← h3 n hn]
  exact f3

theorem Limits.allows.mono {l : Limits} {a b c d : Nat} (h : l.allows a b) (h1 : c ≤ a) (h2 : d ≤ b) : l.allows c d := by
  obtain ⟨x, y, z⟩ := h
  refine ⟨by omega, by omega, fun n hn => ?_⟩
  have := z n hn
  omega

theorem filter_length_mono (l : List Nat) {p q : Nat → Bool} (h : ∀ s, s ∈ l → p s = true → q s = true) :
    (l.filter p).length ≤ (l.filter q).length := by
  rw [← List.countP_eq_length_filter, ← List.countP_eq_length_filter]
  exact List.countP_mono_left h

/-- One allocation, for any load of the cell: a mobile holding nothing gets slots within the limits of
its class. The downlink slots are receive slots, the uplink slots transmit slots, all enabled, and one
slot is in the assignment and reserved in both directions.

Requests for a single uplink slot are included only when every enabled PDCH has a free USF:
`C23_single_slot_exceeds`. -/
theorem C23_allocation_partial (algo : Algo) (dflt : Nat) (bts : Nat → Trx) (disabled : Bool) (ms : Ms)
    (req : Req) (r : Res) (l : Limits) (hl : limits (effClass dflt ms.cls) = some l)
    (hms : ms.ul = 0 ∧ ms.dl = 0 ∧ ms.trx = none)
    (hreq : req.dir = .ul → req.single = true → ms.fct = none → ∀ t s, (bts t s).enabled = true →
      ∃ u, u < 7 ∧ (bts t s).usfMap.testBit u = false)
    (h : (allocate algo dflt bts disabled ms req).1 = some r) :
    l.allows (slotsIn r.ul).length (slotsIn r.dl).length ∧
    (∀ s, r.mask.testBit s = true → s < 8 ∧ (bts r.trx s).enabled = true) ∧
    (match req.dir with
      | .ul => l.allows (slotsIn r.mask).length (slotsIn r.dl).length
      | .dl => l.allows (slotsIn r.ul).length (slotsIn r.mask).length) ∧
    ∃ s, r.mask.testBit s = true ∧ r.ul.testBit s = true ∧ r.dl.testBit s = true := by
  have hmsok : MsOk bts ms := by
    unfold MsOk
    simp [hms.1, hms.2.1, hms.2.2]
  have hok := allocate_ok hmsok h
  obtain ⟨U, D, hf, hr⟩ := (allocate_in hmsok (fun a b c t s d => by
    obtain ⟨u, h1, h2⟩ := hreq a b c t s d
    exact ⟨u, h1, h2⟩) h).2 hms.1 hms.2.1
  have hal := fits_allows hl hf
  have hu : (slotsIn r.ul).length ≤ (slotsIn U).length := filter_length_mono _ fun s _ hs => hr.ul s hs
  have hd : (slotsIn r.dl).length ≤ (slotsIn D).length := filter_length_mono _ fun s _ hs => hr.dl s hs
  refine ⟨hal.mono hu hd, ?_, ?_, r.fct, hr.fct.2.2, hr.fct.1, hr.fct.2.1⟩
  · intro s hs
    exact ⟨(hok.slots s hs).1, (hok.slots s hs).2.1⟩
  · have hmk := hr.mask
    cases hq : req.dir with
    | ul =>
      simp only [hq, if_true] at hmk
      exact hal.mono (filter_length_mono _ fun s _ hs => hmk s hs) hd
    | dl =>
      simp only [hq] at hmk
      exact hal.mono hu (filter_length_mono _ fun s _ hs => hmk s hs)

/-- Histories: as long as the multislot class of a mobile does not change and its access is not rejected
while it holds slots, no PDCH is disabled, and single slot uplink requests find a free USF on every
enabled PDCH, the slots of all TBFs of a mobile together are within the limits of its class, are enabled
PDCHs of one TRX, and the slots reserved in the two directions share one.

Missing: the other histories. `C23_single_slot_exceeds` and `C23_class_change_exceeds` show that the
property fails for some of them. -/
theorem C23_history_partial (cfg : Cfg) (ops : List Op) (w : World)
    (ht : TameRun cfg World.init ops) (h : run cfg World.init ops = some w)
    (m : Nat) (hm : m < w.msN) (l : Limits) (hl : limits (effClass cfg.dflt (w.ms m).cls) = some l) :
    l.allows (slotsOf w m .ul).length (slotsOf w m .dl).length ∧
    (∀ b x s, w.tbf b = some x → x.ms = m → x.slots s = true →
      ∃ t, (w.ms m).trx = some t ∧ x.trx = some t ∧ (w.pdch t s).enabled = true ∧
      ∃ c, (w.ms m).ul.testBit c = true ∧ (w.ms m).dl.testBit c = true) := by
  have hi := reachable_inv h
  have hc : CInv cfg.dflt w := run_class ops init_inv (fun m hm => absurd hm (Nat.not_lt_zero m)) ht h
  rcases hc m hm with hb | ⟨U, D, hh⟩
  · constructor
    · have e : ∀ d, (slotsOf w m d).length = 0 := by
        intro d
        rw [List.length_eq_zero_iff, slotsOf, List.filter_eq_nil_iff]
        intro s _
        rw [Bool.not_eq_true, List.any_eq_false]
        intro b _
        cases hq : w.tbf b with
        | none => simp
        | some x =>
          by_cases hx : x.ms = m
          · simp [hb.tbf b x s hq hx]
          · simp [hx]
      rw [e, e]
      exact ⟨Nat.zero_le _, Nat.zero_le _, fun _ _ => Nat.zero_le _⟩
    · intro b x s h1 h2 h3
      rw [hb.tbf b x s h1 h2] at h3
      cases h3
  · constructor
    · refine (fits_allows hl hh.fits).mono ?_ ?_
      all_goals
        refine filter_length_mono _ ?_
        intro s _ hs
        rw [List.any_eq_true] at hs
        obtain ⟨b, -, hb⟩ := hs
        cases hq : w.tbf b with
        | none => rw [hq] at hb; cases hb
        | some x =>
          rw [hq] at hb
          simp only [Bool.and_eq_true, decide_eq_true_eq] at hb
          have := (hh.tbf b x s hq hb.1.1 hb.2).2
          rw [hb.1.2] at this
          exact this
    · intro b x s h1 h2 h3
      obtain ⟨k1, -⟩ := hh.tbf b x s h1 h2 h3
      obtain ⟨c, hc1, hc2⟩ := hh.common
      obtain ⟨-, t, ht', -⟩ := (hi.r.msok m hm).bit (d := .ul) hc1
      refine ⟨t, ht', k1.trans ht', ?_, c, hc1, hc2⟩
      obtain ⟨-, t2, i, h4, -, h5⟩ := hi.t.slots b x s h1 h3
      rw [k1.trans ht'] at h4
      cases h4
      have hon : (w.pdch t s).tbfs x.dir i = some b := (hi.t.on t s x.dir i b).2 ⟨x, h1, rfl, k1.trans ht', h3, h5⟩
      cases he : (w.pdch t s).enabled with
      | true => rfl
      | false =>
        rw [(hi.t.p t s).off he x.dir i] at hon
        cases hon

/-- Four slots, a mobile of class 10 with a downlink and then an uplink TBF: 4 + 1 slots. -/
def c23Ops : List Op := [.enable 0 0 0, .enable 0 1 0, .enable 0 2 0, .enable 0 3 0, .newMs 10,
  .alloc 0 ⟨.dl, true, none⟩ true, .upgrade 0, .alloc 0 ⟨.ul, false, none⟩ true]

example : TameRun ⟨.b, 8⟩ World.init c23Ops := by
  simp only [c23Ops, TameRun, Tame, true_and]
  simp [ReqOk]

example : ((run ⟨.b, 8⟩ World.init c23Ops).map fun w => (slotsOf w 0 .ul, slotsOf w 0 .dl)) =
    some ([2], [0, 1, 2, 3]) := by decide +kernel

/-! ## Where the property fails -/

/-- Mobiles `a`, `a+1`, … of class `c`, each with an uplink TBF. -/
def newUl (a n c : Nat) (single : Bool) : List Op :=
  (List.range' a n).flatMap fun i => [.newMs c, .alloc i ⟨.ul, single, none⟩ true]

/-- Slots 1 and 2 have all their USFs in use; then slots 0 and 3 are enabled and a mobile of class 8 (one
transmit slot) asks for a single uplink slot. -/
def c23Full : List Op :=
  [.enable 0 2 0] ++ newUl 0 7 1 false ++ [.enable 0 1 0] ++ newUl 7 6 1 false ++
    [.enable 0 0 0, .enable 0 3 0] ++ newUl 13 1 8 true

/-- The fallback of the single slot selection takes the index of a slot as a mask of slots: a request for
one uplink slot is answered with two, more than the class of the mobile allows. -/
theorem C23_single_slot_exceeds : ∃ w, run ⟨.b, 8⟩ World.init c23Full = some w ∧
    (w.ms 13).cls = 8 ∧ (slotsOf w 13 .ul).length = 2 ∧
    ∀ l, limits (effClass 8 (w.ms 13).cls) = some l →
      ¬ l.allows (slotsOf w 13 .ul).length (slotsOf w 13 .dl).length := by
  have h : ((run ⟨.b, 8⟩ World.init c23Full).map fun w => ((w.ms 13).cls, (slotsOf w 13 .ul).length)) =
      some (8, 2) := by decide +kernel
  cases hr : run ⟨.b, 8⟩ World.init c23Full with
  | none => rw [hr] at h; cases h
  | some w =>
    rw [hr] at h
    simp only [Option.map_some, Option.some.injEq, Prod.mk.injEq] at h
    refine ⟨w, rfl, h.1, h.2, ?_⟩
    rw [h.1, h.2]
    intro l hl
    cases hl
    intro ha
    exact absurd ha.1 (by decide)

/-- A class that becomes known after the slots have been assigned under the default class. -/
theorem C23_class_change_exceeds : ∃ w, run ⟨.b, 12⟩ World.init
      [.enable 0 0 0, .enable 0 1 0, .enable 0 2 0, .enable 0 3 0, .newMs 0,
        .alloc 0 ⟨.dl, false, none⟩ true, .setClass 0 1] = some w ∧
    (w.ms 0).cls = 1 ∧ (slotsOf w 0 .dl).length = 4 := by
  have h : ((run ⟨.b, 12⟩ World.init [.enable 0 0 0, .enable 0 1 0, .enable 0 2 0, .enable 0 3 0, .newMs 0,
      .alloc 0 ⟨.dl, false, none⟩ true, .setClass 0 1]).map fun w => ((w.ms 0).cls, (slotsOf w 0 .dl).length)) =
      some (1, 4) := by decide +kernel
  cases hr : run ⟨.b, 12⟩ World.init [.enable 0 0 0, .enable 0 1 0, .enable 0 2 0, .enable 0 3 0, .newMs 0,
      .alloc 0 ⟨.dl, false, none⟩ true, .setClass 0 1] with
  | none => rw [hr] at h; cases h
  | some w =>
    rw [hr] at h
    simp only [Option.map_some, Option.some.injEq, Prod.mk.injEq] at h
    exact ⟨w, rfl, h.1, h.2⟩

end Verif.Alloc
