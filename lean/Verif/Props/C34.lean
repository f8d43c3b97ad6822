import Verif.Model.MsCs
import Verif.Spec.CodingScheme
/-!
# C34: Coding scheme adaptation
-/

namespace Verif.Ms

open Verif.Cs

/-- Number of a scheme: CS-1..4, MCS-1..9. -/
def level : CS → Nat
  | .unknown => 0
  | .cs1 => 1 | .cs2 => 2 | .cs3 => 3 | .cs4 => 4
  | .mcs1 => 1 | .mcs2 => 2 | .mcs3 => 3 | .mcs4 => 4 | .mcs5 => 5 | .mcs6 => 6 | .mcs7 => 7 | .mcs8 => 8 | .mcs9 => 9

/-- Greatest number allowed in a mode. A maximum CS of 0 stands for no limit. -/
def limit (mode : Kind) (maxCs maxMcs : Nat) : Nat :=
  match mode with
  | .gprs => if maxCs = 0 then 4 else maxCs
  | .egprsGmsk => min 4 maxMcs
  | .egprs => maxMcs

/-- A scheme of the mode, not above the maximum. -/
def Good (mode : Kind) (c : CS) (maxCs maxMcs : Nat) : Prop :=
  c ∈ schemesOf mode ∧ level c ≤ limit mode maxCs maxMcs
instance (mode c a b) : Decidable (Good mode c a b) := inferInstanceAs (Decidable (_ ∧ _))

/-- A cell whose initial schemes are not above the greatest ones. -/
structure Sane (b : Cell) : Prop where
  csDl : b.maxCsDl ≤ 4 ∧ b.initCsDl ≤ limit .gprs b.maxCsDl 0
  csUl : b.maxCsUl ≤ 4 ∧ b.initCsUl ≤ limit .gprs b.maxCsUl 0
  mcsDl : b.maxMcsDl ≤ 9 ∧ b.initMcsDl ≤ b.maxMcsDl
  mcsUl : b.maxMcsUl ≤ 9 ∧ b.initMcsUl ≤ b.maxMcsUl

/-- History of a mobile in a cell: its EGPRS class becomes known or changes, error rates and link
qualities are reported. -/
inductive Hist (b : Cell) (a : Adj) (range : CS → Int × Int) : Ms → Prop
  | init : Hist b a range (init b)
  | egprs {m} : Hist b a range m → Hist b a range (setEgprsClass b m)
  | rate {m m'} (now r : Int) : Hist b a range m → updateErrorRate b a now m r = some m' → Hist b a range m'
  | qual {m} (q : Option Int) : Hist b a range m → Hist b a range (updateCsUl b range m q)

theorem recalcMax_le (mask : Nat) : ∀ n, recalcMax mask n ≤ n
  | 0 => Nat.le_refl _
  | n + 1 => by
    unfold recalcMax
    split
    · exact Nat.le_refl _
    · have := recalcMax_le mask n; omega

/-- `k` is the greatest scheme number up to `n` that the BTS supports (bit `k - 1` of `mask`), 0 if
there is none. -/
def Greatest (mask n k : Nat) : Prop :=
  k ≤ n ∧ (0 < k → mask.testBit (k - 1) = true) ∧ ∀ j, k < j → j ≤ n → mask.testBit (j - 1) = false

theorem recalcMax_greatest (mask : Nat) : ∀ n, Greatest mask n (recalcMax mask n)
  | 0 => ⟨Nat.le_refl _, fun h => absurd h (Nat.lt_irrefl _), fun j h1 h2 => by omega⟩
  | n + 1 => by
    unfold recalcMax
    split
    · exact ⟨Nat.le_refl _, fun _ => ‹_›, fun j h1 h2 => by omega⟩
    · rename_i h
      obtain ⟨h1, h2, h3⟩ := recalcMax_greatest mask n
      refine ⟨by omega, h2, fun j hj1 hj2 => ?_⟩
      by_cases hjn : j = n + 1
      · subst hjn; simpa using h
      · exact h3 j hj1 (by omega)

/-- The limits of a cell are the greatest schemes within the configuration that the BTS supports. -/
theorem C34_max (c : Cfg) : Greatest c.csMask c.vtyMaxCsDl (cellOf c).maxCsDl ∧ Greatest c.csMask c.vtyMaxCsUl (cellOf c).maxCsUl ∧
    Greatest c.mcsMask c.vtyMaxMcsDl (cellOf c).maxMcsDl ∧ Greatest c.mcsMask c.vtyMaxMcsUl (cellOf c).maxMcsUl :=
  ⟨recalcMax_greatest _ _, recalcMax_greatest _ _, recalcMax_greatest _ _, recalcMax_greatest _ _⟩
example : (cellOf { csMask := 0b0111, mcsMask := 0b100001111 }).maxCsDl = 3 ∧ (cellOf { mcsMask := 0b000001111 }).maxMcsDl = 4 := by decide

/-- The limits computed from the configuration are sane, whatever the BTS announces and supports,
unless the operator forces the initial scheme. -/
theorem C34_config (c : Cfg) (h1 : c.vtyMaxCsDl ≤ 4) (h2 : c.vtyMaxCsUl ≤ 4) (h3 : c.vtyMaxMcsDl ≤ 9)
    (h4 : c.vtyMaxMcsUl ≤ 9) (h5 : c.forceInitCs = false) (h6 : c.forceInitMcs = false) : Sane (cellOf c) := by
  have e1 := recalcMax_le c.csMask c.vtyMaxCsDl
  have e2 := recalcMax_le c.csMask c.vtyMaxCsUl
  have e3 := recalcMax_le c.mcsMask c.vtyMaxMcsDl
  have e4 := recalcMax_le c.mcsMask c.vtyMaxMcsUl
  constructor <;> simp only [cellOf, recalcInitCs, recalcInitMcs, h5, h6, limit, Bool.false_eq_true, if_false]
  · refine ⟨by omega, ?_⟩
    repeat' split
    all_goals omega
  · refine ⟨by omega, ?_⟩
    repeat' split
    all_goals omega
  · refine ⟨by omega, ?_⟩
    split <;> omega
  · refine ⟨by omega, ?_⟩
    split <;> omega

/-! ### Steps -/

theorem inc_good : ∀ (mode : Kind) (c : CS), ∀ a < 5, ∀ b < 10, Good mode c a b →
    c.code < (maxCs mode c a b).code → Good mode (c.incKind mode) a b := by decide +kernel

theorem dec_good : ∀ (mode : Kind) (c : CS), ∀ a < 5, ∀ b < 10, Good mode c a b →
    Good mode (c.decKind mode) a b := by decide +kernel

theorem max_known : ∀ (mode : Kind) (c : CS), ∀ a < 5, ∀ b < 10, Good mode c a b →
    maxCs mode c a b ≠ .unknown := by decide +kernel

theorem fix_gprs : ∀ (c : CS), ∀ a < 5, ∀ i < 5, i ≤ limit .gprs a 0 →
    (c.isGprs = true → Good .gprs c a 0) → Good .gprs (fixCs c.isGprs c (getGprsByNum i) .cs1) a 0 := by decide +kernel

theorem fix_gmsk : ∀ (c : CS), ∀ b < 10, ∀ i < 10, (0 < b ∧ b ≤ 4 ∧ i ≤ b) ∧ (c.isEdgeGmsk = true → level c ≤ b) →
    Good .egprsGmsk (fixCs c.isEdgeGmsk c (getEgprsByNum i) .mcs1) 0 b := by decide +kernel

theorem fix_egprs : ∀ (c : CS), ∀ b < 10, ∀ i < 10, (0 < b ∧ i ≤ b) ∧ (c.isEdge = true → level c ≤ b) →
    Good .egprs (fixCs c.isEdge c (getEgprsByNum i) .mcs1) 0 b := by decide +kernel

theorem egprs_num : ∀ b < 10, 0 < b → (getEgprsByNum b).isEdgeGmsk = true → b ≤ 4 := by decide

theorem good_edge : ∀ (mode : Kind) (c : CS), ∀ a < 5, ∀ b < 10, Good mode c a b → c.isEdge = true → level c ≤ b := by
  decide +kernel

theorem good_gmsk : ∀ (mode : Kind) (c : CS), ∀ a < 5, ∀ b < 10, Good mode c a b → c.isEdgeGmsk = true → level c ≤ b := by
  decide +kernel

theorem Good.of_gprs {c : CS} {a b b' : Nat} (h : Good .gprs c a b) : Good .gprs c a b' := h
theorem Good.of_egprs {c : CS} {a a' b : Nat} (h : Good .egprs c a b) : Good .egprs c a' b := h
theorem Good.of_gmsk {c : CS} {a a' b : Nat} (h : Good .egprsGmsk c a b) : Good .egprsGmsk c a' b := h

theorem Hist.good {b : Cell} {a : Adj} {range : CS → Int × Int} {m : Ms} (hb : Sane b) (h : Hist b a range m) :
    Good m.mode m.curDl b.maxCsDl b.maxMcsDl ∧ Good m.mode m.curUl b.maxCsUl b.maxMcsUl := by
  obtain ⟨⟨c1, c2⟩, ⟨c3, c4⟩, ⟨c5, c6⟩, ⟨c7, c8⟩⟩ := hb
  have l1 : limit .gprs b.maxCsDl 0 ≤ 4 := by simp only [limit]; split <;> omega
  have l2 : limit .gprs b.maxCsUl 0 ≤ 4 := by simp only [limit]; split <;> omega
  induction h with
  | init =>
    exact ⟨(fix_gprs .unknown b.maxCsDl (by omega) b.initCsDl (by omega) c2 nofun).of_gprs,
      (fix_gprs .unknown b.maxCsUl (by omega) b.initCsUl (by omega) c4 nofun).of_gprs⟩
  | @egprs m _ ih =>
    unfold setEgprsClass
    split
    · exact ih
    · rename_i h0
      have p1 : 0 < b.maxMcsUl := by omega
      have p2 : 0 < b.maxMcsDl := by omega
      split
      · rename_i hc
        simp only [Bool.and_eq_true] at hc
        have q1 := egprs_num _ (by omega) p1 hc.1.1
        have q2 := egprs_num _ (by omega) p2 hc.1.2
        exact ⟨(fix_gmsk m.curDl b.maxMcsDl (by omega) b.initMcsDl (by omega) ⟨⟨p2, q2, c6⟩,
            good_gmsk _ _ _ (by omega) _ (by omega) ih.1⟩).of_gmsk,
          (fix_gmsk m.curUl b.maxMcsUl (by omega) b.initMcsUl (by omega) ⟨⟨p1, q1, c8⟩,
            good_gmsk _ _ _ (by omega) _ (by omega) ih.2⟩).of_gmsk⟩
      · exact ⟨(fix_egprs m.curDl b.maxMcsDl (by omega) b.initMcsDl (by omega) ⟨⟨p2, c6⟩,
            good_edge _ _ _ (by omega) _ (by omega) ih.1⟩).of_egprs,
          (fix_egprs m.curUl b.maxMcsUl (by omega) b.initMcsUl (by omega) ⟨⟨p1, c8⟩,
            good_edge _ _ _ (by omega) _ (by omega) ih.2⟩).of_egprs⟩
  | @rate m m' now r _ hr ih =>
    unfold updateErrorRate at hr
    dsimp only at hr
    split at hr
    · cases hr
    · split at hr
      · cases hr; exact ih
      · split at hr
        · cases hr
          split
          · exact ⟨dec_good _ _ _ (by omega) _ (by omega) ih.1, ih.2⟩
          · exact ih
        · split at hr
          · cases hr
            split
            · rename_i hc
              exact ⟨inc_good _ _ _ (by omega) _ (by omega) ih.1 hc.1, ih.2⟩
            · exact ih
          · cases hr; exact ih
  | @qual m q _ ih =>
    unfold updateCsUl
    dsimp only
    split
    · exact ih
    · split
      · exact ih
      · refine ⟨ih.1, ?_⟩
        dsimp only
        split
        · exact dec_good _ _ _ (by omega) _ (by omega) ih.2
        · split
          · rename_i hc
            exact inc_good _ _ _ (by omega) _ (by omega) ih.2 hc.2.2
          · exact ih.2

/-- C34, current scheme. Partial: the property is claimed for every configuration; it is proved for
cells whose initial schemes are not above the greatest ones (`C34_config`: the operator does not
force them) and whose limits are not lowered during the life of the mobile. After any history of
reports the downlink scheme is one of the mode of the mobile and not above the maximum; the same
holds for the uplink scheme; and no report leads to an assertion. -/
theorem C34_current_partial (b : Cell) (a : Adj) (range : CS → Int × Int) (m : Ms) (hb : Sane b) (h : Hist b a range m) :
    m.curDl ∈ schemesOf m.mode ∧ level m.curDl ≤ limit m.mode b.maxCsDl b.maxMcsDl ∧
    m.curUl ∈ schemesOf m.mode ∧ level m.curUl ≤ limit m.mode b.maxCsUl b.maxMcsUl ∧
    ∀ now r, ∃ m', updateErrorRate b a now m r = some m' := by
  have hg := h.good hb
  refine ⟨hg.1.1, hg.1.2, hg.2.1, hg.2.2, fun now r => ?_⟩
  have hk := max_known _ _ b.maxCsDl (by have := hb.csDl.1; omega) b.maxMcsDl (by have := hb.mcsDl.1; omega) hg.1
  unfold updateErrorRate
  dsimp only
  rw [if_neg hk]
  repeat' split
  all_goals exact ⟨_, rfl⟩

theorem dec_step : ∀ (mode : Kind) (c : CS), c ∈ schemesOf mode → 0 < c.chanCode → level (c.decKind mode) + 1 = level c := by
  decide +kernel
theorem inc_step : ∀ (mode : Kind) (c : CS), c ∈ schemesOf mode →
    level (c.incKind mode) = level c + 1 ∨ c.incKind mode = c := by decide +kernel
theorem dec_zero : ∀ (mode : Kind) (c : CS), c ∈ schemesOf mode → c.chanCode = 0 → level c = 1 := by decide

/-- C34, steps: one report changes the downlink scheme by at most one step, in the direction the
error rate calls for: above the upper limit one step down (unless the lowest scheme is in use),
below the lower limit at most one step up and only if the rate has been low for more than a second,
no change otherwise. The mode and the uplink scheme do not change. -/
theorem C34_one_step (b : Cell) (a : Adj) (now r : Int) (m m' : Ms) (hm : m.curDl ∈ schemesOf m.mode)
    (h : updateErrorRate b a now m r = some m') :
    m'.mode = m.mode ∧ m'.curUl = m.curUl ∧
    (0 ≤ r ∧ r > a.upper → level m'.curDl = max 1 (level m.curDl - 1)) ∧
    (0 ≤ r ∧ r ≤ a.upper ∧ r < a.lower → m'.curDl = m.curDl ∨ (level m'.curDl = level m.curDl + 1 ∧ now - m.notLow > 1000)) ∧
    (r < 0 ∨ (r ≤ a.upper ∧ a.lower ≤ r) → m'.curDl = m.curDl) := by
  have d1 := dec_step m.mode m.curDl hm
  have d2 := inc_step m.mode m.curDl hm
  have d3 := dec_zero m.mode m.curDl hm
  unfold updateErrorRate at h
  dsimp only at h
  split at h
  · cases h
  · split at h
    · rename_i h0
      cases h
      exact ⟨rfl, rfl, fun h => by omega, fun h => by omega, fun _ => rfl⟩
    · split at h
      · rename_i h0 h1
        cases h
        split
        · rename_i h2
          refine ⟨rfl, rfl, fun _ => ?_, fun h => by omega, fun h => by omega⟩
          dsimp only
          have := d1 h2
          have : 1 ≤ level (m.curDl.decKind m.mode) := by
            have : ∀ (k : Kind) (c : CS), c ∈ schemesOf k → 1 ≤ level (c.decKind k) := by decide
            exact this _ _ hm
          omega
        · refine ⟨rfl, rfl, fun _ => ?_, fun h => by omega, fun h => by omega⟩
          dsimp only
          have := d3 (by omega)
          omega
      · split at h
        · rename_i h1 h2
          cases h
          split
          · rename_i h3
            refine ⟨rfl, rfl, fun h => by omega, fun _ => ?_, fun h => by omega⟩
            rcases d2 with d2 | d2
            · exact .inr ⟨d2, h3.2⟩
            · exact .inl d2
          · exact ⟨rfl, rfl, fun h => by omega, fun _ => .inl rfl, fun h => by omega⟩
        · cases h
          exact ⟨rfl, rfl, fun h => by omega, fun h => by omega, fun _ => rfl⟩

/-! ### The scheme of a block -/

theorem findGprs_le (b : Cell) : ∀ n < 4, ∀ x, findGprs b n = some x → x ∈ schemesOf .gprs ∧ level x ≤ n + 1 := by
  intro n
  induction n with
  | zero =>
    intro _ x h
    unfold findGprs at h
    split at h
    · cases h; decide
    · cases h
  | succ n ih =>
    intro hn x h
    unfold findGprs at h
    have : n = 0 ∨ n = 1 ∨ n = 2 := by omega
    rcases this with rfl | rfl | rfl <;>
      · simp only [CS.ofCode, CS.all, List.getElem?_cons_succ, List.getElem?_cons_zero] at h
        split at h
        · cases h
        · cases h; decide
        · have := ih (by omega) x h
          exact ⟨this.1, by omega⟩

theorem dec_le : ∀ (mode : Kind) (c : CS), level (c.decKind mode) ≤ level c := by decide
theorem dec_kind : ∀ (k mode : Kind) (c : CS), c ∈ schemesOf k → c.decKind mode ∈ schemesOf k := by decide

/-- C34, block: the scheme for a block is not above the current one, and if a kind is asked for it
is of this kind: CS-1..4 for GPRS; nothing above MCS-4 for GMSK. It keeps the family (CS or MCS)
of the current scheme unless GPRS is asked for. -/
theorem C34_block (b : Cell) (m : Ms) (hm : m.curDl ∈ schemesOf m.mode) (req : Kind) (few : Bool) (x : CS)
    (h : currentCsDl b m req few = some x) :
    level x ≤ level m.curDl ∧ (req = .gprs → x ∈ schemesOf .gprs) ∧
    (req = .egprsGmsk → x ∈ schemesOf .gprs ∨ x ∈ schemesOf .egprsGmsk) ∧
    (req ≠ .gprs → (x ∈ schemesOf .gprs ↔ m.curDl ∈ schemesOf .gprs)) := by
  unfold currentCsDl at h
  cases hr : restrictCs b m.curDl req with
  | none => rw [hr] at h; cases h
  | some c =>
    rw [hr] at h
    simp only [Option.map_some, Option.some.injEq] at h
    have hc : level c ≤ level m.curDl ∧ (req = .gprs → c ∈ schemesOf .gprs) ∧
        (req = .egprsGmsk → c ∈ schemesOf .gprs ∨ c ∈ schemesOf .egprsGmsk) ∧
        (req ≠ .gprs → (c ∈ schemesOf .gprs ↔ m.curDl ∈ schemesOf .gprs)) ∧ (c ∈ schemesOf .gprs ∨ c ∈ schemesOf .egprs) := by
      unfold restrictCs at hr
      generalize m.curDl = cur at *
      generalize m.mode = mode at *
      split at hr
      · rename_i hq
        have hlev : 5 ≤ level cur ∧ cur ∉ schemesOf .gprs := by
          have : ∀ c : CS, c.code > CS.mcs4.code → 5 ≤ level c ∧ c ∉ schemesOf .gprs := by decide
          exact this _ hq.2.2
        cases hr
        refine ⟨?_, fun h => absurd (hq.1 ▸ h) (by decide), fun _ => .inr ?_, fun _ => ?_, .inr ?_⟩
        · refine Nat.le_trans ?_ (Nat.le_trans (by decide : 4 ≤ 5) hlev.1)
          repeat' split
          all_goals decide
        · repeat' split
          all_goals decide
        · constructor
          · intro hx
            exfalso
            repeat' split at hx
            all_goals exact absurd hx (by decide)
          · intro hx; exact absurd hx hlev.2
        · repeat' split
          all_goals decide
      · split at hr
        · rename_i hq
          have := findGprs_le b _ (by
            have : ∀ c : CS, ((if c.code > CS.mcs4.code then CS.mcs4.code else c.code) - 5) < 4 := by decide
            exact this _) c hr
          have hl : ∀ c : CS, c.isEdge = true → ((if c.code > CS.mcs4.code then CS.mcs4.code else c.code) - 5) + 1 ≤ level c := by decide
          refine ⟨Nat.le_trans this.2 (hl _ hq.2), fun _ => this.1, fun _ => .inl this.1, fun h => absurd hq.1 h, .inl this.1⟩
        · rename_i h1 h2
          cases hr
          refine ⟨Nat.le_refl _, fun hq => ?_, fun hq => ?_, fun _ => Iff.rfl, ?_⟩
          · subst hq
            have : ∀ (k : Kind) (c : CS), c ∈ schemesOf k → ¬ (Kind.gprs = .gprs ∧ c.isEdge = true) → c ∈ schemesOf .gprs := by decide
            exact this _ _ hm h2
          · subst hq
            have : ∀ (k : Kind) (c : CS), c ∈ schemesOf k → ¬ (Kind.egprsGmsk = .egprsGmsk ∧ c.isEdge = true ∧ c.code > CS.mcs4.code) →
                c ∈ schemesOf .gprs ∨ c ∈ schemesOf .egprsGmsk := by decide
            exact this _ _ hm h1
          · have : ∀ (k : Kind) (c : CS), c ∈ schemesOf k → c ∈ schemesOf .gprs ∨ c ∈ schemesOf .egprs := by decide
            exact this _ _ hm
    have hdec : ∀ y : CS, level y ≤ level m.curDl ∧ (req = .gprs → y ∈ schemesOf .gprs) ∧
        (req = .egprsGmsk → y ∈ schemesOf .gprs ∨ y ∈ schemesOf .egprsGmsk) ∧
        (req ≠ .gprs → (y ∈ schemesOf .gprs ↔ m.curDl ∈ schemesOf .gprs)) ∧ (y ∈ schemesOf .gprs ∨ y ∈ schemesOf .egprs) →
        level (y.decKind m.mode) ≤ level m.curDl ∧ (req = .gprs → y.decKind m.mode ∈ schemesOf .gprs) ∧
        (req = .egprsGmsk → y.decKind m.mode ∈ schemesOf .gprs ∨ y.decKind m.mode ∈ schemesOf .egprsGmsk) ∧
        (req ≠ .gprs → (y.decKind m.mode ∈ schemesOf .gprs ↔ m.curDl ∈ schemesOf .gprs)) ∧
        (y.decKind m.mode ∈ schemesOf .gprs ∨ y.decKind m.mode ∈ schemesOf .egprs) := by
      rintro y ⟨y1, y2, y3, y4, y5⟩
      refine ⟨Nat.le_trans (dec_le _ _) y1, fun h => dec_kind _ _ _ (y2 h), fun h => ?_, fun h => ?_, ?_⟩
      · rcases y3 h with h | h
        · exact .inl (dec_kind _ _ _ h)
        · exact .inr (dec_kind _ _ _ h)
      · rw [← y4 h]
        have : ∀ (k : Kind) (c : CS), (c ∈ schemesOf .gprs ∨ c ∈ schemesOf .egprs) → (c.decKind k ∈ schemesOf .gprs ↔ c ∈ schemesOf .gprs) := by decide
        exact this _ _ y5
      · rcases y5 with h | h
        · exact .inl (dec_kind _ _ _ h)
        · exact .inr (dec_kind _ _ _ h)
    subst h
    have fin : ∀ y : CS, (level y ≤ level m.curDl ∧ (req = .gprs → y ∈ schemesOf .gprs) ∧
        (req = .egprsGmsk → y ∈ schemesOf .gprs ∨ y ∈ schemesOf .egprsGmsk) ∧
        (req ≠ .gprs → (y ∈ schemesOf .gprs ↔ m.curDl ∈ schemesOf .gprs)) ∧ (y ∈ schemesOf .gprs ∨ y ∈ schemesOf .egprs)) →
        level y ≤ level m.curDl ∧ (req = .gprs → y ∈ schemesOf .gprs) ∧
        (req = .egprsGmsk → y ∈ schemesOf .gprs ∨ y ∈ schemesOf .egprsGmsk) ∧
        (req ≠ .gprs → (y ∈ schemesOf .gprs ↔ m.curDl ∈ schemesOf .gprs)) :=
      fun y ⟨a, b, c, d, _⟩ => ⟨a, b, c, d⟩
    split
    · exact fin _ hc
    · split
      · exact fin _ (hdec _ (hdec _ hc))
      · exact fin _ (hdec _ hc)

theorem findGprs_total (b : Cell) (h : b.csMask.testBit 0 = true) : ∀ n < 4, ∃ x, findGprs b n = some x := by
  have h1 : dlSupported b .cs1 = some true := by
    have : (dlSupported b .cs1) = some (decide (b.maxCsDl ≥ 0) && b.csMask.testBit 0) := rfl
    rw [this, h]; simp
  intro n
  induction n with
  | zero =>
    intro _
    unfold findGprs
    rw [h1]
    exact ⟨_, rfl⟩
  | succ n ih =>
    intro hn
    unfold findGprs
    have : n = 0 ∨ n = 1 ∨ n = 2 := by omega
    rcases this with rfl | rfl | rfl <;>
      · simp only [CS.ofCode, CS.all, List.getElem?_cons_succ, List.getElem?_cons_zero]
        generalize hd : dlSupported b _ = d
        cases d with
        | none =>
          exfalso
          unfold dlSupported at hd
          simp [CS.isValid, CS.isGprs, isGprsCode, CS.code] at hd
        | some v =>
          cases v with
          | true => exact ⟨_, rfl⟩
          | false => exact ih (by omega)

/-- C34, block: there always is a scheme if the BTS supports CS-1. -/
theorem C34_block_defined (b : Cell) (h : b.csMask.testBit 0 = true) (m : Ms) (req : Kind) (few : Bool) :
    ∃ x, currentCsDl b m req few = some x := by
  have hr : ∃ c, restrictCs b m.curDl req = some c := by
    unfold restrictCs
    split
    · exact ⟨_, rfl⟩
    · split
      · refine findGprs_total b h _ ?_
        have : ∀ c : CS, ((if c.code > CS.mcs4.code then CS.mcs4.code else c.code) - 5) < 4 := by decide
        exact this _
      · exact ⟨_, rfl⟩
  obtain ⟨c, hc⟩ := hr
  unfold currentCsDl
  rw [hc]
  exact ⟨_, rfl⟩

/-! ### Where the code differs -/

/-- The scheme of a GPRS block for a mobile in EGPRS mode exceeds the maximum by one: CS-4 although
the operator allows at most CS-3. -/
theorem C34_block_exceeds_max : ∃ (c : Cfg) (a : Adj) (range : CS → Int × Int) (m : Ms), Hist (cellOf c) a range m ∧
    c.vtyMaxCsDl = 3 ∧ currentCsDl (cellOf c) m .gprs false = some .cs4 := by
  refine ⟨{ vtyMaxCsDl := 3, infoInitMcs := 9 }, ⟨10, 33⟩, fun _ => (0, 0), _, .egprs .init, rfl, by decide +kernel⟩

/-- An initial scheme forced by the operator above the maximum is used. -/
theorem C34_forced_exceeds_max : ∃ (c : Cfg) (a : Adj) (range : CS → Int × Int) (m : Ms), Hist (cellOf c) a range m ∧
    c.vtyMaxCsDl = 2 ∧ m.mode = .gprs ∧ m.curDl = .cs4 := by
  refine ⟨{ vtyMaxCsDl := 2, forceInitCs := true, vtyInitCsDl := 4 }, ⟨10, 33⟩, fun _ => (0, 0), _, .init, rfl, rfl, by decide +kernel⟩

/-- A mobile in GMSK-only mode is sent 8-PSK if the initial scheme is forced to MCS-9. -/
theorem C34_forced_not_of_mode : ∃ (c : Cfg) (a : Adj) (range : CS → Int × Int) (m : Ms), Hist (cellOf c) a range m ∧
    m.mode = .egprsGmsk ∧ m.curDl = .mcs9 := by
  refine ⟨{ vtyMaxMcsDl := 4, vtyMaxMcsUl := 4, forceInitMcs := true, vtyInitMcsDl := 9 }, ⟨10, 33⟩, fun _ => (0, 0), _, .egprs .init,
    by decide +kernel, by decide +kernel⟩

/-- A maximum that is lowered does not affect a mobile whose scheme is above it as long as its error
rate is not high. -/
theorem C34_lowered_max : ∃ (b b' : Cell) (a : Adj) (range : CS → Int × Int) (m : Ms), Hist b a range m ∧ Sane b ∧ Sane b' ∧
    m.mode = .egprs ∧ b'.maxMcsDl < level m.curDl ∧
    ∀ now r m', r ≤ a.upper → updateErrorRate b' a now m r = some m' → m'.curDl = m.curDl := by
  refine ⟨{ initMcsDl := 9 }, { maxMcsDl := 5 }, ⟨10, 33⟩, fun _ => (0, 0), _, .egprs .init, ⟨by decide, by decide, by decide, by decide⟩,
    ⟨by decide, by decide, by decide, by decide⟩, by decide +kernel, by decide +kernel, fun now r m' hr h => ?_⟩
  unfold updateErrorRate at h
  dsimp only at h hr
  split at h
  · cases h
  · split at h
    · cases h; rfl
    · split at h
      · omega
      · split at h
        · rw [if_neg (fun hc => absurd hc.1 (by decide +kernel))] at h
          cases h; rfl
        · cases h; rfl

/-- The steps do not look at what the BTS supports: with CS-1 and CS-3 only, CS-2 is used. -/
theorem C34_unsupported_scheme : ∃ (c : Cfg) (a : Adj) (range : CS → Int × Int) (m : Ms), Hist (cellOf c) a range m ∧
    c.csMask = 5 ∧ m.curDl = .cs2 := by
  have h : updateErrorRate (cellOf { csMask := 5 }) ⟨10, 33⟩ 2000 (init (cellOf { csMask := 5 })) 0 =
      some { mode := .gprs, curUl := .cs1, curDl := .cs2, nack := 0, notLow := 2000 } := by decide +kernel
  exact ⟨{ csMask := 5 }, ⟨10, 33⟩, fun _ => (0, 0), _, .rate 2000 0 .init h, rfl, rfl⟩

/-! Instance: a mobile in EGPRS mode climbs and is slowed down again; sanity of the cell. -/

example : Sane { initMcsDl := 9 } := ⟨by decide, by decide, by decide, by decide⟩
example : ∃ m1 m2 m3, updateErrorRate {} ⟨10, 33⟩ 2000 (setEgprsClass {} (init {})) 5 = some m1 ∧ m1.curDl = .mcs2 ∧
    updateErrorRate {} ⟨10, 33⟩ 4000 m1 5 = some m2 ∧ m2.curDl = .mcs3 ∧
    updateErrorRate {} ⟨10, 33⟩ 4100 m2 50 = some m3 ∧ m3.curDl = .mcs2 := ⟨_, _, _, rfl, rfl, rfl, rfl, rfl, rfl⟩
example : currentCsDl { maxMcsDl := 9 } { mode := .egprs, curUl := .mcs1, curDl := .mcs7 } .egprsGmsk false = some .mcs4 := by decide +kernel

end Verif.Ms
