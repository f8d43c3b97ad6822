import Verif.Model.World
import Verif.Lemmas.AllocAlgo
/-!
# Invariant of PDCHs, TBFs and mobiles
-/

namespace Verif.Alloc

/-! ## Counting -/

theorem countP_upd (l : List Nat) (hn : l.Nodup) (k : Nat) (hk : k ∈ l) (f g : Nat → Bool)
    (h : ∀ j, j ≠ k → f j = g j) : l.countP f + (g k).toNat = l.countP g + (f k).toNat := by
  induction l with
  | nil => cases hk
  | cons a l ih =>
    obtain ⟨ha, hn'⟩ := List.nodup_cons.1 hn
    rw [List.countP_cons, List.countP_cons]
    rcases List.mem_cons.1 hk with rfl | hk
    · have : l.countP f = l.countP g := by
        apply List.countP_congr
        intro j hj
        rw [h j (fun e => ha (e ▸ hj))]
      rw [this]
      cases f k <;> cases g k <;> simp
    · have hne : a ≠ k := fun e => ha (e ▸ hk)
      have := ih hn' hk
      rw [h a hne]
      omega

theorem sum_upd (l : List Nat) (hn : l.Nodup) (k : Nat) (hk : k ∈ l) (f g : Nat → Int)
    (h : ∀ j, j ≠ k → f j = g j) : (l.map f).sum + g k = (l.map g).sum + f k := by
  induction l with
  | nil => cases hk
  | cons a l ih =>
    obtain ⟨ha, hn'⟩ := List.nodup_cons.1 hn
    simp only [List.map_cons, List.sum_cons]
    rcases List.mem_cons.1 hk with rfl | hk
    · have : l.map f = l.map g := by
        apply List.map_congr_left
        intro j hj
        exact h j (fun e => ha (e ▸ hj))
      rw [this]
      omega
    · have hne : a ≠ k := fun e => ha (e ▸ hk)
      have := ih hn' hk
      rw [h a hne]
      omega

/-- Sum over the PDCHs of the BTS. -/
def total (f : Pdch → Int) (w : World) : Int :=
  ((List.range 64).map fun k => f (w.pdch (k / 8) (k % 8))).sum

theorem total_congr {f : Pdch → Int} {w w' : World} (h : ∀ t s, f (w'.pdch t s) = f (w.pdch t s)) :
    total f w' = total f w := by
  unfold total
  congr 1
  apply List.map_congr_left
  intro k _
  exact h _ _

theorem total_set {f : Pdch → Int} {w w' : World} {t s : Nat} (ht : t < 8) (hs : s < 8)
    (h : ∀ t' s', ¬ (t' = t ∧ s' = s) → f (w'.pdch t' s') = f (w.pdch t' s')) :
    total f w' + f (w.pdch t s) = total f w + f (w'.pdch t s) := by
  unfold total
  have := sum_upd (List.range 64) List.nodup_range (t * 8 + s) (List.mem_range.2 (by omega))
    (fun k => f (w'.pdch (k / 8) (k % 8))) (fun k => f (w.pdch (k / 8) (k % 8))) (by
      intro j hj
      apply h
      omega)
  have e1 : (t * 8 + s) / 8 = t := by omega
  have e2 : (t * 8 + s) % 8 = s := by omega
  rw [e1, e2] at this
  exact this

theorem testBit_setBit (m i j : Nat) : (setBit m i).testBit j = (m.testBit j || decide (i = j)) := by
  unfold setBit
  rw [Nat.testBit_or, testBit_one_shl]

theorem testBit_clrBit (m i j : Nat) : (clrBit m i).testBit j = (m.testBit j && !decide (i = j)) := by
  unfold clrBit
  rw [Nat.testBit_xor, Nat.testBit_and, testBit_one_shl]
  cases m.testBit j <;> cases decide (i = j) <;> rfl

/-! ## One PDCH -/

/-- Is TFI `i` used by a TBF with the given EGPRS flag? -/
def isKind (p : Pdch) (eg : Nat → Bool) (d : Dir) (e : Bool) (i : Nat) : Bool :=
  match p.tbfs d i with
  | some b => eg b == e
  | none => false

/-- Number of TBFs of a direction and kind. -/
def cnt (p : Pdch) (eg : Nat → Bool) (d : Dir) (e : Bool) : Nat :=
  (List.range 32).countP (isKind p eg d e)

/-- The maps and counters of a PDCH describe the TBFs in its table. -/
structure PInv (p : Pdch) (eg : Nat → Bool) (us : Nat → Nat) : Prop where
  tfi : ∀ d i, (p.tfiMap d).testBit i = (p.tbfs d i).isSome
  lt : ∀ d i b, p.tbfs d i = some b → i < 32
  usf : ∀ u, p.usfMap.testBit u = true ↔ ∃ i b, p.tbfs .ul i = some b ∧ us b = u
  usf7 : ∀ i b, p.tbfs .ul i = some b → us b < 7
  inj : ∀ i j b c, p.tbfs .ul i = some b → p.tbfs .ul j = some c → us b = us c → i = j
  gprs : ∀ d, p.gprs d = cnt p eg d false
  egprs : ∀ d, p.egprs d = cnt p eg d true
  off : p.enabled = false → ∀ d i, p.tbfs d i = none

theorem isKind_congr {p : Pdch} {eg eg' : Nat → Bool} {d : Dir} {e : Bool} {i : Nat}
    (h : ∀ b, p.tbfs d i = some b → eg b = eg' b) : isKind p eg d e i = isKind p eg' d e i := by
  unfold isKind
  cases hb : p.tbfs d i with
  | none => rfl
  | some b => simp only []; rw [h b hb]

theorem PInv.congr {p p' : Pdch} {eg eg' : Nat → Bool} {us us' : Nat → Nat} (h : PInv p eg us)
    (ht : p'.tbfs = p.tbfs) (hf : p'.tfiMap = p.tfiMap) (hu : p'.usfMap = p.usfMap)
    (hg : p'.gprs = p.gprs) (he : p'.egprs = p.egprs) (hen : p'.enabled = false → p.enabled = false ∨
      ∀ d i, p.tbfs d i = none)
    (hc : ∀ d i b, p.tbfs d i = some b → eg b = eg' b ∧ us b = us' b) : PInv p' eg' us' := by
  have hcnt : ∀ d e, cnt p' eg' d e = cnt p eg d e := by
    intro d e
    unfold cnt
    apply List.countP_congr
    intro i _
    have : isKind p' eg' d e i = isKind p eg d e i := by
      rw [isKind_congr (p := p) (eg := eg) (eg' := eg') (fun b hb => (hc d i b hb).1)]
      unfold isKind
      rw [ht]
    rw [this]
  constructor
  · intro d i; rw [hf, ht]; exact h.tfi d i
  · rw [ht]; exact h.lt
  · intro u
    rw [hu, ht]
    refine Iff.trans (h.usf u) ?_
    constructor
    · rintro ⟨i, b, h1, h2⟩
      exact ⟨i, b, h1, by rw [← (hc _ _ _ h1).2]; exact h2⟩
    · rintro ⟨i, b, h1, h2⟩
      exact ⟨i, b, h1, by rw [(hc _ _ _ h1).2]; exact h2⟩
  · intro i b hb
    rw [ht] at hb
    rw [← (hc _ _ _ hb).2]
    exact h.usf7 i b hb
  · intro i j b c hb hcc huu
    rw [ht] at hb hcc
    rw [← (hc _ _ _ hb).2, ← (hc _ _ _ hcc).2] at huu
    exact h.inj i j b c hb hcc huu
  · intro d; rw [hg, hcnt]; exact h.gprs d
  · intro d; rw [he, hcnt]; exact h.egprs d
  · intro hoff d i
    rw [ht]
    rcases hen hoff with h1 | h1
    · exact h.off h1 d i
    · exact h1 d i

theorem addNum_fields (p : Pdch) (d : Dir) (e a : Bool) :
    (p.addNum d e a).tbfs = p.tbfs ∧ (p.addNum d e a).tfiMap = p.tfiMap ∧
    (p.addNum d e a).usfMap = p.usfMap ∧ (p.addNum d e a).enabled = p.enabled ∧
    (p.addNum d e a).reserved = p.reserved ∧ (p.addNum d e a).tsc = p.tsc := by
  unfold Pdch.addNum
  cases e <;> exact ⟨rfl, rfl, rfl, rfl, rfl, rfl⟩

/-- The counter of a kind and direction. -/
def num (p : Pdch) (d : Dir) (e : Bool) : Nat := if e then p.egprs d else p.gprs d

theorem num_addNum (p : Pdch) (d d' : Dir) (e e' a : Bool) :
    num (p.addNum d e a) d' e' =
      if d' = d ∧ e' = e then (if a then num p d e + 1 else num p d e - 1) else num p d' e' := by
  unfold num Pdch.addNum
  cases e <;> cases e' <;> by_cases h : d' = d <;> cases a <;> simp [h]

theorem PInv.num_eq {p : Pdch} {eg : Nat → Bool} {us : Nat → Nat} (h : PInv p eg us) (d : Dir) (e : Bool) :
    num p d e = cnt p eg d e := by
  unfold num
  cases e
  · exact h.gprs d
  · exact h.egprs d

/-- Attaching a TBF with a free TFI and a free USF. -/
theorem PInv.put {p : Pdch} {eg : Nat → Bool} {us : Nat → Nat} (h : PInv p eg us) {d : Dir} {i b : Nat}
    (hfree : p.tbfs d i = none) (hi : i < 32) (hen : p.enabled = true)
    (hu : d = .ul → us b < 7 ∧ p.usfMap.testBit (us b) = false) :
    PInv ((p.addNum d (eg b) true).put d i (us b) b) eg us := by
  obtain ⟨e1, e2, e3, e4, -, -⟩ := addNum_fields p d (eg b) true
  have htb : ∀ d' j, ((p.addNum d (eg b) true).put d i (us b) b).tbfs d' j =
      if d' = d ∧ j = i then some b else p.tbfs d' j := by
    intro d' j; simp only [Pdch.put, e1]
  have hk : ∀ d' e', cnt ((p.addNum d (eg b) true).put d i (us b) b) eg d' e' =
      if d' = d ∧ e' = eg b then cnt p eg d e' + 1 else cnt p eg d' e' := by
    intro d' e'
    unfold cnt
    by_cases hd : d' = d
    · subst hd
      have := countP_upd (List.range 32) List.nodup_range i (List.mem_range.2 hi)
        (isKind ((p.addNum d' (eg b) true).put d' i (us b) b) eg d' e') (isKind p eg d' e') (by
          intro j hj
          unfold isKind
          rw [htb]
          simp [hj])
      have h1 : isKind p eg d' e' i = false := by unfold isKind; rw [hfree]
      have h2 : isKind ((p.addNum d' (eg b) true).put d' i (us b) b) eg d' e' i = (eg b == e') := by
        unfold isKind; rw [htb]; simp
      rw [h1, h2] at this
      simp only [Bool.toNat_false, Nat.add_zero] at this
      by_cases he : e' = eg b
      · subst he; simpa using this
      · have : (eg b == e') = false := by simpa using fun h => he h.symm
        simp_all
    · simp only [hd, false_and, if_false]
      apply List.countP_congr
      intro j _
      have : isKind ((p.addNum d (eg b) true).put d i (us b) b) eg d' e' j = isKind p eg d' e' j := by
        unfold isKind
        rw [htb]
        simp [hd]
      rw [this]
  have hnum : ∀ d' e', num ((p.addNum d (eg b) true).put d i (us b) b) d' e' =
      cnt ((p.addNum d (eg b) true).put d i (us b) b) eg d' e' := by
    intro d' e'
    have h1 : num ((p.addNum d (eg b) true).put d i (us b) b) d' e' = num (p.addNum d (eg b) true) d' e' := rfl
    rw [h1, num_addNum, hk]
    by_cases hc : d' = d ∧ e' = eg b
    · rw [if_pos hc, if_pos hc, h.num_eq, hc.2]; rfl
    · rw [if_neg hc, if_neg hc, h.num_eq]
  constructor
  · intro d' j
    rw [htb]
    have hm : (((p.addNum d (eg b) true).put d i (us b) b).tfiMap d').testBit j =
        if d' = d then ((p.tfiMap d).testBit j || decide (i = j)) else (p.tfiMap d').testBit j := by
      simp only [Pdch.put, e2]
      by_cases hd : d' = d
      · simp only [hd, if_true]; exact testBit_setBit _ _ _
      · simp only [hd, if_false]
    rw [hm]
    by_cases hd : d' = d
    · subst hd
      by_cases hj : i = j
      · subst hj; simp
      · have : ¬ j = i := fun h => hj h.symm
        simp [hj, this, h.tfi]
    · simp [hd, h.tfi]
  · intro d' j c hc
    rw [htb] at hc
    split at hc
    · rename_i hh; omega
    · exact h.lt _ _ _ hc
  · intro u
    have hm : ((p.addNum d (eg b) true).put d i (us b) b).usfMap.testBit u =
        if d = .ul then (p.usfMap.testBit u || decide (us b = u)) else p.usfMap.testBit u := by
      simp only [Pdch.put, e3]
      by_cases hd : d = .ul
      · simp only [hd, if_true]; exact testBit_setBit _ _ _
      · simp only [hd, if_false]
    rw [hm]
    by_cases hd : d = .ul
    · subst hd
      simp only [if_true, Bool.or_eq_true, decide_eq_true_eq, h.usf]
      constructor
      · rintro (⟨j, c, h1, h2⟩ | h1)
        · refine ⟨j, c, ?_, h2⟩
          rw [htb]
          have : ¬ j = i := by intro e; subst e; rw [hfree] at h1; cases h1
          simp [this, h1]
        · exact ⟨i, b, by rw [htb]; simp, h1⟩
      · rintro ⟨j, c, h1, h2⟩
        rw [htb] at h1
        split at h1
        · cases h1; exact Or.inr h2
        · exact Or.inl ⟨j, c, h1, h2⟩
    · simp only [hd, if_false, h.usf]
      have : ∀ j, ((p.addNum d (eg b) true).put d i (us b) b).tbfs .ul j = p.tbfs .ul j := by
        intro j; rw [htb]; rw [if_neg (fun hh => hd hh.1.symm)]
      simp only [this]
  · intro j c hc
    rw [htb] at hc
    split at hc
    · rename_i hh
      cases hc
      exact (hu hh.1.symm).1
    · exact h.usf7 _ _ hc
  · intro j k c c' hc hc' hcc
    rw [htb] at hc hc'
    split at hc
    · rename_i hh
      cases hc
      split at hc'
      · rename_i hh'; omega
      · exfalso
        have h1 := (hu hh.1.symm).2
        have h2 := (h.usf (us b)).2 ⟨k, c', hc', hcc.symm⟩
        rw [h1] at h2; cases h2
    · split at hc'
      · rename_i hh
        cases hc'
        exfalso
        have h1 := (hu hh.1.symm).2
        have h2 := (h.usf (us b)).2 ⟨j, c, hc, hcc⟩
        rw [h1] at h2; cases h2
      · exact h.inj _ _ _ _ hc hc' hcc
  · intro d'; exact hnum d' false
  · intro d'; exact hnum d' true
  · intro hoff
    exfalso
    have : ((p.addNum d (eg b) true).put d i (us b) b).enabled = p.enabled := e4
    rw [this, hen] at hoff
    cases hoff

/-- Detaching a TBF of the table. -/
theorem PInv.drop {p : Pdch} {eg : Nat → Bool} {us : Nat → Nat} (h : PInv p eg us) {d : Dir} {i b : Nat}
    (hat : p.tbfs d i = some b) :
    num p d (eg b) ≠ 0 ∧ PInv ((p.addNum d (eg b) false).drop d i (us b)) eg us := by
  obtain ⟨e1, e2, e3, e4, -, -⟩ := addNum_fields p d (eg b) false
  have hi := h.lt _ _ _ hat
  have htb : ∀ d' j, ((p.addNum d (eg b) false).drop d i (us b)).tbfs d' j =
      if d' = d ∧ j = i then none else p.tbfs d' j := by
    intro d' j; simp only [Pdch.drop, e1]
  have hpos : num p d (eg b) ≠ 0 := by
    rw [h.num_eq]
    unfold cnt
    have : 0 < (List.range 32).countP (isKind p eg d (eg b)) :=
      List.countP_pos_iff.2 ⟨i, List.mem_range.2 hi, by unfold isKind; rw [hat]; simp⟩
    omega
  have hk : ∀ d' e', cnt ((p.addNum d (eg b) false).drop d i (us b)) eg d' e' =
      if d' = d ∧ e' = eg b then cnt p eg d e' - 1 else cnt p eg d' e' := by
    intro d' e'
    unfold cnt
    by_cases hd : d' = d
    · subst hd
      have := countP_upd (List.range 32) List.nodup_range i (List.mem_range.2 hi)
        (isKind ((p.addNum d' (eg b) false).drop d' i (us b)) eg d' e') (isKind p eg d' e') (by
          intro j hj
          unfold isKind
          rw [htb]
          simp [hj])
      have h1 : isKind p eg d' e' i = (eg b == e') := by unfold isKind; rw [hat]
      have h2 : isKind ((p.addNum d' (eg b) false).drop d' i (us b)) eg d' e' i = false := by
        unfold isKind; rw [htb]; simp
      rw [h1, h2] at this
      simp only [Bool.toNat_false, Nat.add_zero] at this
      by_cases he : e' = eg b
      · subst he
        simp only [beq_self_eq_true, Bool.toNat_true] at this
        simp only [and_self, if_true]
        omega
      · have : (eg b == e') = false := by simpa using fun h => he h.symm
        simp_all
    · simp only [hd, false_and, if_false]
      apply List.countP_congr
      intro j _
      have : isKind ((p.addNum d (eg b) false).drop d i (us b)) eg d' e' j = isKind p eg d' e' j := by
        unfold isKind
        rw [htb]
        simp [hd]
      rw [this]
  have hnum : ∀ d' e', num ((p.addNum d (eg b) false).drop d i (us b)) d' e' =
      cnt ((p.addNum d (eg b) false).drop d i (us b)) eg d' e' := by
    intro d' e'
    have h1 : num ((p.addNum d (eg b) false).drop d i (us b)) d' e' = num (p.addNum d (eg b) false) d' e' := rfl
    rw [h1, num_addNum, hk]
    by_cases hc : d' = d ∧ e' = eg b
    · rw [if_pos hc, if_pos hc, h.num_eq, hc.2]; rfl
    · rw [if_neg hc, if_neg hc, h.num_eq]
  refine ⟨hpos, ?_⟩
  constructor
  · intro d' j
    rw [htb]
    have hm : (((p.addNum d (eg b) false).drop d i (us b)).tfiMap d').testBit j =
        if d' = d then ((p.tfiMap d).testBit j && !decide (i = j)) else (p.tfiMap d').testBit j := by
      simp only [Pdch.drop, e2]
      by_cases hd : d' = d
      · simp only [hd, if_true]; exact testBit_clrBit _ _ _
      · simp only [hd, if_false]
    rw [hm]
    by_cases hd : d' = d
    · subst hd
      by_cases hj : i = j
      · subst hj; simp
      · have : ¬ j = i := fun h => hj h.symm
        simp [hj, this, h.tfi]
    · simp [hd, h.tfi]
  · intro d' j c hc
    rw [htb] at hc
    split at hc
    · cases hc
    · exact h.lt _ _ _ hc
  · intro u
    have hm : ((p.addNum d (eg b) false).drop d i (us b)).usfMap.testBit u =
        if d = .ul then (p.usfMap.testBit u && !decide (us b = u)) else p.usfMap.testBit u := by
      simp only [Pdch.drop, e3]
      by_cases hd : d = .ul
      · simp only [hd, if_true]; exact testBit_clrBit _ _ _
      · simp only [hd, if_false]
    rw [hm]
    by_cases hd : d = .ul
    · subst hd
      simp only [if_true, Bool.and_eq_true, Bool.not_eq_true', decide_eq_false_iff_not, h.usf]
      constructor
      · rintro ⟨⟨j, c, h1, h2⟩, h3⟩
        refine ⟨j, c, ?_, h2⟩
        rw [htb]
        have : ¬ j = i := by
          intro e; subst e; rw [hat] at h1; cases h1; exact h3 h2
        simp [this, h1]
      · rintro ⟨j, c, h1, h2⟩
        rw [htb] at h1
        split at h1
        · cases h1
        · rename_i hne
          refine ⟨⟨j, c, h1, h2⟩, ?_⟩
          intro hbu
          exact hne ⟨rfl, h.inj _ _ _ _ h1 hat (by rw [h2, hbu])⟩
    · simp only [hd, if_false, h.usf]
      have : ∀ j, ((p.addNum d (eg b) false).drop d i (us b)).tbfs .ul j = p.tbfs .ul j := by
        intro j; rw [htb]; rw [if_neg (fun hh => hd hh.1.symm)]
      simp only [this]
  · intro j c hc
    rw [htb] at hc
    split at hc
    · cases hc
    · exact h.usf7 _ _ hc
  · intro j k c c' hc hc' hcc
    rw [htb] at hc hc'
    split at hc
    · cases hc
    · split at hc'
      · cases hc'
      · exact h.inj _ _ _ _ hc hc' hcc
  · intro d'; exact hnum d' false
  · intro d'; exact hnum d' true
  · intro hoff d' j
    have : ((p.addNum d (eg b) false).drop d i (us b)).enabled = p.enabled := e4
    rw [this] at hoff
    rw [htb]
    split
    · rfl
    · exact h.off hoff d' j

/-! ## TBFs -/

/-- EGPRS flag and USF of a TBF. -/
def eg (w : World) (b : Nat) : Bool := match w.tbf b with
  | some x => x.egprs
  | none => false
def us (w : World) (s b : Nat) : Nat := match w.tbf b with
  | some x => x.usf s
  | none => 255

/-- TBF `b` is on slot `s` of TRX `t` in direction `d` with TFI `i`. -/
def On (w : World) (b : Nat) (d : Dir) (t s i : Nat) : Prop :=
  ∃ x, w.tbf b = some x ∧ x.dir = d ∧ x.trx = some t ∧ x.slots s = true ∧ x.tfi = some i

def occAll (p : Pdch) : Int := if p.gprs .ul + p.gprs .dl + (p.egprs .ul + p.egprs .dl) = 0 then 0 else 1
def occG (p : Pdch) : Int := if p.gprs .ul + p.gprs .dl = 0 then 0 else 1
def occE (p : Pdch) : Int := if p.egprs .ul + p.egprs .dl = 0 then 0 else 1
def isOn (p : Pdch) : Int := if p.enabled then 1 else 0

/-- Invariant of the TBFs. -/
structure TInv (w : World) : Prop where
  p : ∀ t s, PInv (w.pdch t s) (eg w) (us w s)
  on : ∀ t s d i b, (w.pdch t s).tbfs d i = some b ↔ On w b d t s i
  slots : ∀ b x s, w.tbf b = some x → x.slots s = true →
    s < 8 ∧ ∃ t i, x.trx = some t ∧ t < 8 ∧ x.tfi = some i
  fresh : ∀ b x, w.tbf b = some x → b < w.tbfN
  occ : w.occ = total occAll w
  occGprs : w.occGprs = total occG w
  occEgprs : w.occEgprs = total occE w
  avail : w.avail = total isOn w

/-- Only reservations and mobiles differ. -/
structure SameT (w w' : World) : Prop where
  tbf : w'.tbf = w.tbf
  tbfN : w'.tbfN = w.tbfN
  occ : w'.occ = w.occ
  occGprs : w'.occGprs = w.occGprs
  occEgprs : w'.occEgprs = w.occEgprs
  avail : w'.avail = w.avail
  pd : ∀ t s, ∃ r, w'.pdch t s = { w.pdch t s with reserved := r }

theorem SameT.refl (w : World) : SameT w w := ⟨rfl, rfl, rfl, rfl, rfl, rfl, fun _ _ => ⟨_, rfl⟩⟩

theorem SameT.trans {a b c : World} (h : SameT a b) (h' : SameT b c) : SameT a c := by
  refine ⟨h'.tbf.trans h.tbf, h'.tbfN.trans h.tbfN, h'.occ.trans h.occ, h'.occGprs.trans h.occGprs,
    h'.occEgprs.trans h.occEgprs, h'.avail.trans h.avail, fun t s => ?_⟩
  obtain ⟨r, hr⟩ := h.pd t s
  obtain ⟨r', hr'⟩ := h'.pd t s
  exact ⟨r', by rw [hr', hr]⟩

theorem TInv.same {w w' : World} (h : TInv w) (hs : SameT w w') : TInv w' := by
  have heg : eg w' = eg w := by unfold eg; rw [hs.tbf]
  have hus : us w' = us w := by unfold us; rw [hs.tbf]
  have hpd := hs.pd
  constructor
  · intro t s
    obtain ⟨r, hr⟩ := hpd t s
    rw [heg, hus, hr]
    exact (h.p t s).congr rfl rfl rfl rfl rfl (fun h => Or.inl h) (fun _ _ _ _ => ⟨rfl, rfl⟩)
  · intro t s d i b
    obtain ⟨r, hr⟩ := hpd t s
    rw [hr]
    unfold On
    rw [hs.tbf]
    exact h.on t s d i b
  · rw [hs.tbf]; exact h.slots
  · rw [hs.tbf, hs.tbfN]; exact h.fresh
  · rw [hs.occ, h.occ]
    refine (total_congr fun t s => ?_).symm
    obtain ⟨r, hr⟩ := hpd t s
    rw [hr]; rfl
  · rw [hs.occGprs, h.occGprs]
    refine (total_congr fun t s => ?_).symm
    obtain ⟨r, hr⟩ := hpd t s
    rw [hr]; rfl
  · rw [hs.occEgprs, h.occEgprs]
    refine (total_congr fun t s => ?_).symm
    obtain ⟨r, hr⟩ := hpd t s
    rw [hr]; rfl
  · rw [hs.avail, h.avail]
    refine (total_congr fun t s => ?_).symm
    obtain ⟨r, hr⟩ := hpd t s
    rw [hr]; rfl

/-- Replacing a TBF keeping what the tables depend on. -/
theorem TInv.setTbf {w : World} (h : TInv w) {b : Nat} {x x' : Tbf} (hx : w.tbf b = some x)
    (he : x'.egprs = x.egprs) (hd : x'.dir = x.dir) (ht : (∃ s, x.slots s = true) → x'.trx = x.trx)
    (hi : (∃ s, x.slots s = true) → x'.tfi = x.tfi) (hs : x'.slots = x.slots)
    (hu : x'.usf = x.usf) : TInv (w.setTbf b (some x')) := by
  have htb : ∀ c, (w.setTbf b (some x')).tbf c = if c = b then some x' else w.tbf c := fun c => rfl
  have heg : eg (w.setTbf b (some x')) = eg w := by
    funext c; unfold eg; rw [htb]
    by_cases hc : c = b
    · subst hc; simp [hx, he]
    · simp [hc]
  have hus : us (w.setTbf b (some x')) = us w := by
    funext s c; unfold us; rw [htb]
    by_cases hc : c = b
    · subst hc; simp [hx, hu]
    · simp [hc]
  constructor
  · intro t s; rw [heg, hus]; exact h.p t s
  · intro t s d i c
    refine Iff.trans (h.on t s d i c) ?_
    unfold On
    rw [htb]
    by_cases hc : c = b
    · subst hc
      simp only [if_true, hx, Option.some.injEq, exists_eq_left', hd, hs]
      constructor
      · rintro ⟨h1, h2, h3, h4⟩
        exact ⟨h1, by rw [ht ⟨s, h3⟩]; exact h2, h3, by rw [hi ⟨s, h3⟩]; exact h4⟩
      · rintro ⟨h1, h2, h3, h4⟩
        exact ⟨h1, by rw [ht ⟨s, h3⟩] at h2; exact h2, h3, by rw [hi ⟨s, h3⟩] at h4; exact h4⟩
    · simp only [hc, if_false]
  · intro c y s hy hsl
    rw [htb] at hy
    split at hy
    · cases hy
      rw [hs] at hsl
      obtain ⟨h1, t, i, h2, h3, h4⟩ := h.slots b x s hx hsl
      exact ⟨h1, t, i, by rw [ht ⟨s, hsl⟩]; exact h2, h3, by rw [hi ⟨s, hsl⟩]; exact h4⟩
    · exact h.slots c y s hy hsl
  · intro c y hy
    rw [htb] at hy
    split at hy
    · rename_i hc; rw [hc]; exact h.fresh b x hx
    · exact h.fresh c y hy
  · exact h.occ
  · exact h.occGprs
  · exact h.occEgprs
  · exact h.avail

/-- Removing a TBF without slots. -/
theorem TInv.delTbf {w : World} (h : TInv w) {b : Nat} {x : Tbf} (hx : w.tbf b = some x)
    (hs : ∀ s, x.slots s = false) : TInv (w.setTbf b none) := by
  have htb : ∀ c, (w.setTbf b none).tbf c = if c = b then none else w.tbf c := fun c => rfl
  have hno : ∀ t s d i, ((w.pdch t s).tbfs d i) ≠ some b := by
    intro t s d i hc
    obtain ⟨y, h1, -, -, h2, -⟩ := (h.on t s d i b).1 hc
    rw [hx] at h1; cases h1
    rw [hs] at h2; cases h2
  constructor
  · intro t s
    refine (h.p t s).congr rfl rfl rfl rfl rfl (fun h => Or.inl h) ?_
    intro d i c hc
    have hne : c ≠ b := fun e => hno t s d i (e ▸ hc)
    unfold eg us
    rw [htb]
    simp [hne]
  · intro t s d i c
    refine Iff.trans (h.on t s d i c) ?_
    unfold On
    rw [htb]
    by_cases hc : c = b
    · subst hc
      simp only [if_true, hx, reduceCtorEq, false_and, exists_false, iff_false]
      rintro ⟨y, h1, -, -, h2, -⟩
      cases h1
      rw [hs] at h2; cases h2
    · simp only [hc, if_false]
  · intro c y s hy hsl
    rw [htb] at hy
    split at hy
    · cases hy
    · exact h.slots c y s hy hsl
  · intro c y hy
    rw [htb] at hy
    split at hy
    · cases hy
    · exact h.fresh c y hy
  · exact h.occ
  · exact h.occGprs
  · exact h.occEgprs
  · exact h.avail

/-- Adding a TBF without slots. -/
theorem TInv.addTbf {w w' : World} (h : TInv w) {x : Tbf} (hs : ∀ s, x.slots s = false)
    (htb : ∀ c, w'.tbf c = if c = w.tbfN then some x else w.tbf c) (hN : w'.tbfN = w.tbfN + 1)
    (hp : w'.pdch = w.pdch) (h1 : w'.occ = w.occ) (h2 : w'.occGprs = w.occGprs)
    (h3 : w'.occEgprs = w.occEgprs) (h4 : w'.avail = w.avail) : TInv w' := by
  have hno : w.tbf w.tbfN = none := by
    cases hq : w.tbf w.tbfN with
    | none => rfl
    | some y => exact absurd (h.fresh _ _ hq) (Nat.lt_irrefl _)
  constructor
  · intro t s
    rw [hp]
    refine (h.p t s).congr rfl rfl rfl rfl rfl (fun h => Or.inl h) ?_
    intro d i c hc
    have hne : c ≠ w.tbfN := by
      intro e; subst e
      obtain ⟨y, hy, -⟩ := (h.on t s d i _).1 hc
      rw [hno] at hy; cases hy
    unfold eg us
    rw [htb]
    simp [hne]
  · intro t s d i c
    rw [hp]
    refine Iff.trans (h.on t s d i c) ?_
    unfold On
    rw [htb]
    by_cases hc : c = w.tbfN
    · subst hc
      simp only [if_true, hno, reduceCtorEq, false_and, exists_false, false_iff, Option.some.injEq,
        exists_eq_left', hs, Bool.false_eq_true, and_false, not_false_eq_true]
    · simp only [hc, if_false]
  · intro c y s hy hsl
    rw [htb] at hy
    split at hy
    · cases hy; rw [hs] at hsl; cases hsl
    · exact h.slots c y s hy hsl
  · intro c y hy
    rw [htb] at hy
    rw [hN]
    split at hy
    · rename_i hc; omega
    · have := h.fresh c y hy; omega
  · rw [h1, h.occ]; exact total_congr (fun t s => by rw [hp]) |>.symm
  · rw [h2, h.occGprs]; exact total_congr (fun t s => by rw [hp]) |>.symm
  · rw [h3, h.occEgprs]; exact total_congr (fun t s => by rw [hp]) |>.symm
  · rw [h4, h.avail]; exact total_congr (fun t s => by rw [hp]) |>.symm

/-! ## Attaching and detaching one slot -/

theorem foldlM_range {σ : Type} (f : σ → Nat → Option σ) (P : Nat → σ → Prop) (n : Nat) (a : σ) (h0 : P 0 a)
    (hs : ∀ k, k < n → ∀ a, P k a → ∃ a', f a k = some a' ∧ P (k + 1) a') :
    ∃ a', (List.range n).foldlM f a = some a' ∧ P n a' := by
  induction n with
  | zero => exact ⟨a, rfl, h0⟩
  | succ n ih =>
    obtain ⟨a', h1, h2⟩ := ih (fun k hk => hs k (by omega))
    obtain ⟨a'', h3, h4⟩ := hs n (by omega) a' h2
    refine ⟨a'', ?_, h4⟩
    rw [List.range_succ, List.foldlM_append, h1]
    simp [h3]

theorem foldlM_inv {σ α : Type} (f : σ → α → Option σ) (P : σ → Prop) (l : List α) (a : σ) (h0 : P a)
    (hs : ∀ k, k ∈ l → ∀ a, P a → ∃ a', f a k = some a' ∧ P a') :
    ∃ a', l.foldlM f a = some a' ∧ P a' := by
  induction l generalizing a with
  | nil => exact ⟨a, rfl, h0⟩
  | cons x l ih =>
    obtain ⟨a', h1, h2⟩ := hs x List.mem_cons_self a h0
    obtain ⟨a'', h3, h4⟩ := ih a' h2 (fun k hk => hs k (List.mem_cons_of_mem _ hk))
    exact ⟨a'', by rw [List.foldlM_cons, h1]; exact h3, h4⟩

/-- Reservations, mobiles and other TBFs are the same. -/
structure SameR (b : Nat) (w w' : World) : Prop where
  ms : w'.ms = w.ms
  msN : w'.msN = w.msN
  tbfN : w'.tbfN = w.tbfN
  dis : w'.disabled = w.disabled
  en : ∀ t s, (w'.pdch t s).enabled = (w.pdch t s).enabled
  res : ∀ t s, (w'.pdch t s).reserved = (w.pdch t s).reserved
  other : ∀ c, c ≠ b → w'.tbf c = w.tbf c

theorem SameR.refl (b : Nat) (w : World) : SameR b w w :=
  ⟨rfl, rfl, rfl, rfl, fun _ _ => rfl, fun _ _ => rfl, fun _ _ => rfl⟩

theorem SameR.trans {b : Nat} {u v w : World} (h : SameR b u v) (h' : SameR b v w) : SameR b u w :=
  ⟨h'.ms.trans h.ms, h'.msN.trans h.msN, h'.tbfN.trans h.tbfN, h'.dis.trans h.dis,
   fun t s => (h'.en t s).trans (h.en t s),
   fun t s => (h'.res t s).trans (h.res t s), fun c hc => (h'.other c hc).trans (h.other c hc)⟩

theorem SameR.setTbf (b : Nat) (w : World) (x : Option Tbf) : SameR b w (w.setTbf b x) :=
  ⟨rfl, rfl, rfl, rfl, fun _ _ => rfl, fun _ _ => rfl, fun c hc => by simp [World.setTbf, hc]⟩

theorem occ_attach (p : Pdch) (d : Dir) (e : Bool) :
    (occAll (p.addNum d e true) - occAll p =
      if p.gprs .ul + p.gprs .dl + (p.egprs .ul + p.egprs .dl) = 0 then 1 else 0) ∧
    (occG (p.addNum d e true) - occG p =
      if e = false ∧ p.gprs .ul + p.gprs .dl = 0 then 1 else 0) ∧
    (occE (p.addNum d e true) - occE p =
      if e = true ∧ p.egprs .ul + p.egprs .dl = 0 then 1 else 0) := by
  cases e <;> cases d <;> simp only [occAll, occG, occE, Pdch.addNum] <;> simp <;>
    refine ⟨?_, ?_⟩ <;> split <;> (try split) <;> omega

theorem occ_detach (p : Pdch) (d : Dir) (e : Bool) (h : num p d e ≠ 0) :
    (occAll (p.addNum d e false) - occAll p =
      if p.gprs .ul + p.gprs .dl + (p.egprs .ul + p.egprs .dl) = 1 then -1 else 0) ∧
    (occG (p.addNum d e false) - occG p =
      if e = false ∧ p.gprs .ul + p.gprs .dl = 1 then -1 else 0) ∧
    (occE (p.addNum d e false) - occE p =
      if e = true ∧ p.egprs .ul + p.egprs .dl = 1 then -1 else 0) := by
  unfold num at h
  cases e <;> cases d <;> simp at h <;> simp only [occAll, occG, occE, Pdch.addNum] <;> simp <;>
    refine ⟨?_, ?_⟩ <;> split <;> (try split) <;> (try split) <;> omega

theorem attach_pdch (w : World) (t s b : Nat) (d : Dir) (e : Bool) (i u t' s' : Nat) :
    (attachTbf w t s b d e i u).pdch t' s' =
      if t' = t ∧ s' = s then ((w.pdch t s).addNum d e true).put d i u b else w.pdch t' s' := by
  unfold attachTbf numTbfsUpdate World.setPdch
  by_cases h : t' = t ∧ s' = s <;> simp [h]

theorem TInv.attach {w : World} (h : TInv w) {b t s i u : Nat} {x x' : Tbf} (hx : w.tbf b = some x)
    (ht : x.trx = some t) (ht8 : t < 8) (hs8 : s < 8) (hi : i < 32) (hns : x.slots s = false)
    (htfi : ∀ s, x.slots s = true → x.tfi = some i)
    (hen : (w.pdch t s).enabled = true) (hfree : ((w.pdch t s).tfiMap x.dir).testBit i = false)
    (hu : x.dir = .ul → u < 7 ∧ (w.pdch t s).usfMap.testBit u = false)
    (hx' : x' = { x with tfi := some i, usf := x'.usf,
                         slots := fun s' => if s' = s then true else x.slots s' })
    (hus1 : x'.usf s = u) (hus2 : ∀ s', s' ≠ s → x'.usf s' = x.usf s') :
    TInv (attachTbf (w.setTbf b (some x')) t s b x.dir x.egprs i u) ∧
    SameR b w (attachTbf (w.setTbf b (some x')) t s b x.dir x.egprs i u) := by
  generalize hw' : attachTbf (w.setTbf b (some x')) t s b x.dir x.egprs i u = w'
  have hp : ∀ t' s', w'.pdch t' s' = if t' = t ∧ s' = s then
      ((w.pdch t s).addNum x.dir x.egprs true).put x.dir i u b else w.pdch t' s' := by
    intro t' s'; rw [← hw', attach_pdch]; rfl
  have htb : ∀ c, w'.tbf c = if c = b then some x' else w.tbf c := by
    intro c; rw [← hw']; rfl
  have e_dir : x'.dir = x.dir := by rw [hx']
  have e_eg : x'.egprs = x.egprs := by rw [hx']
  have e_trx : x'.trx = x.trx := by rw [hx']
  have e_tfi : x'.tfi = some i := by rw [hx']
  have e_sl : ∀ s', x'.slots s' = if s' = s then true else x.slots s' := by intro s'; rw [hx']
  have heg : eg w' = eg w := by
    funext c; unfold eg; rw [htb]
    by_cases hc : c = b
    · subst hc; simp [hx, e_eg]
    · simp [hc]
  have hus : ∀ s' c, ¬ (c = b ∧ s' = s) → us w' s' c = us w s' c := by
    intro s' c hne; unfold us; rw [htb]
    by_cases hc : c = b
    · subst hc; simp only [if_true, hx]; exact hus2 s' (fun e => hne ⟨rfl, e⟩)
    · simp [hc]
  have hnot : ∀ t' d j, (w.pdch t' s).tbfs d j ≠ some b := by
    intro t' d j hc
    obtain ⟨y, h1, -, -, h2, -⟩ := (h.on t' s d j b).1 hc
    rw [hx] at h1; cases h1
    rw [hns] at h2; cases h2
  have hcg : ∀ t' s', PInv (w.pdch t' s') (eg w') (us w' s') := by
    intro t' s'
    refine (h.p t' s').congr rfl rfl rfl rfl rfl (fun h => Or.inl h) ?_
    intro d j c hc
    refine ⟨by rw [heg], (hus s' c ?_).symm⟩
    rintro ⟨e1, e2⟩
    subst e1 e2
    exact hnot _ _ _ hc
  have egb : eg w' b = x.egprs := by unfold eg; rw [htb]; simp [e_eg]
  have usb : us w' s b = u := by unfold us; rw [htb]; simp [hus1]
  have hnone : (w.pdch t s).tbfs x.dir i = none := by
    have := (h.p t s).tfi x.dir i
    rw [hfree] at this
    cases hq : (w.pdch t s).tbfs x.dir i with
    | none => rfl
    | some c => rw [hq] at this; cases this
  have hput := (hcg t s).put (d := x.dir) (i := i) (b := b) hnone hi hen (by rw [usb]; exact hu)
  rw [egb, usb] at hput
  have hocc := occ_attach (w.pdch t s) x.dir x.egprs
  have hts : w'.pdch t s = ((w.pdch t s).addNum x.dir x.egprs true).put x.dir i u b := by
    rw [hp]; simp
  refine ⟨?_, ?_⟩
  · constructor
    · intro t' s'
      rw [hp]
      split
      · rename_i hh; rw [hh.2]; exact hput
      · exact hcg t' s'
    · intro t' s' d j c
      rw [hp]
      have hg := h.on t' s' d j c
      have htb1 : ((((w.pdch t s).addNum x.dir x.egprs true).put x.dir i u b).tbfs d j) =
          if d = x.dir ∧ j = i then some b else (w.pdch t s).tbfs d j := by
        simp only [Pdch.put, (addNum_fields (w.pdch t s) x.dir x.egprs true).1]
      unfold On at hg ⊢
      rw [htb]
      by_cases hc : c = b
      · subst hc
        simp only [if_true, Option.some.injEq, exists_eq_left', e_dir, e_trx, e_tfi, e_sl, hx] at hg ⊢
        by_cases hh : t' = t ∧ s' = s
        · rw [if_pos hh, htb1]
          obtain ⟨e1, e2⟩ := hh
          subst e1 e2
          simp only [if_true, ht, true_and]
          constructor
          · intro hq
            split at hq
            · rename_i hd; exact ⟨hd.1.symm, hd.2.symm⟩
            · exact absurd hq (hnot _ _ _)
          · rintro ⟨h1, h2⟩
            rw [if_pos ⟨h1.symm, h2.symm⟩]
        · rw [if_neg hh]
          refine Iff.trans hg ?_
          by_cases hs' : s' = s
          · subst hs'
            have : t' ≠ t := fun e => hh ⟨e, rfl⟩
            simp only [ht, Option.some.injEq, hns, Bool.false_eq_true, false_and, and_false, false_iff]
            rintro ⟨-, h2, -⟩
            exact this h2.symm
          · simp only [if_neg hs']
            constructor
            · rintro ⟨h1, h2, h3, h4⟩
              have := htfi s' h3
              rw [this] at h4
              exact ⟨h1, h2, h3, Option.some.inj h4⟩
            · rintro ⟨h1, h2, h3, h4⟩
              exact ⟨h1, h2, h3, by rw [htfi s' h3, h4]⟩
      · simp only [if_neg hc]
        refine Iff.trans ?_ hg
        split
        · rename_i hh
          rw [htb1, hh.1, hh.2]
          split
          · rename_i hd
            rw [hd.1, hd.2, hnone]
            simp only [reduceCtorEq, iff_false, Option.some.injEq]
            exact fun e => hc e.symm
          · rfl
        · rfl
    · intro c y s' hy hsl
      rw [htb] at hy
      split at hy
      · cases hy
        rw [e_sl] at hsl
        refine ⟨?_, t, i, by rw [e_trx, ht], ht8, e_tfi⟩
        by_cases hs' : s' = s
        · omega
        · rw [if_neg hs'] at hsl
          exact (h.slots b x s' hx hsl).1
      · exact h.slots c y s' hy hsl
    · intro c y hy
      have hN : w'.tbfN = w.tbfN := by rw [← hw']; rfl
      rw [hN]
      rw [htb] at hy
      split at hy
      · rename_i hc; rw [hc]; exact h.fresh b x hx
      · exact h.fresh c y hy
    · have h1 := total_set (f := occAll) (w := w) (w' := w') ht8 hs8 (fun t' s' hne => by rw [hp, if_neg hne])
      have h2 : w'.occ = if (w.pdch t s).gprs .ul + (w.pdch t s).gprs .dl +
          ((w.pdch t s).egprs .ul + (w.pdch t s).egprs .dl) = 0 then w.occ + 1 else w.occ := by
        rw [← hw']; rfl
      have h3 : occAll (w'.pdch t s) = occAll ((w.pdch t s).addNum x.dir x.egprs true) := by rw [hts]; rfl
      have h4 := hocc.1
      rw [h2, h.occ]
      split <;> rename_i hz
      · rw [if_pos hz] at h4; omega
      · rw [if_neg hz] at h4; omega
    · have h1 := total_set (f := occG) (w := w) (w' := w') ht8 hs8 (fun t' s' hne => by rw [hp, if_neg hne])
      have h2 : w'.occGprs = if x.egprs = false ∧ (w.pdch t s).gprs .ul + (w.pdch t s).gprs .dl = 0
          then w.occGprs + 1 else w.occGprs := by
        rw [← hw']; rfl
      have h3 : occG (w'.pdch t s) = occG ((w.pdch t s).addNum x.dir x.egprs true) := by rw [hts]; rfl
      have h4 := hocc.2.1
      rw [h2, h.occGprs]
      split <;> rename_i hz
      · rw [if_pos hz] at h4; omega
      · rw [if_neg hz] at h4; omega
    · have h1 := total_set (f := occE) (w := w) (w' := w') ht8 hs8 (fun t' s' hne => by rw [hp, if_neg hne])
      have h2 : w'.occEgprs = if x.egprs = true ∧ (w.pdch t s).egprs .ul + (w.pdch t s).egprs .dl = 0
          then w.occEgprs + 1 else w.occEgprs := by
        rw [← hw']; rfl
      have h3 : occE (w'.pdch t s) = occE ((w.pdch t s).addNum x.dir x.egprs true) := by rw [hts]; rfl
      have h4 := hocc.2.2
      rw [h2, h.occEgprs]
      split <;> rename_i hz
      · rw [if_pos hz] at h4; omega
      · rw [if_neg hz] at h4; omega
    · have h2 : w'.avail = w.avail := by rw [← hw']; rfl
      rw [h2, h.avail]
      refine (total_congr fun t' s' => ?_).symm
      rw [hp]
      split
      · rename_i hh
        obtain ⟨e1, e2⟩ := hh
        subst e1 e2
        unfold isOn
        have : (((w.pdch t' s').addNum x.dir x.egprs true).put x.dir i u b).enabled = (w.pdch t' s').enabled :=
          (addNum_fields (w.pdch t' s') x.dir x.egprs true).2.2.2.1
        rw [this]
      · rfl
  · refine ⟨?_, ?_, ?_, ?_, ?_, ?_, fun c hc => by rw [htb, if_neg hc]⟩
    · rw [← hw']; rfl
    · rw [← hw']; rfl
    · rw [← hw']; rfl
    · rw [← hw']; rfl
    · intro t' s'
      rw [hp]
      split
      · rename_i hh; rw [hh.1, hh.2]; exact (addNum_fields (w.pdch t s) x.dir x.egprs true).2.2.2.1
      · rfl
    · intro t' s'
      rw [hp]
      split
      · rename_i hh; rw [hh.1, hh.2]; exact (addNum_fields (w.pdch t s) x.dir x.egprs true).2.2.2.2.1
      · rfl

theorem TInv.detach {w : World} (h : TInv w) {b t s i : Nat} {x : Tbf} (hx : w.tbf b = some x)
    (ht : x.trx = some t) (hi : x.tfi = some i) (hsl : x.slots s = true) :
    ∃ w1, detachTbf w t s x.dir x.egprs i (x.usf s) = some w1 ∧
    TInv (w1.setTbf b (some { x with slots := fun s' => if s' = s then false else x.slots s' })) ∧
    SameR b w (w1.setTbf b (some { x with slots := fun s' => if s' = s then false else x.slots s' })) := by
  have hat : (w.pdch t s).tbfs x.dir i = some b := (h.on t s x.dir i b).2 ⟨x, hx, rfl, ht, hsl, hi⟩
  have egb : eg w b = x.egprs := by unfold eg; rw [hx]
  have usb : us w s b = x.usf s := by unfold us; rw [hx]
  have hd := (h.p t s).drop hat
  rw [egb, usb] at hd
  obtain ⟨hs8, t', i', e1, ht8, -⟩ := h.slots b x s hx hsl
  rw [ht] at e1
  cases e1
  refine ⟨(numTbfsUpdate w t s x.dir x.egprs false).setPdch t s
    (((numTbfsUpdate w t s x.dir x.egprs false).pdch t s).drop x.dir i (x.usf s)),
    by unfold detachTbf; exact if_neg hd.1, ?_⟩
  generalize hx' : ({ x with slots := fun s' => if s' = s then false else x.slots s' } : Tbf) = x'
  generalize hw' : World.setTbf _ b (some x') = w'
  have hp : ∀ t' s', w'.pdch t' s' = if t' = t ∧ s' = s then
      ((w.pdch t s).addNum x.dir x.egprs false).drop x.dir i (x.usf s) else w.pdch t' s' := by
    intro t' s'; rw [← hw']
    unfold numTbfsUpdate World.setPdch World.setTbf
    by_cases h : t' = t ∧ s' = s <;> simp [h]
  have htb : ∀ c, w'.tbf c = if c = b then some x' else w.tbf c := by
    intro c; rw [← hw']; rfl
  have heg : eg w' = eg w := by
    funext c; unfold eg; rw [htb]
    by_cases hc : c = b
    · subst hc; simp [hx, ← hx']
    · simp [hc]
  have hus : us w' = us w := by
    funext s' c; unfold us; rw [htb]
    by_cases hc : c = b
    · subst hc; simp [hx, ← hx']
    · simp [hc]
  have hocc := occ_detach (w.pdch t s) x.dir x.egprs hd.1
  have hts : w'.pdch t s = ((w.pdch t s).addNum x.dir x.egprs false).drop x.dir i (x.usf s) := by
    rw [hp]; simp
  refine ⟨?_, ?_⟩
  · constructor
    · intro t' s'
      rw [hp, heg, hus]
      split
      · rename_i hh; rw [hh.2]; exact hd.2
      · exact h.p t' s'
    · intro t' s' d j c
      rw [hp]
      have hg := h.on t' s' d j c
      have htb1 : ((((w.pdch t s).addNum x.dir x.egprs false).drop x.dir i (x.usf s)).tbfs d j) =
          if d = x.dir ∧ j = i then none else (w.pdch t s).tbfs d j := by
        simp only [Pdch.drop, (addNum_fields (w.pdch t s) x.dir x.egprs false).1]
      unfold On at hg ⊢
      rw [htb]
      by_cases hc : c = b
      · subst hc
        simp only [if_true, Option.some.injEq, exists_eq_left', hx, ← hx', ht, hi] at hg ⊢
        by_cases hh : t' = t ∧ s' = s
        · rw [if_pos hh, htb1]
          obtain ⟨e1, e2⟩ := hh
          subst e1 e2
          simp only [if_true, Bool.false_eq_true, false_and, and_false, iff_false]
          intro hq
          split at hq
          · cases hq
          · rename_i hne
            obtain ⟨h1, -, -, h2⟩ := hg.1 hq
            exact hne ⟨h1.symm, h2.symm⟩
        · rw [if_neg hh]
          refine Iff.trans hg ?_
          by_cases hs' : s' = s
          · subst hs'
            have : t ≠ t' := fun e => hh ⟨e.symm, rfl⟩
            simp [this]
          · simp only [if_neg hs']
      · simp only [if_neg hc]
        refine Iff.trans ?_ hg
        split
        · rename_i hh
          rw [htb1, hh.1, hh.2]
          split
          · rename_i hd'
            rw [hd'.1, hd'.2, hat]
            simp only [reduceCtorEq, false_iff, Option.some.injEq]
            exact fun e => hc e.symm
          · rfl
        · rfl
    · intro c y s' hy hsl'
      rw [htb] at hy
      split at hy
      · cases hy
        rw [← hx'] at hsl' ⊢
        simp only [] at hsl' ⊢
        split at hsl'
        · cases hsl'
        · exact h.slots b x s' hx hsl'
      · exact h.slots c y s' hy hsl'
    · intro c y hy
      have hN : w'.tbfN = w.tbfN := by rw [← hw']; rfl
      rw [hN]
      rw [htb] at hy
      split at hy
      · rename_i hc; rw [hc]; exact h.fresh b x hx
      · exact h.fresh c y hy
    · have h1 := total_set (f := occAll) (w := w) (w' := w') ht8 hs8 (fun t' s' hne => by rw [hp, if_neg hne])
      have h2 : w'.occ = if (w.pdch t s).gprs .ul + (w.pdch t s).gprs .dl +
          ((w.pdch t s).egprs .ul + (w.pdch t s).egprs .dl) = 1 then w.occ + -1 else w.occ := by
        rw [← hw']; rfl
      have h3 : occAll (w'.pdch t s) = occAll ((w.pdch t s).addNum x.dir x.egprs false) := by rw [hts]; rfl
      have h4 := hocc.1
      rw [h2, h.occ]
      split <;> rename_i hz
      · rw [if_pos hz] at h4; omega
      · rw [if_neg hz] at h4; omega
    · have h1 := total_set (f := occG) (w := w) (w' := w') ht8 hs8 (fun t' s' hne => by rw [hp, if_neg hne])
      have h2 : w'.occGprs = if x.egprs = false ∧ (w.pdch t s).gprs .ul + (w.pdch t s).gprs .dl = 1
          then w.occGprs + -1 else w.occGprs := by
        rw [← hw']; rfl
      have h3 : occG (w'.pdch t s) = occG ((w.pdch t s).addNum x.dir x.egprs false) := by rw [hts]; rfl
      have h4 := hocc.2.1
      rw [h2, h.occGprs]
      split <;> rename_i hz
      · rw [if_pos hz] at h4; omega
      · rw [if_neg hz] at h4; omega
    · have h1 := total_set (f := occE) (w := w) (w' := w') ht8 hs8 (fun t' s' hne => by rw [hp, if_neg hne])
      have h2 : w'.occEgprs = if x.egprs = true ∧ (w.pdch t s).egprs .ul + (w.pdch t s).egprs .dl = 1
          then w.occEgprs + -1 else w.occEgprs := by
        rw [← hw']; rfl
      have h3 : occE (w'.pdch t s) = occE ((w.pdch t s).addNum x.dir x.egprs false) := by rw [hts]; rfl
      have h4 := hocc.2.2
      rw [h2, h.occEgprs]
      split <;> rename_i hz
      · rw [if_pos hz] at h4; omega
      · rw [if_neg hz] at h4; omega
    · have h2 : w'.avail = w.avail := by rw [← hw']; rfl
      rw [h2, h.avail]
      refine (total_congr fun t' s' => ?_).symm
      rw [hp]
      split
      · rename_i hh
        obtain ⟨e1, e2⟩ := hh
        subst e1 e2
        unfold isOn
        have : (((w.pdch t' s').addNum x.dir x.egprs false).drop x.dir i (x.usf s')).enabled = (w.pdch t' s').enabled :=
          (addNum_fields (w.pdch t' s') x.dir x.egprs false).2.2.2.1
        rw [this]
      · rfl
  · refine ⟨?_, ?_, ?_, ?_, ?_, ?_, fun c hc => by rw [htb, if_neg hc]⟩
    · rw [← hw']; rfl
    · rw [← hw']; rfl
    · rw [← hw']; rfl
    · rw [← hw']; rfl
    · intro t' s'
      rw [hp]
      split
      · rename_i hh; rw [hh.1, hh.2]; exact (addNum_fields (w.pdch t s) x.dir x.egprs false).2.2.2.1
      · rfl
    · intro t' s'
      rw [hp]
      split
      · rename_i hh; rw [hh.1, hh.2]; exact (addNum_fields (w.pdch t s) x.dir x.egprs false).2.2.2.2.1
      · rfl

end Verif.Alloc
