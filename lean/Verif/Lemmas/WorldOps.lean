import Verif.Lemmas.World
/-!
# Operations on the BTS keep the invariant
-/

namespace Verif.Alloc

/-! ## Taking and giving back the slots of a TBF -/

theorem attach_tbf (w : World) (y : Tbf) (b t s : Nat) (d : Dir) (e : Bool) (i u : Nat) :
    (attachTbf (w.setTbf b (some y)) t s b d e i u).tbf b = some y := by
  show (w.setTbf b (some y)).tbf b = some y
  simp [World.setTbf]

theorem applyRes_spec {w : World} (h : TInv w) {b : Nat} {x : Tbf} {r : Res} (hx : w.tbf b = some x)
    (hns : ∀ s, x.slots s = false) (ht : r.trx < 8) (hi : r.tfi < 32) (hne : r.mask ≠ 0)
    (hr : ∀ s, r.mask.testBit s = true → s < 8 ∧ (w.pdch r.trx s).enabled = true ∧
      ((w.pdch r.trx s).tfiMap x.dir).testBit r.tfi = false ∧
      (x.dir = .ul → ∃ u, r.usf s = some u ∧ u < 7 ∧ (w.pdch r.trx s).usfMap.testBit u = false)) :
    ∃ w' x', applyRes w b r = some w' ∧ TInv w' ∧ SameR b w w' ∧ w'.tbf b = some x' ∧
      x'.ms = x.ms ∧ x'.dir = x.dir ∧ x'.egprs = x.egprs ∧ x'.trx = some r.trx ∧ x'.tfi = some r.tfi ∧
      ∀ s, x'.slots s = r.mask.testBit s := by
  have hmask : ∀ s, ¬ s < 8 → r.mask.testBit s = false := by
    intro s hs
    cases hq : r.mask.testBit s with
    | false => rfl
    | true => exact absurd (hr s hq).1 hs
  unfold applyRes
  rw [hx]
  simp only []
  generalize hw0 : w.setTbf b (some { x with trx := some r.trx }) = w0
  have hT0 : TInv w0 := by
    rw [← hw0]
    exact h.setTbf hx rfl rfl (by rintro ⟨s, hs⟩; rw [hns] at hs; cases hs)
      (fun _ => rfl) rfl rfl
  have hR0 : SameR b w w0 := by rw [← hw0]; exact SameR.setTbf _ _ _
  have htb0 : w0.tbf b = some { x with trx := some r.trx } := by rw [← hw0]; simp only [World.setTbf, if_true]
  have hpd0 : w0.pdch = w.pdch := by rw [← hw0]; rfl
  have := foldlM_range (applyStep b r) (fun k w' => TInv w' ∧ SameR b w w' ∧
      (∀ s, k ≤ s → w'.pdch r.trx s = w.pdch r.trx s) ∧ ∃ y, w'.tbf b = some y ∧
      y.ms = x.ms ∧ y.dir = x.dir ∧ y.egprs = x.egprs ∧ y.trx = some r.trx ∧
      (∀ s, y.slots s = true → y.tfi = some r.tfi) ∧
      ∀ s, y.slots s = if s < k then r.mask.testBit s else false) 8 w0
    ⟨hT0, hR0, fun s _ => by rw [hpd0], _, htb0, rfl, rfl, rfl, rfl,
      fun s hs => absurd (hs.symm.trans (hns s)) (by simp), fun s => by simp [hns]⟩ (by
      intro k hk w1 ⟨h1, h2, h3, y, h4, h5, h6, h7, h8, h9, h10⟩
      unfold applyStep
      rw [h4]
      simp only []
      have hyk : y.slots k = false := by rw [h10]; simp
      rw [if_neg (by rw [hyk]; simp)]
      by_cases hm : r.mask.testBit k = true
      · rw [if_neg (by rw [hm]; simp)]
        obtain ⟨-, ha, hb, hc⟩ := hr k hm
        have hpk := h3 k (Nat.le_refl k)
        have fin : ∀ (y' : Tbf) (u : Nat),
            (y.dir = .ul → u < 7 ∧ (w.pdch r.trx k).usfMap.testBit u = false) →
            y' = { y with tfi := some r.tfi, usf := y'.usf,
                          slots := fun s' => if s' = k then true else y.slots s' } →
            y'.usf k = u → (∀ s', s' ≠ k → y'.usf s' = y.usf s') →
            (fun k w' => TInv w' ∧ SameR b w w' ∧
              (∀ s, k ≤ s → w'.pdch r.trx s = w.pdch r.trx s) ∧ ∃ y, w'.tbf b = some y ∧
              y.ms = x.ms ∧ y.dir = x.dir ∧ y.egprs = x.egprs ∧ y.trx = some r.trx ∧
              (∀ s, y.slots s = true → y.tfi = some r.tfi) ∧
              ∀ s, y.slots s = if s < k then r.mask.testBit s else false) (k + 1)
              (attachTbf (w1.setTbf b (some y')) r.trx k b y.dir y.egprs r.tfi u) := by
          intro y' u hu hy' hu1 hu2
          obtain ⟨g1, g2⟩ := h1.attach (i := r.tfi) (u := u) (x' := y') h4 h8 ht hk hi hyk h9
            (by rw [hpk]; exact ha) (by rw [hpk, h6]; exact hb) (by rw [hpk]; exact hu) hy' hu1 hu2
          refine ⟨g1, h2.trans g2, ?_, y', attach_tbf _ _ _ _ _ _ _ _ _, ?_⟩
          · intro s hs
            rw [attach_pdch, if_neg (by omega)]
            exact h3 s (by omega)
          · rw [hy']
            refine ⟨h5, h6, h7, h8, fun _ _ => rfl, ?_⟩
            intro s
            simp only []
            by_cases hsk : s = k
            · subst hsk; simp [hm]
            · have : (s < k + 1) ↔ s < k := by omega
              rw [if_neg hsk, h10]
              simp only [this]
        by_cases hd : y.dir = .ul
        · rw [if_pos hd]
          obtain ⟨u, hu1, hu2⟩ := hc (by rw [← h6]; exact hd)
          rw [hu1]
          simp only []
          exact ⟨_, rfl, fin _ u (fun _ => hu2) rfl (by simp) (fun s hs => by simp [hs])⟩
        · rw [if_neg hd]
          exact ⟨_, rfl, fin _ _ (fun hq => absurd hq hd) rfl rfl (fun s hs => rfl)⟩
      · have hm : r.mask.testBit k = false := by simpa using hm
        rw [if_pos hm]
        refine ⟨w1, rfl, h1, h2, fun s hs => h3 s (by omega), y, h4, h5, h6, h7, h8, h9, ?_⟩
        intro s
        rw [h10]
        by_cases hsk : s = k
        · subst hsk; simp [hm]
        · have : (s < k + 1) ↔ s < k := by omega
          simp only [this])
  obtain ⟨w', h1, h2, h3, -, y, h4, h5, h6, h7, h8, h9, h10⟩ := this
  refine ⟨w', y, h1, h2, h3, h4, h5, h6, h7, h8, ?_, ?_⟩
  · obtain ⟨s, hs⟩ := exists_testBit hne
    exact h9 s (by rw [h10, if_pos (hr s hs).1]; exact hs)
  · intro s
    rw [h10]
    split
    · rfl
    · rename_i hs; rw [hmask s hs]

theorem unlink_spec {w : World} (h : TInv w) {b : Nat} {x : Tbf} (hx : w.tbf b = some x) :
    ∃ w', unlink w b = some w' ∧ TInv w' ∧ SameR b w w' ∧
      w'.tbf b = some { x with trx := none, slots := fun _ => false } := by
  have := foldlM_range (unlinkStep b) (fun k w' => TInv w' ∧ SameR b w w' ∧
      w'.tbf b = some { x with slots := fun s => if s < k then false else x.slots s }) 8 w
    ⟨h, SameR.refl b w, by rw [hx]; simp⟩ (by
      intro k hk w1 ⟨h1, h2, h3⟩
      generalize hy : ({ x with slots := fun s => if s < k then false else x.slots s } : Tbf) = y at h3
      have ysl : ∀ s, y.slots s = if s < k then false else x.slots s := by intro s; rw [← hy]
      have hyk : y.slots k = x.slots k := by rw [ysl]; simp
      unfold unlinkStep
      rw [h3]
      simp only []
      by_cases hs : x.slots k = true
      · obtain ⟨-, t, i, e1, -, e2⟩ := h.slots b x k hx hs
        have ye1 : y.trx = some t := by rw [← hy]; exact e1
        have ye2 : y.tfi = some i := by rw [← hy]; exact e2
        obtain ⟨w2, h4, h5, h6⟩ := h1.detach (s := k) h3 ye1 ye2 (by rw [hyk]; exact hs)
        rw [if_neg (by simp [hyk, hs]), ye1, ye2]
        simp only []
        rw [h4]
        rw [ye1, ye2] at h5 h6
        refine ⟨_, rfl, h5, h2.trans h6, ?_⟩
        rw [← hy]
        simp only [World.setTbf, if_true, Option.some.injEq, Tbf.mk.injEq, true_and, and_true, e1, e2]
        funext s
        by_cases hsk : s = k
        · simp [hsk]
        · have : (s < k + 1) ↔ s < k := by omega
          simp [hsk, this]
      · have hs : x.slots k = false := by simpa using hs
        rw [if_pos (by rw [hyk]; exact hs)]
        refine ⟨w1, rfl, h1, h2, ?_⟩
        rw [h3, ← hy]
        simp only [Option.some.injEq, Tbf.mk.injEq, true_and, and_true]
        funext s
        by_cases hsk : s = k
        · subst hsk; simp [hs]
        · have : (s < k + 1) ↔ s < k := by omega
          simp [this])
  obtain ⟨w1, h1, h2, h3, h4⟩ := this
  have hall : ({ x with slots := fun s => if s < 8 then false else x.slots s } : Tbf) =
      { x with slots := fun _ => false } := by
    simp only [Tbf.mk.injEq, true_and, and_true]
    funext s
    split
    · rfl
    · rename_i hs8
      cases hq : x.slots s with
      | false => rfl
      | true => exact absurd (h.slots b x s hx hq).1 hs8
  rw [hall] at h4
  unfold unlink
  rw [h1]
  simp only [Option.bind_some, h4]
  refine ⟨_, rfl, ?_, h3.trans (SameR.setTbf _ _ _), by simp [World.setTbf]⟩
  exact h2.setTbf h4 rfl rfl (by rintro ⟨s, hs⟩; cases hs) (by rintro ⟨s, hs⟩; cases hs) rfl rfl

theorem freeTbf_spec {w : World} (h : TInv w) {b : Nat} {x : Tbf} (hx : w.tbf b = some x) :
    ∃ w', freeTbf w b = some w' ∧ TInv w' ∧ SameR b w w' ∧ w'.tbf b = none := by
  obtain ⟨w1, h1, h2, h3, h4⟩ := unlink_spec h hx
  unfold freeTbf
  rw [h1]
  refine ⟨_, rfl, (h2.delTbf h4 (fun _ => rfl)).same ⟨rfl, rfl, rfl, rfl, rfl, rfl, fun _ _ => ⟨_, rfl⟩⟩, h3.trans ?_, ?_⟩
  · have := SameR.setTbf b w1 none
    exact ⟨this.ms, this.msN, this.tbfN, this.dis, this.en, this.res, this.other⟩
  · simp [World.setTbf]

/-! ## Reservations -/

/-- Slots a mobile reserves in a direction. -/
def Ms.mask (x : Ms) : Dir → Nat
  | .ul => x.ul
  | .dl => x.dl

/-- Does the mobile reserve slot `s` of TRX `t`? -/
def Ms.holds (x : Ms) (t s : Nat) (d : Dir) : Bool := x.trx == some t && (x.mask d).testBit s

/-- Invariant of the reservations. -/
structure RInv (w : World) : Prop where
  res : ∀ t s d, (w.pdch t s).reserved d = (List.range w.msN).countP fun m => (w.ms m).holds t s d
  msok : ∀ m, m < w.msN → MsOk w.pdch (w.ms m)

theorem MsOk.congr {p p' : Nat → Trx} {x x' : Ms} (h : MsOk p x) (ht : x'.trx = x.trx) (hu : x'.ul = x.ul)
    (hd : x'.dl = x.dl) (he : ∀ t s, (p t s).enabled = true → (p' t s).enabled = true) : MsOk p' x' := by
  unfold MsOk at h ⊢
  rw [ht, hu, hd]
  split <;> rename_i hq <;> rw [hq] at h
  · exact h
  · exact ⟨h.1, fun s hs => ⟨(h.2 s hs).1, he _ _ (h.2 s hs).2⟩⟩

theorem RInv.same {w w' : World} (h : RInv w) (hm : w'.ms = w.ms) (hN : w'.msN = w.msN)
    (hr : ∀ t s, (w'.pdch t s).reserved = (w.pdch t s).reserved)
    (he : ∀ t s, (w'.pdch t s).enabled = (w.pdch t s).enabled) : RInv w' := by
  constructor
  · intro t s d; rw [hr, hm, hN]; exact h.res t s d
  · intro m hlt; rw [hN] at hlt; rw [hm]; exact (h.msok m hlt).congr rfl rfl rfl (fun t s hs => by rw [he]; exact hs)

theorem RInv.sameR {b : Nat} {w w' : World} (h : RInv w) (hs : SameR b w w') : RInv w' :=
  h.same hs.ms hs.msN hs.res hs.en

/-- Replacing a mobile keeping TRX and reservations. -/
theorem RInv.setMs {w : World} (h : RInv w) {m : Nat} {x : Ms} (ht : x.trx = (w.ms m).trx)
    (hu : x.ul = (w.ms m).ul) (hd : x.dl = (w.ms m).dl) : RInv (w.setMs m x) := by
  have hms : ∀ c, (w.setMs m x).ms c = if c = m then x else w.ms c := fun _ => rfl
  constructor
  · intro t s d
    refine (h.res t s d).trans ?_
    show _ = (List.range w.msN).countP _
    apply List.countP_congr
    intro c _
    rw [hms]
    by_cases hc : c = m
    · subst hc
      have : x.holds t s d = (w.ms c).holds t s d := by
        unfold Ms.holds Ms.mask
        cases d <;> simp only [ht, hu, hd]
      rw [if_pos rfl, this]
    · rw [if_neg hc]
  · intro c hlt
    rw [hms]
    split
    · rename_i hc; subst hc; exact (h.msok c hlt).congr ht hu hd (fun _ _ hs => hs)
    · exact h.msok c hlt

/-- Reservation counters changed by a function. -/
def chg (w : World) (f : Nat → Nat → Dir → Nat) : World :=
  { w with pdch := fun t s => { w.pdch t s with reserved := f t s } }

theorem unreserveSlots_spec {w : World} {t : Nat} {d : Dir} {slots : Nat}
    (h : ∀ s, s < 8 → slots.testBit s = true → (w.pdch t s).reserved d ≠ 0) :
    unreserveSlots w t d slots = some (chg w fun t' s' d' =>
      if t' = t ∧ s' < 8 ∧ slots.testBit s' = true ∧ d' = d then (w.pdch t' s').reserved d' - 1
      else (w.pdch t' s').reserved d') := by
  have := foldlM_range (fun w s =>
      if slots.testBit s then ((w.pdch t s).subReserved d).map (w.setPdch t s) else some w)
    (fun k w' => w' = chg w fun t' s' d' =>
      if t' = t ∧ s' < k ∧ slots.testBit s' = true ∧ d' = d then (w.pdch t' s').reserved d' - 1
      else (w.pdch t' s').reserved d') 8 w (by unfold chg; simp) (by
      rintro k hk w' rfl
      by_cases hs : slots.testBit k = true
      · have hne := h k hk hs
        rw [if_pos hs]
        unfold Pdch.subReserved
        rw [if_neg (by simpa [chg] using hne)]
        refine ⟨_, rfl, ?_⟩
        unfold chg World.setPdch
        simp only [World.mk.injEq, and_self, and_true]
        funext t' s'
        by_cases hc : t' = t ∧ s' = k
        · obtain ⟨rfl, rfl⟩ := hc
          simp only [and_self, if_true, Pdch.mk.injEq, true_and, and_true, Nat.lt_irrefl, false_and,
            and_false, if_false, Nat.lt_succ_self, hs]
          funext d'
          by_cases hd : d' = d <;> simp [hd]
        · rw [if_neg hc]
          simp only [Pdch.mk.injEq, true_and, and_true]
          funext d'
          have : (t' = t ∧ s' < k + 1 ∧ slots.testBit s' = true ∧ d' = d) ↔
              (t' = t ∧ s' < k ∧ slots.testBit s' = true ∧ d' = d) := by
            constructor
            · rintro ⟨h1, h2, h3⟩; exact ⟨h1, Nat.lt_of_le_of_ne (Nat.le_of_lt_succ h2) (fun e => hc ⟨h1, e⟩), h3⟩
            · rintro ⟨h1, h2, h3⟩; exact ⟨h1, by omega, h3⟩
          simp only [this]
      · rw [if_neg hs]
        refine ⟨_, rfl, ?_⟩
        unfold chg
        simp only [World.mk.injEq, and_self, and_true]
        funext t' s'
        simp only [Pdch.mk.injEq, true_and, and_true]
        funext d'
        have : (t' = t ∧ s' < k + 1 ∧ slots.testBit s' = true ∧ d' = d) ↔
            (t' = t ∧ s' < k ∧ slots.testBit s' = true ∧ d' = d) := by
          constructor
          · rintro ⟨h1, h2, h3, h4⟩
            exact ⟨h1, Nat.lt_of_le_of_ne (Nat.le_of_lt_succ h2) (fun e => hs (e ▸ h3)), h3, h4⟩
          · rintro ⟨h1, h2, h3⟩; exact ⟨h1, by omega, h3⟩
        simp only [this])
  obtain ⟨w', h1, h2⟩ := this
  unfold unreserveSlots
  rw [h1, h2]

theorem reserveSlots_spec (w : World) (t : Nat) (d : Dir) (slots : Nat) :
    reserveSlots w t d slots = chg w fun t' s' d' =>
      if t' = t ∧ s' < 8 ∧ slots.testBit s' = true ∧ d' = d then (w.pdch t' s').reserved d' + 1
      else (w.pdch t' s').reserved d' := by
  have : ∀ k, (List.range k).foldl (fun w s =>
      if slots.testBit s then w.setPdch t s ((w.pdch t s).addReserved d) else w) w =
      chg w fun t' s' d' =>
      if t' = t ∧ s' < k ∧ slots.testBit s' = true ∧ d' = d then (w.pdch t' s').reserved d' + 1
      else (w.pdch t' s').reserved d' := by
    intro k
    induction k with
    | zero => unfold chg; simp
    | succ k ih =>
      rw [List.range_succ, List.foldl_append, ih]
      simp only [List.foldl_cons, List.foldl_nil]
      by_cases hs : slots.testBit k = true
      · rw [if_pos hs]
        unfold chg World.setPdch Pdch.addReserved
        simp only [World.mk.injEq, and_self, and_true]
        funext t' s'
        by_cases hc : t' = t ∧ s' = k
        · obtain ⟨rfl, rfl⟩ := hc
          simp only [and_self, if_true, Pdch.mk.injEq, true_and, and_true, Nat.lt_irrefl, false_and,
            and_false, if_false, Nat.lt_succ_self, hs]
          funext d'
          by_cases hd : d' = d <;> simp [hd]
        · rw [if_neg hc]
          simp only [Pdch.mk.injEq, true_and, and_true]
          funext d'
          have : (t' = t ∧ s' < k + 1 ∧ slots.testBit s' = true ∧ d' = d) ↔
              (t' = t ∧ s' < k ∧ slots.testBit s' = true ∧ d' = d) := by
            constructor
            · rintro ⟨h1, h2, h3⟩; exact ⟨h1, Nat.lt_of_le_of_ne (Nat.le_of_lt_succ h2) (fun e => hc ⟨h1, e⟩), h3⟩
            · rintro ⟨h1, h2, h3⟩; exact ⟨h1, by omega, h3⟩
          simp only [this]
      · rw [if_neg hs]
        unfold chg
        simp only [World.mk.injEq, and_self, and_true]
        funext t' s'
        simp only [Pdch.mk.injEq, true_and, and_true]
        funext d'
        have : (t' = t ∧ s' < k + 1 ∧ slots.testBit s' = true ∧ d' = d) ↔
            (t' = t ∧ s' < k ∧ slots.testBit s' = true ∧ d' = d) := by
          constructor
          · rintro ⟨h1, h2, h3, h4⟩
            exact ⟨h1, Nat.lt_of_le_of_ne (Nat.le_of_lt_succ h2) (fun e => hs (e ▸ h3)), h3, h4⟩
          · rintro ⟨h1, h2, h3⟩; exact ⟨h1, by omega, h3⟩
        simp only [this]
  exact this 8

theorem SameT.chg (w : World) (f : Nat → Nat → Dir → Nat) : SameT w (chg w f) :=
  ⟨rfl, rfl, rfl, rfl, rfl, rfl, fun t s => ⟨f t s, rfl⟩⟩

theorem SameT.setMs (w : World) (m : Nat) (x : Ms) : SameT w (w.setMs m x) :=
  ⟨rfl, rfl, rfl, rfl, rfl, rfl, fun _ _ => ⟨_, rfl⟩⟩

theorem MsOk.bit {p : Nat → Trx} {x : Ms} (h : MsOk p x) {s : Nat} {d : Dir}
    (hs : (x.mask d).testBit s = true) : s < 8 ∧ ∃ t, x.trx = some t ∧ t < 8 ∧ (p t s).enabled = true := by
  unfold MsOk at h
  have hor : x.ul.testBit s = true ∨ x.dl.testBit s = true := by
    cases d
    · exact Or.inl hs
    · exact Or.inr hs
  cases ht : x.trx with
  | none =>
    rw [ht] at h
    simp only [] at h
    rw [h.1, h.2] at hor
    simp at hor
  | some t =>
    rw [ht] at h
    exact ⟨(h.2 s hor).1, t, rfl, h.1, (h.2 s hor).2⟩

/-- Reservation counters after changing those of one mobile. -/
def resUpd (w : World) (x y : Ms) (t s : Nat) (d : Dir) : Nat :=
  (w.pdch t s).reserved d - (x.holds t s d).toNat + (y.holds t s d).toNat

theorem setReserved_spec {w : World} (h : RInv w) {m : Nat} (hm : m < w.msN) {trx : Option Nat} {ul dl : Nat}
    (hnone : trx = none → ul = 0 ∧ dl = 0) (hok : MsOk w.pdch { w.ms m with trx := trx, ul := ul, dl := dl }) :
    ∃ w', setReserved w m trx ul dl = some w' ∧ RInv w' ∧ SameT w w' ∧ w'.msN = w.msN ∧
      w'.disabled = w.disabled ∧
      ∀ c, w'.ms c = if c = m then { w.ms m with trx := trx, ul := ul, dl := dl } else w.ms c := by
  generalize hy : ({ w.ms m with trx := trx, ul := ul, dl := dl } : Ms) = y at hok ⊢
  generalize hx : w.ms m = x at hy ⊢
  have hxok : MsOk w.pdch x := by rw [← hx]; exact h.msok m hm
  have hpos : ∀ t s d, x.holds t s d = true → (w.pdch t s).reserved d ≠ 0 := by
    intro t s d hh
    rw [h.res]
    have : 0 < (List.range w.msN).countP fun m => (w.ms m).holds t s d :=
      List.countP_pos_iff.2 ⟨m, List.mem_range.2 hm, by rw [hx]; exact hh⟩
    omega
  have key : ∀ w' : World, (∃ f, w'.pdch = (chg w f).pdch ∧ ∀ t s d, f t s d = resUpd w x y t s d) →
      w'.msN = w.msN → (∀ c, w'.ms c = if c = m then y else w.ms c) → RInv w' := by
    rintro w' ⟨f, hf1, hf2⟩ hN hms
    constructor
    · intro t s d
      have e1 : (w'.pdch t s).reserved d = resUpd w x y t s d := by rw [hf1]; exact hf2 t s d
      rw [e1, hN]
      have := countP_upd (List.range w.msN) List.nodup_range m (List.mem_range.2 hm)
        (fun c => (w'.ms c).holds t s d) (fun c => (w.ms c).holds t s d) (by
          intro j hj; simp only [hms, if_neg hj])
      rw [hms m, if_pos rfl, hx, ← h.res] at this
      unfold resUpd
      have hp := hpos t s d
      cases hq : x.holds t s d with
      | false => rw [hq] at this; simp only [Bool.toNat_false] at this ⊢; omega
      | true =>
        rw [hq] at this hp
        have := hp rfl
        simp only [Bool.toNat_true] at *
        omega
    · intro c hlt
      rw [hN] at hlt
      rw [hms]
      have hen : ∀ t s, (w.pdch t s).enabled = true → (w'.pdch t s).enabled = true := by
        intro t s hs; rw [hf1]; exact hs
      split
      · exact hok.congr rfl rfl rfl hen
      · exact (h.msok c hlt).congr rfl rfl rfl hen
  unfold setReserved
  rw [hx]
  simp only []
  have first : ∃ w1, dropReserved w m x = some w1 ∧
      SameT w w1 ∧ w1.msN = w.msN ∧ w1.disabled = w.disabled ∧
      w1.pdch = (chg w fun t s d => (w.pdch t s).reserved d - (x.holds t s d).toNat).pdch ∧
      (∀ c, c ≠ m → w1.ms c = w.ms c) ∧ w1.ms m = { x with dl := 0, ul := 0 } := by
    unfold dropReserved
    cases hxt : x.trx with
    | none =>
      refine ⟨w, rfl, SameT.refl w, rfl, rfl, ?_, fun _ _ => rfl, ?_⟩
      · unfold chg Ms.holds
        simp [hxt]
      · rw [hx]
        unfold MsOk at hxok
        rw [hxt] at hxok
        simp only [] at hxok
        have : x = ⟨x.cls, x.trx, x.ul, x.dl, x.fct⟩ := rfl
        rw [hxok.1, hxok.2, hxt] at this
        exact this
    | some t =>
      have e1 := unreserveSlots_spec (w := w) (t := t) (d := .dl) (slots := x.dl) (by
        intro s hs hb
        refine hpos t s .dl ?_
        unfold Ms.holds Ms.mask
        simp [hxt, hb])
      simp only []
      rw [e1]
      simp only [Option.bind_some]
      generalize hw1 : chg w _ = w1
      have e2 := unreserveSlots_spec (w := w1) (t := t) (d := .ul) (slots := x.ul) (by
        intro s hs hb
        rw [← hw1]
        simp only [chg, reduceCtorEq, and_false, if_false]
        refine hpos t s .ul ?_
        unfold Ms.holds Ms.mask
        simp [hxt, hb])
      rw [e2]
      refine ⟨_, rfl, ?_, ?_, ?_, ?_, ?_, ?_⟩
      · rw [← hw1]
        exact ((SameT.chg _ _).trans (SameT.chg _ _)).trans (SameT.setMs _ _ _)
      · rw [← hw1]; rfl
      · rw [← hw1]; rfl
      · rw [← hw1]
        unfold chg World.setMs
        simp only []
        funext t' s'
        simp only [Pdch.mk.injEq, true_and, and_true]
        funext d'
        have hb : ∀ d, (x.mask d).testBit s' = true → s' < 8 := fun d hd => (hxok.bit hd).1
        unfold Ms.holds
        by_cases ht : t' = t
        · subst ht
          cases d'
          · by_cases hu : x.ul.testBit s' = true
            · have : s' < 8 := hb .ul hu
              simp [hxt, hu, this, Ms.mask]
            · simp [hxt, hu, Ms.mask]
          · by_cases hu : x.dl.testBit s' = true
            · have : s' < 8 := hb .dl hu
              simp [hxt, hu, this, Ms.mask]
            · simp [hxt, hu, Ms.mask]
        · have : ¬ t = t' := fun e => ht e.symm
          have h2 : (some t == some t') = false := by simpa using this
          simp only [hxt, ht, false_and, if_false, h2, Bool.false_and, Bool.toNat_false, Nat.sub_zero]
      · intro c hc
        rw [← hw1]
        simp [World.setMs, hc, chg]
      · simp [World.setMs]
  obtain ⟨w1, h1, h2, h3, h4, h5, h6, h7⟩ := first
  rw [h1]
  simp only [Option.map_some]
  cases htr : trx with
  | none =>
    obtain ⟨hu, hd⟩ := hnone htr
    have hms : ∀ c, (w1.setMs m { w1.ms m with trx := none }).ms c = if c = m then y else w.ms c := by
      intro c
      simp only [World.setMs]
      split
      · rw [h7, ← hy, htr, hu, hd]
      · rename_i hc; exact h6 c hc
    refine ⟨_, rfl, key _ ⟨_, h5, ?_⟩ h3 hms, h2.trans (SameT.setMs _ _ _), h3, h4, hms⟩
    intro t s d
    unfold resUpd
    have : y.holds t s d = false := by rw [← hy, htr]; simp [Ms.holds]
    rw [this]
    simp
  | some t =>
    simp only []
    rw [reserveSlots_spec, reserveSlots_spec]
    have hms : ∀ c, (chg (chg (w1.setMs m { x with trx := some t, dl := dl, ul := ul }) fun t' s' d' =>
        if t' = t ∧ s' < 8 ∧ dl.testBit s' = true ∧ d' = .dl then
          ((w1.setMs m { x with trx := some t, dl := dl, ul := ul }).pdch t' s').reserved d' + 1
        else ((w1.setMs m { x with trx := some t, dl := dl, ul := ul }).pdch t' s').reserved d') fun t' s' d' =>
        if t' = t ∧ s' < 8 ∧ ul.testBit s' = true ∧ d' = .ul then
          ((chg (w1.setMs m { x with trx := some t, dl := dl, ul := ul }) fun t' s' d' =>
            if t' = t ∧ s' < 8 ∧ dl.testBit s' = true ∧ d' = .dl then
              ((w1.setMs m { x with trx := some t, dl := dl, ul := ul }).pdch t' s').reserved d' + 1
            else ((w1.setMs m { x with trx := some t, dl := dl, ul := ul }).pdch t' s').reserved d').pdch t' s').reserved d' + 1
        else ((chg (w1.setMs m { x with trx := some t, dl := dl, ul := ul }) fun t' s' d' =>
            if t' = t ∧ s' < 8 ∧ dl.testBit s' = true ∧ d' = .dl then
              ((w1.setMs m { x with trx := some t, dl := dl, ul := ul }).pdch t' s').reserved d' + 1
            else ((w1.setMs m { x with trx := some t, dl := dl, ul := ul }).pdch t' s').reserved d').pdch t' s').reserved d').ms c
        = if c = m then y else w.ms c := by
      intro c
      show (if c = m then ({ x with trx := some t, dl := dl, ul := ul } : Ms) else w1.ms c) = _
      split
      · rw [← hy, htr]
      · rename_i hc; exact h6 c hc
    refine ⟨_, rfl, key _ ⟨fun t' s' d' => resUpd w x y t' s' d', ?_, fun _ _ _ => rfl⟩ h3 hms,
      ((h2.trans (SameT.setMs _ _ _)).trans (SameT.chg _ _)).trans (SameT.chg _ _), h3, h4, hms⟩
    unfold chg World.setMs
    simp only []
    rw [h5]
    unfold chg
    simp only []
    funext t' s'
    simp only [Pdch.mk.injEq, true_and, and_true]
    funext d'
    have hb : ∀ d, (y.mask d).testBit s' = true → s' < 8 := fun d hd => (hok.bit hd).1
    have hyt : y.trx = some t := by rw [← hy, htr]
    have hyu : y.ul = ul := by rw [← hy]
    have hyd : y.dl = dl := by rw [← hy]
    unfold resUpd
    generalize (w.pdch t' s').reserved d' - (x.holds t' s' d').toNat = n
    unfold Ms.holds
    by_cases ht : t' = t
    · subst ht
      cases d'
      · by_cases hu : ul.testBit s' = true
        · have : s' < 8 := hb .ul (by unfold Ms.mask; rw [hyu]; exact hu)
          simp [hyt, hu, this, Ms.mask, hyu]
        · simp [hyt, hu, Ms.mask, hyu]
      · by_cases hu : dl.testBit s' = true
        · have : s' < 8 := hb .dl (by unfold Ms.mask; rw [hyd]; exact hu)
          simp [hyt, hu, this, Ms.mask, hyd]
        · simp [hyt, hu, Ms.mask, hyd]
    · have : ¬ t = t' := fun e => ht e.symm
      simp [hyt, ht, this]

/-! ## Operations -/

structure Inv (w : World) : Prop where
  t : TInv w
  r : RInv w
  own : ∀ b x, w.tbf b = some x → x.ms < w.msN

/-- Only mobile `m` and TBF `b` may differ. -/
structure Frame (m b : Nat) (w w' : World) : Prop where
  msN : w'.msN = w.msN
  tbfN : w'.tbfN = w.tbfN
  dis : w'.disabled = w.disabled
  en : ∀ t s, (w'.pdch t s).enabled = (w.pdch t s).enabled
  ms : ∀ c, c ≠ m → w'.ms c = w.ms c
  tbf : ∀ c, c ≠ b → w'.tbf c = w.tbf c

theorem SameT.en {w w' : World} (h : SameT w w') (t s : Nat) :
    (w'.pdch t s).enabled = (w.pdch t s).enabled := by
  obtain ⟨r, hr⟩ := h.pd t s
  rw [hr]

theorem takeRes_spec {w : World} (h : Inv w) {m b : Nat} {x : Tbf} {r : Res} (hm : m < w.msN)
    (hx : w.tbf b = some x) (hns : ∀ s, x.slots s = false) (hr : ResOk w.pdch (w.ms m) x.dir r) :
    ∃ w' x', takeRes w m b r = some w' ∧ Inv w' ∧ Frame m b w w' ∧
      w'.ms m = ⟨(w.ms m).cls, some r.trx, r.ul, r.dl, some r.fct⟩ ∧ w'.tbf b = some x' ∧
      x'.ms = x.ms ∧ x'.dir = x.dir ∧ x'.egprs = x.egprs ∧ x'.trx = some r.trx ∧
      ∀ s, x'.slots s = r.mask.testBit s := by
  have hmsok := h.r.msok m hm
  have first : ∃ w1, (if r.ul ≠ (w.ms m).ul ∨ r.dl ≠ (w.ms m).dl then
      setReserved w m (some r.trx) r.ul r.dl else some w) = some w1 ∧ RInv w1 ∧ SameT w w1 ∧
      w1.msN = w.msN ∧ w1.disabled = w.disabled ∧
      ∀ c, w1.ms c = if c = m then { w.ms m with trx := some r.trx, ul := r.ul, dl := r.dl } else w.ms c := by
    by_cases hc : r.ul ≠ (w.ms m).ul ∨ r.dl ≠ (w.ms m).dl
    · rw [if_pos hc]
      refine setReserved_spec h.r hm (by intro hq; cases hq) ?_
      unfold MsOk
      simp only []
      exact ⟨hr.trx, hr.res⟩
    · rw [if_neg hc]
      refine ⟨w, rfl, h.r, SameT.refl w, rfl, rfl, ?_⟩
      intro c
      split
      · rename_i hcm
        subst hcm
        have e1 : r.ul = (w.ms c).ul := Decidable.byContradiction (fun hq => hc (Or.inl hq))
        have e2 : r.dl = (w.ms c).dl := Decidable.byContradiction (fun hq => hc (Or.inr hq))
        have e3 : (w.ms c).trx = some r.trx := by
          cases hq : (w.ms c).trx with
          | none =>
            unfold MsOk at hmsok
            rw [hq] at hmsok
            exact absurd (e1.trans hmsok.1) hr.une
          | some t => rw [hr.same t hq]
        rw [e1, e2, ← e3]
      · rfl
  obtain ⟨w1, h1, h2, h3, h4, h5, h6⟩ := first
  unfold takeRes
  simp only []
  rw [h1]
  simp only [Option.bind_some]
  generalize hw2 : w1.setMs m { w1.ms m with fct := some r.fct } = w2
  have hs2 : SameT w w2 := by rw [← hw2]; exact h3.trans (SameT.setMs _ _ _)
  have hT2 : TInv w2 := h.t.same hs2
  have hR2 : RInv w2 := by rw [← hw2]; exact h2.setMs rfl rfl rfl
  have hx2 : w2.tbf b = some x := by rw [hs2.tbf]; exact hx
  obtain ⟨w', x', g1, g2, g3, g4, g5, g6, g7, g8, -, g9⟩ := applyRes_spec hT2 (r := r) hx2 hns hr.trx hr.tfi hr.ne (by
    intro s hs
    obtain ⟨k1, k2, k3, k4⟩ := hr.slots s hs
    obtain ⟨rr, hrr⟩ := hs2.pd r.trx s
    rw [hrr]
    exact ⟨k1, k2, k3, k4⟩)
  have hms2 : ∀ c, w2.ms c = if c = m then ⟨(w.ms m).cls, some r.trx, r.ul, r.dl, some r.fct⟩ else w.ms c := by
    intro c
    rw [← hw2]
    simp only [World.setMs]
    split
    · rw [h6 m, if_pos rfl]
    · rename_i hc; rw [h6 c, if_neg hc]
  refine ⟨w', x', g1, ⟨g2, hR2.sameR g3, ?_⟩, ⟨?_, ?_, ?_, ?_, ?_, ?_⟩, ?_, g4, g5, g6, g7, g8, g9⟩
  · intro c y hy
    rw [g3.msN, show w2.msN = w1.msN by rw [← hw2]; rfl, h4]
    by_cases hc : c = b
    · subst hc; rw [g4] at hy; cases hy; rw [g5]; exact h.own _ x hx
    · rw [g3.other c hc, hs2.tbf] at hy; exact h.own c y hy
  · rw [g3.msN, ← hw2]; exact h4
  · rw [g3.tbfN, hs2.tbfN]
  · rw [g3.dis, ← hw2]; exact h5
  · intro t s; rw [g3.en, hs2.en]
  · intro c hc; rw [g3.ms, hms2, if_neg hc]
  · intro c hc; rw [g3.other c hc, hs2.tbf]
  · rw [g3.ms, hms2, if_pos rfl]

theorem Inv.dis {w : World} (h : Inv w) (b : Bool) : Inv { w with disabled := b } :=
  ⟨h.t.same ⟨rfl, rfl, rfl, rfl, rfl, rfl, fun _ _ => ⟨_, rfl⟩⟩,
   h.r.same rfl rfl (fun _ _ => rfl) (fun _ _ => rfl), h.own⟩

theorem Inv.fail {w : World} (h : Inv w) (b : Bool) (n : Nat) : Inv { w with disabled := b, fails := n } :=
  ⟨h.t.same ⟨rfl, rfl, rfl, rfl, rfl, rfl, fun _ _ => ⟨_, rfl⟩⟩,
   h.r.same rfl rfl (fun _ _ => rfl) (fun _ _ => rfl), h.own⟩

theorem Inv.newTbf {w : World} (h : Inv w) {m : Nat} (hm : m < w.msN) (d : Dir) (e : Bool) : Inv (newTbf w m d e) :=
  ⟨h.t.addTbf (x := ⟨d, m, e, none, none, fun _ => false, fun _ => 255⟩) (fun _ => rfl) (fun _ => rfl) rfl
    rfl rfl rfl rfl rfl, h.r.same rfl rfl (fun _ _ => rfl) (fun _ _ => rfl), by
    intro b x hx
    simp only [Alloc.newTbf, World.setTbf] at hx
    split at hx
    · cases hx; exact hm
    · exact h.own b x hx⟩

theorem allocTbf_inv {cfg : Cfg} {w : World} (h : Inv w) {m : Nat} (hm : m < w.msN) (req : Req) (e : Bool) :
    ∃ w', allocTbf cfg w m req e = some w' ∧ Inv w' := by
  unfold allocTbf
  simp only []
  split
  · exact ⟨_, rfl, h.fail _ _⟩
  · rename_i r hr
    have hok := allocate_ok (h.r.msok m hm) hr
    generalize hb : (allocate cfg.algo cfg.dflt w.pdch w.disabled (w.ms m) req).2 = b
    obtain ⟨w', x', h1, h2, -⟩ := takeRes_spec (w := newTbf { w with disabled := b } m req.dir e)
      ((h.dis b).newTbf hm req.dir e) (m := m) (b := w.tbfN) (r := r)
      (x := ⟨req.dir, m, e, none, none, fun _ => false, fun _ => 255⟩) hm
      (by simp [newTbf, World.setTbf]) (fun _ => rfl) hok
    exact ⟨w', h1, h2⟩

theorem upgrade_inv {cfg : Cfg} {w : World} (h : Inv w) (b : Nat) :
    ∃ w', upgrade cfg w b = some w' ∧ Inv w' := by
  unfold upgrade
  split
  · exact ⟨w, rfl, h⟩
  · rename_i x hx
    split
    · exact ⟨w, rfl, h⟩
    · obtain ⟨w1, h1, h2, h3, h4⟩ := unlink_spec h.t hx
      rw [h1]
      simp only [Option.bind_some]
      have hlt : x.ms < w1.msN := by rw [h3.msN]; exact h.own b x hx
      have hi : Inv w1 := ⟨h2, h.r.sameR h3, by
        intro c y hy
        by_cases hc : c = b
        · subst hc; rw [h4] at hy; cases hy; exact hlt
        · rw [h3.other c hc] at hy; rw [h3.msN]; exact h.own c y hy⟩
      split
      · exact ⟨_, rfl, hi.fail _ _⟩
      · rename_i r hr
        have hok := allocate_ok (hi.r.msok x.ms hlt) hr
        generalize hb : (allocate cfg.algo cfg.dflt w1.pdch w1.disabled (w1.ms x.ms) ⟨x.dir, false, none⟩).2 = bb
        obtain ⟨w', x', k1, k2, -⟩ := takeRes_spec (w := { w1 with disabled := bb }) (hi.dis bb) (m := x.ms)
          (b := b) (r := r) hlt h4 (fun _ => rfl) hok
        exact ⟨w', k1, k2⟩

theorem reject_inv {w : World} (h : Inv w) {m : Nat} (hm : m < w.msN) (t s : Nat) (e : Bool) : Inv (rejectUl w m t s e) := by
  have h1 : Inv (w.setMs m { w.ms m with fct := some s }) :=
    ⟨h.t.same (SameT.setMs _ _ _), h.r.setMs rfl rfl rfl, h.own⟩
  have h2 := h1.newTbf hm .ul e
  refine ⟨h2.t.setTbf (x := ⟨.ul, m, e, none, none, fun _ => false, fun _ => 255⟩)
    (by simp [Alloc.newTbf, World.setTbf, World.setMs]) rfl rfl (by rintro ⟨s, hs⟩; cases hs)
    (by rintro ⟨s, hs⟩; cases hs) rfl rfl, h2.r.same rfl rfl (fun _ _ => rfl) (fun _ _ => rfl), ?_⟩
  intro b x hx
  have hx' : (if b = w.tbfN then some ⟨.ul, m, e, none, some t, fun _ => false, fun _ => 255⟩ else
    (Alloc.newTbf (w.setMs m { w.ms m with fct := some s }) m .ul e).tbf b) = some x := hx
  split at hx'
  · cases hx'; exact hm
  · exact h2.own b x hx'

theorem freeExtra_inv {w : World} (h : Inv w) (b : Nat) :
    ∃ w', freeExtra w b = some w' ∧ Inv w' ∧ SameR b w w' ∧ w'.tbf b = none := by
  unfold freeExtra
  cases hx : w.tbf b with
  | none => exact ⟨w, rfl, h, SameR.refl b w, hx⟩
  | some x =>
    obtain ⟨w', h1, h2, h3, h4⟩ := freeTbf_spec h.t hx
    refine ⟨w', by simpa using h1, ⟨h2, h.r.sameR h3, ?_⟩, h3, h4⟩
    intro c y hy
    by_cases hc : c = b
    · subst hc; rw [h4] at hy; cases hy
    · rw [h3.other c hc] at hy; rw [h3.msN]; exact h.own c y hy

theorem msIdle_inv {w : World} (h : Inv w) {m : Nat} (hm : m < w.msN) :
    ∃ w', msIdle w m = some w' ∧ Inv w' ∧ w'.tbf = w.tbf ∧ w'.msN = w.msN ∧
      (∀ t s, (w'.pdch t s).enabled = (w.pdch t s).enabled) ∧
      (hasTbf w m = true → w' = w) ∧
      (hasTbf w m = false → ∀ c, w'.ms c = if c = m then ⟨(w.ms m).cls, none, 0, 0, none⟩ else w.ms c) := by
  unfold msIdle
  split
  · rename_i hh
    exact ⟨w, rfl, h, rfl, rfl, fun _ _ => rfl, fun _ => rfl, fun hq => by rw [hh] at hq; cases hq⟩
  · rename_i hh
    obtain ⟨w1, h1, h2, h3, h4, h5, h6⟩ := setReserved_spec h.r hm (trx := none) (ul := 0) (dl := 0)
      (fun _ => ⟨rfl, rfl⟩) ⟨rfl, rfl⟩
    rw [h1]
    refine ⟨_, rfl, ⟨h.t.same (h3.trans (SameT.setMs _ _ _)), h2.setMs rfl rfl rfl, by
        show ∀ b x, w1.tbf b = some x → x.ms < w1.msN
        rw [h3.tbf, h4]; exact h.own⟩, h3.tbf, h4,
      fun t s => h3.en t s, fun hq => absurd hq hh, fun _ => ?_⟩
    intro c
    simp only [World.setMs]
    split
    · rw [h6 m, if_pos rfl]
    · rename_i hc; rw [h6 c, if_neg hc]

theorem enablePdch_inv {w : World} (h : Inv w) {t s : Nat} (tsc : Nat) (ht : t < 8) (hs : s < 8)
    (hd : (w.pdch t s).enabled = false) :
    ∃ w', enablePdch w t s tsc = some w' ∧ Inv w' ∧ w'.tbf = w.tbf ∧ w'.ms = w.ms ∧ w'.msN = w.msN ∧
      ∀ t s, (w.pdch t s).enabled = true → (w'.pdch t s).enabled = true := by
  unfold enablePdch
  rw [if_neg (by rw [hd]; simp)]
  refine ⟨_, rfl, ?_⟩
  generalize hw' : ({ w.setPdch t s { w.pdch t s with enabled := true, tsc := tsc } with avail := w.avail + 1 } : World) = w'
  have hp : ∀ t' s', w'.pdch t' s' = if t' = t ∧ s' = s then { w.pdch t s with enabled := true, tsc := tsc }
      else w.pdch t' s' := by intro t' s'; rw [← hw']; rfl
  have htb : w'.tbf = w.tbf := by rw [← hw']; rfl
  have hms : w'.ms = w.ms := by rw [← hw']; rfl
  have hN : w'.msN = w.msN := by rw [← hw']; rfl
  have heg : eg w' = eg w := by unfold eg; rw [htb]
  have hus : us w' = us w := by unfold us; rw [htb]
  have hen : ∀ t s, (w.pdch t s).enabled = true → (w'.pdch t s).enabled = true := by
    intro t' s' he
    rw [hp]
    split
    · rfl
    · exact he
  have hsame : ∀ (f : Pdch → Int), (∀ p, f { p with enabled := true, tsc := tsc } = f p) → total f w' = total f w := by
    intro f hf
    apply total_congr
    intro t' s'
    rw [hp]
    split
    · rename_i hh; rw [hf, hh.1, hh.2]
    · rfl
  refine ⟨⟨?_, ?_, by rw [htb, hN]; exact h.own⟩, htb, hms, hN, hen⟩
  · constructor
    · intro t' s'
      rw [hp, heg, hus]
      split
      · rename_i hh
        rw [hh.2]
        exact (h.t.p t s).congr rfl rfl rfl rfl rfl (fun hq => by cases hq) (fun _ _ _ _ => ⟨rfl, rfl⟩)
      · exact h.t.p t' s'
    · intro t' s' d i b
      have : (w'.pdch t' s').tbfs = (w.pdch t' s').tbfs := by
        rw [hp]
        split
        · rename_i hh; rw [hh.1, hh.2]
        · rfl
      rw [this]
      unfold On
      rw [htb]
      exact h.t.on t' s' d i b
    · rw [htb]; exact h.t.slots
    · have : w'.tbfN = w.tbfN := by rw [← hw']; rfl
      rw [htb, this]; exact h.t.fresh
    · have : w'.occ = w.occ := by rw [← hw']; rfl
      rw [this, h.t.occ]; exact (hsame _ (fun _ => rfl)).symm
    · have : w'.occGprs = w.occGprs := by rw [← hw']; rfl
      rw [this, h.t.occGprs]; exact (hsame _ (fun _ => rfl)).symm
    · have : w'.occEgprs = w.occEgprs := by rw [← hw']; rfl
      rw [this, h.t.occEgprs]; exact (hsame _ (fun _ => rfl)).symm
    · have : w'.avail = w.avail + 1 := by rw [← hw']
      rw [this, h.t.avail]
      have h1 := total_set (f := isOn) (w := w) (w' := w') ht hs (fun t' s' hne => by rw [hp, if_neg hne])
      have h2 : isOn (w.pdch t s) = 0 := by unfold isOn; rw [hd]; rfl
      have h3 : isOn (w'.pdch t s) = 1 := by rw [hp]; simp [isOn]
      omega
  · constructor
    · intro t' s' d
      have : (w'.pdch t' s').reserved = (w.pdch t' s').reserved := by
        rw [hp]
        split
        · rename_i hh; rw [hh.1, hh.2]
        · rfl
      rw [this, hms, hN]
      exact h.r.res t' s' d
    · intro m hlt; rw [hN] at hlt; rw [hms]; exact (h.r.msok m hlt).congr rfl rfl rfl hen

/-! ## Disabling a PDCH -/

/-- TBFs present later are the ones present before. -/
structure Fewer (w w' : World) : Prop where
  ms : w'.ms = w.ms
  msN : w'.msN = w.msN
  en : ∀ t s, (w'.pdch t s).enabled = (w.pdch t s).enabled
  tbf : ∀ c x, w'.tbf c = some x → w.tbf c = some x

theorem Fewer.refl (w : World) : Fewer w w := ⟨rfl, rfl, fun _ _ => rfl, fun _ _ h => h⟩

theorem Fewer.trans {u v w : World} (h : Fewer u v) (h' : Fewer v w) : Fewer u w :=
  ⟨h'.ms.trans h.ms, h'.msN.trans h.msN, fun t s => (h'.en t s).trans (h.en t s),
   fun c x hx => h.tbf c x (h'.tbf c x hx)⟩

theorem SameR.fewer {b : Nat} {w w' : World} (h : SameR b w w') (hb : w'.tbf b = none) : Fewer w w' :=
  ⟨h.ms, h.msN, h.en, by
    intro c x hx
    by_cases hc : c = b
    · subst hc; rw [hb] at hx; cases hx
    · rw [h.other c hc] at hx; exact hx⟩

theorem Fewer.none {w w' : World} (hf : Fewer w w') (h : Inv w) (h' : Inv w') {t s i : Nat} {d : Dir}
    (hn : (w.pdch t s).tbfs d i = none) : (w'.pdch t s).tbfs d i = none := by
  cases hq : (w'.pdch t s).tbfs d i with
  | none => rfl
  | some b =>
    obtain ⟨x, h1, h2⟩ := (h'.t.on t s d i b).1 hq
    have := (h.t.on t s d i b).2 ⟨x, hf.tbf b x h1, h2⟩
    rw [hn] at this
    cases this

theorem freeIf_inv {w : World} (h : Inv w) {t s i : Nat} {d : Dir} :
    ∃ w', freeIf w ((w.pdch t s).tbfs d i) = some w' ∧ Inv w' ∧ Fewer w w' ∧
      (w'.pdch t s).tbfs d i = none := by
  cases hq : (w.pdch t s).tbfs d i with
  | none => exact ⟨w, rfl, h, Fewer.refl w, hq⟩
  | some b =>
    obtain ⟨x, h1, -⟩ := (h.t.on t s d i b).1 hq
    obtain ⟨w', k1, k2, k3, k4⟩ := freeExtra_inv h b
    have hfr : freeExtra w b = freeTbf w b := by unfold freeExtra; rw [h1]; rfl
    rw [hfr] at k1
    refine ⟨w', k1, k2, k3.fewer k4, ?_⟩
    cases hq' : (w'.pdch t s).tbfs d i with
    | none => rfl
    | some c =>
      exfalso
      obtain ⟨y, g1, g2⟩ := (k2.t.on t s d i c).1 hq'
      have := (h.t.on t s d i c).2 ⟨y, (k3.fewer k4).tbf c y g1, g2⟩
      rw [hq] at this
      cases this
      rw [k4] at g1
      cases g1

theorem unreserveMs_inv {w : World} (h : Inv w) {t s m : Nat} (ht : t < 8) (hm : m < w.msN) :
    ∃ w', unreserveMs t s w m = some w' ∧ Inv w' ∧ SameT w w' ∧ w'.msN = w.msN ∧
      (∀ c, c ≠ m → w'.ms c = w.ms c) ∧ ∀ d, (w'.ms m).holds t s d = false := by
  have hc := h.r.msok m hm
  unfold unreserveMs
  simp only []
  split
  · rename_i hne
    refine ⟨w, rfl, h, SameT.refl w, rfl, fun _ _ => rfl, ?_⟩
    intro d
    unfold Ms.holds
    have : ((w.ms m).trx == some t) = false := by simpa using hne
    rw [this]; rfl
  · rename_i heq
    have heq : (w.ms m).trx = some t := Decidable.byContradiction heq
    split
    · rename_i hh
      refine ⟨w, rfl, h, SameT.refl w, rfl, fun _ _ => rfl, ?_⟩
      intro d
      have h1 : (w.ms m).dl.testBit s = false := by rw [← hh.1, testBit_clrBit]; simp
      have h2 : (w.ms m).ul.testBit s = false := by rw [← hh.2, testBit_clrBit]; simp
      unfold Ms.holds
      cases d <;> simp only [Ms.mask, h1, h2, Bool.and_false]
    · obtain ⟨w', h1, h2, h3, h4, h5, h6⟩ := setReserved_spec h.r hm (trx := some t)
        (ul := clrBit (w.ms m).ul s) (dl := clrBit (w.ms m).dl s) (by intro hq; cases hq) (by
          unfold MsOk at hc ⊢
          rw [heq] at hc
          simp only [testBit_clrBit, Bool.and_eq_true]
          refine ⟨hc.1, fun s' hs' => hc.2 s' ?_⟩
          rcases hs' with hs' | hs'
          · exact Or.inl hs'.1
          · exact Or.inr hs'.1)
      refine ⟨w', h1, ⟨h.t.same h3, h2, by rw [h3.tbf, h4]; exact h.own⟩, h3, h4, fun c hc => by rw [h6, if_neg hc], ?_⟩
      intro d
      rw [h6, if_pos rfl]
      unfold Ms.holds
      cases d <;> simp [Ms.mask, testBit_clrBit]

theorem disablePdch_inv {w : World} (h : Inv w) {t s : Nat} (extra : List Nat) (ht : t < 8) (hs : s < 8)
    (hd : (w.pdch t s).enabled = true) : ∃ w', disablePdch w t s extra = some w' ∧ Inv w' := by
  unfold disablePdch
  rw [if_neg (by rw [hd]; simp)]
  obtain ⟨w1, e1, i1, f1, n1⟩ := foldlM_range (freeTfi t s) (fun k w' => Inv w' ∧ Fewer w w' ∧
      ∀ i, i < k → ∀ d, (w'.pdch t s).tbfs d i = none) 32 w ⟨h, Fewer.refl w, fun i hi => absurd hi (Nat.not_lt_zero i)⟩ (by
      intro k hk v ⟨v1, v2, v3⟩
      unfold freeTfi
      obtain ⟨a, a1, a2, a3, a4⟩ := freeIf_inv v1 (t := t) (s := s) (i := k) (d := .ul)
      rw [a1]
      simp only [Option.bind_some]
      obtain ⟨c, c1, c2, c3, c4⟩ := freeIf_inv a2 (t := t) (s := s) (i := k) (d := .dl)
      refine ⟨c, c1, c2, (v2.trans a3).trans c3, ?_⟩
      intro i hi d
      by_cases hik : i = k
      · subst hik
        cases d
        · exact c3.none a2 c2 a4
        · exact c4
      · exact (a3.trans c3).none v1 c2 (v3 i (by omega) d))
  rw [e1]
  simp only [Option.bind_some]
  obtain ⟨w2, e2, i2, f2⟩ := foldlM_inv freeExtra (fun v => Inv v ∧ Fewer w1 v) extra w1 ⟨i1, Fewer.refl w1⟩ (by
    intro b _ v ⟨v1, v2⟩
    obtain ⟨a, a1, a2, a3, a4⟩ := freeExtra_inv v1 b
    exact ⟨a, a1, a2, v2.trans (a3.fewer a4)⟩)
  rw [e2]
  simp only [Option.bind_some]
  have n2 : ∀ d i, (w2.pdch t s).tbfs d i = none := by
    intro d i
    by_cases hi : i < 32
    · exact f2.none i1 i2 (n1 i hi d)
    · cases hq : (w2.pdch t s).tbfs d i with
      | none => rfl
      | some b => exact absurd ((i2.t.p t s).lt d i b hq) hi
  obtain ⟨w3, e3, i3, s3, N3, u3⟩ := foldlM_range (unreserveMs t s) (fun k v => Inv v ∧ SameT w2 v ∧
      v.msN = w2.msN ∧ ∀ m, m < k → ∀ d, (v.ms m).holds t s d = false) w2.msN w2
    ⟨i2, SameT.refl w2, rfl, fun i hi => absurd hi (Nat.not_lt_zero i)⟩ (by
      intro k hk v ⟨v1, v2, v3, v4⟩
      obtain ⟨a, a1, a2, a3, a4, a5, a6⟩ := unreserveMs_inv v1 (t := t) (s := s) (m := k) ht (by rw [v3]; exact hk)
      refine ⟨a, a1, a2, v2.trans a3, a4.trans v3, ?_⟩
      intro m hm d
      by_cases hmk : m = k
      · subst hmk; exact a6 d
      · rw [a5 m hmk]; exact v4 m (by omega) d)
  rw [e3]
  simp only [Option.map_some, Option.some.injEq, exists_eq_left']
  have hen3 : (w3.pdch t s).enabled = true := by rw [s3.en, f2.en, f1.en]; exact hd
  have n3 : ∀ d i, (w3.pdch t s).tbfs d i = none := by
    obtain ⟨r, hr⟩ := s3.pd t s
    rw [hr]; exact n2
  generalize hw' : ({ w3.setPdch t s { w3.pdch t s with enabled := false } with avail := w3.avail - 1 } : World) = w'
  have hp : ∀ t' s', w'.pdch t' s' = if t' = t ∧ s' = s then { w3.pdch t s with enabled := false }
      else w3.pdch t' s' := by intro t' s'; rw [← hw']; rfl
  have htb : w'.tbf = w3.tbf := by rw [← hw']; rfl
  have hms : w'.ms = w3.ms := by rw [← hw']; rfl
  have hN : w'.msN = w3.msN := by rw [← hw']; rfl
  have heg : eg w' = eg w3 := by unfold eg; rw [htb]
  have hus : us w' = us w3 := by unfold us; rw [htb]
  have hsame : ∀ (f : Pdch → Int), (∀ p, f { p with enabled := false } = f p) → total f w' = total f w3 := by
    intro f hf
    apply total_congr
    intro t' s'
    rw [hp]
    split
    · rename_i hh; rw [hf, hh.1, hh.2]
    · rfl
  refine ⟨?_, ?_, by rw [htb, hN]; exact i3.own⟩
  · constructor
    · intro t' s'
      rw [hp, heg, hus]
      split
      · rename_i hh
        rw [hh.2]
        exact (i3.t.p t s).congr rfl rfl rfl rfl rfl (fun _ => Or.inr n3) (fun _ _ _ _ => ⟨rfl, rfl⟩)
      · exact i3.t.p t' s'
    · intro t' s' d i b
      have : (w'.pdch t' s').tbfs = (w3.pdch t' s').tbfs := by
        rw [hp]
        split
        · rename_i hh; rw [hh.1, hh.2]
        · rfl
      rw [this]
      unfold On
      rw [htb]
      exact i3.t.on t' s' d i b
    · rw [htb]; exact i3.t.slots
    · have : w'.tbfN = w3.tbfN := by rw [← hw']; rfl
      rw [htb, this]; exact i3.t.fresh
    · have : w'.occ = w3.occ := by rw [← hw']; rfl
      rw [this, i3.t.occ]; exact (hsame _ (fun _ => rfl)).symm
    · have : w'.occGprs = w3.occGprs := by rw [← hw']; rfl
      rw [this, i3.t.occGprs]; exact (hsame _ (fun _ => rfl)).symm
    · have : w'.occEgprs = w3.occEgprs := by rw [← hw']; rfl
      rw [this, i3.t.occEgprs]; exact (hsame _ (fun _ => rfl)).symm
    · have : w'.avail = w3.avail - 1 := by rw [← hw']
      rw [this, i3.t.avail]
      have h1 := total_set (f := isOn) (w := w3) (w' := w') ht hs (fun t' s' hne => by rw [hp, if_neg hne])
      have h2 : isOn (w3.pdch t s) = 1 := by unfold isOn; rw [hen3]; rfl
      have h3 : isOn (w'.pdch t s) = 0 := by rw [hp]; simp [isOn]
      omega
  · constructor
    · intro t' s' d
      have : (w'.pdch t' s').reserved = (w3.pdch t' s').reserved := by
        rw [hp]
        split
        · rename_i hh; rw [hh.1, hh.2]
        · rfl
      rw [this, hms, hN]
      exact i3.r.res t' s' d
    · intro m hlt
      rw [hN] at hlt
      rw [hms]
      have hok := i3.r.msok m hlt
      have hno := u3 m (by rw [← N3]; exact hlt)
      unfold MsOk at hok ⊢
      unfold Ms.holds at hno
      split <;> rename_i hq <;> rw [hq] at hok
      · exact hok
      · rename_i t1
        refine ⟨hok.1, ?_⟩
        intro s' hs'
        refine ⟨(hok.2 s' hs').1, ?_⟩
        rw [hp]
        split
        · rename_i hh
          exfalso
          rw [hq] at hno
          simp only [hh.1, beq_self_eq_true, Bool.true_and] at hno
          rw [hh.2] at hs'
          have h1 := hno .ul
          have h2 := hno .dl
          simp only [Ms.mask] at h1 h2
          rw [h1, h2] at hs'
          simp at hs'
        · exact (hok.2 s' hs').2

/-! ## All operations -/

theorem step_inv {cfg : Cfg} {w : World} (h : Inv w) (op : Op) : ∃ w', step cfg w op = some w' ∧ Inv w' := by
  cases op with
  | newMs cls =>
    refine ⟨_, rfl, h.t.same ⟨rfl, rfl, rfl, rfl, rfl, rfl, fun _ _ => ⟨_, rfl⟩⟩, ?_, ?_⟩
    · constructor
      · intro t s d
        refine (h.r.res t s d).trans ?_
        show _ = (List.range (w.msN + 1)).countP _
        rw [List.range_succ, List.countP_append]
        have : List.countP (fun m => ((({ w.setMs w.msN ⟨cls, none, 0, 0, none⟩ with msN := w.msN + 1 } : World)).ms m).holds t s d)
            [w.msN] = 0 := by simp [World.setMs, Ms.holds]
        rw [this, Nat.add_zero]
        apply List.countP_congr
        intro m hm
        have hne : m ≠ w.msN := by have := List.mem_range.1 hm; omega
        simp [World.setMs, hne]
      · intro m hm
        have hm : m < w.msN + 1 := hm
        simp only [World.setMs]
        split
        · exact ⟨rfl, rfl⟩
        · exact h.r.msok m (by omega)
    · intro b x hx
      exact Nat.lt_succ_of_lt (h.own b x hx)
  | setClass m cls =>
    simp only [step]
    split
    · exact ⟨_, rfl, h.t.same (SameT.setMs _ _ _), h.r.setMs rfl rfl rfl, h.own⟩
    · exact ⟨w, rfl, h⟩
  | alloc m req e =>
    simp only [step]
    split
    · rename_i hm; exact allocTbf_inv h hm req e
    · exact ⟨w, rfl, h⟩
  | upgrade b => exact upgrade_inv h b
  | reject m t s e =>
    simp only [step]
    split
    · rename_i hm; exact ⟨_, rfl, reject_inv h hm.1 t s e⟩
    · exact ⟨w, rfl, h⟩
  | free b =>
    obtain ⟨w', h1, h2, -⟩ := freeExtra_inv h b
    exact ⟨w', h1, h2⟩
  | idle m =>
    simp only [step]
    split
    · rename_i hm
      obtain ⟨w', h1, h2, -⟩ := msIdle_inv h hm
      exact ⟨w', h1, h2⟩
    · exact ⟨w, rfl, h⟩
  | enable t s tsc =>
    simp only [step]
    split
    · rename_i hh
      obtain ⟨w', h1, h2, -⟩ := enablePdch_inv h tsc hh.1 hh.2.1 hh.2.2
      exact ⟨w', h1, h2⟩
    · exact ⟨w, rfl, h⟩
  | disable t s extra =>
    simp only [step]
    split
    · rename_i hh; exact disablePdch_inv h extra hh.1 hh.2.1 hh.2.2
    · exact ⟨w, rfl, h⟩

theorem init_inv : Inv World.init := by
  refine ⟨?_, ?_, by intro b x hx; cases hx⟩
  · constructor
    · intro t s
      constructor
      · intro d i; simp [World.init, Pdch.init]
      · intro d i b hb; cases hb
      · intro u
        simp [World.init, Pdch.init]
      · intro i b hb; cases hb
      · intro i j b c hb; cases hb
      · intro d; rfl
      · intro d; rfl
      · intro _ d i; rfl
    · intro t s d i b
      constructor
      · intro hq; cases hq
      · rintro ⟨x, hx, -⟩; cases hx
    · intro b x s hx; cases hx
    · intro b x hx; cases hx
    · rfl
    · rfl
    · rfl
    · rfl
  · constructor
    · intro t s d; rfl
    · intro m hm; exact absurd hm (Nat.not_lt_zero m)

theorem run_inv {cfg : Cfg} {w : World} (h : Inv w) (ops : List Op) : ∃ w', run cfg w ops = some w' ∧ Inv w' :=
  foldlM_inv (step cfg) Inv ops w h (fun op _ _ ha => step_inv ha op)

end Verif.Alloc
