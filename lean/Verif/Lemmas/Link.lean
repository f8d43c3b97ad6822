import Verif.Spec.Link
/-!
# Lemmas on the kept measurements
-/

namespace Verif.Link

/-- A value that only changes when a block says something is that of the last one that does. -/
theorem last_iff {α : Type} {f : Ev → Option α} {g : Meas → Option α}
    (h : ∀ m e, g (step m e) = (f e).or (g m)) (es : List Ev) :
    ∀ (m : Meas) (v : α), g (es.foldl step m) = some v ↔
      LastOf f es v ∨ (g m = some v ∧ ∀ e ∈ es, f e = none) := by
  induction es with
  | nil =>
    intro m v
    constructor
    · intro h; exact Or.inr ⟨h, nofun⟩
    · rintro (⟨a, e, b, h, -⟩ | ⟨h, -⟩)
      · cases a <;> cases h
      · exact h
  | cons e es ih =>
    intro m v
    rw [List.foldl_cons, ih, h]
    constructor
    · rintro (⟨a, e', b, h1, h2, h3⟩ | ⟨h1, h2⟩)
      · exact Or.inl ⟨e :: a, e', b, by rw [h1]; rfl, h2, h3⟩
      · cases hf : f e with
        | some u =>
          rw [hf] at h1
          exact Or.inl ⟨[], e, es, rfl, hf.trans h1, h2⟩
        | none =>
          rw [hf] at h1
          refine Or.inr ⟨h1, ?_⟩
          intro x hx
          rcases List.mem_cons.1 hx with rfl | hx
          · exact hf
          · exact h2 x hx
    · rintro (⟨a, e', b, h1, h2, h3⟩ | ⟨h1, h2⟩)
      · cases a with
        | nil =>
          cases h1
          exact Or.inr ⟨by rw [h2]; rfl, h3⟩
        | cons a1 a =>
          cases h1
          exact Or.inl ⟨a, e', b, rfl, h2, h3⟩
      · refine Or.inr ⟨by rw [h2 e (List.mem_cons_self ..)]; exact h1, ?_⟩
        exact fun x hx => h2 x (List.mem_cons_of_mem _ hx)

theorem run_iff {α : Type} {f : Ev → Option α} {g : Meas → Option α}
    (h : ∀ m e, g (step m e) = (f e).or (g m)) (h0 : g {} = none) (es : List Ev) (v : α) :
    g (run es) = some v ↔ LastOf f es v := by
  unfold run
  rw [last_iff h]
  constructor
  · rintro (h | ⟨h, -⟩)
    · exact h
    · rw [h0] at h; cases h
  · exact Or.inl

/-- What the loop over the slots of a message leaves alone. -/
theorem getLev_other (slot : Nat → Option Nat) (l : List Nat) : ∀ m : Meas,
    (l.foldl (getLev slot) m).rssi = m.rssi ∧ (l.foldl (getLev slot) m).ber = m.ber ∧
    (l.foldl (getLev slot) m).bto = m.bto ∧ (l.foldl (getLev slot) m).lq = m.lq ∧
    (l.foldl (getLev slot) m).rxq = m.rxq ∧ (l.foldl (getLev slot) m).cval = m.cval ∧
    (l.foldl (getLev slot) m).svar = m.svar := by
  induction l with
  | nil => intro m; exact ⟨rfl, rfl, rfl, rfl, rfl, rfl, rfl⟩
  | cons i l ih =>
    intro m
    rw [List.foldl_cons]
    obtain ⟨a1, a2, a3, a4, a5, a6, a7⟩ := ih (getLev slot m i)
    have hs : (getLev slot m i).rssi = m.rssi ∧ (getLev slot m i).ber = m.ber ∧ (getLev slot m i).bto = m.bto ∧
        (getLev slot m i).lq = m.lq ∧ (getLev slot m i).rxq = m.rxq ∧ (getLev slot m i).cval = m.cval ∧
        (getLev slot m i).svar = m.svar := by
      unfold getLev
      split <;> exact ⟨rfl, rfl, rfl, rfl, rfl, rfl, rfl⟩
    obtain ⟨b1, b2, b3, b4, b5, b6, b7⟩ := hs
    exact ⟨a1.trans b1, a2.trans b2, a3.trans b3, a4.trans b4, a5.trans b5, a6.trans b6, a7.trans b7⟩

theorem getLev_lev (slot : Nat → Option Nat) (l : List Nat) : ∀ (m : Meas) (j : Nat),
    (l.foldl (getLev slot) m).lev j =
      if j ∈ l then ((slot j).map fun v : Nat => -2 * (v : Int)).or (m.lev j) else m.lev j := by
  induction l with
  | nil => intro m j; simp
  | cons i l ih =>
    intro m j
    rw [List.foldl_cons, ih]
    have h1 : (getLev slot m i).lev j =
        if j = i then ((slot j).map fun v : Nat => -2 * (v : Int)).or (m.lev j) else m.lev j := by
      unfold getLev
      split
      · rename_i h
        split
        · rename_i hj; rw [hj, h]; rfl
        · rfl
      · rename_i v h
        show (if j = i then _ else _) = _
        split
        · rename_i hj; rw [hj, h]; rfl
        · rfl
    rw [h1]
    by_cases hj : j = i
    · subst hj
      simp only [if_true, List.mem_cons, true_or]
      split
      · cases slot j <;> rfl
      · rfl
    · simp only [hj, if_false, List.mem_cons, false_or]

theorem getLev_any (slot : Nat → Option Nat) (l : List Nat) : ∀ m : Meas,
    (l.foldl (getLev slot) m).anyLev = (m.anyLev || l.any fun i => (slot i).isSome) := by
  induction l with
  | nil => intro m; simp
  | cons i l ih =>
    intro m
    rw [List.foldl_cons, ih, List.any_cons]
    unfold getLev
    cases h : slot i <;> simp [Meas.setLev]

/-- What the loop of `ms_update_l1_meas` leaves alone. -/
theorem keepLev_other (n : Meas) (l : List Nat) : ∀ m : Meas,
    (l.foldl (keepLev n) m).rssi = m.rssi ∧ (l.foldl (keepLev n) m).ber = m.ber ∧
    (l.foldl (keepLev n) m).bto = m.bto ∧ (l.foldl (keepLev n) m).lq = m.lq ∧
    (l.foldl (keepLev n) m).rxq = m.rxq ∧ (l.foldl (keepLev n) m).cval = m.cval ∧
    (l.foldl (keepLev n) m).svar = m.svar := by
  induction l with
  | nil => intro m; exact ⟨rfl, rfl, rfl, rfl, rfl, rfl, rfl⟩
  | cons i l ih =>
    intro m
    rw [List.foldl_cons]
    obtain ⟨a1, a2, a3, a4, a5, a6, a7⟩ := ih (keepLev n m i)
    have hs : (keepLev n m i).rssi = m.rssi ∧ (keepLev n m i).ber = m.ber ∧ (keepLev n m i).bto = m.bto ∧
        (keepLev n m i).lq = m.lq ∧ (keepLev n m i).rxq = m.rxq ∧ (keepLev n m i).cval = m.cval ∧
        (keepLev n m i).svar = m.svar := by
      unfold keepLev
      split <;> exact ⟨rfl, rfl, rfl, rfl, rfl, rfl, rfl⟩
    obtain ⟨b1, b2, b3, b4, b5, b6, b7⟩ := hs
    exact ⟨a1.trans b1, a2.trans b2, a3.trans b3, a4.trans b4, a5.trans b5, a6.trans b6, a7.trans b7⟩

theorem keepLev_lev (n : Meas) (l : List Nat) : ∀ (m : Meas) (j : Nat),
    (l.foldl (keepLev n) m).lev j = if j ∈ l then n.lev j else m.lev j := by
  induction l with
  | nil => intro m j; simp
  | cons i l ih =>
    intro m j
    rw [List.foldl_cons, ih]
    have h1 : (keepLev n m i).lev j = if j = i then n.lev j else m.lev j := by
      unfold keepLev
      split
      · rename_i v h
        show (if j = i then _ else _) = _
        split
        · rename_i hj; rw [hj, h]
        · rfl
      · rename_i h
        show (if j = i then _ else _) = _
        split
        · rename_i hj; rw [hj, h]
        · rfl
    rw [h1]
    by_cases hj : j = i
    · simp only [hj, if_true, List.mem_cons, true_or]
      split <;> rfl
    · simp only [hj, if_false, List.mem_cons, false_or]

theorem update_other (m n : Meas) :
    (update m n).rssi = n.rssi.or m.rssi ∧ (update m n).ber = n.ber.or m.ber ∧
    (update m n).bto = n.bto.or m.bto ∧ (update m n).lq = n.lq.or m.lq ∧
    (update m n).rxq = n.rxq.or m.rxq ∧ (update m n).cval = n.cval.or m.cval ∧
    (update m n).svar = n.svar.or m.svar := by
  unfold update
  simp only []
  split
  · exact keepLev_other n _ _
  · exact ⟨rfl, rfl, rfl, rfl, rfl, rfl, rfl⟩

theorem update_lev (m n : Meas) (j : Nat) (hj : j < 8) :
    (update m n).lev j = if n.anyLev = true then n.lev j else m.lev j := by
  unfold update
  simp only []
  split
  · rw [keepLev_lev, if_pos (List.mem_range.2 hj)]
  · rfl

theorem any_range (slot : Nat → Option Nat) : ((List.range 8).any fun i => (slot i).isSome) =
    ((slot 0).isSome || (slot 1).isSome || (slot 2).isSome || (slot 3).isSome ||
    (slot 4).isSome || (slot 5).isSome || (slot 6).isSome || (slot 7).isSome) := by
  rw [show List.range 8 = [0, 1, 2, 3, 4, 5, 6, 7] from by decide]
  simp only [List.any_cons, List.any_nil, Bool.or_false, Bool.or_assoc]

end Verif.Link
