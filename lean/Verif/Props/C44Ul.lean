import Verif.Spec.Split
/-!
# C44, uplink: reassembly of split blocks
-/

namespace Verif.Split

open Verif.Cs

/-! ### Uplink -/

theorem put_some (m : List Nat) (i : Nat) (d : List Nat) (h : i + d.length ≤ m.length) :
    put m i d = some (m.take i ++ d ++ m.drop (i + d.length)) := if_pos h

/-- Progress of the reception of one block. -/
structure UlInv (p : List Nat) (a : Nat) (s : Slot) : Prop where
  size : s.mem.length = 74
  first : s.st = .firstRxd → s.len = a ∧ s.infoLen = a ∧ s.mem.take a = p.take a
  second : s.st = .secondRxd → s.len = p.length - a ∧ (s.mem.drop (p.length - a)).take (p.length - a) = p.drop a

theorem take_drop_mid (m q r : List Nat) (h : q.length ≤ m.length) :
    ((m.take q.length ++ q ++ r).drop q.length).take q.length = q := by
  have h0 : (m.take q.length).length = q.length := by rw [List.length_take]; omega
  rw [List.append_assoc, List.drop_append, h0, Nat.sub_self, List.drop_zero, List.drop_of_length_le (Nat.le_of_eq h0),
    List.nil_append, List.take_left]

theorem run_spec (p : List Nat) (a : Nat) (hp : p.length ≤ 74) (ha : a ≤ p.length) :
    ∀ (as : List Arr) (s : Slot), UlInv p a s → (∀ x ∈ as, ArrOf p a x) →
      (p.length = a + a ∨ s.st = .firstRxd ∨ (s.st = .dflt ∧ ∀ d, as.head? ≠ some (Arr.second d))) →
      ∃ t done, ulRun s as = some (t, done) ∧ t.mem.length = 74 ∧
        (done = true → Holds t p) ∧
        (done = true ↔ (∃ d, Arr.whole d ∈ as) ∨
          ((s.st = .firstRxd ∨ ∃ d, Arr.first d ∈ as) ∧ (s.st = .secondRxd ∨ ∃ d, Arr.second d ∈ as))) ∧
        (done = true → (∀ d, Arr.whole d ∉ as) → t.st = .dflt)
  | [], s, hi, _, _ => by
    refine ⟨s, false, rfl, hi.size, by simp, ?_, by simp⟩
    simp
    intro h h'; rw [h] at h'; cases h'
  | x :: as, s, hi, hx, ho => by
    have hsz := hi.size
    have hx0 := hx x (List.mem_cons_self ..)
    have hxs : ∀ y ∈ as, ArrOf p a y := fun y hy => hx y (List.mem_cons_of_mem _ hy)
    have lt : (p.take a).length = a := by rw [List.length_take]; omega
    have ld : (p.drop a).length = p.length - a := List.length_drop
    cases x with
    | whole d =>
      have hd : d = p := hx0
      subst hd
      refine ⟨{ s with mem := s.mem.take 0 ++ d ++ s.mem.drop (0 + d.length), len := d.length, infoLen := d.length },
        true, ?_, ?_, ?_, ?_, ?_⟩
      · simp only [ulRun, ulStore]
        rw [put_some _ _ _ (by omega)]; rfl
      · simp; omega
      · intro _; exact ⟨rfl, rfl, by simp⟩
      · simp only [true_iff]; exact .inl ⟨d, List.mem_cons_self ..⟩
      · intro _ h; exact absurd (List.mem_cons_self ..) (h d)
    | first d =>
      have hd : d = p.take a := hx0
      subst hd
      cases hst : s.st with
      | dflt =>
        have e : ulRun s (.first (p.take a) :: as) =
            ulRun { mem := s.mem.take 0 ++ p.take a ++ s.mem.drop (0 + (p.take a).length)
                    len := (p.take a).length
                    infoLen := (p.take a).length
                    st := .firstRxd } as := by
          simp only [ulRun, ulStore, ulFirst, hst]
          rw [put_some _ _ _ (by omega)]; simp
        rw [e]
        obtain ⟨t, done, h1, h2, h3, h4, h5⟩ := run_spec p a hp ha as
          { mem := s.mem.take 0 ++ p.take a ++ s.mem.drop (0 + (p.take a).length)
            len := (p.take a).length
            infoLen := (p.take a).length
            st := .firstRxd }
          ⟨by simp; omega, fun _ => ⟨lt, lt, by
            show (s.mem.take 0 ++ p.take a ++ _).take a = _
            rw [List.take_zero, List.nil_append, List.take_append_of_le_length (by omega), List.take_of_length_le (by omega)]⟩,
            fun h => by cases h⟩ hxs (.inr (.inl rfl))
        refine ⟨t, done, h1, h2, h3, ?_, fun hd hw => h5 hd fun d hm => hw d (List.mem_cons_of_mem _ hm)⟩
        rw [h4]
        simp
      | firstRxd =>
        have e : ulRun s (.first (p.take a) :: as) = ulRun s as := by
          simp [ulRun, ulStore, ulFirst, hst]
        rw [e]
        obtain ⟨t, done, h1, h2, h3, h4, h5⟩ := run_spec p a hp ha as s hi hxs (.inr (.inl hst))
        refine ⟨t, done, h1, h2, h3, ?_, fun hd hw => h5 hd fun d hm => hw d (List.mem_cons_of_mem _ hm)⟩
        rw [h4]
        simp [hst]
      | secondRxd =>
        have he : p.length = a + a := by
          rcases ho with h | h | h
          · exact h
          · rw [hst] at h; cases h
          · rw [hst] at h; cases h.1
        obtain ⟨i1, i2⟩ := hi.second hst
        have hna : p.length - a = a := by omega
        rw [hna] at i1 i2
        refine ⟨{ mem := s.mem.take 0 ++ p.take a ++ s.mem.drop (0 + (p.take a).length)
                  len := s.len + (p.take a).length
                  infoLen := s.len + (p.take a).length
                  st := .dflt }, true, ?_, ?_, ?_, ?_, fun _ _ => rfl⟩
        · simp only [ulRun, ulStore, ulFirst, hst]
          rw [put_some _ _ _ (by omega)]; simp
        · simp; omega
        · intro _
          refine ⟨by show s.len + _ = _; omega, by show s.len + _ = _; omega, ?_⟩
          show (s.mem.take 0 ++ p.take a ++ s.mem.drop (0 + (p.take a).length)).take (s.len + (p.take a).length) = p
          rw [List.take_zero, List.nil_append, lt, i1, Nat.zero_add]
          have : a + a = (p.take a).length + a := by omega
          rw [this, List.take_length_add_append, i2, List.take_append_drop]
        · simp [hst]
    | second d =>
      have hd : d = p.drop a := hx0
      subst hd
      cases hst : s.st with
      | dflt =>
        have he : p.length = a + a := by
          rcases ho with h | h | h
          · exact h
          · rw [hst] at h; cases h
          · exact absurd rfl (h.2 _)
        have e : ulRun s (.second (p.drop a) :: as) =
            ulRun { mem := s.mem.take (p.drop a).length ++ p.drop a ++ s.mem.drop ((p.drop a).length + (p.drop a).length)
                    len := (p.drop a).length
                    infoLen := (p.drop a).length
                    st := .secondRxd } as := by
          simp only [ulRun, ulStore, ulSecond, hst]
          rw [put_some _ _ _ (by omega)]; simp
        rw [e]
        obtain ⟨t, done, h1, h2, h3, h4, h5⟩ := run_spec p a hp ha as
          { mem := s.mem.take (p.drop a).length ++ p.drop a ++ s.mem.drop ((p.drop a).length + (p.drop a).length)
            len := (p.drop a).length
            infoLen := (p.drop a).length
            st := .secondRxd }
          ⟨by simp; omega, (fun h => by cases h), fun _ => ⟨ld, by
            rw [← ld]; exact take_drop_mid _ _ _ (by omega)⟩⟩
          hxs (.inl he)
        refine ⟨t, done, h1, h2, h3, ?_, fun hd hw => h5 hd fun d hm => hw d (List.mem_cons_of_mem _ hm)⟩
        rw [h4]
        simp
      | secondRxd =>
        have e : ulRun s (.second (p.drop a) :: as) = ulRun s as := by
          simp [ulRun, ulStore, ulSecond, hst]
        rw [e]
        have he : p.length = a + a := by
          rcases ho with h | h | h
          · exact h
          · rw [hst] at h; cases h
          · rw [hst] at h; cases h.1
        obtain ⟨t, done, h1, h2, h3, h4, h5⟩ := run_spec p a hp ha as s hi hxs (.inl he)
        refine ⟨t, done, h1, h2, h3, ?_, fun hd hw => h5 hd fun d hm => hw d (List.mem_cons_of_mem _ hm)⟩
        rw [h4]
        simp [hst]
      | firstRxd =>
        obtain ⟨i1, i2, i3⟩ := hi.first hst
        refine ⟨{ mem := s.mem.take s.len ++ p.drop a ++ s.mem.drop (s.len + (p.drop a).length)
                  len := s.len + (p.drop a).length
                  infoLen := s.infoLen + (p.drop a).length
                  st := .dflt }, true, ?_, ?_, ?_, ?_, fun _ _ => rfl⟩
        · simp only [ulRun, ulStore, ulSecond, hst]
          rw [put_some _ _ _ (by omega)]; simp
        · simp; omega
        · intro _
          refine ⟨by show s.len + _ = _; omega, by show s.infoLen + _ = _; omega, ?_⟩
          show (s.mem.take s.len ++ p.drop a ++ s.mem.drop (s.len + (p.drop a).length)).take (s.len + (p.drop a).length) = p
          have h0 : (s.mem.take s.len).length = s.len := by rw [List.length_take]; omega
          rw [List.take_append_of_le_length (by rw [List.length_append]; omega),
            List.take_of_length_le (by rw [List.length_append]; omega), i1, i3, List.take_append_drop]
        · simp [hst]

/-- **Uplink, one block.** A free store and any sequence of copies of a block, whole and in
equal halves, in any order and with repetitions: no octet outside the store is written; the
block counts as complete exactly when the copies determine it; then the store holds the
payload. -/
theorem C44_ul_one_block (p : List Nat) (a : Nat) (hp : p.length ≤ 74) (ha : p.length = a + a)
    (s : Slot) (hs : s.mem.length = 74) (h0 : s.st = .dflt) (as : List Arr) (has : ∀ x ∈ as, ArrOf p a x) :
    ∃ t done, ulRun s as = some (t, done) ∧ t.mem.length = 74 ∧ (done = true ↔ Enough as) ∧
      (done = true → Holds t p) ∧ (done = true → (∀ d, Arr.whole d ∉ as) → t.st = .dflt) := by
  obtain ⟨t, done, h1, h2, h3, h4, h5⟩ := run_spec p a hp (by omega) as s
    ⟨hs, (fun h => by rw [h0] at h; cases h), (fun h => by rw [h0] at h; cases h)⟩ has (.inl ha)
  refine ⟨t, done, h1, h2, ?_, h3, h5⟩
  rw [h4]; simp [h0, Enough]

/-- Unequal halves (an MCS-8 block: 31 and 37 octets): correct when the first half comes
first. -/
theorem C44_ul_unequal_partial (p : List Nat) (a : Nat) (hp : p.length ≤ 74) (ha : a ≤ p.length)
    (s : Slot) (hs : s.mem.length = 74) (h0 : s.st = .dflt) (as : List Arr) (has : ∀ x ∈ as, ArrOf p a x)
    (hf : ∀ d, as.head? ≠ some (Arr.second d)) :
    ∃ t done, ulRun s as = some (t, done) ∧ t.mem.length = 74 ∧ (done = true ↔ Enough as) ∧
      (done = true → Holds t p) := by
  obtain ⟨t, done, h1, h2, h3, h4, _⟩ := run_spec p a hp ha as s
    ⟨hs, (fun h => by rw [h0] at h; cases h), (fun h => by rw [h0] at h; cases h)⟩ has (.inr (.inr ⟨h0, hf⟩))
  refine ⟨t, done, h1, h2, ?_, h3⟩
  rw [h4]; simp [h0, Enough]

/-- The second half of an MCS-8 block first: the stored block is wrong, for every payload
whose octet 31 differs from what the store held before. -/
theorem C44_ul_violated_order (p : List Nat) (hp : p.length = 68) (s : Slot) (hs : s.mem.length = 74)
    (h0 : s.st = .dflt) (hne : s.mem[31]? ≠ p[31]?) :
    ∃ t, ulRun s [.second (p.drop 31), .first (p.take 31)] = some (t, true) ∧ t.mem.take t.len ≠ p := by
  refine ⟨{ mem := ((s.mem.take 37 ++ p.drop 31 ++ s.mem.drop 74).take 0 ++ p.take 31 ++
                    (s.mem.take 37 ++ p.drop 31 ++ s.mem.drop 74).drop 31)
            len := 37 + 31
            infoLen := 37 + 31
            st := .dflt }, ?_, ?_⟩
  · have l1 : (p.drop 31).length = 37 := by rw [List.length_drop]; omega
    have l2 : (p.take 31).length = 31 := by rw [List.length_take]; omega
    simp only [ulRun, ulStore, ulSecond, h0, l1]
    rw [put_some _ _ _ (by omega)]
    simp only [l1, Option.map_some, Option.bind_some, reduceCtorEq, decide_false, Bool.false_eq_true, if_false]
    simp only [ulFirst, l2]
    rw [put_some _ _ _ (by simp; omega)]
    simp only [l2, Option.map_some, Option.bind_some, decide_true, if_true, Nat.zero_add]
  · intro h
    apply hne
    have h' := congrArg (·[31]?) h
    simp only at h'
    rw [← h', List.getElem?_take_of_lt (by omega)]
    have l2 : (p.take 31).length = 31 := by rw [List.length_take]; omega
    rw [List.take_zero, List.nil_append, List.getElem?_append_right (by omega), l2, Nat.sub_self,
      List.getElem?_drop, Nat.add_zero, List.append_assoc, List.getElem?_append_left (by rw [List.length_take]; omega),
      List.getElem?_take_of_lt (by omega)]

/-- The blocks that use one store one after the other: for each the arrivals until it is
complete. The store is reused when the block numbers have advanced by 1024 or 2048. -/
def ulBlocks (s : Slot) : List (List Arr) → Option (Slot × List (List Nat))
  | [] => some (s, [])
  | as :: rest =>
    (ulRun s as).bind fun (t, done) =>
    (ulBlocks t rest).map fun (u, out) => (u, if done then t.mem.take t.len :: out else out)

/-- **Uplink, all blocks of a store.** If every block is complete before its number is used
again, and no whole copy follows a half of the same block, every block is stored as it was
sent. -/
theorem C44_ul_all_blocks_partial : ∀ (blocks : List (List Nat × Nat × List Arr)) (s : Slot),
    s.mem.length = 74 → s.st = .dflt →
    (∀ b ∈ blocks, b.1.length ≤ 74 ∧ b.1.length = b.2.1 + b.2.1 ∧ (∀ x ∈ b.2.2, ArrOf b.1 b.2.1 x) ∧
      Enough b.2.2 ∧ WholeFirst b.2.2) →
    ∃ t, ulBlocks s (blocks.map (·.2.2)) = some (t, blocks.map (·.1))
  | [], s, _, _, _ => ⟨s, rfl⟩
  | (p, a, as) :: rest, s, hs, h0, hb => by
    obtain ⟨b1, b2, b3, b4, b5⟩ := hb _ (List.mem_cons_self ..)
    dsimp only at b1 b2 b3 b4 b5
    obtain ⟨t, done, h1, h2, h3, h4, h5⟩ := C44_ul_one_block p a b1 b2 s hs h0 as b3
    have hd : done = true := h3.2 b4
    subst hd
    have hst : t.st = .dflt := by
      cases as with
      | nil => rcases b4 with ⟨d, h⟩ | ⟨⟨d, h⟩, -⟩ <;> cases h
      | cons x xs =>
        cases x with
        | whole d =>
          have hw : ulRun s (.whole d :: xs) = some (t, true) := h1
          simp only [ulRun, ulStore] at hw
          have hd : d = p := b3 _ (List.mem_cons_self ..)
          rw [put_some _ _ _ (by rw [hd]; omega)] at hw
          simp only [Option.map_some, Option.bind_some, if_true, Option.some.injEq, Prod.mk.injEq, and_true] at hw
          rw [← hw]; exact h0
        | first d =>
          refine h5 rfl fun d' h => ?_
          rcases List.mem_cons.1 h with h | h
          · cases h
          · exact b5 d' h
        | second d =>
          refine h5 rfl fun d' h => ?_
          rcases List.mem_cons.1 h with h | h
          · cases h
          · exact b5 d' h
    obtain ⟨u, hu⟩ := C44_ul_all_blocks_partial rest t h2 hst fun b h => hb b (List.mem_cons_of_mem _ h)
    refine ⟨u, ?_⟩
    rw [List.map_cons]
    simp only [ulBlocks]
    rw [h1, Option.bind_some]
    dsimp only
    rw [hu, Option.map_some, if_pos rfl]
    obtain ⟨g1, g2, g3⟩ := h4 rfl
    rw [g3]
    rfl

/-- The condition is needed: a half, then a whole copy of a 74-octet block (MCS-3, then
MCS-6) leaves the store in the state "first half received". When the second half of a later
block with this store arrives, it is written behind the end of the store. -/
theorem C44_ul_violated_overflow (p q : List Nat) (hp : p.length = 74) (hq : q.length = 74) (s : Slot)
    (hs : s.mem.length = 74) (h0 : s.st = .dflt) :
    ulBlocks s [[.first (p.take 37), .whole p], [.second (q.drop 37)]] = none := by
  have l1 : (p.take 37).length = 37 := by rw [List.length_take]; omega
  have l2 : (q.drop 37).length = 37 := by rw [List.length_drop]; omega
  simp only [ulBlocks, ulRun, ulStore, ulFirst, h0, l1]
  rw [put_some _ _ _ (by omega)]
  simp only [Option.map_some, Option.bind_some, reduceCtorEq, decide_false, Bool.false_eq_true, if_false]
  rw [put_some _ _ _ (by simp; omega)]
  simp only [Option.map_some, Option.bind_some, if_true, ulSecond]
  have : put (List.take 0 (List.take 0 s.mem ++ List.take 37 p ++ List.drop (0 + (List.take 37 p).length) s.mem) ++ p ++
      List.drop (0 + p.length) (List.take 0 s.mem ++ List.take 37 p ++ List.drop (0 + (List.take 37 p).length) s.mem))
      p.length (q.drop 37) = none := by
    apply if_neg
    simp
    omega
  rw [this]
  rfl

/-- Likewise with the second half: the first half of a later block is taken for complete,
and its second half is old data. -/
theorem C44_ul_violated_mixed : ∃ (s t u : Slot) (p q : List Nat), s.mem.length = 74 ∧ s.st = .dflt ∧
    p.length = 44 ∧ q.length = 44 ∧
    ulRun s [.second (p.drop 22), .whole p] = some (t, true) ∧
    ulRun t [.first (q.take 22)] = some (u, true) ∧ u.len = 66 ∧ u.mem.take 44 ≠ q ∧
    (u.mem.take 44).drop 22 = p.drop 22 := by
  refine ⟨⟨List.replicate 74 0, 0, 0, .dflt⟩, _, _, List.replicate 44 1, List.replicate 44 2, rfl, rfl, rfl, rfl, rfl, rfl, ?_⟩
  decide +kernel

/-! ### Concrete cases -/

example : ∃ s : Slot, s.mem.length = 74 ∧ s.st = .dflt := ⟨⟨List.replicate 74 0, 0, 0, .dflt⟩, rfl, rfl⟩

example : ∀ x ∈ [Arr.second [3, 4], .second [3, 4], .first [1, 2]], ArrOf [1, 2, 3, 4] 2 x := by
  simp [ArrOf]

end Verif.Split
