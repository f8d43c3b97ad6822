import Verif.Model.AllocAlgo
/-!
# Facts about the allocation algorithms
-/

namespace Verif.Alloc

theorem foldl_inv {α β : Type} (P : β → Prop) (f : β → α → β) (l : List α) (b : β) (h0 : P b)
    (hs : ∀ b a, a ∈ l → P b → P (f b a)) : P (l.foldl f b) := by
  induction l generalizing b with
  | nil => exact h0
  | cons a l ih =>
    exact ih _ (hs _ _ List.mem_cons_self h0) (fun b a' ha => hs b a' (List.mem_cons_of_mem _ ha))

theorem testBit_one_shl (i s : Nat) : (1 <<< i).testBit s = decide (i = s) := by
  rw [Nat.one_shiftLeft, Nat.testBit_two_pow]

theorem ne_zero_of_testBit {m s : Nat} (h : m.testBit s = true) : m ≠ 0 := by
  intro e; subst e; simp at h

theorem exists_testBit {m : Nat} (h : m ≠ 0) : ∃ s, m.testBit s = true := by
  exact Nat.exists_testBit_of_ne_zero h

theorem findPossible_spec (trx : Trx) (k mask s : Nat) (h : (findPossible trx k mask).testBit s = true) :
    s < 8 ∧ (trx s).enabled = true ∧ mask.testBit s = true := by
  have : ∀ acc : Nat × Option Nat, (∀ s, acc.1.testBit s = true →
      s < 8 ∧ (trx s).enabled = true ∧ mask.testBit s = true) →
      ∀ s, ((List.range 8).foldl (possibleStep trx k mask) acc).1.testBit s = true →
      s < 8 ∧ (trx s).enabled = true ∧ mask.testBit s = true := by
    intro acc h0
    refine foldl_inv (fun (a : Nat × Option Nat) => ∀ s, a.1.testBit s = true →
      s < 8 ∧ (trx s).enabled = true ∧ mask.testBit s = true) _ _ _ h0 ?_
    intro b ts hts hb s hs
    have hts := List.mem_range.1 hts
    unfold possibleStep at hs
    have key : ∀ x : Nat, x = b.1 ||| 1 <<< ts → (trx ts).enabled ≠ false → mask.testBit ts ≠ false →
        x.testBit s = true → s < 8 ∧ (trx s).enabled = true ∧ mask.testBit s = true := by
      intro x hx he hm h
      subst hx
      rw [Nat.testBit_or, testBit_one_shl, Bool.or_eq_true] at h
      cases h with
      | inl h => exact hb s h
      | inr h =>
        have : ts = s := of_decide_eq_true h
        subst this
        exact ⟨hts, by simpa using he, by simpa using hm⟩
    split at hs
    · exact hb s hs
    · rename_i he
      split at hs
      · exact hb s hs
      · rename_i hm
        split at hs
        · split at hs
          · exact key _ rfl he hm hs
          · split at hs
            · exact hb s hs
            · exact key _ rfl he hm hs
        · exact key _ rfl he hm hs
  exact this (0, none) (by simp) s h

theorem findFreeUsf_spec {m u : Nat} (h : findFreeUsf m = some u) : u < 7 ∧ m.testBit u = false := by
  unfold findFreeUsf at h
  split at h
  · cases h
  · exact ⟨List.mem_range.1 (List.mem_of_find?_eq_some h), by simpa using List.find?_some h⟩

theorem findFreeTfi_spec {m u : Nat} (h : findFreeTfi m = some u) : u < 32 ∧ m.testBit u = false := by
  unfold findFreeTfi at h
  split at h
  · cases h
  · exact ⟨List.mem_range.1 (List.mem_of_find?_eq_some h), by simpa using List.find?_some h⟩

/-- What is known about the candidate. -/
def CandOk (trx : Trx) (d : Dir) (mask : Nat) (wantTfi : Bool) (c : Cand) : Prop :=
  c.ts < 8 ∧ mask.testBit c.ts = true ∧
  (wantTfi = true → ∃ i, c.tfi = some i ∧ findFreeTfi ((trx c.ts).tfiMap d) = some i) ∧
  (d = .ul → ∃ u, c.usf = some u ∧ findFreeUsf (trx c.ts).usfMap = some u)

theorem leastBusy_spec {trx : Trx} {d : Dir} {mask : Nat} {usage : Pdch → Dir → Nat} {w : Bool}
    {c : Cand} (h : leastBusy trx d mask usage w = some c) : CandOk trx d mask w c := by
  have : ∀ c, leastBusy trx d mask usage w = some c → CandOk trx d mask w c := by
    unfold leastBusy
    refine foldl_inv (fun (b : Option Cand) => ∀ c, b = some c → CandOk trx d mask w c) _ _ _ (by simp) ?_
    intro b ts hts hb c hc
    have hts := List.mem_range.1 hts
    unfold busyStep at hc
    simp only [] at hc
    generalize hti : (if w = true then findFreeTfi ((trx ts).tfiMap d) else none) = ti at hc
    generalize hus : (if d = Dir.ul then findFreeUsf (trx ts).usfMap else none) = us at hc
    split at hc
    · exact hb c hc
    · rename_i hm
      split at hc
      · exact hb c hc
      · split at hc
        · exact hb c hc
        · rename_i ht
          split at hc
          · exact hb c hc
          · rename_i hu
            cases hc
            refine ⟨hts, by simpa using hm, ?_, ?_⟩
            · intro hw
              subst hw
              simp only [if_true, true_and] at ht hti
              cases ti with
              | none => exact absurd rfl ht
              | some i => exact ⟨i, rfl, hti⟩
            · intro hd
              subst hd
              simp only [if_true, true_and] at hu hus
              cases us with
              | none => exact absurd rfl hu
              | some i => exact ⟨i, rfl, hus⟩
  exact this c h

theorem leastBusy_dl_isSome {trx : Trx} {mask : Nat} {usage : Pdch → Dir → Nat} {s : Nat}
    (hs : s < 8) (hm : mask.testBit s = true) : (leastBusy trx .dl mask usage false).isSome = true := by
  have mono : ∀ (l : List Nat) (b : Option Cand), b.isSome = true →
      (l.foldl (busyStep trx .dl mask usage false) b).isSome = true := by
    intro l b hb
    refine foldl_inv (fun (b : Option Cand) => b.isSome = true) _ _ _ hb ?_
    intro b ts _ hb
    unfold busyStep
    simp only []
    repeat' split
    all_goals first | exact hb | rfl
  unfold leastBusy
  have hmem : s ∈ List.range 8 := List.mem_range.2 hs
  obtain ⟨l1, l2, he⟩ := List.append_of_mem hmem
  rw [he, List.foldl_append, List.foldl_cons]
  apply mono
  generalize List.foldl _ none l1 = b
  unfold busyStep
  cases b with
  | none => simp [hm, better]
  | some b => by_cases hlt : usage (trx s) Dir.dl < b.used <;> simp [hm, hlt, better]

/-! ## Free TFIs -/

theorem countFreeTfi_spec {trx : Trx} {d : Dir} (h : (countFreeTfi trx d).1 > 0) :
    (countFreeTfi trx d).2 < 32 ∧
    ∀ s, s < 8 → (trx s).enabled = true → ((trx s).tfiMap d).testBit (countFreeTfi trx d).2 = false := by
  unfold countFreeTfi at h ⊢
  simp only [] at h ⊢
  generalize hm : (List.range 8).foldl
    (fun m ts => if (trx ts).enabled = true then m &&& (0xffffffff ^^^ (trx ts).tfiMap d) else m)
    0xffffffff = mask at h ⊢
  split at h
  · exact absurd h (by decide)
  · rename_i hc
    rw [if_neg hc]
    simp only [] at h ⊢
    obtain ⟨i, hi⟩ := List.length_pos_iff_exists_mem.1 h
    rw [List.mem_filter] at hi
    cases hf : (List.range 32).find? fun i => mask.testBit i with
    | none => exact absurd hi.2 (by simpa using List.find?_eq_none.1 hf i hi.1)
    | some j =>
      have hj := List.mem_range.1 (List.mem_of_find?_eq_some hf)
      have hb := List.find?_some hf
      simp only [Option.getD_some]
      refine ⟨hj, ?_⟩
      intro s hs he
      have key : ∀ (l : List Nat) (m0 : Nat),
          (l.foldl (fun m ts => if (trx ts).enabled = true
            then m &&& (0xffffffff ^^^ (trx ts).tfiMap d) else m) m0).testBit j = true →
          m0.testBit j = true ∧ ∀ s ∈ l, (trx s).enabled = true →
            ((trx s).tfiMap d).testBit j = false := by
        intro l
        induction l with
        | nil => intro m0 h; exact ⟨h, by simp⟩
        | cons a l ih =>
          intro m0 h
          obtain ⟨h1, h2⟩ := ih _ h
          simp only [] at h1
          split at h1
          · rename_i ha
            rw [Nat.testBit_and, Nat.testBit_xor, Bool.and_eq_true] at h1
            refine ⟨h1.1, ?_⟩
            intro s hs he
            rcases List.mem_cons.1 hs with rfl | hs
            · have h3 := h1.2
              have h4 : (0xffffffff : Nat).testBit j = true := by
                have : (0xffffffff : Nat) = 2 ^ 32 - 1 := by decide
                rw [this, Nat.testBit_two_pow_sub_one]
                simpa using hj
              rw [h4] at h3
              cases hq : ((trx s).tfiMap d).testBit j with
              | false => rfl
              | true => rw [hq] at h3; cases h3
            · exact h2 s hs he
          · rename_i ha
            refine ⟨h1, ?_⟩
            intro s hs he
            rcases List.mem_cons.1 hs with rfl | hs
            · exact absurd he ha
            · exact h2 s hs he
      subst hm
      exact (key _ _ hb).2 s (List.mem_range.2 hs) he

theorem btsTfiFindFree_spec {bts : Nat → Trx} {d : Dir} {u : Option Nat} {t i : Nat}
    (h : btsTfiFindFree bts d u = some (t, i)) :
    t < 8 ∧ (∀ v, u = some v → v < 8 → t = v) ∧ i < 32 ∧
    ∀ s, s < 8 → (bts t s).enabled = true → ((bts t s).tfiMap d).testBit i = false := by
  unfold btsTfiFindFree at h
  simp only [Option.map_eq_some_iff] at h
  obtain ⟨⟨t', n, i'⟩, h, he⟩ := h
  simp only [Prod.mk.injEq] at he
  obtain ⟨rfl, rfl⟩ := he
  have key : ∀ (l : List Nat), ∀ x, l.foldl (tfiStep bts d) none = some x →
      x.1 ∈ l ∧ x.2.2 < 32 ∧
      ∀ s, s < 8 → (bts x.1 s).enabled = true → ((bts x.1 s).tfiMap d).testBit x.2.2 = false := by
    intro l
    refine foldl_inv (fun (b : Option (Nat × Nat × Nat)) => ∀ x, b = some x → x.1 ∈ l ∧ x.2.2 < 32 ∧
      ∀ s, s < 8 → (bts x.1 s).enabled = true → ((bts x.1 s).tfiMap d).testBit x.2.2 = false)
      _ _ _ (by simp) ?_
    intro b ts hts hb x hx
    unfold tfiStep at hx
    simp only [] at hx
    split at hx
    · rename_i hgt
      cases hx
      have hpos : (countFreeTfi (bts ts) d).1 > 0 := Nat.lt_of_le_of_lt (Nat.zero_le _) hgt
      obtain ⟨h1, h2⟩ := countFreeTfi_spec hpos
      exact ⟨hts, h1, h2⟩
    · exact hb x hx
  obtain ⟨h1, h2, h3⟩ := key _ _ h
  simp only [] at h1 h2 h3
  refine ⟨?_, ?_, h2, h3⟩
  · cases u with
    | none => exact List.mem_range.1 h1
    | some v =>
      simp only [] at h1
      split at h1
      · simp only [List.mem_singleton] at h1; omega
      · exact List.mem_range.1 h1
  · intro v hv hlt
    subst hv
    simp only [hlt, if_true] at h1
    exact List.mem_singleton.1 h1

/-! ## Slot sets -/

/-- `a` is contained in `b`. -/
def Sub (a b : Nat) : Prop := ∀ s, a.testBit s = true → b.testBit s = true

theorem pop_mono {a b : Nat} (h : Sub a b) : pop a ≤ pop b := by
  unfold pop
  exact List.countP_mono_left (fun s _ hs => h s hs)

theorem pop_pos {a s : Nat} (hs : s < 8) (h : a.testBit s = true) : 0 < pop a := by
  unfold pop
  exact List.countP_pos_iff.2 ⟨s, List.mem_range.2 hs, h⟩

theorem pop_ne_zero {a : Nat} (h : pop a ≠ 0) : a ≠ 0 := by
  intro e; subst e; exact h (by decide)

theorem pop_winAt : ∀ n k, n ≤ 8 → k < 8 → pop (winAt n k) ≤ n := by
  have : ∀ n ∈ List.range 9, ∀ k ∈ List.range 8, pop (winAt n k) ≤ n := by decide
  intro n k hn hk
  exact this n (List.mem_range.2 (by omega)) k (List.mem_range.2 hk)

theorem testBit_wrap (w d : Nat) (hd : d < 8) : (wrap w).testBit d = (w.testBit d || w.testBit (d + 8)) := by
  have e : (255 : Nat).testBit d = true := by
    have : ∀ d, d < 8 → (255 : Nat).testBit d = true := by decide
    exact this d hd
  unfold wrap
  rw [Nat.testBit_and, Nat.testBit_or, Nat.testBit_shiftRight, e, Bool.and_true, Nat.add_comm 8 d]

theorem testBit_255 (d : Nat) : (255 : Nat).testBit d = decide (d < 8) := by
  have : (255 : Nat) = 2 ^ 8 - 1 := rfl
  rw [this, Nat.testBit_two_pow_sub_one]

theorem testBit_rot3 (m d : Nat) (hm : ∀ s, m.testBit s = true → s < 8) :
    (rot3 m).testBit d = (decide (d < 8) && m.testBit ((d + 5) % 8)) := by
  unfold rot3
  have : (256 : Nat) = 2 ^ 8 := rfl
  rw [this, Nat.testBit_mod_two_pow, Nat.testBit_or, Nat.testBit_shiftLeft, Nat.testBit_shiftRight]
  by_cases hd : d < 8
  · simp only [hd, decide_true, Bool.true_and]
    by_cases h3 : 3 ≤ d
    · have e : m.testBit (5 + d) = false := by
        cases hb : m.testBit (5 + d) with
        | false => rfl
        | true => have := hm _ hb; omega
      rw [e, show (d + 5) % 8 = d - 3 by omega]
      simp [h3]
    · rw [show (d + 5) % 8 = 5 + d by omega]
      simp [h3]
  · simp [hd]

/-- The slots that are not filtered out. -/
theorem good_iff (m t d : Nat) (hm : ∀ s, m.testBit s = true → s < 8) (ht : t < 8) (hd : d < 8) :
    (255 ^^^ wrap ((255 ^^^ rot3 m) <<< t)).testBit d = m.testBit ((d + 13 - t) % 8) := by
  rw [Nat.testBit_xor, testBit_wrap _ _ hd, testBit_255, Nat.testBit_shiftLeft, Nat.testBit_shiftLeft,
    Nat.testBit_xor, Nat.testBit_xor, testBit_255, testBit_255, testBit_rot3 _ _ hm, testBit_rot3 _ _ hm]
  simp only [hd, decide_true, Bool.true_xor]
  by_cases h : t ≤ d
  · have h1 : d - t < 8 := by omega
    have h2 : ¬ d + 8 - t < 8 := by omega
    have h3 : t ≤ d + 8 := by omega
    rw [show (d + 13 - t) % 8 = (d - t + 5) % 8 by omega]
    simp [h, h1, h2, h3]
  · have h2 : d + 8 - t < 8 := by omega
    have h3 : t ≤ d + 8 := by omega
    rw [show (d + 13 - t) % 8 = (d + 8 - t + 5) % 8 by omega]
    simp [h, h2, h3]

/-- The slots between two gaps. -/
theorem gapMask (x y k : Nat) (hx : x ≤ 8) :
    ((((0x100 >>> x) - 1) % 256) &&& (255 - (((1 <<< y) - 1) % 256))).testBit k = true ↔
      k < 8 - x ∧ y ≤ k ∧ k < 8 := by
  have a : (0x100 >>> x) - 1 = 2 ^ (8 - x) - 1 := by
    have : ∀ x, x ≤ 8 → (0x100 >>> x) - 1 = 2 ^ (8 - x) - 1 := by decide
    exact this x hx
  have e : (256 : Nat) = 2 ^ 8 := rfl
  have f : ((1 <<< y) - 1) % 256 < 2 ^ 8 := Nat.mod_lt _ (by decide)
  rw [a, Nat.testBit_and, Bool.and_eq_true]
  have g : (255 - (((1 <<< y) - 1) % 256)).testBit k = true ↔ y ≤ k ∧ k < 8 := by
    rw [show 255 - ((1 <<< y - 1) % 256) = 2 ^ 8 - ((1 <<< y - 1) % 256 + 1) by omega,
      Nat.testBit_two_pow_sub_succ f, e, Nat.testBit_mod_two_pow, Nat.one_shiftLeft, Nat.testBit_two_pow_sub_one]
    simp only [Bool.and_eq_true, decide_eq_true_eq, Bool.not_eq_true', Bool.and_eq_false_iff, decide_eq_false_iff_not]
    omega
  rw [g]
  conv => lhs; rw [e, Nat.testBit_mod_two_pow, Nat.testBit_two_pow_sub_one]
  simp only [Bool.and_eq_true, decide_eq_true_eq]
  omega

/-- At least `x` slots are left before the mobile transmits (three slots after the downlink slot of the
same number) and at least `y` before it receives again. -/
def TimeOk (x y u d : Nat) : Prop := ∀ i j, u.testBit i = true → d.testBit j = true →
  (i + 3) % 8 ≠ j ∧ x ≤ (i + 3 + 7 - j) % 8 ∧ y ≤ (j + 12 - i) % 8

/-- All slots are among `n` consecutive ones. -/
def InWin (n m : Nat) : Prop := ∃ a, a + n ≤ 8 ∧ ∀ s, m.testBit s = true → a ≤ s ∧ s < a + n

/-- What the class of a mobile of type 1 asks for. -/
def ClassTimes (c : MsClass) (u d : Nat) : Prop := c.type = 1 →
  InWin c.tx u ∧ InWin c.rx d ∧
  (TimeOk c.getTb (max c.getRb c.getRa) u d ∨ TimeOk (max c.getTb c.ta) c.getRb u d)

/-- The row of TS 45.002 table 6.4.2.2.1 and the number of common slots. -/
def RowOk (c : MsClass) (u d : Nat) : Prop := c.type = 1 →
  (pop u + pop d ≤ 6 → TimeOk c.getTb (max c.getRb c.getRa) u d) ∧
  (6 < pop u + pop d → TimeOk (max c.getTb c.ta) c.getRb u d) ∧
  pop u ≤ 2 ∧ pop (u &&& d) = min (pop u) (pop d)

theorem TimeOk.mono {x y u d u' d' : Nat} (h : TimeOk x y u d) (hu : Sub u' u) (hd : Sub d' d) : TimeOk x y u' d' :=
  fun i j hi hj => h i j (hu i hi) (hd j hj)

theorem InWin.mono {n m m' : Nat} (h : InWin n m) (hs : Sub m' m) : InWin n m' := by
  obtain ⟨a, h1, h2⟩ := h
  exact ⟨a, h1, fun s h => h2 s (hs s h)⟩

theorem ClassTimes.mono {c : MsClass} {u d u' d' : Nat} (h : ClassTimes c u d) (hu : Sub u' u) (hd : Sub d' d) :
    ClassTimes c u' d' := by
  intro ht
  obtain ⟨h1, h2, h3⟩ := h ht
  exact ⟨h1.mono hu, h2.mono hd, h3.imp (·.mono hu hd) (·.mono hu hd)⟩

theorem testBit_winAt : ∀ n k, n ≤ 8 → k < 8 → ∀ s, (winAt n k).testBit s = true → s < 8 ∧ (s + 8 - k) % 8 < n := by
  have h : ∀ n, n < 9 → ∀ k, k < 8 → winAt n k < 256 ∧ ∀ s, s < 8 → (winAt n k).testBit s = true →
      (s + 8 - k) % 8 < n := by decide
  intro n k hn hk s hs
  obtain ⟨h1, h2⟩ := h n (by omega) k hk
  have h8 : s < 8 := by
    refine Decidable.byContradiction fun hc => ?_
    have : 2 ^ 8 ≤ 2 ^ s := Nat.pow_le_pow_right (by decide) (by omega)
    rw [Nat.testBit_lt_two_pow (by omega)] at hs
    cases hs
  exact ⟨h8, h2 s h8 hs⟩

theorem testBit_winAt_ends : ∀ n k, n ≤ 8 → k < 8 →
    ¬ (n < 8 ∧ (winAt n k).testBit 0 = true ∧ (winAt n k).testBit 7 = true) → n = 8 ∨ k + n ≤ 8 := by
  have h : ∀ n, n < 9 → ∀ k, k < 8 →
    ¬ (n < 8 ∧ (winAt n k).testBit 0 = true ∧ (winAt n k).testBit 7 = true) → n = 8 ∨ k + n ≤ 8 := by decide
  exact fun n k hn => h n (by omega) k

theorem winAt_inWin {n m k : Nat} (hn : n ≤ m) (hm : m ≤ 8) (hk : k < 8)
    (h : ¬ (n < 8 ∧ (winAt n k).testBit 0 = true ∧ (winAt n k).testBit 7 = true)) : InWin m (winAt n k) := by
  refine ⟨min k (8 - m), by omega, ?_⟩
  intro s hs
  obtain ⟨h1, h2⟩ := testBit_winAt n k (by omega) hk s hs
  rcases testBit_winAt_ends n k (by omega) hk h with h3 | h3
  · omega
  · omega

/-- The slots left by a mask keep the gaps of the mask. -/
theorem gap_time {x y n t u d m : Nat} (hx : x ≤ 8) (hn : n ≤ 8) (ht : t < 8) (hn1 : 1 ≤ n)
    (hmk : m = (((0x100 >>> x) - 1) % 256) &&& (255 - (((1 <<< (y + n)) - 1) % 256)))
    (hu : Sub u (winAt n t)) (hd : Sub d (255 ^^^ wrap ((255 ^^^ rot3 m) <<< t))) (hd8 : ∀ s, d.testBit s = true → s < 8) :
    TimeOk x y u d := by
  intro i j hi hj
  obtain ⟨h1, h2⟩ := testBit_winAt n t hn ht i (hu i hi)
  have h8 := hd8 j hj
  have h3 := hd j hj
  rw [good_iff m t j (by intro s hs; rw [hmk] at hs; exact ((gapMask _ _ _ hx).1 hs).2.2) ht h8, hmk] at h3
  obtain ⟨h4, h5, h6⟩ := (gapMask _ _ _ hx).1 h3
  refine ⟨?_, ?_, ?_⟩ <;> omega

/-- What a pair of uplink and downlink slots found for a class satisfies. -/
def PairOk (c : MsClass) (ul dl u d : Nat) : Prop :=
  Sub u ul ∧ Sub d dl ∧ pop u ≤ c.tx ∧ pop d ≤ c.rx ∧ pop u + pop d ≤ c.sum ∧
  (d ≠ 0 → u &&& d ≠ 0) ∧ ClassTimes c u d ∧ RowOk c u d

theorem sub_and_left (a b : Nat) : Sub (a &&& b) a := by
  intro s h; rw [Nat.testBit_and, Bool.and_eq_true] at h; exact h.1

theorem sub_and_right (a b : Nat) : Sub (a &&& b) b := by
  intro s h; rw [Nat.testBit_and, Bool.and_eq_true] at h; exact h.2

theorem pop_pos_of_ne_zero {a : Nat} (h : a ≠ 0) (hb : ∀ s, a.testBit s = true → s < 8) : 0 < pop a := by
  obtain ⟨s, hs⟩ := exists_testBit h
  exact pop_pos (hb s hs) hs

theorem skipSlot_common {c : MsClass} {tr : Bool} {rx tx : Nat} {ck : List Nat}
    (h : (skipSlot c tr rx tx ck).1 = false) (hr : 0 < pop rx) (ht : 0 < pop tx) :
    tx &&& rx ≠ 0 := by
  unfold skipSlot at h
  simp only [] at h
  split at h
  · cases h
  · split at h
    · cases h
    · simp only [ne_eq, decide_not, Bool.not_eq_false'] at h
      have h := of_decide_eq_true h
      apply pop_ne_zero
      rw [← h]
      split <;> omega

theorem skipSlot_row {c : MsClass} {tr : Bool} {rx tx : Nat} {ck : List Nat}
    (h : (skipSlot c tr rx tx ck).1 = false) (ht : c.type = 1) :
    pop tx ≤ 2 ∧ (tr = true → pop tx + pop rx ≤ 6) ∧ (tr = false → 6 < pop tx + pop rx) ∧
    pop (tx &&& rx) = min (pop tx) (pop rx) := by
  unfold skipSlot at h
  simp only [] at h
  split at h
  · cases h
  · rename_i hw
    split at h
    · cases h
    · simp only [ne_eq, decide_not, Bool.not_eq_false'] at h
      have h := of_decide_eq_true h
      have hw : wrongRow tr (pop rx) (pop tx) = false := by
        cases hq : wrongRow tr (pop rx) (pop tx) with
        | false => rfl
        | true => exact absurd ⟨ht, hq⟩ hw
      unfold wrongRow at hw
      split at hw
      · rename_i h1
        have : tr = true := by simpa using hw
        subst this
        refine ⟨by omega, fun _ => by omega, nofun, by omega⟩
      · split at hw
        · subst hw
          refine ⟨by omega, nofun, fun _ => by omega, by omega⟩
        · cases hw

theorem findMultiSlots_pair {trx : Trx} {c : MsClass} {ul dl u d : Nat}
    (htx : c.tx ≠ NA → c.tx ≤ 8) (hrx : c.tx ≠ NA → c.rx ≤ 8)
    (hsum : c.tx ≠ NA → ∀ n, 1 ≤ n → n ≤ c.tx → n ≤ c.sum) (hgap : c.type = 1 → max c.getTb c.ta ≤ 8)
    (h : findMultiSlots trx c ul dl = some (u, d)) :
    PairOk c ((if ul = 0 then 0xff else ul) &&& findPossible trx (max c.rx c.tx) 0xff)
      ((if dl = 0 then 0xff else dl) &&& findPossible trx (max c.rx c.tx) 0xff) u d ∧ u ≠ 0 ∧ d ≠ 0 := by
  unfold findMultiSlots at h
  split at h
  · cases h
  · rename_i hna
    simp only [] at h
    generalize hpos : findPossible trx (max c.rx c.tx) 0xff = pos at h ⊢
    generalize hdl : (if dl = 0 then 0xff else dl) &&& pos = dls at h ⊢
    generalize hul : (if ul = 0 then 0xff else ul) &&& pos = uls at h ⊢
    have hul8 : ∀ s, uls.testBit s = true → s < 8 := by
      intro s hs
      rw [← hul, Nat.testBit_and, Bool.and_eq_true, ← hpos] at hs
      exact (findPossible_spec _ _ _ _ hs.2).1
    have hdl8 : ∀ s, dls.testBit s = true → s < 8 := by
      intro s hs
      rw [← hdl, Nat.testBit_and, Bool.and_eq_true, ← hpos] at hs
      exact (findPossible_spec _ _ _ _ hs.2).1
    split at h
    · cases h
    · rename_i hz
      simp only [not_or] at hz
      simp only [Option.some.injEq, Prod.mk.injEq] at h
      obtain ⟨rfl, rfl⟩ := h
      refine ⟨?_, hz.1, hz.2⟩
      have key : ∀ b : Best, b = (List.range' 1 c.tx).foldl
          (fun b numTx => (List.range 8).foldl (txStep trx c uls dls numTx) b) ⟨[], -1, 0, 0⟩ →
          PairOk c uls dls b.ul b.dl := by
        intro b hb
        subst hb
        refine foldl_inv (fun (b : Best) => PairOk c uls dls b.ul b.dl) _ _ _ ?_ ?_
        · refine ⟨by intro s hs; simp at hs, by intro s hs; simp at hs, by simp [pop], by simp [pop], by simp [pop],
            by simp, ?_, fun _ => ⟨fun _ i j hi _ => by simp at hi, fun hc => by simp [pop] at hc, by simp [pop], by simp [pop]⟩⟩
          intro _
          have := htx hna
          have := hrx hna
          refine ⟨⟨0, by omega, by intro s hs; simp at hs⟩, ⟨0, by omega, by intro s hs; simp at hs⟩, ?_⟩
          exact Or.inl fun i j hi _ => by simp at hi
        · intro b numTx hn hb
          have hn := List.mem_range'_1.1 hn
          have hn8 : numTx ≤ 8 := by have := htx hna; omega
          refine foldl_inv (fun (b : Best) => PairOk c uls dls b.ul b.dl) _ _ _ hb ?_
          intro b ulTs hu hb
          have hu := List.mem_range.1 hu
          unfold txStep
          simp only []
          split
          · exact hb
          · rename_i htw
            split
            · exact hb
            · rename_i hbit
              split
              · exact hb
              · refine foldl_inv (fun (b : Best) => PairOk c uls dls b.ul b.dl) _ _ _ hb ?_
                intro b dlTs hd hb
                have hd := List.mem_range.1 hd
                unfold rxStep
                simp only []
                split
                · exact hb
                · rename_i hrwn
                  refine foldl_inv (fun (b : Best) => PairOk c uls dls b.ul b.dl) _ _ _ hb ?_
                  intro b tr _ hb
                  unfold maskStep
                  generalize hmk : (if tr = true then (fillRxMask c numTx).2 else (fillRxMask c numTx).1) = mk
                  split
                  · exact hb
                  · rename_i rxWin hrw
                    simp only []
                    split
                    · exact hb
                    · rename_i hsk
                      split
                      · exact hb
                      · unfold filterBad at hrw
                        simp only [] at hrw
                        split at hrw
                        · cases hrw
                        · cases hrw
                          have h1 : Sub (winAt numTx ulTs &&& uls) (winAt numTx ulTs) := sub_and_left _ _
                          have h2 := pop_mono h1
                          have h3 := pop_winAt numTx ulTs hn8 hu
                          have hnr : min c.rx (c.sum - numTx) ≤ 8 := by have := hrx hna; omega
                          have hs := hsum hna numTx hn.1 (by omega)
                          refine ⟨sub_and_right _ _, ?_, ?_, ?_, ?_, ?_, ?_⟩
                          · intro s hs
                            exact sub_and_left _ _ s (sub_and_left _ _ s hs)
                          · simp only []; omega
                          · simp only []
                            refine Nat.le_trans (pop_mono (sub_and_right _ _)) ?_
                            have := pop_winAt (min c.rx (c.sum - numTx)) dlTs hnr hd
                            omega
                          · simp only []
                            have h4 := pop_mono (sub_and_right
                              (dls &&& (255 ^^^ wrap ((255 ^^^ mk) <<< ulTs)))
                              (winAt (min c.rx (c.sum - numTx)) dlTs))
                            have h5 := pop_winAt (min c.rx (c.sum - numTx)) dlTs hnr hd
                            omega
                          · simp only []
                            intro hd0
                            refine skipSlot_common (by simpa using hsk) ?_ ?_
                            · refine pop_pos_of_ne_zero hd0 ?_
                              intro s hs
                              exact hdl8 s (sub_and_left _ _ s (sub_and_left _ _ s hs))
                            · exact pop_pos hu (by simpa using hbit)
                          · unfold ClassTimes RowOk
                            dsimp only
                            rw [← forall_and]
                            intro htype
                            have hw1 : ¬ (numTx < 8 ∧ (winAt numTx ulTs).testBit 0 = true ∧
                              (winAt numTx ulTs).testBit 7 = true) := fun hc => htw ⟨htype, hc⟩
                            have hw2 := fun hc => hrwn ⟨htype, hc⟩
                            have hgp := hgap htype
                            have hd8 : ∀ s, (dls &&& (255 ^^^ wrap ((255 ^^^ mk) <<< ulTs)) &&&
                                winAt (min c.rx (c.sum - numTx)) dlTs).testBit s = true → s < 8 :=
                              fun s hs => hdl8 s (sub_and_left _ _ s (sub_and_left _ _ s hs))
                            have hsb : Sub (dls &&& (255 ^^^ wrap ((255 ^^^ mk) <<< ulTs)) &&&
                                winAt (min c.rx (c.sum - numTx)) dlTs) (255 ^^^ wrap ((255 ^^^ mk) <<< ulTs)) :=
                              fun s hs => sub_and_right _ _ s (sub_and_left _ _ s hs)
                            obtain ⟨q1, q2, q3, q4⟩ := skipSlot_row (by simpa using hsk) htype
                            have hwin := (winAt_inWin (by omega) (htx hna) hu hw1).mono (sub_and_left _ uls)
                            have hwir := (winAt_inWin (Nat.min_le_left _ _) (hrx hna) hd hw2).mono
                              (sub_and_right (dls &&& (255 ^^^ wrap ((255 ^^^ mk) <<< ulTs))) _)
                            simp only [fillRxMask, if_pos htype] at hmk
                            cases tr with
                            | true =>
                              rw [if_pos rfl] at hmk
                              have ht : TimeOk c.getTb (max c.getRb c.getRa) (winAt numTx ulTs &&& uls)
                                  (dls &&& (255 ^^^ wrap ((255 ^^^ mk) <<< ulTs)) &&&
                                    winAt (min c.rx (c.sum - numTx)) dlTs) := by
                                rw [← hmk] at hsb hd8 ⊢
                                exact gap_time (by omega) hn8 hu hn.1 rfl (sub_and_left _ _) hsb hd8
                              have := q2 rfl
                              exact ⟨⟨hwin, hwir, Or.inl ht⟩, fun _ => ht, fun hc => by omega, q1, q4⟩
                            | false =>
                              rw [if_neg (by decide)] at hmk
                              have ht : TimeOk (max c.getTb c.ta) c.getRb (winAt numTx ulTs &&& uls)
                                  (dls &&& (255 ^^^ wrap ((255 ^^^ mk) <<< ulTs)) &&&
                                    winAt (min c.rx (c.sum - numTx)) dlTs) := by
                                rw [← hmk] at hsb hd8 ⊢
                                exact gap_time (by omega) hn8 hu hn.1 rfl (sub_and_left _ _) hsb hd8
                              have := q3 rfl
                              exact ⟨⟨hwin, hwir, Or.inr ht⟩, fun hc => by omega, fun _ => ht, q1, q4⟩
      exact key _ rfl

/-! ## Results of the algorithms -/

/-- Reservations of a mobile are on enabled PDCHs of its TRX. -/
def MsOk (bts : Nat → Trx) (ms : Ms) : Prop :=
  match ms.trx with
  | none => ms.ul = 0 ∧ ms.dl = 0
  | some t => t < 8 ∧ ∀ s, (ms.ul.testBit s = true ∨ ms.dl.testBit s = true) →
      s < 8 ∧ (bts t s).enabled = true

/-- What is known about the result of an allocation. -/
structure ResOk (bts : Nat → Trx) (ms : Ms) (d : Dir) (r : Res) : Prop where
  trx : r.trx < 8
  same : ∀ t, ms.trx = some t → r.trx = t
  tfi : r.tfi < 32
  slots : ∀ s, r.mask.testBit s = true → s < 8 ∧ (bts r.trx s).enabled = true ∧
    ((bts r.trx s).tfiMap d).testBit r.tfi = false ∧
    (d = .ul → ∃ u, r.usf s = some u ∧ u < 7 ∧ (bts r.trx s).usfMap.testBit u = false)
  ne : r.mask ≠ 0
  une : r.ul ≠ 0
  res : ∀ s, (r.ul.testBit s = true ∨ r.dl.testBit s = true) → s < 8 ∧ (bts r.trx s).enabled = true

theorem algoA_ok {bts : Nat → Trx} {ms : Ms} {req : Req} {r : Res} (hm : MsOk bts ms)
    (h : algoA bts ms req = some r) : ResOk bts ms req.dir r := by
  unfold algoA at h
  split at h
  · cases h
  · rename_i t ht
    simp only [] at h
    split at h
    · cases h
    · split at h
      · cases h
      · rename_i c hc
        split at h
        · cases h
        · rename_i tfi htfi
          cases h
          obtain ⟨h1, h2, h3, h4⟩ := leastBusy_spec hc
          obtain ⟨_, h5, _⟩ := findPossible_spec _ _ _ _ h2
          obtain ⟨i, h6, h7⟩ := h3 rfl
          rw [htfi] at h6
          cases h6
          obtain ⟨h8, h9⟩ := findFreeTfi_spec h7
          have ht8 : t < 8 ∧ ∀ t', ms.trx = some t' → t = t' := by
            unfold findTrx at ht
            split at ht
            · rename_i t' he
              cases ht
              unfold MsOk at hm
              rw [he] at hm
              exact ⟨hm.1, by intro t' h; rw [he] at h; exact Option.some.inj h⟩
            · rename_i he
              refine ⟨?_, by intro t' h; rw [he] at h; cases h⟩
              split at ht
              · rename_i u hu
                cases ht
                split at hu
                · split at hu
                  · cases hu; assumption
                  · cases hu
                · cases hu
              · exact List.mem_range.1 (List.mem_of_find?_eq_some ht)
          have hb : ∀ s, (1 <<< c.ts).testBit s = true → s = c.ts := by
            intro s hs
            rw [testBit_one_shl] at hs
            exact (of_decide_eq_true hs).symm
          refine ⟨ht8.1, ht8.2, h8, ?_, ?_, ?_, ?_⟩
          · intro s hs
            have := hb s hs
            subst this
            refine ⟨h1, h5, h9, ?_⟩
            intro hd
            obtain ⟨u, hu1, hu2⟩ := h4 hd
            obtain ⟨h10, h11⟩ := findFreeUsf_spec hu2
            exact ⟨u, by simp [hu1], h10, h11⟩
          · exact ne_zero_of_testBit (s := c.ts) (by rw [testBit_one_shl]; simp)
          · exact ne_zero_of_testBit (s := c.ts) (by rw [testBit_one_shl]; simp)
          · intro s hs
            have := hb s (hs.elim id id)
            subst this
            exact ⟨h1, h5⟩

theorem allocateUsf_spec {trx : Trx} {sel dl u : Nat} (h : allocateUsf trx sel dl = some u) :
    u ≠ 0 ∧ Sub u (sel &&& dl) ∧
    ∀ s, s < 8 → u.testBit s = true → ∃ x, findFreeUsf (trx s).usfMap = some x := by
  unfold allocateUsf at h
  simp only [] at h
  split at h
  · cases h
  · rename_i hz
    cases h
    refine ⟨hz, ?_⟩
    have key : ∀ (l : List Nat) (m0 : Nat), (∀ s,
        (l.foldl (fun m ts => if m.testBit ts = false then m
          else if findFreeUsf (trx ts).usfMap = none then m ^^^ (m &&& (1 <<< ts)) else m) m0).testBit s = true →
        m0.testBit s = true ∧ (s ∈ l → ∃ x, findFreeUsf (trx s).usfMap = some x)) := by
      intro l
      induction l with
      | nil => intro m0 s h; exact ⟨h, by simp⟩
      | cons a l ih =>
        intro m0 s h
        obtain ⟨h1, h2⟩ := ih _ s h
        simp only [] at h1
        split at h1
        · rename_i ha
          refine ⟨h1, ?_⟩
          intro hs
          rcases List.mem_cons.1 hs with rfl | hs
          · rw [ha] at h1; cases h1
          · exact h2 hs
        · split at h1
          · rename_i ha hn
            rw [Nat.testBit_xor, Nat.testBit_and, testBit_one_shl] at h1
            by_cases hsa : a = s
            · subst hsa
              simp at h1
            · simp [hsa] at h1
              refine ⟨h1, ?_⟩
              intro hs
              rcases List.mem_cons.1 hs with rfl | hs
              · exact absurd rfl hsa
              · exact h2 hs
          · rename_i ha hn
            refine ⟨h1, ?_⟩
            intro hs
            rcases List.mem_cons.1 hs with rfl | hs
            · cases hq : findFreeUsf (trx s).usfMap with
              | none => exact absurd hq hn
              | some x => exact ⟨x, rfl⟩
            · exact h2 hs
    exact ⟨fun s hs => (key _ _ s hs).1, fun s h8 hs => (key _ _ s hs).2 (List.mem_range.2 h8)⟩

/-- The rows of the table satisfy what `findMultiSlots_pair` needs. -/
theorem classTable_ok : ∀ c ∈ classTable, (c.tx ≠ NA → c.tx ≤ 8) ∧ (c.tx ≠ NA → c.rx ≤ 8) ∧
    (c.tx ≠ NA → c.tx ≤ c.sum) ∧ 1 ≤ c.tx ∧ 1 ≤ c.rx ∧ 2 ≤ c.sum := by
  decide

/-- No class asks for more time than a single slot in each direction leaves. -/
theorem classTable_times : ∀ c ∈ classTable, c.type = 1 → max c.getTb c.ta ≤ 8 ∧ c.getTb ≤ 2 ∧
    max c.getRb c.getRa ≤ 4 ∧ c.tx ≤ 8 ∧ c.rx ≤ 8 := by
  decide

theorem getClass_mem (dflt cl : Nat) : getClass dflt cl ∈ classTable := by
  unfold getClass
  rw [List.getD_eq_getElem?_getD]
  cases h : classTable[if cl ≥ 46 then 0 else if cl ≠ 0 then cl else dflt]? with
  | none => exact List.mem_cons_self
  | some c => exact List.mem_of_getElem? h

theorem findMultiSlots_class {trx : Trx} {dflt cl ul dl u d : Nat}
    (h : findMultiSlots trx (getClass dflt cl) ul dl = some (u, d)) :
    PairOk (getClass dflt cl)
      ((if ul = 0 then 0xff else ul) &&& findPossible trx (max (getClass dflt cl).rx (getClass dflt cl).tx) 0xff)
      ((if dl = 0 then 0xff else dl) &&& findPossible trx (max (getClass dflt cl).rx (getClass dflt cl).tx) 0xff)
      u d ∧ u ≠ 0 ∧ d ≠ 0 := by
  obtain ⟨h1, h2, h3, -⟩ := classTable_ok _ (getClass_mem dflt cl)
  exact findMultiSlots_pair h1 h2 (fun hn n _ hle => Nat.le_trans hle (h3 hn))
    (fun ht => (classTable_times _ (getClass_mem dflt cl) ht).1) h

theorem tfiFindFree_spec {bts : Nat → Trx} {ms : Ms} {req : Req} {t i : Nat} (hm : MsOk bts ms)
    (h : tfiFindFree bts ms req = some (t, i)) :
    t < 8 ∧ (∀ v, ms.trx = some v → t = v) ∧ i < 32 ∧
    ∀ s, s < 8 → (bts t s).enabled = true → ((bts t s).tfiMap req.dir).testBit i = false := by
  unfold tfiFindFree at h
  unfold MsOk at hm
  split at h
  · rename_i v hv
    rw [hv] at hm
    have hb : btsTfiFindFree bts req.dir (some v) = some (t, i) := by
      split at h
      · split at h
        · cases h
        · exact h
      · exact h
    obtain ⟨h1, h2, h3, h4⟩ := btsTfiFindFree_spec hb
    refine ⟨h1, ?_, h3, h4⟩
    intro v' hv'
    rw [hv] at hv'
    cases hv'
    exact h2 v rfl hm.1
  · rename_i hv
    obtain ⟨h1, h2, h3, h4⟩ := btsTfiFindFree_spec h
    refine ⟨h1, ?_, h3, h4⟩
    intro v' hv'
    rw [hv] at hv'
    cases hv'

theorem ffs_zero {m : Nat} (h : ∀ s, m.testBit s = true → s < 8) (h0 : ffs m = 0) : m = 0 := by
  refine Decidable.byContradiction (fun hne => ?_)
  obtain ⟨s, hs⟩ := exists_testBit hne
  unfold ffs at h0
  split at h0
  · cases h0
  · rename_i hf
    exact absurd hs (by simpa using List.find?_eq_none.1 hf s (List.mem_range.2 (h s hs)))

theorem ffs_spec {m : Nat} (h : ∀ s, m.testBit s = true → s < 8) (hne : m ≠ 0) :
    m.testBit (ffs m - 1) = true ∧ ffs m - 1 < 8 := by
  unfold ffs
  cases hf : (List.range 8).find? fun i => m.testBit i with
  | none =>
    obtain ⟨s, hs⟩ := exists_testBit hne
    exact absurd hs (by simpa using List.find?_eq_none.1 hf s (List.mem_range.2 (h s hs)))
  | some i => exact ⟨List.find?_some hf, List.mem_range.1 (List.mem_of_find?_eq_some hf)⟩

/-- The reserved slots algorithm B works with. -/
theorem algoB_res {bts : Nat → Trx} {dflt : Nat} {ms : Ms} {t rul rdl : Nat} (hm : MsOk bts ms)
    (ht : ∀ v, ms.trx = some v → t = v)
    (h : (if ms.dl = 0 ∨ ms.ul = 0 then findMultiSlots (bts t) (getClass dflt ms.cls) ms.ul ms.dl
      else some (ms.ul, ms.dl)) = some (rul, rdl)) :
    rul ≠ 0 ∧ rdl ≠ 0 ∧
    ∀ s, (rul.testBit s = true ∨ rdl.testBit s = true) → s < 8 ∧ (bts t s).enabled = true := by
  split at h
  · obtain ⟨⟨h1, h2, -⟩, h3, h4⟩ := findMultiSlots_class h
    refine ⟨h3, h4, ?_⟩
    intro s hs
    rcases hs with hs | hs
    · have := h1 s hs
      rw [Nat.testBit_and, Bool.and_eq_true] at this
      have := findPossible_spec _ _ _ _ this.2
      exact ⟨this.1, this.2.1⟩
    · have := h2 s hs
      rw [Nat.testBit_and, Bool.and_eq_true] at this
      have := findPossible_spec _ _ _ _ this.2
      exact ⟨this.1, this.2.1⟩
  · rename_i hz
    simp only [not_or] at hz
    cases h
    refine ⟨hz.2, hz.1, ?_⟩
    unfold MsOk at hm
    split at hm
    · exact absurd hm.1 hz.2
    · rename_i v hv
      have := ht v hv
      subst this
      exact hm.2

/-- Slots selected in the downlink are reserved. -/
theorem selectSlotSet_dl {trx : Trx} {req : Req} {ul dl : Nat} {f : Option Nat} {sl : Nat}
    (hd : req.dir = .dl) (h8 : ∀ s, dl.testBit s = true → s < 8)
    (h : selectSlotSet trx req ul dl f = some sl) : sl ≠ 0 ∧ Sub sl dl := by
  unfold selectSlotSet at h
  simp only [] at h
  generalize hk : (if req.single = true then getSingleTs trx req.dir dl ul f
    else if req.dir = Dir.ul then ul else dl) = k at h
  split at h
  · cases h
  · rename_i hz
    simp only [Option.some.injEq] at h
    subst h
    have h := hk
    refine ⟨hz, ?_⟩
    split at h
    · rw [hd] at h
      unfold getSingleTs at h
      simp only [] at h
      split at h
      · rename_i hn
        split at hn
        · cases hn
        · rw [Option.map_eq_none_iff] at hn
          by_cases hr : dl &&& ul = 0
          · rw [hr] at h
            exfalso
            apply hz
            rw [← h]
            decide
          · obtain ⟨s, hs⟩ := exists_testBit hr
            have := leastBusy_dl_isSome (trx := trx) (usage := usageByTbfs)
              (h8 s (sub_and_left _ _ s hs)) hs
            rw [hn] at this
            cases this
      · subst h
        intro s hs
        exact sub_and_left _ _ s (sub_and_left _ _ s hs)
    · rw [hd] at h
      simp only [reduceCtorEq, if_false] at h
      subst h
      exact fun s hs => hs

theorem algoB_ok {bts : Nat → Trx} {dflt : Nat} {ms : Ms} {req : Req} {r : Res} (hm : MsOk bts ms)
    (h : algoB dflt bts ms req = some r) : ResOk bts ms req.dir r := by
  unfold algoB at h
  split at h
  · cases h
  · rename_i t tfi htf
    obtain ⟨h1, h2, h3, h4⟩ := tfiFindFree_spec hm htf
    simp only [] at h
    split at h
    · cases h
    · rename_i rul rdl hres
      obtain ⟨h5, h6, h7⟩ := algoB_res hm h2 hres
      split at h
      · cases h
      · rename_i sl hsl
        split at h
        · rename_i hd
          split at h
          · cases h
          · cases h
            obtain ⟨h8, h9⟩ := selectSlotSet_dl hd (fun s hs => (h7 s (Or.inr hs)).1) hsl
            refine ⟨h1, h2, h3, ?_, h8, h5, h7⟩
            intro s hs
            obtain ⟨h10, h11⟩ := h7 s (Or.inr (h9 s hs))
            exact ⟨h10, h11, h4 s h10 h11, by rw [hd]; intro hc; cases hc⟩
        · split at h
          · cases h
          · rename_i u hu
            split at h
            · cases h
            · cases h
              obtain ⟨h8, h9, h10⟩ := allocateUsf_spec hu
              refine ⟨h1, h2, h3, ?_, h8, h8, ?_⟩
              · intro s hs
                have hin := h9 s hs
                obtain ⟨h11, h12⟩ := h7 s (Or.inr (sub_and_right _ _ s hin))
                refine ⟨h11, h12, h4 s h11 h12, ?_⟩
                intro _
                obtain ⟨x, hx⟩ := h10 s h11 hs
                obtain ⟨h13, h14⟩ := findFreeUsf_spec hx
                exact ⟨x, by simp only [hin, if_true]; exact hx, h13, h14⟩
              · intro s hs
                rcases hs with hs | hs
                · exact h7 s (Or.inr (sub_and_right _ _ s (h9 s hs)))
                · exact h7 s (Or.inr hs)

theorem allocate_cases {algo : Algo} {dflt : Nat} {bts : Nat → Trx} {dis : Bool} {ms : Ms} {req : Req}
    {r : Res} (h : (allocate algo dflt bts dis ms req).1 = some r) :
    algoA bts ms req = some r ∨ algoB dflt bts ms req = some r := by
  unfold allocate at h
  split at h
  · exact Or.inl h
  · exact Or.inr h
  · simp only [] at h
    split at h
    · exact Or.inl h
    · split at h
      · rename_i r' hr
        simp only [Option.some.injEq] at h
        subst h
        exact Or.inr hr
      · exact Or.inl h

theorem allocate_ok {algo : Algo} {dflt : Nat} {bts : Nat → Trx} {dis : Bool} {ms : Ms} {req : Req}
    {r : Res} (hm : MsOk bts ms) (h : (allocate algo dflt bts dis ms req).1 = some r) :
    ResOk bts ms req.dir r := by
  rcases allocate_cases h with h | h
  · exact algoA_ok hm h
  · exact algoB_ok hm h

end Verif.Alloc
