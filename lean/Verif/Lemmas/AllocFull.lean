import Verif.Lemmas.AllocAlgo
import Verif.Lemmas.World
/-!
# Allocation finds what is there
-/

namespace Verif.Alloc

theorem pigeon : ∀ (n : Nat) (f : Nat → Nat), (∀ i, i ≤ n → f i < n) → ∃ i j, i < j ∧ j ≤ n ∧ f i = f j
  | 0, f, h => absurd (h 0 (Nat.le_refl _)) (by omega)
  | n + 1, f, h => by
    by_cases hx : ∃ i, i ≤ n ∧ f i = f (n + 1)
    · obtain ⟨i, hi, he⟩ := hx
      exact ⟨i, n + 1, by omega, Nat.le_refl _, he⟩
    · have hne : ∀ i, i ≤ n → f i ≠ f (n + 1) := fun i hi he => hx ⟨i, hi, he⟩
      have hv := h (n + 1) (Nat.le_refl _)
      obtain ⟨i, j, hij, hj, he⟩ := pigeon n (fun i => if f i > f (n + 1) then f i - 1 else f i) (by
        intro i hi
        have h1 := hne i hi
        have h2 := h i (by omega)
        show (if f i > f (n + 1) then f i - 1 else f i) < n
        split <;> omega)
      refine ⟨i, j, hij, by omega, ?_⟩
      have h1 := hne i (by omega)
      have h2 := hne j hj
      try dsimp only at he
      split at he <;> split at he <;> omega

theorem foldl_reach {α β : Type} (P : β → Prop) (f : β → α → β) (l : List α) (b : β) (a : α) (ha : a ∈ l)
    (hs : ∀ b, P (f b a)) (hk : ∀ b a, P b → P (f b a)) : P (l.foldl f b) := by
  obtain ⟨l1, l2, he⟩ := List.append_of_mem ha
  rw [he, List.foldl_append, List.foldl_cons]
  exact foldl_inv P f _ _ (hs _) fun b a _ h => hk b a h

theorem testBit_full {n i : Nat} (h : i < n) : (2 ^ n - 1).testBit i = true := by
  rw [Nat.testBit_two_pow_sub_one]; simpa using h

theorem findFreeTfi_none {m : Nat} (h : findFreeTfi m = none) {i : Nat} (hi : i < 32) : m.testBit i = true := by
  unfold findFreeTfi at h
  split at h
  · rename_i he; rw [he]; exact testBit_full hi
  · have := List.find?_eq_none.1 h i (List.mem_range.2 hi)
    simpa using this

theorem findFreeUsf_none {m : Nat} (h : findFreeUsf m = none) {i : Nat} (hi : i < 7) : m.testBit i = true := by
  unfold findFreeUsf at h
  split at h
  · rename_i he; rw [he]; exact testBit_full hi
  · have := List.find?_eq_none.1 h i (List.mem_range.2 hi)
    simpa using this

theorem leastBusy_isSome {trx : Trx} {d : Dir} {mask : Nat} {usage : Pdch → Dir → Nat} {w : Bool} {s : Nat}
    (hs : s < 8) (hm : mask.testBit s = true) (ht : w = true → findFreeTfi ((trx s).tfiMap d) ≠ none)
    (hu : d = .ul → findFreeUsf (trx s).usfMap ≠ none) : (leastBusy trx d mask usage w).isSome = true := by
  unfold leastBusy
  refine foldl_reach (fun b : Option Cand => b.isSome = true) _ _ _ s (List.mem_range.2 hs) ?_ ?_
  · intro b
    unfold busyStep
    rw [if_neg (by rw [hm]; decide)]
    dsimp only
    split
    · rename_i hb
      cases b with
      | none => cases hb
      | some _ => rfl
    · rw [if_neg, if_neg]
      · rfl
      · rintro ⟨h1, h2⟩; rw [if_pos h1] at h2; exact hu h1 h2
      · rintro ⟨h1, h2⟩; rw [if_pos h1] at h2; exact ht h1 h2
  · intro b ts hb
    unfold busyStep
    dsimp only
    repeat' split
    all_goals first | exact hb | rfl

theorem possible_one {trx : Trx} {mask s : Nat} (hs : s < 8) (he : (trx s).enabled = true) (hm : mask.testBit s = true) :
    (findPossible trx 1 mask).testBit s = true := by
  unfold findPossible
  refine foldl_reach (fun b : Nat × Option Nat => b.1.testBit s = true) _ _ _ s (List.mem_range.2 hs) ?_ ?_
  · intro b
    unfold possibleStep
    rw [if_neg (by rw [he]; decide), if_neg (by rw [hm]; decide), if_neg (by decide)]
    show (b.1 ||| 1 <<< s).testBit s = true
    rw [Nat.testBit_or, testBit_one_shl]; simp
  · intro b ts hb
    unfold possibleStep
    have key : (b.1 ||| 1 <<< ts).testBit s = true := by rw [Nat.testBit_or, hb]; rfl
    split
    · exact hb
    · split
      · exact hb
      · split
        · split
          · exact key
          · split
            · exact hb
            · exact key
        · exact key

theorem shl_ne (a ts : Nat) : a ||| 1 <<< ts ≠ 0 :=
  ne_zero_of_testBit (s := ts) (by rw [Nat.testBit_or, testBit_one_shl]; simp)

theorem possible_ne {trx : Trx} {k mask s : Nat} (hs : s < 8) (he : (trx s).enabled = true) (hm : mask.testBit s = true) :
    findPossible trx k mask ≠ 0 := by
  unfold findPossible
  have inv : ∀ (b : Nat × Option Nat) ts, (b.2 ≠ none → b.1 ≠ 0) →
      ((possibleStep trx k mask b ts).2 ≠ none → (possibleStep trx k mask b ts).1 ≠ 0) := by
    intro b ts hb
    unfold possibleStep
    split
    · exact hb
    · split
      · exact hb
      · split
        · split
          · exact fun _ => shl_ne _ _
          · rename_i l hl
            split
            · exact hb
            · exact fun _ => shl_ne _ _
        · exact fun _ => shl_ne _ _
  have keep : ∀ (b : Nat × Option Nat) ts, b.1 ≠ 0 → (possibleStep trx k mask b ts).1 ≠ 0 := by
    intro b ts hb
    unfold possibleStep
    split
    · exact hb
    · split
      · exact hb
      · split
        · split
          · exact shl_ne _ _
          · split
            · exact hb
            · exact shl_ne _ _
        · exact shl_ne _ _
  obtain ⟨l1, l2, hl⟩ := List.append_of_mem (List.mem_range.2 hs)
  rw [hl, List.foldl_append, List.foldl_cons]
  have h1 : (l1.foldl (possibleStep trx k mask) (0, none)).2 ≠ none → (l1.foldl (possibleStep trx k mask) (0, none)).1 ≠ 0 :=
    foldl_inv (fun b : Nat × Option Nat => b.2 ≠ none → b.1 ≠ 0) _ _ _ (fun h => absurd rfl h) fun b a _ h => inv b a h
  generalize l1.foldl (possibleStep trx k mask) (0, none) = b at h1 ⊢
  refine foldl_inv (fun b : Nat × Option Nat => b.1 ≠ 0) _ _ _ ?_ fun b a _ h => keep b a h
  unfold possibleStep
  rw [if_neg (by rw [he]; decide), if_neg (by rw [hm]; decide)]
  split
  · split
    · exact shl_ne _ _
    · rename_i l hl
      split
      · exact h1 (by rw [hl]; simp)
      · exact shl_ne _ _
  · exact shl_ne _ _

/-! ## Free TFIs of a TRX -/

theorem countFreeTfi_pos {trx : Trx} {d : Dir} {i s0 : Nat} (hi : i < 32) (h0 : s0 < 8) (he : (trx s0).enabled = true)
    (h : ∀ s, s < 8 → (trx s).enabled = true → ((trx s).tfiMap d).testBit i = false) : (countFreeTfi trx d).1 > 0 := by
  have hm : ((List.range 8).foldl
      (fun m ts => if (trx ts).enabled then m &&& (0xffffffff ^^^ (trx ts).tfiMap d) else m) 0xffffffff).testBit i = true := by
    refine foldl_inv (fun m : Nat => m.testBit i = true) _ _ _ (testBit_full hi) ?_
    intro m ts hts hb
    show (if (trx ts).enabled = true then m &&& (0xffffffff ^^^ (trx ts).tfiMap d) else m).testBit i = true
    split
    · rename_i hen
      rw [Nat.testBit_and, hb, Nat.testBit_xor, h ts (List.mem_range.1 hts) hen]
      rw [show (0xffffffff : Nat).testBit i = true from testBit_full hi]
      rfl
    · exact hb
  unfold countFreeTfi
  dsimp only
  rw [if_neg]
  · refine List.length_pos_iff_exists_mem.2 ⟨i, ?_⟩
    rw [List.mem_filter]
    exact ⟨List.mem_range.2 hi, hm⟩
  · rintro (hx | hx)
    · have : ((List.range 8).any fun ts => (trx ts).enabled) = true := List.any_eq_true.2 ⟨s0, List.mem_range.2 h0, he⟩
      rw [this] at hx; cases hx
    · rw [hx] at hm; simp at hm

theorem btsTfiFindFree_isSome {bts : Nat → Trx} {d : Dir} {t : Nat} (ht : t < 8) (h : (countFreeTfi (bts t) d).1 > 0) :
    btsTfiFindFree bts d none ≠ none := by
  unfold btsTfiFindFree
  dsimp only
  have : ((List.range 8).foldl (tfiStep bts d) none).isSome = true := by
    refine foldl_reach (fun b : Option (Nat × Nat × Nat) => b.isSome = true) _ _ _ t (List.mem_range.2 ht) ?_ ?_
    · intro b
      unfold tfiStep
      dsimp only
      split
      · rfl
      · rename_i hn
        cases b with
        | none => exact absurd h hn
        | some _ => rfl
    · intro b a hb
      unfold tfiStep
      dsimp only
      split
      · rfl
      · exact hb
  intro hn
  rw [Option.map_eq_none_iff] at hn
  rw [hn] at this
  cases this

theorem btsTfiFindFree_enabled {bts : Nat → Trx} {d : Dir} {t i : Nat} (h : btsTfiFindFree bts d none = some (t, i)) :
    ∃ s, s < 8 ∧ (bts t s).enabled = true := by
  unfold btsTfiFindFree at h
  obtain ⟨x, h, he⟩ := Option.map_eq_some_iff.mp h
  have : ∀ x, (List.range 8).foldl (tfiStep bts d) none = some x → (countFreeTfi (bts x.1) d).1 > 0 := by
    refine foldl_inv (fun b : Option (Nat × Nat × Nat) => ∀ x, b = some x → (countFreeTfi (bts x.1) d).1 > 0) _ _ _ (by simp) ?_
    intro b a _ hb x hx
    unfold tfiStep at hx
    dsimp only at hx
    split at hx
    · rename_i hg
      cases hx
      exact Nat.lt_of_le_of_lt (Nat.zero_le _) hg
    · exact hb x hx
  have hp := this x h
  cases he
  unfold countFreeTfi at hp
  dsimp only at hp
  split at hp
  · exact absurd hp (by decide)
  · rename_i hn
    have hany : ((List.range 8).any fun ts => (bts x.1 ts).enabled) = true := by
      cases hh : (List.range 8).any fun ts => (bts x.1 ts).enabled with
      | true => rfl
      | false => exact absurd (Or.inl hh) hn
    obtain ⟨s, hs, hen⟩ := List.any_eq_true.1 hany
    exact ⟨s, List.mem_range.1 hs, hen⟩

/-! ## The search for several slots finds something -/

theorem winFacts : ∀ c ∈ classTable, c.tx ≠ NA → ∀ s ∈ List.range 8,
    min s (8 - min c.rx (c.sum - 1)) < 8 ∧
    (winAt (min c.rx (c.sum - 1)) (min s (8 - min c.rx (c.sum - 1)))).testBit s = true ∧
    ¬ (c.type = 1 ∧ min c.rx (c.sum - 1) < 8 ∧
      (winAt (min c.rx (c.sum - 1)) (min s (8 - min c.rx (c.sum - 1)))).testBit 0 = true ∧
      (winAt (min c.rx (c.sum - 1)) (min s (8 - min c.rx (c.sum - 1)))).testBit 7 = true) ∧
    (255 ^^^ wrap ((255 ^^^ (fillRxMask c 1).2) <<< s)).testBit s = true ∧
    (c.type = 1 → pop (255 ^^^ wrap ((255 ^^^ (fillRxMask c 1).2) <<< s)) ≤ 5) := by
  decide +kernel

theorem winOne : ∀ s ∈ List.range 8, winAt 1 s = 1 <<< s ∧ pop (1 <<< s) = 1 ∧
    ¬ ((1 <<< s).testBit 0 = true ∧ (1 <<< s).testBit 7 = true) := by
  decide

theorem one_and {s x : Nat} (h : x.testBit s = true) : (1 <<< s) &&& x = 1 <<< s := by
  apply Nat.eq_of_testBit_eq
  intro i
  rw [Nat.testBit_and, testBit_one_shl]
  by_cases hi : s = i
  · subst hi; simp [h]
  · simp [hi]

theorem capOf_pos {n : Nat} (h : n ≤ 32) : 1 ≤ capOf n := by
  unfold capOf; split <;> omega

theorem capacity_pos {trx : Trx} {rx tx s : Nat} (hr : ∀ s, s < 8 → ∀ d, (trx s).reserved d ≤ 32) (hs : s < 8)
    (hb : rx.testBit s = true) : 1 ≤ capacity trx rx tx := by
  unfold capacity
  have mono : ∀ (c : Int) (k : Int) ts, ts < 8 → k ≤ c → k ≤
      (let c := if rx.testBit ts then c + capOf ((trx ts).reserved .dl) else c
       if (tx &&& rx).testBit ts ∧ (findFreeUsf (trx ts).usfMap).isSome
       then c + capOf ((trx ts).reserved .ul) else c) := by
    intro c k ts h8 hc
    have h1 := capOf_pos (hr ts h8 .dl)
    have h2 := capOf_pos (hr ts h8 .ul)
    dsimp only
    split <;> split <;> omega
  obtain ⟨l1, l2, hl⟩ := List.append_of_mem (List.mem_range.2 hs)
  have hm : ∀ a, a ∈ l1 ∨ a ∈ l2 → a < 8 := by
    intro a ha
    apply List.mem_range.1
    rw [hl]
    rcases ha with ha | ha
    · exact List.mem_append_left _ ha
    · exact List.mem_append_right _ (List.mem_cons_of_mem _ ha)
  rw [hl, List.foldl_append, List.foldl_cons]
  have h0 : (0 : Int) ≤ l1.foldl (fun c ts =>
    let c := if rx.testBit ts then c + capOf ((trx ts).reserved .dl) else c
    if (tx &&& rx).testBit ts ∧ (findFreeUsf (trx ts).usfMap).isSome
    then c + capOf ((trx ts).reserved .ul) else c) 0 :=
    foldl_inv (fun c : Int => 0 ≤ c) _ _ _ (Int.le_refl _) fun c a ha h => mono c 0 a (hm a (Or.inl ha)) h
  refine foldl_inv (fun c : Int => 1 ≤ c) _ _ _ ?_ fun c a ha h => mono c 1 a (hm a (Or.inr ha)) h
  have h1 := capOf_pos (hr s hs .dl)
  have h2 := capOf_pos (hr s hs .ul)
  generalize l1.foldl _ (0 : Int) = c at h0 ⊢
  dsimp only
  rw [if_pos hb]
  split <;> omega

theorem capacity_zero {trx : Trx} {tx : Nat} : capacity trx 0 tx = 0 := by
  unfold capacity
  exact foldl_inv (fun c : Int => c = 0) _ _ _ rfl fun c a _ h => by simp [h]

/-- A pair of sets of slots has been found if the capacity is positive. -/
def Found (b : Best) : Prop := 1 ≤ b.cap → b.ul ≠ 0 ∧ b.dl ≠ 0

theorem maskStep_found {trx : Trx} {c : MsClass} {rm : Nat × Nat} {u dl w tx : Nat} {b : Best} {tr : Bool}
    (ht : tx ≠ 0) (h : Found b) :
    Found (maskStep trx c rm u dl w tx b tr) ∧ b.cap ≤ (maskStep trx c rm u dl w tx b tr).cap := by
  unfold maskStep
  split
  · exact ⟨h, Int.le_refl _⟩
  · rename_i rx _
    dsimp only
    split
    · exact ⟨h, Int.le_refl _⟩
    · split
      · exact ⟨h, Int.le_refl _⟩
      · rename_i hc
        dsimp only at hc ⊢
        refine ⟨fun h1 => ⟨ht, ?_⟩, by omega⟩
        intro h0
        dsimp only at h1 h0
        subst h0
        rw [capacity_zero] at h1
        omega

theorem rxStep_found {trx : Trx} {c : MsClass} {rm : Nat × Nat} {n u dl tx d : Nat} {b : Best}
    (ht : tx ≠ 0) (h : Found b) :
    Found (rxStep trx c rm n u dl tx b d) ∧ b.cap ≤ (rxStep trx c rm n u dl tx b d).cap := by
  unfold rxStep
  dsimp only
  split
  · exact ⟨h, Int.le_refl _⟩
  · exact foldl_inv (fun x : Best => Found x ∧ b.cap ≤ x.cap) _ _ _ ⟨h, Int.le_refl _⟩ fun x a _ hx =>
      have := maskStep_found (tr := a) ht hx.1
      ⟨this.1, Int.le_trans hx.2 this.2⟩

theorem txStep_found {trx : Trx} {c : MsClass} {ul dl n u : Nat} {b : Best} (h : Found b) :
    Found (txStep trx c ul dl n b u) ∧ b.cap ≤ (txStep trx c ul dl n b u).cap := by
  unfold txStep
  dsimp only
  split
  · exact ⟨h, Int.le_refl _⟩
  · split
    · exact ⟨h, Int.le_refl _⟩
    · rename_i hb
      split
      · exact ⟨h, Int.le_refl _⟩
      · refine foldl_inv (fun x : Best => Found x ∧ b.cap ≤ x.cap) _ _ _ ⟨h, Int.le_refl _⟩ fun x a _ hx => ?_
        have := rxStep_found (trx := trx) (c := c) (rm := fillRxMask c n) (n := min c.rx (c.sum - n)) (u := u) (dl := dl)
          (d := a) (ne_zero_of_testBit (s := u) (by simpa using hb) : winAt n u &&& ul ≠ 0) hx.1
        exact ⟨this.1, Int.le_trans hx.2 this.2⟩

/-- Receive windows with slot `s` that have been looked at gave a positive capacity. -/
def Seen (s : Nat) (b : Best) : Prop := ∀ r ∈ b.checked, r.testBit s = true → 1 ≤ b.cap

theorem skip_one {c : MsClass} {tr : Bool} {rx s : Nat} {ck : List Nat} (hs : s < 8) (hb : rx.testBit s = true)
    (h : (skipSlot c tr rx (1 <<< s) ck).1 = true) :
    (c.type = 1 ∧ wrongRow tr (pop rx) (pop (1 <<< s)) = true ∨ rx ∈ ck) ∧ (skipSlot c tr rx (1 <<< s) ck).2 = ck := by
  obtain ⟨-, h1, -⟩ := winOne s (List.mem_range.2 hs)
  have hp := pop_pos hs hb
  unfold skipSlot at h ⊢
  dsimp only at h ⊢
  split
  · rename_i hw; exact ⟨Or.inl hw, rfl⟩
  · split
    · rename_i hm; exact ⟨Or.inr hm, rfl⟩
    · rename_i hw hm
      exfalso
      rw [if_neg hw, if_neg hm, one_and hb, h1] at h
      dsimp only at h
      have := of_decide_eq_true h
      split at this <;> omega

theorem maskStep_seen {trx : Trx} {c : MsClass} {rm : Nat × Nat} {u dl w s : Nat} {b : Best} {tr : Bool}
    (hr : ∀ s, s < 8 → ∀ d, (trx s).reserved d ≤ 32) (hs : s < 8) (h : Seen s b) :
    Seen s (maskStep trx c rm u dl w (1 <<< s) b tr) := by
  unfold maskStep
  split
  · exact h
  · rename_i rx _
    dsimp only
    by_cases hb : rx.testBit s = true
    · split
      · rename_i hk
        obtain ⟨-, he⟩ := skip_one hs hb hk
        rw [he]
        exact h
      · have hc := capacity_pos (tx := 1 <<< s) hr hs hb
        split
        · rename_i hle
          try dsimp only at hle
          intro r _ _
          dsimp only
          omega
        · intro r _ _
          exact hc
    · have key : ∀ r ∈ (skipSlot c tr rx (1 <<< s) b.checked).2, r.testBit s = true → 1 ≤ b.cap := by
        intro r hrm hrb
        unfold skipSlot at hrm
        dsimp only at hrm
        split at hrm
        · exact h r hrm hrb
        · split at hrm
          · exact h r hrm hrb
          · rcases List.mem_cons.1 hrm with e | e
            · subst e; exact absurd hrb hb
            · exact h r e hrb
      split
      · exact key
      · split
        · exact key
        · rename_i hc
          intro r hrm hrb
          have := key r hrm hrb
          dsimp only at hc ⊢
          omega

theorem maskStep_good {trx : Trx} {c : MsClass} {rm : Nat × Nat} {dl w s : Nat} {b : Best}
    (hr : ∀ s, s < 8 → ∀ d, (trx s).reserved d ≤ 32) (hs : s < 8) (h : Seen s b) (hd : dl.testBit s = true)
    (hw : w.testBit s = true) (hm : (255 ^^^ wrap ((255 ^^^ rm.2) <<< s)).testBit s = true)
    (h5 : c.type = 1 → pop (255 ^^^ wrap ((255 ^^^ rm.2) <<< s)) ≤ 5) :
    1 ≤ (maskStep trx c rm s dl w (1 <<< s) b true).cap := by
  have hgood : (dl &&& (255 ^^^ wrap ((255 ^^^ rm.2) <<< s))).testBit s = true := by rw [Nat.testBit_and, hd, hm]; rfl
  have hf : filterBad rm.2 s dl w = some (dl &&& (255 ^^^ wrap ((255 ^^^ rm.2) <<< s)) &&& w) := by
    unfold filterBad
    dsimp only
    rw [if_neg (ne_zero_of_testBit hgood)]
  have hrx : (dl &&& (255 ^^^ wrap ((255 ^^^ rm.2) <<< s)) &&& w).testBit s = true := by
    rw [Nat.testBit_and, hgood, hw]; rfl
  have hpop : c.type = 1 → pop (dl &&& (255 ^^^ wrap ((255 ^^^ rm.2) <<< s)) &&& w) ≤ 5 := fun ht =>
    Nat.le_trans (pop_mono fun i hi => sub_and_right dl _ i (sub_and_left _ _ i hi)) (h5 ht)
  unfold maskStep
  rw [if_pos rfl, hf]
  dsimp only
  generalize dl &&& (255 ^^^ wrap ((255 ^^^ rm.2) <<< s)) &&& w = rx at hrx hpop ⊢
  split
  · rename_i hk
    obtain ⟨hk, -⟩ := skip_one hs hrx hk
    rcases hk with ⟨ht, hk⟩ | hk
    · exfalso
      obtain ⟨-, h1, -⟩ := winOne s (List.mem_range.2 hs)
      have := hpop ht
      unfold wrongRow at hk
      rw [h1, if_pos ⟨by omega, by omega⟩] at hk
      cases hk
    · exact h rx hk hrx
  · have hc := capacity_pos (tx := 1 <<< s) hr hs hrx
    split
    · rename_i hle
      dsimp only at hle ⊢
      omega
    · exact hc

theorem findMultiSlots_isSome {trx : Trx} {c : MsClass} {s : Nat} (hc : c ∈ classTable) (hn : c.tx ≠ NA)
    (hr : ∀ s, s < 8 → ∀ d, (trx s).reserved d ≤ 32) (hs : s < 8) (he : (trx s).enabled = true) :
    findMultiSlots trx c 0 0 ≠ none := by
  obtain ⟨s, hm⟩ := exists_testBit (possible_ne (k := max c.rx c.tx) (mask := 0xff) hs he (testBit_full hs))
  have hs := (findPossible_spec _ _ _ _ hm).1
  clear he
  unfold findMultiSlots
  rw [if_neg hn, if_pos rfl]
  dsimp only
  have hM : (0xff &&& findPossible trx (max c.rx c.tx) 0xff).testBit s = true := by
    rw [Nat.testBit_and, hm, show (0xff : Nat).testBit s = true from testBit_full (n := 8) hs]; rfl
  generalize 0xff &&& findPossible trx (max c.rx c.tx) 0xff = M at hM ⊢
  have htx : 1 ≤ c.tx := (classTable_ok c hc).2.2.2.1
  obtain ⟨w1, w2, w3, w4, w5⟩ := winFacts c hc hn s (List.mem_range.2 hs)
  obtain ⟨o1, o2, o3⟩ := winOne s (List.mem_range.2 hs)
  -- the transmit window consisting of slot `s`
  have one : ∀ b, Found b → 1 ≤ (txStep trx c M M 1 b s).cap := by
    intro b hb
    unfold txStep
    dsimp only
    rw [o1, if_neg (fun h => o3 h.2.2), one_and hM]
    have hbit : (1 <<< s).testBit s = true := by rw [testBit_one_shl]; simp
    rw [if_neg (by rw [hbit]; decide), show (s + 1 - 1) % 8 = s by omega, if_neg (by rw [hbit]; decide)]
    obtain ⟨l1, l2, hl⟩ := List.append_of_mem (List.mem_range.2 w1)
    rw [hl, List.foldl_append, List.foldl_cons]
    have hne : (1 <<< s : Nat) ≠ 0 := ne_zero_of_testBit hbit
    have h1 := foldl_inv (fun b : Best => Found b ∧ Seen s b)
      (rxStep trx c (fillRxMask c 1) (min c.rx (c.sum - 1)) s M (1 <<< s)) l1 { b with checked := [] }
      ⟨hb, fun r h => (nomatch h)⟩ fun x a _ hx => ⟨(rxStep_found hne hx.1).1, by
        unfold rxStep
        dsimp only
        split
        · exact hx.2
        · exact foldl_inv (Seen s) _ _ _ hx.2 fun y t _ hy => maskStep_seen hr hs hy⟩
    generalize l1.foldl _ _ = x at h1 ⊢
    refine (foldl_inv (fun b : Best => Found b ∧ 1 ≤ b.cap)
      (rxStep trx c (fillRxMask c 1) (min c.rx (c.sum - 1)) s M (1 <<< s)) l2 _ ⟨(rxStep_found hne h1.1).1, ?_⟩
      fun x a _ hx => ⟨(rxStep_found hne hx.1).1, Int.le_trans hx.2 (rxStep_found hne hx.1).2⟩).2
    unfold rxStep
    dsimp only
    rw [if_neg w3]
    exact maskStep_good hr hs (maskStep_seen hr hs h1.2) hM w2 w4 w5
  have fin : ∀ b : Best, b = (List.range' 1 c.tx).foldl
      (fun b numTx => (List.range 8).foldl (txStep trx c M M numTx) b) ⟨[], -1, 0, 0⟩ → b.ul ≠ 0 ∧ b.dl ≠ 0 := by
    intro b hb
    have keep : ∀ n x a, Found x ∧ 1 ≤ x.cap → Found (txStep trx c M M n x a) ∧ 1 ≤ (txStep trx c M M n x a).cap :=
      fun n x a hx => ⟨(txStep_found hx.1).1, Int.le_trans hx.2 (txStep_found hx.1).2⟩
    obtain ⟨k, hk⟩ : ∃ k, c.tx = k + 1 := ⟨c.tx - 1, by omega⟩
    rw [hk, List.range'_succ, List.foldl_cons] at hb
    have h1 : Found ((List.range 8).foldl (txStep trx c M M 1) ⟨[], -1, 0, 0⟩) ∧
        1 ≤ ((List.range 8).foldl (txStep trx c M M 1) ⟨[], -1, 0, 0⟩).cap := by
      obtain ⟨l1, l2, hl⟩ := List.append_of_mem (List.mem_range.2 hs)
      rw [hl, List.foldl_append, List.foldl_cons]
      have h0 := foldl_inv Found (txStep trx c M M 1) l1 ⟨[], -1, 0, 0⟩ (fun h => absurd h (by decide))
        fun x a _ hx => (txStep_found hx).1
      exact foldl_inv (fun b : Best => Found b ∧ 1 ≤ b.cap) _ _ _ ⟨(txStep_found h0).1, one _ h0⟩ fun x a _ hx => keep 1 x a hx
    have h2 := foldl_inv (fun b : Best => Found b ∧ 1 ≤ b.cap)
      (fun b numTx => (List.range 8).foldl (txStep trx c M M numTx) b) (List.range' (1 + 1) k) _ h1 fun x n _ hx =>
        foldl_inv (fun b : Best => Found b ∧ 1 ≤ b.cap) _ _ _ hx fun y a _ hy => keep n y a hy
    rw [hb]
    exact h2.1 h2.2
  obtain ⟨f1, f2⟩ := fin _ rfl
  rw [if_neg (fun h => h.elim f1 f2)]
  exact fun h => nomatch h

/-! ## The algorithms -/

theorem ul_tfi_free {p : Pdch} {eg : Nat → Bool} {us : Nat → Nat} (h : PInv p eg us) :
    ∃ i, i < 32 ∧ (p.tfiMap .ul).testBit i = false := by
  refine Classical.byContradiction fun hn => ?_
  have hall : ∀ i, i < 32 → ∃ b, p.tbfs .ul i = some b := by
    intro i hi
    have : (p.tfiMap .ul).testBit i = true := by
      cases hb : (p.tfiMap .ul).testBit i with
      | true => rfl
      | false => exact absurd ⟨i, hi, hb⟩ hn
    rw [h.tfi] at this
    exact Option.isSome_iff_exists.1 this
  obtain ⟨i, j, hij, hj, he⟩ := pigeon 7 (fun i => us ((p.tbfs .ul i).getD 0)) (by
    intro i hi
    obtain ⟨b, hb⟩ := hall i (by omega)
    try dsimp only
    rw [hb]
    exact h.usf7 i b hb)
  obtain ⟨b, hb⟩ := hall i (by omega)
  obtain ⟨c, hc⟩ := hall j (by omega)
  try dsimp only at he
  rw [hb, hc] at he
  have := h.inj i j b c hb hc he
  omega

theorem tfi_ne_full {m i : Nat} (hi : i < 32) (h : m.testBit i = false) : m ≠ 0xffffffff := by
  intro he
  rw [he, show (0xffffffff : Nat).testBit i = true from testBit_full (n := 32) hi] at h
  cases h

theorem findFreeTfi_ne {m i : Nat} (hi : i < 32) (h : m.testBit i = false) : findFreeTfi m ≠ none := by
  intro hn
  rw [findFreeTfi_none hn hi] at h
  cases h

theorem findFreeUsf_ne {m u : Nat} (hu : u < 7) (h : m.testBit u = false) : findFreeUsf m ≠ none := by
  intro hn
  rw [findFreeUsf_none hn hu] at h
  cases h

theorem usablePdch_iff {p : Pdch} {eg : Nat → Bool} {us : Nat → Nat} (h : PInv p eg us) :
    usablePdch p = true ↔ p.enabled = true ∧ ∃ i, i < 32 ∧ (p.tfiMap .dl).testBit i = false := by
  unfold usablePdch
  simp only [Bool.and_eq_true, decide_eq_true_eq]
  constructor
  · rintro ⟨⟨h1, -⟩, h2⟩
    refine ⟨h1, Classical.byContradiction fun hn => h2 ?_⟩
    apply Nat.eq_of_testBit_eq
    intro i
    rw [show (0xffffffff : Nat) = 2 ^ 32 - 1 from rfl, Nat.testBit_two_pow_sub_one]
    by_cases hi : i < 32
    · rw [decide_eq_true hi]
      cases hb : (p.tfiMap .dl).testBit i with
      | true => rfl
      | false => exact absurd ⟨i, hi, hb⟩ hn
    · rw [decide_eq_false hi, h.tfi]
      cases hb : p.tbfs .dl i with
      | none => rfl
      | some b => exact absurd (h.lt _ _ _ hb) hi
  · rintro ⟨h1, i, hi, h2⟩
    obtain ⟨j, hj, h3⟩ := ul_tfi_free h
    exact ⟨⟨h1, tfi_ne_full hj h3⟩, tfi_ne_full hi h2⟩

theorem algoA_isSome {bts : Nat → Trx} {ms : Ms} {req : Req} {t s i : Nat} (hf : findTrx bts ms req = some t)
    (hms : ms.fct = none ∧ ms.dl = 0 ∧ ms.ul = 0) (hs : s < 8) (he : (bts t s).enabled = true) (hi : i < 32)
    (hb : ((bts t s).tfiMap req.dir).testBit i = false)
    (hu : req.dir = .ul → ∃ u, u < 7 ∧ (bts t s).usfMap.testBit u = false) : (algoA bts ms req).isSome = true := by
  have hmask : maskA ms = 0xff := by
    unfold maskA
    rw [hms.1, hms.2.1, hms.2.2]
    rfl
  have hbit : (findPossible (bts t) 1 0xff).testBit s = true := possible_one hs he (testBit_full (n := 8) hs)
  have hl := leastBusy_isSome (trx := bts t) (d := req.dir) (mask := findPossible (bts t) 1 0xff) (usage := usageA) (w := true)
    hs hbit (fun _ => findFreeTfi_ne hi hb) (fun hd => by
      obtain ⟨u, h1, h2⟩ := hu hd
      exact findFreeUsf_ne h1 h2)
  obtain ⟨c, hc⟩ := Option.isSome_iff_exists.1 hl
  obtain ⟨-, -, h3, -⟩ := leastBusy_spec hc
  obtain ⟨j, h6, -⟩ := h3 rfl
  unfold algoA
  rw [hf]
  dsimp only
  rw [hmask, if_neg (ne_zero_of_testBit hbit), hc]
  dsimp only
  rw [h6]
  rfl

theorem allocateUsf_isSome {trx : Trx} {sel dl s : Nat}
    (h : ∀ s, s < 8 → (sel &&& dl).testBit s = true → findFreeUsf (trx s).usfMap ≠ none)
    (hb : (sel &&& dl).testBit s = true) : allocateUsf trx sel dl = some (sel &&& dl) := by
  unfold allocateUsf
  have : (List.range 8).foldl (fun m ts =>
    if m.testBit ts = false then m
    else if findFreeUsf (trx ts).usfMap = none then m ^^^ (m &&& (1 <<< ts)) else m) (sel &&& dl) = sel &&& dl := by
    refine foldl_inv (fun m : Nat => m = sel &&& dl) _ _ _ rfl ?_
    intro m a ha hm
    subst hm
    try dsimp only
    split
    · rfl
    · rename_i hbit
      rw [if_neg (h a (List.mem_range.1 ha) (by simpa using hbit))]
  rw [this]
  dsimp only
  rw [if_neg (ne_zero_of_testBit hb)]

theorem single_ne {trx : Trx} {d : Dir} {dl ul s : Nat} (hs : s < 8) (hb : (dl &&& ul).testBit s = true)
    (hu : d = .ul → findFreeUsf (trx s).usfMap ≠ none) :
    ∃ k, k < 8 ∧ (dl &&& ul).testBit k = true ∧ getSingleTs trx d dl ul none = (dl &&& ul) &&& (1 <<< k) := by
  have hl := leastBusy_isSome (trx := trx) (d := d) (mask := dl &&& ul) (usage := usageByTbfs) (w := false) hs hb
    (fun h => nomatch h) hu
  obtain ⟨c, hc⟩ := Option.isSome_iff_exists.1 hl
  obtain ⟨h1, h2, -⟩ := leastBusy_spec hc
  refine ⟨c.ts, h1, h2, ?_⟩
  unfold getSingleTs
  dsimp only
  rw [hc]
  rfl

theorem bit_and_one {m k : Nat} (h : m.testBit k = true) : (m &&& (1 <<< k)).testBit k = true := by
  rw [Nat.testBit_and, h, testBit_one_shl]; simp

theorem algoB_isSome {bts : Nat → Trx} {dflt : Nat} {ms : Ms} {d : Dir} {sg : Bool} {t i s : Nat}
    (hms : ms.trx = none ∧ ms.fct = none ∧ ms.dl = 0 ∧ ms.ul = 0) (hc : (getClass dflt ms.cls).tx ≠ NA)
    (hr : ∀ t s, t < 8 → s < 8 → ∀ d, (bts t s).reserved d ≤ 32) (ht : t < 8) (hi : i < 32) (hs : s < 8)
    (he : (bts t s).enabled = true)
    (hf : ∀ s, s < 8 → (bts t s).enabled = true → ((bts t s).tfiMap d).testBit i = false)
    (hu : d = .ul → ∀ t s, t < 8 → s < 8 → (bts t s).enabled = true → findFreeUsf (bts t s).usfMap ≠ none) :
    (algoB dflt bts ms ⟨d, sg, none⟩).isSome = true := by
  obtain ⟨m1, m2, m3, m4⟩ := hms
  have htf : tfiFindFree bts ms ⟨d, sg, none⟩ = btsTfiFindFree bts d none := by
    unfold tfiFindFree
    rw [m1]
  cases hq : btsTfiFindFree bts d none with
  | none => exact absurd hq (btsTfiFindFree_isSome ht (countFreeTfi_pos hi hs he hf))
  | some p =>
    obtain ⟨t', j⟩ := p
    have ht' : t' < 8 := (btsTfiFindFree_spec hq).1
    obtain ⟨s', hs', he'⟩ := btsTfiFindFree_enabled hq
    have hfm := findMultiSlots_isSome (getClass_mem dflt ms.cls) hc (fun s h d => hr t' s ht' h d) hs' he'
    unfold algoB
    rw [htf, hq]
    dsimp only
    rw [m3, m4, if_pos (Or.inl rfl)]
    cases hp : findMultiSlots (bts t') (getClass dflt ms.cls) 0 0 with
    | none => exact absurd hp hfm
    | some pr =>
      obtain ⟨ru, rd⟩ := pr
      obtain ⟨⟨p1, p2, -, -, -, p3, -⟩, -, p4⟩ := findMultiSlots_class hp
      obtain ⟨k, hk⟩ := exists_testBit (p3 p4)
      have hk2 : (rd &&& ru).testBit k = true := by rw [Nat.and_comm]; exact hk
      have hen : ∀ s, ru.testBit s = true → s < 8 ∧ (bts t' s).enabled = true := fun s hs => by
        have := p1 s hs
        rw [Nat.testBit_and, Bool.and_eq_true] at this
        have := findPossible_spec _ _ _ _ this.2
        exact ⟨this.1, this.2.1⟩
      have hus : d = .ul → ∀ s, ru.testBit s = true → findFreeUsf (bts t' s).usfMap ≠ none := fun hd s hs =>
        hu hd t' s ht' (hen s hs).1 (hen s hs).2
      have hkr := sub_and_left _ _ k hk
      dsimp only
      rw [m2]
      have hsel : ∃ sl, selectSlotSet (bts t') ⟨d, sg, none⟩ ru rd none = some sl ∧
          (∃ k, sl.testBit k = true ∧ ru.testBit k = true ∧ rd.testBit k = true) ∧ (d = .ul → Sub sl ru) := by
        cases sg with
        | true =>
          obtain ⟨q, q1, q2, q3⟩ := single_ne (trx := bts t') (d := d) (hen k hkr).1 hk2 (fun hd => hus hd k hkr)
          have e : selectSlotSet (bts t') ⟨d, true, none⟩ ru rd none =
            if getSingleTs (bts t') d rd ru none = 0 then none else some (getSingleTs (bts t') d rd ru none) := rfl
          rw [e, q3, if_neg (ne_zero_of_testBit (bit_and_one q2))]
          exact ⟨_, rfl, ⟨q, bit_and_one q2, sub_and_right _ _ q q2, sub_and_left _ _ q q2⟩,
            fun _ x hx => sub_and_right _ _ x (sub_and_left _ _ x hx)⟩
        | false =>
          cases d with
          | ul =>
            have e : selectSlotSet (bts t') ⟨.ul, false, none⟩ ru rd none = if ru = 0 then none else some ru := rfl
            rw [e, if_neg (ne_zero_of_testBit hkr)]
            exact ⟨_, rfl, ⟨k, hkr, hkr, sub_and_right _ _ k hk⟩, fun _ x hx => hx⟩
          | dl =>
            have e : selectSlotSet (bts t') ⟨.dl, false, none⟩ ru rd none = if rd = 0 then none else some rd := rfl
            rw [e, if_neg p4]
            exact ⟨_, rfl, ⟨k, sub_and_right _ _ k hk, hkr, sub_and_right _ _ k hk⟩, fun h => nomatch h⟩
      obtain ⟨sl, hsl, ⟨q, q1, q2, q3⟩, q4⟩ := hsel
      rw [hsl]
      dsimp only
      cases d with
      | dl =>
        rw [if_pos rfl, if_neg (ne_zero_of_testBit (s := q) (by rw [Nat.testBit_and, q1, q2]; rfl))]
        rfl
      | ul =>
        rw [if_neg (by decide), allocateUsf_isSome (s := q) (fun s _ hs => hus rfl s (q4 rfl s (sub_and_left _ _ s hs)))
          (by rw [Nat.testBit_and, q1, q3]; rfl)]
        dsimp only
        rw [if_neg (ne_zero_of_testBit (s := q) (by rw [Nat.testBit_and, Nat.testBit_and, q1, q3]; rfl))]
        rfl

end Verif.Alloc
