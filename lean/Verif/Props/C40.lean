import Verif.Model.Ta
import Verif.Spec.Ta
import Verif.Spec.Rach
/-!
# C40: timing advance values and TA indices stay valid
-/

namespace Verif.Ta

open Verif.Rach (TaOf qta2ta)

theorem qta2ta_spec (q : Int) : TaOf q (qta2ta q) ∧ qta2ta q < 64 := by
  unfold TaOf qta2ta
  split
  · omega
  · split <;> omega

theorem taLimit_lt (t : Int) : taLimit t < 64 := by
  unfold taLimit
  split
  · omega
  · split <;> omega

/-- **C40**, after any sequence of measurements the timing advance of a mobile is unknown or from 0 to 63; it is known
after the first random access. -/
theorem C40_range (ops : List Op) : let ta := ops.foldl step unknown; (ta = unknown ∨ ta < 64) ∧
    ((∃ q, .access q ∈ ops) → ta < 64) := by
  have key : ∀ (ops : List Op) (ta : Nat), ta = unknown ∨ ta < 64 → (ops.foldl step ta = unknown ∨ ops.foldl step ta < 64) ∧
      (ta < 64 ∨ (∃ q, .access q ∈ ops) → ops.foldl step ta < 64) := by
    intro ops
    induction ops with
    | nil =>
      intro ta h
      refine ⟨h, ?_⟩
      rintro (h | ⟨q, h⟩)
      · exact h
      · cases h
    | cons o ops ih =>
      intro ta h
      rw [List.foldl_cons]
      have hs : ∀ n, n < 64 → setTa ta n < 64 := by
        intro n hn
        unfold setTa
        split
        · omega
        · exact hn
      have h1 : (step ta o = unknown ∨ step ta o < 64) ∧ (ta < 64 ∨ (∃ q, .access q = o) → step ta o < 64) := by
        cases o with
        | access q =>
          have := hs _ (qta2ta_spec q).2
          exact ⟨.inr this, fun _ => this⟩
        | burst q =>
          unfold step set
          dsimp only
          by_cases e : ta ≠ qta2ta q % 256
          · rw [if_pos e]
            have := hs _ (taLimit_lt ((qta2ta q % 256 : Nat) : Int))
            exact ⟨.inr this, fun _ => this⟩
          · rw [if_neg e]
            refine ⟨h, ?_⟩
            rintro (h | ⟨q, h⟩)
            · exact h
            · cases h
        | data q =>
          unfold step update
          dsimp only
          by_cases e : signQta2ta q ≠ 0
          · rw [if_pos e]
            have := hs _ (taLimit_lt (ta + signQta2ta q))
            exact ⟨.inr this, fun _ => this⟩
          · rw [if_neg e]
            refine ⟨h, ?_⟩
            rintro (h | ⟨q, h⟩)
            · exact h
            · cases h
      obtain ⟨a, b⟩ := ih _ h1.1
      refine ⟨a, fun hx => b ?_⟩
      rcases hx with hx | ⟨q, hx⟩
      · exact .inl (h1.2 (.inl hx))
      · rcases List.mem_cons.1 hx with hx | hx
        · exact .inl (h1.2 (.inr ⟨q, hx⟩))
        · exact .inr ⟨q, hx⟩
  exact ⟨(key ops unknown (.inl rfl)).1, fun h => (key ops unknown (.inl rfl)).2 (.inr h)⟩

/-- **C40**, the timing advance after a random access burst, or an access burst in answer to a poll, is the delay of this
burst. -/
theorem C40_burst (ta : Nat) (q : Int) : TaOf q (step ta (.access q)) ∧ TaOf q (step ta (.burst q)) := by
  obtain ⟨h, hl⟩ := qta2ta_spec q
  constructor
  · have : step ta (.access q) = qta2ta q := by
      unfold step setTa
      dsimp only
      by_cases e : qta2ta q = ta
      · rw [if_pos e, e]
      · rw [if_neg e, if_pos hl]
    rw [this]; exact h
  · have : step ta (.burst q) = qta2ta q := by
      have e1 : qta2ta q % 256 = qta2ta q := by omega
      have e2 : taLimit (qta2ta q : Int) = qta2ta q := by
        unfold taLimit
        rw [if_neg (by omega), if_neg (by omega)]; omega
      unfold step set
      dsimp only
      rw [e1, e2]
      by_cases e : ta ≠ qta2ta q
      · rw [if_pos e]
        unfold setTa
        rw [if_neg (Ne.symm e), if_pos hl]
      · rw [if_neg e]; omega
    rw [this]; exact h

/-- The correction for a block that is late by `q` is in the direction of the error and within two symbols of it. -/
theorem signQta2ta_spec (q : Int) : (0 ≤ q → q ≤ 2 → signQta2ta q = 0) ∧ (2 < q → 0 < signQta2ta q) ∧
    (q < 0 → signQta2ta q < 0) ∧ (-252 ≤ q → q ≤ 252 → q - 8 < 4 * signQta2ta q ∧ 4 * signQta2ta q < q + 8) ∧
    (-64 ≤ signQta2ta q ∧ signQta2ta q ≤ 64) := by
  unfold signQta2ta
  dsimp only
  by_cases h1 : q < -252
  · simp only [if_pos h1]
    refine ⟨?_, ?_, ?_, ?_, ?_⟩ <;> first | omega | decide | (intros; first | omega | decide)
  · simp only [if_neg h1]
    by_cases h2 : q > 252
    · simp only [if_pos h2]
      refine ⟨?_, ?_, ?_, ?_, ?_⟩ <;> first | omega | decide | (intros; first | omega | decide)
    · simp only [if_neg h2]
      split
      · refine ⟨?_, ?_, ?_, ?_, ?_⟩ <;> omega
      · split
        · refine ⟨?_, ?_, ?_, ?_, ?_⟩ <;> omega
        · refine ⟨?_, ?_, ?_, ?_, ?_⟩ <;> omega

/-- **C40**, a block that is late or early by `q` changes a known timing advance in this direction, to within two symbols
of the measured place, and never past the limits. -/
theorem C40_data {ta : Nat} (h : ta < 64) {q : Int} (hq : -252 ≤ q ∧ q ≤ 252) :
    ∃ d : Int, q - 8 < 4 * d ∧ 4 * d < q + 8 ∧ (0 ≤ q → 0 ≤ d) ∧ (q < 0 → d < 0) ∧
      ((ta : Int) + d < 0 → step ta (.data q) = 0) ∧ (63 < (ta : Int) + d → step ta (.data q) = 63) ∧
      (0 ≤ (ta : Int) + d → (ta : Int) + d ≤ 63 → (step ta (.data q) : Int) = ta + d) := by
  obtain ⟨a, b, c, d, e⟩ := signQta2ta_spec q
  obtain ⟨d1, d2⟩ := d hq.1 hq.2
  refine ⟨signQta2ta q, d1, d2, ?_, c, ?_⟩
  · intro h0
    by_cases h2 : q ≤ 2
    · have := a h0 h2; omega
    · have := b (by omega); omega
  · unfold step update
    dsimp only
    generalize signQta2ta q = x
    by_cases hx : x ≠ 0
    · rw [if_pos hx]
      have hs : setTa ta (taLimit (ta + x)) = taLimit (ta + x) := by
        unfold setTa
        split
        · exact Eq.symm (by assumption)
        · rw [if_pos (taLimit_lt _)]
      rw [hs]
      unfold taLimit
      refine ⟨?_, ?_, ?_⟩
      · intro h1; rw [if_pos h1]
      · intro h1; rw [if_neg (by omega), if_pos h1]
      · intro h1 h2; rw [if_neg (by omega), if_neg (by omega)]; omega
    · rw [if_neg hx]
      have hx : x = 0 := by omega
      subst hx
      refine ⟨?_, ?_, ?_⟩ <;> omega

/-- **C40**, an error of one or two quarters is meant to be ignored, and is if the block is late, but not if it is
early: the timing advance is lowered by a whole symbol. -/
theorem C40_early {ta : Nat} (h : ta < 64) (h0 : 0 < ta) {q : Int} (hq : q = -1 ∨ q = -2) :
    step ta (.data q) = ta - 1 ∧ step ta (.data (-q)) = ta := by
  obtain ⟨k, rfl⟩ : ∃ k, ta = k + 1 := ⟨ta - 1, by omega⟩
  have key : ∀ k < 63, step (k + 1) (.data (-1)) = k ∧ step (k + 1) (.data 1) = k + 1 ∧ step (k + 1) (.data (-2)) = k ∧
    step (k + 1) (.data 2) = k + 1 := by decide
  obtain ⟨a, b, c, d⟩ := key k (by omega)
  rcases hq with rfl | rfl
  · exact ⟨a, b⟩
  · exact ⟨c, d⟩

/-- **C40**, a correction of an unknown timing advance makes it known and largest. -/
theorem C40_unknown {q : Int} (h : q < 0 ∨ 2 < q) : step unknown (.data q) = 63 := by
  obtain ⟨a, b, c, d, e⟩ := signQta2ta_spec q
  have h0 : signQta2ta q ≠ 0 := by
    rcases h with h | h
    · have := c h; omega
    · have := b h; omega
  unfold step update
  dsimp only
  rw [if_pos h0]
  have : taLimit ((unknown : Nat) + signQta2ta q) = 63 := by
    unfold taLimit unknown
    rw [if_neg (by omega), if_pos (by omega)]
  rw [this]
  decide

/-- A mobile at 10 symbols that moves away, loses contact and comes back. -/
example : [Op.access 43, .data 5, .data 5, .data (-1), .burst 300, .data 252, .burst (-7), .data (-100), .access 17].foldl step unknown = 4 ∧
    [Op.access 43, .data 5, .data 5, .data (-1)].foldl step unknown = 13 := by decide

/-! ## Indices -/

/-- Histories of the indices of a PDCH: mobiles get an index, give back an index that they hold, and send their access
bursts in their own frames (and other bursts only in frames without sub-slot). `o`: timing advance of the holders. -/
inductive Run : List Nat → (Nat → Option Nat) → Prop
  | init : Run init (fun _ => none)
  | reserve {m m' o ta i} : Run m o → ta < 64 → reserve m ta = (m', i) → i ≠ free → Run m' (assign o i (some ta))
  | refused {m m' o ta} : Run m o → ta < 64 → Ta.reserve m ta = (m', free) → Run m' o
  | release {m m' o i} : Run m o → o i ≠ none → release m i = some m' → Run m' (assign o i none)
  | burst {m m' o i rfn q ta} : Run m o → FrameOf rfn i → o i ≠ none → TaOf q ta → ptcchRach m rfn q = some m' →
      Run m' (assign o i (some ta))
  | stray {m m' o rfn q} : Run m o → (∀ i, ¬ FrameOf rfn i) → ptcchRach m rfn q = some m' → Run m' o

theorem subSlot_lt (n : Nat) : ∀ i < 16, (subSlot n = i ↔ n % 416 = 12 + 26 * i) := by
  have key : ∀ r < 416, ∀ i < 16, (slotMap.findIdx (fun x => x = r) = i ↔ r = 12 + 26 * i) := by decide +kernel
  exact key (n % 416) (Nat.mod_lt _ (by decide))

theorem subSlot_frame {n i : Nat} (h : FrameOf n i) : subSlot n = i := by
  obtain ⟨h1, k, h2⟩ := h
  exact (subSlot_lt n i h1).2 (by omega)

theorem subSlot_le (n : Nat) : subSlot n ≤ 16 := List.findIdx_le_length

theorem subSlot_none {n : Nat} (h : ∀ i, ¬ FrameOf n i) : subSlot n = 16 := by
  have := subSlot_le n
  by_cases h1 : subSlot n < 16
  · have h2 := (subSlot_lt n _ h1).1 rfl
    exact absurd ⟨h1, n / 416, by omega⟩ (h (subSlot n))
  · omega

theorem taOf_unique {q : Int} {a b : Nat} (h : TaOf q a) (h' : TaOf q b) : a = b := by
  obtain ⟨a1, a2, a3⟩ := h
  obtain ⟨b1, b2, b3⟩ := h'
  by_cases h1 : q < 0
  · rw [a1 h1, b1 h1]
  · by_cases h2 : 252 < q
    · rw [a2 h2, b2 h2]
    · have := a3 (by omega) (by omega)
      have := b3 (by omega) (by omega)
      omega

theorem block_set {o : Nat → Option Nat} {i : Nat} (hi : i < 16) (x : Option Nat) :
    (block o).set i (x.getD 127) = block (assign o i x) := by
  apply List.ext_getElem
  · simp [block]
  · intro j h1 h2
    rw [List.getElem_set]
    simp only [block, List.getElem_map, List.getElem_range, assign]
    by_cases e : i = j
    · subst e; rw [if_pos rfl, if_pos hi, if_pos rfl]
    · rw [if_neg e, if_neg (Ne.symm e)]

theorem block_get {o : Nat → Option Nat} {i : Nat} (hi : i < 16) : (block o)[i]? = some ((o i).getD 127) := by
  rw [List.getElem?_eq_getElem (by simp [block]; omega)]
  simp only [block, List.getElem_map, List.getElem_range, if_pos hi]

/-- What `reserve` does if the message is exact. -/
theorem reserveFrom_block {o : Nat → Option Nat} (hv : ∀ i x, o i = some x → x < 64) (ta : Nat) :
    ∀ (n i : Nat), i + n = 16 → (∀ j < i, o j ≠ none) →
      (∃ k < 16, o k = none ∧ (∀ j < k, o j ≠ none) ∧ reserveFrom (block o) ta i n = (block (assign o k (some ta)), k)) ∨
      ((∀ j < 16, o j ≠ none) ∧ reserveFrom (block o) ta i n = (block o, free)) := by
  intro n
  induction n with
  | zero =>
    intro i h h'
    exact .inr ⟨fun j hj => h' j (by omega), rfl⟩
  | succ n ih =>
    intro i h h'
    unfold reserveFrom
    rw [block_get (by omega)]
    cases ho : o i with
    | none =>
      left
      refine ⟨i, by omega, ho, h', ?_⟩
      rw [if_pos (by rfl), ← block_set (by omega)]
      rfl
    | some x =>
      have := hv i x ho
      rw [if_neg (by unfold free; simp only [Option.getD_some, Option.some.injEq]; omega)]
      refine ih (i + 1) (by omega) ?_
      intro j hj
      by_cases e : j = i
      · subst e; rw [ho]; nofun
      · exact h' j (by omega)

theorem run_inv {m o} (h : Run m o) : m = block o ∧ (∀ i x, o i = some x → x < 64) ∧ (∀ i, 16 ≤ i → o i = none) := by
  have hva : ∀ {o : Nat → Option Nat} {i ta}, ta < 64 → (∀ i x, o i = some x → x < 64) → ∀ j x, assign o i (some ta) j = some x → x < 64 := by
    intro o i ta ht hv j x hx
    unfold assign at hx
    by_cases e : j = i
    · rw [if_pos e] at hx; cases hx; exact ht
    · rw [if_neg e] at hx; exact hv j x hx
  have hvn : ∀ {o : Nat → Option Nat} {i y}, i < 16 → (∀ i, 16 ≤ i → o i = none) → ∀ j, 16 ≤ j → assign o i y j = none := by
    intro o i y hi hn j hj
    unfold assign
    rw [if_neg (by omega)]; exact hn j hj
  induction h with
  | init => exact ⟨by decide, nofun, fun _ _ => rfl⟩
  | @reserve m m' o ta i _ ht hr hi ih =>
    obtain ⟨rfl, hv, hn⟩ := ih
    rcases reserveFrom_block hv ta 16 0 rfl nofun with ⟨k, h1, h2, h3, h4⟩ | ⟨-, h4⟩
    · unfold reserve at hr
      rw [h4] at hr
      cases hr
      exact ⟨rfl, hva ht hv, hvn h1 hn⟩
    · unfold reserve at hr
      rw [h4] at hr
      exact absurd (Prod.mk.inj hr).2.symm hi
  | @refused m m' o ta _ ht hr ih =>
    obtain ⟨rfl, hv, hn⟩ := ih
    rcases reserveFrom_block hv ta 16 0 rfl nofun with ⟨k, h1, h2, h3, h4⟩ | ⟨-, h4⟩
    · unfold reserve at hr
      rw [h4] at hr
      have := (Prod.mk.inj hr).2
      unfold free at this; omega
    · unfold reserve at hr
      rw [h4] at hr
      exact ⟨(Prod.mk.inj hr).1.symm, hv, hn⟩
  | @release m m' o i _ hi hr ih =>
    obtain ⟨rfl, hv, hn⟩ := ih
    have h16 : i < 16 := by
      by_cases h : i < 16
      · exact h
      · exact absurd (hn i (by omega)) hi
    unfold release at hr
    rw [if_pos h16] at hr
    cases hr
    refine ⟨block_set h16 none, ?_, hvn h16 hn⟩
    intro j x hx
    unfold assign at hx
    by_cases e : j = i
    · rw [if_pos e] at hx; cases hx
    · rw [if_neg e] at hx; exact hv j x hx
  | @burst m m' o i rfn q ta _ hf hi ht hr ih =>
    obtain ⟨rfl, hv, hn⟩ := ih
    have h16 := hf.1
    obtain ⟨q1, q2⟩ := qta2ta_spec q
    have e := taOf_unique ht q1
    subst e
    unfold ptcchRach updateTa at hr
    rw [subSlot_frame hf, if_neg (by omega), if_pos h16] at hr
    cases hr
    exact ⟨block_set h16 (some _), hva q2 hv, hvn h16 hn⟩
  | @stray m m' o rfn q _ hf hr ih =>
    unfold ptcchRach at hr
    rw [subSlot_none hf, if_pos rfl] at hr
    cases hr
    exact ih

/-- **C40**, the message on the PTCCH has the last timing advance of every mobile that holds an index, and the mark for
the other indices. -/
theorem C40_message {m o} (h : Run m o) : m = block o := (run_inv h).1

/-- **C40**, an index that is given is held by no other mobile; an index is refused only if all 16 are held. Missing:
histories with bursts in the frame of an index that nobody holds. -/
theorem C40_index_partial {m o} (h : Run m o) (ta : Nat) :
    (∃ i < 16, o i = none ∧ (∀ j < i, o j ≠ none) ∧ reserve m ta = (block (assign o i (some ta)), i)) ∨
    (∀ j < 16, o j ≠ none) ∧ reserve m ta = (m, free) := by
  obtain ⟨rfl, hv, -⟩ := run_inv h
  exact reserveFrom_block hv ta 16 0 rfl nofun

/-- **C40**, an index that was given back is given again, before any that was never used above it. -/
theorem C40_released {m o i} (h : Run m o) (hi : o i ≠ none) : ∃ m', release m i = some m' ∧ Run m' (assign o i none) ∧
    ∀ ta, ∃ j, j ≤ i ∧ o j = (if j = i then o i else none) ∧ (reserve m' ta).2 = j := by
  have h16 : i < 16 := by
    by_cases h' : i < 16
    · exact h'
    · exact absurd ((run_inv h).2.2 i (by omega)) hi
  have hr : release m i = some (m.set i free) := by unfold release; rw [if_pos h16]
  have hx := Run.release h hi hr
  refine ⟨_, hr, hx, ?_⟩
  intro ta
  rcases C40_index_partial hx ta with ⟨k, h1, h2, h3, h4⟩ | ⟨h1, -⟩
  · refine ⟨k, ?_, ?_, by rw [h4]⟩
    · by_cases hk : k ≤ i
      · exact hk
      · exact absurd (by unfold assign; rw [if_pos rfl]) (h3 i (by omega))
    · by_cases e : k = i
      · rw [if_pos e, e]
      · rw [if_neg e]; unfold assign at h2; rwa [if_neg e] at h2
  · exact absurd (by unfold assign; rw [if_pos rfl]) (h1 i h16)

/-- No assertion fails. -/
theorem C40_no_assert (m : List Nat) (rfn : Nat) (q : Int) : ∃ m', ptcchRach m rfn q = some m' := by
  unfold ptcchRach
  split
  · exact ⟨_, rfl⟩
  · unfold updateTa
    rw [if_pos (by have := subSlot_le rfn; omega)]
    exact ⟨_, rfl⟩

/-- **C40**, a burst in a frame of an index that nobody holds takes the index away: after one in each sub-slot no
mobile gets an index, although none is held. -/
theorem C40_index_lost : ∃ m, (List.range 16).foldl (fun m i => m.bind fun m => ptcchRach m (416 * 3 + 12 + 26 * i) 40) (some init) = some m ∧
    reserve m 5 = (m, free) := ⟨List.replicate 16 10 ++ List.replicate 7 0x2b, by decide, by decide⟩

/-- Two mobiles get indices 0 and 1, the first gives its index back, the second sends a burst; a third gets index 0. -/
example : ∃ m o, Run m o ∧ o 0 = some 7 ∧ o 1 = some 20 ∧ m = [7, 20] ++ List.replicate 14 127 ++ List.replicate 7 0x2b := by
  have h1 := Run.reserve (ta := 3) (i := 0) (m' := 3 :: List.replicate 15 127 ++ List.replicate 7 0x2b) Run.init (by decide) (by decide) (by decide)
  have h2 := Run.reserve (ta := 19) (i := 1) (m' := 3 :: 19 :: List.replicate 14 127 ++ List.replicate 7 0x2b) h1 (by decide) (by decide) (by decide)
  have h3 := Run.release (i := 0) (m' := 127 :: 19 :: List.replicate 14 127 ++ List.replicate 7 0x2b) h2 (by decide) (by decide)
  have h4 := Run.burst (i := 1) (rfn := 416 * 5 + 38) (q := 83) (ta := 20) (m' := 127 :: 20 :: List.replicate 14 127 ++ List.replicate 7 0x2b) h3
    ⟨by decide, 5, by decide⟩ (by decide) (by unfold TaOf; omega) (by decide)
  have h5 := Run.reserve (ta := 7) (i := 0) (m' := 7 :: 20 :: List.replicate 14 127 ++ List.replicate 7 0x2b) h4 (by decide) (by decide) (by decide)
  exact ⟨_, _, h5, by decide, by decide, by decide⟩

end Verif.Ta
