import Verif.Props.C18
/-!
# C19: Polls are scheduled at the block the mobile is told to answer in
-/

namespace Verif.Ulc

open Verif.Fn

/-- 3GPP TS 44.060 table 10.4.5.1: number of frames after the first frame N of the downlink block,
for each coding of the RRBP field. -/
def rrbpOffsets : Nat → List Nat
  | 0 => [13]
  | 1 => [17, 18]
  | 2 => [21, 22]
  | 3 => [26]
  | _ => []

/-- The uplink block denoted by an RRBP coding sent in the downlink block starting at `n`. -/
def Denotes (n c p : Nat) : Prop := BlockStart p ∧ ∃ o ∈ rrbpOffsets c, p = nextFn n o

/-- Each coding denotes exactly one block. -/
theorem C19_rrbp_unambiguous (n c : Nat) (hn : BlockStart n) (hc : c < 4) :
    ∃ p, Denotes n c p ∧ ∀ p', Denotes n c p' → p' = p := by
  obtain ⟨k, hk, rfl⟩ := (C20_blocks_all n).1 hn
  have hv : ∀ o, BlockStart (nextFn (blockFn k) o) ↔ fnValid (4 * (k % 12) + k % 12 / 3 + o) = true := by
    intro o
    rw [← C20_valid (nextFn (blockFn k) o) (Nat.mod_lt _ (by decide)), blockFn_eq]
    have : (52 * (k / 12) + (4 * (k % 12) + k % 12 / 3) + o) % H % 13
        = (4 * (k % 12) + k % 12 / 3 + o) % 13 := by unfold H; omega
    unfold nextFn fnValid
    rw [this]
  have key : ∀ r < 12, ∀ c < 4, ∃ o ∈ rrbpOffsets c, fnValid (4 * r + r / 3 + o) = true ∧
      ∀ o' ∈ rrbpOffsets c, fnValid (4 * r + r / 3 + o') = true → o' = o := by decide
  obtain ⟨o, ho, hov, hou⟩ := key (k % 12) (by omega) c hc
  refine ⟨nextFn (blockFn k) o, ⟨(hv o).2 hov, o, ho, rfl⟩, ?_⟩
  rintro p' ⟨hb, o', ho', rfl⟩
  rw [hou o' ho' ((hv o').1 hb)]

theorem rrbpLoop_some {l fn os p c} (h : rrbpLoop l fn os = some (p, c)) :
    ∃ o, (o, c) ∈ os ∧ p = nextFn fn o ∧ fnValid p = true ∧ isFree l p = true := by
  induction os with
  | nil => simp [rrbpLoop] at h
  | cons a os ih =>
    obtain ⟨o, c'⟩ := a
    unfold rrbpLoop at h
    split at h
    · obtain ⟨o, h1, h2⟩ := ih h; exact ⟨o, List.mem_cons_of_mem _ h1, h2⟩
    · split at h
      · simp only [Option.some.injEq, Prod.mk.injEq] at h
        obtain ⟨rfl, rfl⟩ := h
        rename_i h1 h2
        exact ⟨o, List.mem_cons_self, rfl, by simpa using h1, h2⟩
      · obtain ⟨o, h1, h2⟩ := ih h; exact ⟨o, List.mem_cons_of_mem _ h1, h2⟩

theorem rrbpLoop_none {l fn os} : rrbpLoop l fn os = none ↔
    ∀ a ∈ os, fnValid (nextFn fn a.1) = true → isFree l (nextFn fn a.1) = false := by
  induction os with
  | nil => simp [rrbpLoop]
  | cons a os ih =>
    obtain ⟨o, c⟩ := a
    unfold rrbpLoop
    rw [List.forall_mem_cons]
    by_cases h1 : fnValid (nextFn fn o) = true
    · rw [if_neg (by simp [h1])]
      by_cases h2 : isFree l (nextFn fn o) = true
      · rw [if_pos h2]; simp [h1, h2]
      · rw [if_neg h2, ih]; simp [h1, h2]
    · rw [if_pos (by simpa using h1), ih]; simp [h1]

theorem rrbpList_iff (o c : Nat) : (o, c) ∈ rrbpList ↔ o ∈ rrbpOffsets c := by
  match c with
  | 0 => simp [rrbpList, rrbpOffsets]
  | 1 => simp [rrbpList, rrbpOffsets]
  | 2 => simp [rrbpList, rrbpOffsets]
  | 3 => simp [rrbpList, rrbpOffsets]
  | n + 4 => simp [rrbpList, rrbpOffsets]

/-- Frame `n + o` is `o` frames further in the window. -/
theorem off_next {b n o : Nat} (hb : b < H) (hn : n < H) (h : fnSub n b < W) (ho : o ≤ 26) :
    fnSub (nextFn n o) b = fnSub n b + o := by
  unfold W at h
  unfold nextFn fnSub H at *
  omega

/-- A poll that is granted: the coding signalled denotes the block chosen, this block is 13 to 26
frames ahead, starts a radio block and has no other owner; reserving it then succeeds. -/
theorem C19_poll {b l} (h : Reach b l) (n p c : Nat) (hn : BlockStart n) (hw : fnSub n b + 26 < W)
    (hp : nextFreeRrbp l n = some (p, c)) :
    Denotes n c p ∧ c < 4 ∧ 13 ≤ fnSub p n ∧ fnSub p n ≤ 26 ∧ (∀ m ∈ l, m.fn ≠ p) ∧
    ∀ t r, (reserve l p (.poll t r)).1 = true ∧ ⟨p, .poll t r⟩ ∈ (reserve l p (.poll t r)).2 := by
  obtain ⟨o, ho, rfl, hv, hf⟩ := rrbpLoop_some hp
  have hpH : nextFn n o < H := Nat.mod_lt _ (by decide)
  have hoff := (rrbpList_iff o c).1 ho
  have hr : ∀ a ∈ rrbpList, 13 ≤ a.1 ∧ a.1 ≤ 26 ∧ a.2 < 4 := by decide
  obtain ⟨r1, r2, r3⟩ := hr _ ho
  dsimp only at r1 r2 r3
  have hwin := reach_window h
  have hWH := W_lt
  have hon := off_next hwin.base hn.1 (by omega) r2
  have hfree := (isFree_iff hwin hpH (by omega)).1 hf
  have hd : fnSub (nextFn n o) n = o := by
    have h1 := hn.1
    clear hon hfree hwin hw hWH hoff hr hp hv hf hpH
    unfold nextFn fnSub H at *
    omega
  refine ⟨⟨(C20_valid _ hpH).1 hv, o, hoff, rfl⟩, r3, by omega, by omega, hfree, fun t r => ?_⟩
  obtain ⟨h1, h2⟩ := (C18_reserve h (nextFn n o) (.poll t r) hpH (by omega)).2 hfree
  exact ⟨h1, (h2 _).2 (Or.inl rfl)⟩

/-- A poll is refused exactly if the blocks denoted by all codings are taken. -/
theorem C19_refused {b l} (h : Reach b l) (n : Nat) (hn : BlockStart n) (hw : fnSub n b + 26 < W) :
    nextFreeRrbp l n = none ↔ ∀ c p, Denotes n c p → ∃ m ∈ l, m.fn = p := by
  have hwin := reach_window h
  have hWH := W_lt
  have hr : ∀ a ∈ rrbpList, a.1 ≤ 26 := by decide
  unfold nextFreeRrbp
  rw [rrbpLoop_none]
  constructor
  · rintro hall c p ⟨hb, o, ho, rfl⟩
    have hm := (rrbpList_iff o c).2 ho
    have := hall _ hm ((C20_valid _ hb.1).2 hb)
    have hon := off_next hwin.base hn.1 (by omega) (hr _ hm)
    apply Decidable.byContradiction
    intro hno
    have : isFree l (nextFn n o) = true := (isFree_iff hwin hb.1 (by dsimp only at hon; have := hr _ hm; dsimp only at this; omega)).2
      (fun m hm' e => hno ⟨m, hm', e⟩)
    simp_all
  · rintro hall ⟨o, c⟩ hm hv
    have hpH : nextFn n o < H := Nat.mod_lt _ (by decide)
    have hon := off_next hwin.base hn.1 (by omega) (hr _ hm)
    have hro := hr _ hm
    dsimp only at hon hv hro ⊢
    obtain ⟨m, hm', e⟩ := hall c _ ⟨(C20_valid _ hpH).1 hv, o, (rrbpList_iff o c).1 hm, rfl⟩
    cases hf : isFree l (nextFn n o) with
    | false => rfl
    | true => exact absurd e ((isFree_iff hwin hpH (by omega)).1 hf m hm')

/-! Concrete: at the end of the hyperframe, with the first candidates taken. -/
example : BlockStart 2715630 ∧ nextFreeRrbp [] 2715630 = some (2715643, 0) := by decide +kernel
example : nextFreeRrbp demo 2715630 = some (4, 2) := by decide +kernel

end Verif.Ulc
