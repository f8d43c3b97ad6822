import Verif.Lemmas.UlMsg
/-!
# Lemmas: values of parts that are left out
-/

namespace Verif.Csn1

mutual
/-- The value 1 fits everywhere. -/
def Item.one : Item → Bool
  | .bit _ => true
  | .null => true
  | .uint n _ _ => n != 0
  | .uintOffset n _ off => off ≤ 1 && (n != 0 || off == 1)
  | .uintArray n _ _ _ => n != 0
  | .typeArray d _ _ _ => d.one
  | .varTArray d _ _ size => size != 0 && d.one
  | .bitmap _ _ _ => true
  | .type d _ _ => d.one
  | .union n _ els => n != 0 && els.oneU
  | .varBitmap _ _ size => size != 0
  | .padding => true
  | .recArray n _ _ size => size != 0 && n != 0
  | .recTArray d _ _ size => size != 0 && d.one
  | .recTArray1 d _ _ size => size != 0 && d.one
  | .fixed n v => v < 2 ^ n
  | _ => false
def Items.one : Items → Bool
  | .nil => true
  | .cons i is => i.one && is.one
  | .opt _ _ _ _ is => is.one
/-- All elements of a union. -/
def Items.oneU : Items → Bool
  | .nil => false
  | .opt _ _ _ _ _ => false
  | .cons i is => i.one && (is.isEnd || is.oneU)
end

theorem one_lt {n : Nat} (h : n ≠ 0) : 1 < 2 ^ n := Nat.one_lt_two_pow h

mutual
theorem fits_one_item (σ : Data) : ∀ (i : Item) (p : Path), i.one = true → (∀ q, σ (q ++ p) = 1) → fitsItem σ i p
  | .bit f, p, _, h => by unfold fitsItem; rw [show f :: p = [f] ++ p from rfl, h]; decide
  | .null, _, _, _ => by unfold fitsItem; trivial
  | .uint n f _, p, hi, h => by
    unfold Item.one at hi
    unfold fitsItem; rw [show f :: p = [f] ++ p from rfl, h]; exact one_lt (bne_iff_ne.1 hi)
  | .uintOffset n f off, p, hi, h => by
    unfold Item.one at hi
    simp only [Bool.and_eq_true, decide_eq_true_eq, Bool.or_eq_true, bne_iff_ne, beq_iff_eq] at hi
    unfold fitsItem; rw [show f :: p = [f] ++ p from rfl, h]
    refine ⟨hi.1, ?_, by decide⟩
    rcases hi.2 with h | h
    · have := one_lt h; omega
    · have := Nat.two_pow_pos n; omega
  | .uintArray n f cnt _, p, hi, h => by
    unfold Item.one at hi
    unfold fitsItem
    intro k _
    rw [show k :: f :: p = [k, f] ++ p from rfl, h]; exact one_lt (bne_iff_ne.1 hi)
  | .typeArray d f cnt _, p, hi, h => by
    unfold Item.one at hi
    unfold fitsItem
    intro k _
    exact fits_one_items σ d _ hi (fun q => by rw [show q ++ k :: f :: p = (q ++ [k, f]) ++ p by simp]; exact h _)
  | .varTArray d f cf size, p, hi, h => by
    unfold Item.one at hi
    simp only [Bool.and_eq_true, bne_iff_ne] at hi
    unfold fitsItem
    rw [show cf :: p = [cf] ++ p from rfl, h]
    refine ⟨by omega, ?_⟩
    intro k _
    exact fits_one_items σ d _ hi.2 (fun q => by rw [show q ++ k :: f :: p = (q ++ [k, f]) ++ p by simp]; exact h _)
  | .bitmap n f _, p, _, h => by
    unfold fitsItem
    intro k _
    rw [show k :: f :: p = [k, f] ++ p from rfl, h]; decide
  | .type d f _, p, hi, h => by
    unfold Item.one at hi
    unfold fitsItem
    exact fits_one_items σ d _ hi (fun q => by rw [show q ++ f :: p = (q ++ [f]) ++ p by simp]; exact h _)
  | .union n f els, p, hi, h => by
    unfold Item.one at hi
    simp only [Bool.and_eq_true, bne_iff_ne] at hi
    unfold fitsItem
    rw [show f :: p = [f] ++ p from rfl, h]
    exact ⟨one_lt hi.1, fits_one_union σ els 1 p hi.2 h⟩
  | .varBitmap f cf size, p, hi, h => by
    unfold Item.one at hi
    have := bne_iff_ne.1 hi
    unfold fitsItem
    rw [show cf :: p = [cf] ++ p from rfl, h]
    refine ⟨by omega, ?_, ?_⟩
    · intro k _; rw [show k :: f :: p = [k, f] ++ p from rfl, h]; decide
    · intro _; rw [show 0 :: f :: p = [0, f] ++ p from rfl, h]; decide
  | .padding, _, _, _ => by unfold fitsItem; trivial
  | .recArray n f cf size, p, hi, h => by
    unfold Item.one at hi
    simp only [Bool.and_eq_true, bne_iff_ne] at hi
    unfold fitsItem
    rw [show cf :: p = [cf] ++ p from rfl, h]
    refine ⟨by omega, by decide, ?_⟩
    intro k _; rw [show k :: f :: p = [k, f] ++ p from rfl, h]; exact one_lt hi.2
  | .recTArray d f cf size, p, hi, h => by
    unfold Item.one at hi
    simp only [Bool.and_eq_true, bne_iff_ne] at hi
    unfold fitsItem
    rw [show cf :: p = [cf] ++ p from rfl, h]
    refine ⟨by omega, by decide, ?_⟩
    intro k _
    exact fits_one_items σ d _ hi.2 (fun q => by rw [show q ++ k :: f :: p = (q ++ [k, f]) ++ p by simp]; exact h _)
  | .recTArray1 d f cf size, p, hi, h => by
    unfold Item.one at hi
    simp only [Bool.and_eq_true, bne_iff_ne] at hi
    unfold fitsItem
    rw [show cf :: p = [cf] ++ p from rfl, h]
    refine ⟨by decide, by omega, by decide, ?_⟩
    intro k _
    exact fits_one_items σ d _ hi.2 (fun q => by rw [show q ++ k :: f :: p = (q ++ [k, f]) ++ p by simp]; exact h _)
  | .fixed n v, _, hi, _ => by
    unfold Item.one at hi; unfold fitsItem; exact of_decide_eq_true hi
  | .choice _ _, _, hi, _ => absurd hi (by unfold Item.one; exact Bool.false_ne_true)
  | .serialize _ _ _, _, hi, _ => absurd hi (by unfold Item.one; exact Bool.false_ne_true)
  | .leftVarBmp _ _ _, _, hi, _ => absurd hi (by unfold Item.one; exact Bool.false_ne_true)
  | .leftVarBmp1 _ _ _, _, hi, _ => absurd hi (by unfold Item.one; exact Bool.false_ne_true)
  | .varArray _ _ _, _, hi, _ => absurd hi (by unfold Item.one; exact Bool.false_ne_true)
  | .trap, _, hi, _ => absurd hi (by unfold Item.one; exact Bool.false_ne_true)
theorem fits_one_items (σ : Data) : ∀ (is : Items) (p : Path), is.one = true → (∀ q, σ (q ++ p) = 1) → fitsItems σ is p
  | .nil, _, _, _ => by unfold fitsItems; trivial
  | .cons i is, p, hi, h => by
    unfold Items.one at hi
    rw [Bool.and_eq_true] at hi
    unfold fitsItems
    exact ⟨fits_one_item σ i p hi.1 h, fits_one_items σ is p hi.2 h⟩
  | .opt f _ _ _ is, p, hi, h => by
    unfold Items.one at hi
    unfold fitsItems
    refine ⟨?_, fits_one_items σ is p hi h⟩
    rw [show f :: p = [f] ++ p from rfl, h]; decide
theorem fits_one_union (σ : Data) : ∀ (is : Items) (k : Nat) (p : Path), is.oneU = true → (∀ q, σ (q ++ p) = 1) → fitsUnion σ is k p
  | .nil, _, _, hi, _ => absurd hi (by unfold Items.oneU; exact Bool.false_ne_true)
  | .opt _ _ _ _ _, _, _, hi, _ => absurd hi (by unfold Items.oneU; exact Bool.false_ne_true)
  | .cons i is, k, p, hi, h => by
    unfold Items.oneU at hi
    rw [Bool.and_eq_true, Bool.or_eq_true] at hi
    unfold fitsUnion
    by_cases c : (decide (k = 0) || is.isEnd) = true
    · rw [if_pos c]; exact fits_one_item σ i p hi.1 h
    · rw [if_neg c]
      refine fits_one_union σ is (k - 1) p (hi.2.resolve_left fun e => c ?_) h
      rw [e, Bool.or_true]
end

/-- Values by path, 1 where nothing is given. -/
def dataOr1 (l : List (Path × Nat)) : Data := fun q => (l.lookup q).getD 1

theorem dataOr1_none (f : Nat) (q : Path) : ∀ (l : List (Path × Nat)), (l.all fun e => e.1.getLast? != some f) = true → dataOr1 l (q ++ [f]) = 1 := by
  intro l
  unfold dataOr1
  induction l with
  | nil => intro _; rfl
  | cons e l ih =>
    intro h
    rw [List.all_cons, Bool.and_eq_true] at h
    rw [List.lookup_cons]
    have : (q ++ [f] == e.1) = false := by
      rw [beq_eq_false_iff_ne]
      intro he
      rw [← he, List.getLast?_append, List.getLast?_singleton] at h
      exact absurd rfl (bne_iff_ne.1 h.1)
    rw [this]
    exact ih h.2

end Verif.Csn1
