import Verif.Model.RlcWindowUl
/-! Helper lemmas about the uplink window model. -/
namespace Verif.RlcUl

theorem mark_apply (vn : Nat → St) (b : Nat) (s : St) (i : Nat) :
    mark vn b s i = if i = b % ring then s else vn i := rfl

theorem raiseLoop_spec (k : Nat) : ∀ (w : Win) (ra : Nat), 0 < w.sns → w.vr = ra % w.sns →
    w.ws ≤ w.sns →
    (raiseLoop k w).sns = w.sns ∧ (raiseLoop k w).ws = w.ws ∧ (raiseLoop k w).vq = w.vq ∧
    (raiseLoop k w).vr = (ra + k) % w.sns ∧
    ∀ i, ((raiseLoop k w).vn i = .received ↔
      (w.vn i = .received ∧
       (∀ j, j < k → i ≠ (ra + j + (w.sns - w.ws)) % w.sns % ring) ∧
       (∀ j, j + 1 < k → i ≠ (ra + j) % w.sns % ring))) := by
  induction k with
  | zero => intro w ra _ h _; simp [raiseLoop, h]
  | succ k ih =>
    intro w ra hs h hws
    have key := ih
      { w with vn := (if k ≠ 0 then mark (mark w.vn (w.modSns (w.vr + w.sns - w.ws)) .invalid) w.vr .missing
                      else mark w.vn (w.modSns (w.vr + w.sns - w.ws)) .invalid),
               vr := w.modSns (w.vr + 1) } (ra + 1) hs (by simp [Win.modSns, h]) hws
    have e : raiseLoop (k+1) w = raiseLoop k
      { w with vn := (if k ≠ 0 then mark (mark w.vn (w.modSns (w.vr + w.sns - w.ws)) .invalid) w.vr .missing
                      else mark w.vn (w.modSns (w.vr + w.sns - w.ws)) .invalid),
               vr := w.modSns (w.vr + 1) } := rfl
    rw [e]
    obtain ⟨h1, h2, h3, h4, h5⟩ := key
    refine ⟨h1, h2, h3, ?_, ?_⟩
    · rw [h4]; congr 1; omega
    · intro i
      rw [h5]
      have hinv : w.modSns (w.vr + w.sns - w.ws) = (ra + 0 + (w.sns - w.ws)) % w.sns := by
        simp only [Win.modSns, h]
        rw [Nat.add_sub_assoc hws, Nat.mod_add_mod]; simp
      simp only [hinv]
      constructor
      · rintro ⟨a, b, c⟩
        by_cases hk : k = 0
        · subst hk
          simp only [mark_apply, ne_eq, not_true, if_false] at a
          split at a
          · simp at a
          · rename_i hne
            refine ⟨a, ?_, ?_⟩
            · intro j hj; have : j = 0 := by omega
              subst this; exact hne
            · intro j hj; omega
        · simp only [mark_apply, ne_eq, hk, not_false_eq_true, if_true] at a
          split at a
          · simp at a
          · split at a
            · simp at a
            · rename_i hne2 hne1
              refine ⟨a, ?_, ?_⟩
              · intro j hj
                cases j with
                | zero => exact hne1
                | succ j => have := b j (by omega)
                            rwa [show ra + (j+1) = ra + 1 + j by omega]
              · intro j hj
                cases j with
                | zero => simpa [h] using hne2
                | succ j => have := c j (by omega)
                            rwa [show ra + (j+1) = ra + 1 + j by omega]
      · rintro ⟨a, b, c⟩
        refine ⟨?_, ?_, ?_⟩
        · by_cases hk : k = 0
          · subst hk
            simp only [mark_apply, ne_eq, not_true, if_false]
            rw [if_neg (b 0 (by omega))]; exact a
          · simp only [mark_apply, ne_eq, hk, not_false_eq_true, if_true]
            have := c 0 (by omega)
            rw [if_neg (by simpa [h] using this), if_neg (b 0 (by omega))]; exact a
        · intro j hj
          have := b (j+1) (by omega)
          rwa [show ra + 1 + j = ra + (j+1) by omega]
        · intro j hj
          have := c (j+1) (by omega)
          rwa [show ra + 1 + j = ra + (j+1) by omega]

end Verif.RlcUl
