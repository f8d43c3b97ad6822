import Verif.Model.BitField
/-!
# Lemmas on fields of bits
-/

namespace Verif.Bits

@[simp] theorem length_put : ∀ w v, (put w v).length = w
  | 0, _ => rfl
  | w + 1, v => by rw [put, List.length_cons, length_put w v]

theorem get_put (v : Nat) : ∀ (w : Nat) (r : List Bool), get w (put w v ++ r) = some (v % 2 ^ w, r)
  | 0, r => by simp [get, put, Nat.mod_one]
  | w + 1, r => by
    rw [put, List.cons_append, get, get_put v w r]
    simp only [Option.map_some, Option.some.injEq, Prod.mk.injEq, and_true]
    rw [Nat.mod_pow_succ, Nat.testBit_eq_decide_div_mod_eq]
    simp only [decide_eq_true_eq]
    split
    · rename_i h; rw [h]; omega
    · rename_i h
      rw [show v / 2 ^ w % 2 = 0 by omega]
      omega

theorem get_put' {v w : Nat} (h : v < 2 ^ w) (r : List Bool) : get w (put w v ++ r) = some (v, r) := by
  rw [get_put, Nat.mod_eq_of_lt h]

theorem get_short : ∀ {w : Nat} {l : List Bool}, l.length < w → get w l = none
  | 0, _, h => absurd h (Nat.not_lt_zero _)
  | w + 1, [], _ => rfl
  | w + 1, b :: l, h => by
    rw [get, get_short (Nat.lt_of_succ_lt_succ h)]
    rfl

@[simp] theorem length_putOctets (l : List Nat) : (putOctets l).length = 8 * l.length := by
  induction l with
  | nil => rfl
  | cons a l ih =>
    unfold putOctets at *
    simp only [List.flatMap_cons, List.length_append, length_put, ih, List.length_cons]
    omega

theorem getOctets_put : ∀ (l : List Nat) (_ : ∀ o ∈ l, o < 256) (r : List Bool),
    getOctets l.length (putOctets l ++ r) = some (l, r)
  | [], _, r => rfl
  | a :: l, h, r => by
    have h1 : get 8 (put 8 a ++ (putOctets l ++ r)) = some (a, putOctets l ++ r) :=
      get_put' (h a List.mem_cons_self) _
    have e : putOctets (a :: l) ++ r = put 8 a ++ (putOctets l ++ r) := by
      unfold putOctets; rw [List.flatMap_cons, List.append_assoc]
    rw [e, List.length_cons, getOctets, h1]
    dsimp only
    rw [getOctets_put l (fun o ho => h o (List.mem_cons_of_mem _ ho)) r]
    rfl

end Verif.Bits
