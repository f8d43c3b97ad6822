import Verif.Model.Crbb
/-!
What a compressed receive bitmap means (3GPP TS 44.060 9.1.10): alternating runs, each
coded by zero or one make-up code word (run of a multiple of 64, colour unchanged) and a
terminating code word (run below 64, then the colour changes). Only the code lists
(a copy of table 9.1.10.1) are taken from the model.
-/
namespace Verif.Crbb

/-- Code word number `i` of colour `c` (0..63 terminating, 64..78 make-up). -/
def word (c : Bool) (i : Nat) : List Bool := bitsOf ((codes c)[i]!).1 ((codes c)[i]!).2

/-- `Means c code bits`: starting with colour `c`, `code` stands for `bits`. -/
inductive Means : Bool → List Bool → List Bool → Prop where
  | nil (c) : Means c [] []
  | term (c) (i : Nat) (rest l) : i < 64 → Means (!c) rest l →
      Means c (word c i ++ rest) (List.replicate i c ++ l)
  | makeUp (c) (k : Nat) (rest l) : 1 ≤ k → k ≤ 15 → Means c rest l →
      Means c (word c (63 + k) ++ rest) (List.replicate (64 * k) c ++ l)

end Verif.Crbb
