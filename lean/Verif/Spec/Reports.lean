/-!
# What a report that is made once a second should be about
-/

namespace Verif.Reports

/-- Measurements with their times (`t`), from time `mark` on, are divided into those of the reports and
the rest: a report is made with the first measurement that comes one second or more after the last report
(or after the beginning). Each part comes with the time from which on it was taken. -/
inductive Parts {α : Type} (t : α → Nat) : Nat → List α → List (Nat × List α) → List α → Prop
  | rest {mark : Nat} {l : List α} : (∀ x ∈ l, t x < mark + 1000000000) → Parts t mark l [] l
  | report {mark : Nat} {pre l r : List α} {x : α} {gs : List (Nat × List α)} :
      (∀ y ∈ pre, t y < mark + 1000000000) → mark + 1000000000 ≤ t x → Parts t (t x) l gs r →
      Parts t mark (pre ++ x :: l) ((mark, pre ++ [x]) :: gs) r

/-- `v` is the mean of the values, rounded towards zero. -/
def IsMean (v : Int) (l : List Int) : Prop :=
  (v * l.length).natAbs ≤ l.sum.natAbs ∧ l.sum.natAbs < (v * l.length).natAbs + l.length ∧
    0 ≤ v * l.sum

/-- `v` is the share of `part` in `part + other`, in percent, rounded down. -/
def IsPercent (v part other : Nat) : Prop :=
  v * (part + other) ≤ 100 * part ∧ 100 * part < (v + 1) * (part + other)

/-- `v` is the rate of `n` things in `ns` nanoseconds, per second, rounded down, or up to 3.7 % more. -/
def IsRate (v n ns : Nat) : Prop :=
  n * 1000000000 < (v + 1) * ns ∧ v * ns * 1000 ≤ n * 1000000000 * 1037

/-- The same without any tolerance above: `v` kbit/s for `n` octets. -/
def IsKbps (v n ns : Nat) : Prop := v * 1000 * ns ≤ n * 8 * 1000000000 ∧ n * 8 * 1000000000 < (v + 1) * 1000 * ns

end Verif.Reports
