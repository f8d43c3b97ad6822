import Verif.Model.Cache
/-!
# Histories of a cache
-/

namespace Verif.Cache

/-- A value that was stored, and when. -/
structure Stored (κ ν : Type) where
  time : Nat
  key : κ
  value : ν
  deriving DecidableEq, Repr

variable {κ ν : Type} [DecidableEq κ]

/-- A cache, what has been stored (latest first), the time and the keep times used so far. The timer
runs its callback some time after it is due, in between the cache may be used. -/
inductive Hist : Cache κ ν → List (Stored κ ν) → Nat → List Nat → Prop
  | init (sec now : Nat) : Hist (alloc κ ν sec) [] now [sec * 1000000000]
  | wait {c s now ks} (d : Nat) : Hist c s now ks → Hist c s (now + d) ks
  | add {c s now ks} (k : κ) (v : ν) : Hist c s now ks → Hist (add now c k v) (⟨now, k, v⟩ :: s) now ks
  | setKeep {c s now ks} (sec : Nat) : Hist c s now ks → Hist (setKeep now c sec) s now (sec * 1000000000 :: ks)
  | timer {c s now ks} (d : Nat) : Hist c s now ks → c.timer = some d → d ≤ now → Hist (cleanup now c) s now ks

/-- `v` is the value stored last for `k`, at time `t`. -/
def Last (s : List (Stored κ ν)) (k : κ) (t : Nat) (v : ν) : Prop :=
  ∃ l r, s = l ++ ⟨t, k, v⟩ :: r ∧ ∀ x ∈ l, x.key ≠ k

/-- The timer is not overdue. -/
def NotDue (c : Cache κ ν) (now : Nat) : Prop := ∀ d, c.timer = some d → now < d

end Verif.Cache
