import Verif.Model.Polls
/-!
# When a promised uplink block is in order
-/

namespace Verif.Polls

open Verif.Alloc Verif.Ulc

/-- TBF `b` has slot `s` of TRX `t`. -/
def HasSlot (c : Cell) (b t s : Nat) : Prop :=
  ∃ x, c.w.tbf b = some x ∧ x.trx = some t ∧ x.slots s = true

/-- Block `n` is promised to a TBF that exists, has the direction the reason of the promise asks for,
and has the PDCH as a slot or as its control slot. Single block allocations belong to no TBF. -/
def InOrder (c : Cell) (t s : Nat) (n : Node) : Prop :=
  match n.owner with
  | .sba _ => True
  | .usf b => (∃ x, c.w.tbf b = some x ∧ x.dir = .ul) ∧ HasSlot c b t s
  | .poll b r =>
    (∃ x, c.w.tbf b = some x ∧ (r = 2 → x.dir = .ul) ∧ (r = 3 → x.dir = .dl)) ∧
      (HasSlot c b t s ∨ c.ctrl b = some (t, s))

/-- TBF `b` has no block promised in the list. -/
def noneOf (b : Nat) (l : List Node) : Bool := l.all fun n => match n.owner with
  | .sba _ => true
  | .usf b' => b' != b
  | .poll b' _ => b' != b

/-- Does TBF `b` have slot `s` of TRX `t`? -/
def hasSlot (c : Cell) (b t s : Nat) : Bool := match c.w.tbf b with
  | none => false
  | some x => x.trx == some t && x.slots s

/-- The control slot of TBF `b` may be moved: the mobile's first common slot is one of the slots of the
TBF, and nothing is left promised on the present control slot, unless that is one of its slots, too. -/
def mayMove (c : Cell) (b : Nat) : Bool :=
  (match c.w.tbf b with
    | none => true
    | some x => match c.fct x.ms with
      | none => true
      | some (t, s) => hasSlot c b t s) &&
  (match c.ctrl b with
    | none => true
    | some (t, s) => hasSlot c b t s || match c.ulc t s with
      | none => true
      | some l => noneOf b l)

/-- Is the operation harmless in this state? Only two may not be: moving the control slot of a TBF, and
a request by a mobile on another TRX than the one of its slots. -/
def careful (c : Cell) : Op → Bool
  | .assigned b => mayMove c b
  | .request m t _ _ => match (c.w.ms m).trx with
    | none => true
    | some t' => t' == t
  | _ => true

/-- All operations are harmless when they happen. -/
def Careful (cfg : Cfg) : Cell → List Op → Prop
  | _, [] => True
  | c, op :: ops => careful c op = true ∧ ∀ c', step cfg c op = some c' → Careful cfg c' ops

end Verif.Polls
