import Verif.Model.World
import Verif.Model.Counters
import Verif.Props.C18
/-!
# What the counters of a cell count
-/

namespace Verif.Alloc

/-- TBF `b` exists and has direction `d`. -/
def isTbf (w : World) (d : Dir) (b : Nat) : Bool := match w.tbf b with
  | some x => x.dir == d
  | none => false

/-- How many TBFs of direction `d` exist. TBFs are numbered from 0; `tbfN` is the next number. -/
def existing (w : World) (d : Dir) : Nat := ((List.range w.tbfN).filter (isTbf w d)).length

end Verif.Alloc

namespace Verif.Ulc

open Verif.Fn

/-- Is a single block reserved in frame `fn`? -/
def sbaAt (l : List Node) (fn : Nat) : Prop := ∃ n ∈ l, n.fn = fn ∧ ∃ id, n.owner = .sba id

/-- How many single blocks are reserved. -/
def sbaCount (l : List Node) : Nat := (l.filter fun n => match n.owner with
  | .sba _ => true
  | _ => false).length

/-- Nothing is lost: no mobile sends a Packet Cell Change Notification in a single block, and the PDCH is
disabled only when no single block is reserved. -/
def Calm (s : Sb) : SbOp → Prop
  | .notify fn => ¬ sbaAt s.l fn
  | .disable => ∀ fn, ¬ sbaAt s.l fn
  | _ => True

/-- The frame numbers make sense: everything happens within `W` frames of the current frame `b` (see C18). -/
def Near (b : Nat) (s : Sb) : SbOp → Prop
  | .promise fn o => fn < H ∧ fnSub fn b < W ∧ ∀ id, o ≠ .sba id
  | .sba lastRts id => BlockStart lastRts ∧ fnSub (nextFn lastRts 52) b < W ∧ fnSub (sbaAlloc s.l lastRts id).1 b < W
  | .message fn _ => fn < H ∧ fnSub fn b < H / 2
  | .notify fn => fn < H ∧ fnSub fn b < H / 2
  | .free _ => True
  | .expire _ fn => fn < H ∧ fnSub fn b < H / 2
  | .disable => True

/-- The current frame after the operation. -/
def nowAfter (b : Nat) : SbOp → Nat
  | .expire _ fn => nextFn fn 1
  | _ => b

/-- The states of a PDCH, starting in frame `b0` with no block reserved; `ok` restricts the operations. -/
inductive SbHist (ok : Sb → SbOp → Prop) : Nat → Sb → Prop
  | start (b : Nat) : b < H → SbHist ok b {}
  | step {b s} (op : SbOp) : SbHist ok b s → Near b s op → ok s op → SbHist ok (nowAfter b op) (sbStep s op)

end Verif.Ulc
