import Verif.Model.BlkCtr
/-!
# What the counters of data blocks should say

The blocks of a history, told without counters: which TBFs exist, in which direction, and in which scheme each block is on the air.
-/

namespace Verif.BlkCtr.Spec

open Verif.Cs

/-- The blocks of a history: number of the TBF, direction, scheme. `live`: directions of the TBFs that exist. `scheme` tells the scheme of a
downlink block from the scheme it was created in, the scheme chosen for it and whether it is alone in its radio block. -/
def blocks (scheme : CS → CS → Bool → CS) (live : List (Option Dir)) : List Op → List (Nat × Dir × CS)
  | [] => []
  | .newDl _ :: l => blocks scheme (live ++ [some .dl]) l
  | .newUl :: l => blocks scheme (live ++ [some .ul]) l
  | .free k :: l => blocks scheme (live.set k none) l
  | .tx k ini cs single :: l =>
    if live[k]? = some (some .dl) then (k, .dl, scheme ini cs single) :: blocks scheme live l else blocks scheme live l
  | .rx k cs releasing :: l =>
    if live[k]? = some (some .ul) ∧ releasing = false then (k, .ul, cs) :: blocks scheme live l else blocks scheme live l

/-- The blocks as they are on the air. -/
def air (ops : List Op) : List (Nat × Dir × CS) := blocks Sched.radioCs [] ops

/-- The blocks in the schemes chosen by link adaptation. -/
def chosen (ops : List Op) : List (Nat × Dir × CS) := blocks (fun _ cs _ => cs) [] ops

/-- How many of the blocks have this direction and scheme. -/
def number (l : List (Nat × Dir × CS)) (d : Dir) (c : CS) : Nat := l.countP fun x => x.2.1 = d ∧ x.2.2 = c

/-- How many of the blocks are blocks of TBF `k` and have this scheme. -/
def numberOf (l : List (Nat × Dir × CS)) (k : Nat) (c : CS) : Nat := l.countP fun x => x.1 = k ∧ x.2.2 = c

/-- The counter of the BTS with the name of this direction and scheme. -/
def btsValue (w : World) (d : Dir) (c : CS) : Nat := w.bts (btsDesc.findIdx (· == some (d, c)))

/-- The counter of a TBF with the name of this scheme; `none`: the TBF has no such counter. -/
def tbfValue (t : Tbf) (c : CS) : Option Nat :=
  if c ∈ gprsDesc then t.gprs.map fun g => g (gprsDesc.findIdx (· == c))
  else if c ∈ egprsDesc then t.egprs.map fun g => g (egprsDesc.findIdx (· == c))
  else none

/-- Every downlink block has a scheme of the kind of its TBF. `live`: `some (some e)` for a downlink TBF, `e` if EGPRS. -/
def Kinds (live : List (Option (Option Bool))) : List Op → Prop
  | [] => True
  | .newDl e :: l => Kinds (live ++ [some (some e)]) l
  | .newUl :: l => Kinds (live ++ [some none]) l
  | .free k :: l => Kinds (live.set k none) l
  | .tx k _ cs _ :: l => (∀ e, live[k]? = some (some (some e)) → if e then cs.isEdge = true else cs ∈ gprsDesc) ∧ Kinds live l
  | .rx .. :: l => Kinds live l

end Verif.BlkCtr.Spec
