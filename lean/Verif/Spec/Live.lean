import Verif.Model.Live
/-!
# TBFs of mobiles that are not heard any more: specification

A TBF takes a *turn* whenever something it waits for has come about without the mobile having been
heard. `ulTurnsLeft` and `dlTurnsLeft` say how many turns the standard leaves a TBF.
-/

namespace Verif.LiveSpec
open Verif.Tbf Verif.Live

/-- How many failures are left until an 8-bit counter that stands at `n` meets its limit. -/
def left (lim n : Nat) : Nat := (lim + 256 - (n + 1) % 256) % 256 + 1

/-- Uplink: the assignment is confirmed or timed out (1); `N3101` unused blocks; or, when all data
has come in, `N3103` times sending the final acknowledgement (unless it is sent already) and waiting
for the answer; in the end the timer of the release (1). -/
def ulTurnsLeft (c : Cfg) (s : Ul) : Nat :=
  match s.st with
  | .new => left c.ul.n3101 s.n3101 + 3
  | .assign => left c.ul.n3101 s.n3101 + 2
  | .flow => left c.ul.n3101 s.n3101 + 1
  | .finished => 2 * left c.ul.n3103 s.n3103 + (if s.ulAck = .sched then 1 else 0)
  | _ => 1

/-- Downlink: `N3105` unanswered polls. Before each of them the TBF may have to be assigned anew on
the paging channel: the BTS confirms that, and the time the mobile needs passes (3 turns for each
poll); or it is assigned on the PACCH (2 turns); or it is in use already. In the end the timers of
the release. -/
def dlTurnsLeft (c : Cfg) (s : Dl) : Nat :=
  match s.st with
  | .waitRelease => 2
  | .waitReuse => 1
  | .releasing => 1
  | .new => 3 * left c.n3105 s.n3105 + 3
  | .assign =>
    if s.tmr = none then
      match s.dlAss with
      | .idle => 3 * left c.n3105 s.n3105 + 2
      | .send => 2 * left c.n3105 s.n3105 + 1
      | .wait => 2 * left c.n3105 s.n3105
    else 3 * left c.n3105 s.n3105 + 1
  | .flow => if s.ccch then 3 * left c.n3105 s.n3105 else left c.n3105 s.n3105 + 1
  | .finished => left c.n3105 s.n3105 + 1

/-- An uplink TBF takes a turn: its timer runs out; a block granted to it passes unused while it may
send; the final acknowledgement is sent; the answer to it does not come. -/
def ulTurn (p : Pd) (b : Nat) (op : Op) : Bool :=
  match p.ul b with
  | none => false
  | some s =>
    match op with
    | .ul b' .timer => b' == b && s.tmr.isSome
    | .sendAck b' fn _ =>
      b' == b && s.st == .finished && s.ulAck == .sched && (p.node fn).isNone
    | .expire fn =>
      match p.node fn with
      | none => false
      | some n =>
        n.own == .ul b &&
          ((n.kind == none && s.st == .flow) ||
            (n.kind == some .ulAck && s.st == .finished && s.ulAck == .wait))
    | _ => false

/-- A downlink TBF takes a turn: its timer runs out; the BTS confirms that the immediate assignment
was sent; the repeated assignment is sent on the PACCH; a poll is not answered. -/
def dlTurn (p : Pd) (b : Nat) (op : Op) : Bool :=
  match p.dl b with
  | none => false
  | some s =>
    match op with
    | .dl b' .timer => b' == b && s.tmr.isSome
    | .dl b' (.ev .pcuifCnf) => b' == b && s.st == .assign && s.ccch && s.tmr == none
    | .dlSendDl b' fn => b' == b && s.st == .assign && s.dlAss == .send && s.tmr == none &&
        (p.node fn).isNone
    | .expire fn =>
      match p.node fn with
      | none => false
      | some n =>
        n.own == .dl b && (s.st == .assign || s.st == .flow || s.st == .finished) &&
          (n.kind == some .dlAck || (n.kind == some .ulAss && s.ulAss.st == .wait) ||
            (n.kind == some .dlAss && s.dlAss == .wait))
    | _ => false

/-- The number of turns a TBF takes in a history. -/
def turns (c : Cfg) (turn : Pd → Op → Bool) (p : Pd) : List (Op × Env) → Nat
  | [] => 0
  | (op, env) :: r =>
    (if turn p op then 1 else 0) +
      match step c p op env with
      | none => 0
      | some q => turns c turn q r

/-- Nothing is heard of the mobile of the uplink TBF `b`: no uplink data arrives for it. (And the
number `b` stands for the same TBF throughout.) -/
def UlSilent (b : Nat) (op : Op) : Prop :=
  (∀ ccch, op ≠ .newUl b ccch) ∧ ∀ fn f cm cv r, op ≠ .recv fn (.data b f cm cv r)

/-- Nothing is heard of the mobile of the downlink TBF `b`: no acknowledgement of downlink data, and
no Control Acknowledgement in a block promised to it. -/
def DlSilent (p : Pd) (b : Nat) (op : Op) : Prop :=
  (∀ ccch upg, op ≠ .newDl b ccch upg) ∧ (∀ fn f, op ≠ .recv fn (.dlAck b f)) ∧
  ∀ fn x y n, op = .recv fn (.ctrlAck x y) → p.node fn = some n → n.own ≠ .dl b

/-- `P` holds for every step of a history, given the state it starts from. -/
def Always (c : Cfg) (P : Pd → Op → Prop) : Pd → List (Op × Env) → Prop
  | _, [] => True
  | p, (op, env) :: r => P p op ∧ ∀ q, step c p op env = some q → Always c P q r

/-- A measurement report or a cell change notification arrives in a block in which the answer to a
poll was expected. -/
def Stray (p : Pd) (op : Op) : Prop :=
  ∃ fn n, p.node fn = some n ∧ n.kind ≠ none ∧
    (op = .recv fn .report ∨ op = .recv fn (.notification true))

/-- An uplink TBF is going on: its timer runs; or it may send, and is granted blocks; or an
acknowledgement is due; or the answer to the acknowledgement can still come or fail to come. -/
def UlMoves (p : Pd) (b : Nat) (s : Ul) : Prop :=
  s.tmr ≠ none ∨ s.st = .flow ∨ s.ulAck = .sched ∨
    ∃ n ∈ p.nodes, n.own = .ul b ∧ n.kind = some .ulAck ∧ s.ulAck = .wait

/-- A downlink TBF is going on: its timer runs; or it sends data; or the BTS is to confirm the
immediate assignment; or an assignment is due; or the answer to the assignment can still come or
fail to come. -/
def DlMoves (p : Pd) (b : Nat) (s : Dl) : Prop :=
  s.tmr ≠ none ∨ s.st = .flow ∨ s.st = .finished ∨ (s.st = .assign ∧ s.ccch = true) ∨
    s.dlAss = .send ∨ ∃ n ∈ p.nodes, n.own = .dl b ∧ n.kind = some .dlAss ∧ s.dlAss = .wait

end Verif.LiveSpec
