import Verif.Model.Nacc
/-!
# What a mobile sees of a network assisted cell change

3GPP TS 44.060 clauses 8.8, 11.2.9e and 11.2.2a.
-/

namespace Verif.Nacc

/-- Cell named by a notification: ARFCN and BSIC; `none` for other networks. -/
def Notif.cell : Notif → Option (Nat × Nat)
  | .gsm a b => some (a, b)
  | _ => none

/-- A mobile: cell it last asked for (outer `none`: no procedure), containers received since it asked for this cell. -/
structure Mob where
  asked : Option (Option (Nat × Nat)) := none
  got : List Container := []
  deriving DecidableEq, Repr

/-- The mobile asks for a cell. Asking again for the same cell is a repetition. -/
def Mob.ask (m : Mob) (c : Option (Nat × Nat)) : Mob := if m.asked = some c then m else ⟨some c, []⟩

/-- The mobile receives a message. The procedure is over when it has acknowledged the Continue message. -/
def Mob.receive (m : Mob) : Out → Mob
  | .data c => { m with got := m.got ++ [c] }
  | .done => {}
  | _ => m

/-- What happens to the mobile with an event. -/
def Mob.see (m : Mob) (e : Ev) (o : List Out) : Mob :=
  o.foldl Mob.receive (match e with | .notify _ n => m.ask n.cell | _ => m)

/-- Contents of a container: type, octets, and whether more follow. `CD_LENGTH` 31: the container is full. -/
def Container.payload (c : Container) : Option (Nat × List Nat × Bool) :=
  match c.octets with
  | [] => none
  | h :: l =>
    if h % 32 = 31 then some (h / 32, l, true)
    else if h % 32 ≤ l.length then some (h / 32, l.take (h % 32), false) else none

/-- The containers from index `i` on: all of one type, with consecutive indices, all full but the last one. The first one
names the cell. -/
def assembleFrom (ty : Nat) (cell : Nat × Nat) : Nat → List Container → Option (List Nat)
  | _, [] => none
  | i, c :: cs =>
    if c.idx ≠ i ∨ c.id ≠ (if i = 0 then some cell else none) then none
    else match c.payload with
      | none => none
      | some (t, l, full) =>
        if t ≠ ty then none
        else if full then (assembleFrom ty cell (i + 1) cs).map (l ++ ·)
        else if cs = [] then some l else none

/-- The system information in a complete sequence of containers for the cell. -/
def assemble (ty : Nat) (cell : Nat × Nat) (cs : List Container) : Option (List Nat) := assembleFrom ty cell 0 cs

/-- The PCU as it was when the event was handled. -/
def Ev.world : Ev → Option World
  | .notify w _ | .addr w _ _ => some w
  | _ => none

/-- The network gave this address for the cell. -/
def Address (es : List Ev) (k : Key) (g : Cgi) : Prop :=
  ∃ e ∈ es, (∃ w, e.world = some w ∧ w.neigh k = some g) ∨ ∃ w, e = .addr w k (some g)

/-- The network gave this system information for the address. -/
def Info (es : List Ev) (g : Cgi) (v : Si) : Prop :=
  ∃ e ∈ es, (∃ w, e.world = some w ∧ w.sis g = some v) ∨ e = .si g v

/-- The network did not give the address or system information: refused, could not be asked or did not answer in time. -/
def Failed (es : List Ev) : Prop :=
  ∃ e ∈ es, (∃ w, e.world = some w ∧ (w.reqOk = false ∨ w.rimOk = false)) ∨ (∃ w k, e = .addr w k none) ∨ e = .timer

/-- Histories of a mobile in a cell, latest event first. -/
inductive Hist (lac ci : Nat) : List Ev → Option Ctx → Mob → Prop
  | init : Hist lac ci [] none {}
  | step {es x m} (e : Ev) : Hist lac ci es x m → Hist lac ci (e :: es) (step lac ci x e).1 (m.see e (step lac ci x e).2)

/-- `cur` are the events since the mobile asked for the cell `c`, latest first: before them it did not ask for it. -/
def Since (lac ci : Nat) (es : List Ev) (c : Option (Nat × Nat)) (cur : List Ev) : Prop :=
  ∃ es' x m, es = cur ++ es' ∧ Hist lac ci es' x m ∧ m.asked ≠ some c

/-- State and mobile after the events, first one first. -/
def play (lac ci : Nat) (x : Option Ctx) (m : Mob) : List Ev → Option Ctx × Mob
  | [] => (x, m)
  | e :: es => play lac ci (step lac ci x e).1 (m.see e (step lac ci x e).2) es

/-- Messages sent if the mobile is given `n` blocks in a row. -/
def sends (lac ci : Nat) (p : Nat × Nat) (x : Option Ctx) : Nat → List Out
  | 0 => []
  | n + 1 => (step lac ci x (.rts (some p))).2 ++ sends lac ci p (step lac ci x (.rts (some p))).1 n

/-- Only GSM cells are asked for. -/
def OnlyGsm (es : List Ev) : Prop := ∀ e ∈ es, ∀ w n, e = .notify w n → n.cell ≠ none

/-- No cell whose address is given is another cell of this PCU. -/
def NoLocal (es : List Ev) : Prop :=
  ∀ e ∈ es, ∀ w, e.world = some w → ∀ k g, Address es k g → ∀ c ∈ w.cells, c.1 ≠ g

end Verif.Nacc
