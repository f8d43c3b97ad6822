import Verif.Model.E1
/-! # Who uses an E1 time slot -/

namespace Verif.E1

/-- The unit is connected and its subchannel is on this E1 time slot. -/
def On (line slot : Nat) (c : Unit) : Bool := c.connected && match c.chan with
  | none => false
  | some p => p.line == line && p.slot == slot

/-- How many units are connected on this E1 time slot. -/
def users (s : St) (line slot : Nat) : Nat := s.units.countP (On line slot)

/-- Parameters that there can be: 32 lines, time slots 1 to 30, the whole slot or one of four subslots. -/
def Legal (p : Pars) : Prop := p.line < 32 ∧ 1 ≤ p.slot ∧ p.slot ≤ 30 ∧ (p.sub ≤ 3 ∨ p.sub = 255)

/-- All that is asked of the libraries succeeds. -/
def Works (l : Lib) : Prop := l = {}

/-- Histories in which parameters are legal and do not change while the unit is connected, units that are connected have parameters,
the subchannel can be added (no other unit has the same one) and time slots can be closed. -/
inductive Orderly (n : Nat) : St → Prop
  | start : Orderly n { units := List.replicate n {} }
  | ind {s} (k p) : Orderly n s → Legal p → (∀ c, s.units[k]? = some c → c.connected = false) → Orderly n (ind s k p)
  | connect {s t} (l k) : Orderly n s → (∀ c, s.units[k]? = some c → c.tab ≠ none) → l.chan = true → l.syn = true → l.update = true →
      connect l s k = some t → Orderly n t
  | disconnect {s t} (l k) : Orderly n s → Works l → disconnect l s k = some t → Orderly n t

end Verif.E1
