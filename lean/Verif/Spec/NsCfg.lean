import Verif.Model.NsCfg
/-! # What the PCU was told about its connections -/

namespace Verif.NsCfg

/-- The connections that the BTS announces. -/
def told : List (Option Entry) → List Entry
  | [] => []
  | none :: xs => told xs
  | some e :: xs => e :: told xs

/-- The connections that there are. -/
def conns (s : St) : List Vc := match s.nse with
  | none => []
  | some n => n.vcs

/-- The library does all that it is asked for. -/
def Works (l : Lib) : Prop := l.create = true ∧ (∀ i a, l.bind i a = true) ∧ ∀ e, l.conn e = true

/-- All histories of announcements, from the start of the PCU, with every behaviour of the library. `a`: the last one. -/
inductive Reach : St → Option (Nat × List (Option Entry)) → Prop
  | start : Reach ⟨none, [], 0⟩ none
  | told {s t p} (l nsei a) : Reach s p → announce l false 0 s nsei a = some t → Reach t (some (nsei, a))

end Verif.NsCfg
