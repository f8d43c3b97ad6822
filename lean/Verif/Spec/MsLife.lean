import Verif.Model.MsLife
import Verif.Spec.MsStore
/-!
# Histories of mobiles in time

Used by C80. Time passes, the release timer is configured, and everything that can happen to the
mobiles happens in any order.
-/

namespace Verif.Store

/-- The mobiles of a BTS, the time and the configured timer X2030. -/
structure Sys where
  st : St
  k : Clock

inductive Act
  /-- an operation on the mobiles at once -/
  | op (o : Op)
  /-- a Packet Resource Request of mobile `i`: its TBFs are given up (`ul`, `dl`), a new one may start -/
  | serve (i : Nat) (ul dl : Bool) (att : Option Bool)
  /-- the final Uplink Ack/Nack of mobile `i` is confirmed; a downlink TBF may start -/
  | final (i : Nat) (att : Option Bool)
  /-- an access burst that is rejected -/
  | reject
  /-- `d` seconds pass -/
  | time (d : Nat)
  /-- timer X2030 is set -/
  | conf (v : Nat)

/-- Effect. The release timers are all served when time has passed. -/
def act (codel : Nat) (s : Sys) : Act → Option Sys
  | .op o => (step s.k codel s.st o).map fun t => { s with st := t }
  | .serve i ul dl att => (serve s.k s.st i ul dl att).map fun t => { s with st := t }
  | .final i att => (final s.k s.st i att).map fun t => { s with st := t }
  | .reject => some { s with st := accessFails s.k codel s.st }
  | .time d => some { st := expire (s.k.now + d) s.st, k := { s.k with now := s.k.now + d } }
  | .conf v => some { s with k := { s.k with x2030 := v } }

/-- What is freed exists, what is requested comes from a known mobile; timers run out only as time
passes. -/
def Real (s : Sys) : Act → Prop
  | .op (.freeUl i) => ∃ m, get? s.st i = some m ∧ m.ul.isSome = true
  | .op (.freeDl i) => ∃ m, get? s.st i = some m ∧ m.dl.isSome = true
  | .op (.freeOld i n) => ∃ m, get? s.st i = some m ∧ n < m.old.length
  | .op (.release _) => False
  | .op (.announce i _) => ∃ m, get? s.st i = some m
  | .serve i _ _ _ => ∃ m, get? s.st i = some m
  | .final i _ => ∃ m, get? s.st i = some m ∧ m.ul.isSome = true
  | _ => True

/-- From `s` to `s'` by the given acts. -/
inductive Runs (codel : Nat) : Sys → List Act → Sys → Prop
  | nil (s : Sys) : Runs codel s [] s
  | cons {s s1 s' : Sys} {a : Act} {as : List Act} : Real s a → act codel s a = some s1 → Runs codel s1 as s' → Runs codel s (a :: as) s'

/-- The start: no mobile. -/
def start (now x2030 : Nat) : Sys := ⟨⟨[], 0⟩, ⟨now, x2030⟩⟩

/-- States of the BTS. -/
def Reach (codel : Nat) (s : Sys) : Prop := ∃ now x2030 as, Runs codel (start now x2030) as s

/-- The mobile has a TBF. -/
def Mob.busy (m : Mob) : Prop := m.ul.isSome = true ∨ m.dl.isSome = true ∨ m.old ≠ []

/-- The mobile has a TLLI. -/
def Mob.named (m : Mob) : Prop := m.tlli ≠ noTlli ∨ m.newUl ≠ noTlli ∨ m.newDl ≠ noTlli

/-- Somebody else claims the identity of mobile `i`: a block with one of its TLLIs on a TBF of another
mobile, or a PDU with its IMSI and the TLLI of another mobile; or a PDU has the reserved TLLI. -/
def Claimed (s : St) (i : Nat) (m : Mob) : Act → Prop
  | .op (.announce j t) => j ≠ i ∧ m.check t = true
  | .op (.pdu p) => p.tlli = noTlli ∨ ∃ im j mj, p.imsi = some im ∧ im ≠ [] ∧ m.imsi = im ∧ j ≠ i ∧
      get? s j = some mj ∧ (mj.check p.tlli = true ∨ mj.check p.old = true)
  | _ => False

/-- A TBF of mobile `i` is given up. -/
def Frees (i : Nat) : Act → Prop
  | .op (.freeUl j) => j = i
  | .op (.freeDl j) => j = i
  | .op (.freeOld j _) => j = i
  | .serve j ul dl _ => j = i ∧ (ul = true ∨ dl = true)
  | .final j _ => j = i
  | _ => False

/-- Mobile `i` requests resources. -/
def Asks (s : St) (i : Nat) : Act → Prop
  | .op (.resource t _) => byTlli s t = some i
  | .serve j _ _ _ => j = i
  | _ => False

/-- In the course of the acts nobody claims the identity of mobile `i`. -/
def Undisputed (codel i : Nat) (s : Sys) (as : List Act) : Prop :=
  ∀ pre a post s1 m, as = pre ++ a :: post → Runs codel s pre s1 → get? s1.st i = some m → ¬ Claimed s1.st i m a

/-- In the course of the acts mobile `i` has no TBF and requests none. -/
def Unused (codel i : Nat) (s : Sys) (as : List Act) : Prop :=
  ∀ pre a post s1 m, as = pre ++ a :: post → Runs codel s pre s1 → get? s1.st i = some m → ¬ m.busy ∧ ¬ Asks s1.st i a

end Verif.Store
