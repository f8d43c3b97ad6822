import Verif.Model.ReqAnswer
/-!
# What a mobile reads in a Packet Access Reject, and whose request it is

3GPP TS 44.060 clauses 7.1.3.2.1, 11.2.1 and 12.14. Only the 23 octets are given.
-/

namespace Verif.Req

open Verif.Bits

/-- A rejected mobile with the time in milliseconds for which it is not to ask again (`none`: not said). -/
structure Rejected where
  tlli : Nat
  wait : Option Nat
  deriving DecidableEq, Repr

/-- 11.2.1 `Reject struct`: the TLLI after a 0 (other ways to name a mobile are not read here), then
`{ 0 | 1 < WAIT_INDICATION : bit (8) > < WAIT_INDICATION_SIZE : bit (1) > }`; size 0: seconds, 1: units of 20 ms. -/
def rejectStruct (l : List Bool) : Option (Rejected × List Bool) := do
  let (k, l) ← get 1 l
  if k ≠ 0 then none else
  let (tlli, l) ← get 32 l
  let (w, l) ← get 1 l
  if w = 0 then return (⟨tlli, none⟩, l) else
  let (n, l) ← get 8 l
  let (z, l) ← get 1 l
  return (⟨tlli, some (if z = 0 then n * 1000 else n * 20)⟩, l)

/-- `{ 1 < Reject struct > } ** 0`, at most `n` of them. -/
def more : Nat → List Bool → Option (List Rejected)
  | 0, _ => none
  | n + 1, l => do
    let (k, l) ← get 1 l
    if k = 0 then return [] else
    let (r, l) ← rejectStruct l
    return r :: (← more n l)

/-- A downlink control block (payload type 01) with message type 100001: who is rejected. -/
def readReject (l : List Bool) : Option (List Rejected) := do
  let (payload, l) ← get 2 l
  if payload ≠ 1 then none else
  let (_, l) ← get 2 l
  let (poll, l) ← get 1 l
  if poll ≠ 0 then none else
  let (_, l) ← get 3 l
  let (type, l) ← get 6 l
  if type ≠ 0b100001 then none else
  let (_, l) ← get 2 l
  let (r, l) ← rejectStruct l
  return r :: (← more 6 l)

/-- The mobile with record `i` is given this block to ask in: a single block is for whoever asked for it; else the block
was granted to an uplink TBF of the mobile, or is one in which it confirms the end of such a TBF. -/
inductive May (i : Nat) : Node → Prop
  | sba : May i .sba
  | granted {t : Tb} : t.ms = i → May i (.usf t)
  | final {t : Tb} : t.ms = i → t.up = true → May i (.poll t true)

end Verif.Req
