import Verif.Spec.PcuIf
/-!
# A BTS configured as it announced itself
-/

namespace Verif.BtsMsg

open Verif.PcuIf

/-- The greatest number with a property, 0 if there is none. -/
def Greatest (P : Nat → Prop) (m : Nat) : Prop := (P m ∧ ∀ k, P k → k ≤ m) ∨ (m = 0 ∧ ∀ k, ¬ P k)

/-- CS-`k`, MCS-`k` may be used; CS-1 always. -/
def Info.allowsCs (a : Info) (k : Nat) : Prop := k = 1 ∨ (1 ≤ k ∧ a.cs.testBit (k - 1) = true)
def Info.allowsMcs (a : Info) (k : Nat) : Prop := 1 ≤ k ∧ a.mcs.testBit (k - 1) = true

/-- The PCU uses the BTS as announced: cell, TRXs, the channels announced and no others, their training sequences and hopping, coding
schemes up to the limits configured at the PCU, the greatest permitted one and the first one used in each direction, counters (if timers are
given), idle blocks for all known models but osmo-bts-trx. -/
structure Follows (vty : Ms.Cfg) (a : Info) (b : Bts) : Prop where
  active : b.active = true
  cgi : b.cgi = a.cgi
  bsic : b.bsic = a.bsic
  arfcn : ∀ (i : Nat) t, a.trx[i]? = some t → b.arfcn i = t.arfcn
  used : ∀ trx ts, trx < 8 → ts < 8 → (b.pdch trx ts).enabled = (a.chan trx ts).isSome
  tsc : ∀ trx ts c, trx < 8 → ts < 8 → a.chan trx ts = some c → (b.pdch trx ts).tsc = c.tsc
  hop : ∀ trx ts c h, trx < 8 → ts < 8 → a.chan trx ts = some c → c.hop = some h → hopOf (b.pdch trx ts).fh = some h
  cs : ∀ k, 1 ≤ k → (b.cell.csMask.testBit (k - 1) = true ↔ a.allowsCs k)
  mcs : ∀ k, 1 ≤ k → (b.cell.mcsMask.testBit (k - 1) = true ↔ a.allowsMcs k)
  maxCsDl : Greatest (fun k => k ≤ vty.vtyMaxCsDl ∧ a.allowsCs k) b.cell.maxCsDl
  maxCsUl : Greatest (fun k => k ≤ vty.vtyMaxCsUl ∧ a.allowsCs k) b.cell.maxCsUl
  maxMcsDl : Greatest (fun k => k ≤ vty.vtyMaxMcsDl ∧ a.allowsMcs k) b.cell.maxMcsDl
  maxMcsUl : Greatest (fun k => k ≤ vty.vtyMaxMcsUl ∧ a.allowsMcs k) b.cell.maxMcsUl
  initCsDl : b.cell.initCsDl = if vty.forceInitCs then vty.vtyInitCsDl else max 1 (min a.initCs b.cell.maxCsDl)
  initCsUl : b.cell.initCsUl = if vty.forceInitCs then vty.vtyInitCsUl else max 1 (min a.initCs b.cell.maxCsUl)
  initMcsDl : b.cell.initMcsDl = if vty.forceInitMcs then vty.vtyInitMcsDl else min a.initMcs b.cell.maxMcsDl
  initMcsUl : b.cell.initMcsUl = if vty.forceInitMcs then vty.vtyInitMcsUl else min a.initMcs b.cell.maxMcsUl
  counters : a.t3142 ≠ 0 → b.n3101 = a.n3101 ∧ b.n3103 = a.n3103 ∧ b.n3105 = a.n3105
  idle : b.genIdle = true ↔ a.model ∈ [0, 1, 2, 3, 4, 6]

/-- Timers as announced, T3193 in units of 10 ms. -/
def Info.timers (a : Info) : Timers := ⟨a.t3142, a.t3169, a.t3191, a.t3193 * 10, a.t3195⟩

/-- The channels last requested: what the BTS knows of the channels in use. -/
def Requested (nr trx ts : Nat) (o : List Out) : Bool :=
  o.foldl (fun st x => match x with | .actReq n t s on => if n = nr ∧ t = trx ∧ s = ts then on else st | _ => st) false

/-- System information that is kept. -/
inductive SiKind where
  | si1 | si2 | si3 | si13
  deriving DecidableEq, Repr

/-- Message types of TS 44.018, table 10.4.1. -/
def SiKind.type : SiKind → Nat
  | .si1 => 0x19 | .si2 => 0x1a | .si3 => 0x1b | .si13 => 0x00

/-- Numbers of the system information types in the interface. -/
def SiKind.code : SiKind → Nat
  | .si1 => 1 | .si2 => 2 | .si3 => 3 | .si13 => 11

/-- What the PCU has of it. -/
def siOf (b : Bts) : SiKind → Option (List Nat)
  | .si1 => b.si1 | .si2 => b.si2 | .si3 => b.si3 | .si13 => b.si13

/-- A message with system information of this type, or the message that it is no longer sent. -/
def AboutSi (nr : Nat) (k : SiKind) (m : List Nat) : Prop :=
  m[0]? = some 0x02 ∧ m[1]? = some nr ∧ m[4]? = some 4 ∧
    ((m[5]? = some 23 ∧ m[8]? = some k.type) ∨ (m[5]? = some 1 ∧ m[6]? = some k.code) ∨ (m[5]? = some 0 ∧ k = .si13))

/-- An INFO indication of the BTS. -/
def AboutInfo (nr : Nat) (m : List Nat) : Prop := m[0]? = some 0x32 ∧ m[1]? = some nr

end Verif.BtsMsg
