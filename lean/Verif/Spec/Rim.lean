import Verif.Model.Rim
import Verif.Spec.BtsCfg
import Verif.Spec.Nacc
/-!
# Histories of a PCU, what was announced and asked
-/

namespace Verif.Rim

open Verif.Nacc (Key Cgi Si Ctx Notif Mob)
open Verif.BtsMsg

/-- An event, what the SGSN got, what the mobiles got, the PCU afterwards. -/
structure Did where
  ev : In
  net : List Net
  mob : Nat → List Nacc.Out
  post : Pcu

/-- Histories of a PCU from its start, latest event first. -/
inductive Run (home : Nat → Nat) (e : PcuIf.Env) : List Did → Pcu → Prop
  | init (now a b : Nat) : Run home e [] (init now a b)
  | step {l : List Did} {s s' : Pcu} {net : List Net} {mob : Nat → List Nacc.Out} (ev : In) :
      Run home e l s → step home e s ev = .ok s' net mob → Run home e (⟨ev, net, mob, s'⟩ :: l) s'

def In.btsMsg : In → Option (List Nat)
  | .bts _ m => some m
  | _ => none

/-- Messages of BTSs in a history, first one first. -/
def msgs (l : List Did) : List (List Nat) := (l.filterMap fun d => d.ev.btsMsg).reverse

/-- The last INFO indication of BTS `nr` was `a`. -/
def Announced (ms : List (List Nat)) (nr : Nat) (a : Info) : Prop :=
  ∃ ms1 ms2 fill body, ms = ms1 ++ msg 0x32 nr fill body :: ms2 ∧ fill.length = 2 ∧ a.Is body ∧ ∀ m ∈ ms2, ¬ AboutInfo nr m

/-- System information of this kind that BTS `nr` last said it sends (`none`: that it does not, or it said nothing). -/
inductive Broadcast (ms : List (List Nat)) (nr : Nat) (k : SiKind) : Option (List Nat) → Prop
  | sent (ms1 ms2 : List (List Nat)) (fill body : List Nat) (d : Data) : ms = ms1 ++ msg 0x02 nr fill body :: ms2 → fill.length = 2 → d.Is body →
      d.sapi = 4 → d.data.length = 23 → d.data[2]? = some k.type → (∀ m ∈ ms2, ¬ AboutSi nr k m) → Broadcast ms nr k (some d.data)
  | stopped (ms1 ms2 : List (List Nat)) (fill body : List Nat) (d : Data) : ms = ms1 ++ msg 0x02 nr fill body :: ms2 → fill.length = 2 → d.Is body →
      d.sapi = 4 → d.data = [k.code] → (∀ m ∈ ms2, ¬ AboutSi nr k m) → Broadcast ms nr k none
  | never : (∀ m ∈ ms, ¬ AboutSi nr k m) → Broadcast ms nr k none

/-- Messages for a RIM container: SI 1, 3 and 13, those that are sent, without the two octets of header (L2 pseudo length, protocol
discriminator; TS 48.018 11.3.63.2.1). -/
def forRim (x1 x3 x13 : Option (List Nat)) : List (List Nat) := [x1, x3, x13].filterMap fun x => x.map (List.drop 2)

/-- A neighbour address confirmation: number of the BTS, the cell asked for, its address, or none (error code not 0). Octets of the message, two
octet fields in network order; the length at octet 6 covers the 18 octets of the confirmation and does not exceed the message. -/
def told (m : List Nat) : Option (Nat × Key × Option Cgi) :=
  let n (i : Nat) := 256 * m.getD i 0 + m.getD (i + 1) 0
  if m.getD 0 0 = 0x80 ∧ m.getD 4 0 = 0x82 ∧ 18 ≤ n 6 ∧ 8 + n 6 ≤ m.length then
    some (m.getD 1 0, ⟨n 8, n 10, n 12, m.getD 14 0⟩,
      if m.getD 15 0 = 0 then some ⟨n 16, n 18, decide (m.getD 20 0 ≠ 0), n 21, m.getD 23 0, n 24⟩ else none)
  else none

/-- The address that a BTS gave. -/
def Did.told (d : Did) : Option (Key × Cgi) := (d.ev.btsMsg.bind Rim.told).bind fun x => x.2.2.map fun g => (x.2.1, g)

/-- A report of system information from the network that was not refused: cell, messages one after the other (21 octets each, or 22 for
packet system information). -/
def Did.report (d : Did) : Option (Cgi × Si) :=
  match d.ev, d.net with
  | .rim ⟨.geran _, _, _, some (.info app _ _ _ (.si g psi si))⟩, [] =>
    if app = 1 then some (g, ⟨(si.map (List.take (if psi then 22 else 21))).flatten, psi⟩) else none
  | _, _ => none

/-- The last report about a cell. -/
def LastReport (l : List Did) (g : Cgi) (v : Si) : Prop :=
  ∃ l1 d l2, l = l1 ++ d :: l2 ∧ d.report = some (g, v) ∧ ∀ x ∈ l1, ∀ v', x.report ≠ some (g, v')

/-- INFO indications of any BTS are about this cell. -/
def OneCell (ms : List (List Nat)) (c : Cgi) : Prop :=
  ∀ m ∈ ms, m[0]? = some 0x32 → ∃ nr fill body a, m = msg 0x32 nr fill body ∧ fill.length = 2 ∧ Info.Is a body ∧ a.cgi = c

/-! ### Mobiles -/

/-- Mobile `i` asks for a cell. -/
def asking (i : Nat) (m : Mob) : In → Mob
  | .notify _ _ j n => if j = i then m.ask n.cell else m
  | _ => m

/-- What mobile `i` asked for and got. -/
def view (i : Nat) : List Did → Mob
  | [] => {}
  | d :: l => (d.mob i).foldl Mob.receive (asking i (view i l) d.ev)

/-- A BTS gave this address for the cell, and none gave another one later. -/
def LastAddress (l : List Did) (k : Key) (g : Cgi) : Prop :=
  ∃ l1 d l2, l = l1 ++ d :: l2 ∧ d.told = some (k, g) ∧ ∀ x ∈ l1, ∀ g', x.told ≠ some (k, g')

/-- `P` held at some time since then: `l2` happened before, `l1` since (latest first). -/
def Once (P : List Did → Prop) (l1 l2 : List Did) : Prop := ∃ a b, l1 = a ++ b ∧ b ≠ [] ∧ P (b ++ l2)

/-- A message could not be sent to BTS or SGSN, the BTS refused to give an address, or an answer did not come in time. -/
def GaveUp (home : Nat → Nat) (i : Nat) (l : List Did) : Prop :=
  ∃ d ∈ l, (∃ q r n, d.ev = .notify q r i n ∧ (q = false ∨ r = false)) ∨
    (∃ q m k c, d.ev = .bts q m ∧ told m = some (home i, k, c) ∧ (q = false ∨ c = none)) ∨ d.ev = .timer i

/-- Mobile `i` asks for GSM cells only. -/
def AsksGsm (i : Nat) (l : List Did) : Prop := ∀ d ∈ l, ∀ q r n, d.ev = .notify q r i n → n.cell ≠ none

/-- Whenever mobile `i` asks, its cell has this location area and cell identity. -/
def Steady (home : Nat → Nat) (i lac ci : Nat) (l : List Did) : Prop :=
  ∀ d ∈ l, ∀ q r n, d.ev = .notify q r i n → (d.post.bts (home i)).cgi.lac = lac ∧ (d.post.bts (home i)).cgi.ci = ci

/-- No address given is that of another BTS of the PCU. -/
def Abroad (nr : Nat) (l : List Did) : Prop := ∀ d' ∈ l, ∀ k g, d'.told = some (k, g) → ∀ d ∈ l, ∀ x ∈ d.post.l1.bts, x.1 ≠ nr → x.2.cgi ≠ g

end Verif.Rim
