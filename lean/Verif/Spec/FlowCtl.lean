import Verif.Model.FlowCtl
/-!
# Flow control: specification

TS 48.018 10.4.4, 11.3.4, 11.3.5: a bucket size is a number of 16 bits in units of 100 octets, a leak rate in units of 100
bit/s.
-/

namespace Verif.Fc

/-- The parameters can be coded. -/
def Codable (x : Msg) : Prop :=
  x.bucket / 100 < 65536 ∧ x.msBucket / 100 < 65536 ∧ x.leak * 8 / 100 < 65536 ∧ x.msLeak * 8 / 100 < 65536

/-- Octets of data in a radio block of the best scheme, CS-1 to CS-4 and MCS-1 to MCS-9 (TS 44.060 table 10.2.1, 10.3a.1.1). -/
def octets : Cs.CS → Nat
  | .cs1 => 20 | .cs2 => 30 | .cs3 => 36 | .cs4 => 50
  | .mcs1 => 22 | .mcs2 => 28 | .mcs3 => 37 | .mcs4 => 44 | .mcs5 => 56 | .mcs6 => 74 | .mcs7 => 112 | .mcs8 => 136 | .mcs9 => 148
  | .unknown => 0

/-- What `n` channels can carry in a second: a radio block every 20 ms on each. -/
def capacity (cs : Cs.CS) (n : Nat) : Nat := 50 * octets cs * n

/-- Configurations the user interface and the BTS can set. -/
structure CfgOk (c : Cfg) : Prop where
  bucket : c.bvcBucket ≤ 6553500
  leak : c.bvcLeak ≤ 6553500
  msBucket : c.msBucket ≤ 6553500
  msLeak : c.msLeak ≤ 6553500
  imcs : c.initialMcs ≤ 9
  ics : c.initialCs ≤ 4
  mmcs : c.maxMcs ≤ 9
  mcs : c.maxCs ≤ 4
  pdch : c.numPdch ≤ 64

/-- What happens in a PCU between and at the messages. -/
inductive Ev | sent | received (bytes frames : Nat) | delayed (ns : Nat) | tx
  deriving DecidableEq, Repr

/-- Measurements after an event. -/
def ev (c : Cfg) (m : Meas) : Ev → Meas
  | .sent => sent m
  | .received b f => received m b f
  | .delayed d => delayed m d
  | .tx => (txFc c m).2

/-- Delays of the frames since the last message. -/
def delays : List Ev → List Nat → List Nat
  | [], l => l
  | .delayed d :: es, l => delays es (l ++ [d])
  | .tx :: es, _ => delays es []
  | _ :: es, l => delays es l

end Verif.Fc
