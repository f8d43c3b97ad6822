import Verif.Model.Ccu
/-!
# Radio blocks and the CCU

3GPP TS 45.002: of every 13 TDMA frames the blocks begin with the frames 0, 4 and 8; a hyperframe has 26 × 51 × 2048 frames.
-/

namespace Verif.Ccu

/-- The first frame of the `k`-th block, counted from the begin of some hyperframe. -/
def start (k : Nat) : Nat := (13 * (k / 3) + 4 * (k % 3)) % (26 * 51 * 2048)

/-- Its last frame. -/
def last (k : Nat) : Nat := start k + 3

/-- The number of the block in its multiframe of 52 frames. -/
def inMulti (k : Nat) : Nat := k % 12

/-- What the PCU knows is right: the CCU was at block `k` of the uplink (it names the last frame of it) and `j` of the downlink. -/
def InStep (s : Sync) (k j : Nat) : Prop := s.ul = last k ∧ s.dl = start j

/-- A frame of a CCU that is at the blocks `k` and `j`: if it carries numbers these are they. -/
def Honest (k j : Nat) : Frame → Prop
  | .sync _ u d => u = last k ∧ d = start j
  | _ => True

/-- A frame that carries no numbers. -/
def Mute : Frame → Prop
  | .sync _ _ _ => False
  | _ => True

/-- A block that could be decoded, at least in part. -/
def Good (f : Frame) : Prop := f = .gprs true ∨ f = .egprs true true true ∨ f = .egprs true true false ∨ f = .egprs true false true

instance (f : Frame) : Decidable (Good f) := inferInstanceAs (Decidable (_ ∨ _))

/-- All frames are those of a CCU that begins after the blocks `k` and `j`. -/
def AllHonest (k j : Nat) : List Frame → Prop
  | [] => True
  | f :: fs => Honest (k + 1) (j + 1) f ∧ AllHonest (k + 1) (j + 1) fs

end Verif.Ccu
