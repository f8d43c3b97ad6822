/-!
# CoDel

Model of `src/gprs_codel.c`. A `struct timespec` is its value in nanoseconds (`Int`);
normalised timespecs are compared, added and subtracted like these. The value 0 is the
"not set" mark of the code (`timespecisset`).
-/

namespace Verif.Codel

/-- gprs_codel.h:36-44. -/
structure St where
  dropping : Bool
  count : Nat
  firstAbove : Int
  dropNext : Int
  target : Int
  interval : Int
  maxpacket : Nat
  deriving DecidableEq, Repr

/-- gprs_codel.c:30-46 `inv_sqrt_tab`. -/
def invSqrtTab : List Nat :=
  [255,
   255, 181, 147, 128, 114, 104, 96, 90, 85, 80, 77, 73, 71, 68,
   66, 64, 62, 60, 58, 57, 55, 54, 53, 52, 51, 50, 49, 48, 47, 46,
   45, 45, 44, 43, 43, 42, 42, 41, 40, 40, 39, 39, 39, 38, 38, 37,
   37, 36, 36, 36, 35, 35, 35, 34, 34, 34, 33, 33, 33, 33, 32, 32,
   32, 32, 31, 31, 31, 31, 30, 30, 30, 30, 29, 29, 29, 29, 29, 28,
   28, 28, 28, 28, 28, 27, 27, 27, 27, 27, 27, 26, 26, 26, 26, 26,
   26, 26, 25, 25, 25, 25, 25, 25, 25, 25, 24, 24, 24, 24, 24, 24,
   24, 24, 24, 23, 23, 23, 23, 23, 23, 23, 23, 23, 23, 22, 22, 22,
   22, 22, 22, 22, 22, 22, 22, 22, 22, 21, 21, 21, 21, 21, 21, 21,
   21, 21, 21, 21, 21, 21, 20, 20, 20, 20, 20, 20, 20, 20, 20, 20,
   20, 20, 20, 20, 20, 19, 19, 19, 19, 19, 19, 19, 19, 19, 19, 19,
   19, 19, 19, 19, 19, 19, 19, 18, 18, 18, 18, 18, 18, 18, 18, 18,
   18, 18, 18, 18, 18, 18, 18, 18, 18, 18, 18, 18, 17, 17, 17, 17,
   17, 17, 17, 17, 17, 17, 17, 17, 17, 17, 17, 17, 17, 17, 17, 17,
   17, 17, 17, 17]

/-- gprs_codel.c:51-54. -/
def invSqrt (count : Nat) : Nat := invSqrtTab.getD count 16

/-- gprs_codel.c:27-63 `control_law`, in nanoseconds (64-bit `uint_fast32_t`). -/
def controlLaw (s : St) : Int := s.interval / 1000 * invSqrt s.count / 256 * 1000

/-- gprs_codel.c:74-89 `gprs_codel_set_interval`. -/
def setInterval (s : St) (ms : Int) : St :=
  let ms := if ms ≤ 0 then 100 else ms
  { s with interval := ms * 1000000, target := ms * 13 / 256 * 1000000 }

/-- gprs_codel.c:91-98 `gprs_codel_set_maxpacket`. -/
def setMaxpacket (s : St) (m : Int) : St :=
  { s with maxpacket := (if m < 0 then 512 else m).toNat }

/-- gprs_codel.c:65-72 `gprs_codel_init`. -/
def init : St :=
  setMaxpacket (setInterval ⟨false, 0, 0, 0, 0, 0, 0⟩ (-1)) (-1)

/-- gprs_codel.c:171-175: leave the dropping state (`stop`: also forget `first_above_time`). -/
def leave (s : St) (stop : Bool) : St :=
  { s with dropping := false, firstAbove := if stop then 0 else s.firstAbove }

/-- gprs_codel.c:129-169: "ok to drop". `count` is a 32-bit unsigned. -/
def okToDrop (s : St) (now : Int) : St × Bool :=
  if !s.dropping then
    let inCycle : Bool := s.dropNext ≠ 0 ∧ now - s.dropNext < s.interval
    let recently : Bool := inCycle ∨ ¬ (now - s.firstAbove < s.interval)
    if !recently then (s, false)
    else
      let s1 := { s with
        dropping := true
        count := if inCycle ∧ s.count > 2 then s.count - 2 else 1
        dropNext := now }
      ({ s1 with dropNext := s1.dropNext + controlLaw s1 }, true)
  else if now < s.dropNext then (s, false)
  else
    let s1 := { s with count := (s.count + 1) % 2 ^ 32 }
    ({ s1 with dropNext := s1.dropNext + controlLaw s1 }, true)

/-- gprs_codel.c:104-176 `gprs_codel_control`; `recv = none` for NULL. -/
def control (s : St) (recv : Option Int) (now : Int) (bytes : Int) : St × Bool :=
  match recv with
  | none => (leave s true, false)
  | some r =>
    if now - r < s.target then (leave s true, false)
    else if 0 ≤ bytes ∧ bytes.toNat ≤ s.maxpacket then (leave s true, false)
    else if s.firstAbove = 0 then (leave { s with firstAbove := now + s.interval } false, false)
    else if now < s.firstAbove then (leave s false, false)
    else okToDrop s now

end Verif.Codel
