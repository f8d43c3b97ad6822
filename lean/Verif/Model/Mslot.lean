/-!
# Multislot classes and slot masks

Model of `src/mslot_class.c`. Slot masks are natural numbers below 256, bit `i` is time slot `i`.
-/

namespace Verif.Alloc

/-- mslot_class.h:26-30. -/
def NA : Nat := 255
def MA : Nat := 254
def MB : Nat := 253
def MC : Nat := 252
def MTO : Nat := 251

/-- mslot_class.c:31-35 `struct gprs_ms_multislot_class`. -/
structure MsClass where
  rx : Nat
  tx : Nat
  sum : Nat
  ta : Nat
  tb : Nat
  ra : Nat
  rb : Nat
  type : Nat
  deriving DecidableEq, Repr

/-- mslot_class.c:37-86 `gprs_ms_multislot_class[]`. -/
def classTable : List MsClass := [
  ⟨NA, NA, NA, NA, NA, NA, NA, NA⟩,
  ⟨1, 1, 2, 3, 2, 4, 2, 1⟩, ⟨2, 1, 3, 3, 2, 3, 1, 1⟩, ⟨2, 2, 3, 3, 2, 3, 1, 1⟩,
  ⟨3, 1, 4, 3, 1, 3, 1, 1⟩, ⟨2, 2, 4, 3, 1, 3, 1, 1⟩, ⟨3, 2, 4, 3, 1, 3, 1, 1⟩,
  ⟨3, 3, 4, 3, 1, 3, 1, 1⟩, ⟨4, 1, 5, 3, 1, 2, 1, 1⟩, ⟨3, 2, 5, 3, 1, 2, 1, 1⟩,
  ⟨4, 2, 5, 3, 1, 2, 1, 1⟩, ⟨4, 3, 5, 3, 1, 2, 1, 1⟩, ⟨4, 4, 5, 2, 1, 2, 1, 1⟩,
  ⟨3, 3, NA, NA, MA, 3, MA, 2⟩, ⟨4, 4, NA, NA, MA, 3, MA, 2⟩, ⟨5, 5, NA, NA, MA, 3, MA, 2⟩,
  ⟨6, 6, NA, NA, MA, 2, MA, 2⟩, ⟨7, 7, NA, NA, MA, 1, 0, 2⟩, ⟨8, 8, NA, NA, 0, 0, 0, 2⟩,
  ⟨6, 2, NA, 3, MB, 2, MC, 1⟩, ⟨6, 3, NA, 3, MB, 2, MC, 1⟩, ⟨6, 4, NA, 3, MB, 2, MC, 1⟩,
  ⟨6, 4, NA, 2, MB, 2, MC, 1⟩, ⟨6, 6, NA, 2, MB, 2, MC, 1⟩, ⟨8, 2, NA, 3, MB, 2, MC, 1⟩,
  ⟨8, 3, NA, 3, MB, 2, MC, 1⟩, ⟨8, 4, NA, 3, MB, 2, MC, 1⟩, ⟨8, 4, NA, 2, MB, 2, MC, 1⟩,
  ⟨8, 6, NA, 2, MB, 2, MC, 1⟩, ⟨8, 8, NA, 2, MB, 2, MC, 1⟩, ⟨5, 1, 6, 2, 1, 1, 1, 1⟩,
  ⟨5, 2, 6, 2, 1, 1, 1, 1⟩, ⟨5, 3, 6, 2, 1, 1, 1, 1⟩, ⟨5, 4, 6, 2, 1, 1, 1, 1⟩,
  ⟨5, 5, 6, 2, 1, 1, 1, 1⟩, ⟨5, 1, 6, 2, 1, MTO, 1, 1⟩, ⟨5, 2, 6, 2, 1, MTO, 1, 1⟩,
  ⟨5, 3, 6, 2, 1, MTO, 1, 1⟩, ⟨5, 4, 6, 2, 1, MTO, 1, 1⟩, ⟨5, 5, 6, 2, 1, MTO, 1, 1⟩,
  ⟨6, 1, 7, 1, 1, 1, MTO, 1⟩, ⟨6, 2, 7, 1, 1, 1, MTO, 1⟩, ⟨6, 3, 7, 1, 1, 1, MTO, 1⟩,
  ⟨6, 4, 7, 1, 1, 1, MTO, 1⟩, ⟨6, 5, 7, 1, 1, 1, MTO, 1⟩, ⟨6, 6, 7, 1, 1, 1, MTO, 1⟩]

/-- mslot_class.c:88-96 `get_mslot_table`; `dflt` is `the_pcu->vty.msclass_default`, which the VTY
limits to 1..45 (pcu_vty.c:887-898). A default outside the table would be an out of bounds read in
C; here it gives the not applicable row. -/
def getClass (dflt cl : Nat) : MsClass :=
  classTable.getD (if cl ≥ 46 then 0 else if cl ≠ 0 then cl else dflt)
    ⟨NA, NA, NA, NA, NA, NA, NA, NA⟩

/-- mslot_class.c:111-124 `mslot_class_get_tb`. -/
def MsClass.getTb (c : MsClass) : Nat := if c.tb = MA then 0 else if c.tb = MB then 1 else c.tb
/-- mslot_class.c:126-136 `mslot_class_get_ra` with a timing offset of 0. -/
def MsClass.getRa (c : MsClass) : Nat := if c.ra = MTO then 1 else c.ra
/-- mslot_class.c:138-152 `mslot_class_get_rb` with a timing offset of 0. -/
def MsClass.getRb (c : MsClass) : Nat :=
  if c.rb = MA then 0 else if c.rb = MC then 1 else if c.rb = MTO then 0 else c.rb

/-- pcu_utils.h:70-73 `pcu_bitcount` of an octet. -/
def pop (m : Nat) : Nat := (List.range 8).countP (fun i => m.testBit i)

/-- mslot_class.c:280-283 `mslot_wrap_window`. -/
def wrap (w : Nat) : Nat := (w ||| w >>> 8) &&& 0xff

/-- mslot_class.c:204-212: rotation of an octet by three. -/
def rot3 (m : Nat) : Nat := ((m <<< 3) ||| (m >>> 5)) % 256

/-- mslot_class.c:181-213 `mslot_fill_rx_mask`: (MASK_TT, MASK_TR). -/
def fillRxMask (c : MsClass) (numTx : Nat) : Nat × Nat :=
  if c.type = 1 then
    let tt := ((0x100 >>> (max c.getTb c.ta)) - 1) % 256
    let tt := tt &&& (255 - (((1 <<< (c.getRb + numTx)) - 1) % 256))
    let tr := ((0x100 >>> c.getTb) - 1) % 256
    let tr := tr &&& (255 - (((1 <<< (max c.getRb c.getRa + numTx)) - 1) % 256))
    (rot3 tt, rot3 tr)
  else (rot3 0xff, rot3 0xff)

/-- mslot_class.c:215-230 `find_free_usf`. -/
def findFreeUsf (map : Nat) : Option Nat :=
  if map = 127 then none else (List.range 7).find? fun u => !map.testBit u

/-- mslot_class.c:232-247 `find_free_tfi`. -/
def findFreeTfi (map : Nat) : Option Nat :=
  if map = 0xffffffff then none else (List.range 32).find? fun i => !map.testBit i

/-- mslot_class.c:301-314 `mslot_filter_bad`; `none`: -1. -/
def filterBad (mask ulTs dlSlots rxValidWin : Nat) : Option Nat :=
  let bad := wrap ((255 ^^^ mask) <<< ulTs)
  let good := dlSlots &&& (255 ^^^ bad)
  if good = 0 then none else some (good &&& rxValidWin)

/-- alloc_algo.cpp:525-533, 555-557: the group of `n` adjacent slots, rotated `k` times. -/
def winAt (n : Nat) : Nat → Nat
  | 0 => wrap ((1 <<< n) - 1)
  | k + 1 => wrap (winAt n k <<< 1)

/-- `ffs(3)`: number of the lowest bit set, counted from one; 0 if there is none. -/
def ffs (m : Nat) : Nat := match (List.range 8).find? fun i => m.testBit i with
  | some i => i + 1
  | none => 0

end Verif.Alloc
