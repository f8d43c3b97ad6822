import Verif.Model.Rach
/-!
# Timing advance

Model of the timing advance of a mobile (`src/bts.cpp` 1249-1312, `src/gprs_ms.c` 603-617, `src/pcu_l1_if.h` 35-70) and
of the indices for continuous timing advance of a PDCH (`src/pdch.cpp` 157-171, 1251-1276, `src/bts.cpp` 1057-1104).
-/

namespace Verif.Ta

/-- libosmocore `GSM48_TA_INVALID`: the timing advance of a new mobile (gprs_ms.c:140). -/
def unknown : Nat := 220

/-- gprs_ms.c:603-617 `ms_set_ta`. -/
def setTa (ta new : Nat) : Nat := if new = ta then ta else if new < 64 then new else ta

/-- pcu_l1_if.h:44-61 `sign_qta2ta`; `>>` of a negative number rounds down. -/
def signQta2ta (q : Int) : Int :=
  let q := if q < -252 then -252 else q
  let q := if q > 252 then 252 else q
  q / 4 + (if q < -2 then -1 else if q > 2 then 1 else 0)

/-- pcu_l1_if.h:63-70 `ta_limit`. -/
def taLimit (t : Int) : Nat := if t < 0 then 0 else if t > 63 then 63 else t.toNat

/-- bts.cpp:1249-1266 `update_tbf_ta`. -/
def update (ta : Nat) (delta : Int) : Nat := if delta ≠ 0 then setTa ta (taLimit (ta + delta)) else ta

/-- bts.cpp:1268-1281 `set_tbf_ta`; `new`: unsigned 8 bits. -/
def set (ta new : Nat) : Nat := if ta ≠ new then setTa ta (taLimit new) else ta

/-- What happens to a mobile. `access`: it is identified by the random access with this delay (bts.cpp:1018), or by the
block that was assigned for it (pdch.cpp:720, 861). `burst`, `data`: an access burst or a block with this delay comes in
the place of a poll of an uplink TBF (bts.cpp:1283-1306). Delays are in quarters of a symbol. -/
inductive Op | access (q : Int) | burst (q : Int) | data (q : Int)
  deriving DecidableEq, Repr

/-- See `Op`; the value of `burst` passes through a signed octet (bts.cpp:1284, 1303). -/
def step (ta : Nat) : Op → Nat
  | .access q => setTa ta (Rach.qta2ta q)
  | .burst q => set ta (Rach.qta2ta q % 256)
  | .data q => update ta (signQta2ta q)

/-- pdch.h:36 `PTCCH_TAI_FREE`. -/
def free : Nat := 0x7f

/-- pdch.h:100 `ptcch_msg`, pdch.cpp:159-167 `pdch_init`: the message as it is sent (pcu_l1_if.cpp:572). -/
def init : List Nat := List.replicate 16 free ++ List.replicate 7 0x2b

/-- pdch.cpp:1255-1260: the loop of `reserve_tai`; `i`: next index. -/
def reserveFrom (m : List Nat) (ta : Nat) : Nat → Nat → List Nat × Nat
  | _, 0 => (m, free)
  | i, n + 1 => if m[i]? = some free then (m.set i ta, i) else reserveFrom m ta (i + 1) n

/-- pdch.cpp:1251-1264 `reserve_tai`. -/
def reserve (m : List Nat) (ta : Nat) : List Nat × Nat := reserveFrom m ta 0 16

/-- pdch.cpp:1266-1270 `release_tai`; `none`: an assertion fails. -/
def release (m : List Nat) (i : Nat) : Option (List Nat) := if i < 16 then some (m.set i free) else none

/-- pdch.cpp:1272-1276 `update_ta`. -/
def updateTa (m : List Nat) (i ta : Nat) : Option (List Nat) := if i < 16 then some (m.set i ta) else none

/-- bts.cpp:1057-1063 `ptcch_slot_map`. -/
def slotMap : List Nat := [12, 38, 64, 90, 116, 142, 168, 194, 220, 246, 272, 298, 324, 350, 376, 402]

/-- bts.cpp:1086-1094: sub-slot of a frame. -/
def subSlot (rfn : Nat) : Nat := slotMap.findIdx (fun x => x = rfn % 416)

/-- bts.cpp:1065-1104 `bts_rcv_ptcch_rach` on an enabled PDCH; unchanged if there is no such sub-slot. -/
def ptcchRach (m : List Nat) (rfn : Nat) (q : Int) : Option (List Nat) :=
  if subSlot rfn = 16 then some m else updateTa m (subSlot rfn) (Rach.qta2ta q)

end Verif.Ta
