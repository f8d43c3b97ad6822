/-!
# Frame number arithmetic

Model of the helpers in `src/pcu_utils.h` and of `bts_rfn_to_fn` (src/bts.cpp). Frame numbers are
natural numbers below the hyperframe length; sums stay far below 2^32.
-/

namespace Verif.Fn

/-- libosmocore `GSM_MAX_FN` = `GSM_TDMA_HYPERFRAME`. -/
def H : Nat := 2715648

/-- pcu_utils.h:84 `RFN_MODULUS`. -/
def rfnMod : Nat := 42432

/-- pcu_utils.h:34-37 `next_fn`. -/
def nextFn (fn off : Nat) : Nat := (fn + off) % H

/-- pcu_utils.h:44-51 `rts_next_fn`. -/
def rtsNextFn (fn block : Nat) : Nat := (fn + 4 + if block % 3 = 2 then 1 else 0) % H

/-- pcu_utils.h:53-56 `fn2bn`. -/
def fn2bn (fn : Nat) : Nat := fn % 52 / 4

/-- pcu_utils.h:58-62 `fn_valid`. -/
def fnValid (fn : Nat) : Bool := fn % 13 == 0 || fn % 13 == 4 || fn % 13 == 8

/-- pcu_utils.h:64-70 `fn_next_block`. -/
def fnNextBlock (fn : Nat) : Nat :=
  let bn := fn2bn fn + 1
  (fn - fn % 52 + (bn * 4 + bn / 3)) % H

/-- pcu_utils.h:85-88 `fn2rfn`. -/
def fn2rfn (fn : Nat) : Nat := fn % rfnMod

/-- libosmocore `GSM_TDMA_FN_SUB`. -/
def fnSub (a b : Nat) : Nat := (a + H - b) % H
/-- libosmocore `GSM_TDMA_FN_SUM`. -/
def fnSum (a b : Nat) : Nat := (a + b) % H
/-- libosmocore `GSM_TDMA_FN_DIFF`. -/
def fnDiff (a b : Nat) : Nat := min (fnSub a b) (fnSub b a)

/-- bts.cpp:743-788 `bts_rfn_to_fn`, `none` for an unknown current frame number (FN_UNSET). The
assertion at 750 is `rfn < rfnMod`. -/
def rfnToFn (cur : Option Nat) (rfn : Nat) : Nat :=
  match cur with
  | none => rfn
  | some cur =>
    let curRfn := fn2rfn cur
    let rounded := fnSub cur curRfn
    let rounded :=
      if fnDiff rfn curRfn > rfnMod / 2 then
        if rounded < rfnMod then fnSub H (fnSub rfnMod rounded) else fnSub rounded rfnMod
      else rounded
    fnSum rounded rfn

/-- libosmocore `gsm0502_fncmp`: -1 / 0 / 1 for before / same / after. Frame numbers half a
hyperframe apart are never compared here (see `Verif.Ulc.Window`). -/
def fncmp (a b : Nat) : Int :=
  if a = b then 0 else if fnSub b a < H / 2 then -1 else 1

end Verif.Fn
