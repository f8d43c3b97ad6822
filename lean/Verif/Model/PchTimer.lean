/-!
# Subscribers being paged

Model of `src/bts_pch_timer.c` and of the handling of a PS paging request for one BTS
(gprs_bssgp_pcu.c:311-320). IMSIs are strings of digits, "" if unknown; `0xFFFFFFFF` is no TMSI.
Times are in seconds.
-/

namespace Verif.Pch

/-- gsm23003.h `GSM_RESERVED_TMSI`. -/
def noTmsi : Nat := 0xFFFFFFFF

/-- bts_pch_timer.h:29-35 `struct bts_pch_timer`; `due`: when T3113 fires. -/
structure Rec where
  imsi : String
  ptmsi : Nat
  due : Nat
  deriving DecidableEq, Repr

/-- bts_pch_timer.c:30-41 `bts_pch_timer_get_by_ptmsi`; the assertion holds for its caller. -/
def byPtmsi (q : List Rec) (t : Nat) : Option Rec := q.find? fun r => r.ptmsi ≠ noTmsi && r.ptmsi = t

/-- bts_pch_timer.c:43-53 `bts_pch_timer_get_by_imsi`. -/
def byImsi (q : List Rec) (i : String) : Option Rec := q.find? fun r => r.imsi = i

/-- bts_pch_timer.c:55-71 `bts_pch_timer_remove`: the record is taken out of the list. Records are
found by comparing them (the code has a pointer to the first such record). -/
def remove (q : List Rec) (r : Rec) : List Rec := q.erase r

/-- bts_pch_timer.c:73-97 `bts_pch_timer_start`; `tmsi`: paged by this TMSI, else by the IMSI. -/
def start (q : List Rec) (now t3113 : Nat) (tmsi : Option Nat) (imsi : String) : List Rec :=
  q ++ [{ imsi := imsi, ptmsi := tmsi.getD noTmsi, due := now + t3113 }]

/-- bts_pch_timer.c:99-114 `bts_pch_timer_stop`, for a mobile with this TLLI and IMSI. -/
def stop (q : List Rec) (tlli : Nat) (imsi : String) : List Rec :=
  let p := if tlli ≠ noTmsi then byPtmsi q tlli else none
  let p := match p with
    | some r => some r
    | none => if imsi ≠ "" then byImsi q imsi else none
  match p with
  | some r => remove q r
  | none => q

/-- bts_pch_timer.c:116-123 `bts_pch_timer_stop_all`. -/
def stopAll (q : List Rec) : List Rec := q.foldl remove q

/-- gprs_bssgp_pcu.c:311-320: a paging request from the SGSN. `sent`: the request could be handed
to the BTS. -/
def page (q : List Rec) (now t3113 : Nat) (tmsi : Option Nat) (imsi : String) (sent : Bool) : List Rec :=
  match byImsi q imsi with
  | some _ => q
  | none => if !sent then q else start q now t3113 tmsi imsi

end Verif.Pch
