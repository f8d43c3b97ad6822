import Verif.Model.MsStore
/-!
# Life of the mobiles of a BTS

Requests and confirmations during which a mobile may be left without TBF for a while, and the
release timer (`src/gprs_ms.c`, `src/pdch.cpp`, `src/tbf_ul_fsm.c`). `none`: use of a mobile that has
been freed, or as in `Verif.Model.MsStore`.
-/

namespace Verif.Store

/-- `ms_ref` of a user that is not a TBF (gprs_ms.h:260); it does not stop the release timer. -/
def ref (s : St) (i : Nat) : Option St :=
  match get? s i with
  | none => none
  | some _ => some (modify s i fun m => { m with refs := m.refs + 1 })

/-- tbf.cpp:246-282 `tbf_free` of the uplink TBF if there is one: gprs_ms.c:381-395
`ms_detach_tbf`. -/
def dropUl (k : Clock) (s : St) (i : Nat) : Option St :=
  match get? s i with
  | none => none
  | some m => if m.ul.isSome then some (checkIdle k (modify s i fun m => { m with ul := none }) i) else some s

/-- `tbf_free` of the downlink TBF if there is one. -/
def dropDl (k : Clock) (s : St) (i : Nat) : Option St :=
  match get? s i with
  | none => none
  | some m => if m.dl.isSome then some (checkIdle k (modify s i fun m => { m with dl := none }) i) else some s

/-- An uplink TBF is started for the mobile, or not: gprs_ms.c:334-379. -/
def startUl (s : St) (i : Nat) (att : Option Bool) : Option St :=
  match get? s i with
  | none => none
  | some _ => some (attachOpt s i att)

/-- A downlink TBF is started for the mobile, or not. -/
def startDl (s : St) (i : Nat) (att : Option Bool) : Option St :=
  match get? s i, att with
  | none, _ => none
  | some _, none => some s
  | some _, some timers => some (modify s i (·.attachDl timers))

/-- `ms_unref` of a mobile that has to exist. -/
def unref? (k : Clock) (s : St) (i : Nat) : Option St :=
  match get? s i with
  | none => none
  | some _ => some (unref k s i)

/-- pdch.cpp:677-830: a Packet Resource Request of a known mobile. `ul`, `dl`: its TBFs are given up
before (702-718 and 753-769 in the cases of a USF and of the poll, 724-743 in the case of a single
block); `att`: the uplink TBF that is started. -/
def serve (k : Clock) (s : St) (i : Nat) (ul dl : Bool) (att : Option Bool) : Option St :=
  (ref s i).bind fun s =>
  (if ul then dropUl k s i else some s).bind fun s =>
  (if dl then dropDl k s i else some s).bind fun s =>
  (startUl s i att).bind fun s =>
  unref? k s i

/-- tbf_ul_fsm.c:232-253: the final Uplink Ack/Nack is confirmed. `att`: the downlink TBF that is
started for waiting frames. -/
def final (k : Clock) (s : St) (i : Nat) (att : Option Bool) : Option St :=
  (ref s i).bind fun s =>
  (dropUl k s i).bind fun s =>
  (startDl s i att).bind fun s =>
  unref? k s i

/-- bts.cpp:1006-1012: an access burst for which no TBF can be started. -/
def accessFails (k : Clock) (codel : Nat) (s : St) : St :=
  let a := alloc s codel 1
  unref k a.1 a.2

/-- gprs_ms.c:101-108 `ms_release_timer_cb` of every mobile whose timer has run out. -/
def expire (now : Nat) (s : St) : St :=
  { s with ms := s.ms.filter fun p => match p.2.releasing with | some d => decide (now < d) | none => true }

end Verif.Store
