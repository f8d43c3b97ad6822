/-
Model of the RLC downlink (transmit) window and of the choice of the next block to send.

Source: /repo/src/rlc_window.h, rlc_window_dl.h, rlc_window_dl.cpp,
tbf_dl.cpp (restart_bsn_cycle, take_next_bsn, window part of create_new_bsn and
update_window, rcvd_dl_final_ack).
-/
namespace Verif.RlcDl

/-- rlc_window_dl.h:22-29 `gprs_rlc_dl_bsn_state` (MAX is only a bound). -/
inductive St where
  | invalid | nacked | acked | unacked | resend
  deriving DecidableEq, Repr

/-- rlc.h:33,119-122: ring size `RLC_MAX_SNS/2`; every access is `bsn & 1023`. -/
def ring : Nat := 1024

/-- rlc_window.h:41-44, rlc_window_dl.h:152-155. -/
structure Win where
  sns : Nat
  ws  : Nat
  vs  : Nat
  va  : Nat
  vb  : Nat → St

/-- rlc_window.h:68-71 `mod_sns(x)` = `x & (sns-1)`. Negative C intermediates `a - b`
are written `a + sns - b`. -/
def Win.modSns (w : Win) (x : Nat) : Nat := x % w.sns

/-- rlc_window_dl.h:66-69 `gprs_rlc_v_b::mark`. -/
def mark (vb : Nat → St) (bsn : Nat) (s : St) : Nat → St :=
  fun i => if i = bsn % ring then s else vb i

/-- rlc_window_dl.h:61-64, 96-99. -/
def Win.st (w : Win) (bsn : Nat) : St := w.vb (bsn % ring)

/-- rlc_window_dl.cpp:32-43 `reset`. -/
def Win.reset (w : Win) : Win := { w with vs := 0, va := 0, vb := fun _ => .invalid }

def Win.init (sns ws : Nat) : Win := { sns, ws, vs := 0, va := 0, vb := fun _ => .invalid }

/-- rlc_window_dl.h:202-205 `distance`. -/
def Win.distance (w : Win) : Nat := w.modSns (w.vs + w.sns - w.va)

/-- rlc_window_dl.h:182-185 `window_stalled`. -/
def Win.stalled (w : Win) : Bool := w.modSns (w.vs + w.sns - w.va) == w.ws

/-- rlc_window_dl.h:187-190 `window_empty`. -/
def Win.empty (w : Win) : Bool := w.vs == w.va

/-- rlc_window_dl.h:192-195 `increment_send`. -/
def Win.incrementSend (w : Win) : Win := { w with vs := w.modSns (w.vs + 1) }

/-- rlc_window_dl.h:197-200 `raise`. -/
def Win.raise (w : Win) (moves : Nat) : Win := { w with va := w.modSns (w.va + moves) }

/-- rlc_window_dl.cpp:45-53 `resend_needed`, loop from `bsn` to V(S). The C loop has no
bound of its own; it makes at most `sns` iterations, which is the fuel used. -/
def resendLoop (w : Win) : Nat → Nat → Option Nat
  | 0, _ => none
  | fuel+1, bsn =>
    if bsn = w.vs then none
    else if w.st bsn = .nacked ∨ w.st bsn = .resend then some bsn
    else resendLoop w fuel (w.modSns (bsn + 1))

def Win.resendNeeded (w : Win) : Option Nat := resendLoop w w.sns w.va

/-- rlc_window_dl.cpp:55-68 `mark_for_resend`: new window and count. -/
def markResendLoop : Nat → Win → Nat → Nat → Win × Nat
  | 0, w, _, c => (w, c)
  | fuel+1, w, bsn, c =>
    if bsn = w.vs then (w, c)
    else if w.st bsn = .unacked then
      markResendLoop fuel { w with vb := mark w.vb bsn .resend } (w.modSns (bsn + 1)) (c + 1)
    else markResendLoop fuel w (w.modSns (bsn + 1)) c

def Win.markForResend (w : Win) : Win × Nat := markResendLoop w.sns w w.va 0

/-- rlc_window_dl.cpp:70-81 `count_unacked`. -/
def countUnackedLoop (w : Win) : Nat → Nat → Nat → Nat
  | 0, _, c => c
  | fuel+1, bsn, c =>
    if bsn = w.vs then c
    else countUnackedLoop w fuel (w.modSns (bsn + 1)) (if w.st bsn = .acked then c else c + 1)

def Win.countUnacked (w : Win) : Nat := countUnackedLoop w w.sns w.va 0

/-- rlc_window_dl.cpp:94-113, loop of `update(rbb, first_bsn)`; `bits` are the
remaining bitmap bits, already cut to `num_blocks`. Result: window, lost, received. -/
def updateLoop : Win → Nat → List Bool → Nat → Nat → Win × Nat × Nat
  | w, _, [], lost, recv => (w, lost, recv)
  | w, bsn, b :: bits, lost, recv =>
    let bsn' := w.modSns bsn
    if bsn' = w.modSns (w.va + w.sns - 1) then (w, lost, recv)
    else if b then
      updateLoop { w with vb := mark w.vb bsn' .acked } (bsn + 1) bits lost
        (if w.st bsn' = .acked then recv else recv + 1)
    else
      updateLoop { w with vb := mark w.vb bsn' .nacked } (bsn + 1) bits (lost + 1) recv

/-- rlc_window_dl.cpp:83-114 `update(rbb, first_bsn)`. -/
def Win.update (w : Win) (rbb : List Bool) (first : Nat) : Win × Nat × Nat :=
  updateLoop w first (rbb.take w.distance) 0 0

/-- rlc_window_dl.cpp:140-155 `move_window`: new window and number moved. -/
def moveLoop : Nat → Win → Nat → Nat → Win × Nat
  | 0, w, _, m => (w, m)
  | fuel+1, w, bsn, m =>
    if bsn = w.vs then (w, m)
    else if w.st bsn = .acked then
      moveLoop fuel { w with vb := mark w.vb bsn .invalid } (w.modSns (bsn + 1)) (m + 1)
    else (w, m)

def Win.moveWindow (w : Win) : Win × Nat := moveLoop w.sns w w.va 0

/-- tbf_dl.cpp:1018-1062 `update_window`, window part: `update` (1043) and
`raise(move_window())` (1054). -/
def Win.ackNack (w : Win) (first : Nat) (rbb : List Bool) : Win :=
  let w1 := (w.update rbb first).1
  let (w2, moved) := w1.moveWindow
  w2.raise moved

/-- tbf_dl.cpp:559-694 `create_new_bsn`, window part (563, 690-693): the new block gets
number V(S). The payload is modelled in Model.Segment*. -/
def Win.createNew (w : Win) : Win × Nat :=
  (({ w with vb := mark w.vb w.vs .unacked } : Win).incrementSend, w.vs)

/-- tbf_dl.cpp:239-264 `restart_bsn_cycle`: new window and return value. -/
def Win.restart (w : Win) : Win × Bool :=
  if w.empty then (w, false)
  else
    let (w', n) := w.markForResend
    (w', n ≠ 0)

/-- What `take_next_bsn` reads from the TBF besides the window. -/
structure Env where
  /-- `previous_bsn >= 0`: number of the block already chosen for this radio block -/
  prev : Option Nat
  /-- `mcs_is_edge(cs_current_trans)` of that block (283-285) -/
  prevEdge : Bool
  /-- `m_rlc.block(bsn)->len` -/
  len : Nat → Nat
  /-- `state_is(TBF_ST_FINISHED)` -/
  finished : Bool
  /-- `have_data()` -/
  haveData : Bool
  /-- vty `dl_tbf_preemptive_retransmission` -/
  preempt : Bool

/-- rlc_window.h:26 `RLC_EGPRS_MAX_BSN_DELTA`. -/
def maxDelta : Nat := 512

/-- Which branch produced the block (for the specification only; the C function just
returns the number). -/
inductive Why where
  | resend | fresh | dummy | final
  deriving DecidableEq, Repr

/-- tbf_dl.cpp:266-390 `take_next_bsn`, choice of the block number and effect on the
window. `none` is the return value -1 (no (second) block). Choice of coding scheme
(302-324) is in Model.CodingScheme. The C function recurses after a restart; `fuel` bounds
the recursion, and `takeNext_fuel` proves that the bound 2 is never hit. -/
def takeNext : Nat → Env → Win → Option (Win × Option (Nat × Why))
  | 0, _, _ => none
  | fuel+1, e, w =>
    let final (w : Win) : Option (Win × Option (Nat × Why)) :=
      some (w, some (w.modSns (w.vs + w.sns - 1), .final))            -- 378-385
    let retry (w : Win) : Option (Win × Option (Nat × Why)) :=
      let (w', ok) := w.restart
      if ok then takeNext fuel e w' else final w'
    let bsn := w.resendNeeded                                          -- 280
    if e.prev.isSome ∧ ¬ e.prevEdge then some (w, none)                -- 282-285
    else match bsn with
    | some b =>
      match e.prev with
      | some p =>
        if p = b then some (w, none)                                   -- 293-294
        else if w.modSns (b + w.sns - p) > maxDelta then some (w, none) -- 296-298
        else if e.len p > 0 ∧ e.len p ≠ e.len b then some (w, none)    -- 327-328
        else some ({ w with vb := mark w.vb b .unacked }, some (b, .resend))
      | none => some ({ w with vb := mark w.vb b .unacked }, some (b, .resend)) -- 331
    | none =>
      if e.finished then retry w                                       -- 333-342
      else if w.stalled then retry w                                   -- 343-351
      else if e.haveData then
        let (w', b) := w.createNew; some (w', some (b, .fresh))        -- 352-359
      else if e.preempt ∧ ¬ w.empty then retry w                       -- 360-368
      else let (w', b) := w.createNew; some (w', some (b, .dummy))     -- 369-376

/-- tbf_dl.cpp:830-831: the first half of a split block was sent, the block is marked
again so that the second half follows. -/
def Win.markFirstSegment (w : Win) (bsn : Nat) : Win := { w with vb := mark w.vb bsn .nacked }

end Verif.RlcDl
