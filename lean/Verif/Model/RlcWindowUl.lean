/-
Model of the RLC uplink (receive) window and of the acknowledged-mode uplink
block reception.

Source: /repo/src/rlc_window.h, rlc_window.cpp, rlc_window_ul.h,
rlc_window_ul.cpp, rlc.h (block store), tbf_ul.cpp (rcv_data_block_acknowledged).
-/
namespace Verif.RlcUl

/-- rlc_window_ul.h:23-28 `gprs_rlc_ul_bsn_state` (MAX is only a bound). -/
inductive St where
  | invalid | received | missing
  deriving DecidableEq, Repr

/-- rlc.h:30-33, 119-122: `RLC_MAX_SNS/2 - 1 = 1023`; every ring access is
`bsn & mod_sns_half()`, i.e. `bsn % 1024` (see `Lemmas.Bits.and_mask`). -/
def ring : Nat := 1024

/-- rlc_window.h:41-44 + rlc_window_ul.h:106-109: `m_sns`, `m_ws`, `m_v_r`,
`m_v_q`, `m_v_n`. The array `m_v_n[1024]` is a function on indices, only
indices below 1024 are ever used. -/
structure Win where
  sns : Nat
  ws  : Nat
  vr  : Nat
  vq  : Nat
  vn  : Nat → St

/-- rlc_window.h:68-71 `mod_sns(bsn)`: `bsn & (sns-1)`; `sns` is a power of two
(asserted in rlc_window.cpp:28-31), so this is `bsn % sns`.
Negative C intermediate values `a - b` are written `a + sns - b`, which is the
same residue (all subtrahends are at most `sns`). -/
def Win.modSns (w : Win) (x : Nat) : Nat := x % w.sns

/-- rlc_window_ul.h:72-75 `gprs_rlc_v_n::mark`. -/
def mark (vn : Nat → St) (bsn : Nat) (s : St) : Nat → St :=
  fun i => if i = bsn % ring then s else vn i

/-- rlc_window_ul.h:67-70 `is_state(bsn, RECEIVED)`. -/
def isRecv (vn : Nat → St) (bsn : Nat) : Bool := vn (bsn % ring) == .received

/-- rlc_window_ul.h:140-145 `reset_state`, rlc_window_ul.cpp:26-30. -/
def Win.init (sns ws : Nat) : Win :=
  { sns, ws, vr := 0, vq := 0, vn := fun _ => .invalid }

/-- rlc_window_ul.h:120-129 `is_in_window`. -/
def Win.isInWindow (w : Win) (bsn : Nat) : Bool :=
  w.modSns (bsn + w.sns - w.vq) < w.ws

/-- rlc_window_ul.cpp:39-49: body of the `while (offset_v_r--)` loop, executed
`k` times; in the iteration entered with counter value `k+1` the C variable is
already decremented to `k` when it is tested. -/
def raiseLoop : Nat → Win → Win
  | 0, w => w
  | k+1, w =>
    let vn1 := mark w.vn (w.modSns (w.vr + w.sns - w.ws)) .invalid
    let vn2 := if k ≠ 0 then mark vn1 w.vr .missing else vn1
    raiseLoop k { w with vn := vn2, vr := w.modSns (w.vr + 1) }

/-- rlc_window_ul.cpp:33-52 `raise_v_r(bsn)`. -/
def Win.raiseVr (w : Win) (bsn : Nat) : Win :=
  let off := w.modSns (bsn + 1 + w.sns - w.vr)
  if off < w.sns / 2 then raiseLoop off w else w

/-- rlc_window_ul.cpp:74-78 `receive_bsn`. -/
def Win.receiveBsn (w : Win) (bsn : Nat) : Win :=
  { w with vn := mark w.vn bsn .received }.raiseVr bsn

/-- rlc_window_ul.cpp:80-86 `invalidate_bsn` (return value unused by callers). -/
def Win.invalidateBsn (w : Win) (bsn : Nat) : Win :=
  { w with vn := mark w.vn bsn .missing }

/-- rlc_window_ul.cpp:58-72 `raise_v_q`: returns the new window and `count`.
The C loop has no explicit bound; it runs at most `sns` times because each
iteration advances V(Q) by one modulo `sns` and stops at V(R). `fuel` makes that
bound explicit; it is instantiated with `sns` in `Win.raiseVq`. -/
def raiseVqLoop : Nat → Win → Nat → Win × Nat
  | 0, w, c => (w, c)
  | fuel+1, w, c =>
    if w.vq ≠ w.vr ∧ isRecv w.vn w.vq then
      raiseVqLoop fuel { w with vq := w.modSns (w.vq + 1) } (c + 1)
    else (w, c)

def Win.raiseVq (w : Win) : Win × Nat := raiseVqLoop w.sns w 0

/-- rlc_window_ul.cpp:116-125 `update_rbb`: position `ws-1-i` of the text bitmap
holds the state of BSN `(ssn-1-i) & mod_sns`. The result lists positions
`0 .. ws-1`. `true` is 'R'. -/
def Win.updateRbb (w : Win) : List Bool :=
  (List.range w.ws).map fun p =>
    -- p = ws-1-i, hence i = ws-1-p
    isRecv w.vn (w.modSns (w.vr + w.sns - 1 - (w.ws - 1 - p)))

/-- rlc_window_ul.cpp:90-113 `update_egprs_rbb`: returns the list of `i` bits
written (bit 0 first). Note that the start value `v_q()+1` is *not* reduced
modulo SNS, exactly as in the code. -/
def egprsRbbLoop (w : Win) : Nat → Nat → List Bool
  | 0, _ => []
  | fuel+1, bsn =>
    if bsn < w.vr then
      isRecv w.vn bsn :: egprsRbbLoop w fuel (w.modSns (bsn + 1))
    else []

def Win.updateEgprsRbb (w : Win) : List Bool := egprsRbbLoop w w.ws (w.vq + 1)

/-! ### Reception of acknowledged-mode data blocks -/

/-- What happens to one data block of a radio block after it was found to be in
window and new (tbf_ul.cpp:317-379). -/
inductive Kind where
  /-- complete block, TLLI checks passed: stored and `receive_bsn` (379) -/
  | ok
  /-- complete (or completed) block, but TLLI checks failed: stored and
      `invalidate_bsn` (345-377) -/
  | rejected
  /-- split block, not yet complete: stored partially and the function returns
      at once (327-328) -/
  | partialSeg
  deriving DecidableEq, Repr

/-- One data block of a received radio block. -/
structure Arrival (α : Type) where
  bsn  : Nat
  data : α
  kind : Kind

/-- Receive side of an uplink TBF: window plus block store
(`m_rlc.block(bsn)` = `m_blocks[bsn & mod_sns_half()]`, rlc.h:286-289) and the
sequence of blocks already handed to `assemble_forward_llc`. -/
structure Rx (α : Type) where
  win : Win
  buf : Nat → Option α
  out : List (Option α)

def Rx.init (α : Type) (sns ws : Nat) : Rx α :=
  { win := Win.init sns ws, buf := fun _ => none, out := [] }

def store {α} (buf : Nat → Option α) (bsn : Nat) (d : α) : Nat → Option α :=
  fun i => if i = bsn % ring then some d else buf i

/-- tbf_ul.cpp:287-380, one loop iteration. The Boolean is "early return". -/
def Rx.oneBlock {α} (s : Rx α) (a : Arrival α) : Rx α × Bool :=
  if !s.win.isInWindow a.bsn then (s, false)          -- 301-305
  else if isRecv s.win.vn a.bsn then (s, false)       -- 306-310
  else
    let s1 := { s with buf := store s.buf a.bsn a.data }
    match a.kind with
    | .ok         => ({ s1 with win := s1.win.receiveBsn a.bsn }, false)
    | .rejected   => ({ s1 with win := s1.win.invalidateBsn a.bsn }, false)
    | .partialSeg => (s1, true)

/-- tbf_ul.cpp:382-392: raise V(Q) and forward `count` blocks from the old V(Q). -/
def Rx.flush {α} (s : Rx α) : Rx α :=
  let (w, count) := s.win.raiseVq
  { s with
    win := w
    out := s.out ++ (List.range count).map
      fun i => s.buf (s.win.modSns (s.win.vq + i) % ring) }

/-- tbf_ul.cpp:246-418 `rcv_data_block_acknowledged`, restricted to window,
block store and forwarding (state checks, RSSI, Ack/Nack scheduling are
elsewhere). `blocks` are the 1 or 2 data blocks of the radio block. -/
def Rx.rcvBlocks {α} (s : Rx α) : List (Arrival α) → Rx α
  | [] => s.flush
  | a :: rest =>
    match s.oneBlock a with
    | (s', true)  => s'
    | (s', false) => Rx.rcvBlocks s' rest

end Verif.RlcUl
