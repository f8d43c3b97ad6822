import Verif.Model.CodingScheme
/-!
# Flow control towards the SGSN

Model of `src/gprs_bssgp_pcu.c` 770-1039 and 1332-1353: the parameters that are handed to `bssgp_tx_fc_bvc`. Numbers of
the type `uint32_t` and `unsigned` are numbers modulo 2^32.
-/

namespace Verif.Fc

/-- 32-bit unsigned arithmetic. -/
def u32 (n : Nat) : Nat := n % 2 ^ 32

/-- Configuration (gprs_pcu.h:80-130) and number of enabled PDCHs (`count_pdch`, 770-786). -/
structure Cfg where
  bucketTime : Nat := 0
  bvcBucket : Nat := 0
  bvcLeak : Nat := 0
  msBucket : Nat := 0
  msLeak : Nat := 0
  llcLifetime : Nat := 0
  csAdj : Bool := true
  mcsMask : Nat := 0
  csMask : Nat := 0
  initialMcs : Nat := 0
  initialCs : Nat := 0
  maxMcs : Nat := 9
  maxCs : Nat := 4
  /-- Algorithm A or multislot disabled: one slot per mobile. -/
  singleSlot : Bool := false
  numPdch : Nat
  deriving Repr

/-- gprs_bssgp_pcu.h:64-75: what was measured since the last message. -/
structure Meas where
  framesSent : Nat := 0
  bytesRecv : Nat := 0
  framesRecv : Nat := 0
  /-- `queue_delay_sum`: seconds and nanoseconds. -/
  delaySec : Nat := 0
  delayNsec : Nat := 0
  delayCount : Nat := 0
  deriving DecidableEq, Repr

/-- gprs_bssgp_pcu.c:1332-1335. -/
def sent (m : Meas) : Meas := { m with framesSent := u32 (m.framesSent + 1) }

/-- gprs_bssgp_pcu.c:1337-1341. -/
def received (m : Meas) (bytes frames : Nat) : Meas :=
  { m with bytesRecv := u32 (m.bytesRecv + bytes), framesRecv := u32 (m.framesRecv + frames) }

/-- gprs_bssgp_pcu.c:1343-1353 for a frame that waited for `d` nanoseconds (`timespecsub`, `timespecadd`). -/
def delayed (m : Meas) (d : Nat) : Meas :=
  let ns := m.delayNsec + d % 1000000000
  { m with
    delaySec := m.delaySec + d / 1000000000 + (if ns ≥ 1000000000 then 1 else 0)
    delayNsec := if ns ≥ 1000000000 then ns - 1000000000 else ns
    delayCount := u32 (m.delayCount + 1) }

/-- gprs_bssgp_pcu.c:788-794 `gprs_bssgp_max_leak_rate`. -/
def maxLeak (cs : Cs.CS) (n : Nat) : Nat := u32 (cs.dataBytes * cs.hdr.numBlocks * 50 * n)

/-- gprs_bssgp_pcu.c:796-821 `compute_bucket_size`. -/
def bucketSize (c : Cfg) (leak fallback : Nat) : Nat :=
  let time := if c.bucketTime = 0 then c.llcLifetime else c.bucketTime
  let b := if time = 0xffff then 6553500 else 0
  let b := if b = 0 ∧ time ≠ 0 ∧ leak ≠ 0 then u32 (leak * time / 100) else b
  let b := if b = 0 ∧ leak ≠ 0 then u32 (leak * 10) else b
  let b := if b = 0 then fallback else b
  if b > 6553500 then 6553500 else b

/-- gprs_bssgp_pcu.c:823-838 `get_and_reset_avg_queue_delay`: the nanoseconds are divided by 10^9. -/
def avgDelay (m : Meas) : Nat × Meas :=
  let ms := u32 (m.delaySec * 1000 + m.delayNsec / 1000000000)
  (if m.delayCount > 0 then ms / m.delayCount else 0, { m with delaySec := 0, delayNsec := 0, delayCount := 0 })

/-- A 32-bit pattern as `int`. -/
def toInt (n : Nat) : Int := if n < 2 ^ 31 then n else (n : Int) - 2 ^ 32

/-- gprs_bssgp_pcu.c:840-866 `get_and_reset_measured_leak_rate`: rate and usage; `none`: -1, nothing is reset. The
divisor cannot wrap to 0 for fewer than 2^28 frames (else: UB, not modelled). -/
def measured (m : Meas) (n : Nat) : Option (Int × Int) × Meas :=
  if m.framesSent = 0 then (none, m)
  else if m.framesRecv = 0 then (none, m)
  else
    (some (toInt (u32 (m.bytesRecv * 1000 * n) / u32 (20 * m.framesRecv)), toInt (u32 (m.framesRecv * 1000) / m.framesSent)),
     { m with framesSent := 0, bytesRecv := 0, framesRecv := 0 })

/-- The highest set bit below `n`, as a number from 1; 0: none (gprs_bssgp_pcu.c:875-881, 903-908). -/
def highest (mask : Nat) : Nat → Nat
  | 0 => 0
  | i + 1 => if mask.testBit i then i + 1 else highest mask i

/-- gprs_bssgp_pcu.c:868-916 `max_coding_scheme_dl`. -/
def maxScheme (c : Cfg) : Cs.CS :=
  let h := highest c.mcsMask 9
  if h ≠ 0 then
    Cs.getEgprsByNum (if !c.csAdj then (if c.initialMcs ≠ 0 then c.initialMcs else h) else if c.maxMcs ≠ 0 then c.maxMcs else 9)
  else
    let num := if !c.csAdj then (if c.initialCs ≠ 0 then c.initialCs else highest c.csMask 4) else c.maxCs
    Cs.getGprsByNum (if num = 0 then 4 else num)

/-- gprs_bssgp_pcu.c:957-970: estimate of the leak rate, 0 if there is none; `none`: signed overflow. The sum is
computed without sign because the leak rate is unsigned. -/
def estimate (max : Nat) : Option (Int × Int) → Option Nat
  | none => some 0
  | some (rate, usage) =>
    if rate ≤ 0 then some 0
    else if rate * usage ≥ 2 ^ 31 ∨ rate * usage < -2 ^ 31 then none
    else some (((rate * usage + max * (1000 - usage)) % 2 ^ 32).toNat / 1000)

/-- Parameters of the message: bucket size and leak rate of the cell and of a mobile, in octets and octets per second,
average delay in milliseconds. -/
structure Msg where
  bucket : Nat
  leak : Nat
  msBucket : Nat
  msLeak : Nat
  delay : Nat
  deriving DecidableEq, Repr

/-- gprs_bssgp_pcu.c:918-1039 `gprs_bssgp_tx_fc_bvc`; `none`: signed overflow. -/
def txFc (c : Cfg) (m : Meas) : Option Msg × Meas :=
  let cs := maxScheme c
  let (e, m) := if c.bvcLeak = 0 then
      let (x, m) := measured m c.numPdch
      (estimate (maxLeak cs c.numPdch) x, m)
    else (some c.bvcLeak, m)
  match e with
  | none => (none, m)
  | some leak =>
    let leak := if leak = 0 then maxLeak cs c.numPdch else leak
    let msLeak := if c.msLeak = 0 then maxLeak cs (min c.numPdch (if c.singleSlot then 1 else 4)) else c.msLeak
    let bucket := if c.bvcBucket = 0 then bucketSize c leak 2000 else c.bvcBucket
    let msBucket := if c.msBucket = 0 then bucketSize c msLeak (bucket / 2 + 500) else c.msBucket
    let (d, m) := avgDelay m
    (some { bucket := bucket, leak := min leak 819187, msBucket := msBucket, msLeak := min msLeak 819187, delay := d }, m)

end Verif.Fc
