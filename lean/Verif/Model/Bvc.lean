/-!
# Bringing up the Gb interface

Source: /repo/src/gprs_bssgp_pcu.c: bvc_timeout 1041-1079, BVC-RESET-ACK and BVC-UNBLOCK-ACK in gprs_bssgp_pcu_rx_sign 408-432,
handle_nm_status 572-615, bssgp_prim_cb 617-665, gprs_ns_prim_status_cb 667-705; snd_ul_ud in tbf_ul.cpp:458-485 (sends without
looking at this state).
-/

namespace Verif.Bvc

/-- What the PCU sends to the SGSN. `sig`: for BVCI 0, otherwise for the BVC of the cell. -/
inductive Up
  | reset (sig : Bool)
  | unblock
  | flow
  | data
  deriving DecidableEq

inductive Cause
  | blocked
  | unknown
  | other
  deriving DecidableEq

/-- What the SGSN sends to the PCU. `status`: with its cause, and whether it has a BVCI and it is that of the cell. `reset`: the
SGSN's own BVC-RESET, and whether it has a cause. -/
inductive Down
  | resetAck (sig : Bool)
  | unblockAck
  | flowAck
  | status (cause : Cause) (own : Bool)
  | reset (sig : Bool) (cause : Bool)
  deriving DecidableEq

/-- gprs_bssgp_pcu.h:54-67. `timer`: `bvc_timer` runs. -/
structure Pcu where
  nsvc : Bool
  sig : Bool
  reset : Bool
  unblocked : Bool
  timer : Bool
  deriving DecidableEq

/-- `gprs_bssgp_init`, 1235-1280, and `gprs_bssgp_destroy`, 1282-. -/
def Pcu.init : Pcu := ⟨false, false, false, false, false⟩

/-- gprs_bssgp_pcu.c:1041-1079 `bvc_timeout`. -/
def Pcu.timeout (p : Pcu) : Pcu × List Up :=
  ({ p with timer := true },
    if !p.sig then [.reset true] else if !p.reset then [.reset false] else if !p.unblocked then [.unblock] else [.flow])

/-- Reception of a message: gprs_bssgp_pcu.c:408-432 for the acknowledgements, where the BVCI of a BVC-RESET-ACK is not looked at;
342-346 for flow control; 572-615; 617-665 for BVC-RESET, where the reset for the cell at 639 is sent by libosmogb
(`bssgp_tx_bvc_ptp_reset`) and no timer is started. -/
def Pcu.rx (p : Pcu) : Down → Pcu × List Up
  | .resetAck _ => if !p.sig then { p with sig := true }.timeout else { p with reset := true }.timeout
  | .unblockAck => { p with unblocked := true }.timeout
  | .flowAck => (p, [])
  | .status .blocked true => if p.unblocked then { p with unblocked := false }.timeout else (p, [])
  | .status .unknown true => if p.reset then { p with reset := false }.timeout else (p, [])
  | .status _ _ => (p, [])
  | .reset true cause => if cause then ({ p with sig := true, reset := false, unblocked := false }, [.reset false]) else (p, [])
  | .reset false _ => { p with reset := true, unblocked := false }.timeout

/-- gprs_bssgp_pcu.c:673-681, `GPRS_NS2_AFF_CAUSE_RECOVERY`. -/
def Pcu.nsUp (p : Pcu) : Pcu × List Up :=
  if !p.nsvc then { p with sig := false, reset := false, nsvc := true }.timeout else (p, [])

/-- gprs_bssgp_pcu.c:682-691, `GPRS_NS2_AFF_CAUSE_FAILURE`. -/
def Pcu.nsDown (p : Pcu) : Pcu :=
  if p.nsvc then { p with nsvc := false, timer := false, sig := false, reset := false, unblocked := false } else p

end Verif.Bvc
