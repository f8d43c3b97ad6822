/-!
# Figures reported once a second for a TBF

`src/gprs_rlcmac_meas.cpp`: the mean signal strength of an uplink TBF and the losses of a downlink TBF
(both written to the log), and the throughput of a downlink TBF (written to the log and shown by
`show ms`, `src/pcu_vty_functions.cpp`). Times are nanoseconds of the monotonic clock. `none` as a
result is a signed overflow.

Left out: `gprs_rlcmac_meas_rep`, which writes a report of the mobile to the log.
-/

namespace Verif.Reports

/-- gprs_rlcmac_meas.cpp:79-83 and the like: `elapsed.tv_sec`, `elapsed.tv_nsec` (timespecsub). The
clock does not go back. -/
def secs (now mark : Nat) : Nat := (now - mark) / 1000000000
def nsecs (now mark : Nat) : Nat := (now - mark) % 1000000000

/-- tbf.h:224-230 `struct Meas`. -/
structure Rssi where
  mark : Nat
  sum : Int := 0
  num : Int := 0
  deriving DecidableEq, Repr

/-- gprs_rlcmac_meas.cpp:73-108 `gprs_rlcmac_rssi`, `gprs_rlcmac_rssi_rep`; the report is what is
written to the log. -/
def rssi (s : Rssi) (now : Nat) (v : Int) : Option (Rssi × Option Int) :=
  if s.sum + v < -2147483648 ∨ 2147483647 < s.sum + v ∨ 2147483647 < s.num + 1 then none
  else
    let s := { s with sum := s.sum + v, num := s.num + 1 }
    if secs now s.mark < 1 then some (s, none)
    else some (⟨now, 0, 0⟩, if s.num = 0 then none else some (s.sum.tdiv s.num))

/-- tbf_dl.h:93-99 `struct BandWidth`, the losses. -/
structure Loss where
  mark : Nat
  lost : Nat := 0
  received : Nat := 0
  deriving DecidableEq, Repr

/-- gprs_rlcmac_meas.cpp:116-161 `gprs_rlcmac_received_lost`, `gprs_rlcmac_lost_rep`; all counts have
16 bits. -/
def loss (s : Loss) (now received lost : Nat) : Loss × Option Nat :=
  if (received + lost) % 65536 = 0 then (s, none)
  else
    let s := { s with received := (s.received + received) % 65536, lost := (s.lost + lost) % 65536 }
    if secs now s.mark < 1 then (s, none)
    else (⟨now, 0, 0⟩, if (s.lost + s.received) % 65536 = 0 then none
      else some (s.lost * 100 / ((s.lost + s.received) % 65536)))

/-- tbf_dl.h:93-95 `struct BandWidth`, the throughput. -/
structure Rate where
  mark : Nat
  octets : Nat := 0
  throughput : Nat := 0
  deriving DecidableEq, Repr

/-- gprs_rlcmac_meas.cpp:168-189 `gprs_rlcmac_dl_bw`; the number of octets and its shifted value have
32 bits. -/
def rate (s : Rate) (now octets : Nat) : Rate :=
  let s := { s with octets := (s.octets + octets) % 4294967296 }
  if secs now s.mark < 1 then s
  else { mark := now, octets := 0
         throughput := (s.octets * 1024 % 4294967296) /
           (secs now s.mark * 1024 + nsecs now s.mark / 1048576) % 4294967296 }

/-- pcu_vty_functions.cpp:218-220: the number before `Kbps`, asked for at time `now`. -/
def showKbps (s : Rate) (_now : Nat) : Nat := s.throughput

/-- All blocks of an uplink TBF that began at `t0` (tbf.cpp:132, tbf_ul.cpp:275): the reports. -/
def rssis (s : Rssi) : List (Nat × Int) → Option (Rssi × List Int)
  | [] => some (s, [])
  | (t, v) :: l => (rssi s t v).bind fun p => (rssis p.1 l).map fun q => (q.1, p.2.toList ++ q.2)

/-- All acknowledgements of a downlink TBF (tbf_dl.cpp:100, 1047, 1072, tbf.cpp:263): time, blocks
received, blocks lost. -/
def losses (s : Loss) : List (Nat × Nat × Nat) → Loss × List Nat
  | [] => (s, [])
  | (t, r, l) :: xs =>
    let p := loss s t r l
    let q := losses p.1 xs
    (q.1, p.2.toList ++ q.2)

/-- All frames of a downlink TBF that were sent completely (tbf_dl.cpp:99, 664): time, octets. -/
def rates (s : Rate) (l : List (Nat × Nat)) : Rate := l.foldl (fun s p => rate s p.1 p.2) s

end Verif.Reports
