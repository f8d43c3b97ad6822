import Verif.Model.UlRx
/-!
# The radio access capability in a message of the SGSN

* `parse_ra_cap`, src/gprs_bssgp_pcu.c:70-94, and its use, 142-150
* `decode_gsm_ra_cap`, src/gsm_rlcmac.c:6158-6180
-/

namespace Verif.Csn1

open T

/-- The first entry of `MS_Radio_Access_capability_t` (src/gsm_rlcmac.c:1006-1009); padding follows. -/
def raItem : Item :=
  .recTArray1 MS_RA_capability_value_t MS_Radio_Access_capability_t.MS_RA_capability_value
    MS_Radio_Access_capability_t.Count_MS_RA_capability_value 11

/-- src/gprs_bssgp_pcu.c:70-94 with decode_gsm_ra_cap, then 144-147: GPRS and EGPRS multislot class. The structure is cleared first; the
result of the decoder is not looked at. When the decoder gives up in the list of capabilities it has not stored their number, which
then is 0 and no class is found; when it gives up behind the list everything is stored. -/
def raCap (octets : List Nat) : Nat × Nat :=
  match decItem (Bits.putOctets octets) raItem [] ⟨(8 * octets.length : Nat), 0, fun _ => 0⟩ with
  | .ok s => (gprsClass s.data [], egprsClass s.data [])
  | _ => (0, 0)

end Verif.Csn1
