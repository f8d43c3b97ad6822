import Verif.Spec.MsStore
/-!
# What is known of the capabilities of a mobile
-/

namespace Verif.Store

/-- The multislot classes of a mobile for GPRS and EGPRS. 0: not known. -/
inductive Cap
  | gprs
  | egprs

/-- What is known of a mobile. -/
def Mob.cap (m : Mob) : Cap → Nat
  | .gprs => m.msClass
  | .egprs => m.egprsClass

/-- What the SGSN tells of the mobile along with a frame for it. -/
def Pdu.cap (p : Pdu) : Cap → Nat
  | .gprs => p.msClass
  | .egprs => p.egprsClass

end Verif.Store
