import Verif.Model.World
/-!
# The statistic "all PDCHs allocated"

What `_update_stats_timer_cb` (src/gprs_pcu.c:51-60) stores every second for each BTS.
-/

namespace Verif.Alloc

/-- pdch.cpp:1317-1322 `pdch_is_full`. -/
def pdchFull (p : Pdch) : Bool :=
  decide (p.tfiMap .ul = 0xffffffff) || decide (p.tfiMap .dl = 0xffffffff) || (findFreeUsf p.usfMap).isNone

/-- bts.cpp:1465-1480 `bts_all_pdch_allocated`. -/
def allAllocated (bts : Nat → Trx) : Bool :=
  (List.range 8).all fun t => (List.range 8).all fun s => !(bts t s).enabled || pdchFull (bts t s)

end Verif.Alloc
