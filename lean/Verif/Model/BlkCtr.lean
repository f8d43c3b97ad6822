import Verif.Model.Sched
/-!
# Counters of data blocks by coding scheme

`update_coding_scheme_counter_dl`, `update_coding_scheme_counter_ul` with the counter groups of a BTS and of its TBFs. A counter has
the name of its position in the table of descriptions (`rate_ctr_group_alloc` of libosmocore). Counters are unbounded here (64 bits in C).
-/

namespace Verif.BlkCtr

open Verif.Cs

/-- Direction of a TBF. -/
inductive Dir where
  | dl | ul
  deriving DecidableEq, Repr

/-- A group of counters by position. -/
abbrev Group := Nat → Nat

/-- bts.cpp:108-211 `bts_ctr_description`: the entries that name a direction and a scheme; the 76 others are `none`. -/
def btsDesc : List (Option (Dir × CS)) :=
  List.replicate 76 none ++
  [some (.dl, .cs1), some (.dl, .cs2), some (.dl, .cs3), some (.dl, .cs4),
   some (.dl, .mcs1), some (.dl, .mcs2), some (.dl, .mcs3), some (.dl, .mcs4), some (.dl, .mcs5),
   some (.dl, .mcs6), some (.dl, .mcs7), some (.dl, .mcs8), some (.dl, .mcs9),
   some (.ul, .cs1), some (.ul, .cs2), some (.ul, .cs3), some (.ul, .cs4),
   some (.ul, .mcs1), some (.ul, .mcs2), some (.ul, .mcs3), some (.ul, .mcs4), some (.ul, .mcs5),
   some (.ul, .mcs6), some (.ul, .mcs7), some (.ul, .mcs8), some (.ul, .mcs9)]

/-- tbf_dl.cpp:58-63, tbf_ul.cpp:56-61: names of the counters of the group "tbf:gprs". -/
def gprsDesc : List CS := [.cs1, .cs2, .cs3, .cs4]

/-- tbf_dl.cpp:65-75, tbf_ul.cpp:63-73: names of the counters of the group "tbf:egprs". -/
def egprsDesc : List CS := [.mcs1, .mcs2, .mcs3, .mcs4, .mcs5, .mcs6, .mcs7, .mcs8, .mcs9]

/-- The counter groups of a TBF; `none`: not allocated (NULL). -/
structure Tbf where
  dir : Dir
  gprs : Option Group
  egprs : Option Group

/-- tbf_dl.cpp:126-144: a downlink TBF has one group, by its kind. -/
def Tbf.newDl (egprs : Bool) : Tbf :=
  if egprs then { dir := .dl, gprs := none, egprs := some fun _ => 0 }
  else { dir := .dl, gprs := some fun _ => 0, egprs := none }

/-- tbf_ul.cpp:146-149: an uplink TBF has both. -/
def Tbf.newUl : Tbf := { dir := .ul, gprs := some fun _ => 0, egprs := some fun _ => 0 }

/-- bts.h:156-181, as used in tbf_dl.cpp:1346-1405 and tbf_ul.cpp:603-662: number of the counter of the BTS. -/
def btsId : Dir → CS → Option Nat
  | _, .unknown => none
  | .dl, .cs1 => some 76 | .dl, .cs2 => some 77 | .dl, .cs3 => some 78 | .dl, .cs4 => some 79
  | .dl, .mcs1 => some 80 | .dl, .mcs2 => some 81 | .dl, .mcs3 => some 82 | .dl, .mcs4 => some 83 | .dl, .mcs5 => some 84
  | .dl, .mcs6 => some 85 | .dl, .mcs7 => some 86 | .dl, .mcs8 => some 87 | .dl, .mcs9 => some 88
  | .ul, .cs1 => some 89 | .ul, .cs2 => some 90 | .ul, .cs3 => some 91 | .ul, .cs4 => some 92
  | .ul, .mcs1 => some 93 | .ul, .mcs2 => some 94 | .ul, .mcs3 => some 95 | .ul, .mcs4 => some 96 | .ul, .mcs5 => some 97
  | .ul, .mcs6 => some 98 | .ul, .mcs7 => some 99 | .ul, .mcs8 => some 100 | .ul, .mcs9 => some 101

/-- tbf.h:68-85, tbf_ul.h:38-55: group of the TBF (`true`: "tbf:egprs") and number of the counter in it. -/
def tbfId : CS → Option (Bool × Nat)
  | .unknown => none
  | .cs1 => some (false, 0) | .cs2 => some (false, 1) | .cs3 => some (false, 2) | .cs4 => some (false, 3)
  | .mcs1 => some (true, 0) | .mcs2 => some (true, 1) | .mcs3 => some (true, 2) | .mcs4 => some (true, 3) | .mcs5 => some (true, 4)
  | .mcs6 => some (true, 5) | .mcs7 => some (true, 6) | .mcs8 => some (true, 7) | .mcs9 => some (true, 8)

/-- `rate_ctr_inc`. -/
def bump (g : Group) (i : Nat) : Group := fun j => if j = i then g j + 1 else g j

/-- tbf_dl.cpp:1346-1405, tbf_ul.cpp:603-662. An unknown scheme is only logged. `none`: counter of a group that does not exist. -/
def count (b : Group) (t : Tbf) (cs : CS) : Option (Group × Tbf) :=
  match btsId t.dir cs, tbfId cs with
  | some i, some (true, j) => t.egprs.map fun g => (bump b i, { t with egprs := some (bump g j) })
  | some i, some (false, j) => t.gprs.map fun g => (bump b i, { t with gprs := some (bump g j) })
  | _, _ => some (b, t)

/-- The counters of a BTS and of its TBFs, in the order of their creation; `none`: freed. -/
structure World where
  bts : Group
  tbfs : List (Option Tbf)

/-- A BTS without TBFs. -/
def World.init : World := { bts := fun _ => 0, tbfs := [] }

/-- What happens: a TBF is allocated or freed; a downlink TBF sends the block that was created in scheme `ini` and for which `cs` is
chosen, in a radio block of its own (`single`) or with a second one; an uplink TBF receives a radio block in scheme `cs`, possibly while
it is in state RELEASING. -/
inductive Op where
  | newDl (egprs : Bool)
  | newUl
  | free (k : Nat)
  | tx (k : Nat) (ini cs : CS) (single : Bool)
  | rx (k : Nat) (cs : CS) (releasing : Bool)
  deriving DecidableEq, Repr

/-- tbf_dl.cpp:734-741: counted is the scheme chosen for the first block, before 742-761 look at the number of blocks;
tbf_ul.cpp:261-285: a block that arrives in state RELEASING is discarded before it is counted. -/
def step (w : World) : Op → Option World
  | .newDl e => some { w with tbfs := w.tbfs ++ [some (.newDl e)] }
  | .newUl => some { w with tbfs := w.tbfs ++ [some .newUl] }
  | .free k => some { w with tbfs := w.tbfs.set k none }
  | .tx k _ cs _ =>
    match w.tbfs[k]? with
    | some (some t) =>
      if t.dir = .dl then (count w.bts t cs).map fun r => { bts := r.1, tbfs := w.tbfs.set k (some r.2) } else some w
    | _ => some w
  | .rx k cs releasing =>
    match w.tbfs[k]? with
    | some (some t) =>
      if t.dir = .ul ∧ releasing = false then (count w.bts t cs).map fun r => { bts := r.1, tbfs := w.tbfs.set k (some r.2) }
      else some w
    | _ => some w

/-- A history. -/
def run (w : World) : List Op → Option World
  | [] => some w
  | o :: l => (step w o).bind fun w' => run w' l

end Verif.BlkCtr
