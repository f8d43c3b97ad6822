/-!
# The configuration commands of the PCU

Model of `src/pcu_vty.c` (the commands of the node `pcu` and the function that writes the configuration file) and of the settings and
defaults in `src/gprs_pcu.h`, `src/gprs_pcu.c`, `src/pcu_main.cpp`.

A line is a list of words. A word that is a decimal number is `n`, any other is `w`; that `printf("%d")` and `atoi` undo each other, and that
the VTY of libosmocore finds the command that a line spells out in full, is taken as given. Timers (libosmocore `osmo_tdef_vty_set_cmd`,
`osmo_tdef_vty_write`) are known by one name, the one under which they are written.
-/

namespace Verif.Vty

/-- A word of a line. -/
inductive Tok where
  | w (s : String)
  | n (v : Nat)
deriving DecidableEq, Repr

abbrev Line := List Tok

/-- What a command expects: `lit` a word; `rng` `<lo-hi>`; `one` `(a|b)`; `alt` `(a|<lo-hi>)`; `var` a name in capitals; the last three can be left
out, `[<lo-hi>]`, `[NAME]`, `[(a|<lo-hi>)]`. -/
inductive Pat where
  | lit (s : String)
  | rng (lo hi : Nat)
  | one (ss : List String)
  | alt (s : String) (lo hi : Nat)
  | var
  | optRng (lo hi : Nat)
  | optVar
  | optAlt (s : String) (lo hi : Nat)

/-- One word against what is expected: what goes into `argv`. -/
def arg : Pat → Tok → Option (List Tok)
  | .lit s, .w t => if s = t then some [] else none
  | .lit _, .n _ => none
  | .rng lo hi, .n v => if lo ≤ v ∧ v ≤ hi then some [.n v] else none
  | .rng _ _, .w _ => none
  | .one ss, .w t => if t ∈ ss then some [.w t] else none
  | .one _, .n _ => none
  | .alt _ lo hi, .n v => if lo ≤ v ∧ v ≤ hi then some [.n v] else none
  | .alt s _ _, .w t => if s = t then some [.w t] else none
  | .var, t => some [t]
  | .optRng lo hi, .n v => if lo ≤ v ∧ v ≤ hi then some [.n v] else none
  | .optRng _ _, .w _ => none
  | .optVar, t => some [t]
  | .optAlt _ lo hi, .n v => if lo ≤ v ∧ v ≤ hi then some [.n v] else none
  | .optAlt s _ _, .w t => if s = t then some [.w t] else none

/-- A whole line against a command: `argv`, or not this command. -/
def fits : List Pat → Line → Option (List Tok)
  | [], [] => some []
  | [], _ :: _ => none
  | .optRng _ _ :: ps, [] => fits ps []
  | .optVar :: ps, [] => fits ps []
  | .optAlt _ _ _ :: ps, [] => fits ps []
  | _ :: _, [] => none
  | p :: ps, t :: ts =>
    match arg p t with
    | none => none
    | some a => match fits ps ts with
      | none => none
      | some r => some (a ++ r)

/-- `atoi(argv[i])`. -/
def atoi (a : List Tok) (i : Nat) : Nat :=
  match a[i]? with
  | some (.n v) => v
  | _ => 0

/-- `strcmp(argv[i], s) == 0`. -/
def streq (a : List Tok) (i : Nat) (s : String) : Bool := a[i]? == some (.w s)

/-- Assignment to `uint8_t`, `uint16_t`, `uint32_t`. -/
def u8 (v : Nat) : Nat := v % 256
def u16 (v : Nat) : Nat := v % 65536
def u32 (v : Nat) : Nat := v % 4294967296

/-- The slot allocation algorithms (gprs_rlcmac.h `alloc_algorithm_a`, …). -/
inductive Algo where
  | a | b | dyn
deriving DecidableEq, Repr

/-- gprs_pcu.h:78-141 `struct gprs_pcu`: what the commands set. Not here: the ends -256 and 256 of the first and the last link quality range,
which no command changes. `ns_ip_dscp`, `ns_priority`: `none` is -1. `timers`: `T_defs[].val` by name. `neighKeep`, `siKeep`: the storage time
that the two caches were told. -/
structure Cfg where
  fcInterval : Nat
  fcBucketTime : Nat
  fcBvcSize : Nat
  fcBvcRate : Nat
  fcMsSize : Nat
  fcMsRate : Nat
  forceCs : Bool
  csDl : Nat
  csUl : Nat
  forceMcs : Bool
  mcsDl : Nat
  mcsUl : Nat
  maxCsDl : Nat
  maxCsUl : Nat
  maxMcsDl : Nat
  maxMcsUl : Nat
  twoPhase : Nat
  alpha : Nat
  gamma : Nat
  preempt : Bool
  arq2 : Bool
  adj : Bool
  adjHi : Nat
  adjLo : Nat
  downgrade : Nat
  c1h : Nat
  c2l : Nat
  c2h : Nat
  c3l : Nat
  c3h : Nat
  c4l : Nat
  m1h : Nat
  m2l : Nat
  m2h : Nat
  m3l : Nat
  m3h : Nat
  m4l : Nat
  m4h : Nat
  m5l : Nat
  m5h : Nat
  m6l : Nat
  m6h : Nat
  m7l : Nat
  m7h : Nat
  m8l : Nat
  m8h : Nat
  m9l : Nat
  sns : Bool
  dscp : Option Nat
  prio : Option Nat
  wsBase : Nat
  wsPdch : Nat
  msclass : Nat
  lifetime : Nat
  discard : Nat
  idleAck : Nat
  codel : Nat
  mask : BitVec 32
  host : Option Tok
  algo : Option Algo
  sock : Tok
  timers : String → Nat
  neighKeep : Nat
  siKeep : Nat

/-- gprs_pcu.c:32-49 `T_defs_pcu`: name as written (`OSMO_T_FMT`: X for negative numbers), default, largest value (0: no limit). -/
def tdefs : List (String × Nat × Nat) :=
  [("T3113", 7, 0), ("T3190", 5, 0), ("T3141", 10, 0), ("T3172", 5000, 255000), ("X1", 1000, 0), ("X2", 1000, 0), ("X10", 5, 0), ("X11", 5, 0),
   ("X101", 30, 0), ("X102", 30, 0), ("X2000", 0, 0), ("X2001", 2, 0), ("X2002", 200, 0), ("X2030", 60, 0), ("X2031", 2000, 0)]

/-- libosmocore `osmo_tdef_get_entry`. -/
def tdef (name : String) : Option (Nat × Nat) := tdefs.lookup name

/-- libosmocore `osmo_tdefs_reset`: the value of a timer is its default. -/
def tdefault (name : String) : Nat := ((tdef name).map (·.1)).getD 0

/-- pcuif_proto.h:9 `PCU_SOCK_DEFAULT`. -/
def sockDefault : Tok := .w "/tmp/pcu_bts"

/-- gprs_pcu.h:35-36. -/
def codelDefault : Nat := 4294967295
def codelDisable : Nat := 0

/-- gprs_pcu.c:74-148 `gprs_pcu_alloc` and pcu_main.cpp:237-240. -/
def initial : Cfg where
  fcInterval := 1
  fcBucketTime := 0
  fcBvcSize := 0
  fcBvcRate := 0
  fcMsSize := 0
  fcMsRate := 0
  forceCs := false
  csDl := 0
  csUl := 0
  forceMcs := false
  mcsDl := 0
  mcsUl := 0
  maxCsDl := 4
  maxCsUl := 4
  maxMcsDl := 9
  maxMcsUl := 9
  twoPhase := 0
  alpha := 255
  gamma := 0
  preempt := true
  arq2 := false
  adj := true
  adjHi := 33
  adjLo := 10
  downgrade := 200
  c1h := 6
  c2l := 5
  c2h := 8
  c3l := 7
  c3h := 13
  c4l := 12
  m1h := 6
  m2l := 5
  m2h := 8
  m3l := 7
  m3h := 13
  m4l := 12
  m4h := 15
  m5l := 14
  m5h := 17
  m6l := 16
  m6h := 18
  m7l := 17
  m7h := 20
  m8l := 19
  m8h := 24
  m9l := 23
  sns := false
  dscp := none
  prio := none
  wsBase := 64
  wsPdch := 0
  msclass := 12
  lifetime := 0
  discard := 0
  idleAck := 10
  codel := codelDefault
  mask := 0
  host := none
  algo := none
  sock := sockDefault
  timers := tdefault
  neighKeep := tdefault "X10"
  siKeep := tdefault "X11"

/-- pcu_vty.c:32-51 `pcu_gsmtap_categ_names` with the numbers of gprs_pcu.h:50-67. -/
def categs : List (String × Nat) :=
  [("dl-unknown", 0), ("dl-dummy", 1), ("dl-ctrl", 2), ("dl-data-gprs", 3), ("dl-data-egprs", 4), ("dl-ptcch", 5), ("dl-agch", 6), ("dl-pch", 7),
   ("ul-unknown", 15), ("ul-dummy", 16), ("ul-ctrl", 17), ("ul-data-gprs", 18), ("ul-data-egprs", 19), ("ul-rach", 20), ("ul-ptcch", 21)]

/-- libosmocore `get_string_value(pcu_gsmtap_categ_names, argv[0])`. -/
def categOf (a : List Tok) : Option Nat :=
  match a.head? with
  | some (.w s) => categs.lookup s
  | _ => none

/-- libosmocore `get_value_string_or_null(pcu_gsmtap_categ_names, i)`. -/
def categName (i : Nat) : Option String := (categs.find? fun p => p.2 == i).map (·.1)

/-- A command: what its line looks like, and what it does (`none`: `CMD_WARNING`). -/
structure Cmd where
  pat : List Pat
  run : Cfg → List Tok → Option Cfg

/-- libosmocore `osmo_tdef_set` and `osmo_tdef_vty_set_cmd`: the value is set if it is in the range. -/
def setTimer (c : Cfg) (name : String) (v : Nat) : Option Cfg :=
  match tdef name with
  | none => none
  | some (_, mx) => if mx ≠ 0 ∧ v > mx then none else some { c with timers := fun k => if k = name then v else c.timers k }

/-- libosmocore `osmo_tdef_vty_set_cmd`: the value can be a number or "default". -/
def timerVal (name : String) : Tok → Nat
  | .n x => x
  | .w _ => tdefault name

/-- pcu_vty.c:1143-1168 `cfg_pcu_timer`. With less than two arguments it shows timers. -/
def timerCmd (c : Cfg) (a : List Tok) : Option Cfg :=
  match a with
  | [.w name, v] =>
    match setTimer c name (timerVal name v) with
    | none => none
    | some c =>
      if name = "X10" then some { c with neighKeep := c.timers name }
      else if name = "X11" then some { c with siKeep := c.timers name }
      else some c
  | [_, _] => none
  | _ => some c

/-- The second of two values is the first if it is left out (pcu_vty.c:473-476 and three more places). -/
def second (a : List Tok) : Nat := if a.length > 1 then u8 (atoi a 1) else u8 (atoi a 0)

/-- pcu_vty.c: the commands of the node `pcu`, in the order of the file; each with its lines. -/
def cmds : List Cmd := [
  -- 74-87
  ⟨[.lit "gsmtap-remote-host", .optVar], fun c a => some { c with host := some (a[0]?.getD (.w "localhost")) }⟩,
  -- 89-101
  ⟨[.lit "no", .lit "gsmtap-remote-host"], fun c _ => some { c with host := none }⟩,
  -- 103-116
  ⟨[.lit "gsmtap-category", .one ["enable-all", "disable-all"]],
    fun c a => some { c with mask := if streq a 0 "enable-all" then BitVec.allOnes 32 else 0 }⟩,
  -- 118-129, 1264-1269
  ⟨[.lit "gsmtap-category", .one (categs.map (·.1))], fun c a => (categOf a).map fun i => { c with mask := c.mask ||| (1#32 <<< i) }⟩,
  -- 131-142, 1270-1275
  ⟨[.lit "no", .lit "gsmtap-category", .one (categs.map (·.1))], fun c a => (categOf a).map fun i => { c with mask := c.mask &&& ~~~(1#32 <<< i) }⟩,
  -- 314-323
  ⟨[.lit "pcu"], fun c _ => some c⟩,
  -- 327-334, 336-343: no effect
  ⟨[.lit "egprs", .lit "only"], fun c _ => some c⟩,
  ⟨[.lit "no", .lit "egprs"], fun c _ => some c⟩,
  -- 345-354
  ⟨[.lit "flow-control-interval", .rng 1 10], fun c a => some { c with fcInterval := u8 (atoi a 0) }⟩,
  -- 359-367, 369-377
  ⟨[.lit "flow-control", .lit "force-bvc-bucket-size", .rng 1 6553500], fun c a => some { c with fcBvcSize := u32 (atoi a 0) }⟩,
  ⟨[.lit "no", .lit "flow-control", .lit "force-bvc-bucket-size"], fun c _ => some { c with fcBvcSize := 0 }⟩,
  -- 379-388, 390-398
  ⟨[.lit "flow-control", .lit "force-bvc-leak-rate", .rng 1 6553500], fun c a => some { c with fcBvcRate := u32 (atoi a 0) }⟩,
  ⟨[.lit "no", .lit "flow-control", .lit "force-bvc-leak-rate"], fun c _ => some { c with fcBvcRate := 0 }⟩,
  -- 400-408, 410-418
  ⟨[.lit "flow-control", .lit "force-ms-bucket-size", .rng 1 6553500], fun c a => some { c with fcMsSize := u32 (atoi a 0) }⟩,
  ⟨[.lit "no", .lit "flow-control", .lit "force-ms-bucket-size"], fun c _ => some { c with fcMsSize := 0 }⟩,
  -- 420-428, 430-438
  ⟨[.lit "flow-control", .lit "force-ms-leak-rate", .rng 1 6553500], fun c a => some { c with fcMsRate := u32 (atoi a 0) }⟩,
  ⟨[.lit "no", .lit "flow-control", .lit "force-ms-leak-rate"], fun c _ => some { c with fcMsRate := 0 }⟩,
  -- 441-449, 451-459
  ⟨[.lit "flow-control", .lit "bucket-time", .rng 1 65534], fun c a => some { c with fcBucketTime := u16 (atoi a 0) }⟩,
  ⟨[.lit "no", .lit "flow-control", .lit "bucket-time"], fun c _ => some { c with fcBucketTime := 0 }⟩,
  -- 463-480, gprs_pcu.c:170-180
  ⟨[.lit "cs", .rng 1 4, .optRng 1 4], fun c a => some { c with forceCs := true, csDl := u8 (atoi a 0), csUl := second a }⟩,
  -- 482-491
  ⟨[.lit "no", .lit "cs"], fun c _ => some { c with forceCs := false, csDl := 0, csUl := 0 }⟩,
  -- 494-513, gprs_pcu.c:193-203
  ⟨[.lit "cs", .lit "max", .rng 1 4, .optRng 1 4], fun c a => some { c with maxCsDl := u8 (atoi a 0), maxCsUl := second a }⟩,
  -- 515-523
  ⟨[.lit "no", .lit "cs", .lit "max"], fun c _ => some { c with maxCsDl := 0, maxCsUl := 0 }⟩,
  -- 526-543, gprs_pcu.c:181-191
  ⟨[.lit "mcs", .rng 1 9, .optRng 1 9], fun c a => some { c with forceMcs := true, mcsDl := u8 (atoi a 0), mcsUl := second a }⟩,
  -- 545-554
  ⟨[.lit "no", .lit "mcs"], fun c _ => some { c with forceMcs := false, mcsDl := 0, mcsUl := 0 }⟩,
  -- 556-575, gprs_pcu.c:204-214
  ⟨[.lit "mcs", .lit "max", .rng 1 9, .optRng 1 9], fun c a => some { c with maxMcsDl := u8 (atoi a 0), maxMcsUl := second a }⟩,
  -- 577-585
  ⟨[.lit "no", .lit "mcs", .lit "max"], fun c _ => some { c with maxMcsDl := 0, maxMcsUl := 0 }⟩,
  -- 589-603
  ⟨[.lit "egprs", .lit "dl", .lit "arq-type", .one ["spb", "arq2"]], fun c a => some { c with arq2 := streq a 0 "arq2" }⟩,
  -- 605-622
  ⟨[.lit "window-size", .rng 0 1024, .optRng 0 256],
    fun c a => some { c with wsBase := u16 (atoi a 0), wsPdch := if a.length > 1 then u16 (atoi a 1) else c.wsPdch }⟩,
  -- 629-638
  ⟨[.lit "queue", .lit "lifetime", .rng 1 65534], fun c a => some { c with lifetime := u16 (atoi a 0) }⟩,
  -- 640-648
  ⟨[.lit "queue", .lit "lifetime", .lit "infinite"], fun c _ => some { c with lifetime := 0xffff }⟩,
  -- 650-659
  ⟨[.lit "no", .lit "queue", .lit "lifetime"], fun c _ => some { c with lifetime := 0 }⟩,
  -- 664-673
  ⟨[.lit "queue", .lit "hysteresis", .rng 1 65535], fun c a => some { c with discard := u16 (atoi a 0) }⟩,
  -- 675-683
  ⟨[.lit "no", .lit "queue", .lit "hysteresis"], fun c _ => some { c with discard := 0 }⟩,
  -- 686-694
  ⟨[.lit "queue", .lit "codel"], fun c _ => some { c with codel := codelDefault }⟩,
  -- 696-705
  ⟨[.lit "queue", .lit "codel", .lit "interval", .rng 1 1000], fun c a => some { c with codel := u32 (10 * u16 (atoi a 0)) }⟩,
  -- 707-715
  ⟨[.lit "no", .lit "queue", .lit "codel"], fun c _ => some { c with codel := codelDisable }⟩,
  -- 720-729
  ⟨[.lit "queue", .lit "idle-ack-delay", .rng 1 65535], fun c a => some { c with idleAck := u16 (atoi a 0) }⟩,
  -- 731-739
  ⟨[.lit "no", .lit "queue", .lit "idle-ack-delay"], fun c _ => some { c with idleAck := 0 }⟩,
  -- 741-764
  ⟨[.lit "alloc-algorithm", .one ["a", "b", "dynamic"]],
    fun c a => some { c with algo := some (if streq a 0 "a" then .a else if streq a 0 "b" then .b else .dyn) }⟩,
  -- 766-774, 776-784
  ⟨[.lit "two-phase-access"], fun c _ => some { c with twoPhase := 1 }⟩,
  ⟨[.lit "no", .lit "two-phase-access"], fun c _ => some { c with twoPhase := 0 }⟩,
  -- 786-802
  ⟨[.lit "alpha", .alt "si13" 0 10], fun c a => some { c with alpha := if streq a 0 "si13" then 255 else u8 (atoi a 0) }⟩,
  -- 804-813
  ⟨[.lit "gamma", .rng 0 62], fun c a => some { c with gamma := u8 (atoi a 0 / 2) }⟩,
  -- 841-851, 853-863
  ⟨[.lit "dl-tbf-idle-time", .rng 1 5000], fun c a => setTimer c "X2031" (atoi a 0)⟩,
  ⟨[.lit "no", .lit "dl-tbf-idle-time"], fun c _ => setTimer c "X2031" 0⟩,
  -- 867-875, 877-885
  ⟨[.lit "dl-tbf-preemptive-retransmission"], fun c _ => some { c with preempt := true }⟩,
  ⟨[.lit "no", .lit "dl-tbf-preemptive-retransmission"], fun c _ => some { c with preempt := false }⟩,
  -- 887-898
  ⟨[.lit "multislot-class", .lit "default", .rng 1 45], fun c a => some { c with msclass := u8 (atoi a 0) }⟩,
  -- 901-910, 912-921
  ⟨[.lit "ms-idle-time", .rng 1 7200], fun c a => setTimer c "X2030" (atoi a 0)⟩,
  ⟨[.lit "no", .lit "ms-idle-time"], fun c _ => setTimer c "X2030" 0⟩,
  -- 924-945
  ⟨[.lit "cs", .lit "threshold", .rng 0 100, .rng 0 100],
    fun c a => if u8 (atoi a 0) > u8 (atoi a 1) then none
      else some { c with adj := true, adjHi := u8 (atoi a 1), adjLo := u8 (atoi a 0) }⟩,
  -- 947-958
  ⟨[.lit "no", .lit "cs", .lit "threshold"], fun c _ => some { c with adj := false, adjHi := 100, adjLo := 0 }⟩,
  -- 961-969
  ⟨[.lit "cs", .lit "downgrade-threshold", .rng 1 10000], fun c a => some { c with downgrade := u16 (atoi a 0) }⟩,
  -- 971-979
  ⟨[.lit "no", .lit "cs", .lit "downgrade-threshold"], fun c _ => some { c with downgrade := 0 }⟩,
  -- 981-1012
  ⟨[.lit "cs", .lit "link-quality-ranges", .lit "cs1", .rng 0 35, .lit "cs2", .rng 0 35, .rng 0 35, .lit "cs3", .rng 0 35, .rng 0 35,
      .lit "cs4", .rng 0 35],
    fun c a => some { c with
      c1h := u8 (atoi a 0), c2l := u8 (atoi a 1), c2h := u8 (atoi a 2), c3l := u8 (atoi a 3), c3h := u8 (atoi a 4), c4l := u8 (atoi a 5) }⟩,
  -- 1014-1063
  ⟨[.lit "mcs", .lit "link-quality-ranges", .lit "mcs1", .rng 0 35, .lit "mcs2", .rng 0 35, .rng 0 35, .lit "mcs3", .rng 0 35, .rng 0 35,
      .lit "mcs4", .rng 0 35, .rng 0 35, .lit "mcs5", .rng 0 35, .rng 0 35, .lit "mcs6", .rng 0 35, .rng 0 35, .lit "mcs7", .rng 0 35, .rng 0 35,
      .lit "mcs8", .rng 0 35, .rng 0 35, .lit "mcs9", .rng 0 35],
    fun c a => some { c with
      m1h := atoi a 0, m2l := atoi a 1, m2h := atoi a 2, m3l := atoi a 3, m3h := atoi a 4, m4l := atoi a 5, m4h := atoi a 6, m5l := atoi a 7,
      m5h := atoi a 8, m6l := atoi a 9, m6h := atoi a 10, m7l := atoi a 11, m7h := atoi a 12, m8l := atoi a 13, m8h := atoi a 14,
      m9l := atoi a 15 }⟩,
  -- 1065-1077
  ⟨[.lit "pcu-socket", .var], fun c a => some { c with sock := a[0]?.getD c.sock }⟩,
  -- 1079-1094
  ⟨[.lit "gb-dialect", .one ["classic", "ip-sns"]], fun c a => some { c with sns := streq a 0 "ip-sns" }⟩,
  -- 1096-1106
  ⟨[.lit "gb", .lit "ip-dscp", .rng 0 63], fun c a => some { c with dscp := some (atoi a 0) }⟩,
  -- 1108-1118
  ⟨[.lit "gb", .lit "socket-priority", .rng 0 255], fun c a => some { c with prio := some (atoi a 0) }⟩,
  -- 1143-1168
  ⟨[.lit "timer", .optVar, .optAlt "default" 0 2147483647], timerCmd⟩]

/-- The VTY executes a line: `none` if no command looks like it or the command refuses. -/
def exec (c : Cfg) (l : Line) : Option Cfg :=
  (cmds.findSome? fun k => (fits k.pat l).map (k.run c)).bind id

/-- The lines of a file, one after the other; the first that is refused ends it (libosmocore `vty_read_config_file`). -/
def execAll (c : Cfg) : List Line → Option Cfg
  | [] => some c
  | l :: ls => match exec c l with
    | none => none
    | some c => execAll c ls

/-- pcu_main.cpp:316-317, after the file is read. -/
def finish (c : Cfg) : Cfg := { c with algo := some (c.algo.getD .dyn) }

/-- The PCU starts with this configuration file; `none`: it ends with "Failed to parse the config file" (pcu_main.cpp:276-281). -/
def boot (file : List Line) : Option Cfg := (execAll initial file).map finish

section write

/-- A line that is only there if the value is not 0. -/
def unless0 (v : Nat) (l : Line) : List Line := if v ≠ 0 then [l] else []

/-- pcu_vty.c:154-168: flow control. -/
def wFc (c : Cfg) : List Line :=
  [[.w "pcu"], [.w "flow-control-interval", .n c.fcInterval]] ++
  unless0 c.fcBvcSize [.w "flow-control", .w "force-bvc-bucket-size", .n c.fcBvcSize] ++
  unless0 c.fcBvcRate [.w "flow-control", .w "force-bvc-leak-rate", .n c.fcBvcRate] ++
  unless0 c.fcMsSize [.w "flow-control", .w "force-ms-bucket-size", .n c.fcMsSize] ++
  unless0 c.fcMsRate [.w "flow-control", .w "force-ms-leak-rate", .n c.fcMsRate]

/-- pcu_vty.c:169-176. -/
def wCs (c : Cfg) : List Line :=
  if c.forceCs then
    if c.csUl = c.csDl then [[.w "cs", .n c.csDl]] else [[.w "cs", .n c.csDl, .n c.csUl]]
  else []

/-- pcu_vty.c:177-184. -/
def wCsMax (c : Cfg) : List Line :=
  if c.maxCsDl ≠ 0 ∧ c.maxCsUl ≠ 0 then
    if c.maxCsUl = c.maxCsDl then [[.w "cs", .w "max", .n c.maxCsDl]] else [[.w "cs", .w "max", .n c.maxCsDl, .n c.maxCsUl]]
  else []

/-- pcu_vty.c:185-190. -/
def wAdj (c : Cfg) : List Line :=
  if c.adj then [[.w "cs", .w "threshold", .n c.adjLo, .n c.adjHi]] else [[.w "no", .w "cs", .w "threshold"]]

/-- pcu_vty.c:192-196. -/
def wDowngrade (c : Cfg) : List Line :=
  if c.downgrade ≠ 0 then [[.w "cs", .w "downgrade-threshold", .n c.downgrade]] else [[.w "no", .w "cs", .w "downgrade-threshold"]]

/-- pcu_vty.c:198-205. -/
def wCsLq (c : Cfg) : Line :=
  [.w "cs", .w "link-quality-ranges", .w "cs1", .n c.c1h, .w "cs2", .n c.c2l, .n c.c2h, .w "cs3", .n c.c3l, .n c.c3h, .w "cs4", .n c.c4l]

/-- pcu_vty.c:207-224. -/
def wMcsLq (c : Cfg) : Line :=
  [.w "mcs", .w "link-quality-ranges", .w "mcs1", .n c.m1h, .w "mcs2", .n c.m2l, .n c.m2h, .w "mcs3", .n c.m3l, .n c.m3h, .w "mcs4", .n c.m4l,
    .n c.m4h, .w "mcs5", .n c.m5l, .n c.m5h, .w "mcs6", .n c.m6l, .n c.m6h, .w "mcs7", .n c.m7l, .n c.m7h, .w "mcs8", .n c.m8l, .n c.m8h,
    .w "mcs9", .n c.m9l]

/-- pcu_vty.c:226-233. -/
def wMcs (c : Cfg) : List Line :=
  if c.forceMcs then
    if c.mcsUl = c.mcsDl then [[.w "mcs", .n c.mcsDl]] else [[.w "mcs", .n c.mcsDl, .n c.mcsUl]]
  else []

/-- pcu_vty.c:235-242. -/
def wMcsMax (c : Cfg) : List Line :=
  if c.maxMcsDl ≠ 0 ∧ c.maxMcsUl ≠ 0 then
    if c.maxMcsUl = c.maxMcsDl then [[.w "mcs", .w "max", .n c.maxMcsDl]] else [[.w "mcs", .w "max", .n c.maxMcsDl, .n c.maxMcsUl]]
  else []

/-- pcu_vty.c:244-245. -/
def wWs (c : Cfg) : Line := [.w "window-size", .n c.wsBase, .n c.wsPdch]

/-- pcu_vty.c:247-248. -/
def wArq (c : Cfg) : List Line := if c.arq2 then [[.w "egprs", .w "dl", .w "arq-type", .w "arq2"]] else []

/-- pcu_vty.c:250-260. -/
def wQueue (c : Cfg) : List Line :=
  (if c.lifetime = 0xffff then [[.w "queue", .w "lifetime", .w "infinite"]] else unless0 c.lifetime [.w "queue", .w "lifetime", .n c.lifetime]) ++
  unless0 c.discard [.w "queue", .w "hysteresis", .n c.discard] ++
  unless0 c.idleAck [.w "queue", .w "idle-ack-delay", .n c.idleAck]

/-- pcu_vty.c:261-267. -/
def wCodel (c : Cfg) : List Line :=
  if c.codel = codelDefault then [[.w "queue", .w "codel"]]
  else if c.codel = codelDisable then [[.w "no", .w "queue", .w "codel"]]
  else [[.w "queue", .w "codel", .w "interval", .n (c.codel / 10)]]

/-- pcu_vty.c:269-274. -/
def wAlgo (c : Cfg) : List Line :=
  match c.algo with
  | some .a => [[.w "alloc-algorithm", .w "a"]]
  | some .b => [[.w "alloc-algorithm", .w "b"]]
  | some .dyn => [[.w "alloc-algorithm", .w "dynamic"]]
  | none => []

/-- pcu_vty.c:275-285. -/
def wRadio (c : Cfg) : List Line :=
  unless0 c.twoPhase [.w "two-phase-access"] ++
  (if c.alpha ≠ 255 then [[.w "alpha", .n c.alpha]] else []) ++
  [[.w "gamma", .n (c.gamma * 2)]] ++
  (if c.preempt then [] else [[.w "no", .w "dl-tbf-preemptive-retransmission"]]) ++
  (if c.msclass ≠ 12 then [[.w "multislot-class", .w "default", .n c.msclass]] else []) ++
  (if c.sock ≠ sockDefault then [[.w "pcu-socket", c.sock]] else [])

/-- pcu_vty.c:287-296. -/
def wGsmtap (c : Cfg) : List Line :=
  (match c.host with
    | some h => [[.w "gsmtap-remote-host", h]]
    | none => []) ++
  (List.range 32).filterMap fun i =>
    if c.mask.getLsbD i then (categName i).map fun s => [.w "gsmtap-category", .w s] else none

/-- pcu_vty.c:298-306. -/
def wGb (c : Cfg) : List Line :=
  (if c.sns then [[.w "gb-dialect", .w "ip-sns"]] else [[.w "gb-dialect", .w "classic"]]) ++
  (match c.dscp with
    | some v => [[.w "gb", .w "ip-dscp", .n v]]
    | none => []) ++
  (match c.prio with
    | some v => [[.w "gb", .w "socket-priority", .n v]]
    | none => [])

/-- pcu_vty.c:308, libosmocore `osmo_tdef_vty_write`: the timers that do not have their default value. -/
def wTimers (c : Cfg) : List Line :=
  tdefs.filterMap fun t => if c.timers t.1 = t.2.1 then none else some [.w "timer", .w t.1, .n (c.timers t.1)]

/-- pcu_vty.c:150-311 `config_write_pcu`. -/
def write (c : Cfg) : List Line :=
  wFc c ++ wCs c ++ wCsMax c ++ wAdj c ++ wDowngrade c ++ [wCsLq c, wMcsLq c] ++ wMcs c ++ wMcsMax c ++ [wWs c] ++ wArq c ++ wQueue c ++
  wCodel c ++ wAlgo c ++ wRadio c ++ wGsmtap c ++ wGb c ++ wTimers c

end write

end Verif.Vty
