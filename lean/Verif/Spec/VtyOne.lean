import Verif.Model.Vty
/-!
# One command: what is expected

Said in terms of the lines that `write` shows, without looking at the settings.
-/

namespace Verif.Vty

/-- Words that do not name a setting alone: what they are about is in the next word. -/
def groups : List String := ["flow-control", "queue", "gb", "gsmtap-category", "timer", "multislot-class", "cs", "mcs", "egprs"]

/-- The setting that a line is about, without a `no` before it. Two commands are other names of timers. -/
def nameOf : Line → List String
  | .w a :: rest =>
    if a = "dl-tbf-idle-time" then ["timer", "X2031"]
    else if a = "ms-idle-time" then ["timer", "X2030"]
    else if a ∈ groups then
      match rest with
      | .w b :: _ => [a, b]
      | _ => [a]
    else [a]
  | _ => []

/-- The setting that a line is about. -/
def subject (l : Line) : List String := if l.head? = some (.w "no") then nameOf l.tail else nameOf l

/-- `gsmtap-category enable-all` and `disable-all` are about all kinds of frames. -/
def isAll (l : Line) : Bool := subject l == ["gsmtap-category", "enable-all"] || subject l == ["gsmtap-category", "disable-all"]

/-- A command is about the setting with this name. -/
def touches (l : Line) (s : List String) : Bool := s == subject l || (isAll l && s.head? == some "gsmtap-category")

/-- The lines that are about the same thing as the command, and all others. -/
def sameThing (l : Line) (file : List Line) : List Line := file.filter fun x => touches l (subject x)
def otherThings (l : Line) (file : List Line) : List Line := file.filter fun x => !touches l (subject x)

/-- The kinds of frames by name, in the order of their numbers. -/
def frameKinds : List String :=
  ["dl-unknown", "dl-dummy", "dl-ctrl", "dl-data-gprs", "dl-data-egprs", "dl-ptcch", "dl-agch", "dl-pch", "ul-unknown", "ul-dummy", "ul-ctrl",
   "ul-data-gprs", "ul-data-egprs", "ul-rach", "ul-ptcch"]

/-- The defaults of the timers in the manual. -/
def timerDefaults : List (String × Nat) :=
  [("T3113", 7), ("T3190", 5), ("T3141", 10), ("T3172", 5000), ("X1", 1000), ("X2", 1000), ("X10", 5), ("X11", 5), ("X101", 30), ("X102", 30),
   ("X2000", 0), ("X2001", 2), ("X2002", 200), ("X2030", 60), ("X2031", 2000)]

/-- A timer is shown if it does not have its default value. -/
def timerLine (name : String) (v : Nat) : List Line :=
  if timerDefaults.lookup name = some v then [] else [[.w "timer", .w name, .n v]]

/-- What is shown about a setting after it was switched off: nothing, unless being off is not the default. -/
def expectNo (r : Line) : List Line :=
  if r = [.w "cs", .w "threshold"] ∨ r = [.w "cs", .w "downgrade-threshold"] ∨ r = [.w "queue", .w "codel"] ∨
      r = [.w "dl-tbf-preemptive-retransmission"] then [.w "no" :: r]
  else if r = [.w "dl-tbf-idle-time"] then timerLine "X2031" 0
  else if r = [.w "ms-idle-time"] then timerLine "X2030" 0
  else []

/-- What is shown about a setting after a command that sets it, `old` being what was shown before: the command itself, but

* nothing if it is the default (`dl-tbf-preemptive-retransmission`, `alpha si13`, `egprs dl arq-type spb`, `multislot-class default 12`, the
  default socket, timers);
* two equal values are shown as one; `gamma` is in steps of two; the default host is shown by its name;
* `window-size` with one value keeps the other;
* `timer` without a value only shows something, `egprs only` has no meaning any more. -/
def expectSet (l : Line) (old : List Line) : List Line :=
  match l with
  | .w a :: rest =>
    if a = "cs" ∨ a = "mcs" then
      match rest with
      | [.n x, .n y] => if x = y then [[.w a, .n x]] else [l]
      | [.w b, .n x, .n y] => if b = "max" ∧ x = y then [[.w a, .w b, .n x]] else [l]
      | _ => [l]
    else if a = "window-size" then
      match rest with
      | [.n x] => old.map fun o => o.set 1 (.n x)
      | _ => [l]
    else if a = "gamma" then
      match rest with
      | [.n x] => [[.w a, .n (x / 2 * 2)]]
      | _ => [l]
    else if a = "dl-tbf-preemptive-retransmission" then []
    else if a = "alpha" then if rest = [.w "si13"] then [] else [l]
    else if a = "egprs" then if rest = [.w "dl", .w "arq-type", .w "arq2"] then [l] else []
    else if a = "multislot-class" then if rest = [.w "default", .n 12] then [] else [l]
    else if a = "pcu-socket" then if rest = [.w "/tmp/pcu_bts"] then [] else [l]
    else if a = "gsmtap-remote-host" then if rest = [] then [[.w a, .w "localhost"]] else [l]
    else if a = "gsmtap-category" then
      if rest = [.w "enable-all"] then frameKinds.map fun k => [.w a, .w k]
      else if rest = [.w "disable-all"] then []
      else [l]
    else if a = "dl-tbf-idle-time" then
      match rest with
      | [.n x] => timerLine "X2031" x
      | _ => [l]
    else if a = "ms-idle-time" then
      match rest with
      | [.n x] => timerLine "X2030" x
      | _ => [l]
    else if a = "timer" then
      match rest with
      | [.w name, .n x] => timerLine name x
      | [.w _, .w _] => []
      | _ => old
    else [l]
  | _ => [l]

/-- What is shown about a setting after a command about it. -/
def expected (l : Line) (old : List Line) : List Line :=
  if l.head? = some (.w "no") then expectNo l.tail else expectSet l old

/-- The command sets the target of the queueing time. -/
def isBucketTime (l : Line) : Prop := ∃ v, l = [.w "flow-control", .w "bucket-time", .n v]

end Verif.Vty
