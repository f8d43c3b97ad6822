import Verif.Lemmas.VtyKeep
/-!
# C77: the configuration that the PCU writes is read back as the same configuration

The file that `write file` (or `show running-config`) produces is always accepted when the PCU is started with it, and gives the same settings,
with exactly four exceptions, which are errors of the program: `flow-control bucket-time` is never written, and that `cs max`, `mcs max` and
`queue idle-ack-delay` were switched off is not written although they are on by default.
-/

namespace Verif.Vty

set_option maxRecDepth 4000

/-- For every configuration that a file and any commands can lead to: the PCU starts with the file that is written, and it then has exactly these
settings. -/
theorem C77_reads {c : Cfg} (r : Reach c) : boot (write c) = some (restarted c) :=
  boot_write (reach_good r).1 (reach_good r).2

theorem same_restarted {c : Cfg} (h1 : c.fcBucketTime = 0) (h2 : c.maxCsDl ≠ 0 ∧ c.maxCsUl ≠ 0) (h3 : c.maxMcsDl ≠ 0 ∧ c.maxMcsUl ≠ 0)
    (h4 : c.idleAck ≠ 0) : Same (restarted c) c := by
  constructor
  · simp only [restarted, if_neg h2.1, if_neg h2.2, if_neg h3.1, if_neg h3.2, if_neg h4]
    rw [← h1]
  · intro i hi
    show (c.mask &&& 0x3f80ff#32).getLsbD i = c.mask.getLsbD i
    have h : ∀ i ∈ kinds, (0x3f80ff#32).getLsbD i = true := by decide
    rw [BitVec.getLsbD_and, h i hi, Bool.and_true]

/-- The full claim is: for every configuration `c` that can be reached, the PCU starts with the file that is written and has the settings of
`c`. This is proved for configurations in which none of the four settings is lost. -/
theorem C77_partial {c : Cfg} (r : Reach c) (h1 : c.fcBucketTime = 0) (h2 : c.maxCsDl ≠ 0) (h3 : c.maxMcsDl ≠ 0) (h4 : c.idleAck ≠ 0) :
    ∃ c', boot (write c) = some c' ∧ Same c' c := by
  have g := (reach_good r).1
  refine ⟨_, C77_reads r, same_restarted h1 ⟨h2, ?_⟩ ⟨h3, ?_⟩ h4⟩
  · rcases g.maxCs with h | h
    · omega
    · exact absurd h.1 h2
  · rcases g.maxMcs with h | h
    · omega
    · exact absurd h.1 h3

/-- Once written and read, a configuration does not change any more. -/
theorem C77_again {c c' : Cfg} (r : Reach c) (h : boot (write c) = some c') : boot (write c') = some c' := by
  rw [C77_reads (.boot h)]
  rw [C77_reads r] at h
  injection h with h
  subst h
  have z : ∀ a b : Nat, b ≠ 0 → (if (if a = 0 then b else a) = 0 then b else if a = 0 then b else a) = if a = 0 then b else a := by
    intro a b hb
    by_cases ha : a = 0
    · rw [if_pos ha, if_neg hb]
    · rw [if_neg ha, if_neg ha]
  have hm : c.mask &&& 0x3f80ff#32 &&& 0x3f80ff#32 = c.mask &&& 0x3f80ff#32 := by rw [BitVec.and_assoc, BitVec.and_self]
  refine congrArg some ?_
  simp only [restarted, Cfg.mk.injEq, hm, true_and, and_true]
  exact ⟨z _ 4 (by decide), z _ 4 (by decide), z _ 9 (by decide), z _ 9 (by decide), z _ 10 (by decide)⟩

/-- All settings are in the ranges of the manual, whatever was typed. -/
theorem C77_valid {c : Cfg} (r : Reach c) : Valid c := (reach_good r).1.toValid

/-- The two caches (C41, C69) always keep entries for the time that is configured. -/
theorem C77_caches {c : Cfg} (r : Reach c) : c.neighKeep = c.timers "X10" ∧ c.siKeep = c.timers "X11" :=
  ⟨(reach_good r).1.neigh, (reach_good r).1.si⟩

/-! ## What is lost -/

/-- Typing this after a start without configuration file. -/
def after (l : Line) : Option Cfg := (boot []).bind fun c => exec c l

theorem reach_after {l : Line} {c : Cfg} (h : after l = some c) : Reach c := by
  unfold after at h
  cases hb : boot [] with
  | none => rw [hb] at h; cases h
  | some d => rw [hb] at h; exact .typed (.boot hb) h

/-- The claim is not true of the program: `flow-control bucket-time` is lost … -/
theorem C77_fails_bucket_time : ∃ c, after [.w "flow-control", .w "bucket-time", .n 500] = some c ∧ c.fcBucketTime = 500 ∧
    ∃ c', boot (write c) = some c' ∧ c'.fcBucketTime = 0 := by
  have h : after [.w "flow-control", .w "bucket-time", .n 500] = some { finish initial with fcBucketTime := 500 } := by
    simp [after, boot, execAll, exec, cmds, fits, arg, atoi, u16]
  exact ⟨_, h, rfl, _, C77_reads (reach_after h), rfl⟩

/-- … so is `no cs max` (after the restart CS-4 is the largest) … -/
theorem C77_fails_cs_max : ∃ c, after [.w "no", .w "cs", .w "max"] = some c ∧ c.maxCsDl = 0 ∧ c.maxCsUl = 0 ∧
    ∃ c', boot (write c) = some c' ∧ c'.maxCsDl = 4 ∧ c'.maxCsUl = 4 := by
  have h : after [.w "no", .w "cs", .w "max"] = some { finish initial with maxCsDl := 0, maxCsUl := 0 } := by
    simp [after, boot, execAll, exec, cmds, fits, arg]
  exact ⟨_, h, rfl, rfl, _, C77_reads (reach_after h), rfl, rfl⟩

/-- … and `no mcs max` … -/
theorem C77_fails_mcs_max : ∃ c, after [.w "no", .w "mcs", .w "max"] = some c ∧ c.maxMcsDl = 0 ∧ c.maxMcsUl = 0 ∧
    ∃ c', boot (write c) = some c' ∧ c'.maxMcsDl = 9 ∧ c'.maxMcsUl = 9 := by
  have h : after [.w "no", .w "mcs", .w "max"] = some { finish initial with maxMcsDl := 0, maxMcsUl := 0 } := by
    simp [after, boot, execAll, exec, cmds, fits, arg]
  exact ⟨_, h, rfl, rfl, _, C77_reads (reach_after h), rfl, rfl⟩

/-- … and `no queue idle-ack-delay`. -/
theorem C77_fails_idle_ack : ∃ c, after [.w "no", .w "queue", .w "idle-ack-delay"] = some c ∧ c.idleAck = 0 ∧
    ∃ c', boot (write c) = some c' ∧ c'.idleAck = 10 := by
  have h : after [.w "no", .w "queue", .w "idle-ack-delay"] = some { finish initial with idleAck := 0 } := by
    simp [after, boot, execAll, exec, cmds, fits, arg]
  exact ⟨_, h, rfl, _, C77_reads (reach_after h), rfl⟩

/-! ## The hypotheses can be met -/

/-- A configuration with many settings. -/
def ample : List Line :=
  [[.w "pcu"], [.w "cs", .n 2, .n 3], [.w "mcs", .w "max", .n 7], [.w "queue", .w "codel", .w "interval", .n 50], [.w "gamma", .n 31],
    [.w "timer", .w "X10", .n 7], [.w "gsmtap-category", .w "ul-rach"], [.w "gb", .w "ip-dscp", .n 46], [.w "no", .w "cs", .w "threshold"]]

theorem ample_ok : (boot ample).map (fun c => [c.csUl, c.maxMcsUl, c.codel, c.gamma, c.neighKeep, c.fcBucketTime, c.maxCsDl, c.maxMcsDl,
    c.idleAck, c.mask.toNat]) = some [3, 7, 500, 15, 7, 0, 4, 7, 10, 0x100000] := by
  decide +kernel

example : ∃ c, Reach c ∧ c.fcBucketTime = 0 ∧ c.maxCsDl ≠ 0 ∧ c.maxMcsDl ≠ 0 ∧ c.idleAck ≠ 0 ∧ c.csUl = 3 ∧ c.mask.toNat = 0x100000 := by
  have h1 := ample_ok
  cases h : boot ample with
  | none => rw [h] at h1; cases h1
  | some c =>
    rw [h] at h1
    simp only [Option.map_some, Option.some.injEq, List.cons.injEq] at h1
    exact ⟨c, .boot h, by omega, by omega, by omega, by omega, by omega, by omega⟩

/-- A command out of range is refused. -/
example : exec initial [.w "cs", .n 5] = none := by
  simp [exec, cmds, fits, arg]

end Verif.Vty
