import Verif.Spec.Vty
/-!
# The lines that are written are understood
-/

namespace Verif.Vty

set_option maxRecDepth 4000

theorem execAll_append (c : Cfg) (a b : List Line) : execAll c (a ++ b) = (execAll c a).bind fun c => execAll c b := by
  induction a generalizing c with
  | nil => rfl
  | cons l ls ih =>
    show (match exec c l with | none => none | some c => execAll c (ls ++ b)) = _
    show _ = (match exec c l with | none => none | some c => execAll c ls).bind _
    cases exec c l with
    | none => rfl
    | some c' => exact ih c'

theorem execAll_one (c : Cfg) (l : Line) : execAll c [l] = exec c l := by
  show (match exec c l with | none => none | some c => some c) = _
  cases exec c l <;> rfl

theorem exec_fcInterval {s : Cfg} {v : Nat} (h : 1 ≤ v ∧ v ≤ 10) : exec s [.w "flow-control-interval", .n v] = some { s with fcInterval := v } := by
  simp [exec, cmds, fits, arg, h, atoi, u8]; omega

theorem run_unless0 {s s' : Cfg} {v : Nat} {l : Line} (h : v ≠ 0 → exec s l = some s') :
    execAll s (unless0 v l) = some (if v = 0 then s else s') := by
  by_cases hv : v = 0
  · simp [unless0, hv, execAll]
  · simp [unless0, hv, execAll_one, h hv]

theorem exec_bvcSize {s : Cfg} {v : Nat} (h : v ≤ 6553500) (h0 : v ≠ 0) :
    exec s [.w "flow-control", .w "force-bvc-bucket-size", .n v] = some { s with fcBvcSize := v } := by
  have h1 : 1 ≤ v := by omega
  simp [exec, cmds, fits, arg, h, h1, atoi, u32]; omega
theorem exec_bvcRate {s : Cfg} {v : Nat} (h : v ≤ 6553500) (h0 : v ≠ 0) :
    exec s [.w "flow-control", .w "force-bvc-leak-rate", .n v] = some { s with fcBvcRate := v } := by
  have h1 : 1 ≤ v := by omega
  simp [exec, cmds, fits, arg, h, h1, atoi, u32]; omega
theorem exec_msSize {s : Cfg} {v : Nat} (h : v ≤ 6553500) (h0 : v ≠ 0) :
    exec s [.w "flow-control", .w "force-ms-bucket-size", .n v] = some { s with fcMsSize := v } := by
  have h1 : 1 ≤ v := by omega
  simp [exec, cmds, fits, arg, h, h1, atoi, u32]; omega
theorem exec_msRate {s : Cfg} {v : Nat} (h : v ≤ 6553500) (h0 : v ≠ 0) :
    exec s [.w "flow-control", .w "force-ms-leak-rate", .n v] = some { s with fcMsRate := v } := by
  have h1 : 1 ≤ v := by omega
  simp [exec, cmds, fits, arg, h, h1, atoi, u32]; omega

theorem exec_pcu {s : Cfg} : exec s [.w "pcu"] = some s := by
  simp [exec, cmds, fits, arg]

theorem run_wFc {c s : Cfg} (v : Valid c) : execAll s (wFc c) = some
    { s with
      fcInterval := c.fcInterval
      fcBvcSize := if c.fcBvcSize = 0 then s.fcBvcSize else c.fcBvcSize
      fcBvcRate := if c.fcBvcRate = 0 then s.fcBvcRate else c.fcBvcRate
      fcMsSize := if c.fcMsSize = 0 then s.fcMsSize else c.fcMsSize
      fcMsRate := if c.fcMsRate = 0 then s.fcMsRate else c.fcMsRate } := by
  simp only [wFc, execAll_append, Option.bind_some, execAll, exec_pcu, exec_fcInterval v.fcInterval]
  rw [run_unless0 (exec_bvcSize v.fcBvcSize), Option.bind_some, run_unless0 (exec_bvcRate v.fcBvcRate), Option.bind_some,
    run_unless0 (exec_msSize v.fcMsSize), Option.bind_some, run_unless0 (exec_msRate v.fcMsRate)]
  by_cases h1 : c.fcBvcSize = 0 <;> by_cases h2 : c.fcBvcRate = 0 <;> by_cases h3 : c.fcMsSize = 0 <;> by_cases h4 : c.fcMsRate = 0 <;>
    simp [h1, h2, h3, h4]

theorem run_wCs {c s : Cfg} (v : Valid c) : execAll s (wCs c) = some
    { s with
      forceCs := if c.forceCs then true else s.forceCs
      csDl := if c.forceCs then c.csDl else s.csDl
      csUl := if c.forceCs then c.csUl else s.csUl } := by
  rcases v.cs with ⟨hf, h1, h2, h3, h4⟩ | ⟨hf, _, _⟩
  · by_cases he : c.csUl = c.csDl
    · simp [wCs, hf, he, execAll_one, exec, cmds, fits, arg, h1, h2, atoi, second, u8]; omega
    · simp [wCs, hf, he, execAll_one, exec, cmds, fits, arg, h1, h2, h3, h4, atoi, second, u8]; omega
  · simp [wCs, hf, execAll]

theorem run_wMcs {c s : Cfg} (v : Valid c) : execAll s (wMcs c) = some
    { s with
      forceMcs := if c.forceMcs then true else s.forceMcs
      mcsDl := if c.forceMcs then c.mcsDl else s.mcsDl
      mcsUl := if c.forceMcs then c.mcsUl else s.mcsUl } := by
  rcases v.mcs with ⟨hf, h1, h2, h3, h4⟩ | ⟨hf, _, _⟩
  · by_cases he : c.mcsUl = c.mcsDl
    · simp [wMcs, hf, he, execAll_one, exec, cmds, fits, arg, h1, h2, atoi, second, u8]; omega
    · simp [wMcs, hf, he, execAll_one, exec, cmds, fits, arg, h1, h2, h3, h4, atoi, second, u8]; omega
  · simp [wMcs, hf, execAll]

theorem run_wCsMax {c s : Cfg} (v : Valid c) : execAll s (wCsMax c) = some
    { s with
      maxCsDl := if c.maxCsDl = 0 then s.maxCsDl else c.maxCsDl
      maxCsUl := if c.maxCsUl = 0 then s.maxCsUl else c.maxCsUl } := by
  rcases v.maxCs with ⟨h1, h2, h3, h4⟩ | ⟨h1, h2⟩
  · have h5 : c.maxCsDl ≠ 0 := by omega
    have h6 : c.maxCsUl ≠ 0 := by omega
    by_cases he : c.maxCsUl = c.maxCsDl
    · simp [wCsMax, h5, he, execAll_one, exec, cmds, fits, arg, h1, h2, atoi, second, u8]; omega
    · simp [wCsMax, h5, h6, he, execAll_one, exec, cmds, fits, arg, h1, h2, h3, h4, atoi, second, u8]; omega
  · simp [wCsMax, h1, h2, execAll]

theorem run_wMcsMax {c s : Cfg} (v : Valid c) : execAll s (wMcsMax c) = some
    { s with
      maxMcsDl := if c.maxMcsDl = 0 then s.maxMcsDl else c.maxMcsDl
      maxMcsUl := if c.maxMcsUl = 0 then s.maxMcsUl else c.maxMcsUl } := by
  rcases v.maxMcs with ⟨h1, h2, h3, h4⟩ | ⟨h1, h2⟩
  · have h5 : c.maxMcsDl ≠ 0 := by omega
    have h6 : c.maxMcsUl ≠ 0 := by omega
    by_cases he : c.maxMcsUl = c.maxMcsDl
    · simp [wMcsMax, h5, he, execAll_one, exec, cmds, fits, arg, h1, h2, atoi, second, u8]; omega
    · simp [wMcsMax, h5, h6, he, execAll_one, exec, cmds, fits, arg, h1, h2, h3, h4, atoi, second, u8]; omega
  · simp [wMcsMax, h1, h2, execAll]

theorem run_wAdj {c s : Cfg} (v : Valid c) : execAll s (wAdj c) = some { s with adj := c.adj, adjHi := c.adjHi, adjLo := c.adjLo } := by
  rcases v.adj with ⟨hf, h1, h2⟩ | ⟨hf, h1, h2⟩
  · have h3 : c.adjLo ≤ 100 := by omega
    have h4 : ¬ u8 c.adjLo > u8 c.adjHi := by simp only [u8]; omega
    have h5 : u8 c.adjLo = c.adjLo := by simp only [u8]; omega
    have h6 : u8 c.adjHi = c.adjHi := by simp only [u8]; omega
    simp [wAdj, hf, execAll_one, exec, cmds, fits, arg, h2, h3, atoi, h5, h6, h1]
  · simp [wAdj, hf, execAll_one, exec, cmds, fits, arg, h1, h2]

theorem run_wDowngrade {c s : Cfg} (v : Valid c) : execAll s (wDowngrade c) = some { s with downgrade := c.downgrade } := by
  have h := v.downgrade
  by_cases h0 : c.downgrade = 0
  · simp [wDowngrade, h0, execAll_one, exec, cmds, fits, arg]
  · have h1 : 1 ≤ c.downgrade := by omega
    simp [wDowngrade, h0, execAll_one, exec, cmds, fits, arg, h, h1, atoi, u16]; omega

theorem exec_wCsLq {c s : Cfg} (v : Valid c) : exec s (wCsLq c) =
    some { s with c1h := c.c1h, c2l := c.c2l, c2h := c.c2h, c3l := c.c3l, c3h := c.c3h, c4l := c.c4l } := by
  obtain ⟨h1, h2, h3, h4, h5, h6⟩ := v.csLq
  simp [wCsLq, exec, cmds, fits, arg, h1, h2, h3, h4, h5, h6, atoi, u8]; omega

theorem exec_wMcsLq {c s : Cfg} (v : Valid c) : exec s (wMcsLq c) =
    some { s with
      m1h := c.m1h, m2l := c.m2l, m2h := c.m2h, m3l := c.m3l, m3h := c.m3h, m4l := c.m4l, m4h := c.m4h, m5l := c.m5l, m5h := c.m5h, m6l := c.m6l,
      m6h := c.m6h, m7l := c.m7l, m7h := c.m7h, m8l := c.m8l, m8h := c.m8h, m9l := c.m9l } := by
  obtain ⟨h1, h2, h3, h4, h5, h6, h7, h8⟩ := v.mcsLq1
  obtain ⟨k1, k2, k3, k4, k5, k6, k7, k8⟩ := v.mcsLq2
  simp [wMcsLq, exec, cmds, fits, arg, h1, h2, h3, h4, h5, h6, h7, h8, k1, k2, k3, k4, k5, k6, k7, k8, atoi]

theorem exec_wWs {c s : Cfg} (v : Valid c) : exec s (wWs c) = some { s with wsBase := c.wsBase, wsPdch := c.wsPdch } := by
  have h1 := v.wsBase
  have h2 := v.wsPdch
  simp [wWs, exec, cmds, fits, arg, h1, h2, atoi, u16]; omega

theorem run_wArq {c s : Cfg} : execAll s (wArq c) = some { s with arq2 := if c.arq2 then true else s.arq2 } := by
  cases h : c.arq2
  · simp [wArq, h, execAll]
  · simp [wArq, h, execAll_one, exec, cmds, fits, arg, streq]

theorem run_wQueue {c s : Cfg} (v : Valid c) : execAll s (wQueue c) = some
    { s with
      lifetime := if c.lifetime = 0 then s.lifetime else c.lifetime
      discard := if c.discard = 0 then s.discard else c.discard
      idleAck := if c.idleAck = 0 then s.idleAck else c.idleAck } := by
  have h1 := v.lifetime
  have h2 := v.discard
  have h3 := v.idleAck
  have e1 : ∀ s : Cfg, execAll s (if c.lifetime = 0xffff then [[.w "queue", .w "lifetime", .w "infinite"]]
      else unless0 c.lifetime [.w "queue", .w "lifetime", .n c.lifetime]) =
      some { s with lifetime := if c.lifetime = 0 then s.lifetime else c.lifetime } := by
    intro s
    by_cases hi : c.lifetime = 0xffff
    · simp [hi, execAll_one, exec, cmds, fits, arg]
    · by_cases h0 : c.lifetime = 0
      · simp [h0, unless0, execAll]
      · have h4 : 1 ≤ c.lifetime := by omega
        have h5 : c.lifetime ≤ 65534 := by omega
        simp [hi, h0, unless0, execAll_one, exec, cmds, fits, arg, h4, h5, atoi, u16]; omega
  have e2 : ∀ s : Cfg, c.discard ≠ 0 → exec s [.w "queue", .w "hysteresis", .n c.discard] = some { s with discard := c.discard } := by
    intro s h0
    have h4 : 1 ≤ c.discard := by omega
    simp [exec, cmds, fits, arg, h2, h4, atoi, u16]; omega
  have e3 : ∀ s : Cfg, c.idleAck ≠ 0 → exec s [.w "queue", .w "idle-ack-delay", .n c.idleAck] = some { s with idleAck := c.idleAck } := by
    intro s h0
    have h4 : 1 ≤ c.idleAck := by omega
    simp [exec, cmds, fits, arg, h3, h4, atoi, u16]; omega
  simp only [wQueue, execAll_append, e1, Option.bind_some]
  rw [run_unless0 (e2 _), Option.bind_some, run_unless0 (e3 _)]
  by_cases g2 : c.discard = 0 <;> by_cases g3 : c.idleAck = 0 <;> simp [g2, g3]

theorem run_wCodel {c s : Cfg} (v : Valid c) : execAll s (wCodel c) = some { s with codel := c.codel } := by
  rcases v.codel with h | h | ⟨k, h1, h2, h⟩
  · simp [wCodel, h, codelDefault, execAll_one, exec, cmds, fits, arg]
  · simp [wCodel, h, codelDefault, codelDisable, execAll_one, exec, cmds, fits, arg]
  · have g1 : 10 * k ≠ 4294967295 := by omega
    have g2 : ¬ 10 * k = 0 := by omega
    have g3 : 10 * k / 10 = k := by omega
    rw [wCodel, h, codelDefault, codelDisable, if_neg g1, if_neg g2, g3]
    have g4 : u32 (10 * u16 k) = 10 * k := by
      rw [u32, u16, Nat.mod_eq_of_lt (show k < 65536 by omega), Nat.mod_eq_of_lt (by omega)]
    simp [execAll_one, exec, cmds, fits, arg, h1, h2, atoi, g4]

theorem run_wAlgo {c s : Cfg} (h : c.algo ≠ none) : execAll s (wAlgo c) = some { s with algo := c.algo } := by
  rcases ha : c.algo with _ | _ | _ | _
  · exact absurd ha h
  all_goals simp [wAlgo, ha, execAll_one, exec, cmds, fits, arg, streq]

theorem run_wRadio {c s : Cfg} (v : Valid c) : execAll s (wRadio c) = some
    { s with
      twoPhase := if c.twoPhase = 0 then s.twoPhase else c.twoPhase
      alpha := if c.alpha = 255 then s.alpha else c.alpha
      gamma := c.gamma
      preempt := if c.preempt then s.preempt else false
      msclass := if c.msclass = 12 then s.msclass else c.msclass
      sock := if c.sock = sockDefault then s.sock else c.sock } := by
  have e1 : ∀ s : Cfg, c.twoPhase ≠ 0 → exec s [.w "two-phase-access"] = some { s with twoPhase := c.twoPhase } := by
    intro s h
    have h1 : c.twoPhase = 1 := by have := v.twoPhase; omega
    simp [exec, cmds, fits, arg, h1]
  have e2 : ∀ s : Cfg, execAll s (if c.alpha ≠ 255 then [[.w "alpha", .n c.alpha]] else []) =
      some { s with alpha := if c.alpha = 255 then s.alpha else c.alpha } := by
    intro s
    by_cases h : c.alpha = 255
    · simp [h, execAll]
    · have h1 : c.alpha ≤ 10 := by have := v.alpha; omega
      simp [h, execAll_one, exec, cmds, fits, arg, h1, streq, atoi, u8]; omega
  have e3 : ∀ s : Cfg, exec s [.w "gamma", .n (c.gamma * 2)] = some { s with gamma := c.gamma } := by
    intro s
    have h1 : c.gamma * 2 ≤ 62 := by have := v.gamma; omega
    simp [exec, cmds, fits, arg, h1, atoi, u8]; omega
  have e4 : ∀ s : Cfg, execAll s (if c.preempt then [] else [[.w "no", .w "dl-tbf-preemptive-retransmission"]]) =
      some { s with preempt := if c.preempt then s.preempt else false } := by
    intro s
    cases h : c.preempt
    · simp [execAll_one, exec, cmds, fits, arg]
    · simp [execAll]
  have e5 : ∀ s : Cfg, execAll s (if c.msclass ≠ 12 then [[.w "multislot-class", .w "default", .n c.msclass]] else []) =
      some { s with msclass := if c.msclass = 12 then s.msclass else c.msclass } := by
    intro s
    obtain ⟨h1, h2⟩ := v.msclass
    by_cases h : c.msclass = 12
    · simp [h, execAll]
    · simp [h, execAll_one, exec, cmds, fits, arg, h1, h2, atoi, u8]; omega
  have e6 : ∀ s : Cfg, execAll s (if c.sock ≠ sockDefault then [[.w "pcu-socket", c.sock]] else []) =
      some { s with sock := if c.sock = sockDefault then s.sock else c.sock } := by
    intro s
    by_cases h : c.sock = sockDefault
    · simp [h, execAll]
    · simp [h, execAll_one, exec, cmds, fits, arg]
  simp only [wRadio, execAll_append]
  rw [run_unless0 (e1 _)]
  simp only [Option.bind_some, e2, execAll_one, e3, e4, e5, e6]
  by_cases h1 : c.twoPhase = 0 <;> simp [h1]

theorem run_wGb {c s : Cfg} (v : Valid c) : execAll s (wGb c) = some
    { s with
      sns := c.sns
      dscp := match c.dscp with
        | some x => some x
        | none => s.dscp
      prio := match c.prio with
        | some x => some x
        | none => s.prio } := by
  have h1 := v.dscp
  have h2 := v.prio
  rw [wGb, execAll_append, execAll_append]
  have e1 : execAll s (if c.sns then [[.w "gb-dialect", .w "ip-sns"]] else [[.w "gb-dialect", .w "classic"]]) = some { s with sns := c.sns } := by
    cases h : c.sns <;> simp [execAll_one, exec, cmds, fits, arg, streq]
  rw [e1, Option.bind_some]
  cases hd : c.dscp with
  | none =>
    cases hp : c.prio with
    | none => rfl
    | some y => simp [execAll, exec, cmds, fits, arg, atoi, h2 y hp]
  | some x =>
    cases hp : c.prio with
    | none => simp [execAll, exec, cmds, fits, arg, atoi, h1 x hd]
    | some y => simp [execAll, exec, cmds, fits, arg, atoi, h1 x hd, h2 y hp]


/-! ## GSMTAP -/

theorem exec_host {s : Cfg} {h : Tok} : exec s [.w "gsmtap-remote-host", h] = some { s with host := some h } := by
  simp [exec, cmds, fits, arg]

/-- The bit of a category. -/
def bitOf (i : Nat) : BitVec 32 := 1#32 <<< i

theorem exec_categ {s : Cfg} {i : Nat} {name : String} (h : categName i = some name) :
    exec s [.w "gsmtap-category", .w name] = some { s with mask := s.mask ||| bitOf i } := by
  have hm : ∃ p ∈ categs, p.1 = name ∧ p.2 = i := by
    unfold categName at h
    cases hf : categs.find? (fun p => p.2 == i) with
    | none => rw [hf] at h; exact absurd h (by simp)
    | some p =>
      rw [hf] at h
      have h1 := List.mem_of_find?_eq_some hf
      have h2 := List.find?_some hf
      exact ⟨p, h1, by simpa using h, by simpa using h2⟩
  obtain ⟨p, hp, rfl, rfl⟩ := hm
  simp only [categs, List.mem_cons, List.not_mem_nil, or_false] at hp
  rcases hp with rfl | rfl | rfl | rfl | rfl | rfl | rfl | rfl | rfl | rfl | rfl | rfl | rfl | rfl | rfl <;>
    simp [exec, cmds, fits, arg, categs, categOf, List.lookup, bitOf]

theorem run_categs (m : BitVec 32) (l : List Nat) : ∀ s : Cfg,
    execAll s (l.filterMap fun i => if m.getLsbD i then (categName i).map fun s => [Tok.w "gsmtap-category", .w s] else none) =
      some { s with mask := l.foldl (fun a i => if m.getLsbD i ∧ (categName i).isSome then a ||| bitOf i else a) s.mask } := by
  induction l with
  | nil => intro s; rfl
  | cons i l ih =>
    intro s
    rw [List.filterMap_cons, List.foldl_cons]
    by_cases hm : m.getLsbD i = true
    · cases hn : categName i with
      | none => simp only [hm, if_true, Option.map_none, Option.isSome_none, Bool.false_eq_true, and_false, if_false]; exact ih s
      | some name =>
        simp only [hm, if_true, Option.map_some, Option.isSome_some, and_self]
        show (match exec s _ with | none => none | some c => execAll c _) = _
        rw [exec_categ hn]
        exact ih _
    · simp only [hm, if_false, Bool.false_eq_true, false_and]
      exact ih s

theorem mask_fold (m : BitVec 32) (l : List Nat) : ∀ a : BitVec 32, ∀ j, j < 32 →
    (l.foldl (fun a i => if m.getLsbD i ∧ (categName i).isSome then a ||| bitOf i else a) a).getLsbD j =
      (a.getLsbD j || (decide (j ∈ l) && m.getLsbD j && (categName j).isSome)) := by
  induction l with
  | nil => intro a j _; simp
  | cons i l ih =>
    intro a j hj
    rw [List.foldl_cons, ih _ j hj]
    have hb : (bitOf i).getLsbD j = decide (j = i) := by
      simp only [bitOf, BitVec.getLsbD_shiftLeft, BitVec.getLsbD_one]
      by_cases h : j = i
      · subst h; simp [hj]
      · by_cases h2 : j < i
        · simp [h2, h]
        · have : j - i ≠ 0 := by omega
          simp [h, this]
    by_cases hc : m.getLsbD i = true ∧ (categName i).isSome = true
    · rw [if_pos hc, BitVec.getLsbD_or, hb]
      by_cases h : j = i
      · subst h; simp [hc.1, hc.2]
      · simp [h]
    · rw [if_neg hc]
      by_cases h : j = i
      · subst h
        cases h1 : m.getLsbD j <;> cases h2 : (categName j).isSome <;> simp_all
      · simp [h]

theorem named : ∀ j, j < 32 → (categName j).isSome = (0x3f80ff#32).getLsbD j := by decide +kernel

theorem run_wGsmtap {c s : Cfg} (hs : s.mask = 0) : execAll s (wGsmtap c) = some
    { s with
      host := match c.host with
        | some h => some h
        | none => s.host
      mask := c.mask &&& 0x3f80ff#32 } := by
  have hm : ∀ s : Cfg, s.mask = 0 →
      (List.range 32).foldl (fun a i => if c.mask.getLsbD i ∧ (categName i).isSome then a ||| bitOf i else a) s.mask = c.mask &&& 0x3f80ff#32 := by
    intro s hs
    apply BitVec.eq_of_getLsbD_eq
    intro j hj
    rw [mask_fold _ _ _ j hj, hs, BitVec.getLsbD_and, named j hj]
    simp [hj]
  rw [wGsmtap, execAll_append]
  cases hh : c.host with
  | none =>
    show execAll s _ = _
    rw [run_categs, hm s hs]
  | some h =>
    dsimp only
    rw [execAll_one, exec_host, Option.bind_some, run_categs, hm _ hs]

/-! ## Timers -/

theorem exec_timer {s : Cfg} {name : String} {d mx v : Nat} (ht : tdef name = some (d, mx)) (hv : v ≤ 2147483647) (hx : mx = 0 ∨ v ≤ mx) :
    exec s [.w "timer", .w name, .n v] = some
      { s with
        timers := fun k => if k = name then v else s.timers k
        neighKeep := if name = "X10" then v else s.neighKeep
        siKeep := if name = "X11" then v else s.siKeep } := by
  have h1 : ¬ (mx ≠ 0 ∧ v > mx) := by omega
  have h2 : timerCmd s [.w name, .n v] = some
      { s with
        timers := fun k => if k = name then v else s.timers k
        neighKeep := if name = "X10" then v else s.neighKeep
        siKeep := if name = "X11" then v else s.siKeep } := by
    have hset : setTimer s name v = some { s with timers := fun k => if k = name then v else s.timers k } := by
      rw [setTimer, ht]
      dsimp only
      rw [if_neg h1]
    simp only [timerCmd, timerVal, hset]
    by_cases a : name = "X10"
    · subst a; simp
    · by_cases b : name = "X11"
      · subst b; simp
      · simp [a, b]
  simp [exec, cmds, fits, arg, hv, h2]

/-- The timers of a list that do not have their default value are set. -/
theorem run_timers (t : String → Nat) : ∀ (l : List (String × Nat × Nat)) (s : Cfg),
    (∀ p ∈ l, tdef p.1 = some p.2) → (∀ k, t k ≤ 2147483647) → (∀ p ∈ l, p.2.2 = 0 ∨ t p.1 ≤ p.2.2) →
    ∃ s', execAll s (l.filterMap fun p => if t p.1 = p.2.1 then none else some [Tok.w "timer", .w p.1, .n (t p.1)]) = some s' ∧
      s' = { s with timers := s'.timers, neighKeep := s'.neighKeep, siKeep := s'.siKeep } ∧
      (∀ k, s'.timers k = if (∃ p ∈ l, p.1 = k ∧ t k ≠ p.2.1) then t k else s.timers k) ∧
      (s.neighKeep = s.timers "X10" → s'.neighKeep = s'.timers "X10") ∧ (s.siKeep = s.timers "X11" → s'.siKeep = s'.timers "X11") := by
  intro l
  induction l with
  | nil => intro s _ _ _; exact ⟨s, rfl, rfl, fun k => by simp, id, id⟩
  | cons p l ih =>
    intro s h1 h2 h3
    rw [List.filterMap_cons]
    by_cases he : t p.1 = p.2.1
    · rw [if_pos he]
      obtain ⟨s', a, b, d, e, f⟩ := ih s (fun q hq => h1 q (List.mem_cons_of_mem _ hq)) h2 (fun q hq => h3 q (List.mem_cons_of_mem _ hq))
      refine ⟨s', a, b, ?_, e, f⟩
      intro k
      rw [d k]
      have : (∃ q ∈ p :: l, q.1 = k ∧ t k ≠ q.2.1) ↔ ∃ q ∈ l, q.1 = k ∧ t k ≠ q.2.1 := by
        constructor
        · rintro ⟨q, hq, rfl, hn⟩
          rcases List.mem_cons.1 hq with rfl | hq
          · exact absurd he hn
          · exact ⟨q, hq, rfl, hn⟩
        · rintro ⟨q, hq, hr⟩; exact ⟨q, List.mem_cons_of_mem _ hq, hr⟩
      simp only [this]
    · rw [if_neg he]
      show ∃ s', (match exec s _ with | none => none | some c => execAll c _) = some s' ∧ _
      rw [exec_timer (h1 p List.mem_cons_self) (h2 p.1) (h3 p List.mem_cons_self)]
      obtain ⟨s', a, b, d, e, f⟩ := ih
        { s with
          timers := fun k => if k = p.1 then t p.1 else s.timers k
          neighKeep := if p.1 = "X10" then t p.1 else s.neighKeep
          siKeep := if p.1 = "X11" then t p.1 else s.siKeep }
        (fun q hq => h1 q (List.mem_cons_of_mem _ hq)) h2 (fun q hq => h3 q (List.mem_cons_of_mem _ hq))
      refine ⟨s', a, b, ?_, ?_, ?_⟩
      · intro k
        rw [d k]
        by_cases hk : k = p.1
        · subst hk
          rw [if_pos (show ∃ q ∈ p :: l, q.1 = p.1 ∧ t p.1 ≠ q.2.1 from ⟨p, List.mem_cons_self, rfl, he⟩)]
          simp
        · have : (∃ q ∈ p :: l, q.1 = k ∧ t k ≠ q.2.1) ↔ ∃ q ∈ l, q.1 = k ∧ t k ≠ q.2.1 := by
            constructor
            · rintro ⟨q, hq, hqk, hn⟩
              rcases List.mem_cons.1 hq with rfl | hq
              · exact absurd hqk.symm hk
              · exact ⟨q, hq, hqk, hn⟩
            · rintro ⟨q, hq, hr⟩; exact ⟨q, List.mem_cons_of_mem _ hq, hr⟩
          simp only [this, if_neg hk]
      · intro hn
        apply e
        dsimp only
        by_cases hx : p.1 = "X10"
        · rw [if_pos hx, if_pos hx.symm]
        · rw [if_neg hx, if_neg (fun h => hx h.symm), hn]
      · intro hn
        apply f
        dsimp only
        by_cases hx : p.1 = "X11"
        · rw [if_pos hx, if_pos hx.symm]
        · rw [if_neg hx, if_neg (fun h => hx h.symm), hn]

end Verif.Vty
