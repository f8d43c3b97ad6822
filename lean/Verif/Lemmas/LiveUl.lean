import Verif.Lemmas.LiveEff

/-! Uplink TBFs: what they wait for, and how many turns they have left. -/

namespace Verif.Live
open Verif.Tbf Verif.LiveSpec Verif.TbfSpec

theorem Sep.step {c : Cfg} {p q : Pd} {op : Op} {env : Env} (hp : Sep p)
    (h : step c p op env = some q) : Sep q := by
  cases op with
  | newUl b ccch =>
    simp only [Live.step] at h
    split at h
    · simp only [Option.map_eq_some_iff] at h
      obtain ⟨s', _, rfl⟩ := h
      exact hp.putUl b s'
    · cases h; exact hp
  | newDl b ccch upg =>
    simp only [Live.step] at h
    split at h
    · simp only [Option.map_eq_some_iff] at h
      obtain ⟨s', _, rfl⟩ := h
      exact hp.putDl b s'
    · cases h; exact hp
  | ul b o =>
    simp only [Live.step] at h
    split at h
    · exact hp.doUl h
    · cases h; exact hp
  | dl b o =>
    simp only [Live.step] at h
    split at h
    · cases h; exact hp
    · split at h
      · split at h
        · exact (hp.drop _).doDl h
        · exact hp.doDl h
      · cases h; exact hp
  | grant b fn =>
    simp only [Live.step] at h
    split at h
    · cases h; exact hp
    · next s hs =>
      split at h
      · next hc => cases h; exact hp.promise hc.2 (show p.ul b ≠ none by rw [hs]; nofun)
      · cases h; exact hp
  | sendAck b fn tlli =>
    simp only [Live.step] at h
    split at h
    · cases h; exact hp
    · next s hs =>
      split at h
      · cases h; exact hp
      · split at h
        · split at h
          · next hc =>
            exact (hp.promise (n := ⟨fn, .ul b, some .ulAck⟩) hc
              (show p.ul b ≠ none by rw [hs]; nofun)).doUl h
          · cases h; exact hp
        · exact hp.doUl h
  | ulSendDl b fn =>
    simp only [Live.step] at h
    split at h
    · cases h; exact hp
    · next s hs =>
      split at h
      · next hc =>
        exact (hp.promise (n := ⟨fn, .ul b, some .dlAss⟩) hc.2
          (show p.ul b ≠ none by rw [hs]; nofun)).doUl h
      · cases h; exact hp
  | ulSendUl b fn =>
    simp only [Live.step] at h
    split at h
    · cases h; exact hp
    · next s hs =>
      split at h
      · next hc =>
        exact (hp.promise (n := ⟨fn, .ul b, some .ulAss⟩) hc.2
          (show p.ul b ≠ none by rw [hs]; nofun)).doUl h
      · split at h
        · exact hp.doUl h
        · cases h; exact hp
  | dlSendDl b fn =>
    simp only [Live.step] at h
    split at h
    · cases h; exact hp
    · next s hs =>
      split at h
      · next hc =>
        exact (hp.promise (n := ⟨fn, .dl b, some .dlAss⟩) hc.2
          (show p.dl b ≠ none by rw [hs]; nofun)).doDl h
      · cases h; exact hp
  | dlSendUl b fn =>
    simp only [Live.step] at h
    split at h
    · cases h; exact hp
    · next s hs =>
      split at h
      · next hc =>
        exact (hp.promise (n := ⟨fn, .dl b, some .ulAss⟩) hc.2
          (show p.dl b ≠ none by rw [hs]; nofun)).doDl h
      · split at h
        · exact hp.doDl h
        · cases h; exact hp
  | dlPoll b fn =>
    simp only [Live.step] at h
    split at h
    · cases h; exact hp
    · next s hs =>
      split at h
      · next hc => cases h; exact hp.promise hc.2 (show p.dl b ≠ none by rw [hs]; nofun)
      · cases h; exact hp
  | recv fn m =>
    simp only [Live.step] at h
    have hr := hp.release fn
    unfold recv at h
    repeat' split at h
    all_goals first
      | (cases h; exact hp)
      | (cases h; exact hr)
      | exact hr.doUl h
      | exact hr.doDl h
      | exact hp.doUl h
  | expire fn =>
    simp only [Live.step] at h
    have hr := hp.release fn
    unfold expire at h
    repeat' split at h
    all_goals first
      | (cases h; exact hp)
      | (cases h; exact hr)
      | exact hr.doUl h
      | exact hr.doDl h

/-- Uplink data arrives. -/
theorem ulData_link {c : Cfg} {s s' : Ul} {env : Env} {f cm cv r : Bool} (h : UlLink s)
    (hs : ulStep c.ul s (.data f cm cv r) env = some s') :
    UlLink s' ∧ (s.st ≠ .assign → s'.st ≠ .assign) ∧ (s'.ulAck = .wait → s.ulAck = .wait) := by
  obtain ⟨s1, a, hi, _⟩ := ulStep_ok c.ul s (.data f cm cv r) env h.inv (by nofun)
  rw [a] at hs; cases hs
  unfold ulStep at a
  rw [if_neg (by rw [h.live]; decide)] at a
  simp only [ulData] at a
  by_cases hr : s.st = .releasing
  · rw [if_pos hr] at a
    cases a
    exact ⟨⟨hi, h.live, h.used, h.ack, h.wait⟩, id, id⟩
  rw [if_neg hr] at a
  have hfirst : (if f then ulDispatch env { s with n3101 := 0, rx := s.rx + 1 } .firstUlData
      else some { s with n3101 := 0, rx := s.rx + 1 }) =
      some { s with n3101 := 0, rx := s.rx + 1 } := by
    cases f
    · rfl
    · rw [if_pos rfl]
      unfold ulDispatch
      cases hst : s.st <;> simp [ulIn, hst, ulAction]
  rw [hfirst, Option.bind_some] at a
  have hsch : ∀ k, UlAck.dispatch k .sched = some (if k = .idle then .sched else k) := by
    intro k; cases k <;> rfl
  by_cases hc : s.st = .flow ∧ cm = true ∧ cv = true
  · obtain ⟨hst, rfl, rfl⟩ := hc
    rw [if_pos ⟨hst, rfl, rfl⟩] at a
    have hd : ulDispatch env { s with n3101 := 0, rx := s.rx + 1 } .lastUlData =
        some { s with st := .finished, tmr := none, n3101 := 0, rx := s.rx + 1 } := by
      unfold ulDispatch
      simp only [hst, ulIn, ulAction, ulChg, ulOut]
      rfl
    have hnw : s.ulAck ≠ .wait := by
      intro x; have := h.wait x; rw [hst] at this; rcases this with t | t <;> cases t
    rw [hd] at a
    simp only [Option.map_some, Option.bind_some, Bool.or_true, if_true, hsch] at a
    cases a
    refine ⟨⟨hi, h.live, nofun, fun _ => ?_, fun x => .inl rfl⟩, fun _ => nofun, fun x => ?_⟩
    · show (if s.ulAck = .idle then UlAck.sched else s.ulAck) ≠ .idle
      split
      · nofun
      · assumption
    · have x : (if s.ulAck = .idle then UlAck.sched else s.ulAck) = .wait := x
      split at x
      · cases x
      · exact x
  · rw [if_neg hc, Option.bind_some] at a
    by_cases hq : (r || cv) = true
    · rw [if_pos hq] at a
      simp only [hsch, Option.map_some] at a
      cases a
      have key : (if s.ulAck = .idle then UlAck.sched else s.ulAck) = .wait → s.ulAck = .wait := by
        intro x
        split at x
        · cases x
        · exact x
      refine ⟨⟨hi, h.live, h.used, fun _ => ?_, fun x => h.wait (key x)⟩, id, key⟩
      show (if s.ulAck = .idle then UlAck.sched else s.ulAck) ≠ .idle
      split
      · nofun
      · assumption
    · rw [if_neg hq] at a
      cases a
      exact ⟨⟨hi, h.live, h.used, h.ack, h.wait⟩, id, id⟩

/-- Operations that use up the answer to the final acknowledgement. -/
def ulConsumes : UlOp → Bool
  | .pollTimeout r => r == .ulAck
  | .ctrlAck r _ => r == .ulAck
  | .pktResReq => true
  | _ => false

/-- When an uplink TBF waits for the answer to the final acknowledgement after a step, it did so
before and the step was not about that; or the step was the sending of it. -/
theorem ulStep_wait {c : Cfg} {s s' : Ul} {op : UlOp} {env : Env} (h : UlLink s)
    (hs : ulStep c.ul s op env = some s') (hf : s'.freed = false) (hst : s'.st = .finished)
    (hw : s'.ulAck = .wait) :
    (s.st = .finished ∧ s.ulAck = .wait ∧ ulConsumes op = false) ∨ ∃ t, op = .createAck true t := by
  have a := hs
  unfold ulStep at a
  rw [if_neg (by rw [h.live]; decide)] at a
  have hinv := h.inv.resolve_left (by rw [h.live]; decide)
  -- the acknowledgement procedure is not touched by the events of the TBF
  have disp : ∀ (s2 : Ul) e, s2.st = s.st → s2.tmr = s.tmr → ulDispatch env s2 e = some s' →
      s'.ulAck = s2.ulAck := by
    intro s2 e h1 h2 hd
    obtain ⟨s3, x, _, _, y, _⟩ := ulDispatch_ok env s2 e (by rw [h1, h2]; exact hinv.1)
    rw [x] at hd; cases hd; exact y
  have back : s.ulAck = .wait → s.st = .finished := by
    intro x
    rcases h.wait x with y | y
    · exact y
    · -- a TBF that is being released does not become finished
      by_cases hk : UlOk op
      · obtain ⟨s2, x2, _, z⟩ := ulStep_ok c.ul s op env h.inv hk
        rw [hs] at x2; cases x2
        rcases z with z | z
        · rw [hst] at z; exact z.symm
        · rw [y] at z; cases z
      · have : op = .pollTimeout .dlAck := Classical.byContradiction hk
        subst this; cases a
  have same : ∀ op', op = op' → ulConsumes op' = false → s'.ulAck = s.ulAck →
      (s.st = .finished ∧ s.ulAck = .wait ∧ ulConsumes op = false) ∨
        ∃ t, op = .createAck true t := by
    intro op' e h1 h2
    subst e
    have : s.ulAck = .wait := h2 ▸ hw
    exact .inl ⟨back this, this, h1⟩
  cases op with
  | data f cm cv r =>
    have := (ulData_link h hs).2.2 hw
    exact .inl ⟨back this, this, rfl⟩
  | free => cases a; cases hf
  | timer =>
    refine same _ rfl rfl ?_
    simp only [ulTimer] at a
    cases ht : s.tmr with
    | none => rw [ht] at a; cases a; rfl
    | some t =>
      rw [ht] at a
      have hk := hinv.1
      rw [ht] at hk
      cases t <;> simp only at a <;> try (cases a; done)
      · have hst : s.st = .assign := by
          cases hst : s.st <;> rw [hst] at hk <;> first | rfl | (exact absurd hk (by decide))
        simp only [ulDispatch, hst, ulIn] at a
        simp only [ulAction, hst, ulChg, ulOut] at a
        cases a; rfl
      · cases a; cases hf
      · cases a; cases hf
  | uaTimer =>
    simp only [Option.map_eq_some_iff] at a
    obtain ⟨f, _, a⟩ := a
    exact same _ rfl rfl (by rw [← a])
  | t3141 =>
    refine same _ rfl rfl ?_
    simp only at a
    split at a <;> cases a <;> rfl
  | createDl m =>
    simp only [Option.map_eq_some_iff] at a
    obtain ⟨f, _, a⟩ := a
    exact same _ rfl rfl (by rw [← a])
  | createUl m =>
    simp only [Option.map_eq_some_iff] at a
    obtain ⟨f, _, a⟩ := a
    exact same _ rfl rfl (by rw [← a])
  | schedDl =>
    simp only [Option.map_eq_some_iff] at a
    obtain ⟨f, _, a⟩ := a
    exact same _ rfl rfl (by rw [← a])
  | schedUl =>
    simp only [Option.map_eq_some_iff] at a
    obtain ⟨f, _, a⟩ := a
    exact same _ rfl rfl (by rw [← a])
  | schedRej =>
    simp only [Option.map_eq_some_iff] at a
    obtain ⟨f, _, a⟩ := a
    exact same _ rfl rfl (by rw [← a])
  | abortDl =>
    simp only [Option.map_eq_some_iff] at a
    obtain ⟨f, _, a⟩ := a
    exact same _ rfl rfl (by rw [← a])
  | pktResReq =>
    simp only [Option.map_eq_some_iff] at a
    obtain ⟨f, _, a⟩ := a
    cases a; cases hf
  | ev e => exact same _ rfl rfl (disp s e rfl rfl a)
  | usfTimeout =>
    refine same _ rfl rfl ?_
    simp only [ulUsfTimeout] at a
    split at a
    · exact disp { s with n3101 := (nInc c.ul.n3101 s.n3101).1 } _ rfl rfl a
    · cases a; rfl
  | pollTimeout r =>
    simp only [ulPollTimeout] at a
    cases r with
    | dlAck => cases a
    | ulAss =>
      refine same _ rfl rfl ?_
      simp only at a
      split at a
      · cases a; rfl
      · simp only [Option.map_eq_some_iff] at a
        obtain ⟨f, _, a⟩ := a
        rw [← a]
    | dlAss =>
      refine same _ rfl rfl ?_
      simp only at a
      split at a
      · cases a; rfl
      · simp only [Option.map_eq_some_iff] at a
        obtain ⟨f, _, a⟩ := a
        rw [← a]
    | ulAck =>
      exfalso
      simp only at a
      by_cases hx : s.ulAck = .wait
      · rw [if_neg (by simp [hx]), if_pos (back hx)] at a
        split at a
        · unfold ulDispatch at a
          rw [if_pos (by show ulIn s.st .maxN3103 = true; rw [back hx]; rfl)] at a
          simp only [ulAction, back hx, ulChg, ulOut] at a
          cases a; cases hst
        · rw [hx] at a
          simp [UlAck.dispatch, UlAck.inMask, UlAck.action, UlAck.chg, UlAck.outMask] at a
          subst a; cases hw
      · rw [if_pos hx] at a
        cases a; exact hx hw
  | ctrlAck r self =>
    simp only [ulCtrlAck] at a
    cases r with
    | dlAck => cases a; exact same _ rfl rfl rfl
    | ulAck =>
      exfalso
      simp only at a
      by_cases hx : s.ulAck = .wait
      · rw [if_neg (by simp [hx]), hx] at a
        simp [UlAck.dispatch, UlAck.inMask, UlAck.action, UlAck.chg, UlAck.outMask] at a
        rw [if_pos (back hx)] at a
        have := disp { s with ulAck := .idle } _ rfl rfl a
        rw [this] at hw; cases hw
      · rw [if_pos hx] at a
        cases a; exact hx hw
    | dlAss =>
      refine same _ rfl rfl ?_
      simp only at a
      split at a
      · cases a; rfl
      · simp only [Option.map_eq_some_iff] at a
        obtain ⟨f, _, a⟩ := a
        rw [← a]
    | ulAss =>
      refine same _ rfl rfl ?_
      simp only at a
      split at a
      · cases a; rfl
      · simp only [Option.bind_eq_some_iff] at a
        obtain ⟨u, _, a⟩ := a
        split at a
        · simp only [Option.bind_eq_some_iff] at a
          obtain ⟨s2, b, a⟩ := a
          have h2 : s'.ulAck = s2.ulAck := by
            split at a
            · simp only [Option.map_eq_some_iff] at a
              obtain ⟨_, _, a⟩ := a
              rw [← a]
            · cases a; rfl
          obtain ⟨s3, x, _, _, y, _⟩ := ulDispatch_ok env { s with ulAss := u } .ackPacch hinv.1
          rw [x] at b; cases b
          rw [h2, y]
        · cases a; rfl
  | createAck made tlli =>
    cases made with
    | true => exact .inr ⟨tlli, rfl⟩
    | false =>
      refine same _ rfl rfl ?_
      simp only [ulCreateAck, Option.bind_eq_some_iff] at a
      obtain ⟨k, hk, a⟩ := a
      have hk' : k = s.ulAck := by
        cases hu : s.ulAck <;> rw [hu] at hk <;>
          simp [UlAck.dispatch, UlAck.inMask, UlAck.action] at hk <;> exact hk.symm
      rw [if_neg (by simp)] at a
      cases a; exact hk'

/-- What holds of an uplink TBF and its blocks. -/
structure UlAt (p : Pd) (b : Nat) (s : Ul) : Prop where
  link : UlLink s
  usf : ∀ n ∈ p.of (.ul b), n.kind = none → s.st ≠ .assign

structure UInv (p : Pd) : Prop where
  sep : Sep p
  tbf : ∀ b s, p.ul b = some s → UlAt p b s

theorem UlVia.mild {c : Cfg} {p : Pd} {b : Nat} {op : Op} {s s' : Ul} {o : UlOp} {N : List Node}
    {env : Env} (h : UlVia p b op s o N) (ha : UlAt p b s) (hs : ulStep c.ul s o env = some s') :
    ulMild s o = true ∨ ∃ fn f cm cv r, op = .recv fn (.data b f cm cv r) ∧ o = .data f cm cv r := by
  cases h with
  | loc _ h1 h2 _ =>
    left
    cases o <;> first | rfl | skip
    all_goals first
      | (simp [ulLocal] at h1; done)
      | (simp only [ulLocal] at h1; simpa [ulMild] using h1)
      | skip
    next m t => simp only [ulLocal] at h1; simp [ulMild, h1]
  | ack t h1 h2 => left; simp [ulMild, h2]
  | rej => exact .inl rfl
  | data fn f cm cv r h1 => exact .inr ⟨fn, f, cm, cv, r, h1, rfl⟩
  | used fn n f cm cv r h1 => exact .inr ⟨fn, f, cm, cv, r, h1, rfl⟩
  | usf fn n h1 h2 h3 => left; simpa [ulMild] using ha.usf n h1 h3
  | upgrade => exact .inl rfl
  | miss fn n r h1 h2 h3 =>
    left
    cases r <;> first | rfl | skip
    unfold ulStep at hs
    rw [if_neg (by rw [ha.link.live]; decide)] at hs
    cases hs
  | answer fn n r x h1 h2 h3 h4 => left; simpa [ulMild] using h4
  | again => exact .inl rfl
  | final fn t h1 h2 => left; simp [ulMild, h2]
  | sentDl => exact .inl rfl
  | sentUl => exact .inl rfl

/-- The blocks afterwards are old ones, or polls. -/
theorem UlVia.blocks {p : Pd} {b : Nat} {op : Op} {s : Ul} {o : UlOp} {N : List Node}
    (h : UlVia p b op s o N) : ∀ n ∈ N, n.kind = none → n ∈ p.of (.ul b) := by
  intro n hn hk
  cases h <;> first
    | exact hn
    | exact (List.mem_filter.1 hn).1
    | (rcases List.mem_cons.1 hn with rfl | hn
       · cases hk
       · exact hn)

theorem fresh_ul {c : Cfg} {ccch : Bool} {env : Env} {s : Ul}
    (h : ulStep c.ul {} (.ev (if ccch then .addCcch else .addPacch)) env = some s) :
    UlLink s ∧ s.st = .assign ∧ s.n3101 = 0 ∧ s.ulAck = .idle := by
  cases ccch <;> cases h <;>
    exact ⟨⟨.inr ⟨rfl, .inl rfl⟩, rfl, nofun, nofun, nofun⟩, rfl, rfl, rfl⟩

theorem UlAfter.some {q : Pd} {b : Nat} {s s2 : Ul} {N : List Node} (h : UlAfter q b s N)
    (hq : q.ul b = some s2) : s2 = s ∧ s.freed = false ∧ q.of (.ul b) = N := by
  unfold UlAfter at h
  split at h
  · rw [h.1] at hq; cases hq
  · next hf =>
    rw [h.1] at hq; cases hq
    exact ⟨rfl, by simpa using hf, h.2⟩

theorem UInv.step {c : Cfg} (h1 : c.ul.n3101 < 256) (h3 : c.ul.n3103 < 256) {p q : Pd} {op : Op}
    {env : Env} (hp : UInv p) (h : step c p op env = some q) : UInv q := by
  refine ⟨hp.sep.step h, fun b s hs => ?_⟩
  cases ul_eff hp.sep h b with
  | none e1 e2 _ =>
    have := hp.tbf b s (e1 ▸ hs)
    exact ⟨this.link, fun n hn => this.usf n (e2 ▸ hn)⟩
  | lost fn n e1 e2 _ _ _ =>
    have := hp.tbf b s (e1 ▸ hs)
    exact ⟨this.link, fun n hn => this.usf n ((List.mem_filter.1 (e2 ▸ hn)).1)⟩
  | new ccch s0 _ hn hs0 ha =>
    obtain ⟨rfl, _, e⟩ := ha.some hs
    refine ⟨(fresh_ul hs0).1, fun n hm => ?_⟩
    rw [e, mem_of] at hm
    have := hp.sep.owner n hm.1
    rw [hm.2] at this
    exact absurd hn this
  | grant fn s0 e0 est e1 e2 _ =>
    rw [e1] at hs; cases hs
    exact ⟨(hp.tbf b s e0).link, fun n _ _ => by rw [est]; nofun⟩
  | did s0 o s1 N e0 e1 ha hv _ =>
    obtain ⟨rfl, hf, e⟩ := ha.some hs
    have h0 := hp.tbf b s0 e0
    have key : UlLink s ∧ (s0.st ≠ .assign → s.st ≠ .assign) := by
      rcases hv.mild h0 e1 with hm | ⟨fn, f, cm, cv, r, _, rfl⟩
      · rcases ulStep_down c h1 h3 s0 s o env h0.link hm e1 with x | x
        · rw [hf] at x; cases x
        · exact ⟨x.1, x.2.1⟩
      · have := ulData_link h0.link e1
        exact ⟨this.1, this.2.1⟩
    exact ⟨key.1, fun n hn hk => key.2 (h0.usf n (hv.blocks n (e ▸ hn) hk) hk)⟩

/-- An uplink TBF that waits for the answer to the final acknowledgement is promised a block for
it. -/
def UWait (p : Pd) : Prop :=
  ∀ b s, p.ul b = some s → s.st = .finished → s.ulAck = .wait →
    ∃ n ∈ p.of (.ul b), n.kind = some .ulAck

theorem UWait.step {c : Cfg} {p q : Pd} {op : Op}
    {env : Env} (hp : UInv p) (hw : UWait p) (hns : ¬ Stray p op) (h : step c p op env = some q) :
    UWait q := by
  intro b s hs hst hk
  cases ul_eff hp.sep h b with
  | none e1 e2 _ => rw [e2]; exact hw b s (e1 ▸ hs) hst hk
  | lost fn n e1 e2 hn hop _ =>
    obtain ⟨m, hm, hmk⟩ := hw b s (e1 ▸ hs) hst hk
    refine ⟨m, ?_, hmk⟩
    rw [e2, List.mem_filter]
    refine ⟨hm, ?_⟩
    have hne : m.fn ≠ fn := by
      intro e
      have := hp.sep.same (mem_of.1 hm).1 (node_some hn).1 (e.trans (node_some hn).2.symm)
      subst this
      exact hns ⟨fn, m, hn, by rw [hmk]; nofun, hop⟩
    simpa using hne
  | new ccch s0 _ hn hs0 ha =>
    obtain ⟨rfl, _, e⟩ := ha.some hs
    rw [(fresh_ul hs0).2.1] at hst; cases hst
  | grant fn s0 e0 est e1 e2 _ =>
    rw [e1] at hs; cases hs
    rw [est] at hst; cases hst
  | did s0 o s1 N e0 e1 ha hv _ =>
    obtain ⟨rfl, hf, e⟩ := ha.some hs
    have h0 := hp.tbf b s0 e0
    rw [e]
    rcases ulStep_wait h0.link e1 hf hst hk with ⟨y1, y2, y3⟩ | ⟨t, rfl⟩
    · obtain ⟨m, hm, hmk⟩ := hw b s0 e0 y1 y2
      refine ⟨m, ?_, hmk⟩
      have other : ∀ n fn, n ∈ p.of (.ul b) → n.fn = fn → n.kind ≠ some .ulAck →
          m ∈ (p.of (.ul b)).filter fun m => m.fn != fn := by
        intro n fn hn hfn hnk
        rw [List.mem_filter]
        refine ⟨hm, ?_⟩
        have : m.fn ≠ fn := by
          intro e
          have := hp.sep.same (mem_of.1 hm).1 (mem_of.1 hn).1 (e.trans hfn.symm)
          subst this
          exact hnk hmk
        simpa using this
      cases hv with
      | loc => exact hm
      | ack => exact hm
      | rej => exact hm
      | data => exact hm
      | used fn n _ _ _ _ _ h1 h2 h3 => exact other n fn h1 h2 (by rw [h3]; nofun)
      | usf fn n h1 h2 h3 => exact other n fn h1 h2 (by rw [h3]; nofun)
      | upgrade fn n h1 h2 h3 => exact other n fn h1 h2 (by rw [h3]; nofun)
      | miss fn n r h1 h2 h3 =>
        exact other n fn h1 h2 (by rw [h3]; intro x; cases x; cases y3)
      | answer fn n r x h1 h2 h3 _ =>
        exact other n fn h1 h2 (by rw [h3]; intro x; cases x; cases y3)
      | again => cases y3
      | final => exact List.mem_cons_of_mem _ hm
      | sentDl => exact List.mem_cons_of_mem _ hm
      | sentUl => exact List.mem_cons_of_mem _ hm
    · cases hv with
      | loc _ _ hx _ => exact absurd rfl (hx t)
      | ack _ h1 h2 =>
        -- not the final one
        exfalso
        have e1' := e1
        unfold ulStep at e1'
        rw [if_neg (by rw [h0.link.live]; decide)] at e1'
        simp only [ulCreateAck, Option.bind_eq_some_iff] at e1'
        obtain ⟨k, hk', a⟩ := e1'
        have hx : (s0.st == St.finished) = false := by simpa using h1
        rw [h2, hx] at hk'
        simp [UlAck.dispatch, UlAck.inMask, UlAck.action, UlAck.chg, UlAck.outMask] at hk'
        subst hk'
        have hinv := (h0.link.inv.resolve_left (by rw [h0.link.live]; decide)).1
        split at a
        · obtain ⟨s3, x, _, _, y, _⟩ := ulDispatch_ok env { s0 with ulAck := .idle } .contentionOk hinv
          rw [x] at a; cases a
          rw [y] at hk; cases hk
        · cases a; cases hk
      | final fn _ _ _ => exact ⟨_, List.mem_cons_self, rfl⟩

/-- The number of turns left of an uplink TBF. -/
theorem ul_rank_step {c : Cfg} (h1 : c.ul.n3101 < 256) (h3 : c.ul.n3103 < 256) {p q : Pd} {op : Op}
    {env : Env} {b : Nat} (hp : UInv p) (hsil : UlSilent b op) (h : step c p op env = some q)
    {s : Ul} (hs : p.ul b = some s) :
    q.ul b = none ∨ ∃ s', q.ul b = some s' ∧
      ulTurnsLeft c s' + (if ulTurn p b op then 1 else 0) ≤ ulTurnsLeft c s := by
  cases hq : q.ul b with
  | none => exact .inl rfl
  | some s' =>
    refine .inr ⟨s', rfl, ?_⟩
    cases ul_eff hp.sep h b with
    | none e1 e2 ht => rw [e1, hs] at hq; cases hq; rw [ht]; exact Nat.le_refl _
    | lost fn n e1 e2 hn hop ht => rw [e1, hs] at hq; cases hq; rw [ht]; exact Nat.le_refl _
    | new ccch s0 ho hn hs0 ha => rw [hs] at hn; cases hn
    | grant fn s0 e0 est e1 e2 ht =>
      rw [e1] at hq; cases hq
      rw [hs] at e0; cases e0
      rw [ht]; exact Nat.le_refl _
    | did s0 o s1 N e0 e1 ha hv ht =>
      rw [hs] at e0; cases e0
      obtain ⟨rfl, hf, e⟩ := ha.some hq
      have h0 := hp.tbf b s hs
      rcases hv.mild h0 e1 with hm | ⟨fn, f, cm, cv, r, ho, rfl⟩
      · rcases ulStep_down c h1 h3 s s' o env h0.link hm e1 with x | ⟨_, _, x⟩
        · rw [hf] at x; cases x
        · unfold uRank at x
          rw [hf, h0.link.live] at x
          by_cases htt : ulTurn p b op = true
          · rw [if_pos htt]
            rw [ht htt] at x
            simpa using x
          · rw [if_neg htt]
            simp only [Bool.false_eq_true, if_false] at x
            omega
      · exact absurd ho (hsil.2 fn f cm cv r)

theorem ul_none_step {c : Cfg} {p q : Pd} {op : Op}
    {env : Env} {b : Nat} (hp : Sep p) (hsil : UlSilent b op) (h : Live.step c p op env = some q)
    (hs : p.ul b = none) : q.ul b = none ∧ ulTurn p b op = false := by
  have ht : ulTurn p b op = false := by simp [ulTurn, hs]
  refine ⟨?_, ht⟩
  cases ul_eff hp h b with
  | none e1 e2 ht => rw [e1, hs]
  | lost fn n e1 e2 hn hop ht => rw [e1, hs]
  | new ccch s0 ho hn hs0 ha => exact absurd ho (hsil.1 ccch)
  | grant fn s0 e0 est e1 e2 ht => rw [hs] at e0; cases e0
  | did s0 o s1 N e0 e1 ha hv ht => rw [hs] at e0; cases e0

theorem uinv_empty : UInv Pd.empty :=
  ⟨⟨List.Pairwise.nil, fun _ h => absurd h (List.not_mem_nil)⟩,
    fun b s h => absurd (show (none : Option Ul) = some s from h) (by intro x; cases x)⟩

theorem turns_cons {c : Cfg} {f : Pd → Op → Bool} {p p1 : Pd} {op : Op} {env : Env}
    {r : List (Op × Env)} (h : step c p op env = some p1) :
    turns c f p ((op, env) :: r) = (if f p op then 1 else 0) + turns c f p1 r := by
  rw [turns, h]

theorem run_cons {c : Cfg} {p q : Pd} {op : Op} {env : Env} {r : List (Op × Env)}
    (h : run c p ((op, env) :: r) = some q) :
    ∃ p1, step c p op env = some p1 ∧ run c p1 r = some q := by
  rw [run, Option.bind_eq_some_iff] at h
  exact h

theorem ul_turns {c : Cfg} (h1 : c.ul.n3101 < 256) (h3 : c.ul.n3103 < 256) (b : Nat)
    (ops : List (Op × Env)) (p q : Pd) (hp : UInv p) (hsil : ∀ x ∈ ops, UlSilent b x.1)
    (hr : run c p ops = some q) :
    (p.ul b = none → q.ul b = none ∧ turns c (fun p => ulTurn p b) p ops = 0) ∧
    (∀ s, p.ul b = some s → turns c (fun p => ulTurn p b) p ops ≤ ulTurnsLeft c s ∧
      (q.ul b = none ∨ ∃ s', q.ul b = some s' ∧
        ulTurnsLeft c s' + turns c (fun p => ulTurn p b) p ops ≤ ulTurnsLeft c s)) := by
  induction ops generalizing p with
  | nil =>
    cases hr
    exact ⟨fun h => ⟨h, rfl⟩, fun s hs => ⟨Nat.zero_le _, .inr ⟨s, hs, Nat.le_refl _⟩⟩⟩
  | cons x r ih =>
    obtain ⟨op, env⟩ := x
    obtain ⟨p1, h, hr⟩ := run_cons hr
    have hsl : UlSilent b op := hsil _ List.mem_cons_self
    obtain ⟨i1, i2⟩ := ih p1 (hp.step h1 h3 h)
      (fun x hx => hsil x (List.mem_cons_of_mem _ hx)) hr
    rw [turns_cons h]
    refine ⟨fun hn => ?_, fun s hs => ?_⟩
    · obtain ⟨a1, a2⟩ := ul_none_step hp.sep hsl h hn
      refine ⟨(i1 a1).1, ?_⟩
      rw [a2, (i1 a1).2]; rfl
    · have hif : ∀ b : Bool, (if b = true then 1 else 0) ≤ 1 := by intro b; cases b <;> decide
      rcases ul_rank_step h1 h3 hp hsl h hs with a | ⟨s1, a1, a2⟩
      · refine ⟨?_, .inl (i1 a).1⟩
        have hp1 : 1 ≤ ulTurnsLeft c s := by
          have h1 := left_pos c.ul.n3101 s.n3101
          have h2 := left_pos c.ul.n3103 s.n3103
          unfold ulTurnsLeft
          split <;> omega
        have := hif (ulTurn p b op)
        rw [(i1 a).2]
        omega
      · obtain ⟨j1, j2⟩ := i2 s1 a1
        refine ⟨by omega, ?_⟩
        rcases j2 with b1 | ⟨s2, b1, b2⟩
        · exact .inl b1
        · exact .inr ⟨s2, b1, by omega⟩

end Verif.Live
