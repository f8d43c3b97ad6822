import Verif.Lemmas.TbfFsm

/-! Invariants of the uplink TBF state machine. -/

namespace Verif.Tbf
open Verif.TbfSpec

/-- Which timer runs in which state of an uplink TBF. -/
def ulTmrOk : St → Option Tmr → Bool
  | .new, t => t == none
  | .assign, t => t == some .t3168 || t == some .x2002
  | .flow, t => t == none
  | .finished, t => t == none
  | .releasing, t => t == some .t3169
  | _, _ => false

def UaTmrOk (u : UlAss) : Prop := u.tmr = none ∨ u.tmr = some .t3168 ∨ u.tmr = some .x2000

def UlInv (s : Ul) : Prop := s.freed = true ∨ (ulTmrOk s.st s.tmr = true ∧ UaTmrOk s.ulAss)

/-- Events handled in the uplink FSM other than by a state change. -/
theorem ulContention_ok (env : Env) (s : Ul) :
    ∃ d, ulContention env s = some { s with cr := true, t3141 := false, dlAss := d } := by
  unfold ulContention
  split
  · obtain ⟨d, hd⟩ := DlAss.dispatch_total s.dlAss .sched .noPoll
    exact ⟨d, by simp [hd]⟩
  · exact ⟨s.dlAss, rfl⟩

/-- What one event does to an uplink TBF. -/
theorem ulDispatch_ok (env : Env) (s : Ul) (e : Ev) (h : ulTmrOk s.st s.tmr = true) :
    ∃ s', ulDispatch env s e = some s' ∧ (s'.freed = true ∨ ulTmrOk s'.st s'.tmr = true) ∧
      s'.ulAss = s.ulAss ∧ s'.ulAck = s.ulAck ∧ s'.rx = s.rx ∧ s'.n3101 = s.n3101 ∧
      s'.n3103 = s.n3103 ∧ (s.freed = true → s'.freed = true) ∧
      (s'.freed = true → s.freed = true ∨ e = .finalUlAckConfirmed) ∧
      (s'.st = s.st ∨ UlMove s.st (.ev e) s'.st) := by
  obtain ⟨st, ccch, pacch, tmr, cr, t3, uk, ua, da, n1, n3, rx, fr⟩ := s
  simp only at h
  have hcon : ∀ st', st' = St.flow ∨ st' = .finished → st = st' →
      ulDispatch env ⟨st, ccch, pacch, tmr, cr, t3, uk, ua, da, n1, n3, rx, fr⟩ .contentionOk =
      ulContention env ⟨st, ccch, pacch, tmr, cr, t3, uk, ua, da, n1, n3, rx, fr⟩ := by
    rintro _ (rfl | rfl) rfl <;> rfl
  cases st <;> cases e <;>
    first
    | exact ⟨_, rfl, Or.inr h, rfl, rfl, rfl, rfl, rfl, id, Or.inl, Or.inl rfl⟩
    | skip
  case new.addCcch =>
    cases pacch <;>
      exact ⟨_, rfl, Or.inr rfl, rfl, rfl, rfl, rfl, rfl, id, Or.inl, Or.inr (.start (Or.inl rfl))⟩
  case new.addPacch =>
    exact ⟨_, rfl, Or.inr rfl, rfl, rfl, rfl, rfl, rfl, id, Or.inl, Or.inr (.start (Or.inr rfl))⟩
  case assign.ackPacch =>
    cases ccch <;>
      exact ⟨_, rfl, Or.inr rfl, rfl, rfl, rfl, rfl, rfl, id, Or.inl,
        Or.inr (.assigned (Or.inl rfl))⟩
  case assign.readyCcch =>
    exact ⟨_, rfl, Or.inr rfl, rfl, rfl, rfl, rfl, rfl, id, Or.inl,
      Or.inr (.assigned (Or.inr (Or.inl rfl)))⟩
  case flow.contentionOk =>
    obtain ⟨d, hd⟩ := ulContention_ok env ⟨.flow, ccch, pacch, tmr, cr, t3, uk, ua, da, n1, n3, rx, fr⟩
    rw [hcon .flow (Or.inl rfl) rfl]
    exact ⟨_, hd, Or.inr h, rfl, rfl, rfl, rfl, rfl, id, Or.inl, Or.inl rfl⟩
  case finished.contentionOk =>
    obtain ⟨d, hd⟩ :=
      ulContention_ok env ⟨.finished, ccch, pacch, tmr, cr, t3, uk, ua, da, n1, n3, rx, fr⟩
    rw [hcon .finished (Or.inr rfl) rfl]
    exact ⟨_, hd, Or.inr h, rfl, rfl, rfl, rfl, rfl, id, Or.inl, Or.inl rfl⟩
  case finished.finalUlAckConfirmed =>
    exact ⟨_, rfl, Or.inl rfl, rfl, rfl, rfl, rfl, rfl, fun _ => rfl, fun _ => Or.inr rfl,
      Or.inl rfl⟩
  case flow.lastUlData =>
    exact ⟨_, rfl, Or.inr rfl, rfl, rfl, rfl, rfl, rfl, id, Or.inl, Or.inr (.allRecvd (Or.inl rfl))⟩
  case flow.maxN3101 =>
    exact ⟨_, rfl, Or.inr rfl, rfl, rfl, rfl, rfl, rfl, id, Or.inl, Or.inr (.n3101 (Or.inl rfl))⟩
  case finished.maxN3103 =>
    exact ⟨_, rfl, Or.inr rfl, rfl, rfl, rfl, rfl, rfl, id, Or.inl, Or.inr (.n3103 (Or.inl rfl))⟩

/-- The event a legal change of an uplink TBF names is the only one that causes it. -/
theorem UlMove.ev_cases {st st' : St} {e : Ev} (h : UlMove st (.ev e) st') :
    (st = .new ∧ st' = .assign ∧ (e = .addCcch ∨ e = .addPacch)) ∨
    (st = .assign ∧ st' = .flow ∧ (e = .ackPacch ∨ e = .readyCcch)) ∨
    (st = .flow ∧ st' = .finished ∧ e = .lastUlData) ∨
    (st = .flow ∧ st' = .releasing ∧ e = .maxN3101) ∨
    (st = .finished ∧ st' = .releasing ∧ e = .maxN3103) := by
  cases h with
  | start h =>
    refine Or.inl ⟨rfl, rfl, ?_⟩
    rcases h with h | h <;> cases h
    · exact Or.inl rfl
    · exact Or.inr rfl
  | assigned h =>
    refine Or.inr (Or.inl ⟨rfl, rfl, ?_⟩)
    rcases h with h | h | h | h <;> cases h
    · exact Or.inl rfl
    · exact Or.inr rfl
  | allRecvd h =>
    rcases h with h | ⟨_, _, h⟩ <;> cases h
    exact Or.inr (Or.inr (Or.inl ⟨rfl, rfl, rfl⟩))
  | n3101 h =>
    rcases h with h | h <;> cases h
    exact Or.inr (Or.inr (Or.inr (Or.inl ⟨rfl, rfl, rfl⟩)))
  | n3103 h =>
    rcases h with h | h <;> cases h
    exact Or.inr (Or.inr (Or.inr (Or.inr ⟨rfl, rfl, rfl⟩)))

/-- One operation on an uplink TBF. -/
theorem ulStep_ok (lim : Lim) (s : Ul) (op : UlOp) (env : Env) (hinv : UlInv s) (ho : UlOk op) :
    ∃ s', ulStep lim s op env = some s' ∧ UlInv s' ∧ (s'.st = s.st ∨ UlMove s.st op s'.st) := by
  unfold ulStep
  by_cases hf : s.freed = true
  · rw [if_pos hf]; exact ⟨s, rfl, hinv, Or.inl rfl⟩
  rw [if_neg hf]
  obtain ⟨ht, hu⟩ := hinv.resolve_left hf
  have wrap : ∀ (s1 : Ul) (e : Ev), s1.st = s.st → s1.tmr = s.tmr → UaTmrOk s1.ulAss →
      (∀ st', UlMove s.st (.ev e) st' → UlMove s.st op st') →
      ∃ s', ulDispatch env s1 e = some s' ∧ UlInv s' ∧
        (s'.st = s.st ∨ UlMove s.st op s'.st) := by
    intro s1 e h1 h2 h3 h4
    obtain ⟨s', a, b, c, _, _, _, _, _, _, d⟩ :=
      ulDispatch_ok env s1 e (by rw [h1, h2]; exact ht)
    refine ⟨s', a, b.imp id fun b => ⟨b, by rw [c]; exact h3⟩, ?_⟩
    rw [h1] at d
    exact d.imp id (h4 _)
  cases op with
  | ev e => exact wrap s e rfl rfl hu fun _ x => x
  | timer =>
    simp only [ulTimer]
    cases htm : s.tmr with
    | none => exact ⟨s, rfl, Or.inr ⟨ht, hu⟩, Or.inl rfl⟩
    | some t =>
      rw [htm] at ht
      cases hst : s.st <;> rw [hst] at ht <;> cases t <;> simp [ulTmrOk] at ht
      case assign.t3168 => exact ⟨_, rfl, Or.inl rfl, Or.inl rfl⟩
      case releasing.t3169 => exact ⟨_, rfl, Or.inl rfl, Or.inl rfl⟩
      case assign.x2002 =>
        simp only [ulDispatch, ulIn, ulAction]
        exact ⟨_, rfl, Or.inr ⟨rfl, hu⟩, Or.inr (.assigned (Or.inr (Or.inr (Or.inl rfl))))⟩
  | uaTimer =>
    simp only [Tbf.uaTimer]
    rcases hu with hu | hu | hu <;> rw [hu]
    · exact ⟨_, rfl, Or.inr ⟨ht, Or.inl rfl⟩, Or.inl rfl⟩
    · exact ⟨_, rfl, Or.inl rfl, Or.inl rfl⟩
    · exact ⟨_, rfl, Or.inl rfl, Or.inl rfl⟩
  | t3141 =>
    simp only
    split
    · exact ⟨_, rfl, Or.inl rfl, Or.inl rfl⟩
    · exact ⟨_, rfl, Or.inr ⟨ht, hu⟩, Or.inl rfl⟩
  | usfTimeout =>
    simp only [ulUsfTimeout]
    split
    · refine wrap _ _ rfl rfl hu fun st' x => ?_
      rcases UlMove.ev_cases x with ⟨_, _, h | h⟩ | ⟨_, _, h | h⟩ | ⟨_, _, h⟩ | ⟨h1, h2, _⟩ | ⟨_, _, h⟩ <;>
        first
        | cases h
        | (rw [h1, h2]; exact .n3101 (Or.inr rfl))
    · exact ⟨_, rfl, Or.inr ⟨ht, hu⟩, Or.inl rfl⟩
  | data f c v r =>
    simp only [ulData]
    split
    · exact ⟨_, rfl, Or.inr ⟨ht, hu⟩, Or.inl rfl⟩
    -- first part: the TLLI
    have p1 : ∃ s1, (if f = true then ulDispatch env { s with n3101 := 0, rx := s.rx + 1 } .firstUlData
        else some { s with n3101 := 0, rx := s.rx + 1 }) = some s1 ∧ s1.st = s.st ∧
        s1.tmr = s.tmr ∧ s1.ulAss = s.ulAss ∧ s1.freed = s.freed := by
      split
      · cases hst : s.st <;> simp [ulDispatch, ulIn, ulAction]
      · exact ⟨_, rfl, rfl, rfl, rfl, rfl⟩
    obtain ⟨s1, e1, a1, a2, a3, a4⟩ := p1
    rw [e1, Option.bind_some]
    -- second part: the end of the data
    have p2 : ∃ s2, (if s1.st = .flow ∧ c = true ∧ v = true then
        (ulDispatch env s1 .lastUlData).map fun s2 => { s2 with n3103 := 0 } else some s1) = some s2 ∧
        UlInv s2 ∧ (s2.st = s.st ∨ UlMove s.st (.data f c v r) s2.st) := by
      split
      · rename_i hc
        obtain ⟨hc1, rfl, rfl⟩ := hc
        obtain ⟨s2, e2, b1, b2, _, _, _, _, _, b3, b4⟩ :=
          ulDispatch_ok env s1 .lastUlData (by rw [a1, a2]; exact ht)
        rw [e2]
        refine ⟨_, rfl, b1.imp id fun b => ⟨b, by show UaTmrOk s2.ulAss; rw [b2, a3]; exact hu⟩, ?_⟩
        refine b4.imp (fun x => x.trans a1) fun x => ?_
        rcases UlMove.ev_cases x with ⟨_, _, h | h⟩ | ⟨_, _, h | h⟩ | ⟨h1, h2, _⟩ | ⟨_, _, h⟩ | ⟨_, _, h⟩ <;>
          first
          | cases h
          | skip
        show UlMove s.st _ s2.st
        rw [h2, ← a1, h1]
        exact .allRecvd (Or.inr ⟨_, _, rfl⟩)
      · exact ⟨_, rfl, Or.inr ⟨by rw [a1, a2]; exact ht, by rw [a3]; exact hu⟩, Or.inl a1⟩
    obtain ⟨s2, e2, b1, b2⟩ := p2
    rw [e2, Option.bind_some]
    split
    · obtain ⟨a, ha⟩ := UlAck.dispatch_total s2.ulAck .sched false false
      simp only [ha]
      exact ⟨_, rfl, b1, b2⟩
    · exact ⟨_, rfl, b1, b2⟩
  | pollTimeout r =>
    cases r with
    | dlAck => exact absurd rfl ho
    | ulAss =>
      simp only [ulPollTimeout]
      split
      · exact ⟨s, rfl, Or.inr ⟨ht, hu⟩, Or.inl rfl⟩
      · obtain ⟨u, hu1, hu2⟩ := UlAss.dispatch_ul s.ulAss (s.st == .assign) .pollTimeout .noPoll hu
        simp only [hu1]
        exact ⟨_, rfl, Or.inr ⟨ht, hu2⟩, Or.inl rfl⟩
    | dlAss =>
      simp only [ulPollTimeout]
      split
      · exact ⟨s, rfl, Or.inr ⟨ht, hu⟩, Or.inl rfl⟩
      · obtain ⟨d, hd⟩ := DlAss.dispatch_total s.dlAss .pollTimeout .noPoll
        simp only [hd]
        exact ⟨_, rfl, Or.inr ⟨ht, hu⟩, Or.inl rfl⟩
    | ulAck =>
      simp only [ulPollTimeout]
      obtain ⟨a, ha⟩ := UlAck.dispatch_total s.ulAck .pollTimeout false false
      split
      · exact ⟨s, rfl, Or.inr ⟨ht, hu⟩, Or.inl rfl⟩
      split
      · split
        · refine wrap _ _ rfl rfl hu fun st' x => ?_
          rcases UlMove.ev_cases x with ⟨_, _, h | h⟩ | ⟨_, _, h | h⟩ | ⟨_, _, h⟩ | ⟨_, _, h⟩ | ⟨h1, h2, _⟩ <;>
            first
            | cases h
            | (rw [h1, h2]; exact .n3103 (Or.inr rfl))
        · simp only [ha]
          exact ⟨_, rfl, Or.inr ⟨ht, hu⟩, Or.inl rfl⟩
      · simp only [ha]
        exact ⟨_, rfl, Or.inr ⟨ht, hu⟩, Or.inl rfl⟩
  | ctrlAck r self =>
    cases r with
    | dlAck => exact ⟨s, rfl, Or.inr ⟨ht, hu⟩, Or.inl rfl⟩
    | ulAck =>
      simp only [ulCtrlAck]
      split
      · exact ⟨s, rfl, Or.inr ⟨ht, hu⟩, Or.inl rfl⟩
      · obtain ⟨a, ha⟩ := UlAck.dispatch_total s.ulAck .ctrlAck false false
        simp only [ha, Option.bind_some]
        split
        · refine wrap _ _ rfl rfl hu fun st' x => ?_
          rcases UlMove.ev_cases x with ⟨_, _, h | h⟩ | ⟨_, _, h | h⟩ | ⟨_, _, h⟩ | ⟨_, _, h⟩ | ⟨_, _, h⟩ <;>
            cases h
        · exact ⟨_, rfl, Or.inr ⟨ht, hu⟩, Or.inl rfl⟩
    | ulAss =>
      simp only [ulCtrlAck]
      split
      · exact ⟨s, rfl, Or.inr ⟨ht, hu⟩, Or.inl rfl⟩
      · obtain ⟨u, hu1, hu2⟩ := UlAss.dispatch_ul s.ulAss (s.st == .assign) .ctrlAck .noPoll hu
        simp only [hu1, Option.bind_some]
        split
        · rename_i hself; subst hself
          obtain ⟨s1, a, b, c⟩ := wrap { s with ulAss := u } .ackPacch rfl rfl hu2 (fun st' x => by
            rcases UlMove.ev_cases x with ⟨_, _, h | h⟩ | ⟨h1, h2, _⟩ | ⟨_, _, h⟩ | ⟨_, _, h⟩ | ⟨_, _, h⟩ <;>
              first
              | cases h
              | (rw [h1, h2]; exact .assigned (Or.inr (Or.inr (Or.inr rfl)))))
          rw [a, Option.bind_some]
          split
          · obtain ⟨d, hd⟩ := DlAss.dispatch_total s1.dlAss .sched .noPoll
            simp only [hd]
            exact ⟨_, rfl, b, c⟩
          · exact ⟨_, rfl, b, c⟩
        · exact ⟨_, rfl, Or.inr ⟨ht, hu2⟩, Or.inl rfl⟩
    | dlAss =>
      simp only [ulCtrlAck]
      split
      · exact ⟨s, rfl, Or.inr ⟨ht, hu⟩, Or.inl rfl⟩
      · obtain ⟨d, hd⟩ := DlAss.dispatch_total s.dlAss .ctrlAck .noPoll
        simp only [hd]
        exact ⟨_, rfl, Or.inr ⟨ht, hu⟩, Or.inl rfl⟩
  | pktResReq =>
    obtain ⟨s1, a, b, c⟩ := wrap { s with n3103 := 0 } .finalUlAckConfirmed rfl rfl hu (fun st' x => by
      rcases UlMove.ev_cases x with ⟨_, _, h | h⟩ | ⟨_, _, h | h⟩ | ⟨_, _, h⟩ | ⟨_, _, h⟩ | ⟨_, _, h⟩ <;> cases h)
    simp only [a]
    exact ⟨_, rfl, Or.inl rfl, c⟩
  | createAck m t =>
    simp only [ulCreateAck]
    obtain ⟨a, ha⟩ := UlAck.dispatch_total s.ulAck .create (s.st == .finished) m
    simp only [ha, Option.bind_some]
    split
    · refine wrap _ _ rfl rfl hu fun st' x => ?_
      rcases UlMove.ev_cases x with ⟨_, _, h | h⟩ | ⟨_, _, h | h⟩ | ⟨_, _, h⟩ | ⟨_, _, h⟩ | ⟨_, _, h⟩ <;> cases h
    · exact ⟨_, rfl, Or.inr ⟨ht, hu⟩, Or.inl rfl⟩
  | createDl m =>
    obtain ⟨d, hd⟩ := DlAss.dispatch_total s.dlAss .create m
    simp only [hd]
    exact ⟨_, rfl, Or.inr ⟨ht, hu⟩, Or.inl rfl⟩
  | createUl m =>
    obtain ⟨u, hu1, hu2⟩ := UlAss.dispatch_ul s.ulAss (s.st == .assign) .create m hu
    simp only [hu1]
    exact ⟨_, rfl, Or.inr ⟨ht, hu2⟩, Or.inl rfl⟩
  | schedDl =>
    obtain ⟨d, hd⟩ := DlAss.dispatch_total s.dlAss .sched .noPoll
    simp only [hd]
    exact ⟨_, rfl, Or.inr ⟨ht, hu⟩, Or.inl rfl⟩
  | schedUl =>
    obtain ⟨u, hu1, hu2⟩ := UlAss.dispatch_ul s.ulAss (s.st == .assign) .sched .noPoll hu
    simp only [hu1]
    exact ⟨_, rfl, Or.inr ⟨ht, hu2⟩, Or.inl rfl⟩
  | schedRej =>
    obtain ⟨u, hu1, hu2⟩ := UlAss.dispatch_ul s.ulAss (s.st == .assign) .schedRej .noPoll hu
    simp only [hu1]
    exact ⟨_, rfl, Or.inr ⟨ht, hu2⟩, Or.inl rfl⟩
  | abortDl =>
    obtain ⟨d, hd⟩ := DlAss.dispatch_total s.dlAss .abort .noPoll
    simp only [hd]
    exact ⟨_, rfl, Or.inr ⟨ht, hu⟩, Or.inl rfl⟩
  | free => exact ⟨_, rfl, Or.inl rfl, Or.inl rfl⟩

end Verif.Tbf
