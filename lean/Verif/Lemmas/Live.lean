import Verif.Spec.Live
import Verif.Lemmas.TbfUl

/-! Ranking of the control states of a TBF. -/

namespace Verif.Live
open Verif.Tbf Verif.LiveSpec Verif.TbfSpec

theorem left_hit {lim n : Nat} (h : ((n + 1) % 256 == lim) = true) :
    left lim n = 1 := by
  have : (n + 1) % 256 = lim := by simpa using h
  unfold left; omega

theorem left_miss {lim n : Nat} (hl : lim < 256) (h : ((n + 1) % 256 == lim) = false) :
    left lim ((n + 1) % 256) + 1 = left lim n := by
  have : (n + 1) % 256 ≠ lim := by simpa using h
  unfold left; omega

theorem left_pos (lim n : Nat) : 0 < left lim n := by unfold left; omega

/-- The rank of an uplink TBF. -/
def uRank (c : Cfg) (s : Ul) : Nat := if s.freed then 0 else ulTurnsLeft c s

/-- What the promised blocks have to do with the state of an uplink TBF. -/
structure UlLink (s : Ul) : Prop where
  inv : UlInv s
  live : s.freed = false
  used : s.st ≠ .new
  ack : s.st = .finished → s.ulAck ≠ .idle
  wait : s.ulAck = .wait → s.st = .finished ∨ s.st = .releasing

/-- Operations on an uplink TBF other than the receipt of data, and other than those the
surroundings do not do. -/
def ulMild (s : Ul) : UlOp → Bool
  | .ev e => e == .ackPacch
  | .usfTimeout => s.st != .assign
  | .data .. => false
  | .pollTimeout r => r != .dlAck
  | .ctrlAck r _ => r != .dlAck
  | .createAck m _ => !m || s.ulAck == .sched
  | _ => true

/-- Operations that are turns. -/
def ulTurnOp (s : Ul) : UlOp → Bool
  | .timer => s.tmr.isSome
  | .usfTimeout => s.st == .flow
  | .createAck m _ => m && s.st == .finished && s.ulAck == .sched
  | .pollTimeout r => r == .ulAck && s.st == .finished && s.ulAck == .wait
  | _ => false

/-- What is left of a step for the rank. -/
def Down (c : Cfg) (s s' : Ul) (t : Bool) : Prop :=
  s'.freed = true ∨ (UlLink s' ∧ (s.st ≠ .assign → s'.st ≠ .assign) ∧
    uRank c s' + (if t then 1 else 0) ≤ uRank c s)

theorem down_same (c : Cfg) (s s' : Ul) (h : UlLink s) (hi : UlInv s') (h1 : s'.st = s.st)
    (h2 : s'.ulAck = s.ulAck) (h3 : s'.n3101 = s.n3101) (h4 : s'.n3103 = s.n3103) :
    Down c s s' false := by
  by_cases hf : s'.freed = true
  · exact .inl hf
  have hf : s'.freed = false := by simpa using hf
  refine .inr ⟨⟨hi, hf, by rw [h1]; exact h.used, by rw [h1, h2]; exact h.ack,
    by rw [h1, h2]; exact h.wait⟩, by rw [h1]; exact id, ?_⟩
  simp only [uRank, hf, h.live, ulTurnsLeft, h1, h2, h3, h4]
  simp

/-- An uplink TBF the mobile of which sends no data: the rank never goes up, and a turn takes it
down. -/
theorem ulStep_down (c : Cfg) (h1 : c.ul.n3101 < 256) (h3 : c.ul.n3103 < 256) (s s' : Ul)
    (op : UlOp) (env : Env) (h : UlLink s) (hm : ulMild s op = true)
    (hs : ulStep c.ul s op env = some s') : Down c s s' (ulTurnOp s op) := by
  have hok : UlOk op := by
    intro e; subst e; simp [ulMild] at hm
  obtain ⟨s1, a, hi, _⟩ := ulStep_ok c.ul s op env h.inv hok
  rw [a] at hs; cases hs
  unfold ulStep at a
  rw [if_neg (by rw [h.live]; decide)] at a
  have hinv := (h.inv.resolve_left (by rw [h.live]; decide))
  cases op with
  | data f cm cv r => exact absurd hm (by simp [ulMild])
  | free => cases a; exact .inl rfl
  | timer =>
    simp only [ulTimer] at a
    cases ht : s.tmr with
    | none =>
      rw [ht] at a; cases a
      have : ulTurnOp s .timer = false := by simp [ulTurnOp, ht]
      rw [this]; exact down_same c _ _ h hi rfl rfl rfl rfl
    | some t =>
      rw [ht] at a
      have htt : ulTurnOp s .timer = true := by simp [ulTurnOp, ht]
      rw [htt]
      have hk := hinv.1
      rw [ht] at hk
      cases t <;> simp only at a <;> try (cases a; done)
      · -- x2002
        have hst : s.st = .assign := by
          cases hst : s.st <;> rw [hst] at hk <;> first | rfl | (exact absurd hk (by decide))
        simp only [ulDispatch, hst, ulIn] at a
        simp only [ulAction, hst, ulChg, ulOut] at a
        have ha := h.ack; have hw := h.wait
        cases a
        refine .inr ⟨⟨hi, h.live, nofun, nofun, ?_⟩, by rw [hst]; intro x; exact absurd rfl x, ?_⟩
        · intro x
          have := hw x; rw [hst] at this; rcases this with t | t <;> cases t
        · simp only [uRank, ulEnter, h.live, ulTurnsLeft, hst]; simp
      · cases a; exact .inl rfl
      · cases a; exact .inl rfl
  | uaTimer =>
    simp only [Option.map_eq_some_iff] at a
    obtain ⟨f, _, a⟩ := a
    cases a
    exact down_same c s _ h hi rfl rfl rfl rfl
  | t3141 =>
    simp only at a
    split at a <;> cases a
    · exact .inl rfl
    · exact down_same c _ _ h hi rfl rfl rfl rfl
  | createDl m =>
    simp only [Option.map_eq_some_iff] at a
    obtain ⟨f, _, a⟩ := a
    cases a
    exact down_same c s _ h hi rfl rfl rfl rfl
  | createUl m =>
    simp only [Option.map_eq_some_iff] at a
    obtain ⟨f, _, a⟩ := a
    cases a
    exact down_same c s _ h hi rfl rfl rfl rfl
  | schedDl =>
    simp only [Option.map_eq_some_iff] at a
    obtain ⟨f, _, a⟩ := a
    cases a
    exact down_same c s _ h hi rfl rfl rfl rfl
  | schedUl =>
    simp only [Option.map_eq_some_iff] at a
    obtain ⟨f, _, a⟩ := a
    cases a
    exact down_same c s _ h hi rfl rfl rfl rfl
  | schedRej =>
    simp only [Option.map_eq_some_iff] at a
    obtain ⟨f, _, a⟩ := a
    cases a
    exact down_same c s _ h hi rfl rfl rfl rfl
  | abortDl =>
    simp only [Option.map_eq_some_iff] at a
    obtain ⟨f, _, a⟩ := a
    cases a
    exact down_same c s _ h hi rfl rfl rfl rfl
  | pktResReq =>
    simp only [Option.map_eq_some_iff] at a
    obtain ⟨f, _, a⟩ := a
    cases a
    exact .inl rfl
  | ev e =>
    have he : e = .ackPacch := by simpa [ulMild] using hm
    subst he
    by_cases hst : s.st = .assign
    · simp only [ulDispatch, hst, ulIn] at a
      simp only [ulAction, hst, ulChg] at a
      have hw := h.wait
      cases hcc : s.ccch <;> simp [hcc, ulOut, hst] at a <;> subst a <;>
        refine .inr ⟨⟨hi, h.live, nofun, nofun, ?_⟩, by rw [hst]; intro x; exact absurd rfl x, ?_⟩
      · intro x; have := hw x; rw [hst] at this; rcases this with t | t <;> cases t
      · simp only [uRank, ulEnter, h.live, ulTurnsLeft, hst, ulTurnOp]; simp
      · intro x; have := hw x; rw [hst] at this; rcases this with t | t <;> cases t
      · simp only [uRank, ulEnter, h.live, ulTurnsLeft, hst, ulTurnOp]; simp
    · have : ulIn s.st .ackPacch = false := by
        cases hs : s.st <;> first | rfl | (exact absurd hs hst) | (exact absurd hs h.used)
      simp only [ulDispatch, this] at a
      cases a
      exact down_same c _ _ h hi rfl rfl rfl rfl
  | usfTimeout =>
    simp only [ulUsfTimeout] at a
    have hna : s.st ≠ .assign := by simpa [ulMild] using hm
    cases hh : ((s.n3101 + 1) % 256 == c.ul.n3101) with
    | true =>
      rw [if_pos (show (nInc c.ul.n3101 s.n3101).2 = true from hh)] at a
      by_cases hst : s.st = .flow
      · simp only [ulDispatch, hst, ulIn] at a
        simp only [ulAction, hst, ulChg, ulOut] at a
        cases a
        refine .inr ⟨⟨hi, h.live, nofun, nofun, fun _ => .inr rfl⟩, nofun, ?_⟩
        simp only [uRank, ulEnter, h.live, ulTurnsLeft, hst, ulTurnOp, left_hit hh]; simp
      · have : ulIn s.st .maxN3101 = false := by
          cases hs : s.st <;> first | rfl | (exact absurd hs hst)
        simp only [ulDispatch, this] at a
        cases a
        have ht : ulTurnOp s .usfTimeout = false := by simp [ulTurnOp, hst]
        rw [ht]
        refine .inr ⟨⟨hi, h.live, h.used, h.ack, h.wait⟩, id, ?_⟩
        have hu := h.used
        simp only [uRank, h.live, ulTurnsLeft]
        cases hs : s.st <;> simp <;> first | (exact absurd hs hst) | (exact absurd hs hna) |
          (exact absurd hs hu)
    | false =>
      rw [if_neg (show ¬ (nInc c.ul.n3101 s.n3101).2 = true from by show ¬ _ = true; rw [show (nInc c.ul.n3101 s.n3101).2 = false from hh]; decide)] at a
      cases a
      refine .inr ⟨⟨hi, h.live, h.used, h.ack, h.wait⟩, id, ?_⟩
      have hu := h.used
      have hl : left c.ul.n3101 (nInc c.ul.n3101 s.n3101).1 + 1 = left c.ul.n3101 s.n3101 :=
        left_miss h1 hh
      by_cases hst : s.st = .flow
      · have ht : ulTurnOp s .usfTimeout = true := by simp [ulTurnOp, hst]
        rw [ht]
        simp only [uRank, h.live, ulTurnsLeft, hst]; simp; omega
      · have ht : ulTurnOp s .usfTimeout = false := by simp [ulTurnOp, hst]
        rw [ht]
        simp only [uRank, h.live, ulTurnsLeft]
        cases hs : s.st <;> simp <;> first | (exact absurd hs hst) | (exact absurd hs hna) |
          (exact absurd hs hu)
  | pollTimeout r =>
    simp only [ulPollTimeout] at a
    cases r with
    | dlAck => exact absurd hm (by simp [ulMild])
    | ulAss =>
      have ht : ulTurnOp s (.pollTimeout .ulAss) = false := rfl
      rw [ht]
      simp only at a
      split at a
      · cases a; exact down_same c _ _ h hi rfl rfl rfl rfl
      · simp only [Option.map_eq_some_iff] at a
        obtain ⟨f, _, a⟩ := a
        cases a; exact down_same c s _ h hi rfl rfl rfl rfl
    | dlAss =>
      have ht : ulTurnOp s (.pollTimeout .dlAss) = false := rfl
      rw [ht]
      simp only at a
      split at a
      · cases a; exact down_same c _ _ h hi rfl rfl rfl rfl
      · simp only [Option.map_eq_some_iff] at a
        obtain ⟨f, _, a⟩ := a
        cases a; exact down_same c s _ h hi rfl rfl rfl rfl
    | ulAck =>
      simp only at a
      by_cases hw : s.ulAck = .wait
      · rw [if_neg (by simp [hw])] at a
        by_cases hst : s.st = .finished
        · rw [if_pos hst] at a
          have ht : ulTurnOp s (.pollTimeout .ulAck) = true := by simp [ulTurnOp, hst, hw]
          rw [ht]
          cases hh : ((s.n3103 + 1) % 256 == c.ul.n3103) with
          | true =>
            rw [if_pos (show (nInc c.ul.n3103 s.n3103).2 = true from hh)] at a
            simp only [ulDispatch, hst, ulIn] at a
            simp only [ulAction, hst, ulChg, ulOut] at a
            cases a
            refine .inr ⟨⟨hi, h.live, nofun, nofun, fun _ => .inr rfl⟩, nofun, ?_⟩
            simp only [uRank, ulEnter, h.live, ulTurnsLeft, hst, left_hit hh]; simp
          | false =>
            rw [if_neg (show ¬ (nInc c.ul.n3103 s.n3103).2 = true from by show ¬ _ = true; rw [show (nInc c.ul.n3103 s.n3103).2 = false from hh]; decide), hw] at a
            simp [UlAck.dispatch, UlAck.inMask, UlAck.action, UlAck.chg, UlAck.outMask] at a
            subst a
            refine .inr ⟨⟨hi, h.live, h.used, nofun, nofun⟩, id, ?_⟩
            have hl : left c.ul.n3103 (nInc c.ul.n3103 s.n3103).1 + 1 = left c.ul.n3103 s.n3103 :=
              left_miss h3 hh
            simp only [uRank, h.live, ulTurnsLeft, hst, hw]; simp; omega
        · rw [if_neg hst, hw] at a
          have ht : ulTurnOp s (.pollTimeout .ulAck) = false := by simp [ulTurnOp, hst]
          rw [ht]
          simp [UlAck.dispatch, UlAck.inMask, UlAck.action, UlAck.chg, UlAck.outMask] at a
          subst a
          refine .inr ⟨⟨hi, h.live, h.used, nofun, nofun⟩, id, ?_⟩
          simp only [uRank, h.live, ulTurnsLeft]
          cases hs : s.st <;> simp <;> exact absurd hs hst
      · rw [if_pos hw] at a
        have ht : ulTurnOp s (.pollTimeout .ulAck) = false := by simp [ulTurnOp, hw]
        rw [ht]
        cases a; exact down_same c _ _ h hi rfl rfl rfl rfl
  | ctrlAck r self =>
    simp only [ulCtrlAck] at a
    have ht : ulTurnOp s (.ctrlAck r self) = false := rfl
    rw [ht]
    cases r with
    | dlAck => exact absurd hm (by simp [ulMild])
    | ulAck =>
      simp only at a
      by_cases hw : s.ulAck = .wait
      · rw [if_neg (by simp [hw]), hw] at a
        simp [UlAck.dispatch, UlAck.inMask, UlAck.action, UlAck.chg, UlAck.outMask] at a
        by_cases hst : s.st = .finished
        · rw [if_pos hst] at a
          simp only [ulDispatch, hst, ulIn] at a
          simp only [ulAction, hst] at a
          cases a; exact .inl rfl
        · rw [if_neg hst] at a
          cases a
          refine .inr ⟨⟨hi, h.live, h.used, fun x => absurd x hst, nofun⟩, id, ?_⟩
          simp only [uRank, h.live, ulTurnsLeft]
          cases hs : s.st <;> simp <;> exact absurd hs hst
      · rw [if_pos hw] at a
        cases a; exact down_same c _ _ h hi rfl rfl rfl rfl
    | dlAss =>
      simp only at a
      split at a
      · cases a; exact down_same c _ _ h hi rfl rfl rfl rfl
      · simp only [Option.map_eq_some_iff] at a
        obtain ⟨f, _, a⟩ := a
        cases a; exact down_same c s _ h hi rfl rfl rfl rfl
    | ulAss =>
      simp only at a
      split at a
      · cases a; exact down_same c _ _ h hi rfl rfl rfl rfl
      · simp only [Option.bind_eq_some_iff] at a
        obtain ⟨u, _, a⟩ := a
        cases self with
        | false => simp at a; cases a; exact down_same c s _ h hi rfl rfl rfl rfl
        | true =>
          simp only [if_true, Option.bind_eq_some_iff] at a
          obtain ⟨s2, b, a⟩ := a
          have hrest : s'.st = s2.st ∧ s'.ulAck = s2.ulAck ∧ s'.n3101 = s2.n3101 ∧
              s'.n3103 = s2.n3103 ∧ s'.freed = s2.freed := by
            split at a
            · simp only [Option.map_eq_some_iff] at a
              obtain ⟨_, _, a⟩ := a
              cases a; exact ⟨rfl, rfl, rfl, rfl, rfl⟩
            · cases a; exact ⟨rfl, rfl, rfl, rfl, rfl⟩
          obtain ⟨e1, e2, e3, e4, e5⟩ := hrest
          by_cases hst : s.st = .assign
          · have hw := h.wait
            have hnw : s.ulAck ≠ .wait := by
              intro x; have := hw x; rw [hst] at this; rcases this with t | t <;> cases t
            have hb : s2.st = .flow ∧ s2.ulAck = s.ulAck ∧ s2.n3101 = s.n3101 ∧
                s2.n3103 = s.n3103 ∧ s2.freed = false := by
              simp only [ulDispatch, hst, ulIn] at b
              simp only [ulAction, hst, ulChg] at b
              have hl := h.live
              cases hcc : s.ccch <;> simp [hcc, ulOut, hst] at b <;> subst b <;>
                exact ⟨rfl, rfl, rfl, rfl, hl⟩
            obtain ⟨b1, b2, b3, b4, b5⟩ := hb
            refine .inr ⟨⟨hi, e5.trans b5, by rw [e1, b1]; nofun, by rw [e1, b1]; nofun, ?_⟩,
              by rw [hst]; intro x; exact absurd rfl x, ?_⟩
            · rw [e2, b2]; intro x; exact absurd x hnw
            · simp only [uRank, e5, b5, h.live, ulTurnsLeft, hst, e1, b1, e3, b3]; simp
          · have hin : ulIn s.st .ackPacch = false := by
              cases hs : s.st <;> first | rfl | (exact absurd hs hst) | (exact absurd hs h.used)
            simp only [ulDispatch, hin] at b
            cases b
            exact down_same c s s' h hi e1 e2 e3 e4
  | createAck made tlli =>
    simp only [ulCreateAck, Option.bind_eq_some_iff] at a
    obtain ⟨k, hk, a⟩ := a
    have key : ∀ s2 : Ul, (s'.st = s2.st ∧ s'.ulAck = s2.ulAck ∧ s'.n3101 = s2.n3101 ∧
        s'.n3103 = s2.n3103 ∧ s'.freed = s2.freed) → s2 = { s with ulAck := k } →
        Down c s s' (ulTurnOp s (.createAck made tlli)) := by
      rintro s2 ⟨e1, e2, e3, e4, e5⟩ rfl
      cases made with
      | false =>
        have hk' : k = s.ulAck := by
          cases hu : s.ulAck <;> rw [hu] at hk <;>
            simp [UlAck.dispatch, UlAck.inMask, UlAck.action] at hk <;> exact hk.symm
        have ht : ulTurnOp s (.createAck false tlli) = false := by simp [ulTurnOp]
        rw [ht]
        exact down_same c s s' h hi e1 (e2.trans hk') e3 e4
      | true =>
        have hsch : s.ulAck = .sched := by simpa [ulMild] using hm
        rw [hsch] at hk
        by_cases hst : s.st = .finished
        · simp [UlAck.dispatch, UlAck.inMask, UlAck.action, UlAck.chg, UlAck.outMask, hst] at hk
          subst hk
          have ht : ulTurnOp s (.createAck true tlli) = true := by simp [ulTurnOp, hst, hsch]
          rw [ht]
          refine .inr ⟨⟨hi, e5.trans h.live, by rw [e1]; exact h.used, by rw [e2]; nofun,
            fun _ => .inl (e1.trans hst)⟩, by rw [e1]; exact id, ?_⟩
          simp only [uRank, e5, h.live, ulTurnsLeft, e1, hst, e2, e4, hsch]; simp
        · have : (s.st == St.finished) = false := by simpa using hst
          rw [this] at hk
          simp [UlAck.dispatch, UlAck.inMask, UlAck.action, UlAck.chg, UlAck.outMask] at hk
          subst hk
          have ht : ulTurnOp s (.createAck true tlli) = false := by simp [ulTurnOp, hst]
          rw [ht]
          refine .inr ⟨⟨hi, e5.trans h.live, by rw [e1]; exact h.used,
            by rw [e1]; intro x; exact absurd x hst, by rw [e2]; nofun⟩, by rw [e1]; exact id, ?_⟩
          simp only [uRank, e5, h.live, ulTurnsLeft, e1, e3, e4]
          cases hs : s.st <;> simp <;> exact absurd hs hst
    split at a
    · -- contention resolution
      have hst : ulIn s.st .contentionOk = true → s.st = .flow ∨ s.st = .finished := by
        cases hs : s.st <;> simp [ulIn]
      by_cases hin : ulIn s.st .contentionOk = true
      · have : ulDispatch env { s with ulAck := k } .contentionOk =
            ulContention env { s with ulAck := k } := by
          unfold ulDispatch
          rw [if_pos hin]
          rcases hst hin with x | x <;> simp [ulAction, x]
        rw [this] at a
        obtain ⟨d, hd⟩ := ulContention_ok env { s with ulAck := k }
        rw [hd] at a; cases a
        exact key { s with ulAck := k } ⟨rfl, rfl, rfl, rfl, rfl⟩ rfl
      · unfold ulDispatch at a
        rw [if_neg hin] at a
        cases a
        exact key _ ⟨rfl, rfl, rfl, rfl, rfl⟩ rfl
    · cases a
      exact key _ ⟨rfl, rfl, rfl, rfl, rfl⟩ rfl

end Verif.Live
