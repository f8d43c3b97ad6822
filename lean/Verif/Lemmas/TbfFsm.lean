import Verif.Spec.TbfLife

/-! Invariants of the TBF state machines. -/

namespace Verif.Tbf
open Verif.TbfSpec

/-- Which timer runs in which state of a downlink TBF. -/
def dlTmrOk : St → Option Tmr → Bool
  | .new, t => t == none
  | .assign, t => t == none || t == some .x2001 || t == some .x2002
  | .flow, t => t == none
  | .finished, t => t == none
  | .waitRelease, t => t == some .t3192
  | .waitReuse, t => t == some .t3193
  | .releasing, t => t == some .t3195

def DlInv (s : Dl) : Prop :=
  s.freed = true ∨ (dlTmrOk s.st s.tmr = true ∧ (s.ulAss.tmr = none ∨ s.ulAss.tmr = some .t3168))

theorem DlAss.dispatch_total (s : DlAss) (e : DlAssEv) (m : Made) :
    ∃ d, s.dispatch e m = some d := by
  cases s <;> cases e <;> cases m <;> exact ⟨_, rfl⟩

theorem UlAck.dispatch_total (s : UlAck) (e : UkEv) (f m : Bool) :
    ∃ d, s.dispatch e f m = some d := by
  cases s <;> cases e <;> cases f <;> cases m <;> exact ⟨_, rfl⟩

theorem UlAss.dispatch_dl (s : UlAss) (a : Bool) (e : UaEv) (m : Made)
    (h : s.tmr = none ∨ s.tmr = some .t3168) :
    ∃ d, s.dispatch false a e m = some d ∧ (d.tmr = none ∨ d.tmr = some .t3168) := by
  obtain ⟨st, t⟩ := s
  cases st <;> cases e <;> cases m <;> cases a <;>
    simp [UlAss.dispatch, UaSt.inMask, UlAss.action, UlAss.chg, UaSt.outMask] <;> simpa using h

theorem UlAss.dispatch_ul (s : UlAss) (a : Bool) (e : UaEv) (m : Made)
    (h : s.tmr = none ∨ s.tmr = some .t3168 ∨ s.tmr = some .x2000) :
    ∃ d, s.dispatch true a e m = some d ∧
      (d.tmr = none ∨ d.tmr = some .t3168 ∨ d.tmr = some .x2000) := by
  obtain ⟨st, t⟩ := s
  cases st <;> cases e <;> cases m <;> cases a <;>
    simp [UlAss.dispatch, UaSt.inMask, UlAss.action, UlAss.chg, UaSt.outMask] <;> simpa using h

/-- What one event does to a downlink TBF. -/
theorem dlDispatch_ok (env : Env) (s : Dl) (e : Ev) (h : dlTmrOk s.st s.tmr = true)
    (hu : s.ulAss.tmr = none ∨ s.ulAss.tmr = some .t3168) :
    ∃ s', dlDispatch env s e = some s' ∧ dlTmrOk s'.st s'.tmr = true ∧
      (s'.ulAss.tmr = none ∨ s'.ulAss.tmr = some .t3168) ∧
      s'.freed = s.freed ∧ s'.uaf = s.uaf ∧ s'.n3105 = s.n3105 ∧
      (s'.st = s.st ∨ DlMove s.ccch s.firstAck s.st (.ev e) s'.st) := by
  obtain ⟨st, ccch, pacch, tmr, fa, upg, da, ua, n, im, sup, fr, uf⟩ := s
  obtain ⟨more, uo⟩ := env
  obtain ⟨d, hd⟩ := DlAss.dispatch_total da .sched .noPoll
  obtain ⟨u, hu1, hu2⟩ := UlAss.dispatch_dl ua true .abort .noPoll hu
  simp only at h hu
  cases st <;> cases e <;>
    first
    | exact ⟨_, rfl, h, hu, rfl, rfl, rfl, Or.inl rfl⟩
    | skip
  case new.addCcch =>
    cases pacch <;>
      exact ⟨_, rfl, rfl, hu, rfl, rfl, rfl, Or.inr (.start (Or.inl rfl))⟩
  case new.addPacch =>
    exact ⟨_, rfl, rfl, hu, rfl, rfl, rfl, Or.inr (.start (Or.inr rfl))⟩
  case assign.ackPacch =>
    cases ccch <;>
      exact ⟨_, rfl, rfl, hu, rfl, rfl, rfl, Or.inr (.assigned (Or.inl rfl))⟩
  case assign.pcuifCnf =>
    cases ccch
    · exact ⟨_, rfl, h, hu, rfl, rfl, rfl, Or.inl rfl⟩
    · exact ⟨_, rfl, rfl, hu, rfl, rfl, rfl, Or.inl rfl⟩
  case assign.readyCcch =>
    exact ⟨_, rfl, rfl, hu, rfl, rfl, rfl, Or.inr (.assigned (Or.inr (Or.inl rfl)))⟩
  case assign.maxN3105 =>
    refine ⟨⟨.releasing, ccch, pacch, some .t3195, fa, upg, da, u, n, im, sup, fr, uf⟩, ?_, rfl, hu2, rfl, rfl, rfl,
      Or.inr (.giveUp nofun nofun nofun (Or.inl rfl))⟩
    simp [dlDispatch, dlIn, dlAction, hu1, dlChg, dlOut, dlEnter, dlTimeout]
  case flow.dlAcknackMiss =>
    cases ccch <;> cases fa
    case true.false =>
      cases pacch <;>
        exact ⟨_, rfl, rfl, hu, rfl, rfl, rfl, Or.inr (.repeatAss rfl rfl (Or.inl rfl))⟩
    all_goals exact ⟨_, rfl, h, hu, rfl, rfl, rfl, Or.inl rfl⟩
  case flow.lastDlSent =>
    exact ⟨_, rfl, rfl, hu, rfl, rfl, rfl, Or.inr .allSent⟩
  case finished.finalAckRecvd =>
    cases more
    · exact ⟨_, rfl, rfl, hu, rfl, rfl, rfl, Or.inr (.finalAck (Or.inl rfl))⟩
    · refine ⟨⟨.waitRelease, false, pacch, some .t3192, fa, upg, d, ua, n, im, true, fr, uf⟩, ?_, rfl, hu, rfl, rfl, rfl, Or.inr (.finalAck (Or.inl rfl))⟩
      simp [dlDispatch, dlIn, dlAction, dlChg, dlOut, dlEnter, dlTimeout, hd]
  all_goals
    exact ⟨_, rfl, rfl, hu, rfl, rfl, rfl,
      Or.inr (.giveUp nofun nofun nofun (Or.inl rfl))⟩

theorem DlMove.of_max {c a : Bool} {st st' : St} {op : DlOp} (ho : IsGiveUp op)
    (h : DlMove c a st (.ev .maxN3105) st') : DlMove c a st op st' := by
  cases h with
  | giveUp h1 h2 h3 _ => exact .giveUp h1 h2 h3 ho
  | start h => rcases h with h | h <;> cases h
  | assigned h => rcases h with h | h | h | ⟨_, h⟩ <;> cases h
  | repeatAss _ _ h => rcases h with h | h <;> cases h
  | finalAck h => rcases h with h | h <;> cases h

theorem DlMove.of_miss {c a : Bool} {st st' : St}
    (h : DlMove c a st (.ev .dlAcknackMiss) st') : DlMove c a st (.pollTimeout .dlAck) st' := by
  cases h with
  | giveUp _ _ _ h => rcases h with h | ⟨_, h, _⟩ <;> cases h
  | start h => rcases h with h | h <;> cases h
  | assigned h => rcases h with h | h | h | ⟨_, h⟩ <;> cases h
  | repeatAss h1 h2 _ => exact .repeatAss h1 h2 (Or.inr rfl)
  | finalAck h => rcases h with h | h <;> cases h

theorem DlMove.of_ack {c a c' a' : Bool} {st st' : St} {op : DlOp} {e : Ev}
    (he : e = .ackPacch ∨ e = .readyCcch)
    (ho : op = .ev .ackPacch ∨ op = .ev .readyCcch ∨ op = .timer ∨ (∃ t, op = .ctrlAck .dlAss t))
    (h : DlMove c a st (.ev e) st') : DlMove c' a' st op st' := by
  cases h with
  | giveUp _ _ _ h => rcases h with h | ⟨_, h, _⟩ <;> rcases he with rfl | rfl <;> cases h
  | start h => rcases he with rfl | rfl <;> rcases h with h | h <;> cases h
  | assigned h => exact .assigned ho
  | repeatAss _ _ h => rcases he with rfl | rfl <;> rcases h with h | h <;> cases h
  | finalAck h => rcases he with rfl | rfl <;> rcases h with h | h <;> cases h
  | allSent => rcases he with h | h <;> cases h

theorem DlMove.of_final {c a c' a' : Bool} {st st' : St}
    (h : DlMove c a st (.ev .finalAckRecvd) st') : DlMove c' a' st (.dlAck true) st' := by
  cases h with
  | giveUp _ _ _ h => rcases h with h | ⟨_, h, _⟩ <;> cases h
  | start h => rcases h with h | h <;> cases h
  | assigned h => rcases h with h | h | h | ⟨_, h⟩ <;> cases h
  | repeatAss _ _ h => rcases h with h | h <;> cases h
  | finalAck h => exact .finalAck (Or.inr rfl)

theorem DlMove.of_addPacch {c a : Bool} {st' : St}
    (h : DlMove c a .assign (.ev .addPacch) st') : False := by
  cases h with
  | giveUp _ _ _ h => rcases h with h | ⟨_, h, _⟩ <;> cases h
  | assigned h => rcases h with h | h | h | ⟨_, h⟩ <;> cases h

/-- One operation on a downlink TBF: it does not fail, keeps the invariant, and changes
the state only as specified. -/
theorem dlStep_ok (lim : Nat) (s : Dl) (op : DlOp) (env : Env) (h : DlInv s) (ho : DlOk op) :
    ∃ s', dlStep lim s op env = some s' ∧ DlInv s' ∧
      (s'.st = s.st ∨ DlMove s.ccch s.firstAck s.st op s'.st) := by
  unfold dlStep
  by_cases hf : s.freed = true
  · rw [if_pos hf]; exact ⟨s, rfl, h, Or.inl rfl⟩
  rw [if_neg hf]
  obtain ⟨ht, hu⟩ := h.resolve_left hf
  have wrap : ∀ (s1 : Dl) (e : Ev), s1.st = s.st → s1.tmr = s.tmr → s1.ulAss = s.ulAss →
      (∀ st', DlMove s1.ccch s1.firstAck s.st (.ev e) st' →
        DlMove s.ccch s.firstAck s.st op st') →
      ∃ s', dlDispatch env s1 e = some s' ∧ DlInv s' ∧
        (s'.st = s.st ∨ DlMove s.ccch s.firstAck s.st op s'.st) := by
    intro s1 e h1 h2 h3 h4
    obtain ⟨s', a, b, c, _, _, _, d⟩ := dlDispatch_ok env s1 e (by rw [h1, h2]; exact ht)
      (by rw [h3]; exact hu)
    refine ⟨s', a, Or.inr ⟨b, c⟩, ?_⟩
    rw [h1] at d
    exact d.imp id (h4 _)
  cases op with
  | ev e => exact wrap s e rfl rfl rfl fun _ x => x
  | timer =>
    simp only [dlTimer]
    cases htm : s.tmr with
    | none => exact ⟨s, rfl, Or.inr ⟨ht, hu⟩, Or.inl rfl⟩
    | some t =>
      rw [htm] at ht
      cases hst : s.st <;> rw [hst] at ht <;> cases t <;> simp [dlTmrOk] at ht
      case assign.x2001 => exact ⟨_, rfl, Or.inl rfl, Or.inl rfl⟩
      case waitReuse.t3193 => exact ⟨_, rfl, Or.inl rfl, Or.inl rfl⟩
      case releasing.t3195 => exact ⟨_, rfl, Or.inl rfl, Or.inl rfl⟩
      case waitRelease.t3192 =>
        simp only [dlChg, dlOut, dlEnter]
        exact ⟨_, rfl, Or.inr ⟨rfl, hu⟩, Or.inr .t3192⟩
      case assign.x2002 =>
        simp only [dlX2002, ne_eq, not_true_eq_false, if_false]
        split
        · obtain ⟨s', a, b, c, _, _, _, d⟩ := dlDispatch_ok env { s with st := .assign, tmr := none } .readyCcch
            rfl hu
          refine ⟨s', a, Or.inr ⟨b, c⟩, ?_⟩
          exact d.imp id (DlMove.of_ack (Or.inr rfl) (Or.inr (Or.inr (Or.inl rfl))))
        · split
          · obtain ⟨d, hd⟩ := DlAss.dispatch_total s.dlAss .sched .noPoll
            simp only [hd, Option.bind_some]
            obtain ⟨s', a, b, c, _, _, _, d'⟩ := dlDispatch_ok env { s with st := .assign, tmr := none, ccch := false, pacch := false, upg := false, dlAss := d } .addPacch rfl hu
            refine ⟨s', a, Or.inr ⟨b, c⟩, ?_⟩
            exact d'.imp id fun x => (DlMove.of_addPacch x).elim
          · exact ⟨_, rfl, Or.inl rfl, Or.inl rfl⟩
  | uaTimer =>
    simp only [Tbf.uaTimer]
    rcases hu with hu | hu <;> rw [hu]
    · exact ⟨_, rfl, Or.inr ⟨ht, Or.inl rfl⟩, Or.inl rfl⟩
    · exact ⟨_, rfl, Or.inl rfl, Or.inl rfl⟩
  | dlAck f =>
    simp only [dlRcvdAck]
    split
    · rename_i hff; subst hff
      exact wrap _ _ rfl rfl rfl fun _ => DlMove.of_final
    · exact ⟨_, rfl, Or.inr ⟨ht, hu⟩, Or.inl rfl⟩
  | pollTimeout r =>
    cases r with
    | ulAck => exact absurd rfl ho.1
    | ulAss =>
      simp only [dlPollTimeout]
      split
      · exact ⟨s, rfl, Or.inr ⟨ht, hu⟩, Or.inl rfl⟩
      split
      · exact wrap _ _ rfl rfl rfl fun _ => DlMove.of_max (Or.inr ⟨_, rfl, by decide⟩)
      · obtain ⟨u, hu1, hu2⟩ := UlAss.dispatch_dl s.ulAss (s.st == .assign) .pollTimeout .noPoll hu
        simp only [hu1]
        exact ⟨_, rfl, Or.inr ⟨ht, hu2⟩, Or.inl rfl⟩
    | dlAss =>
      simp only [dlPollTimeout]
      split
      · exact ⟨s, rfl, Or.inr ⟨ht, hu⟩, Or.inl rfl⟩
      split
      · exact wrap _ _ rfl rfl rfl fun _ => DlMove.of_max (Or.inr ⟨_, rfl, by decide⟩)
      · obtain ⟨d, hd⟩ := DlAss.dispatch_total s.dlAss .pollTimeout .noPoll
        simp only [hd]
        exact ⟨_, rfl, Or.inr ⟨ht, hu⟩, Or.inl rfl⟩
    | dlAck =>
      simp only [dlPollTimeout]
      split
      · exact wrap _ _ rfl rfl rfl fun _ => DlMove.of_max (Or.inr ⟨_, rfl, by decide⟩)
      · exact wrap _ _ rfl rfl rfl fun _ => DlMove.of_miss
  | ctrlAck r al =>
    cases r with
    | ulAck => exact absurd rfl (ho.2 al)
    | dlAck => exact ⟨s, rfl, Or.inr ⟨ht, hu⟩, Or.inl rfl⟩
    | ulAss =>
      simp only [dlCtrlAck]
      split
      · exact ⟨s, rfl, Or.inr ⟨ht, hu⟩, Or.inl rfl⟩
      · obtain ⟨u, hu1, hu2⟩ := UlAss.dispatch_dl s.ulAss (s.st == .assign) .ctrlAck .noPoll hu
        simp only [hu1]
        exact ⟨_, rfl, Or.inr ⟨ht, hu2⟩, Or.inl rfl⟩
    | dlAss =>
      simp only [dlCtrlAck]
      split
      · exact ⟨s, rfl, Or.inr ⟨ht, hu⟩, Or.inl rfl⟩
      · obtain ⟨d, hd⟩ := DlAss.dispatch_total s.dlAss .ctrlAck .noPoll
        simp only [hd, Option.bind_some]
        split
        · exact ⟨_, rfl, Or.inr ⟨ht, hu⟩, Or.inl rfl⟩
        split
        · exact ⟨_, rfl, Or.inl rfl, Or.inl rfl⟩
        split
        · exact ⟨_, rfl, Or.inr ⟨ht, hu⟩, Or.inl rfl⟩
        · exact wrap _ _ rfl rfl rfl fun _ =>
            DlMove.of_ack (Or.inl rfl) (Or.inr (Or.inr (Or.inr ⟨_, rfl⟩)))
  | createDl m =>
    obtain ⟨d, hd⟩ := DlAss.dispatch_total s.dlAss .create m
    simp only [hd]
    exact ⟨_, rfl, Or.inr ⟨ht, hu⟩, Or.inl rfl⟩
  | createUl m =>
    obtain ⟨u, hu1, hu2⟩ := UlAss.dispatch_dl s.ulAss (s.st == .assign) .create m hu
    simp only [hu1]
    exact ⟨_, rfl, Or.inr ⟨ht, hu2⟩, Or.inl rfl⟩
  | schedDl =>
    simp only
    split
    · obtain ⟨d, hd⟩ := DlAss.dispatch_total s.dlAss .sched .noPoll
      simp only [hd]
      exact ⟨_, rfl, Or.inr ⟨ht, hu⟩, Or.inl rfl⟩
    · exact ⟨s, rfl, Or.inr ⟨ht, hu⟩, Or.inl rfl⟩
  | schedUl =>
    obtain ⟨u, hu1, hu2⟩ := UlAss.dispatch_dl s.ulAss (s.st == .assign) .sched .noPoll hu
    simp only [hu1]
    exact ⟨_, rfl, Or.inr ⟨ht, hu2⟩, Or.inl rfl⟩
  | schedRej =>
    obtain ⟨u, hu1, hu2⟩ := UlAss.dispatch_dl s.ulAss (s.st == .assign) .schedRej .noPoll hu
    simp only [hu1]
    exact ⟨_, rfl, Or.inr ⟨ht, hu2⟩, Or.inl rfl⟩
  | abortDl =>
    obtain ⟨d, hd⟩ := DlAss.dispatch_total s.dlAss .abort .noPoll
    simp only [hd]
    exact ⟨_, rfl, Or.inr ⟨ht, hu⟩, Or.inl rfl⟩
  | free => exact ⟨_, rfl, Or.inl rfl, Or.inl rfl⟩

/-! ## Use after free -/

/-- While a downlink TBF has not been superseded, its own assignment procedure is busy
only in ASSIGN (after an upgrade) or when it has already been given up. -/
def DlOwn (s : Dl) : Prop :=
  s.uaf = false ∧
  (s.freed = false → s.sup = false → s.dlAss ≠ .idle →
    s.st = .releasing ∨ (s.st = .assign ∧ s.tmr = none ∧ s.ccch = false)) ∧
  (s.freed = false → s.sup = true → Ended s.st)

theorem dlDispatch_own (env : Env) (s s' : Dl) (e : Ev) (h : DlOwn s)
    (h1 : e = .addCcch → s.st = .new) (h2 : s.st = .assign → (e = .readyCcch ∨ e = .ackPacch) → s.dlAss = .idle)
    (hs : dlDispatch env s e = some s') : DlOwn s' := by
  obtain ⟨st, ccch, pacch, tmr, fa, upg, da, ua, n, im, sup, fr, uf⟩ := s
  obtain ⟨more, uo⟩ := env
  obtain ⟨i1, i2, i3⟩ := h
  simp only at i1 i2 i3 h1 h2
  have noSup : ∀ {st : St}, (fr = false → sup = true → Ended st) → ¬ Ended st →
      ∀ {P : Prop}, fr = false → sup = true → P := fun h hn _ a b => (hn (h a b)).elim
  cases st <;> cases e <;>
    first
    | (cases (show some _ = some s' from hs); exact ⟨i1, i2, i3⟩)
    | skip
  case new.addCcch =>
    cases pacch <;> cases (show some _ = some s' from hs) <;>
    · refine ⟨i1, fun a b c => ?_, noSup i3 (by decide)⟩
      rcases i2 a b c with h | ⟨h, _⟩ <;> cases h
  case new.addPacch =>
    cases (show some _ = some s' from hs)
    refine ⟨i1, fun a b c => ?_, noSup i3 (by decide)⟩
    rcases i2 a b c with h | ⟨h, _⟩ <;> cases h
  case assign.addCcch => cases h1 rfl
  case assign.ackPacch =>
    cases ccch <;> cases (show some _ = some s' from hs) <;>
      exact ⟨i1, fun _ _ c => (c (h2 rfl (Or.inr rfl))).elim, noSup i3 (by decide)⟩
  case assign.readyCcch =>
    cases (show some _ = some s' from hs)
    exact ⟨i1, fun _ _ c => (c (h2 rfl (Or.inl rfl))).elim, noSup i3 (by decide)⟩
  case assign.pcuifCnf =>
    cases ccch <;> cases (show some _ = some s' from hs)
    · exact ⟨i1, i2, i3⟩
    · refine ⟨i1, fun a b c => ?_, i3⟩
      rcases i2 a b c with h | ⟨_, _, h⟩ <;> cases h
  case assign.maxN3105 =>
    simp only [dlDispatch, dlIn, dlAction] at hs
    obtain ⟨u, _, hs⟩ := Option.bind_eq_some_iff.1 hs
    cases (show some _ = some s' from hs)
    exact ⟨i1, fun _ _ _ => Or.inl rfl, fun _ _ => Or.inr (Or.inr rfl)⟩
  case flow.dlAcknackMiss =>
    cases ccch <;> cases fa
    case true.false =>
      cases pacch <;> cases (show some _ = some s' from hs) <;>
      · refine ⟨i1, fun a b c => ?_, noSup i3 (by decide)⟩
        rcases i2 a b c with h | ⟨h, _⟩ <;> cases h
    all_goals
      cases (show some _ = some s' from hs)
      exact ⟨i1, i2, i3⟩
  case flow.lastDlSent =>
    cases (show some _ = some s' from hs)
    refine ⟨i1, fun a b c => ?_, noSup i3 (by decide)⟩
    rcases i2 a b c with h | ⟨h, _⟩ <;> cases h
  case finished.finalAckRecvd =>
    cases more
    · cases (show some _ = some s' from hs)
      refine ⟨i1, fun a b c => ?_, noSup i3 (by decide)⟩
      rcases i2 a b c with h | ⟨h, _⟩ <;> cases h
    · simp only [dlDispatch, dlIn, dlAction, dlChg, dlOut, dlEnter] at hs
      obtain ⟨d, _, hs⟩ := Option.map_eq_some_iff.1 (show Option.map _ (da.dispatch .sched) = some s' from hs)
      cases hs
      exact ⟨i1, fun _ b => by (cases b), fun _ _ => Or.inl rfl⟩
  all_goals
    cases (show some _ = some s' from hs)
    exact ⟨i1, fun _ _ _ => Or.inl rfl, fun _ _ => Or.inr (Or.inr rfl)⟩

theorem dlDispatch_own' (env : Env) (s s' : Dl) (e : Ev) (hs : dlDispatch env s e = some s')
    (h : DlOwn s) (h1 : e ≠ .addCcch) (h2 : e ≠ .readyCcch) (h3 : e ≠ .ackPacch) : DlOwn s' :=
  dlDispatch_own env s s' e h (fun x => absurd x h1)
    (fun _ x => x.elim (fun x => absurd x h2) (fun x => absurd x h3)) hs

theorem dlStep_own (lim : Nat) (s s' : Dl) (op : DlOp) (env : Env) (hi : DlInv s) (h : DlOwn s)
    (ho : DlSane s op) (hs : dlStep lim s op env = some s') : DlOwn s' := by
  unfold dlStep at hs
  by_cases hf : s.freed = true
  · rw [if_pos hf] at hs; cases hs; exact h
  rw [if_neg hf] at hs
  obtain ⟨ht, _⟩ := hi.resolve_left hf
  have hf' : s.freed = false := by simpa using hf
  obtain ⟨i1, i2, i3⟩ := h
  -- changing only fields that do not matter, or the assignment procedure from busy to busy
  have keep : ∀ d n u, (d ≠ .idle → s.dlAss ≠ .idle) →
      DlOwn { s with dlAss := d, n3105 := n, ulAss := u } :=
    fun d n u hd => ⟨i1, fun a b c => i2 a b (hd c), i3⟩
  cases op with
  | ev e =>
    exact dlDispatch_own env s s' e ⟨i1, i2, i3⟩ (fun he => ho.1 (by rw [he]))
      (fun _ he => he.elim (fun he => absurd (by rw [he]) ho.2.1) (fun he => ho.2.2 (by rw [he]))) hs
  | timer =>
    simp only [dlTimer] at hs
    cases htm : s.tmr with
    | none => rw [htm] at hs; cases hs; exact ⟨i1, i2, i3⟩
    | some t =>
      rw [htm] at ht hs
      have hidle : s.sup = false → s.st ≠ .releasing → s.dlAss = .idle := by
        intro a b
        refine Decidable.byContradiction fun c => ?_
        rcases i2 hf' a c with h | ⟨_, h, _⟩
        · exact b h
        · rw [htm] at h; cases h
      have hsup : s.st = .assign → s.sup = false := by
        intro a
        cases hsp : s.sup
        · rfl
        · have := i3 hf' hsp
          rw [a] at this
          exact absurd this (by decide)
      cases hst : s.st <;> rw [hst] at ht <;> cases t <;> simp [dlTmrOk] at ht
      case assign.x2001 =>
        cases hs
        exact ⟨i1, fun a => by (cases a), fun a => by (cases a)⟩
      case waitReuse.t3193 =>
        cases hs
        exact ⟨i1, fun a => by (cases a), fun a => by (cases a)⟩
      case releasing.t3195 =>
        cases hs
        exact ⟨i1, fun a => by (cases a), fun a => by (cases a)⟩
      case waitRelease.t3192 =>
        have hid : s.sup = false → s.dlAss = .idle := fun a => hidle a (by rw [hst]; decide)
        obtain ⟨st, ccch, pacch, tmr, fa, upg, da, ua, n, im, sup, fr, uf⟩ := s
        simp only at hst hid
        subst hst
        cases (show some _ = some s' from hs)
        exact ⟨i1, fun _ b c => (c (hid b)).elim, fun _ _ => Or.inr (Or.inl rfl)⟩
      case assign.x2002 =>
        have hid : s.dlAss = .idle := hidle (hsup hst) (by rw [hst]; decide)
        simp only [dlX2002, hst, ne_eq, not_true_eq_false, if_false] at hs
        split at hs
        · exact dlDispatch_own env { s with st := .assign, tmr := none } s' .readyCcch
            ⟨i1, fun _ _ c => (c hid).elim, by rw [hst] at i3; exact i3⟩ (fun h => by cases h)
            (fun _ _ => hid) hs
        · split at hs
          · rw [hid] at hs
            obtain ⟨d, hd, hs⟩ := Option.bind_eq_some_iff.1 hs
            cases (show some _ = some s' from hs)
            refine ⟨i1, fun _ _ _ => Or.inr ⟨rfl, rfl, rfl⟩, ?_⟩
            intro a b
            rw [hsup hst] at b
            cases b
          · cases hs
            exact ⟨i1, fun a => by (cases a), fun a => by (cases a)⟩
  | uaTimer =>
    obtain ⟨f, _, hs⟩ := Option.map_eq_some_iff.1 hs
    cases hs
    exact ⟨i1, fun a b c => i2 hf' b c, fun a b => i3 hf' b⟩
  | dlAck f =>
    simp only [dlRcvdAck] at hs
    split at hs
    · exact dlDispatch_own' env _ s' .finalAckRecvd hs ⟨i1, i2, i3⟩ nofun nofun nofun
    · cases hs; exact ⟨i1, i2, i3⟩
  | pollTimeout r =>
    cases r with
    | ulAck => cases hs
    | ulAss =>
      simp only [dlPollTimeout] at hs
      split at hs
      · cases hs; exact ⟨i1, i2, i3⟩
      split at hs
      · exact dlDispatch_own' env _ s' .maxN3105 hs ⟨i1, i2, i3⟩ nofun nofun nofun
      · obtain ⟨u, _, hs⟩ := Option.map_eq_some_iff.1 hs
        cases hs; exact ⟨i1, i2, i3⟩
    | dlAss =>
      simp only [dlPollTimeout] at hs
      split at hs
      · cases hs; exact ⟨i1, i2, i3⟩
      rename_i hw
      split at hs
      · exact dlDispatch_own' env _ s' .maxN3105 hs ⟨i1, i2, i3⟩ nofun nofun nofun
      · obtain ⟨d, _, hs⟩ := Option.map_eq_some_iff.1 hs
        cases hs
        exact keep _ _ _ fun _ h => hw (by rw [h]; decide)
    | dlAck =>
      simp only [dlPollTimeout] at hs
      split at hs
      · exact dlDispatch_own' env _ s' .maxN3105 hs ⟨i1, i2, i3⟩ nofun nofun nofun
      · exact dlDispatch_own' env _ s' .dlAcknackMiss hs ⟨i1, i2, i3⟩ nofun nofun nofun
  | ctrlAck r al =>
    cases r with
    | ulAck => cases hs
    | dlAck => cases hs; exact ⟨i1, i2, i3⟩
    | ulAss =>
      simp only [dlCtrlAck] at hs
      split at hs
      · cases hs; exact ⟨i1, i2, i3⟩
      · obtain ⟨u, _, hs⟩ := Option.map_eq_some_iff.1 hs
        cases hs; exact ⟨i1, i2, i3⟩
    | dlAss =>
      simp only [dlCtrlAck] at hs
      split at hs
      · cases hs; exact ⟨i1, i2, i3⟩
      · rename_i hw
        have hw : s.dlAss = .wait := Decidable.byContradiction hw
        obtain ⟨d, hd, hs⟩ := Option.bind_eq_some_iff.1 hs
        have hd : d = .idle := by rw [hw] at hd; cases hd; rfl
        subst hd
        split at hs
        · cases hs; exact keep _ _ _ fun h => absurd rfl h
        split at hs
        · rename_i hww
          cases hs
          refine ⟨?_, fun a => by (cases a), fun a => by (cases a)⟩
          cases hsp : s.sup
          · have := i2 hf' hsp (by rw [hw]; decide)
            rcases this with h | ⟨h, _⟩ <;> rw [h] at hww <;> rcases hww with hww | hww <;> cases hww
          · rfl
        split at hs
        · cases hs; exact keep _ _ _ fun h => absurd rfl h
        · exact dlDispatch_own env _ s' .ackPacch (keep _ _ _ fun h => absurd rfl h)
            (fun h => by cases h) (fun _ _ => rfl) hs
  | createDl m =>
    obtain ⟨d, hd, hs⟩ := Option.map_eq_some_iff.1 hs
    cases hs
    refine keep _ _ _ fun h hi => h ?_
    rw [hi] at hd; cases m <;> cases hd <;> rfl
  | createUl m =>
    obtain ⟨u, _, hs⟩ := Option.map_eq_some_iff.1 hs
    cases hs; exact ⟨i1, i2, i3⟩
  | schedDl =>
    simp only at hs
    split at hs
    · rename_i hc
      obtain ⟨d, hd, hs⟩ := Option.map_eq_some_iff.1 hs
      cases hs
      exact ⟨i1, fun _ b => by (cases b), fun _ _ => Or.inl hc.1⟩
    · cases hs; exact ⟨i1, i2, i3⟩
  | schedUl =>
    obtain ⟨u, _, hs⟩ := Option.map_eq_some_iff.1 hs
    cases hs; exact ⟨i1, i2, i3⟩
  | schedRej =>
    obtain ⟨u, _, hs⟩ := Option.map_eq_some_iff.1 hs
    cases hs; exact ⟨i1, i2, i3⟩
  | abortDl =>
    obtain ⟨d, hd, hs⟩ := Option.map_eq_some_iff.1 hs
    cases hs
    refine keep _ _ _ fun h hi => h ?_
    rw [hi] at hd; cases hd; rfl
  | free => cases hs; exact ⟨i1, fun a => by (cases a), fun a => by (cases a)⟩

end Verif.Tbf
