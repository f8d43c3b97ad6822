import Verif.Props.C24

/-!
# C25: assignment and acknowledgement procedures

The downlink-assignment, uplink-assignment and uplink-acknowledgement procedures never
lose a pending message: after a poll timeout the message is sent again, after a
confirmation it is not, and no event order triggers an assertion.

Absence of assertions for whole histories is `C24_dl_legal` and `C24_ul_legal`.  Here: what
one operation, after any history, does to each procedure.  The uplink assignment is
`_partial`: see `C25_ulAss_lost`.
-/

namespace Verif.Tbf
open Verif.TbfSpec

/-! ## No assertion, for each procedure alone -/

/-- No event in any state of the three procedures reaches an assertion or a refused
state change. -/
theorem C25_no_assert :
    (∀ (s : DlAss) e m, ∃ s', s.dispatch e m = some s') ∧
    (∀ (s : UlAss) a b e m, ∃ s', s.dispatch a b e m = some s') ∧
    (∀ (s : UlAck) e a b, ∃ s', s.dispatch e a b = some s') := by
  refine ⟨?_, ?_, ?_⟩
  · intro s e m; cases s <;> cases e <;> cases m <;> exact ⟨_, rfl⟩
  · intro ⟨st, t⟩ a b e m
    cases st <;> cases e <;> cases m <;> cases b <;> exact ⟨_, rfl⟩
  · intro s e a b; cases s <;> cases e <;> cases a <;> cases b <;> exact ⟨_, rfl⟩

/-! ## Effect of the main state machines on the procedures -/

theorem dlDispatch_procs {env : Env} {s s' : Dl} {e : Ev} (hs : dlDispatch env s e = some s') :
    (s'.dlAss = s.dlAss ∨ (e = .finalAckRecvd ∧ s.dlAss.dispatch .sched = some s'.dlAss)) ∧
    (s'.ulAss = s.ulAss ∨ (e = .maxN3105 ∧ s'.st = .releasing ∧
      s.ulAss.dispatch false true .abort = some s'.ulAss)) := by
  obtain ⟨st, ccch, pacch, tmr, fa, upg, da, ⟨ua, ut⟩, n, im, sup, fr, uf⟩ := s
  cases st <;> cases e <;>
    first
    | (cases (show some _ = some s' from hs); exact ⟨.inl rfl, .inl rfl⟩)
    | skip
  all_goals simp only [dlDispatch, dlIn, dlAction, dlChg, dlOut, dlEnter, dlTimeout] at hs
  · cases pacch <;> cases ccch <;>
      (first | (cases (show some _ = some s' from hs); exact ⟨.inl rfl, .inl rfl⟩) | skip)
  · cases ccch <;> (cases (show some _ = some s' from hs); exact ⟨.inl rfl, .inl rfl⟩)
  · cases ua <;> (cases (show some _ = some s' from hs); exact ⟨.inl rfl, .inr ⟨rfl, rfl, rfl⟩⟩)
  · cases ccch <;> (cases (show some _ = some s' from hs); exact ⟨.inl rfl, .inl rfl⟩)
  · cases ccch <;> cases fa <;> cases pacch <;>
      (cases (show some _ = some s' from hs); exact ⟨.inl rfl, .inl rfl⟩)
  · cases hm : env.more <;> simp [hm] at hs
    · cases hs; exact ⟨.inl rfl, .inl rfl⟩
    · obtain ⟨d, hd, hs⟩ := hs
      cases hs
      exact ⟨.inr ⟨rfl, hd⟩, .inl rfl⟩


/-! ## Downlink assignments sent on a downlink TBF -/

/-- Operations that can ask for a downlink assignment on this downlink TBF: new data for a
TBF waiting for its release, a finished TBF with more data queued, a multislot upgrade. -/
def DlReq (op : DlOp) : Prop :=
  op = .schedDl ∨ op = .dlAck true ∨ op = .ev .finalAckRecvd ∨ op = .timer

theorem dlStep_dlAss {lim : Nat} {s s' : Dl} {op : DlOp} {env : Env} (hf : s.freed = false)
    (hs : dlStep lim s op env = some s') :
    (s'.dlAss = s.dlAss ∧
      (op = .pollTimeout .dlAss → s.dlAss = .wait → (s.n3105 + 1) % 256 = lim) ∧
      (∀ a, op = .ctrlAck .dlAss a → s.dlAss ≠ .wait)) ∧ op ≠ .abortDl ∧ (∀ m, op ≠ .createDl m) ∨
    (DlReq op ∧ s.dlAss.dispatch .sched = some s'.dlAss) ∨
    (∃ m, op = .createDl m ∧ s.dlAss.dispatch .create m = some s'.dlAss) ∨
    (op = .pollTimeout .dlAss ∧ s.dlAss = .wait ∧ s'.dlAss = .send) ∨
    (∃ a, op = .ctrlAck .dlAss a ∧ s.dlAss = .wait ∧ s'.dlAss = .idle) ∨
    (op = .abortDl ∧ s.dlAss.dispatch .abort = some s'.dlAss) := by
  unfold dlStep at hs
  rw [if_neg (by simp [hf])] at hs
  cases op with
  | ev e =>
    rcases (dlDispatch_procs hs).1 with h | ⟨h, h'⟩
    · exact .inl ⟨⟨h, nofun, nofun⟩, nofun, nofun⟩
    · subst h; exact .inr (.inl ⟨.inr (.inr (.inl rfl)), h'⟩)
  | timer =>
    have hd : ∀ {s1 : Dl} {e : Ev}, dlDispatch env s1 e = some s' → e ≠ .finalAckRecvd →
        s'.dlAss = s1.dlAss := by
      intro s1 e h1 h2
      exact (dlDispatch_procs h1).1.resolve_right fun h => h2 h.1
    simp only [dlTimer] at hs
    split at hs
    · cases hs; exact .inl ⟨⟨rfl, nofun, nofun⟩, nofun, nofun⟩
    · simp only [dlX2002] at hs
      split at hs
      · cases hs; exact .inl ⟨⟨rfl, nofun, nofun⟩, nofun, nofun⟩
      split at hs
      · have h1 := hd hs nofun
        exact .inl ⟨⟨h1, nofun, nofun⟩, nofun, nofun⟩
      split at hs
      · obtain ⟨d, h1, hs⟩ := Option.bind_eq_some_iff.1 hs
        have := hd hs nofun
        exact .inr (.inl ⟨.inr (.inr (.inr rfl)), by rw [this]; exact h1⟩)
      · cases hs; exact .inl ⟨⟨rfl, nofun, nofun⟩, nofun, nofun⟩
    · simp only [dlChg] at hs
      split at hs
      · cases (show some _ = some s' from hs); exact .inl ⟨⟨rfl, nofun, nofun⟩, nofun, nofun⟩
      · cases hs
    · cases hs; exact .inl ⟨⟨rfl, nofun, nofun⟩, nofun, nofun⟩
    · cases hs; exact .inl ⟨⟨rfl, nofun, nofun⟩, nofun, nofun⟩
    · cases hs; exact .inl ⟨⟨rfl, nofun, nofun⟩, nofun, nofun⟩
    · cases hs
  | uaTimer =>
    obtain ⟨f, _, hs⟩ := Option.map_eq_some_iff.1 hs; cases hs
    exact .inl ⟨⟨rfl, nofun, nofun⟩, nofun, nofun⟩
  | dlAck f =>
    simp only [dlRcvdAck] at hs
    split at hs
    · rename_i hft
      rcases (dlDispatch_procs hs).1 with h | ⟨_, h'⟩
      · exact .inl ⟨⟨h, nofun, nofun⟩, nofun, nofun⟩
      · exact .inr (.inl ⟨.inr (.inl (by rw [hft])), h'⟩)
    · cases hs; exact .inl ⟨⟨rfl, nofun, nofun⟩, nofun, nofun⟩
  | pollTimeout r =>
    cases r with
    | ulAck => cases hs
    | ulAss =>
      simp only [dlPollTimeout] at hs
      split at hs
      · cases hs; exact .inl ⟨⟨rfl, nofun, nofun⟩, nofun, nofun⟩
      split at hs
      · have := (dlDispatch_procs hs).1.resolve_right fun h => nomatch h.1
        exact .inl ⟨⟨this, nofun, nofun⟩, nofun, nofun⟩
      · obtain ⟨u, _, hs⟩ := Option.map_eq_some_iff.1 hs; cases hs
        exact .inl ⟨⟨rfl, nofun, nofun⟩, nofun, nofun⟩
    | dlAss =>
      simp only [dlPollTimeout] at hs
      split at hs
      · rename_i h; cases hs; exact .inl ⟨⟨rfl, fun _ h' => absurd h' h, nofun⟩, nofun, nofun⟩
      rename_i hw
      have hw := Decidable.byContradiction hw
      split at hs
      · rename_i hh
        have := (dlDispatch_procs hs).1.resolve_right fun h => nomatch h.1
        exact .inl ⟨⟨this, fun _ _ => by simpa [nInc] using hh, nofun⟩, nofun, nofun⟩
      · obtain ⟨d, hd, hs⟩ := Option.map_eq_some_iff.1 hs; cases hs
        rw [hw] at hd
        cases (show some DlAss.send = some d from hd)
        exact .inr (.inr (.inr (.inl ⟨rfl, hw, rfl⟩)))
    | dlAck =>
      simp only [dlPollTimeout] at hs
      split at hs <;>
      · have := (dlDispatch_procs hs).1.resolve_right fun h => nomatch h.1
        exact .inl ⟨⟨this, nofun, nofun⟩, nofun, nofun⟩
  | ctrlAck r al =>
    cases r with
    | ulAck => cases hs
    | dlAck => cases hs; exact .inl ⟨⟨rfl, nofun, nofun⟩, nofun, nofun⟩
    | ulAss =>
      simp only [dlCtrlAck] at hs
      split at hs
      · cases hs; exact .inl ⟨⟨rfl, nofun, nofun⟩, nofun, nofun⟩
      obtain ⟨u, _, hs⟩ := Option.map_eq_some_iff.1 hs; cases hs
      exact .inl ⟨⟨rfl, nofun, nofun⟩, nofun, nofun⟩
    | dlAss =>
      simp only [dlCtrlAck] at hs
      split at hs
      · rename_i h; cases hs; exact .inl ⟨⟨rfl, nofun, fun _ _ => h⟩, nofun, nofun⟩
      rename_i hw
      have hw := Decidable.byContradiction hw
      obtain ⟨d, hd, hs⟩ := Option.bind_eq_some_iff.1 hs
      rw [hw] at hd
      cases (show some DlAss.idle = some d from hd)
      refine .inr (.inr (.inr (.inr (.inl ⟨al, rfl, hw, ?_⟩))))
      split at hs
      · cases hs; rfl
      split at hs
      · cases hs; rfl
      split at hs
      · cases hs; rfl
      · exact (dlDispatch_procs hs).1.resolve_right fun h => nomatch h.1
  | createDl m =>
    obtain ⟨d, hd, hs⟩ := Option.map_eq_some_iff.1 hs; cases hs
    exact .inr (.inr (.inl ⟨m, rfl, hd⟩))
  | createUl m =>
    obtain ⟨d, _, hs⟩ := Option.map_eq_some_iff.1 hs; cases hs
    exact .inl ⟨⟨rfl, nofun, nofun⟩, nofun, nofun⟩
  | schedDl =>
    simp only at hs
    split at hs
    · obtain ⟨d, hd, hs⟩ := Option.map_eq_some_iff.1 hs; cases hs
      exact .inr (.inl ⟨.inl rfl, hd⟩)
    · cases hs; exact .inl ⟨⟨rfl, nofun, nofun⟩, nofun, nofun⟩
  | schedUl =>
    obtain ⟨d, _, hs⟩ := Option.map_eq_some_iff.1 hs; cases hs
    exact .inl ⟨⟨rfl, nofun, nofun⟩, nofun, nofun⟩
  | schedRej =>
    obtain ⟨d, _, hs⟩ := Option.map_eq_some_iff.1 hs; cases hs
    exact .inl ⟨⟨rfl, nofun, nofun⟩, nofun, nofun⟩
  | abortDl =>
    obtain ⟨d, hd, hs⟩ := Option.map_eq_some_iff.1 hs; cases hs
    exact .inr (.inr (.inr (.inr (.inr ⟨rfl, hd⟩))))
  | free => cases hs; exact .inl ⟨⟨rfl, nofun, nofun⟩, nofun, nofun⟩

/-- A downlink assignment to be sent on a downlink TBF.
* Due: it stays due until it is sent (then its confirmation is awaited), or until there is
  nothing left to assign or it is withdrawn.
* Awaited: an unanswered poll makes it due again, unless the failure reaches N3105; a
  confirmation completes it; nothing else but a withdrawal ends the wait.
* Idle: it becomes due only by a new request. -/
theorem C25_dl_dlAss {lim : Nat} {s s' : Dl} {op : DlOp} {env : Env} (hf : s.freed = false)
    (hs : dlStep lim s op env = some s') :
    (s.dlAss = .send → s'.dlAss = .send ∧ op ≠ .createDl .msg ∨
      (op = .createDl .msg ∧ s'.dlAss = .wait) ∨
      ((op = .createDl .noTarget ∨ op = .abortDl) ∧ s'.dlAss = .idle)) ∧
    (s.dlAss = .wait →
      (op = .pollTimeout .dlAss ∧ s'.dlAss = .send) ∨
      (((∃ a, op = .ctrlAck .dlAss a) ∨ op = .abortDl) ∧ s'.dlAss = .idle) ∨
      (s'.dlAss = .wait ∧ (∀ a, op ≠ .ctrlAck .dlAss a) ∧
        (op = .pollTimeout .dlAss → (s.n3105 + 1) % 256 = lim))) ∧
    (s.dlAss = .idle → s'.dlAss = .idle ∨ (s'.dlAss = .send ∧ DlReq op)) := by
  have h := dlStep_dlAss hf hs
  generalize s'.dlAss = d' at h
  generalize s.dlAss = d at h
  rcases h with ⟨⟨h, h1, h2⟩, h3, h4⟩ | ⟨h, h1⟩ | ⟨m, h, h1⟩ | ⟨h, h1, h2⟩ | ⟨a, h, h1, h2⟩ | ⟨h, h1⟩
  · subst h
    exact ⟨fun h => .inl ⟨h, h4 _⟩, fun h => .inr (.inr ⟨h, fun a ha => h2 a ha h, fun hp => h1 hp h⟩),
      fun h => .inl h⟩
  · have hc : op ≠ .createDl .msg := by rcases h with h | h | h | h <;> rw [h] <;> nofun
    have ha : ∀ a, op ≠ .ctrlAck .dlAss a := by
      rcases h with h | h | h | h <;> rw [h] <;> nofun
    have hp : op ≠ .pollTimeout .dlAss := by rcases h with h | h | h | h <;> rw [h] <;> nofun
    cases d <;> cases (show some _ = some d' from h1)
    · exact ⟨nofun, nofun, fun _ => .inr ⟨rfl, h⟩⟩
    · exact ⟨fun _ => .inl ⟨rfl, hc⟩, nofun, nofun⟩
    · exact ⟨nofun, fun _ => .inr (.inr ⟨rfl, ha, fun h => absurd h hp⟩), nofun⟩
  · subst h
    cases d <;> cases m <;> cases (show some _ = some d' from h1) <;> simp
  · subst h h1 h2
    exact ⟨nofun, fun _ => .inl ⟨rfl, rfl⟩, nofun⟩
  · subst h h1 h2
    exact ⟨nofun, fun _ => .inr (.inl ⟨.inl ⟨a, rfl⟩, rfl⟩), nofun⟩
  · subst h
    cases d <;> cases (show some _ = some d' from h1)
    · exact ⟨nofun, nofun, fun _ => .inl rfl⟩
    · exact ⟨fun _ => .inr (.inr ⟨.inr rfl, rfl⟩), nofun, nofun⟩
    · exact ⟨nofun, fun _ => .inr (.inl ⟨.inr rfl, rfl⟩), nofun⟩

/-- Over any history: a downlink assignment that is due on a downlink TBF is still due at
the end unless it was sent, withdrawn, or the TBF is gone. -/
theorem C25_dl_dlAss_kept (lim : Nat) (ops : List (DlOp × Env)) (s s' : Dl)
    (hd : s.dlAss = .send)
    (ho : ∀ p ∈ ops, p.1 ≠ .createDl .msg ∧ p.1 ≠ .createDl .noTarget ∧ p.1 ≠ .abortDl)
    (hs : dlRun lim s ops = some s') : s'.dlAss = .send := by
  induction ops generalizing s with
  | nil => cases hs; exact hd
  | cons p r ih =>
    obtain ⟨op, env⟩ := p
    obtain ⟨s1, a, hs⟩ := Option.bind_eq_some_iff.1 (show Option.bind _ _ = some s' from hs)
    refine ih s1 ?_ (fun p hp => ho p (List.mem_cons_of_mem _ hp)) hs
    by_cases hf : s.freed = true
    · unfold dlStep at a; rw [if_pos hf] at a; cases a; exact hd
    have hp := ho _ List.mem_cons_self
    rcases (C25_dl_dlAss (by simpa using hf) a).1 hd with h | ⟨h, _⟩ | ⟨h | h, _⟩
    · exact h.1
    · exact absurd h hp.1
    · exact absurd h hp.2.1
    · exact absurd h hp.2.2

/-! ## Uplink assignments sent on a downlink TBF -/

theorem UlAss.dispatch_sched (isUl ia : Bool) (u u' : UlAss) (e : UaEv)
    (he : e = .sched ∨ e = .schedRej) (h : u.dispatch isUl ia e = some u') :
    u'.st = u.st ∨ u.st = .idle := by
  obtain ⟨st, t⟩ := u
  rcases he with he | he <;> subst he <;> cases st <;>
    first
    | exact .inr rfl
    | (cases (show some _ = some u' from h); exact .inl rfl)

/-- What an operation does to the uplink assignment procedure, given that it is due or
awaited. -/
def UaStep (given : Prop) (inAssign : Bool) (u u' : UaSt) (create : Option Made)
    (timeout limit confirm : Prop) : Prop :=
  (u = .send → (u' = .send ∧ create ≠ some .msg) ∨ (create = some .msg ∧ u' = .wait) ∨
    (create = some .noTarget ∧ u' = .idle) ∨ (given ∧ u' = .idle)) ∧
  (u = .wait →
    (timeout ∧ inAssign = true ∧ u' = .send) ∨
    (timeout ∧ inAssign = false ∧ u' = .idle) ∨
    (confirm ∧ u' = .idle) ∨
    (u' = .wait ∧ ¬ confirm ∧ (timeout → limit)))

theorem UaStep.same {given : Prop} {ia : Bool} {u u' : UaSt} {c : Option Made} {t l k : Prop}
    (h : u' = u) (hc : c ≠ some .msg) (hk : u = .wait → ¬ k) (ht : u = .wait → t → l) :
    UaStep given ia u u' c t l k :=
  ⟨fun h1 => .inl ⟨h.trans h1, hc⟩, fun h1 => .inr (.inr (.inr ⟨h.trans h1, hk h1, ht h1⟩))⟩

theorem UaStep.create {given : Prop} {isUl ia : Bool} {u u' : UlAss} {m : Made} {t l k : Prop}
    (h : u.dispatch isUl ia .create m = some u') (hk : ¬ k) (ht : ¬ t) :
    UaStep given ia u.st u'.st (some m) t l k := by
  obtain ⟨st, tm⟩ := u
  cases st <;> cases m <;> cases (show some _ = some u' from h) <;> simp [UaStep, hk, ht]

theorem UaStep.timeout {given : Prop} {isUl ia : Bool} {u u' : UlAss} {c : Option Made} {t l k : Prop}
    (h : u.dispatch isUl ia .pollTimeout = some u') (hw : u.st = .wait) (ht : t) :
    UaStep given ia u.st u'.st c t l k := by
  obtain ⟨st, tm⟩ := u
  simp only at hw
  subst hw
  cases ia <;> cases (show some _ = some u' from h)
  · exact ⟨nofun, fun _ => .inr (.inl ⟨ht, rfl, rfl⟩)⟩
  · exact ⟨nofun, fun _ => .inl ⟨ht, rfl, rfl⟩⟩

theorem UaStep.confirm {given : Prop} {isUl ia : Bool} {u u' : UlAss} {c : Option Made} {t l k : Prop}
    (h : u.dispatch isUl ia .ctrlAck = some u') (hw : u.st = .wait) (hk : k) :
    UaStep given ia u.st u'.st c t l k := by
  obtain ⟨st, tm⟩ := u
  simp only at hw
  subst hw
  cases (show some _ = some u' from h)
  exact ⟨nofun, fun _ => .inr (.inr (.inl ⟨hk, rfl⟩))⟩

theorem UaStep.sched {given : Prop} {isUl ia : Bool} {u u' : UlAss} {e : UaEv} {c : Option Made}
    {t l k : Prop} (h : u.dispatch isUl ia e = some u') (he : e = .sched ∨ e = .schedRej)
    (hc : c ≠ some .msg) (hk : ¬ k) (ht : ¬ t) : UaStep given ia u.st u'.st c t l k := by
  rcases UlAss.dispatch_sched isUl ia u u' e he h with h1 | h1
  · exact .same h1 hc (fun _ => hk) fun _ h => absurd h ht
  · rw [h1]; exact ⟨nofun, nofun⟩

/-- The creation request an operation carries. -/
def dlCreateUl : DlOp → Option Made
  | .createUl m => some m
  | _ => none

/-- An uplink assignment to be sent on a downlink TBF.
* Due: it stays due until it is sent, nothing is left to assign, or the TBF is given up.
* Awaited: a confirmation completes it; an unanswered poll makes it due again if the TBF
  is still being assigned itself.

Missing for the full property: if the TBF is past its assignment, an unanswered poll drops
the uplink assignment (`C25_ulAss_lost`). -/
theorem C25_dl_ulAss_partial {lim : Nat} {s s' : Dl} {op : DlOp} {env : Env}
    (hf : s.freed = false) (hs : dlStep lim s op env = some s') :
    UaStep (s'.st = .releasing) (s.st == .assign) s.ulAss.st s'.ulAss.st (dlCreateUl op)
      (op = .pollTimeout .ulAss) ((s.n3105 + 1) % 256 = lim) (∃ a, op = .ctrlAck .ulAss a) := by
  unfold dlStep at hs
  rw [if_neg (by simp [hf])] at hs
  -- events to the main FSM
  have hd : ∀ {s1 : Dl} {e : Ev}, dlDispatch env s1 e = some s' → s1.ulAss = s.ulAss →
      dlCreateUl op = none → (s.ulAss.st = .wait → ¬ ∃ a, op = .ctrlAck .ulAss a) →
      (s.ulAss.st = .wait → op = .pollTimeout .ulAss → (s.n3105 + 1) % 256 = lim) →
      UaStep (s'.st = .releasing) (s.st == .assign) s.ulAss.st s'.ulAss.st (dlCreateUl op)
      (op = .pollTimeout .ulAss) ((s.n3105 + 1) % 256 = lim) (∃ a, op = .ctrlAck .ulAss a) := by
    intro s1 e h1 h2 h3 h4 h5
    rw [h3]
    rcases (dlDispatch_procs h1).2 with h | ⟨_, h6, h7⟩
    · exact .same (by rw [h, h2]) nofun h4 h5
    · rw [h2] at h7
      revert h4 h5
      generalize s.ulAss = u at *
      obtain ⟨st, tm⟩ := u
      intro h4 h5
      cases st
      · exact ⟨nofun, nofun⟩
      · have h8 := (show some (UlAss.mk .idle _) = some s'.ulAss from h7)
        injection h8 with h8
        exact ⟨fun _ => .inr (.inr (.inr ⟨h6, by rw [← h8]⟩)), nofun⟩
      · exact ⟨nofun, nofun⟩
      · refine .same ?_ nofun h4 h5
        have : s'.ulAss = ⟨.wait, tm⟩ := by
          have := (show some (UlAss.mk .wait tm) = some s'.ulAss from h7)
          injection this with this; exact this.symm
        rw [this]
  have stay : ∀ (_ : dlCreateUl op = none) (_ : s.ulAss.st = .wait → ¬ ∃ a, op = .ctrlAck .ulAss a)
      (_ : s.ulAss.st = .wait → op = .pollTimeout .ulAss → (s.n3105 + 1) % 256 = lim)
      (_ : s'.ulAss.st = s.ulAss.st),
      UaStep (s'.st = .releasing) (s.st == .assign) s.ulAss.st s'.ulAss.st (dlCreateUl op)
      (op = .pollTimeout .ulAss) ((s.n3105 + 1) % 256 = lim) (∃ a, op = .ctrlAck .ulAss a) :=
    fun h1 h2 h3 h4 => .same h4 (by rw [h1]; nofun) h2 h3
  cases op with
  | ev e => exact hd hs rfl rfl (fun _ => by simp) (fun _ => nofun)
  | timer =>
    simp only [dlTimer] at hs
    split at hs
    · cases hs; exact stay rfl (fun _ => by simp) (fun _ => nofun) rfl
    · simp only [dlX2002] at hs
      split at hs
      · cases hs; exact stay rfl (fun _ => by simp) (fun _ => nofun) rfl
      split at hs
      · exact hd hs rfl rfl (fun _ => by simp) (fun _ => nofun)
      split at hs
      · obtain ⟨d, h1, hs⟩ := Option.bind_eq_some_iff.1 hs
        exact hd hs rfl rfl (fun _ => by simp) (fun _ => nofun)
      · cases hs; exact stay rfl (fun _ => by simp) (fun _ => nofun) rfl
    · simp only [dlChg] at hs
      split at hs
      · cases (show some _ = some s' from hs); exact stay rfl (fun _ => by simp) (fun _ => nofun) rfl
      · cases hs
    · cases hs; exact stay rfl (fun _ => by simp) (fun _ => nofun) rfl
    · cases hs; exact stay rfl (fun _ => by simp) (fun _ => nofun) rfl
    · cases hs; exact stay rfl (fun _ => by simp) (fun _ => nofun) rfl
    · cases hs
  | uaTimer =>
    obtain ⟨f, _, hs⟩ := Option.map_eq_some_iff.1 hs; cases hs
    exact stay rfl (fun _ => by simp) (fun _ => nofun) rfl
  | dlAck f =>
    simp only [dlRcvdAck] at hs
    split at hs
    · exact hd hs rfl rfl (fun _ => by simp) (fun _ => nofun)
    · cases hs; exact stay rfl (fun _ => by simp) (fun _ => nofun) rfl
  | pollTimeout r =>
    cases r with
    | ulAck => cases hs
    | ulAss =>
      simp only [dlPollTimeout] at hs
      split at hs
      · rename_i h; cases hs; exact stay rfl (fun _ => by simp) (fun h' => absurd h' h) rfl
      rename_i hw
      have hw := Decidable.byContradiction hw
      split at hs
      · rename_i hh
        exact hd hs rfl rfl (fun _ => by simp) (fun _ _ => by simpa [nInc] using hh)
      · obtain ⟨u, hu, hs⟩ := Option.map_eq_some_iff.1 hs; cases hs
        exact .timeout hu hw rfl
    | dlAss =>
      simp only [dlPollTimeout] at hs
      split at hs
      · cases hs; exact stay rfl (fun _ => by simp) (fun _ => nofun) rfl
      split at hs
      · exact hd hs rfl rfl (fun _ => by simp) (fun _ => nofun)
      · obtain ⟨u, hu, hs⟩ := Option.map_eq_some_iff.1 hs; cases hs
        exact stay rfl (fun _ => by simp) (fun _ => nofun) rfl
    | dlAck =>
      simp only [dlPollTimeout] at hs
      split at hs <;> exact hd hs rfl rfl (fun _ => by simp) (fun _ => nofun)
  | ctrlAck r al =>
    cases r with
    | ulAck => cases hs
    | dlAck => cases hs; exact stay rfl (fun _ => by simp) (fun _ => nofun) rfl
    | ulAss =>
      simp only [dlCtrlAck] at hs
      split at hs
      · rename_i h; cases hs; exact stay rfl (fun h' => absurd h' h) (fun _ => nofun) rfl
      rename_i hw
      have hw := Decidable.byContradiction hw
      obtain ⟨u, hu, hs⟩ := Option.map_eq_some_iff.1 hs; cases hs
      exact .confirm hu hw ⟨al, rfl⟩
    | dlAss =>
      simp only [dlCtrlAck] at hs
      split at hs
      · cases hs; exact stay rfl (fun _ => by simp) (fun _ => nofun) rfl
      obtain ⟨d, hd', hs⟩ := Option.bind_eq_some_iff.1 hs
      split at hs
      · cases hs; exact stay rfl (fun _ => by simp) (fun _ => nofun) rfl
      split at hs
      · cases hs; exact stay rfl (fun _ => by simp) (fun _ => nofun) rfl
      split at hs
      · cases hs; exact stay rfl (fun _ => by simp) (fun _ => nofun) rfl
      · exact hd hs rfl rfl (fun _ => by simp) (fun _ => nofun)
  | createDl m =>
    obtain ⟨d, hd', hs⟩ := Option.map_eq_some_iff.1 hs; cases hs
    exact stay rfl (fun _ => by simp) (fun _ => nofun) rfl
  | createUl m =>
    obtain ⟨u, hu, hs⟩ := Option.map_eq_some_iff.1 hs; cases hs
    exact .create hu (by simp) nofun
  | schedDl =>
    simp only at hs
    split at hs
    · obtain ⟨d, hd', hs⟩ := Option.map_eq_some_iff.1 hs; cases hs
      exact stay rfl (fun _ => by simp) (fun _ => nofun) rfl
    · cases hs; exact stay rfl (fun _ => by simp) (fun _ => nofun) rfl
  | schedUl =>
    obtain ⟨u, hu, hs⟩ := Option.map_eq_some_iff.1 hs; cases hs
    exact .sched hu (.inl rfl) nofun (by simp) nofun
  | schedRej =>
    obtain ⟨u, hu, hs⟩ := Option.map_eq_some_iff.1 hs; cases hs
    exact .sched hu (.inr rfl) nofun (by simp) nofun
  | abortDl =>
    obtain ⟨d, hd', hs⟩ := Option.map_eq_some_iff.1 hs; cases hs
    exact stay rfl (fun _ => by simp) (fun _ => nofun) rfl
  | free => cases hs; exact stay rfl (fun _ => by simp) (fun _ => nofun) rfl

/-! ## Procedures of an uplink TBF -/

theorem ulDispatch_dlAss {env : Env} {s s' : Ul} {e : Ev} (hs : ulDispatch env s e = some s') :
    s'.dlAss = s.dlAss ∨ (e = .contentionOk ∧ s.dlAss.dispatch .sched = some s'.dlAss) := by
  have hc : ∀ {s1 : Ul}, ulContention env s1 = some s' → s1.dlAss = s.dlAss → s'.dlAss = s.dlAss ∨
      s.dlAss.dispatch .sched = some s'.dlAss := by
    intro s1 h1 h2
    unfold ulContention at h1
    split at h1
    · obtain ⟨d, hd, h1⟩ := Option.map_eq_some_iff.1 h1; cases h1
      rw [← h2]; exact .inr hd
    · cases h1; exact .inl h2
  obtain ⟨st, ccch, pacch, tmr, cr, t3141, uk, ua, da, n1, n3, rx, fr⟩ := s
  cases st <;> cases e <;>
    first
    | (cases (show some _ = some s' from hs); exact .inl rfl)
    | skip
  · cases pacch <;> (cases (show some _ = some s' from hs); exact .inl rfl)
  · cases ccch <;> (cases (show some _ = some s' from hs); exact .inl rfl)
  · exact (hc (show ulContention env _ = some s' from hs) rfl).elim .inl fun h => .inr ⟨rfl, h⟩
  · exact (hc (show ulContention env _ = some s' from hs) rfl).elim .inl fun h => .inr ⟨rfl, h⟩

/-- Operations that can ask for a downlink assignment on this uplink TBF. -/
def UlReq (op : UlOp) : Prop :=
  op = .schedDl ∨ op = .ev .contentionOk ∨ op = .ctrlAck .ulAss true ∨ ∃ m t, op = .createAck m t

theorem ulStep_dlAss {lim : Lim} {s s' : Ul} {op : UlOp} {env : Env} (hf : s.freed = false)
    (hs : ulStep lim s op env = some s') :
    (s'.dlAss = s.dlAss ∧ (op = .pollTimeout .dlAss → s.dlAss ≠ .wait) ∧
      (∀ a, op = .ctrlAck .dlAss a → s.dlAss ≠ .wait)) ∧ op ≠ .abortDl ∧ (∀ m, op ≠ .createDl m) ∨
    (UlReq op ∧ s.dlAss.dispatch .sched = some s'.dlAss) ∨
    (∃ m, op = .createDl m ∧ s.dlAss.dispatch .create m = some s'.dlAss) ∨
    (op = .pollTimeout .dlAss ∧ s.dlAss = .wait ∧ s'.dlAss = .send) ∨
    (∃ a, op = .ctrlAck .dlAss a ∧ s.dlAss = .wait ∧ s'.dlAss = .idle) ∨
    (op = .abortDl ∧ s.dlAss.dispatch .abort = some s'.dlAss) := by
  unfold ulStep at hs
  rw [if_neg (by simp [hf])] at hs
  have hd : ∀ {s1 s2 : Ul} {e : Ev}, ulDispatch env s1 e = some s2 → e ≠ .contentionOk →
      s2.dlAss = s1.dlAss := by
    intro s1 s2 e h1 h2
    exact (ulDispatch_dlAss h1).resolve_right fun h => h2 h.1
  cases op with
  | ev e =>
    rcases ulDispatch_dlAss hs with h | ⟨h, h'⟩
    · exact .inl ⟨⟨h, nofun, nofun⟩, nofun, nofun⟩
    · subst h; exact .inr (.inl ⟨.inr (.inl rfl), h'⟩)
  | timer =>
    simp only [ulTimer] at hs
    split at hs
    · cases hs; exact .inl ⟨⟨rfl, nofun, nofun⟩, nofun, nofun⟩
    · have h1 := hd hs nofun
      exact .inl ⟨⟨h1, nofun, nofun⟩, nofun, nofun⟩
    · cases hs; exact .inl ⟨⟨rfl, nofun, nofun⟩, nofun, nofun⟩
    · cases hs; exact .inl ⟨⟨rfl, nofun, nofun⟩, nofun, nofun⟩
    · cases hs
  | uaTimer =>
    obtain ⟨f, _, hs⟩ := Option.map_eq_some_iff.1 hs; cases hs
    exact .inl ⟨⟨rfl, nofun, nofun⟩, nofun, nofun⟩
  | t3141 =>
    simp only at hs
    split at hs <;> (cases hs; exact .inl ⟨⟨rfl, nofun, nofun⟩, nofun, nofun⟩)
  | usfTimeout =>
    simp only [ulUsfTimeout] at hs
    split at hs
    · have h1 := hd hs nofun
      exact .inl ⟨⟨h1, nofun, nofun⟩, nofun, nofun⟩
    · cases hs; exact .inl ⟨⟨rfl, nofun, nofun⟩, nofun, nofun⟩
  | data f c v r =>
    refine .inl ⟨⟨?_, nofun, nofun⟩, nofun, nofun⟩
    simp only [ulData] at hs
    split at hs
    · cases hs; rfl
    obtain ⟨s1, e1, hs⟩ := Option.bind_eq_some_iff.1 hs
    obtain ⟨s2, e2, hs⟩ := Option.bind_eq_some_iff.1 hs
    have h1 : s1.dlAss = s.dlAss := by
      split at e1
      · have h1 := hd e1 nofun; exact h1
      · cases e1; rfl
    have h2 : s2.dlAss = s1.dlAss := by
      split at e2
      · obtain ⟨s3, e3, e4⟩ := Option.map_eq_some_iff.1 e2; cases e4
        have h3 := hd e3 nofun; exact h3
      · cases e2; rfl
    split at hs
    · obtain ⟨a, _, hs⟩ := Option.map_eq_some_iff.1 hs; cases hs
      exact h2.trans h1
    · cases hs; exact h2.trans h1
  | pollTimeout r =>
    cases r with
    | dlAck => cases hs
    | ulAck =>
      refine .inl ⟨⟨?_, nofun, nofun⟩, nofun, nofun⟩
      simp only [ulPollTimeout] at hs
      split at hs
      · cases hs; rfl
      split at hs
      · split at hs
        · have h1 := hd hs nofun; exact h1
        · obtain ⟨a, _, hs⟩ := Option.map_eq_some_iff.1 hs; cases hs; rfl
      · obtain ⟨a, _, hs⟩ := Option.map_eq_some_iff.1 hs; cases hs; rfl
    | ulAss =>
      refine .inl ⟨⟨?_, nofun, nofun⟩, nofun, nofun⟩
      simp only [ulPollTimeout] at hs
      split at hs
      · cases hs; rfl
      · obtain ⟨a, _, hs⟩ := Option.map_eq_some_iff.1 hs; cases hs; rfl
    | dlAss =>
      simp only [ulPollTimeout] at hs
      split at hs
      · rename_i h; cases hs; exact .inl ⟨⟨rfl, fun _ => h, nofun⟩, nofun, nofun⟩
      rename_i hw
      have hw := Decidable.byContradiction hw
      obtain ⟨d, hd', hs⟩ := Option.map_eq_some_iff.1 hs; cases hs
      rw [hw] at hd'
      cases (show some DlAss.send = some d from hd')
      exact .inr (.inr (.inr (.inl ⟨rfl, hw, rfl⟩)))
  | ctrlAck r t =>
    cases r with
    | dlAck => cases hs; exact .inl ⟨⟨rfl, nofun, nofun⟩, nofun, nofun⟩
    | ulAck =>
      refine .inl ⟨⟨?_, nofun, nofun⟩, nofun, nofun⟩
      simp only [ulCtrlAck] at hs
      split at hs
      · cases hs; rfl
      obtain ⟨a, _, hs⟩ := Option.bind_eq_some_iff.1 hs
      split at hs
      · have h1 := hd hs nofun; exact h1
      · cases hs; rfl
    | ulAss =>
      simp only [ulCtrlAck] at hs
      split at hs
      · cases hs; exact .inl ⟨⟨rfl, nofun, nofun⟩, nofun, nofun⟩
      obtain ⟨u, _, hs⟩ := Option.bind_eq_some_iff.1 hs
      split at hs
      · rename_i ht
        obtain ⟨s1, e1, hs⟩ := Option.bind_eq_some_iff.1 hs
        have h1 : s1.dlAss = s.dlAss := by have h1 := hd e1 nofun; exact h1
        split at hs
        · obtain ⟨d, hd', hs⟩ := Option.map_eq_some_iff.1 hs; cases hs
          rw [h1] at hd'
          exact .inr (.inl ⟨.inr (.inr (.inl (by rw [ht]))), hd'⟩)
        · cases hs; exact .inl ⟨⟨h1, nofun, nofun⟩, nofun, nofun⟩
      · cases hs; exact .inl ⟨⟨rfl, nofun, nofun⟩, nofun, nofun⟩
    | dlAss =>
      simp only [ulCtrlAck] at hs
      split at hs
      · rename_i h; cases hs; exact .inl ⟨⟨rfl, nofun, fun _ _ => h⟩, nofun, nofun⟩
      rename_i hw
      have hw := Decidable.byContradiction hw
      obtain ⟨d, hd', hs⟩ := Option.map_eq_some_iff.1 hs; cases hs
      rw [hw] at hd'
      cases (show some DlAss.idle = some d from hd')
      exact .inr (.inr (.inr (.inr (.inl ⟨t, rfl, hw, rfl⟩))))
  | pktResReq =>
    obtain ⟨s1, e1, hs⟩ := Option.map_eq_some_iff.1 hs; cases hs
    refine .inl ⟨⟨?_, nofun, nofun⟩, nofun, nofun⟩
    have h1 := hd e1 nofun; exact h1
  | createAck m t =>
    simp only [ulCreateAck] at hs
    obtain ⟨a, _, hs⟩ := Option.bind_eq_some_iff.1 hs
    split at hs
    · rcases ulDispatch_dlAss hs with h | ⟨_, h'⟩
      · exact .inl ⟨⟨h, nofun, nofun⟩, nofun, nofun⟩
      · exact .inr (.inl ⟨.inr (.inr (.inr ⟨m, t, rfl⟩)), h'⟩)
    · cases hs; exact .inl ⟨⟨rfl, nofun, nofun⟩, nofun, nofun⟩
  | createDl m =>
    obtain ⟨d, hd', hs⟩ := Option.map_eq_some_iff.1 hs; cases hs
    exact .inr (.inr (.inl ⟨m, rfl, hd'⟩))
  | createUl m =>
    obtain ⟨d, _, hs⟩ := Option.map_eq_some_iff.1 hs; cases hs
    exact .inl ⟨⟨rfl, nofun, nofun⟩, nofun, nofun⟩
  | schedDl =>
    obtain ⟨d, hd', hs⟩ := Option.map_eq_some_iff.1 hs; cases hs
    exact .inr (.inl ⟨.inl rfl, hd'⟩)
  | schedUl =>
    obtain ⟨d, _, hs⟩ := Option.map_eq_some_iff.1 hs; cases hs
    exact .inl ⟨⟨rfl, nofun, nofun⟩, nofun, nofun⟩
  | schedRej =>
    obtain ⟨d, _, hs⟩ := Option.map_eq_some_iff.1 hs; cases hs
    exact .inl ⟨⟨rfl, nofun, nofun⟩, nofun, nofun⟩
  | abortDl =>
    obtain ⟨d, hd', hs⟩ := Option.map_eq_some_iff.1 hs; cases hs
    exact .inr (.inr (.inr (.inr (.inr ⟨rfl, hd'⟩))))
  | free => cases hs; exact .inl ⟨⟨rfl, nofun, nofun⟩, nofun, nofun⟩

/-- A downlink assignment to be sent on an uplink TBF, as `C25_dl_dlAss`; there is no
limit on the number of repetitions. -/
theorem C25_ul_dlAss {lim : Lim} {s s' : Ul} {op : UlOp} {env : Env} (hf : s.freed = false)
    (hs : ulStep lim s op env = some s') :
    (s.dlAss = .send → s'.dlAss = .send ∧ op ≠ .createDl .msg ∨
      (op = .createDl .msg ∧ s'.dlAss = .wait) ∨
      ((op = .createDl .noTarget ∨ op = .abortDl) ∧ s'.dlAss = .idle)) ∧
    (s.dlAss = .wait →
      (op = .pollTimeout .dlAss ∧ s'.dlAss = .send) ∨
      (((∃ a, op = .ctrlAck .dlAss a) ∨ op = .abortDl) ∧ s'.dlAss = .idle) ∨
      (s'.dlAss = .wait ∧ (∀ a, op ≠ .ctrlAck .dlAss a) ∧ op ≠ .pollTimeout .dlAss)) ∧
    (s.dlAss = .idle → s'.dlAss = .idle ∨ (s'.dlAss = .send ∧ UlReq op)) := by
  have h := ulStep_dlAss hf hs
  generalize s'.dlAss = d' at h
  generalize s.dlAss = d at h
  rcases h with ⟨⟨h, h1, h2⟩, h3, h4⟩ | ⟨h, h1⟩ | ⟨m, h, h1⟩ | ⟨h, h1, h2⟩ | ⟨a, h, h1, h2⟩ | ⟨h, h1⟩
  · subst h
    exact ⟨fun h => .inl ⟨h, h4 _⟩, fun h => .inr (.inr ⟨h, fun a ha => h2 a ha h, fun hp => h1 hp h⟩),
      fun h => .inl h⟩
  · have hc : op ≠ .createDl .msg := by rcases h with h | h | h | ⟨_, _, h⟩ <;> rw [h] <;> nofun
    have ha : ∀ a, op ≠ .ctrlAck .dlAss a := by
      rcases h with h | h | h | ⟨_, _, h⟩ <;> rw [h] <;> nofun
    have hp : op ≠ .pollTimeout .dlAss := by
      rcases h with h | h | h | ⟨_, _, h⟩ <;> rw [h] <;> nofun
    cases d <;> cases (show some _ = some d' from h1)
    · exact ⟨nofun, nofun, fun _ => .inr ⟨rfl, h⟩⟩
    · exact ⟨fun _ => .inl ⟨rfl, hc⟩, nofun, nofun⟩
    · exact ⟨nofun, fun _ => .inr (.inr ⟨rfl, ha, hp⟩), nofun⟩
  · subst h
    cases d <;> cases m <;> cases (show some _ = some d' from h1) <;> simp
  · subst h h1 h2
    exact ⟨nofun, fun _ => .inl ⟨rfl, rfl⟩, nofun⟩
  · subst h h1 h2
    exact ⟨nofun, fun _ => .inr (.inl ⟨.inl ⟨a, rfl⟩, rfl⟩), nofun⟩
  · subst h
    cases d <;> cases (show some _ = some d' from h1)
    · exact ⟨nofun, nofun, fun _ => .inl rfl⟩
    · exact ⟨fun _ => .inr (.inr ⟨.inr rfl, rfl⟩), nofun, nofun⟩
    · exact ⟨nofun, fun _ => .inr (.inl ⟨.inr rfl, rfl⟩), nofun⟩

def ulCreateUl : UlOp → Option Made
  | .createUl m => some m
  | _ => none

theorem ulDispatch_ass {env : Env} {s s' : Ul} {e : Ev} (hs : ulDispatch env s e = some s')
    (h : ulTmrOk s.st s.tmr = true) : s'.ulAss = s.ulAss ∧ s'.ulAck = s.ulAck := by
  obtain ⟨s1, a, _, b, c, _⟩ := ulDispatch_ok env s e h
  rw [a] at hs; cases hs; exact ⟨b, c⟩

/-- An uplink assignment to be sent on an uplink TBF, as `C25_dl_ulAss_partial`: it is
repeated without limit while that TBF is being assigned.  Missing: as there. -/
theorem C25_ul_ulAss_partial {lim : Lim} {s s' : Ul} {op : UlOp} {env : Env} (hi : UlInv s)
    (hf : s.freed = false) (hs : ulStep lim s op env = some s') :
    UaStep False (s.st == .assign) s.ulAss.st s'.ulAss.st (ulCreateUl op)
      (op = .pollTimeout .ulAss) False (∃ a, op = .ctrlAck .ulAss a) := by
  obtain ⟨ht, _⟩ := hi.resolve_left (by simp [hf])
  unfold ulStep at hs
  rw [if_neg (by simp [hf])] at hs
  have stay : ∀ (_ : ulCreateUl op = none) (_ : s.ulAss.st = .wait → ¬ ∃ a, op = .ctrlAck .ulAss a)
      (_ : s.ulAss.st = .wait → op = .pollTimeout .ulAss → False)
      (_ : s'.ulAss.st = s.ulAss.st),
      UaStep False (s.st == .assign) s.ulAss.st s'.ulAss.st (ulCreateUl op)
      (op = .pollTimeout .ulAss) False (∃ a, op = .ctrlAck .ulAss a) :=
    fun h1 h2 h3 h4 => .same h4 (by rw [h1]; nofun) h2 h3
  cases op with
  | ev e =>
    exact stay rfl (fun _ => by simp) (fun _ => nofun) (by rw [(ulDispatch_ass hs ht).1])
  | timer =>
    simp only [ulTimer] at hs
    split at hs
    · cases hs; exact stay rfl (fun _ => by simp) (fun _ => nofun) rfl
    · rename_i htm
      have hst : s.st = .assign := by
        cases hst : s.st <;> rw [hst, htm] at ht <;> first | rfl | cases ht
      refine stay rfl (fun _ => by simp) (fun _ => nofun) ?_
      obtain ⟨st, ccch, pacch, tmr, cr, t3141, uk, ua, da, n1, n3, rx, fr⟩ := s
      simp only at hst
      subst hst
      cases (show some _ = some s' from hs)
      rfl
    · cases hs; exact stay rfl (fun _ => by simp) (fun _ => nofun) rfl
    · cases hs; exact stay rfl (fun _ => by simp) (fun _ => nofun) rfl
    · cases hs
  | uaTimer =>
    obtain ⟨f, _, hs⟩ := Option.map_eq_some_iff.1 hs; cases hs
    exact stay rfl (fun _ => by simp) (fun _ => nofun) rfl
  | t3141 =>
    simp only at hs
    split at hs <;> (cases hs; exact stay rfl (fun _ => by simp) (fun _ => nofun) rfl)
  | usfTimeout =>
    simp only [ulUsfTimeout] at hs
    split at hs
    · exact stay rfl (fun _ => by simp) (fun _ => nofun) (by rw [(ulDispatch_ass hs ht).1])
    · cases hs; exact stay rfl (fun _ => by simp) (fun _ => nofun) rfl
  | data f c v r =>
    refine stay rfl (fun _ => by simp) (fun _ => nofun) ?_
    simp only [ulData] at hs
    split at hs
    · cases hs; rfl
    obtain ⟨s1, e1, hs⟩ := Option.bind_eq_some_iff.1 hs
    obtain ⟨s2, e2, hs⟩ := Option.bind_eq_some_iff.1 hs
    have h1 : s1.ulAss = s.ulAss ∧ ulTmrOk s1.st s1.tmr = true := by
      split at e1
      · refine ⟨(ulDispatch_ass e1 ht).1, ?_⟩
        have b3 : s1.st = s.st ∧ s1.tmr = s.tmr := by
          unfold ulDispatch at e1
          split at e1
          · rename_i hin
            have hst : s.st = .flow := by
              revert hin; show ulIn s.st _ = true → _
              cases s.st <;> decide
            unfold ulAction at e1
            simp only [hst] at e1
            cases e1; exact ⟨hst.symm, rfl⟩
          · cases e1; exact ⟨rfl, rfl⟩
        rw [b3.1, b3.2]; exact ht
      · cases e1; exact ⟨rfl, ht⟩
    have h2 : s2.ulAss = s1.ulAss := by
      split at e2
      · obtain ⟨s3, e3, e4⟩ := Option.map_eq_some_iff.1 e2; cases e4
        exact (ulDispatch_ass e3 h1.2).1
      · cases e2; rfl
    split at hs
    · obtain ⟨a, _, hs⟩ := Option.map_eq_some_iff.1 hs; cases hs
      show s2.ulAss.st = _
      rw [h2, h1.1]
    · cases hs; rw [h2, h1.1]
  | pollTimeout r =>
    cases r with
    | dlAck => cases hs
    | ulAck =>
      refine stay rfl (fun _ => by simp) (fun _ => nofun) ?_
      simp only [ulPollTimeout] at hs
      split at hs
      · cases hs; rfl
      split at hs
      · split at hs
        · rw [(ulDispatch_ass hs ht).1]
        · obtain ⟨a, _, hs⟩ := Option.map_eq_some_iff.1 hs; cases hs; rfl
      · obtain ⟨a, _, hs⟩ := Option.map_eq_some_iff.1 hs; cases hs; rfl
    | ulAss =>
      simp only [ulPollTimeout] at hs
      split at hs
      · rename_i h; cases hs; exact stay rfl (fun _ => by simp) (fun h' => absurd h' h) rfl
      rename_i hw
      have hw := Decidable.byContradiction hw
      obtain ⟨u, hu, hs⟩ := Option.map_eq_some_iff.1 hs; cases hs
      exact .timeout hu hw rfl
    | dlAss =>
      refine stay rfl (fun _ => by simp) (fun _ => nofun) ?_
      simp only [ulPollTimeout] at hs
      split at hs
      · cases hs; rfl
      · obtain ⟨a, _, hs⟩ := Option.map_eq_some_iff.1 hs; cases hs; rfl
  | ctrlAck r t =>
    cases r with
    | dlAck => cases hs; exact stay rfl (fun _ => by simp) (fun _ => nofun) rfl
    | ulAck =>
      refine stay rfl (fun _ => by simp) (fun _ => nofun) ?_
      simp only [ulCtrlAck] at hs
      split at hs
      · cases hs; rfl
      obtain ⟨a, _, hs⟩ := Option.bind_eq_some_iff.1 hs
      split at hs
      · rw [(ulDispatch_ass hs ht).1]
      · cases hs; rfl
    | ulAss =>
      simp only [ulCtrlAck] at hs
      split at hs
      · rename_i h; cases hs; exact stay rfl (fun h' => absurd h' h) (fun _ => nofun) rfl
      rename_i hw
      have hw := Decidable.byContradiction hw
      obtain ⟨u, hu, hs⟩ := Option.bind_eq_some_iff.1 hs
      have key : s'.ulAss = u := by
        split at hs
        · obtain ⟨s1, e1, hs⟩ := Option.bind_eq_some_iff.1 hs
          have h1 := (ulDispatch_ass e1 ht).1
          split at hs
          · obtain ⟨d, _, hs⟩ := Option.map_eq_some_iff.1 hs; cases hs; exact h1
          · cases hs; exact h1
        · cases hs; rfl
      rw [key]
      exact .confirm hu hw ⟨t, rfl⟩
    | dlAss =>
      refine stay rfl (fun _ => by simp) (fun _ => nofun) ?_
      simp only [ulCtrlAck] at hs
      split at hs
      · cases hs; rfl
      · obtain ⟨a, _, hs⟩ := Option.map_eq_some_iff.1 hs; cases hs; rfl
  | pktResReq =>
    obtain ⟨s1, e1, hs⟩ := Option.map_eq_some_iff.1 hs; cases hs
    refine stay rfl (fun _ => by simp) (fun _ => nofun) ?_
    show s1.ulAss.st = _
    rw [(ulDispatch_ass e1 ht).1]
  | createAck m t =>
    refine stay rfl (fun _ => by simp) (fun _ => nofun) ?_
    simp only [ulCreateAck] at hs
    obtain ⟨a, _, hs⟩ := Option.bind_eq_some_iff.1 hs
    split at hs
    · rw [(ulDispatch_ass hs ht).1]
    · cases hs; rfl
  | createDl m =>
    obtain ⟨d, _, hs⟩ := Option.map_eq_some_iff.1 hs; cases hs
    exact stay rfl (fun _ => by simp) (fun _ => nofun) rfl
  | createUl m =>
    obtain ⟨u, hu, hs⟩ := Option.map_eq_some_iff.1 hs; cases hs
    exact .create hu (by simp) nofun
  | schedDl =>
    obtain ⟨d, _, hs⟩ := Option.map_eq_some_iff.1 hs; cases hs
    exact stay rfl (fun _ => by simp) (fun _ => nofun) rfl
  | schedUl =>
    obtain ⟨u, hu, hs⟩ := Option.map_eq_some_iff.1 hs; cases hs
    exact .sched hu (.inl rfl) nofun (by simp) nofun
  | schedRej =>
    obtain ⟨u, hu, hs⟩ := Option.map_eq_some_iff.1 hs; cases hs
    exact .sched hu (.inr rfl) nofun (by simp) nofun
  | abortDl =>
    obtain ⟨d, _, hs⟩ := Option.map_eq_some_iff.1 hs; cases hs
    exact stay rfl (fun _ => by simp) (fun _ => nofun) rfl
  | free => cases hs; exact stay rfl (fun _ => by simp) (fun _ => nofun) rfl

/-! ## Acknowledgement of uplink data -/

theorem ulRun_fin (lim : Lim) (s s' : Ul) (ops : List (UlOp × Env)) (hi : UlInv s) (hq : UlFin s)
    (ho : ∀ p ∈ ops, UlOk p.1 ∧ p.1 ≠ .ev .lastUlData) (hs : ulRun lim s ops = some s') :
    UlInv s' ∧ UlFin s' := by
  induction ops generalizing s with
  | nil => cases hs; exact ⟨hi, hq⟩
  | cons p r ih =>
    obtain ⟨op, env⟩ := p
    have hp := ho _ List.mem_cons_self
    obtain ⟨s1, a, b, _⟩ := ulStep_ok lim s op env hi hp.1
    have hr' : ulRun lim s1 r = some s' := by simpa [ulRun, a] using hs
    exact ih s1 b ((ulStep_facts lim s s1 op env hi a).fin hp.2 hq)
      (fun p hp => ho p (List.mem_cons_of_mem _ hp)) hr'

/-- Once all uplink data has arrived, the final acknowledgement is due or its confirmation
is awaited, whatever happens, until the TBF is gone: it is never forgotten.  (Data is
reported complete by data blocks, not by an injected event.) -/
theorem C25_final_ack_pending (lim : Lim) (s : Ul) (ops : List (UlOp × Env))
    (ho : ∀ p ∈ ops, UlOk p.1 ∧ p.1 ≠ .ev .lastUlData) (hr : ulRun lim {} ops = some s)
    (hf : s.freed = false) (hst : s.st = .finished) : s.ulAck = .sched ∨ s.ulAck = .wait := by
  have h := (ulRun_fin lim {} s ops ulInv_fresh (.inr ⟨nofun, nofun⟩) ho hr).2
  have := (h.resolve_left (by simp [hf])).1 hst
  cases hk : s.ulAck
  · exact absurd hk this
  · exact .inl rfl
  · exact .inr rfl

/-- The final acknowledgement: due, it stays due until it is sent with a poll, and is then
awaited; awaited, an unanswered poll makes it due again unless N3103 is reached; a
confirmation releases the TBF. -/
theorem C25_final_ack (lim : Lim) (s s' : Ul) (op : UlOp) (env : Env) (hi : UlInv s)
    (hf : s.freed = false) (hst : s.st = .finished) (hs : ulStep lim s op env = some s') :
    (s.ulAck = .sched → s'.freed = true ∨ (s'.ulAck = .sched ∧ ∀ t, op ≠ .createAck true t) ∨
      (s'.ulAck = .wait ∧ ∃ t, op = .createAck true t)) ∧
    (s.ulAck = .wait → s'.freed = true ∨ (op = .pollTimeout .ulAck ∧ s'.ulAck = .sched) ∨
      (s'.ulAck = .wait ∧ (∀ a, op ≠ .ctrlAck .ulAck a) ∧
        (op = .pollTimeout .ulAck → (s.n3103 + 1) % 256 = lim.n3103))) ∧
    (s.ulAck = .wait → ∀ a, op = .ctrlAck .ulAck a → s'.freed = true) := by
  obtain ⟨ht, _⟩ := hi.resolve_left (by simp [hf])
  unfold ulStep at hs
  rw [if_neg (by simp [hf])] at hs
  have stay : s'.ulAck = s.ulAck → (∀ a, op ≠ .ctrlAck .ulAck a) → (∀ t, op ≠ .createAck true t) →
      (op = .pollTimeout .ulAck → s.ulAck = .wait → (s.n3103 + 1) % 256 = lim.n3103) →
      (s.ulAck = .sched → s'.freed = true ∨ (s'.ulAck = .sched ∧ ∀ t, op ≠ .createAck true t) ∨
      (s'.ulAck = .wait ∧ ∃ t, op = .createAck true t)) ∧
    (s.ulAck = .wait → s'.freed = true ∨ (op = .pollTimeout .ulAck ∧ s'.ulAck = .sched) ∨
      (s'.ulAck = .wait ∧ (∀ a, op ≠ .ctrlAck .ulAck a) ∧
        (op = .pollTimeout .ulAck → (s.n3103 + 1) % 256 = lim.n3103))) ∧
    (s.ulAck = .wait → ∀ a, op = .ctrlAck .ulAck a → s'.freed = true) :=
    fun h1 h2 h3 h4 => ⟨fun h => .inr (.inl ⟨h1.trans h, h3⟩),
      fun h => .inr (.inr ⟨h1.trans h, h2, fun hp => h4 hp h⟩), fun _ a ha => absurd ha (h2 a)⟩
  have gone : s'.freed = true →
      (s.ulAck = .sched → s'.freed = true ∨ (s'.ulAck = .sched ∧ ∀ t, op ≠ .createAck true t) ∨
      (s'.ulAck = .wait ∧ ∃ t, op = .createAck true t)) ∧
    (s.ulAck = .wait → s'.freed = true ∨ (op = .pollTimeout .ulAck ∧ s'.ulAck = .sched) ∨
      (s'.ulAck = .wait ∧ (∀ a, op ≠ .ctrlAck .ulAck a) ∧
        (op = .pollTimeout .ulAck → (s.n3103 + 1) % 256 = lim.n3103))) ∧
    (s.ulAck = .wait → ∀ a, op = .ctrlAck .ulAck a → s'.freed = true) :=
    fun h => ⟨fun _ => .inl h, fun _ => .inl h, fun _ _ _ => h⟩
  cases op with
  | ev e => exact stay (ulDispatch_ass hs ht).2 nofun nofun nofun
  | timer =>
    have htm : s.tmr = none := by rw [hst] at ht; simpa [ulTmrOk] using ht
    simp only [ulTimer, htm] at hs
    cases hs
    exact stay rfl nofun nofun nofun
  | uaTimer =>
    obtain ⟨f, _, hs⟩ := Option.map_eq_some_iff.1 hs; cases hs
    exact stay rfl nofun nofun nofun
  | t3141 =>
    simp only at hs
    split at hs <;> (cases hs; exact stay rfl nofun nofun nofun)
  | usfTimeout =>
    simp only [ulUsfTimeout] at hs
    split at hs
    · exact stay (ulDispatch_ass hs ht).2 nofun nofun nofun
    · cases hs; exact stay rfl nofun nofun nofun
  | data f c v r =>
    have key : (s.ulAck = .sched → s'.ulAck = .sched) ∧ (s.ulAck = .wait → s'.ulAck = .wait) := by
      obtain ⟨st, ccch, pacch, tmr, cr, t3141, uk, ua, da, n1, n3, rx, fr⟩ := s
      simp only at hst
      subst hst
      cases f <;> cases hrv : (r || v) <;> simp [ulData, ulDispatch, ulIn, hrv] at hs <;>
        first
        | (cases hs; exact ⟨id, id⟩)
        | skip
      all_goals
        obtain ⟨a, ha, hs⟩ := hs
        cases hs
        refine ⟨fun h => ?_, fun h => ?_⟩ <;>
        · simp only at h
          rw [h] at ha
          cases (show some _ = some a from ha)
          rfl
    exact ⟨fun h => .inr (.inl ⟨key.1 h, nofun⟩), fun h => .inr (.inr ⟨key.2 h, nofun, nofun⟩),
      fun _ => nofun⟩
  | pollTimeout r =>
    cases r with
    | dlAck => cases hs
    | ulAck =>
      simp only [ulPollTimeout] at hs
      split at hs
      · rename_i h; cases hs; exact stay rfl nofun nofun (fun _ h' => absurd h' h)
      rename_i hw
      have hw := Decidable.byContradiction hw
      split at hs
      · rename_i hh
        exact stay (ulDispatch_ass hs ht).2 nofun nofun fun _ _ => by simpa [nInc] using hh
      · obtain ⟨a, ha, hs⟩ := Option.map_eq_some_iff.1 hs; cases hs
        rw [hw] at ha
        cases (show some UlAck.sched = some a from ha)
        exact ⟨fun h => absurd (hw.symm.trans h) nofun, fun _ => .inr (.inl ⟨rfl, rfl⟩), fun _ => nofun⟩
    | ulAss =>
      simp only [ulPollTimeout] at hs
      split at hs
      · cases hs; exact stay rfl nofun nofun nofun
      · obtain ⟨a, _, hs⟩ := Option.map_eq_some_iff.1 hs; cases hs; exact stay rfl nofun nofun nofun
    | dlAss =>
      simp only [ulPollTimeout] at hs
      split at hs
      · cases hs; exact stay rfl nofun nofun nofun
      · obtain ⟨a, _, hs⟩ := Option.map_eq_some_iff.1 hs; cases hs; exact stay rfl nofun nofun nofun
  | ctrlAck r t =>
    cases r with
    | dlAck => cases hs; exact stay rfl nofun nofun nofun
    | ulAck =>
      simp only [ulCtrlAck] at hs
      split at hs
      · rename_i h; cases hs
        exact ⟨fun h => .inr (.inl ⟨h, nofun⟩), fun h' => absurd h' h, fun h' => absurd h' h⟩
      obtain ⟨a, _, hs⟩ := Option.bind_eq_some_iff.1 hs
      refine gone ?_
      obtain ⟨st, ccch, pacch, tmr, cr, t3141, uk, ua, da, n1, n3, rx, fr⟩ := s
      simp only at hst
      subst hst
      cases (show some _ = some s' from hs)
      rfl
    | ulAss =>
      simp only [ulCtrlAck] at hs
      split at hs
      · cases hs; exact stay rfl nofun nofun nofun
      obtain ⟨u, _, hs⟩ := Option.bind_eq_some_iff.1 hs
      split at hs
      · obtain ⟨s1, e1, hs⟩ := Option.bind_eq_some_iff.1 hs
        have h1 := (ulDispatch_ass e1 ht).2
        split at hs
        · obtain ⟨d, _, hs⟩ := Option.map_eq_some_iff.1 hs; cases hs; exact stay h1 nofun nofun nofun
        · cases hs; exact stay h1 nofun nofun nofun
      · cases hs; exact stay rfl nofun nofun nofun
    | dlAss =>
      simp only [ulCtrlAck] at hs
      split at hs
      · cases hs; exact stay rfl nofun nofun nofun
      · obtain ⟨a, _, hs⟩ := Option.map_eq_some_iff.1 hs; cases hs; exact stay rfl nofun nofun nofun
  | pktResReq =>
    obtain ⟨s1, e1, hs⟩ := Option.map_eq_some_iff.1 hs; cases hs
    exact gone rfl
  | createAck m t =>
    simp only [ulCreateAck] at hs
    obtain ⟨a, ha, hs⟩ := Option.bind_eq_some_iff.1 hs
    have h1 : s'.ulAck = a := by
      split at hs
      · exact (ulDispatch_ass hs ht).2
      · cases hs; rfl
    rw [h1]
    rw [hst] at ha
    refine ⟨fun h => ?_, fun h => ?_, fun _ => nofun⟩
    · rw [h] at ha
      cases m <;> cases (show some _ = some a from ha)
      · exact .inr (.inl ⟨rfl, nofun⟩)
      · exact .inr (.inr ⟨rfl, t, rfl⟩)
    · rw [h] at ha
      cases (show some _ = some a from ha)
      exact .inr (.inr ⟨rfl, nofun, nofun⟩)
  | createDl m =>
    obtain ⟨d, _, hs⟩ := Option.map_eq_some_iff.1 hs; cases hs
    exact stay rfl nofun nofun nofun
  | createUl m =>
    obtain ⟨u, _, hs⟩ := Option.map_eq_some_iff.1 hs; cases hs
    exact stay rfl nofun nofun nofun
  | schedDl =>
    obtain ⟨d, _, hs⟩ := Option.map_eq_some_iff.1 hs; cases hs
    exact stay rfl nofun nofun nofun
  | schedUl =>
    obtain ⟨u, _, hs⟩ := Option.map_eq_some_iff.1 hs; cases hs
    exact stay rfl nofun nofun nofun
  | schedRej =>
    obtain ⟨u, _, hs⟩ := Option.map_eq_some_iff.1 hs; cases hs
    exact stay rfl nofun nofun nofun
  | abortDl =>
    obtain ⟨d, _, hs⟩ := Option.map_eq_some_iff.1 hs; cases hs
    exact stay rfl nofun nofun nofun
  | free => cases hs; exact gone rfl

/-! ## Where the code loses a message -/

/-- The full property fails for uplink assignments: on a downlink TBF in data transfer the
assignment is sent, the poll is not answered, and the assignment is neither due nor
awaited any more although the TBF lives on (src/tbf_ul_ass_fsm.c:276-292). -/
theorem C25_ulAss_lost :
    ∃ ops s, dlRun 8 {} ops = some s ∧ (∀ p ∈ ops, DlOk p.1) ∧ s.freed = false ∧ s.st = .flow ∧
      s.ulAss.st = .wait ∧
      ∃ s', dlStep 8 s (.pollTimeout .ulAss) {} = some s' ∧ s'.freed = false ∧ s'.st = .flow ∧
        s'.ulAss.st = .idle :=
  ⟨[(.ev .addPacch, {}), (.ev .ackPacch, {}), (.schedUl, {}), (.createUl .msg, {})], _, rfl,
    by simp [DlOk], rfl, rfl, rfl, _, rfl, rfl, rfl, rfl⟩

/-- A second request for a downlink assignment that arrives while the confirmation of the
first is awaited is dropped: after the confirmation nothing is due
(src/tbf_dl_ass_fsm.c:228-236). -/
theorem C25_dlAss_request_dropped :
    ∃ ops s, ulRun ⟨10, 4⟩ {} ops = some s ∧ s.freed = false ∧ s.dlAss = .wait ∧
      ∃ s', ulRun ⟨10, 4⟩ s [(.schedDl, {}), (.ctrlAck .dlAss false, {})] = some s' ∧
        s'.freed = false ∧ s'.dlAss = .idle :=
  ⟨[(.ev .addPacch, {}), (.ev .ackPacch, {}), (.schedDl, {}), (.createDl .msg, {})], _, rfl,
    rfl, rfl, _, rfl, rfl, rfl⟩

/-! ## Concrete cases -/

example : (ulRun ⟨10, 4⟩ {} [(.ev .addPacch, {}), (.ev .ackPacch, {}), (.schedDl, {}),
    (.createDl .msg, {}), (.pollTimeout .dlAss, {})]).map (·.dlAss) = some .send := by decide
example : (dlRun 8 {} [(.ev .addPacch, {}), (.schedUl, {}), (.createUl .msg, {}),
    (.pollTimeout .ulAss, {})]).map (fun (s : Dl) => s.ulAss.st) = some .send := by decide
example : (ulRun ⟨10, 4⟩ {} [(.ev .addPacch, {}), (.ev .ackPacch, {}),
    (.data false true true false, {}), (.createAck true true, {}), (.pollTimeout .ulAck, {})]).map
    (fun (s : Ul) => (s.st, s.ulAck)) = some (.finished, .sched) := by decide
example : (dlRun 8 {} [(.ev .addPacch, {}), (.ev .ackPacch, {}), (.ev .lastDlSent, {}),
    (.dlAck true, { more := true }), (.createDl .noPoll, {})]).map (fun (s : Dl) => s.dlAss)
    = some .send := by decide

end Verif.Tbf
