import Verif.Lemmas.Supervise

/-!
# C24: TBF life cycle

Whatever order of radio, timer and confirmation events arrives, a TBF only makes legal
state changes, never hits an unhandled-event assertion, and once releasing it never
carries data again.

`none` in the model is a failed assertion or a state change refused by the FSM library.
Operations carry arbitrary decisions `env` of the rest of the PCU.
-/

namespace Verif.Tbf
open Verif.TbfSpec

theorem dlRun_ok (lim : Nat) (s : Dl) (ops : List (DlOp × Env)) (h : DlInv s)
    (ho : ∀ p ∈ ops, DlOk p.1) : ∃ s', dlRun lim s ops = some s' ∧ DlInv s' := by
  induction ops generalizing s with
  | nil => exact ⟨s, rfl, h⟩
  | cons p r ih =>
    obtain ⟨op, env⟩ := p
    obtain ⟨s1, a, b, _⟩ := dlStep_ok lim s op env h (ho _ List.mem_cons_self)
    obtain ⟨s2, c, d⟩ := ih s1 b fun p hp => ho p (List.mem_cons_of_mem _ hp)
    exact ⟨s2, by simp [dlRun, a, c], d⟩

theorem ulRun_ok (lim : Lim) (s : Ul) (ops : List (UlOp × Env)) (h : UlInv s)
    (ho : ∀ p ∈ ops, UlOk p.1) : ∃ s', ulRun lim s ops = some s' ∧ UlInv s' := by
  induction ops generalizing s with
  | nil => exact ⟨s, rfl, h⟩
  | cons p r ih =>
    obtain ⟨op, env⟩ := p
    obtain ⟨s1, a, b, _⟩ := ulStep_ok lim s op env h (ho _ List.mem_cons_self)
    obtain ⟨s2, c, d⟩ := ih s1 b fun p hp => ho p (List.mem_cons_of_mem _ hp)
    exact ⟨s2, by simp [ulRun, a, c], d⟩

theorem dlInv_fresh (u : Bool) : DlInv { upg := u } := .inr ⟨rfl, .inl rfl⟩
theorem ulInv_fresh : UlInv {} := .inr ⟨rfl, .inl rfl⟩

/-- A downlink TBF, after any history, handles any operation without an assertion and
makes at most a legal state change. -/
theorem C24_dl_legal (lim : Nat) (u : Bool) (ops : List (DlOp × Env))
    (ho : ∀ p ∈ ops, DlOk p.1) :
    ∃ s, dlRun lim { upg := u } ops = some s ∧
      ∀ op env, DlOk op → ∃ s', dlStep lim s op env = some s' ∧
        (s'.st = s.st ∨ DlMove s.ccch s.firstAck s.st op s'.st) := by
  obtain ⟨s, a, b⟩ := dlRun_ok lim _ ops (dlInv_fresh u) ho
  refine ⟨s, a, fun op env h => ?_⟩
  obtain ⟨s', c, _, d⟩ := dlStep_ok lim s op env b h
  exact ⟨s', c, d⟩

/-- The same for an uplink TBF. -/
theorem C24_ul_legal (lim : Lim) (ops : List (UlOp × Env)) (ho : ∀ p ∈ ops, UlOk p.1) :
    ∃ s, ulRun lim {} ops = some s ∧
      ∀ op env, UlOk op → ∃ s', ulStep lim s op env = some s' ∧
        (s'.st = s.st ∨ UlMove s.st op s'.st) := by
  obtain ⟨s, a, b⟩ := ulRun_ok lim _ ops ulInv_fresh ho
  refine ⟨s, a, fun op env h => ?_⟩
  obtain ⟨s', c, _, d⟩ := ulStep_ok lim s op env b h
  exact ⟨s', c, d⟩

theorem DlMove.ended {c a : Bool} {x y : St} {op : DlOp} (h : DlMove c a x op y)
    (hx : Ended x) : Ended y := by
  cases h <;> first
    | exact absurd hx (by decide)
    | exact .inr (.inl rfl)
    | exact .inr (.inr rfl)
    | exact .inl rfl

theorem dlRun_ended (lim : Nat) (s : Dl) (ops : List (DlOp × Env)) (hi : DlInv s)
    (he : Ended s.st) (ho : ∀ p ∈ ops, DlOk p.1) :
    ∃ s', dlRun lim s ops = some s' ∧ Ended s'.st := by
  induction ops generalizing s with
  | nil => exact ⟨s, rfl, he⟩
  | cons p r ih =>
    obtain ⟨op, env⟩ := p
    obtain ⟨s1, a, b, c⟩ := dlStep_ok lim s op env hi (ho _ List.mem_cons_self)
    have he1 : Ended s1.st := by
      rcases c with c | c
      · rw [c]; exact he
      · exact DlMove.ended c he
    obtain ⟨s2, d, e⟩ := ih s1 b he1 fun p hp => ho p (List.mem_cons_of_mem _ hp)
    exact ⟨s2, by simp [dlRun, a, d], e⟩

theorem Ended.not_carries {st : St} (h : Ended st) : ¬ Carries st := by
  cases st <;> revert h <;> decide

/-- A downlink TBF that has ended never carries data again, whatever happens. -/
theorem C24_dl_ended (lim : Nat) (u : Bool) (ops more : List (DlOp × Env)) (s s' : Dl)
    (ho : ∀ p ∈ ops ++ more, DlOk p.1) (hr : dlRun lim { upg := u } ops = some s)
    (he : Ended s.st) (hm : dlRun lim s more = some s') :
    Ended s'.st ∧ ¬ Carries s'.st := by
  obtain ⟨s1, a, b⟩ := dlRun_ok lim _ ops (dlInv_fresh u)
    fun p hp => ho p (List.mem_append_left _ hp)
  rw [hr] at a; cases a
  obtain ⟨s2, c, d⟩ := dlRun_ended lim s more b he fun p hp => ho p (List.mem_append_right _ hp)
  rw [hm] at c; cases c
  exact ⟨d, Ended.not_carries d⟩

theorem ulRun_releasing (lim : Lim) (s : Ul) (ops : List (UlOp × Env)) (hi : UlInv s)
    (he : s.st = .releasing) (ho : ∀ p ∈ ops, UlOk p.1) :
    ∃ s', ulRun lim s ops = some s' ∧ s'.st = .releasing ∧ s'.rx = s.rx := by
  induction ops generalizing s with
  | nil => exact ⟨s, rfl, he, rfl⟩
  | cons p r ih =>
    obtain ⟨op, env⟩ := p
    obtain ⟨s1, a, b, c⟩ := ulStep_ok lim s op env hi (ho _ List.mem_cons_self)
    have he1 : s1.st = .releasing := by
      rcases c with c | c
      · rw [c]; exact he
      · rw [he] at c; cases c
    have hrx : s1.rx = s.rx := by
      rw [(ulStep_facts lim s s1 op env hi a).rx]
      cases op <;> simp [ulTakes, he]
    obtain ⟨s2, d, e, f⟩ := ih s1 b he1 fun p hp => ho p (List.mem_cons_of_mem _ hp)
    exact ⟨s2, by simp [ulRun, a, d], e, f.trans hrx⟩

/-- An uplink TBF that is releasing stays so, and no further data block is taken from it. -/
theorem C24_ul_ended (lim : Lim) (ops more : List (UlOp × Env)) (s s' : Ul)
    (ho : ∀ p ∈ ops ++ more, UlOk p.1) (hr : ulRun lim {} ops = some s)
    (he : s.st = .releasing) (hm : ulRun lim s more = some s') :
    s'.st = .releasing ∧ s'.rx = s.rx := by
  obtain ⟨s1, a, b⟩ := ulRun_ok lim _ ops ulInv_fresh
    fun p hp => ho p (List.mem_append_left _ hp)
  rw [hr] at a; cases a
  obtain ⟨s2, c, d⟩ := ulRun_releasing lim s more b he
    fun p hp => ho p (List.mem_append_right _ hp)
  rw [hm] at c; cases c
  exact d

/-- A downlink TBF that has ended always has a timer running that leads to its release:
one expiry in RELEASING and WAIT_REUSE_TFI, two in WAIT_RELEASE. -/
theorem C24_dl_released (lim : Nat) (u : Bool) (ops : List (DlOp × Env)) (s : Dl)
    (ho : ∀ p ∈ ops, DlOk p.1) (hr : dlRun lim { upg := u } ops = some s)
    (he : Ended s.st) (e1 e2 : Env) :
    (s.freed = true ∨ s.tmr ≠ none) ∧
    ∃ s', dlRun lim s [(.timer, e1), (.timer, e2)] = some s' ∧ s'.freed = true ∧
      (s.st ≠ .waitRelease → ∃ s'', dlStep lim s .timer e1 = some s'' ∧ s''.freed = true) := by
  obtain ⟨s1, a, b⟩ := dlRun_ok lim _ ops (dlInv_fresh u) ho
  rw [hr] at a; cases a
  by_cases hf : s.freed = true
  · refine ⟨.inl hf, s, ?_, hf, fun _ => ⟨s, ?_, hf⟩⟩
    · simp [dlRun, dlStep, hf]
    · simp [dlStep, hf]
  · obtain ⟨ht, _⟩ := b.resolve_left hf
    obtain ⟨st, ccch, pacch, tmr, fa, upg, da, ua, n, im, sup, fr, uf⟩ := s
    simp only at ht he
    have hf' : fr = false := by simpa using hf
    subst hf'
    rcases he with he | he | he <;> subst he
    · have : tmr = some .t3192 := by simpa [dlTmrOk] using ht
      subst this
      exact ⟨.inr nofun, _, rfl, rfl, fun h => absurd rfl h⟩
    · have : tmr = some .t3193 := by simpa [dlTmrOk] using ht
      subst this
      exact ⟨.inr nofun, _, rfl, rfl, fun _ => ⟨_, rfl, rfl⟩⟩
    · have : tmr = some .t3195 := by simpa [dlTmrOk] using ht
      subst this
      exact ⟨.inr nofun, _, rfl, rfl, fun _ => ⟨_, rfl, rfl⟩⟩

/-- An uplink TBF that is releasing is freed by its timer; one that is being assigned has
a timer running that frees it or starts data transfer. -/
theorem C24_ul_released (lim : Lim) (ops : List (UlOp × Env)) (s : Ul)
    (ho : ∀ p ∈ ops, UlOk p.1) (hr : ulRun lim {} ops = some s) (env : Env) :
    (s.st = .releasing → ∃ s', ulStep lim s .timer env = some s' ∧ s'.freed = true) ∧
    (s.st = .assign → ∃ s', ulStep lim s .timer env = some s' ∧
      (s'.freed = true ∨ s'.st = .flow)) := by
  obtain ⟨s1, a, b⟩ := ulRun_ok lim _ ops ulInv_fresh ho
  rw [hr] at a; cases a
  by_cases hf : s.freed = true
  · have : ulStep lim s .timer env = some s := by simp [ulStep, hf]
    exact ⟨fun _ => ⟨s, this, hf⟩, fun _ => ⟨s, this, .inl hf⟩⟩
  · obtain ⟨ht, _⟩ := b.resolve_left hf
    obtain ⟨st, ccch, pacch, tmr, cr, t3141, uk, ua, da, n1, n3, rx, fr⟩ := s
    simp only at ht
    have hf' : fr = false := by simpa using hf
    subst hf'
    refine ⟨fun he => ?_, fun he => ?_⟩
    · simp only at he; subst he
      have : tmr = some .t3169 := by simpa [ulTmrOk] using ht
      subst this
      exact ⟨_, rfl, rfl⟩
    · simp only at he; subst he
      have : tmr = some .t3168 ∨ tmr = some .x2002 := by simpa [ulTmrOk] using ht
      rcases this with h | h <;> subst h
      · exact ⟨_, rfl, .inl rfl⟩
      · exact ⟨_, rfl, .inr rfl⟩

theorem dlRun_own (lim : Nat) (s s' : Dl) (ops : List (DlOp × Env)) (hi : DlInv s)
    (hw : DlOwn s) (ho : ∀ p ∈ ops, DlOk p.1) (hsane : DlSaneRun lim s ops)
    (hr : dlRun lim s ops = some s') : DlOwn s' := by
  induction ops generalizing s with
  | nil => cases hr; exact hw
  | cons p r ih =>
    obtain ⟨op, env⟩ := p
    obtain ⟨s1, a, b, _⟩ := dlStep_ok lim s op env hi (ho _ List.mem_cons_self)
    have hr' : dlRun lim s1 r = some s' := by simpa [dlRun, a] using hr
    exact ih s1 b (dlStep_own lim s s1 op env hi hw hsane.1 a)
      (fun p hp => ho p (List.mem_cons_of_mem _ hp)) (hsane.2 s1 a) hr'

/-- A downlink TBF is never used after it was freed, provided it is driven as the rest of
the PCU does (`DlSane`): the confirmation of its own assignment never finds it ended. -/
theorem C24_dl_no_use_after_free (lim : Nat) (u : Bool) (ops : List (DlOp × Env)) (s : Dl)
    (ho : ∀ p ∈ ops, DlOk p.1) (hsane : DlSaneRun lim { upg := u } ops)
    (hr : dlRun lim { upg := u } ops = some s) : s.uaf = false :=
  (dlRun_own lim _ s ops (dlInv_fresh u) ⟨rfl, fun _ _ h => absurd rfl h, nofun⟩ ho hsane hr).1

/-! ## Concrete cases -/

/-- A complete life of a downlink TBF assigned on the PCH. -/
example : dlRun 8 {} [(.ev .addCcch, {}), (.ev .pcuifCnf, {}), (.timer, {}), (.dlAck false, {}),
    (.ev .lastDlSent, {}), (.pollTimeout .dlAck, {}), (.dlAck true, {}), (.timer, {}), (.timer, {})]
    = some { st := .waitReuse, firstAck := true, immAss := 1, freed := true } := by decide

/-- An unanswered assignment on the PCH is repeated. -/
example : (dlRun 8 {} [(.ev .addCcch, {}), (.ev .pcuifCnf, {}), (.timer, {}),
    (.pollTimeout .dlAck, {})]).map (fun (s : Dl) => (s.st, s.immAss)) = some (.assign, 2) := by decide

/-- A complete life of an uplink TBF. -/
example : ulRun ⟨10, 4⟩ {} [(.ev .addCcch, {}), (.timer, {}), (.data true false false true, {}),
    (.createAck true true, {}), (.data false true true false, {}), (.createAck true true, {}),
    (.ctrlAck .ulAck false, {})]
    = some { st := .finished, ccch := true, rx := 2, freed := true } := by decide

/-- Releasing: data that still arrives is not taken. -/
example : (ulRun ⟨2, 4⟩ {} [(.ev .addPacch, {}), (.ev .ackPacch, {}), (.usfTimeout, {}),
    (.usfTimeout, {}), (.data false true true false, {})]).map (fun (s : Ul) => (s.st, s.rx, s.freed))
    = some (.releasing, 0, false) := by decide

/-- The assumption `DlSane` in `C24_dl_no_use_after_free` is needed: were a TBF that is
being assigned over its own PACCH also confirmed through another TBF, the confirmation of
its own assignment would find it in WAIT_RELEASE and use it after freeing it. -/
example : (dlRun 8 { upg := true } [(.ev .addCcch, {}), (.ev .pcuifCnf, {}), (.timer, {}),
    (.createDl .msg, {}), (.ev .ackPacch, {}), (.ev .lastDlSent, {}), (.dlAck true, {}),
    (.ctrlAck .dlAss false, {})]).map (·.uaf) = some true := by decide

/-- A TBF upgraded to multislot while being assigned is left without a timer. -/
example : (dlRun 8 { upg := true } [(.ev .addCcch, {}), (.ev .pcuifCnf, {}), (.timer, {})]).map
    (fun (s : Dl) => (s.st, s.tmr, s.dlAss)) = some (.assign, none, .send) := by decide

example : DlSaneRun 8 { upg := true } [(.ev .addCcch, {}), (.ev .pcuifCnf, {}), (.timer, {}),
    (.createDl .msg, {}), (.ctrlAck .dlAss false, {}), (.ev .lastDlSent, {}), (.dlAck true, {})] := by
  refine ⟨by simp [DlSane], fun s1 h => ?_⟩; cases h
  refine ⟨by simp [DlSane], fun s1 h => ?_⟩; cases h
  refine ⟨by simp [DlSane], fun s1 h => ?_⟩; cases h
  refine ⟨by simp [DlSane], fun s1 h => ?_⟩; cases h
  refine ⟨by simp [DlSane], fun s1 h => ?_⟩; cases h
  refine ⟨by simp [DlSane], fun s1 h => ?_⟩; cases h
  exact ⟨by simp [DlSane], fun _ _ => trivial⟩

end Verif.Tbf
