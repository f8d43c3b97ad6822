import Verif.Lemmas.LiveUl

/-! Downlink TBFs: what they wait for, and how many turns they have left. -/

namespace Verif.Live
open Verif.Tbf Verif.LiveSpec Verif.TbfSpec

/-- Data can be sent, or the TBF is being assigned. -/
def Busy (s : Dl) : Prop := s.st = .assign ∨ s.st = .flow ∨ s.st = .finished

/-- What holds of the state of a downlink TBF. -/
structure DlLink (s : Dl) : Prop where
  inv : DlInv s
  live : s.freed = false
  used : s.st ≠ .new
  pend : s.st = .assign → s.tmr = none → s.ccch = true ∨ s.dlAss ≠ .idle
  one : Busy s → s.dlAss ≠ .idle → s.ccch = false
  cnf : s.tmr = some .x2002 → s.ccch = true
  newer : s.sup = true → ¬ Busy s

/-- What the surroundings do to a downlink TBF. -/
def dlMay (s : Dl) : DlOp → Bool
  | .ev e => e == .ackPacch || e == .pcuifCnf || e == .lastDlSent
  | .pollTimeout r => r != .ulAck
  | .ctrlAck r _ => r == .ulAss || r == .dlAss
  | .createDl m => m != .noTarget || s.sup
  | .abortDl => false
  | _ => true

/-- The mobile is heard. -/
def dlHeard : DlOp → Bool
  | .dlAck _ => true
  | .ctrlAck .. => true
  | _ => false

/-- Operations that are turns. -/
def dlTurnOp (s : Dl) : DlOp → Bool
  | .timer => s.tmr.isSome
  | .ev e => e == .pcuifCnf && s.st == .assign && s.ccch && s.tmr == none
  | .createDl m => m == .msg && s.st == .assign && s.dlAss == .send && s.tmr == none
  | .pollTimeout r =>
    (s.st == .assign || s.st == .flow || s.st == .finished) &&
      (r == .dlAck || (r == .ulAss && s.ulAss.st == .wait) || (r == .dlAss && s.dlAss == .wait))
  | _ => false

def dlConsumes : DlOp → Bool
  | .pollTimeout r => r == .dlAss
  | .ctrlAck r _ => r == .dlAss
  | _ => false

/-- What is left of a step. -/
def DDown (c : Cfg) (s s' : Dl) (op : DlOp) : Prop :=
  s'.freed = true ∨ (DlLink s' ∧
    (dlHeard op = false →
      dlTurnsLeft c s' + (if dlTurnOp s op then 1 else 0) ≤ dlTurnsLeft c s) ∧
    (s'.st = .assign → s'.dlAss = .wait →
      (s.st = .assign ∧ s.dlAss = .wait ∧ dlConsumes op = false) ∨ op = .createDl .msg))

theorem ddown_same (c : Cfg) (s s' : Dl) (op : DlOp) (h : DlLink s) (hi : DlInv s')
    (h1 : s'.st = s.st) (h2 : s'.tmr = s.tmr) (h3 : s'.dlAss = s.dlAss)
    (h4 : s'.n3105 = s.n3105 ∨ dlHeard op = true)
    (h5 : s'.ccch = s.ccch) (h6 : s'.sup = s.sup) (ht : dlTurnOp s op = false)
    (hc : dlConsumes op = true → s.dlAss ≠ .wait) :
    DDown c s s' op := by
  by_cases hf : s'.freed = true
  · exact .inl hf
  have hf : s'.freed = false := by simpa using hf
  refine .inr ⟨⟨hi, hf, by rw [h1]; exact h.used, by rw [h1, h2, h3, h5]; exact h.pend, ?_,
    by rw [h2, h5]; exact h.cnf, ?_⟩, fun hh => ?_, fun a b => .inl ⟨h1 ▸ a, h3 ▸ b, ?_⟩⟩
  · unfold Busy; rw [h1, h3, h5]; exact h.one
  · unfold Busy; rw [h1, h6]; exact h.newer
  · have h4 : s'.n3105 = s.n3105 := h4.resolve_right (by rw [hh]; nofun)
    rw [ht]
    simp only [dlTurnsLeft, h1, h2, h3, h4, h5]
    simp
  · cases hx : dlConsumes op with
    | false => rfl
    | true => exact absurd (h3 ▸ b) (hc hx)

/-- The TBF is given up. -/
theorem ddown_rel (c : Cfg) (s s' : Dl) (op : DlOp) (hi : DlInv s') (hst : s'.st = .releasing)
    (htm : s'.tmr = some .t3195)
    (hf : s'.freed = false) (hb : Busy s ∨ s.st = .waitRelease ∧ dlTurnOp s op = false) :
    DDown c s s' op := by
  have hnb : ¬ Busy s' := by unfold Busy; rw [hst]; rintro (x | x | x) <;> cases x
  refine .inr ⟨⟨hi, hf, by rw [hst]; nofun, by rw [hst]; nofun, fun x => absurd x hnb, ?_,
    fun _ => hnb⟩, fun _ => ?_, by rw [hst]; nofun⟩
  · rw [htm]; nofun
  have h1 : dlTurnsLeft c s' = 1 := by simp [dlTurnsLeft, hst]
  have hl := left_pos c.n3105 s.n3105
  rw [h1]
  have hif : ∀ b : Bool, (if b = true then 1 else 0) ≤ 1 := by intro b; cases b <;> decide
  have := hif (dlTurnOp s op)
  rcases hb with hb | ⟨hb, ht⟩
  · have : 2 ≤ dlTurnsLeft c s := by
      rcases hb with x | x | x <;> simp only [dlTurnsLeft, x]
      · split
        · split <;> omega
        · omega
      · split <;> omega
      · omega
    omega
  · rw [ht]
    simp [dlTurnsLeft, hb]

/-- A poll was not answered, and the limit is not reached yet. -/
theorem ddown_miss (c : Cfg) (s s' : Dl) (op : DlOp) (h : DlLink s) (hi : DlInv s')
    (hf : s'.freed = false)
    (hn : left c.n3105 s'.n3105 + 1 = left c.n3105 s.n3105)
    (hst : s'.st = s.st ∨ (s.st = .flow ∧ s'.st = .assign ∧ s.ccch = true))
    (htm : s'.st = s.st → s'.tmr = s.tmr)
    (htm' : s'.tmr = some .x2002 → s.tmr = some .x2002)
    (hd : s'.dlAss = s.dlAss ∨ (s.dlAss = .wait ∧ s'.dlAss = .send))
    (hc : dlConsumes op = true → s'.dlAss ≠ .wait)
    (h5 : s'.ccch = s.ccch) (h6 : s'.sup = s.sup) (ht : Busy s ∨ dlTurnOp s op = false) :
    DDown c s s' op := by
  have hbb : Busy s' → Busy s := by
    intro x
    rcases hst with e | ⟨e, _, _⟩
    · unfold Busy at *; rw [← e]; exact x
    · exact .inr (.inl e)
  have hdw : s'.dlAss = .wait → s.dlAss = .wait := by
    intro x
    rcases hd with e | ⟨_, e⟩
    · rw [← e]; exact x
    · rw [e] at x; cases x
  have hdi : s'.dlAss ≠ .idle → s.dlAss ≠ .idle := by
    intro x
    rcases hd with e | ⟨e, _⟩
    · rw [← e]; exact x
    · rw [e]; nofun
  have hdi' : s.dlAss ≠ .idle → s'.dlAss ≠ .idle := by
    intro x
    rcases hd with e | ⟨_, e⟩
    · rw [e]; exact x
    · rw [e]; nofun
  refine .inr ⟨⟨hi, hf, ?_, ?_, fun a b => ?_, fun x => ?_, ?_⟩, fun _ => ?_, fun a b => .inl ?_⟩
  · rcases hst with e | ⟨_, e, _⟩
    · rw [e]; exact h.used
    · rw [e]; nofun
  · intro a b
    rw [h5]
    rcases hst with e | ⟨_, _, e⟩
    · exact (h.pend (e ▸ a) (htm e ▸ b)).imp id hdi'
    · exact .inl e
  · rw [h5]; exact h.one (hbb a) (hdi b)
  · rw [h5]; exact h.cnf (htm' x)
  · rw [h6]; intro a b; exact h.newer a (hbb b)
  · have hif : ∀ b : Bool, (if b = true then 1 else 0) ≤ 1 := by intro b; cases b <;> decide
    have hle := hif (dlTurnOp s op)
    by_cases hb : Busy s
    · have hp := left_pos c.n3105 s'.n3105
      have : dlTurnsLeft c s' + 1 ≤ dlTurnsLeft c s := by
        rcases hst with e | ⟨e1, e2, e3⟩
        · have htm := htm e
          rcases hb with x | x | x
          · simp only [dlTurnsLeft, e, x, htm]
            split
            · rcases hd with d | ⟨d1, d2⟩
              · rw [d]; split <;> omega
              · rw [d1, d2]; simp only; omega
            · omega
          · simp only [dlTurnsLeft, e, x, h5]
            split <;> omega
          · simp only [dlTurnsLeft, e, x]; omega
        · have hid : s'.dlAss = .idle := by
            cases hx : s'.dlAss with
            | idle => rfl
            | send =>
              have := h.one (.inr (.inl e1)) (hdi (by rw [hx]; nofun)); rw [e3] at this; cases this
            | wait =>
              have := h.one (.inr (.inl e1)) (hdi (by rw [hx]; nofun)); rw [e3] at this; cases this
          simp only [dlTurnsLeft, e1, e2, e3, hid, if_true]
          split <;> omega
      omega
    · have hnb : ∀ x, s.st = x → x = .waitRelease ∨ x = .waitReuse ∨ x = .releasing := by
        intro x hx
        have hu := h.used
        unfold Busy at hb
        rw [hx] at hb hu
        cases x <;> simp at hb hu ⊢
      rw [ht.resolve_left hb]
      have hst' : s'.st = s.st := by
        rcases hst with e | ⟨e, _, _⟩
        · exact e
        · exact absurd (.inr (.inl e)) hb
      rcases hnb _ rfl with x | x | x <;> simp [dlTurnsLeft, hst', x]
  · rcases hst with e | ⟨e, _, e2⟩
    · refine ⟨e ▸ a, hdw b, ?_⟩
      cases hx : dlConsumes op with
      | false => rfl
      | true => exact absurd b (hc hx)
    · have := h.one (.inr (.inl e)) (by rw [hdw b]; nofun)
      rw [e2] at this; cases this

theorem nInc_hit {lim n : Nat} (h : (nInc lim n).2 = true) : left lim n = 1 := left_hit h

theorem nInc_miss {lim n : Nat} (hl : lim < 256) (h : ¬ (nInc lim n).2 = true) :
    left lim (nInc lim n).1 + 1 = left lim n :=
  left_miss hl (show (nInc lim n).2 = false by simpa using h)

/-- The event "N3105 reached" gives the TBF up where it can be given up. -/
theorem dl_max {env : Env} {s s' : Dl} (h : DlLink s) {n : Nat}
    (hs : dlDispatch env { s with n3105 := n } .maxN3105 = some s') :
    (s'.st = .releasing ∧ s'.tmr = some .t3195 ∧ s'.freed = false ∧
      (Busy s ∨ s.st = .waitRelease)) ∨
    (s' = { s with n3105 := n } ∧ ¬ Busy s) := by
  unfold dlDispatch at hs
  have hu := h.used
  cases hst : s.st with
  | new => exact absurd hst hu
  | assign =>
    rw [if_pos (by show dlIn s.st .maxN3105 = true; rw [hst]; rfl)] at hs
    simp only [dlAction, hst, Option.bind_eq_some_iff] at hs
    obtain ⟨u, _, hs⟩ := hs
    simp only [dlChg, dlOut] at hs
    cases hs
    exact .inl ⟨rfl, rfl, h.live, .inl (.inl hst)⟩
  | flow =>
    rw [if_pos (by show dlIn s.st .maxN3105 = true; rw [hst]; rfl)] at hs
    simp only [dlAction, hst, dlChg, dlOut] at hs
    cases hs
    exact .inl ⟨rfl, rfl, h.live, .inl (.inr (.inl hst))⟩
  | finished =>
    rw [if_pos (by show dlIn s.st .maxN3105 = true; rw [hst]; rfl)] at hs
    simp only [dlAction, hst, dlChg, dlOut] at hs
    cases hs
    exact .inl ⟨rfl, rfl, h.live, .inl (.inr (.inr hst))⟩
  | waitRelease =>
    rw [if_pos (by show dlIn s.st .maxN3105 = true; rw [hst]; rfl)] at hs
    simp only [dlAction, hst, dlChg, dlOut] at hs
    cases hs
    exact .inl ⟨rfl, rfl, h.live, .inr rfl⟩
  | waitReuse =>
    rw [if_neg (by show ¬ dlIn s.st .maxN3105 = true; rw [hst]; decide)] at hs
    cases hs
    exact .inr ⟨by rw [← hst], by unfold Busy; rw [hst]; rintro (x | x | x) <;> cases x⟩
  | releasing =>
    rw [if_neg (by show ¬ dlIn s.st .maxN3105 = true; rw [hst]; decide)] at hs
    cases hs
    exact .inr ⟨by rw [← hst], by unfold Busy; rw [hst]; rintro (x | x | x) <;> cases x⟩

theorem turn_not_busy {s : Dl} {r : Poll} (h : ¬ Busy s) : dlTurnOp s (.pollTimeout r) = false := by
  unfold Busy at h
  have h1 : s.st ≠ .assign := fun x => h (.inl x)
  have h2 : s.st ≠ .flow := fun x => h (.inr (.inl x))
  have h3 : s.st ≠ .finished := fun x => h (.inr (.inr x))
  simp [dlTurnOp, h1, h2, h3]

/-- A poll that is awaited is not answered: the limit is reached. -/
theorem ddown_hit (c : Cfg) {s s' : Dl} {env : Env} {r : Poll} (h : DlLink s) (hi : DlInv s')
    (hs : dlDispatch env { s with n3105 := (nInc c.n3105 s.n3105).1 } .maxN3105 = some s') :
    DDown c s s' (.pollTimeout r) := by
  rcases dl_max h hs with ⟨a, b, d, e⟩ | ⟨rfl, hb⟩
  · refine ddown_rel c s s' _ hi a b d ?_
    rcases e with e | e
    · exact .inl e
    · refine .inr ⟨e, turn_not_busy ?_⟩
      unfold Busy; rw [e]; rintro (x | x | x) <;> cases x
  · -- not in a state in which it counts
    have hnb : ∀ x, s.st = x → x = .waitRelease ∨ x = .waitReuse ∨ x = .releasing := by
      intro x hx
      have hu := h.used
      unfold Busy at hb
      rw [hx] at hb hu
      cases x <;> simp at hb hu ⊢
    refine .inr ⟨⟨hi, h.live, h.used, h.pend, h.one, h.cnf, h.newer⟩, fun _ => ?_, fun a => ?_⟩
    · rw [turn_not_busy hb]
      rcases hnb _ rfl with x | x | x <;> simp [dlTurnsLeft, x]
    · exact absurd (.inl a) hb

/-- One operation on a downlink TBF. -/
theorem dlStep_down (c : Cfg) (hl : c.n3105 < 256) (s s' : Dl)
    (op : DlOp) (env : Env) (h : DlLink s) (hm : dlMay s op = true)
    (hs : dlStep c.n3105 s op env = some s') : DDown c s s' op := by
  have hok : DlOk op := by
    constructor
    · rintro rfl; simp [dlMay] at hm
    · rintro a rfl; simp [dlMay] at hm
  obtain ⟨s1, a, hi, _⟩ := dlStep_ok c.n3105 s op env h.inv hok
  rw [a] at hs; cases hs
  unfold dlStep at a
  rw [if_neg (by rw [h.live]; decide)] at a
  have hinv := (h.inv.resolve_left (by rw [h.live]; decide))
  cases op with
  | free => cases a; exact .inl rfl
  | abortDl => exact absurd hm (by simp [dlMay])
  | uaTimer =>
    simp only [Option.map_eq_some_iff] at a
    obtain ⟨f, _, a⟩ := a
    subst a
    exact ddown_same c s _ _ h hi rfl rfl rfl (.inl rfl) rfl rfl rfl nofun
  | createUl m =>
    simp only [Option.map_eq_some_iff] at a
    obtain ⟨f, _, a⟩ := a
    subst a
    exact ddown_same c s _ _ h hi rfl rfl rfl (.inl rfl) rfl rfl rfl nofun
  | schedUl =>
    simp only [Option.map_eq_some_iff] at a
    obtain ⟨f, _, a⟩ := a
    subst a
    exact ddown_same c s _ _ h hi rfl rfl rfl (.inl rfl) rfl rfl rfl nofun
  | schedRej =>
    simp only [Option.map_eq_some_iff] at a
    obtain ⟨f, _, a⟩ := a
    subst a
    exact ddown_same c s _ _ h hi rfl rfl rfl (.inl rfl) rfl rfl rfl nofun
  | schedDl =>
    simp only at a
    split at a
    · next hc =>
      simp only [Option.map_eq_some_iff] at a
      obtain ⟨f, _, a⟩ := a
      subst a
      have hnb : ¬ Busy s := by unfold Busy; rw [hc.1]; rintro (x | x | x) <;> cases x
      refine .inr ⟨⟨hi, h.live, h.used, ?_, fun x => absurd x hnb, h.cnf, fun _ => hnb⟩,
        fun _ => ?_, fun x => ?_⟩
      · intro x; rw [show s.st = .assign from x] at hc; cases hc.1
      · simp [dlTurnsLeft, hc.1, dlTurnOp]
      · exact absurd (.inl x) hnb
    · cases a
      exact ddown_same c _ _ _ h hi rfl rfl rfl (.inl rfl) rfl rfl rfl nofun
  | dlAck f =>
    simp only [dlRcvdAck] at a
    cases f with
    | false =>
      simp at a; subst a
      exact ddown_same c s _ _ h hi rfl rfl rfl (.inr rfl) rfl rfl rfl nofun
    | true =>
      rw [if_pos rfl] at a
      unfold dlDispatch at a
      by_cases hin : dlIn s.st .finalAckRecvd = true
      · rw [if_pos hin] at a
        by_cases hst : s.st = .finished
        · simp only [dlAction, hst, dlChg, dlOut, dlEnter] at a
          have key : s'.st = .waitRelease ∧ s'.tmr = some .t3192 ∧ s'.freed = false := by
            cases hmo : env.more <;> simp [hmo] at a
            · subst a; exact ⟨rfl, rfl, h.live⟩
            · obtain ⟨_, _, a⟩ := a; subst a; exact ⟨rfl, rfl, h.live⟩
          obtain ⟨k1, k2, k3⟩ := key
          have hnb : ¬ Busy s' := by unfold Busy; rw [k1]; rintro (x | x | x) <;> cases x
          exact .inr ⟨⟨hi, k3, by rw [k1]; nofun, by rw [k1]; nofun, fun x => absurd x hnb,
            by rw [k2]; nofun, fun _ => hnb⟩, nofun, by rw [k1]; nofun⟩
        · have : s' = { s with firstAck := true, n3105 := 0 } := by
            cases hs : s.st <;> rw [hs] at hin <;> simp [dlIn] at hin <;>
              first
              | (exact absurd hs hst)
              | (simp [dlAction, hs] at a; exact a.symm)
          subst this
          exact ddown_same c s _ _ h hi rfl rfl rfl (.inr rfl) rfl rfl rfl nofun
      · rw [if_neg hin] at a
        cases a
        exact ddown_same c s _ _ h hi rfl rfl rfl (.inr rfl) rfl rfl rfl nofun
  | createDl m =>
    simp only [Option.map_eq_some_iff] at a
    obtain ⟨d, hd, a⟩ := a
    subst a
    by_cases hb : s.st = .assign
    · have hsup : s.sup = false := by
        cases hx : s.sup with
        | false => rfl
        | true => exact absurd (.inl hb) (h.newer hx)
      by_cases hsend : s.dlAss = .send ∧ m = .msg
      · obtain ⟨h1, rfl⟩ := hsend
        rw [h1] at hd
        simp [DlAss.dispatch, DlAss.inMask, DlAss.action, DlAss.chg, DlAss.outMask] at hd
        subst hd
        refine .inr ⟨⟨hi, h.live, h.used, fun _ _ => .inr (by nofun), fun x _ => ?_, h.cnf, h.newer⟩,
          fun _ => ?_, fun _ _ => .inr rfl⟩
        · exact h.one x (by rw [h1]; nofun)
        · by_cases ht : s.tmr = none
          · have : dlTurnOp s (.createDl .msg) = true := by simp [dlTurnOp, hb, h1, ht]
            rw [this]
            simp only [dlTurnsLeft, hb, ht, h1]; simp
          · have : dlTurnOp s (.createDl .msg) = false := by
              cases hx : s.tmr
              · exact absurd hx ht
              · simp [dlTurnOp, hx]
            rw [this]
            simp only [dlTurnsLeft, hb, h1]
            cases hx : s.tmr
            · exact absurd hx ht
            · simp
      · have : d = s.dlAss := by
          cases hx : s.dlAss <;> rw [hx] at hd hsend <;> cases m <;>
            simp [DlAss.dispatch, DlAss.inMask, DlAss.action, DlAss.chg, DlAss.outMask, dlMay,
              hsup] at hd hsend hm <;> exact hd.symm
        subst this
        refine ddown_same c s _ _ h hi rfl rfl rfl (.inl rfl) rfl rfl ?_ nofun
        cases m <;> simp [dlTurnOp]
        intro _ x; exact absurd ⟨x, rfl⟩ hsend
    · have hone : Busy s → d ≠ .idle → s.ccch = false := by
        intro x y
        have : s.dlAss ≠ .idle := by
          intro z
          rw [z] at hd
          simp [DlAss.dispatch, DlAss.inMask] at hd
          exact y hd.symm
        exact h.one x this
      refine .inr ⟨⟨hi, h.live, h.used, fun x => absurd x hb, hone, h.cnf, h.newer⟩, fun _ => ?_,
        fun x => absurd x hb⟩
      have : dlTurnOp s (.createDl m) = false := by simp [dlTurnOp, hb]
      rw [this]
      have hu := h.used
      simp only [dlTurnsLeft]
      cases hs : s.st <;> simp <;> exact absurd hs hb
  | ev e =>
    simp only [dlMay, Bool.or_eq_true, beq_iff_eq] at hm
    change dlDispatch env s e = some s' at a
    unfold dlDispatch at a
    rcases hm with (rfl | rfl) | rfl
    · -- confirmed through another TBF
      by_cases hb : s.st = .assign
      · rw [if_pos (by rw [hb]; rfl)] at a
        simp only [dlAction, hb, dlChg] at a
        have hk : s'.st = .flow ∧ s'.tmr = none ∧ s'.freed = false ∧ s'.dlAss = s.dlAss ∧
            s'.sup = s.sup ∧ s'.n3105 = s.n3105 ∧ s'.ccch = false := by
          cases hcc : s.ccch <;> simp [hcc, dlOut, hb, dlEnter, dlTimeout] at a <;> subst a <;>
            simp [h.live, hcc]
        obtain ⟨k1, k2, k3, k4, k5, k6, k7⟩ := hk
        refine .inr ⟨⟨hi, k3, by rw [k1]; nofun, by rw [k1]; nofun, fun _ _ => k7,
          by rw [k2]; nofun, ?_⟩, fun _ => ?_, by rw [k1]; nofun⟩
        · rw [k5]; intro x; exact absurd (.inl hb) (h.newer x)
        · have : dlTurnOp s (.ev .ackPacch) = false := by simp [dlTurnOp]
          rw [this]
          have hp := left_pos c.n3105 s.n3105
          simp only [dlTurnsLeft, k1, hb, k6, k7]
          simp
          split
          · split <;> omega
          · omega
      · have : dlIn s.st .ackPacch = false := by
          cases hs : s.st <;> first | rfl | (exact absurd hs hb)
        rw [if_neg (by rw [this]; decide)] at a
        cases a
        exact ddown_same c _ _ _ h hi rfl rfl rfl (.inl rfl) rfl rfl (by simp [dlTurnOp]) nofun
    · -- the BTS has sent the immediate assignment
      by_cases hb : s.st = .assign
      · rw [if_pos (by rw [hb]; rfl)] at a
        simp only [dlAction, hb] at a
        by_cases hcc : s.ccch = true
        · rw [if_pos hcc] at a
          cases a
          have hid : s.dlAss = .idle := by
            cases hx : s.dlAss with
            | idle => rfl
            | send => have := h.one (.inl hb) (by rw [hx]; nofun); rw [hcc] at this; cases this
            | wait => have := h.one (.inl hb) (by rw [hx]; nofun); rw [hcc] at this; cases this
          refine .inr ⟨⟨hi, h.live, nofun, fun _ x => (by cases x), fun _ => h.one (.inl hb),
            fun _ => hcc, fun x => absurd (.inl hb) (h.newer x)⟩, fun _ => ?_, fun x y => ?_⟩
          · by_cases ht : s.tmr = none
            · have : dlTurnOp s (.ev .pcuifCnf) = true := by simp [dlTurnOp, hb, hcc, ht]
              rw [this]
              simp only [dlTurnsLeft, hb, ht, hid]; simp
            · have : dlTurnOp s (.ev .pcuifCnf) = false := by
                cases hx : s.tmr
                · exact absurd hx ht
                · simp [dlTurnOp, hx]
              rw [this]
              simp only [dlTurnsLeft, hb]
              cases hx : s.tmr
              · exact absurd hx ht
              · simp
          · have y : s.dlAss = .wait := y
            rw [hid] at y; cases y
        · rw [if_neg hcc] at a
          cases a
          refine ddown_same c _ _ _ h hi rfl rfl rfl (.inl rfl) rfl rfl ?_ nofun
          simp [dlTurnOp, hcc]
      · have : s' = s := by
          split at a
          · next hin =>
            have : s.st = .flow := by
              cases hs : s.st <;> rw [hs] at hin <;> simp [dlIn] at hin <;>
                first | rfl | (exact absurd hs hb)
            simp [dlAction, this] at a
            exact a.symm
          · cases a; rfl
        subst this
        exact ddown_same c _ _ _ h hi rfl rfl rfl (.inl rfl) rfl rfl (by simp [dlTurnOp, hb]) nofun
    · -- the last block was sent
      by_cases hb : s.st = .flow
      · rw [if_pos (by rw [hb]; rfl)] at a
        simp only [dlAction, hb, dlChg, dlOut, dlEnter, dlTimeout] at a
        cases a
        refine .inr ⟨⟨hi, h.live, nofun, nofun, fun _ => h.one (.inr (.inl hb)), nofun, ?_⟩,
          fun _ => ?_, nofun⟩
        · intro x; exact absurd (.inr (.inl hb)) (h.newer x)
        · have : dlTurnOp s (.ev .lastDlSent) = false := by simp [dlTurnOp]
          rw [this]
          have hp := left_pos c.n3105 s.n3105
          simp only [dlTurnsLeft, hb]; simp
          split <;> omega
      · have : dlIn s.st .lastDlSent = false := by
          cases hs : s.st <;> first | rfl | (exact absurd hs hb)
        rw [if_neg (by rw [this]; decide)] at a
        cases a
        exact ddown_same c _ _ _ h hi rfl rfl rfl (.inl rfl) rfl rfl (by simp [dlTurnOp]) nofun
  | timer =>
    simp only [dlTimer] at a
    cases ht : s.tmr with
    | none =>
      rw [ht] at a; cases a
      exact ddown_same c _ _ _ h hi rfl rfl rfl (.inl rfl) rfl rfl (by simp [dlTurnOp, ht]) nofun
    | some t =>
      rw [ht] at a
      have hk := hinv.1
      rw [ht] at hk
      have htt : dlTurnOp s .timer = true := by simp [dlTurnOp, ht]
      cases t <;> simp only at a <;> (try (cases a; done)) <;> (try (cases a; exact .inl rfl))
      · -- x2002
        have hb : s.st = .assign := by
          cases hst : s.st <;> rw [hst] at hk <;> first | rfl | (exact absurd hk (by decide))
        have hcc := h.cnf ht
        have hid : s.dlAss = .idle := by
          cases hx : s.dlAss with
          | idle => rfl
          | send => have := h.one (.inl hb) (by rw [hx]; nofun); rw [hcc] at this; cases this
          | wait => have := h.one (.inl hb) (by rw [hx]; nofun); rw [hcc] at this; cases this
        have hns : s.sup ≠ true := fun x => h.newer x (.inl hb)
        unfold dlX2002 at a
        rw [if_neg (by simp [hb])] at a
        by_cases hup : s.upg = true
        · rw [if_neg (by simp [hup])] at a
          by_cases huo : env.upgOk = true
          · rw [if_pos huo] at a
            simp [hid, DlAss.dispatch, DlAss.inMask, DlAss.action, DlAss.chg, DlAss.outMask,
              dlDispatch, dlIn, hb, dlAction] at a
            subst a
            refine .inr ⟨⟨hi, h.live, nofun, fun _ _ => .inr nofun, fun _ _ => rfl, nofun,
              fun x => absurd x hns⟩, fun _ => ?_, nofun⟩
            rw [htt]
            have hp := left_pos c.n3105 s.n3105
            simp only [dlTurnsLeft, hb, ht]; simp
            omega
          · rw [if_neg huo] at a
            cases a; exact .inl rfl
        · rw [if_pos (by simpa using hup)] at a
          unfold dlDispatch at a
          rw [if_pos (by show dlIn s.st .readyCcch = true; rw [hb]; rfl)] at a
          simp only [dlAction, hb, dlChg, dlOut, dlEnter, dlTimeout] at a
          cases a
          refine .inr ⟨⟨hi, h.live, nofun, nofun, fun _ => h.one (.inl hb), nofun,
              fun x => absurd x hns⟩, fun _ => ?_, nofun⟩
          rw [htt]
          have hp := left_pos c.n3105 s.n3105
          simp only [dlTurnsLeft, hb, ht]; simp
          split <;> omega
      · -- t3192
        have hb : s.st = .waitRelease := by
          cases hst : s.st <;> rw [hst] at hk <;> first | rfl | (exact absurd hk (by decide))
        simp only [dlChg, hb, dlOut, dlEnter] at a
        cases a
        have hnb : ¬ Busy { s with st := .waitReuse, tmr := some .t3193 } := by
          unfold Busy; rintro (x | x | x) <;> cases x
        refine .inr ⟨⟨hi, h.live, nofun, nofun, fun x => absurd x hnb, nofun, fun _ => hnb⟩,
          fun _ => ?_, nofun⟩
        rw [htt]
        simp only [dlTurnsLeft, hb]; simp
  | pollTimeout r =>
    simp only [dlPollTimeout] at a
    cases r with
    | ulAck => exact absurd hm (by simp [dlMay])
    | ulAss =>
      simp only at a
      by_cases hw : s.ulAss.st = .wait
      · rw [if_neg (by simp [hw])] at a
        by_cases hh : (nInc c.n3105 s.n3105).2 = true
        · rw [if_pos hh] at a
          exact ddown_hit c h hi a
        · rw [if_neg hh] at a
          simp only [Option.map_eq_some_iff] at a
          obtain ⟨u, _, a⟩ := a
          subst a
          refine ddown_miss c s _ _ h hi h.live (nInc_miss hl hh) (.inl rfl) (fun _ => rfl) id
            (.inl rfl) nofun rfl rfl ?_
          by_cases hb : Busy s
          · exact .inl hb
          · exact .inr (turn_not_busy hb)
      · rw [if_pos hw] at a
        cases a
        exact ddown_same c _ _ _ h hi rfl rfl rfl (.inl rfl) rfl rfl (by simp [dlTurnOp, hw]) nofun
    | dlAss =>
      simp only at a
      by_cases hw : s.dlAss = .wait
      · rw [if_neg (by simp [hw])] at a
        by_cases hh : (nInc c.n3105 s.n3105).2 = true
        · rw [if_pos hh] at a
          exact ddown_hit c h hi a
        · rw [if_neg hh, hw] at a
          simp [DlAss.dispatch, DlAss.inMask, DlAss.action, DlAss.chg, DlAss.outMask] at a
          subst a
          refine ddown_miss c s _ _ h hi h.live (nInc_miss hl hh) (.inl rfl) (fun _ => rfl) id
            (.inr ⟨hw, rfl⟩) (fun _ => nofun) rfl rfl ?_
          by_cases hb : Busy s
          · exact .inl hb
          · exact .inr (turn_not_busy hb)
      · rw [if_pos hw] at a
        cases a
        exact ddown_same c _ _ _ h hi rfl rfl rfl (.inl rfl) rfl rfl (by simp [dlTurnOp, hw])
          (fun _ => hw)
    | dlAck =>
      simp only at a
      by_cases hh : (nInc c.n3105 s.n3105).2 = true
      · rw [if_pos hh] at a
        exact ddown_hit c h hi a
      · rw [if_neg hh] at a
        have ht : Busy s ∨ dlTurnOp s (.pollTimeout .dlAck) = false := by
          by_cases hb : Busy s
          · exact .inl hb
          · exact .inr (turn_not_busy hb)
        have plain : s' = { s with n3105 := (nInc c.n3105 s.n3105).1 } →
            DDown c s s' (.pollTimeout .dlAck) := by
          rintro rfl
          exact ddown_miss c s _ _ h hi h.live (nInc_miss hl hh) (.inl rfl) (fun _ => rfl) id
            (.inl rfl) nofun rfl rfl ht
        unfold dlDispatch at a
        by_cases hb : s.st = .flow
        · rw [if_pos (by show dlIn s.st .dlAcknackMiss = true; rw [hb]; rfl)] at a
          simp only [dlAction, hb] at a
          by_cases hc : (s.ccch && !s.firstAck) = true
          · rw [if_pos hc] at a
            have hcc : s.ccch = true := by
              cases hx : s.ccch <;> rw [hx] at hc <;> simp at hc ⊢
            simp only [dlChg, dlOut, dlEnter, hcc] at a
            have key : s'.st = .assign ∧ s'.tmr ≠ some .x2002 ∧ s'.freed = false ∧
                s'.dlAss = s.dlAss ∧ s'.sup = s.sup ∧ s'.ccch = s.ccch ∧
                s'.n3105 = (nInc c.n3105 s.n3105).1 := by
              cases hx : s.pacch <;> simp [hx, dlTimeout] at a <;> subst a <;> simp [h.live, hcc]
            obtain ⟨k1, k2, k3, k4, k5, k6, k7⟩ := key
            exact ddown_miss c s _ _ h hi k3 (by rw [k7]; exact nInc_miss hl hh)
              (.inr ⟨hb, k1, hcc⟩) (by rw [k1, hb]; nofun) (fun x => absurd x k2)
              (.inl k4) nofun k6 k5 ht
          · rw [if_neg hc] at a
            exact plain (by cases a; rw [← hb])
        · split at a
          · have : s' = { s with n3105 := (nInc c.n3105 s.n3105).1 } := by
              next hin =>
              have hin : dlIn s.st .dlAcknackMiss = true := hin
              cases hs : s.st <;> rw [hs] at hin <;> simp [dlIn] at hin <;>
                first
                | (exact absurd hs hb)
                | (simp [dlAction, hs] at a; exact a.symm)
            exact plain this
          · cases a; exact plain rfl
  | ctrlAck r alive =>
    simp only [dlCtrlAck] at a
    cases r with
    | ulAck => exact absurd hm (by simp [dlMay])
    | dlAck => exact absurd hm (by simp [dlMay])
    | ulAss =>
      simp only at a
      split at a
      · cases a
        exact ddown_same c _ _ _ h hi rfl rfl rfl (.inl rfl) rfl rfl rfl nofun
      · simp only [Option.map_eq_some_iff] at a
        obtain ⟨u, _, a⟩ := a
        subst a
        exact ddown_same c s _ _ h hi rfl rfl rfl (.inr rfl) rfl rfl rfl nofun
    | dlAss =>
      simp only at a
      by_cases hw : s.dlAss = .wait
      · rw [if_neg (by simp [hw]), hw] at a
        simp [DlAss.dispatch, DlAss.inMask, DlAss.action, DlAss.chg, DlAss.outMask] at a
        have idle : s' = { s with n3105 := 0, dlAss := .idle } → s.st ≠ .assign →
            DDown c s s' (.ctrlAck .dlAss alive) := by
          rintro rfl hna
          exact .inr ⟨⟨hi, h.live, h.used, fun x => absurd x hna, fun _ x => absurd rfl x, h.cnf,
            h.newer⟩, nofun, nofun⟩
        have hsa : s.sup = true → s.st ≠ .assign := fun x y => h.newer x (.inl y)
        split at a
        · next hc => exact idle (by cases a; rfl) (hsa hc.1)
        · split at a
          · cases a; exact .inl rfl
          · split at a
            · next hc => exact idle (by cases a; rfl) (hsa hc)
            · unfold dlDispatch at a
              by_cases hb : s.st = .assign
              · rw [if_pos (by show dlIn s.st .ackPacch = true; rw [hb]; rfl)] at a
                have hcc := h.one (.inl hb) (by rw [hw]; nofun)
                simp [dlAction, hb, hcc, dlChg, dlOut, dlEnter, dlTimeout] at a
                subst a
                have hns : s.sup ≠ true := fun x => h.newer x (.inl hb)
                exact .inr ⟨⟨hi, h.live, nofun, nofun, fun _ x => absurd rfl x, nofun,
                  fun x => absurd x hns⟩, nofun, nofun⟩
              · have : dlIn s.st .ackPacch = false := by
                  cases hs : s.st <;> first | rfl | (exact absurd hs hb)
                rw [if_neg (by show ¬ dlIn s.st .ackPacch = true; rw [this]; decide)] at a
                exact idle (by cases a; rfl) hb
      · rw [if_pos hw] at a
        cases a
        exact ddown_same c _ _ _ h hi rfl rfl rfl (.inl rfl) rfl rfl rfl (fun _ => hw)

end Verif.Live
