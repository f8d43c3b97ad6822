import Verif.Lemmas.TbfUl
import Verif.Spec.Supervision

/-! Supervision counters of the TBF state machines. -/

namespace Verif.Tbf
open Verif.TbfSpec

/-- The value of a counter after an outcome. -/
def bump (n : Nat) : Option Outcome → Nat
  | none => n
  | some .fail => (n + 1) % 256
  | some .ok => 0

theorem nInc_fst (lim c : Nat) : (nInc lim c).1 = (c + 1) % 256 := rfl
theorem nInc_snd (lim c : Nat) : (nInc lim c).2 = ((c + 1) % 256 == lim) := rfl

theorem dlDispatch_n (env : Env) (s s' : Dl) (e : Ev) (h : dlTmrOk s.st s.tmr = true)
    (hu : s.ulAss.tmr = none ∨ s.ulAss.tmr = some .t3168) (hs : dlDispatch env s e = some s') :
    s'.n3105 = s.n3105 := by
  obtain ⟨s1, a, _, _, _, _, b, _⟩ := dlDispatch_ok env s e h hu
  rw [a] at hs; cases hs; exact b

theorem dlDispatch_n' {env : Env} {s s' : Dl} {e : Ev} (hs : dlDispatch env s e = some s')
    (h : dlTmrOk s.st s.tmr = true)
    (hu : s.ulAss.tmr = none ∨ s.ulAss.tmr = some .t3168) : s'.n3105 = s.n3105 :=
  dlDispatch_n env s s' e h hu hs

theorem dlStep_count (lim : Nat) (s s' : Dl) (op : DlOp) (env : Env) (hi : DlInv s)
    (hs : dlStep lim s op env = some s') :
    s'.n3105 = bump s.n3105 (outcome3105 s op) := by
  unfold dlStep at hs
  unfold outcome3105
  by_cases hf : s.freed = true
  · rw [if_pos hf] at hs ⊢; cases hs; rfl
  rw [if_neg hf] at hs ⊢
  obtain ⟨ht, hu⟩ := hi.resolve_left hf
  cases op with
  | ev e => exact dlDispatch_n env s s' e ht hu hs
  | timer =>
    simp only [dlTimer] at hs
    cases htm : s.tmr with
    | none => rw [htm] at hs; cases hs; rfl
    | some t =>
      rw [htm] at ht hs
      cases hst : s.st <;> rw [hst] at ht <;> cases t <;> simp [dlTmrOk] at ht
      case assign.x2001 => cases hs; rfl
      case waitReuse.t3193 => cases hs; rfl
      case releasing.t3195 => cases hs; rfl
      case waitRelease.t3192 =>
        obtain ⟨st, ccch, pacch, tmr, fa, upg, da, ua, n, im, sup, fr, uf⟩ := s
        simp only at hst
        subst hst
        cases (show some _ = some s' from hs)
        rfl
      case assign.x2002 =>
        simp only [dlX2002, hst, ne_eq, not_true_eq_false, if_false] at hs
        split at hs
        · exact dlDispatch_n env { s with st := .assign, tmr := none } s' .readyCcch rfl hu hs
        · split at hs
          · obtain ⟨d, _, hs⟩ := Option.bind_eq_some_iff.1 hs
            have hn := dlDispatch_n' hs rfl hu; exact hn
          · cases hs; rfl
  | uaTimer => obtain ⟨f, _, hs⟩ := Option.map_eq_some_iff.1 hs; cases hs; rfl
  | dlAck f =>
    simp only [dlRcvdAck] at hs
    split at hs
    · have hn := dlDispatch_n' hs ht hu; exact hn
    · cases hs; rfl
  | pollTimeout r =>
    cases r with
    | ulAck => cases hs
    | ulAss =>
      show s'.n3105 = bump s.n3105 (if s.ulAss.st = .wait then some .fail else none)
      simp only [dlPollTimeout] at hs
      split at hs
      · rename_i h; cases hs; rw [if_neg h]; rfl
      rename_i h
      rw [if_pos (Decidable.byContradiction h)]
      split at hs
      · have hn := dlDispatch_n' hs ht hu; exact hn
      · obtain ⟨u, _, hs⟩ := Option.map_eq_some_iff.1 hs; cases hs; rfl
    | dlAss =>
      show s'.n3105 = bump s.n3105 (if s.dlAss = .wait then some .fail else none)
      simp only [dlPollTimeout] at hs
      split at hs
      · rename_i h; cases hs; rw [if_neg h]; rfl
      rename_i h
      rw [if_pos (Decidable.byContradiction h)]
      split at hs
      · have hn := dlDispatch_n' hs ht hu; exact hn
      · obtain ⟨u, _, hs⟩ := Option.map_eq_some_iff.1 hs; cases hs; rfl
    | dlAck =>
      simp only [dlPollTimeout] at hs
      split at hs
      · have hn := dlDispatch_n' hs ht hu; exact hn
      · have hn := dlDispatch_n' hs ht hu; exact hn
  | ctrlAck r al =>
    cases r with
    | ulAck => cases hs
    | dlAck => cases hs; rfl
    | ulAss =>
      show s'.n3105 = bump s.n3105 (if s.ulAss.st = .wait then some .ok else none)
      simp only [dlCtrlAck] at hs
      split at hs
      · rename_i h; cases hs; rw [if_neg h]; rfl
      rename_i h
      rw [if_pos (Decidable.byContradiction h)]
      obtain ⟨u, _, hs⟩ := Option.map_eq_some_iff.1 hs; cases hs; rfl
    | dlAss =>
      show s'.n3105 = bump s.n3105 (if s.dlAss = .wait then some .ok else none)
      simp only [dlCtrlAck] at hs
      split at hs
      · rename_i h; cases hs; rw [if_neg h]; rfl
      rename_i h
      rw [if_pos (Decidable.byContradiction h)]
      obtain ⟨d, _, hs⟩ := Option.bind_eq_some_iff.1 hs
      split at hs
      · cases hs; rfl
      split at hs
      · cases hs; rfl
      split at hs
      · cases hs; rfl
      · have hn := dlDispatch_n' hs ht hu; exact hn
  | createDl m => obtain ⟨d, _, hs⟩ := Option.map_eq_some_iff.1 hs; cases hs; rfl
  | createUl m => obtain ⟨d, _, hs⟩ := Option.map_eq_some_iff.1 hs; cases hs; rfl
  | schedDl =>
    simp only at hs
    split at hs
    · obtain ⟨d, _, hs⟩ := Option.map_eq_some_iff.1 hs; cases hs; rfl
    · cases hs; rfl
  | schedUl => obtain ⟨d, _, hs⟩ := Option.map_eq_some_iff.1 hs; cases hs; rfl
  | schedRej => obtain ⟨d, _, hs⟩ := Option.map_eq_some_iff.1 hs; cases hs; rfl
  | abortDl => obtain ⟨d, _, hs⟩ := Option.map_eq_some_iff.1 hs; cases hs; rfl
  | free => cases hs; rfl

theorem DlMove.to_releasing {c a : Bool} {x y : St} {op : DlOp} (h : DlMove c a x op y)
    (hy : y = .releasing) : IsGiveUp op := by
  cases h <;> first | assumption | cases hy

/-- A downlink TBF in use is given up by an operation exactly when that operation is a
failure that reaches the limit. -/
theorem dlStep_giveUp (lim : Nat) (s s' : Dl) (op : DlOp) (env : Env) (hi : DlInv s)
    (ho : DlOk op) (hm : op ≠ .ev .maxN3105) (hf : s.freed = false) (ha : DlActive s.st)
    (hs : dlStep lim s op env = some s') :
    s'.st = .releasing ↔ outcome3105 s op = some .fail ∧ (s.n3105 + 1) % 256 = lim := by
  have hd : ∀ (s1 : Dl), dlDispatch env s1 .maxN3105 = some s' → s1.st = s.st →
      s1.tmr = s.tmr → s1.ulAss = s.ulAss → s'.st = .releasing := by
    intro s1 h4 h1 h2 h3
    obtain ⟨st, ccch, pacch, tmr, fa, upg, da, ua, n, im, sup, fr, uf⟩ := s1
    simp only at h1
    subst h1
    rcases ha with ha | ha | ha | ha <;> rw [ha] at h4
    · obtain ⟨u, _, h4⟩ := Option.bind_eq_some_iff.1 (show Option.bind _ _ = some s' from h4)
      cases (show some _ = some s' from h4); rfl
    all_goals cases (show some _ = some s' from h4); rfl
  have hne : s.st ≠ .releasing := by
    intro h; rw [h] at ha; exact absurd ha (by decide)
  have hu : s.ulAss.tmr = none ∨ s.ulAss.tmr = some .t3168 := (hi.resolve_left (by simp [hf])).2
  have ht := (hi.resolve_left (by simp [hf])).1
  constructor
  · intro hr
    obtain ⟨s1, a, _, b⟩ := dlStep_ok lim s op env hi ho
    rw [a] at hs; cases hs
    rw [hr] at b
    rcases b with b | b
    · exact absurd b.symm hne
    have hg : IsGiveUp op := DlMove.to_releasing b rfl
    rcases hg with hg | ⟨r, hg, hr'⟩
    · exact absurd hg hm
    subst hg
    unfold dlStep at a
    rw [if_neg (by simp [hf])] at a
    unfold outcome3105
    rw [if_neg (by simp [hf])]
    cases r with
    | ulAck => exact absurd rfl hr'
    | ulAss =>
      simp only [dlPollTimeout] at a ⊢
      split at a
      · cases a; exact absurd hr hne
      rename_i hw
      rw [if_pos (Decidable.byContradiction hw)]
      split at a
      · rename_i hh; exact ⟨rfl, by simpa [nInc] using hh⟩
      · obtain ⟨u, _, a⟩ := Option.map_eq_some_iff.1 a; cases a; exact absurd hr hne
    | dlAss =>
      simp only [dlPollTimeout] at a ⊢
      split at a
      · cases a; exact absurd hr hne
      rename_i hw
      rw [if_pos (Decidable.byContradiction hw)]
      split at a
      · rename_i hh; exact ⟨rfl, by simpa [nInc] using hh⟩
      · obtain ⟨u, _, a⟩ := Option.map_eq_some_iff.1 a; cases a; exact absurd hr hne
    | dlAck =>
      simp only [dlPollTimeout] at a ⊢
      split at a
      · rename_i hh; exact ⟨trivial, by simpa [nInc] using hh⟩
      · exfalso
        obtain ⟨s2, c, _, _, _, _, _, d⟩ := dlDispatch_ok env
          { s with n3105 := (nInc lim s.n3105).1 } .dlAcknackMiss ht hu
        rw [c] at a; cases a
        rcases d with d | d
        · exact hne (d.symm.trans hr)
        · rw [hr] at d
          rcases DlMove.to_releasing d rfl with h | ⟨_, h, _⟩ <;> cases h
  · rintro ⟨h1, h2⟩
    unfold dlStep at hs
    rw [if_neg (by simp [hf])] at hs
    unfold outcome3105 at h1
    rw [if_neg (by simp [hf])] at h1
    have hh : (nInc lim s.n3105).2 = true := by simp [nInc, h2]
    cases op with
    | pollTimeout r =>
      cases r with
      | ulAck => cases h1
      | ulAss =>
        simp only at h1
        split at h1
        · rename_i hw
          simp only [dlPollTimeout, hh, hw, ne_eq, not_true_eq_false, if_true, if_false] at hs
          exact hd _ hs rfl rfl rfl
        · cases h1
      | dlAss =>
        simp only at h1
        split at h1
        · rename_i hw
          simp only [dlPollTimeout, hh, hw, ne_eq, not_true_eq_false, if_true, if_false] at hs
          exact hd _ hs rfl rfl rfl
        · cases h1
      | dlAck =>
        simp only [dlPollTimeout, hh, if_true] at hs
        exact hd _ hs rfl rfl rfl
    | ctrlAck r a => cases r <;> simp only at h1 <;> first | cases h1 | (split at h1 <;> cases h1)
    | dlAck f => cases h1
    | ev e => cases h1
    | timer => cases h1
    | uaTimer => cases h1
    | createDl m => cases h1
    | createUl m => cases h1
    | schedDl => cases h1
    | schedUl => cases h1
    | schedRej => cases h1
    | abortDl => cases h1
    | free => cases h1

/-! ## Uplink TBF -/

/-- Once all data has arrived the final acknowledgement is due or awaited; a
confirmation is awaited only then. -/
def UlFin (s : Ul) : Prop :=
  s.freed = true ∨ ((s.st = .finished → s.ulAck ≠ .idle) ∧
    (s.ulAck = .wait → s.st = .finished ∨ s.st = .releasing))

structure UlFacts (s s' : Ul) (e : Ev) : Prop where
  ulAck : s'.ulAck = s.ulAck
  rx : s'.rx = s.rx
  n3101 : s'.n3101 = s.n3101
  n3103 : s'.n3103 = s.n3103
  fr : s.freed = true → s'.freed = true
  st : s'.st = s.st ∨ UlMove s.st (.ev e) s'.st

theorem ulDispatch_facts {env : Env} {s s' : Ul} {e : Ev} (hs : ulDispatch env s e = some s')
    (h : ulTmrOk s.st s.tmr = true) : UlFacts s s' e := by
  obtain ⟨s1, a, _, _, b, c, d, f, g, _, i⟩ := ulDispatch_ok env s e h
  rw [a] at hs; cases hs
  exact ⟨b, c, d, f, g, i⟩

theorem UlFacts.fin {s s' : Ul} {e : Ev} (h : UlFacts s s' e) (he : e ≠ .lastUlData)
    (hf : UlFin s) : UlFin s' := by
  rcases hf with hf | ⟨h1, h2⟩
  · exact .inl (h.fr hf)
  refine .inr ?_
  rw [h.ulAck]
  rcases h.st with h3 | h3
  · rw [h3]; exact ⟨h1, h2⟩
  · rcases UlMove.ev_cases h3 with ⟨a, b, _⟩ | ⟨a, b, _⟩ | ⟨_, _, c⟩ | ⟨a, b, _⟩ | ⟨a, b, _⟩
    · rw [a] at h2; rw [b]
      exact ⟨nofun, fun w => by rcases h2 w with x | x <;> cases x⟩
    · rw [a] at h2; rw [b]
      exact ⟨nofun, fun w => by rcases h2 w with x | x <;> cases x⟩
    · exact absurd c he
    · rw [b]; exact ⟨nofun, fun _ => .inr rfl⟩
    · rw [b]; exact ⟨nofun, fun _ => .inr rfl⟩

/-- A data block that is processed. -/
def ulTakes (s : Ul) (op : UlOp) : Nat :=
  match op with
  | .data .. => if s.freed = true ∨ s.st = .releasing then 0 else 1
  | _ => 0

/-- What one operation does to the counters and to the final acknowledgement. -/
structure UlStepFacts (s s' : Ul) (op : UlOp) : Prop where
  n3101 : s'.n3101 = bump s.n3101 (outcome3101 s op)
  n3103 : s'.n3103 = bump s.n3103 (outcome3103 s op)
  rx : s'.rx = s.rx + ulTakes s op
  fin : op ≠ .ev .lastUlData → UlFin s → UlFin s'

theorem ulAck_sched (a : UlAck) : ∃ b, a.dispatch .sched = some b ∧ b ≠ .idle ∧
    (b = .wait → a = .wait) := by cases a <;> decide

theorem ulStep_facts (lim : Lim) (s s' : Ul) (op : UlOp) (env : Env) (hi : UlInv s)
    (hs : ulStep lim s op env = some s') : UlStepFacts s s' op := by
  unfold ulStep at hs
  by_cases hf : s.freed = true
  · rw [if_pos hf] at hs; cases hs
    refine ⟨?_, ?_, ?_, fun _ h => h⟩
    · unfold outcome3101; rw [if_pos hf]; rfl
    · unfold outcome3103; rw [if_pos hf]; rfl
    · cases op <;> simp [ulTakes, hf]
  rw [if_neg hf] at hs
  have hff : s.freed = false := by simpa using hf
  obtain ⟨ht, hu⟩ := hi.resolve_left hf
  have o1 : outcome3101 s op = match (generalizing := false) op with
      | .usfTimeout => some .fail
      | .data .. => some .ok
      | _ => none := by unfold outcome3101; rw [if_neg hf]; rfl
  have o3 : outcome3103 s op = match (generalizing := false) op with
      | .pollTimeout .ulAck => if s.ulAck = .wait ∧ s.st = .finished then some .fail else none
      | .data _ c v _ => if s.st = .flow ∧ c = true ∧ v = true then some .ok else none
      | .pktResReq => some .ok
      | _ => none := by unfold outcome3103; rw [if_neg hf]; rfl
  -- an operation that only dispatches an event to the main FSM
  have disp : ∀ {s1 : Ul} {e : Ev}, ulDispatch env s1 e = some s' → s1.st = s.st →
      s1.tmr = s.tmr → UlFacts s1 s' e := by
    intro s1 e h1 h2 h3
    exact ulDispatch_facts h1 (by rw [h2, h3]; exact ht)
  cases op with
  | ev e =>
    have f := disp hs rfl rfl
    exact ⟨by rw [o1]; exact f.n3101, by rw [o3]; exact f.n3103, f.rx,
      fun h1 h2 => f.fin (fun h3 => h1 (by rw [h3])) h2⟩
  | timer =>
    simp only [ulTimer] at hs
    split at hs
    · cases hs; exact ⟨by rw [o1]; rfl, by rw [o3]; rfl, rfl, fun _ h => h⟩
    · rename_i htm
      have hst : s.st = .assign := by
        cases hst : s.st <;> rw [hst, htm] at ht <;> first | rfl | cases ht
      obtain ⟨st, ccch, pacch, tmr, cr, t3141, uk, ua, da, n1, n3, rx, fr⟩ := s
      simp only at hst
      subst hst
      cases (show some _ = some s' from hs)
      refine ⟨by rw [o1]; rfl, by rw [o3]; rfl, rfl, fun _ h => ?_⟩
      rcases h with h | ⟨_, h⟩
      · exact .inl h
      · exact .inr ⟨nofun, fun w => by rcases h w with x | x <;> cases x⟩
    · cases hs; exact ⟨by rw [o1]; rfl, by rw [o3]; rfl, rfl, fun _ _ => .inl rfl⟩
    · cases hs; exact ⟨by rw [o1]; rfl, by rw [o3]; rfl, rfl, fun _ _ => .inl rfl⟩
    · cases hs
  | uaTimer =>
    obtain ⟨f, _, hs⟩ := Option.map_eq_some_iff.1 hs; cases hs
    refine ⟨by rw [o1]; rfl, by rw [o3]; rfl, rfl, fun _ h => ?_⟩
    exact h.elim (fun h => absurd h hf) .inr
  | t3141 =>
    simp only at hs
    split at hs
    · cases hs; exact ⟨by rw [o1]; rfl, by rw [o3]; rfl, rfl, fun _ _ => .inl rfl⟩
    · cases hs; exact ⟨by rw [o1]; rfl, by rw [o3]; rfl, rfl, fun _ h => h⟩
  | usfTimeout =>
    simp only [ulUsfTimeout] at hs
    split at hs
    · have f := disp hs rfl rfl
      exact ⟨by rw [o1]; exact f.n3101, by rw [o3]; exact f.n3103, f.rx,
        fun h1 h2 => f.fin nofun h2⟩
    · cases hs; exact ⟨by rw [o1]; rfl, by rw [o3]; rfl, rfl, fun _ h => h⟩
  | data f c v r =>
    simp only [ulData] at hs
    by_cases hr : s.st = .releasing
    · rw [if_pos hr] at hs; cases hs
      refine ⟨by rw [o1]; rfl, ?_, ?_, fun _ h => h⟩
      · rw [o3]; simp [hr, bump]
      · simp [ulTakes, hr]
    rw [if_neg hr] at hs
    obtain ⟨s1, e1, hs⟩ := Option.bind_eq_some_iff.1 hs
    obtain ⟨s2, e2, hs⟩ := Option.bind_eq_some_iff.1 hs
    have a1 : s1.ulAck = s.ulAck ∧ s1.rx = s.rx + 1 ∧ s1.n3101 = 0 ∧ s1.n3103 = s.n3103 ∧
        s1.st = s.st ∧ ulTmrOk s1.st s1.tmr = true := by
      split at e1
      · obtain ⟨sx, b1, b2, _⟩ := ulDispatch_ok env { s with n3101 := 0, rx := s.rx + 1 } .firstUlData ht
        have b3 : s1.freed = false ∧ s1.tmr = s.tmr := by
          unfold ulDispatch at e1
          split at e1
          · rename_i hin
            have hst : s.st = .flow := by
              revert hin; show ulIn s.st _ = true → _
              cases s.st <;> decide
            unfold ulAction at e1
            simp only [hst] at e1
            cases e1; exact ⟨hff, rfl⟩
          · cases e1; exact ⟨hff, rfl⟩
        rw [b1] at e1; cases e1
        have f := ulDispatch_facts b1 ht
        refine ⟨f.ulAck, f.rx, f.n3101, f.n3103, ?_, b2.resolve_left (by simp [b3.1])⟩
        rcases f.st with h | h
        · exact h
        · rcases UlMove.ev_cases h with ⟨_, _, h | h⟩ | ⟨_, _, h | h⟩ | ⟨_, _, h⟩ | ⟨_, _, h⟩ | ⟨_, _, h⟩ <;> cases h
      · cases e1; exact ⟨rfl, rfl, rfl, rfl, rfl, ht⟩
    obtain ⟨k1, k2, k3, k4, k5, k6⟩ := a1
    have a2 : s2.ulAck = s.ulAck ∧ s2.rx = s.rx + 1 ∧ s2.n3101 = 0 ∧
        s2.n3103 = bump s.n3103 (if s.st = .flow ∧ c = true ∧ v = true then some .ok else none) ∧
        (s2.st = s.st ∨ (v = true ∧ s.st = .flow ∧ s2.st = .finished)) := by
      rw [k5] at e2
      split at e2
      · rename_i hc
        rw [if_pos hc]
        obtain ⟨s3, e3, e4⟩ := Option.map_eq_some_iff.1 e2
        cases e4
        have f := ulDispatch_facts e3 k6
        refine ⟨f.ulAck.trans k1, f.rx.trans k2, f.n3101.trans k3, rfl, ?_⟩
        rcases f.st with h | h
        · exact .inl (h.trans k5)
        · rcases UlMove.ev_cases h with ⟨_, _, h | h⟩ | ⟨_, _, h | h⟩ | ⟨_, h, _⟩ | ⟨_, _, h⟩ | ⟨_, _, h⟩ <;>
            first | cases h; done | exact .inr ⟨hc.2.2, hc.1, h⟩
      · rename_i hc
        rw [if_neg hc]
        cases e2
        exact ⟨k1, k2, k3, k4, .inl k5⟩
    obtain ⟨j1, j2, j3, j4, j5⟩ := a2
    have hrx : s.rx + ulTakes s (.data f c v r) = s.rx + 1 := by simp [ulTakes, hff, hr]
    obtain ⟨b, hb1, hb2, hb3⟩ := ulAck_sched s2.ulAck
    split at hs
    · rw [hb1] at hs; cases hs
      refine ⟨by rw [o1]; exact j3, by rw [o3]; exact j4, by rw [hrx]; exact j2, fun _ h => .inr ⟨fun _ => hb2, fun w => ?_⟩⟩
      have hw := hb3 w
      rw [j1] at hw
      have := (h.resolve_left hf).2 hw
      rcases j5 with j5 | ⟨_, _, j5⟩
      · show s2.st = _ ∨ s2.st = _
        rw [j5]; exact this
      · exact .inl j5
    · rename_i hq
      cases hs
      refine ⟨by rw [o1]; exact j3, by rw [o3]; exact j4, by rw [hrx]; exact j2, fun _ h => .inr ?_⟩
      rcases j5 with j5 | ⟨j5, _⟩
      · rw [j5, j1]; exact h.resolve_left hf
      · simp [j5] at hq
  | pollTimeout r =>
    cases r with
    | dlAck => cases hs
    | ulAck =>
      simp only [ulPollTimeout] at hs
      split at hs
      · rename_i hw; cases hs
        refine ⟨by rw [o1]; rfl, ?_, rfl, fun _ h => h⟩
        rw [o3]; show _ = bump _ (if _ then _ else _); rw [if_neg (fun h => hw h.1)]; rfl
      rename_i hw
      have hw := Decidable.byContradiction hw
      split at hs
      · rename_i hst
        have o3' : outcome3103 s (.pollTimeout .ulAck) = some .fail := by
          rw [o3]; exact if_pos ⟨hw, hst⟩
        split at hs
        · have f := disp hs rfl rfl
          exact ⟨by rw [o1]; exact f.n3101, by rw [o3']; exact f.n3103, f.rx,
            fun h1 h2 => f.fin nofun h2⟩
        · rw [hw] at hs
          cases (show some _ = some s' from hs)
          exact ⟨by rw [o1]; rfl, by rw [o3']; rfl, rfl, fun _ h => .inr ⟨nofun, nofun⟩⟩
      · rename_i hst
        have o3' : outcome3103 s (.pollTimeout .ulAck) = none := by
          rw [o3]; exact if_neg fun h => hst h.2
        rw [hw] at hs
        cases (show some _ = some s' from hs)
        exact ⟨by rw [o1]; rfl, by rw [o3']; rfl, rfl, fun _ h => .inr ⟨nofun, nofun⟩⟩
    | ulAss =>
      simp only [ulPollTimeout] at hs
      split at hs
      · cases hs; exact ⟨by rw [o1]; rfl, by rw [o3]; rfl, rfl, fun _ h => h⟩
      obtain ⟨u, _, hs⟩ := Option.map_eq_some_iff.1 hs; cases hs
      exact ⟨by rw [o1]; rfl, by rw [o3]; rfl, rfl, fun _ h => h⟩
    | dlAss =>
      simp only [ulPollTimeout] at hs
      split at hs
      · cases hs; exact ⟨by rw [o1]; rfl, by rw [o3]; rfl, rfl, fun _ h => h⟩
      obtain ⟨u, _, hs⟩ := Option.map_eq_some_iff.1 hs; cases hs
      exact ⟨by rw [o1]; rfl, by rw [o3]; rfl, rfl, fun _ h => h⟩
  | ctrlAck r t =>
    cases r with
    | dlAck => cases hs; exact ⟨by rw [o1]; rfl, by rw [o3]; rfl, rfl, fun _ h => h⟩
    | ulAck =>
      simp only [ulCtrlAck] at hs
      split at hs
      · cases hs; exact ⟨by rw [o1]; rfl, by rw [o3]; rfl, rfl, fun _ h => h⟩
      rename_i hw
      have hw := Decidable.byContradiction hw
      obtain ⟨a, ha, hs⟩ := Option.bind_eq_some_iff.1 hs
      rw [hw] at ha
      cases (show some UlAck.idle = some a from ha)
      split at hs
      · rename_i hst
        obtain ⟨st, ccch, pacch, tmr, cr, t3141, uk, ua, da, n1, n3, rx, fr⟩ := s
        simp only at hst
        subst hst
        cases (show some _ = some s' from hs)
        exact ⟨by rw [o1]; rfl, by rw [o3]; rfl, rfl, fun _ _ => .inl rfl⟩
      · rename_i hst
        cases hs
        exact ⟨by rw [o1]; rfl, by rw [o3]; rfl, rfl, fun _ h => .inr ⟨fun x => absurd x hst, nofun⟩⟩
    | ulAss =>
      simp only [ulCtrlAck] at hs
      split at hs
      · cases hs; exact ⟨by rw [o1]; rfl, by rw [o3]; rfl, rfl, fun _ h => h⟩
      obtain ⟨u, _, hs⟩ := Option.bind_eq_some_iff.1 hs
      split at hs
      · obtain ⟨s1, e1, hs⟩ := Option.bind_eq_some_iff.1 hs
        have f := ulDispatch_facts e1 ht
        split at hs
        · obtain ⟨d, _, hs⟩ := Option.map_eq_some_iff.1 hs; cases hs
          exact ⟨by rw [o1]; exact f.n3101, by rw [o3]; exact f.n3103, f.rx,
            fun _ h2 => f.fin nofun h2⟩
        · cases hs
          exact ⟨by rw [o1]; exact f.n3101, by rw [o3]; exact f.n3103, f.rx,
            fun _ h2 => f.fin nofun h2⟩
      · cases hs; exact ⟨by rw [o1]; rfl, by rw [o3]; rfl, rfl, fun _ h => h⟩
    | dlAss =>
      simp only [ulCtrlAck] at hs
      split at hs
      · cases hs; exact ⟨by rw [o1]; rfl, by rw [o3]; rfl, rfl, fun _ h => h⟩
      obtain ⟨u, _, hs⟩ := Option.map_eq_some_iff.1 hs; cases hs
      exact ⟨by rw [o1]; rfl, by rw [o3]; rfl, rfl, fun _ h => h⟩
  | pktResReq =>
    obtain ⟨s1, e1, hs⟩ := Option.map_eq_some_iff.1 hs; cases hs
    have f := ulDispatch_facts e1 ht
    exact ⟨by rw [o1]; exact f.n3101, by rw [o3]; exact f.n3103, f.rx, fun _ _ => .inl rfl⟩
  | createAck m t =>
    simp only [ulCreateAck] at hs
    obtain ⟨a, ha, hs⟩ := Option.bind_eq_some_iff.1 hs
    have key : UlFin s → UlFin { s with ulAck := a } := by
      intro h
      have h := h.resolve_left hf
      have g : (s.st = .finished → s.ulAck ≠ .idle → a ≠ .idle) ∧
          (a = .wait → s.ulAck = .wait ∨ s.st = .finished) := by
        revert ha
        cases s.ulAck <;> cases s.st <;> cases m <;> intro ha <;>
          (cases (show some _ = some a from ha); decide)
      refine .inr ⟨fun x => g.1 x (h.1 x), fun w => ?_⟩
      rcases g.2 w with x | x
      · exact h.2 x
      · exact .inl x
    split at hs
    · have f := disp hs rfl rfl
      exact ⟨by rw [o1]; exact f.n3101, by rw [o3]; exact f.n3103, f.rx,
        fun _ h2 => f.fin nofun (key h2)⟩
    · cases hs
      exact ⟨by rw [o1]; rfl, by rw [o3]; rfl, rfl, fun _ h => key h⟩
  | createDl m =>
    obtain ⟨d, _, hs⟩ := Option.map_eq_some_iff.1 hs; cases hs
    exact ⟨by rw [o1]; rfl, by rw [o3]; rfl, rfl, fun _ h => h⟩
  | createUl m =>
    obtain ⟨d, _, hs⟩ := Option.map_eq_some_iff.1 hs; cases hs
    exact ⟨by rw [o1]; rfl, by rw [o3]; rfl, rfl, fun _ h => h⟩
  | schedDl =>
    obtain ⟨d, _, hs⟩ := Option.map_eq_some_iff.1 hs; cases hs
    exact ⟨by rw [o1]; rfl, by rw [o3]; rfl, rfl, fun _ h => h⟩
  | schedUl =>
    obtain ⟨d, _, hs⟩ := Option.map_eq_some_iff.1 hs; cases hs
    exact ⟨by rw [o1]; rfl, by rw [o3]; rfl, rfl, fun _ h => h⟩
  | schedRej =>
    obtain ⟨d, _, hs⟩ := Option.map_eq_some_iff.1 hs; cases hs
    exact ⟨by rw [o1]; rfl, by rw [o3]; rfl, rfl, fun _ h => h⟩
  | abortDl =>
    obtain ⟨d, _, hs⟩ := Option.map_eq_some_iff.1 hs; cases hs
    exact ⟨by rw [o1]; rfl, by rw [o3]; rfl, rfl, fun _ h => h⟩
  | free => cases hs; exact ⟨by rw [o1]; rfl, by rw [o3]; rfl, rfl, fun _ _ => .inl rfl⟩

/-- An uplink TBF in data transfer is given up by N3101 exactly when a failure reaches
the limit. -/
theorem ulStep_giveUp3101 (lim : Lim) (s s' : Ul) (op : UlOp) (env : Env) (hi : UlInv s)
    (ho : UlOk op) (hm : op ≠ .ev .maxN3101) (hf : s.freed = false) (ha : s.st = .flow)
    (hs : ulStep lim s op env = some s') :
    s'.st = .releasing ↔ outcome3101 s op = some .fail ∧ (s.n3101 + 1) % 256 = lim.n3101 := by
  constructor
  · intro hr
    obtain ⟨s1, a, _, b⟩ := ulStep_ok lim s op env hi ho
    rw [a] at hs; cases hs
    rw [hr, ha] at b
    have hu : op = .usfTimeout := by
      rcases b with b | b
      · cases b
      · cases b with
        | n3101 h => exact h.resolve_left hm
    subst hu
    unfold ulStep at a
    rw [if_neg (by simp [hf])] at a
    simp only [ulUsfTimeout] at a
    unfold outcome3101
    rw [if_neg (by simp [hf])]
    split at a
    · rename_i hh; exact ⟨rfl, by simpa [nInc] using hh⟩
    · cases a; rw [ha] at hr; cases hr
  · rintro ⟨h1, h2⟩
    have hu : op = .usfTimeout := by
      unfold outcome3101 at h1
      rw [if_neg (by simp [hf])] at h1
      cases op <;> first | rfl | (simp only at h1; cases h1)
    subst hu
    unfold ulStep at hs
    rw [if_neg (by simp [hf])] at hs
    have hh : (nInc lim.n3101 s.n3101).2 = true := by simp [nInc, h2]
    simp only [ulUsfTimeout, hh, if_true] at hs
    obtain ⟨st, ccch, pacch, tmr, cr, t3141, uk, ua, da, n1, n3, rx, fr⟩ := s
    simp only at ha
    subst ha
    cases (show some _ = some s' from hs)
    rfl

/-- An uplink TBF whose data is complete is given up by N3103 exactly when a failure
reaches the limit. -/
theorem ulStep_giveUp3103 (lim : Lim) (s s' : Ul) (op : UlOp) (env : Env) (hi : UlInv s)
    (ho : UlOk op) (hm : op ≠ .ev .maxN3103) (hf : s.freed = false) (ha : s.st = .finished)
    (hs : ulStep lim s op env = some s') :
    s'.st = .releasing ↔ outcome3103 s op = some .fail ∧ (s.n3103 + 1) % 256 = lim.n3103 := by
  constructor
  · intro hr
    obtain ⟨s1, a, _, b⟩ := ulStep_ok lim s op env hi ho
    rw [a] at hs; cases hs
    rw [hr, ha] at b
    have hu : op = .pollTimeout .ulAck := by
      rcases b with b | b
      · cases b
      · cases b with
        | n3103 h => exact h.resolve_left hm
    subst hu
    unfold ulStep at a
    rw [if_neg (by simp [hf])] at a
    simp only [ulPollTimeout] at a
    unfold outcome3103
    rw [if_neg (by simp [hf])]
    split at a
    · cases a; rw [ha] at hr; cases hr
    rename_i hw
    have hw := Decidable.byContradiction hw
    split at a
    · rename_i hh; exact ⟨if_pos ⟨hw, ha⟩, by simpa [nInc] using hh⟩
    · obtain ⟨_, _, a⟩ := Option.map_eq_some_iff.1 a
      cases a; have := ha.symm.trans hr; cases this
  · rintro ⟨h1, h2⟩
    have hu : op = .pollTimeout .ulAck ∧ s.ulAck = .wait := by
      unfold outcome3103 at h1
      rw [if_neg (by simp [hf])] at h1
      cases op with
      | pollTimeout r =>
        cases r with
        | ulAck =>
          refine ⟨rfl, ?_⟩
          simp only at h1
          split at h1
          · rename_i h; exact h.1
          · cases h1
        | _ => cases h1
      | data f c v r => simp only at h1; split at h1 <;> cases h1
      | _ => cases h1
    obtain ⟨hu, hw⟩ := hu
    subst hu
    unfold ulStep at hs
    rw [if_neg (by simp [hf])] at hs
    have hh : (nInc lim.n3103 s.n3103).2 = true := by simp [nInc, h2]
    simp only [ulPollTimeout, hh, if_true, if_pos ha, if_neg (not_not_intro hw)] at hs
    obtain ⟨st, ccch, pacch, tmr, cr, t3141, uk, ua, da, n1, n3, rx, fr⟩ := s
    simp only at ha
    subst ha
    cases (show some _ = some s' from hs)
    rfl

end Verif.Tbf
