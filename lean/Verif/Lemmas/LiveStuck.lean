import Verif.Lemmas.LiveDlEff

/-! No assertion fails; and an uplink TBF that waits for ever. -/

namespace Verif.Live
open Verif.Tbf Verif.LiveSpec Verif.TbfSpec

/-- Uplink TBFs are polled for what an uplink TBF answers, downlink TBFs for what they answer. -/
def Kinds (p : Pd) : Prop :=
  (∀ b, ∀ n ∈ p.of (.ul b), n.kind ≠ some .dlAck) ∧ ∀ b, ∀ n ∈ p.of (.dl b), n.kind ≠ some .ulAck

theorem Kinds.step {c : Cfg} {p q : Pd} {op : Op} {env : Env} (hp : Sep p) (hk : Kinds p)
    (h : step c p op env = some q) : Kinds q := by
  refine ⟨fun b n hn => ?_, fun b n hn => ?_⟩
  · cases ul_eff hp h b with
    | none _ e2 _ => exact hk.1 b n (e2 ▸ hn)
    | lost fn m _ e2 _ _ _ => exact hk.1 b n (List.mem_filter.1 (e2 ▸ hn)).1
    | new ccch s _ _ _ ha =>
      unfold UlAfter at ha
      split at ha
      · rw [ha.2] at hn; cases hn
      · exact hk.1 b n (ha.2 ▸ hn)
    | grant fn s _ _ _ e2 _ =>
      rw [e2] at hn
      rcases List.mem_cons.1 hn with rfl | hn
      · nofun
      · exact hk.1 b n hn
    | did s o s' N _ _ ha hv _ =>
      unfold UlAfter at ha
      split at ha
      · rw [ha.2] at hn; cases hn
      · rw [ha.2] at hn
        cases hv <;> first
          | exact hk.1 b n hn
          | exact hk.1 b n (List.mem_filter.1 hn).1
          | (rcases List.mem_cons.1 hn with rfl | hn
             · nofun
             · exact hk.1 b n hn)
  · cases dl_eff hp h b with
    | none _ e2 _ => exact hk.2 b n (e2 ▸ hn)
    | lost fn m _ e2 _ _ _ => exact hk.2 b n (List.mem_filter.1 (e2 ▸ hn)).1
    | new ccch upg s _ _ _ ha =>
      unfold DlAfter at ha
      split at ha
      · rw [ha.2] at hn; cases hn
      · exact hk.2 b n (ha.2 ▸ hn)
    | poll fn s _ _ e2 _ =>
      rw [e2] at hn
      rcases List.mem_cons.1 hn with rfl | hn
      · nofun
      · exact hk.2 b n hn
    | did s o s' N _ _ ha hv _ =>
      unfold DlAfter at ha
      split at ha
      · rw [ha.2] at hn; cases hn
      · rw [ha.2] at hn
        cases hv <;> first
          | exact hk.2 b n hn
          | (cases hn; done)
          | exact hk.2 b n (List.mem_filter.1 hn).1
          | (rcases List.mem_cons.1 hn with rfl | hn
             · nofun
             · exact hk.2 b n hn)

theorem doUl_total {c : Cfg} {p : Pd} (hu : ∀ b s, p.ul b = some s → UlLink s) (b : Nat) {o : UlOp}
    (env : Env) (ho : UlOk o) : ∃ q, doUl c p b o env = some q := by
  unfold doUl
  cases h : p.ul b with
  | none => exact ⟨_, rfl⟩
  | some s =>
    obtain ⟨s1, a, _⟩ := ulStep_ok c.ul s o env (hu b s h).inv ho
    exact ⟨_, by simp only [a, Option.map_some]; rfl⟩

theorem doDl_total {c : Cfg} {p : Pd} (hu : ∀ b s, p.dl b = some s → DlLink s) (b : Nat) {o : DlOp}
    (env : Env) (ho : DlOk o) : ∃ q, doDl c p b o env = some q := by
  unfold doDl
  cases h : p.dl b with
  | none => exact ⟨_, rfl⟩
  | some s =>
    obtain ⟨s1, a, _⟩ := dlStep_ok c.n3105 s o env (hu b s h).inv ho
    exact ⟨_, by simp only [a, Option.map_some]; rfl⟩

theorem step_total {c : Cfg} {p : Pd} (hu : UInv p) (hd : DInv p) (hk : Kinds p) (op : Op)
    (env : Env) : ∃ q, step c p op env = some q := by
  have same : ∃ q, some p = some q := ⟨p, rfl⟩
  have ul : ∀ b s, p.ul b = some s → UlLink s := fun b s h => (hu.tbf b s h).link
  have U : ∀ (p1 : Pd) b o, p1.ul = p.ul → UlOk o → ∃ q, doUl c p1 b o env = some q :=
    fun p1 b o e ho => doUl_total (by rw [e]; exact ul) b env ho
  have D : ∀ (p1 : Pd) b o, p1.dl = p.dl → DlOk o → ∃ q, doDl c p1 b o env = some q :=
    fun p1 b o e ho => doDl_total (by rw [e]; exact hd.tbf) b env ho
  have dn : ∀ o : DlOp, (∀ r, o ≠ .pollTimeout r) → (∀ r x, o ≠ .ctrlAck r x) → DlOk o :=
    fun o h1 h2 => ⟨h1 _, fun a => h2 _ a⟩
  cases op with
  | newUl b ccch =>
    simp only [step]
    split
    · cases ccch <;> exact ⟨_, rfl⟩
    · exact same
  | newDl b ccch upg =>
    simp only [step]
    split
    · cases ccch <;> exact ⟨_, rfl⟩
    · exact same
  | ul b o =>
    simp only [step]
    split
    · next hl => exact U p b o rfl (by rintro rfl; simp [ulLocal] at hl)
    · exact same
  | dl b o =>
    simp only [step]
    split
    · exact same
    · split
      · next hl =>
        have : DlOk o := dn o (by rintro r rfl; simp [dlLocal] at hl)
          (by rintro r x rfl; simp [dlLocal] at hl)
        split
        · exact D _ b o rfl this
        · exact D _ b o rfl this
      · exact same
  | grant b fn =>
    simp only [step]
    split
    · exact same
    · split
      · exact ⟨_, rfl⟩
      · exact same
  | sendAck b fn tlli =>
    simp only [step]
    split
    · exact same
    · split
      · exact same
      · split
        · split
          · exact U _ b _ rfl nofun
          · exact same
        · exact U _ b _ rfl nofun
  | ulSendDl b fn =>
    simp only [step]
    split
    · exact same
    · split
      · exact U _ b _ rfl nofun
      · exact same
  | ulSendUl b fn =>
    simp only [step]
    split
    · exact same
    · split
      · exact U _ b _ rfl nofun
      · split
        · exact U _ b _ rfl nofun
        · exact same
  | dlSendDl b fn =>
    simp only [step]
    split
    · exact same
    · split
      · exact D _ b _ rfl (dn _ nofun nofun)
      · exact same
  | dlSendUl b fn =>
    simp only [step]
    split
    · exact same
    · split
      · exact D _ b _ rfl (dn _ nofun nofun)
      · split
        · exact D _ b _ rfl (dn _ nofun nofun)
        · exact same
  | dlPoll b fn =>
    simp only [step]
    split
    · exact same
    · split
      · exact ⟨_, rfl⟩
      · exact same
  | recv fn m =>
    simp only [step]
    unfold recv
    repeat' split
    all_goals first
      | exact same
      | exact ⟨_, rfl⟩
      | exact U _ _ _ rfl nofun
      | (next hc => exact D _ _ _ rfl ⟨nofun, fun a x => by
          cases x; rcases hc with hc | hc <;> cases hc.1⟩)
      | exact D _ _ _ rfl (dn _ nofun nofun)
  | expire fn =>
    simp only [step]
    unfold expire
    cases hn : p.node fn with
    | none => exact same
    | some n =>
      have hm := node_some hn
      dsimp only
      cases ho : n.own with
      | ul b =>
        cases hkd : n.kind with
        | none => exact U _ b _ rfl nofun
        | some r =>
          refine U _ b _ rfl ?_
          intro x; cases x
          exact hk.1 b n (mem_of.2 ⟨hm.1, ho⟩) hkd
      | dl b =>
        cases hkd : n.kind with
        | none => exact ⟨_, rfl⟩
        | some r =>
          refine D _ b _ rfl ⟨?_, nofun⟩
          intro x; cases x
          exact hk.2 b n (mem_of.2 ⟨hm.1, ho⟩) hkd

theorem run_total {c : Cfg} (h1 : c.ul.n3101 < 256) (h3 : c.ul.n3103 < 256) (hl : c.n3105 < 256)
    (ops : List (Op × Env)) (p : Pd) (hu : UInv p) (hd : DInv p) (hk : Kinds p) :
    ∃ q, run c p ops = some q := by
  induction ops generalizing p with
  | nil => exact ⟨p, rfl⟩
  | cons x r ih =>
    obtain ⟨op, env⟩ := x
    obtain ⟨p1, h⟩ := step_total (c := c) hu hd hk op env
    obtain ⟨q, hq⟩ := ih p1 (hu.step h1 h3 h) (hd.step hl h) (hk.step hu.sep h)
    exact ⟨q, by rw [run, h]; exact hq⟩

/-- An uplink TBF waits, and nothing it waits for can come about. -/
def Dead (s : Ul) : Prop :=
  s.st = .finished ∧ s.ulAck = .wait ∧ s.tmr = none ∧ s.ulAss.st = .idle ∧ s.ulAss.tmr = none ∧
    s.t3141 = false ∧ s.freed = false

/-- What would wake it up. -/
def wakes : UlOp → Bool
  | .free => true
  | .schedUl => true
  | .schedRej => true
  | .pktResReq => true
  | .pollTimeout r => r != .dlAss
  | .ctrlAck r _ => r != .dlAss
  | .usfTimeout => true
  | .ev e => e != .ackPacch
  | .createAck m _ => m
  | _ => false

theorem dead_step {lim : Lim} {s s' : Ul} {o : UlOp} {env : Env} (h : Dead s)
    (ho : wakes o = false) (hs : ulStep lim s o env = some s') : Dead s' := by
  obtain ⟨h1, h2, h3, h4, h5, h6, h7⟩ := h
  unfold ulStep at hs
  rw [if_neg (by rw [h7]; decide)] at hs
  cases o with
  | free => cases ho
  | schedUl => cases ho
  | schedRej => cases ho
  | pktResReq => cases ho
  | usfTimeout => cases ho
  | ev e =>
    have : e = .ackPacch := by
      cases e <;> first | rfl | (exact absurd ho (by decide))
    subst this
    change ulDispatch env s .ackPacch = some s' at hs
    unfold ulDispatch at hs
    rw [if_neg (by rw [h1]; decide)] at hs
    cases hs; exact ⟨h1, h2, h3, h4, h5, h6, h7⟩
  | timer =>
    simp only [ulTimer, h3] at hs
    cases hs; exact ⟨h1, h2, h3, h4, h5, h6, h7⟩
  | uaTimer =>
    simp only [uaTimer, h5, Option.map_some] at hs
    cases hs; exact ⟨h1, h2, h3, h4, rfl, h6, rfl⟩
  | t3141 =>
    simp only [h6] at hs
    cases hs; exact ⟨h1, h2, h3, h4, h5, h6, h7⟩
  | data f cm cv r =>
    simp only [ulData] at hs
    rw [if_neg (by rw [h1]; nofun)] at hs
    have hfirst : (if f then ulDispatch env { s with n3101 := 0, rx := s.rx + 1 } .firstUlData
        else some { s with n3101 := 0, rx := s.rx + 1 }) =
        some { s with n3101 := 0, rx := s.rx + 1 } := by
      cases f
      · rfl
      · rw [if_pos rfl]
        unfold ulDispatch
        rw [if_neg (by show ¬ ulIn s.st .firstUlData = true; rw [h1]; decide)]
    rw [hfirst, Option.bind_some,
      if_neg (by show ¬ (s.st = .flow ∧ _); rw [h1]; rintro ⟨x, _⟩; cases x)] at hs
    simp only [Option.bind_some] at hs
    split at hs
    · simp only [h2, UlAck.dispatch, UlAck.inMask] at hs
      cases hs; exact ⟨h1, rfl, h3, h4, h5, h6, h7⟩
    · cases hs; exact ⟨h1, h2, h3, h4, h5, h6, h7⟩
  | pollTimeout r =>
    have : r = .dlAss := by cases r <;> first | rfl | (exact absurd ho (by decide))
    subst this
    simp only [ulPollTimeout] at hs
    split at hs
    · cases hs; exact ⟨h1, h2, h3, h4, h5, h6, h7⟩
    · simp only [Option.map_eq_some_iff] at hs
      obtain ⟨d, _, hs⟩ := hs
      subst hs; exact ⟨h1, h2, h3, h4, h5, h6, h7⟩
  | ctrlAck r x =>
    have : r = .dlAss := by cases r <;> first | rfl | (cases ho)
    subst this
    simp only [ulCtrlAck] at hs
    split at hs
    · cases hs; exact ⟨h1, h2, h3, h4, h5, h6, h7⟩
    · simp only [Option.map_eq_some_iff] at hs
      obtain ⟨d, _, hs⟩ := hs
      subst hs; exact ⟨h1, h2, h3, h4, h5, h6, h7⟩
  | createAck m t =>
    have : m = false := ho
    subst this
    simp only [ulCreateAck, h2, UlAck.dispatch, UlAck.inMask] at hs
    cases hs; exact ⟨h1, rfl, h3, h4, h5, h6, h7⟩
  | createDl m =>
    simp only [Option.map_eq_some_iff] at hs
    obtain ⟨d, _, hs⟩ := hs
    subst hs; exact ⟨h1, h2, h3, h4, h5, h6, h7⟩
  | schedDl =>
    simp only [Option.map_eq_some_iff] at hs
    obtain ⟨d, _, hs⟩ := hs
    subst hs; exact ⟨h1, h2, h3, h4, h5, h6, h7⟩
  | abortDl =>
    simp only [Option.map_eq_some_iff] at hs
    obtain ⟨d, _, hs⟩ := hs
    subst hs; exact ⟨h1, h2, h3, h4, h5, h6, h7⟩
  | createUl m =>
    simp only [Option.map_eq_some_iff] at hs
    obtain ⟨d, hd, hs⟩ := hs
    have : d = s.ulAss := by
      simp [UlAss.dispatch, UaSt.inMask, h4] at hd
      exact hd.symm
    subst this; subst hs; exact ⟨h1, h2, h3, h4, h5, h6, h7⟩

/-- The TBF `b` is in that state, and was promised no block but for answers to assignments. -/
def DeadAt (b : Nat) (p : Pd) : Prop :=
  (∃ s, p.ul b = some s ∧ Dead s) ∧ ∀ n ∈ p.of (.ul b), n.kind = some .dlAss

theorem DeadAt.step {c : Cfg} {b : Nat} {p q : Pd} {op : Op} {env : Env} (hp : Sep p)
    (hd : DeadAt b p) (ho : op ≠ .ul b .free ∧ op ≠ .ul b .schedUl ∧ op ≠ .ul b .schedRej)
    (h : step c p op env = some q) : DeadAt b q := by
  obtain ⟨⟨s, hs, hds⟩, hn⟩ := hd
  cases ul_eff hp h b with
  | none e1 e2 _ => exact ⟨⟨s, e1 ▸ hs, hds⟩, fun n hm => hn n (e2 ▸ hm)⟩
  | lost fn m e1 e2 _ _ _ =>
    exact ⟨⟨s, e1 ▸ hs, hds⟩, fun n hm => hn n (List.mem_filter.1 (e2 ▸ hm)).1⟩
  | new ccch s _ hx _ _ => rw [hs] at hx; cases hx
  | grant fn s1 e0 est _ _ _ =>
    rw [hs] at e0; cases e0
    rw [hds.1] at est; cases est
  | did s1 o s' N e0 e1 ha hv _ =>
    rw [hs] at e0; cases e0
    have key : wakes o = false ∧ ∀ n ∈ N, n.kind = some .dlAss := by
      cases hv with
      | loc _ h1 h2 h3 =>
        refine ⟨?_, hn⟩
        cases o <;> first
          | rfl
          | (simp [ulLocal] at h1; done)
          | (exact absurd h3 ho.1)
          | (exact absurd h3 ho.2.1)
          | (exact absurd h3 ho.2.2)
          | skip
        · simpa [ulLocal, wakes] using h1
        · next m t => simp only [ulLocal] at h1; simpa [wakes] using h1
      | ack t h1 h2 => exact absurd hds.1 h1
      | rej => exact ⟨rfl, hn⟩
      | data => exact ⟨rfl, hn⟩
      | used fn n _ _ _ _ _ h1 h2 h3 => rw [hn n h1] at h3; cases h3
      | usf fn n h1 h2 h3 => rw [hn n h1] at h3; cases h3
      | upgrade fn n h1 h2 h3 => rw [hn n h1] at h3; cases h3
      | miss fn n r h1 h2 h3 =>
        rw [hn n h1] at h3; cases h3
        exact ⟨rfl, fun m hm => hn m (List.mem_filter.1 hm).1⟩
      | answer fn n r x h1 h2 h3 h4 =>
        rw [hn n h1] at h3; cases h3
        exact ⟨rfl, fun m hm => hn m (List.mem_filter.1 hm).1⟩
      | again fn n h1 h2 h3 => rw [hn n h1] at h3; cases h3
      | final fn t h1 h2 => rw [hds.2.1] at h2; cases h2
      | sentDl fn =>
        refine ⟨rfl, fun m hm => ?_⟩
        rcases List.mem_cons.1 hm with rfl | hm
        · rfl
        · exact hn m hm
      | sentUl fn h1 => rw [hds.2.2.2.1] at h1; cases h1
    have hd' := dead_step hds key.1 e1
    unfold UlAfter at ha
    rw [if_neg (by rw [hd'.2.2.2.2.2.2]; decide)] at ha
    exact ⟨⟨s', ha.1, hd'⟩, fun n hm => key.2 n (ha.2 ▸ hm)⟩

end Verif.Live
